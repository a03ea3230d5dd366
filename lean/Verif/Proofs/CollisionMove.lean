import Verif.Proofs.Collision
import Verif.Proofs.RegistryMove
import Verif.Proofs.Oom
import Verif.Proofs.Progress
import Verif.Proofs.Width
/-!
# Adding and removing components when the new component set collides with that of an archetype

Nothing is assumed about the new set but that an archetype has its number of components and its archetype id.
-/

set_option autoImplicit false

namespace Shard

open Archetype

variable {env : Env} {W : World env} {a b : Archetype} {ct ctD : Content}

/-! ## The destination archetype -/

theorem forRange_keeps {σ : Type} {f : Nat → σ → M σ} (P : σ → Prop) (hf : ∀ i s s', f i s = .ok s' → P s → P s') :
    ∀ (n lo : Nat) (s s' : σ), forRange lo n f s = .ok s' → P s → P s'
  | 0, _, _, _, h, hp => by cases h; exact hp
  | n + 1, lo, s, s', h, hp => by
    simp only [forRange] at h
    cases h1 : f lo s with
    | error e => rw [h1] at h; cases h
    | ok t => rw [h1] at h; exact forRange_keeps P hf n (lo + 1) t s' h (hf _ _ _ h1 hp)

/-- A column whose id the source does not have is not touched. -/
theorem copyCommon_untouched {src dst dst' : Archetype} {k n i : Nat} {d : ComponentDescriptor}
    (h : copyCommonComponents src k dst n = .ok dst') (hd : dst.descriptor.components[i]? = some d)
    (hn : ∀ sc ∈ src.descriptor.components, sc.id ≠ d.id) : dst'.pointers[i]? = dst.pointers[i]? := by
  unfold copyCommonComponents at h
  cases h1 : forRange 0 src.descriptor.components.length (fun si ptrs => do
    let sc ← index src.descriptor.components si
    copyCommonInner src k dst n si sc ptrs) dst.pointers with
  | error e => rw [h1] at h; cases h
  | ok ptrs =>
    rw [h1] at h
    cases h
    show ptrs[i]? = _
    refine forRange_keeps (fun p => p[i]? = dst.pointers[i]?) ?_ _ _ _ _ h1 rfl
    intro si s s' hs hp
    cases h2 : index src.descriptor.components si with
    | error e => rw [h2] at hs; cases hs
    | ok sc =>
      rw [h2] at hs
      simp only [ok_bind] at hs
      have hsc : sc ∈ src.descriptor.components := List.mem_of_getElem? (getElem?_of_index h2)
      unfold copyCommonInner at hs
      refine forRange_keeps (fun p => p[i]? = dst.pointers[i]?) ?_ _ _ _ _ hs hp
      intro di t t' ht hp'
      cases h3 : index dst.descriptor.components di with
      | error e => rw [h3] at ht; cases ht
      | ok dc =>
        rw [h3] at ht
        simp only [ok_bind] at ht
        split at ht
        · cases ht; exact hp'
        · next hid =>
          have hne : di ≠ i := by
            rintro rfl
            have := getElem?_of_index h3
            rw [hd] at this
            cases this
            exact hn sc hsc (Classical.not_not.mp hid)
          cases h4 : index src.pointers si with
          | error e => rw [h4] at ht; cases ht
          | ok sp =>
            rw [h4] at ht
            cases h5 : index t di with
            | error e => rw [h5] at ht; cases ht
            | ok dp =>
              rw [h5] at ht
              simp only [ok_bind] at ht
              cases h6 : readBytes sp (sc.size * k) sc.size with
              | error e => rw [h6] at ht; cases ht
              | ok bs =>
                rw [h6] at ht
                simp only [ok_bind] at ht
                cases h7 : writeBytes dp (dc.size * n) bs with
                | error e => rw [h7] at ht; cases ht
                | ok q =>
                  rw [h7] at ht
                  simp only [ok_bind] at ht
                  unfold setIndex at ht
                  split at ht
                  · cases ht
                    rw [List.getElem?_set_ne hne]; exact hp'
                  · cases ht

/-- The columns when there is room for a row. -/
theorem Rep.resize_columns (h : Rep W a ct) (hlt : ct.ents.length < 8388608) {a' : Archetype}
    (hr : a.resizeIfNecessary env = .ok a') :
    (ct.ents.length < a.capacity → a' = a) ∧
    (ct.ents.length = a.capacity → ∀ i, i < ct.cts.length → a'.pointers[i]? = (a.pointers[i]?).map (Option.map Block.dbl)) := by
  have hpos := h.cap.pos
  have hcnt := h.count
  have hpl := h.cols.ptrs_len
  have hcl := h.cols.cts_le
  unfold Archetype.resizeIfNecessary Archetype.isFull at hr
  constructor
  · intro hf
    rw [if_neg (by rw [hcnt]; simp; omega)] at hr
    cases hr; rfl
  · intro hf
    have hM : MAX_ENTITIES_PER_ARCHETYPE = 16777215 := rfl
    obtain ⟨hcap, hcap'⟩ := h.cap.double (by omega)
    rw [if_pos (by rw [hcnt, hf]; simp), if_neg (by omega)] at hr
    unfold Archetype.resizeCapacity at hr
    simp only [] at hr
    rw [if_neg (by omega)] at hr
    obtain ⟨l, hl, hll, hle2⟩ := h.ents.arr
    rw [hl] at hr
    simp only [] at hr
    rw [if_neg (by simp [hll])] at hr
    have htn : ((a.capacity : Int) + (a.capacity : Int)).toNat = 2 * a.capacity := by omega
    rw [htn] at hr
    obtain ⟨s, s1, s2, s3⟩ := forRange_inv
      (f := fun i ptrs => do
        let p ← index ptrs i
        let c ← index a.descriptor.components i
        let b ← reallocBlock env p (c.size * a.capacity) c.align (c.size * (2 * a.capacity))
        setIndex ptrs i (some b))
      (fun i s => s.length = 14 ∧ ∀ j, s[j]? = if j < i then (a.pointers[j]?).map (Option.map Block.dbl) else a.pointers[j]?)
      ct.cts.length 0 a.pointers ⟨hpl, fun j => by rw [if_neg (by omega)]⟩ (by
        rintro i s _ hi ⟨hs, hs'⟩
        have hci := List.getElem?_eq_getElem (show i < ct.cts.length by omega)
        have hW := h.desc.world_of hci
        obtain ⟨vs, b, q1, q2, q3, q4⟩ := h.column hci
        have hp : s[i]? = some (some b) := by rw [hs', if_neg (by omega), q2]
        rw [index_of_getElem? hp, h.desc.index_comp hci]
        simp only [ok_bind, W.desc_size hW, W.desc_align hW]
        rw [reallocBlock_dbl q3 hpos (W.zst hW)]
        simp only [ok_bind]
        rw [setIndex_lt (by omega)]
        refine ⟨_, rfl, by simpa using hs, fun j => ?_⟩
        rw [List.getElem?_set]
        by_cases hij : i = j
        · subst hij
          rw [if_pos rfl, if_pos (by omega), if_pos (by omega), q2]
          rfl
        · rw [if_neg hij, hs']
          by_cases hj : j < i
          · rw [if_pos hj, if_pos (by omega)]
          · rw [if_neg hj, if_neg (by omega)])
    unfold reallocColumns at hr
    rw [← h.desc.length, s1] at hr
    cases hr
    intro i hi
    show s[i]? = _
    rw [s3, if_pos (by omega)]

theorem getUnchecked_desc {d : ArchetypeDescriptor} {cts : List CompTy} (h : DescOK W d cts) (hd : a.descriptor = d) {i j : Nat}
    {c : CompTy} {p : Option Block} (hc : cts[i]? = some c) (hp : a.pointers[i]? = some p) :
    a.getComponentUnchecked c j = readVal p c.ty c.size c.align (c.size * j) := by
  unfold Archetype.getComponentUnchecked Archetype.componentRef
  rw [hd, h.search hc]
  simp only [ok_bind]
  unfold Archetype.readRef
  simp only []
  rw [index_of_getElem? hp]
  rfl

/-- A new cell of grown storage is not initialised. -/
theorem readVal_dbl {c : CompTy} {cap : Nat} {q : Block} {vs : List Val} (h : ColOK c cap q vs) (hs : 0 < c.size) (hcap : 0 < cap) :
    readVal (some q.dbl) c.ty c.size c.align (c.size * cap) = .error (.ub .uninit) := by
  have hb := h.dbl.bound (show cap < 2 * cap by omega)
  unfold readVal
  rw [h.dbl.aligned, readBytes_cell hb]
  simp only [ok_bind]
  have hcell : ∃ n, cell q.dbl c.size cap = List.replicate (n + 1) none := by
    refine ⟨c.size - 1, ?_⟩
    unfold cell Block.dbl
    simp only []
    rw [← h.size, List.drop_append_of_le_length (Nat.le_refl _), List.drop_length, List.nil_append, List.take_replicate,
      show c.size - 1 + 1 = min c.size q.bytes.length by rw [h.size]; have := Nat.le_mul_of_pos_right c.size hcap; omega]
  obtain ⟨n, hn⟩ := hcell
  rw [hn]
  rfl

/-- What the destination `b` has become: `val` tells the new row where it was written. -/
structure Landed (W : World env) (b b' : Archetype) (ctD : Content) (val : CompTy → Option Val) : Prop where
  desc : b'.descriptor = b.descriptor
  old : ∀ c ∈ ctD.cts, ∀ j, j < ctD.ents.length → b'.getComponentUnchecked c j = b.getComponentUnchecked c j
  row : ∀ c ∈ ctD.cts, ∀ v, val c = some v → b'.getComponentUnchecked c ctD.ents.length = .ok v
  stale : ∀ c ∈ ctD.cts, val c = none →
    (ctD.ents.length < b.capacity → b'.getComponentUnchecked c ctD.ents.length = b.getComponentUnchecked c ctD.ents.length) ∧
    (ctD.ents.length = b.capacity → 0 < c.size → b'.getComponentUnchecked c ctD.ents.length = .error (.ub .uninit))

theorem Landed.of (hD : Rep W b ctD) {b' : Archetype} {val : CompTy → Option Val} {cap : Nat} (hd : b'.descriptor = b.descriptor)
    (hcol : ∀ (i : Nat) (c : CompTy) (vs : List Val), ctD.cts[i]? = some c → ctD.cols[i]? = some vs →
      ∃ q, b'.pointers[i]? = some (some q) ∧ ColOK c cap q (vs ++ (val c).toList))
    (hst : ∀ (i : Nat) (c : CompTy), ctD.cts[i]? = some c → val c = none →
      (ctD.ents.length < b.capacity → b'.pointers[i]? = b.pointers[i]?) ∧
      (ctD.ents.length = b.capacity → b'.pointers[i]? = (b.pointers[i]?).map (Option.map Block.dbl))) :
    Landed W b b' ctD val := by
  have hidx : ∀ c ∈ ctD.cts, ∃ i, ctD.cts[i]? = some c := fun c hc => List.mem_iff_getElem?.mp hc
  refine ⟨hd, ?_, ?_, ?_⟩
  · intro c hc j hj
    obtain ⟨i, hi⟩ := hidx c hc
    obtain ⟨vs, q, h1, h2, h3, h4⟩ := hD.column hi
    obtain ⟨q', g1, g2⟩ := hcol i c vs hi h1
    have hv := List.getElem?_eq_getElem (show j < vs.length by omega)
    rw [getUnchecked_desc hD.desc hd hi g1, getUnchecked_desc hD.desc rfl hi h2,
      h3.read hv, g2.read ((List.getElem?_append_left (by omega)).trans hv)]
  · intro c hc v hv
    obtain ⟨i, hi⟩ := hidx c hc
    obtain ⟨vs, q, h1, h2, h3, h4⟩ := hD.column hi
    obtain ⟨q', g1, g2⟩ := hcol i c vs hi h1
    rw [getUnchecked_desc hD.desc hd hi g1]
    apply g2.read
    rw [hv, ← h4]
    simp
  · intro c hc hn
    obtain ⟨i, hi⟩ := hidx c hc
    obtain ⟨vs, q, h1, h2, h3, h4⟩ := hD.column hi
    obtain ⟨s1, s2⟩ := hst i c hi hn
    constructor
    · intro hlt
      rw [getUnchecked_desc hD.desc hd hi ((s1 hlt).trans h2), getUnchecked_desc hD.desc rfl hi h2]
    · intro hfull hs
      have := s2 hfull
      rw [h2] at this
      rw [getUnchecked_desc hD.desc hd hi this, hfull]
      exact readVal_dbl h3 hs hD.cap.pos

/-- Up to the copying of the common components. -/
theorem Rep.land {src : Archetype} {ctS : Content} (hD : Rep W b ctD) (hS : Rep W src ctS) {k : Nat} (hk : k < ctS.ents.length)
    (hlt : ctD.ents.length < 8388608) :
    ∃ d1 d2 l cap, b.pushUninitializedEntity env = .ok (d1, ctD.ents.length) ∧ d1.entityCount = ctD.ents.length + 1 ∧
      copyCommonComponents src k d1 ctD.ents.length = .ok d2 ∧ d2.descriptor = b.descriptor ∧
      d2.entityCount = ctD.ents.length + 1 ∧ d2.entityAssociations = some l ∧ ctD.ents.length + 1 ≤ l.length ∧
      ctD.ents.length < cap ∧ d2.pointers.length = 14 ∧
      (∀ (i : Nat) (c : CompTy) (vs : List Val), ctD.cts[i]? = some c → ctD.cols[i]? = some vs →
        ∃ q, d2.pointers[i]? = some (some q) ∧ ColOK c cap q (vs ++ (ctS.get c k).toList)) ∧
      ∀ (i : Nat) (c : CompTy), ctD.cts[i]? = some c → c ∉ ctS.cts →
        (ctD.ents.length < b.capacity → d2.pointers[i]? = b.pointers[i]?) ∧
        (ctD.ents.length = b.capacity → d2.pointers[i]? = (b.pointers[i]?).map (Option.map Block.dbl)) := by
  obtain ⟨d1, h1, h2, h3, h4, h5⟩ := hD.resizeIfNecessary_spec (env := env) hlt
  obtain ⟨z1, z2⟩ := hD.resize_columns hlt h1
  obtain ⟨ptrs, hp1, hp2⟩ := hS.copyCommon_spec hk (dst := { d1 with entityCount := d1.entityCount + 1 }) h2.desc h2.cols
    h2.lens h4
  obtain ⟨l, hl1, hl2, _⟩ := h2.ents.arr
  refine ⟨{ d1 with entityCount := d1.entityCount + 1 }, { d1 with pointers := ptrs, entityCount := d1.entityCount + 1 }, l, d1.capacity, ?_, ?_, hp1, h3,
    ?_, hl1, by omega, h4, hp2.ptrs_len, ?_, ?_⟩
  · unfold pushUninitializedEntity
    rw [h1]
    simp only [ok_bind, pure_eq_ok]
    rw [h2.count]
  · show d1.entityCount + 1 = _; rw [h2.count]
  · show d1.entityCount + 1 = _; rw [h2.count]
  · intro i c vs hc hvs
    have hil := (List.getElem?_eq_some_iff.mp hc).1
    have hx := List.getElem?_eq_getElem (show i < (copied ctS.cts ctS k ctD.cts ctD.cols).length by
      rw [copied_length hD.cols.cols_len]; exact hil)
    have hx2 := copied_getElem? hc hvs hx
    rw [hx2] at hx
    obtain ⟨q, hq, hok⟩ := hp2.col i c _ hc hx
    refine ⟨q, hq, ?_⟩
    by_cases hm : c ∈ ctS.cts
    · rw [if_pos hm] at hok
      obtain ⟨w, hw, _⟩ := hS.get_some hm hk
      rw [hw] at hok ⊢
      exact hok
    · rw [if_neg hm] at hok
      cases hg : ctS.get c k with
      | none => simpa using hok
      | some w => exact absurd (hS.mem_of_get hg).1 hm
  · intro i c hc hm
    have hil := (List.getElem?_eq_some_iff.mp hc).1
    have hu := copyCommon_untouched hp1 (i := i) (d := c.descriptor)
      (by show d1.descriptor.components[i]? = _; exact h2.desc.comp_getElem? hc) (by
        intro sc hsc he
        rw [hS.desc.comps] at hsc
        obtain ⟨c', hc', rfl⟩ := List.mem_map.mp hsc
        rw [W.id_inj (hS.desc.has c' hc') (hD.desc.world_of hc) he] at hc'
        exact hm hc')
    have hu' : ptrs[i]? = d1.pointers[i]? := hu
    refine ⟨fun hlt' => ?_, fun hf => ?_⟩
    · rw [← z1 hlt']; exact hu'
    · rw [← z2 hf i hil]; exact hu'

/-- The destination side of `remove_component`. -/
theorem Rep.land_remove {src : Archetype} {ctS : Content} (hD : Rep W b ctD) (hS : Rep W src ctS) {k : Nat} (hk : k < ctS.ents.length)
    (hlt : ctD.ents.length < 8388608) (e : Entity) :
    ∃ d1 d2 d4, b.pushUninitializedEntity env = .ok (d1, ctD.ents.length) ∧ d1.entityCount = ctD.ents.length + 1 ∧
      copyCommonComponents src k d1 ctD.ents.length = .ok d2 ∧ d2.setEntityAt ctD.ents.length e = .ok d4 ∧
      Landed W b d4 ctD (fun c => ctS.get c k) := by
  obtain ⟨d1, d2, l, cap, h1, h2, h3, h4, h5, h6, h7, h8, h9, h10, h11⟩ := hD.land (env := env) hS hk hlt
  refine ⟨d1, d2, { d2 with entityAssociations := some (l.set ctD.ents.length (some e)) }, h1, h2, h3, ?_, ?_⟩
  · unfold setEntityAt
    rw [h6]
    simp only []
    rw [if_pos (by omega), if_pos (by omega)]
  · refine Landed.of hD h4 h10 (fun i c hc hn => h11 i c hc (fun hm => ?_))
    obtain ⟨w, hw, _⟩ := hS.get_some hm hk
    simp only [hw] at hn
    cases hn

/-- The destination side of `add_component`, if the destination has the added component. -/
theorem Rep.land_add {src : Archetype} {ctS : Content} (hD : Rep W b ctD) (hS : Rep W src ctS) {k : Nat} (hk : k < ctS.ents.length)
    (hlt : ctD.ents.length < 8388608) {c : CompTy} (hcS : c ∉ ctS.cts) (hc : c ∈ ctD.cts) {v : Val} (hv : v.HasTy c) (e : Entity) :
    ∃ d1 d2 d3 d4, b.pushUninitializedEntity env = .ok (d1, ctD.ents.length) ∧ d1.entityCount = ctD.ents.length + 1 ∧
      copyCommonComponents src k d1 ctD.ents.length = .ok d2 ∧
      d2.writeSingleComponentUnchecked c ctD.ents.length v = .ok d3 ∧ d3.setEntityAt ctD.ents.length e = .ok d4 ∧
      Landed W b d4 ctD (fun c' => if c' = c then some v else ctS.get c' k) := by
  obtain ⟨d1, d2, l, cap, h1, h2, h3, h4, h5, h6, h7, h8, h9, h10, h11⟩ := hD.land (env := env) hS hk hlt
  obtain ⟨i, hi⟩ := List.mem_iff_getElem?.mp hc
  obtain ⟨vs, q, g1, g2, g3, g4⟩ := hD.column hi
  obtain ⟨q1, k1, k2⟩ := h10 i c vs hi g1
  have hgn : ctS.get c k = none := by
    cases hg : ctS.get c k with
    | none => rfl
    | some w => exact absurd (hS.mem_of_get hg).1 hcS
  rw [hgn] at k2
  simp only [Option.toList_none, List.append_nil] at k2
  obtain ⟨q2, w1, w2⟩ := k2.append (v := v) (by omega) hv.1 hv.2
  rw [g4] at w1
  refine ⟨d1, d2, { d2 with pointers := d2.pointers.set i (some q2) },
    { d2 with pointers := d2.pointers.set i (some q2), entityAssociations := some (l.set ctD.ents.length (some e)) }, h1, h2, h3, ?_, ?_, ?_⟩
  · have hs := hD.desc.search hi
    rw [← h4] at hs
    unfold writeSingleComponentUnchecked componentRef
    rw [hs]
    simp only [ok_bind]
    unfold writeRef
    simp only []
    rw [index_of_getElem? k1]
    simp only [ok_bind]
    rw [k2.aligned]
    simp only [ok_bind]
    rw [w1]
    rfl
  · unfold setEntityAt
    simp only [h6]
    rw [if_pos (by omega), if_pos (by omega)]
  · refine Landed.of (cap := cap) hD h4 ?_ ?_
    · intro j c' vs' hj hvs'
      by_cases hcc : c' = c
      · subst hcc
        have : j = i := hD.desc.id_inj hj hi rfl
        subst this
        rw [g1] at hvs'; cases hvs'
        refine ⟨q2, List.getElem?_set_self (by have := (List.getElem?_eq_some_iff.mp k1).1; exact this), ?_⟩
        rw [if_pos rfl]
        exact w2
      · have hne : i ≠ j := by
          rintro rfl
          rw [hi] at hj
          exact hcc (Option.some.inj hj).symm
        obtain ⟨q', k1', k2'⟩ := h10 j c' vs' hj hvs'
        refine ⟨q', by show (d2.pointers.set i (some q2))[j]? = _; rw [List.getElem?_set_ne hne]; exact k1', ?_⟩
        rw [if_neg hcc]; exact k2'
    · intro j c' hj hn
      by_cases hcc : c' = c
      · rw [if_pos hcc] at hn; cases hn
      · rw [if_neg hcc] at hn
        have hne : i ≠ j := by
          rintro rfl
          rw [hi] at hj
          exact hcc (Option.some.inj hj).symm
        have := h11 j c' hj (fun hm => by
          obtain ⟨w, hw, _⟩ := hS.get_some hm hk
          rw [hw] at hn; cases hn)
        show (_ → (d2.pointers.set i (some q2))[j]? = _) ∧ (_ → (d2.pointers.set i (some q2))[j]? = _)
        rw [List.getElem?_set_ne hne]
        exact this

/-- `add_component`, if the destination does not have the added component. -/
theorem Rep.land_add_absent {src : Archetype} {ctS : Content} (hD : Rep W b ctD) (hS : Rep W src ctS) {k : Nat} (hk : k < ctS.ents.length)
    (hlt : ctD.ents.length < 8388608) {c : CompTy} (hW : W.Has c) (hc : c ∉ ctD.cts) (v : Val) :
    ∃ d1 d2, b.pushUninitializedEntity env = .ok (d1, ctD.ents.length) ∧ d1.entityCount = ctD.ents.length + 1 ∧
      copyCommonComponents src k d1 ctD.ents.length = .ok d2 ∧
      d2.writeSingleComponentUnchecked c ctD.ents.length v = .error (.panic .unreachable) := by
  obtain ⟨d1, d2, l, cap, h1, h2, h3, h4, _⟩ := hD.land (env := env) hS hk hlt
  refine ⟨d1, d2, h1, h2, h3, ?_⟩
  obtain ⟨i, hs, _⟩ := binarySearchByKey_absent (l := b.descriptor.components) (key := c.id.toNat)
    (f := fun (e : ComponentDescriptor) => e.id.toNat) hD.desc.wf.sorted (by
      intro x hx he
      exact hc ((hD.desc.id_mem hW).mp (List.mem_map.mpr ⟨x, hx, UInt16.toNat_inj.mp he⟩)))
  unfold writeSingleComponentUnchecked componentRef
  rw [h4, hs]
  rfl

/-! ## The registry -/

theorem getComponent_loc {r : Registry} {c : CompTy} {x : Entity} {k j : Nat} (hl : r.entities.loc env x = some (k, j))
    (ha : r.archetypes.archetypes[k]? = some a) :
    r.getComponent env c x = (if ¬ a.descriptor.hasComponent c then .ok none else (a.getComponentUnchecked c j).map some) ∧
    r.hasComponent env c x = .ok (a.descriptor.hasComponent c) := by
  obtain ⟨en, e1, e2, e3⟩ := EntityRegistry.entry_of_loc hl
  simp only [] at e2 e3
  rw [← e2] at ha
  rw [getComponent_stored e1 ha, hasComponent_stored e1 ha, e3]
  exact ⟨rfl, rfl⟩

theorem getComponent_noLoc {r : Registry} {c : CompTy} {x : Entity} (hl : r.entities.loc env x = none) :
    r.getComponent env c x = .ok none ∧ r.hasComponent env c x = .ok false := by
  rw [EntityRegistry.loc_eq_none] at hl
  unfold Registry.getComponent Registry.hasComponent
  rw [hl]
  exact ⟨rfl, rfl⟩

/-- What a move of `e` into the archetype `b` at `k'` does, whatever the component set of `b` is. -/
structure Strayed (W : World env) (r r' : Registry) (e : Entity) (k' : Nat) (b : Archetype) (ctD : Content)
    (val : CompTy → Option Val) : Prop where
  loc : r'.entities.loc env e = some (k', ctD.ents.length)
  dest : ∃ b', r'.archetypes.archetypes[k']? = some b' ∧ Landed W b b' ctD val
  others : ∀ (x : Entity) (c : CompTy), x ≠ e → W.Has c →
    r'.getComponent env c x = r.getComponent env c x ∧ r'.hasComponent env c x = r.hasComponent env c x

variable {r : Registry} {cs : List Content}

theorem RInv.strayed (h : RInv W r cs) {e : Entity} {en : EntityEntry}
    (he : r.entities.entityEntry env e = some en) {a2 : Archetype}
    (ha : r.archetypes.archetypes[(en.archetypeIndex env).toNat]? = some a)
    (hc : cs[(en.archetypeIndex env).toNat]? = some ct) (hd : a2.descriptor = a.descriptor)
    (hr : Rep W a2 (ct.swapPop en.indexInArchetype.value.toNat)) {dai : UInt16} {b' : Archetype}
    {val : CompTy → Option Val} (hb : r.archetypes.archetypes[dai.toNat]? = some b) (hcD : cs[dai.toNat]? = some ctD)
    (hL : Landed W b b' ctD val) (hne : (en.archetypeIndex env).toNat ≠ dai.toNat) (hok : dai ≠ 65535)
    (hlt : ctD.ents.length < 8388608) {m : EntityRegistry} (hm : EntInv env m) (hme : m.entityEntry env e = some en)
    (hml : ∀ x, x ≠ e → m.loc env x = locSwapPop (r.entities.loc env) e (en.archetypeIndex env).toNat
      en.indexInArchetype.value.toNat (ct.ents.length - 1) x) :
    ∃ m2, m.updateEntry env e (fun en => (en.setArchetypeIndex env dai).setIndexInArchetype ⟨UInt32.ofNat ctD.ents.length⟩) = some m2 ∧
      Strayed W r ⟨m2, (r.archetypes.setArchetype (en.archetypeIndex env).toNat a2).setArchetype dai.toNat b'⟩ e dai.toNat b ctD val := by
  have hloc := EntityRegistry.loc_of_entry he
  obtain ⟨ct0, q1, q2⟩ := (h.placed _ _ _).mp hloc
  rw [hc] at q1; cases q1
  have hk := (List.getElem?_eq_some_iff.mp q2).1
  have hra := h.arch.rep _ _ _ ha hc
  obtain ⟨n1, n2⟩ := IndexInArchetype.new_ofNat (n := ctD.ents.length) (by omega)
  obtain ⟨m2, u1, u2, u3, u4, _⟩ := EntityRegistry.updateEntry_entry hm hme
    (f := fun en => (en.setArchetypeIndex env dai).setIndexInArchetype ⟨UInt32.ofNat ctD.ents.length⟩)
    (by rw [EntityEntry.isValid_setIndexInArchetype, EntityEntry.isValid_set]; exact hok) rfl
  have hal := (List.getElem?_eq_some_iff.mp ha).1
  have hbl := (List.getElem?_eq_some_iff.mp hb).1
  refine ⟨m2, u1, ?_, ⟨b', List.getElem?_set_self (by simpa [ArchetypeRegistry.setArchetype] using hbl), hL⟩, ?_⟩
  · show m2.loc env e = _
    rw [EntityRegistry.loc_of_entry u3, EntityEntry.archetypeIndex_setIndexInArchetype,
      EntityEntry.archetypeIndex_set, EntityEntry.indexInArchetype_set _ _ (by show (UInt32.ofNat ctD.ents.length).toNat < _; rw [n2]; omega)]
    show some (dai.toNat, (UInt32.ofNat ctD.ents.length).toNat) = _
    rw [n2]
  · intro x c hx hW
    have hlx : m2.loc env x = locSwapPop (r.entities.loc env) e (en.archetypeIndex env).toNat
        en.indexInArchetype.value.toNat (ct.ents.length - 1) x := by
      rw [← hml x hx]
      unfold EntityRegistry.loc
      rw [u4 x hx]
    unfold locSwapPop at hlx
    rw [if_neg hx] at hlx
    have hA2 : ((r.archetypes.setArchetype (en.archetypeIndex env).toNat a2).setArchetype dai.toNat b').archetypes[(en.archetypeIndex env).toNat]? = some a2 := by
      show ((r.archetypes.archetypes.set _ _).set _ _)[_]? = _
      rw [List.getElem?_set_ne (Ne.symm hne), List.getElem?_set_self hal]
    cases hlr : r.entities.loc env x with
    | none =>
      rw [hlr] at hlx
      simp only [reduceCtorEq, if_false] at hlx
      obtain ⟨p1, p2⟩ := getComponent_noLoc (c := c) hlr
      obtain ⟨p3, p4⟩ := getComponent_noLoc (r := ⟨m2, (r.archetypes.setArchetype (en.archetypeIndex env).toNat a2).setArchetype dai.toNat b'⟩) (c := c) hlx
      rw [p1, p2, p3, p4]
      exact ⟨rfl, rfl⟩
    | some p =>
      obtain ⟨kx, jx⟩ := p
      obtain ⟨ctx, x1, x2⟩ := (h.placed _ _ _).mp hlr
      have hjx := (List.getElem?_eq_some_iff.mp x2).1
      by_cases hks : kx = (en.archetypeIndex env).toNat
      · subst hks
        rw [hc] at x1; cases x1
        -- the row of `x` afterwards
        obtain ⟨j', hj1, hj2, hj3⟩ : ∃ j', m2.loc env x = some ((en.archetypeIndex env).toNat, j') ∧
            (∀ c, (ct.swapPop en.indexInArchetype.value.toNat).get c j' = ct.get c jx) ∧
            j' < (ct.swapPop en.indexInArchetype.value.toNat).ents.length := by
          have hel : (ct.swapPop en.indexInArchetype.value.toNat).ents.length = ct.ents.length - 1 := by
            simp [Content.swapPop, Content.pop, Content.swap, swapAt_length]
          have hjk : jx ≠ en.indexInArchetype.value.toNat := by
            intro hj
            rw [hj] at hlr
            exact hx (h.placed.inj hlr hloc)
          by_cases hl : jx = ct.ents.length - 1
          · refine ⟨en.indexInArchetype.value.toNat, by rw [hlx, hlr, if_pos (by rw [hl])], ?_, by omega⟩
            intro c
            rw [hra.get_swapPop hk, if_neg (by omega), if_pos rfl, hl]
          · refine ⟨jx, by rw [hlx, hlr, if_neg (by intro hh; cases hh; exact hl rfl)], ?_, by omega⟩
            intro c
            rw [hra.get_swapPop hk, if_neg (by omega), if_neg hjk]
        obtain ⟨p1, p2⟩ := getComponent_loc (c := c) hlr ha
        obtain ⟨p3, p4⟩ := getComponent_loc (r := ⟨m2, (r.archetypes.setArchetype (en.archetypeIndex env).toNat a2).setArchetype dai.toNat b'⟩) (c := c) hj1 hA2
        rw [p1, p2, p3, p4, hd]
        refine ⟨?_, rfl⟩
        by_cases hm : a.descriptor.hasComponent c = true
        · have hmc := (hra.desc.hasComponent_iff hW).mp hm
          obtain ⟨w, hw, _⟩ := hra.get_some hmc hjx
          rw [hra.getComponentUnchecked_ok hw, hr.getComponentUnchecked_ok ((hj2 c).trans hw)]
        · rw [if_pos hm, if_pos hm]
      · have hnl : ¬ (some (kx, jx) = some ((en.archetypeIndex env).toNat, ct.ents.length - 1)) := by
          intro hh; cases hh; exact hks rfl
        rw [hlr, if_neg hnl] at hlx
        by_cases hkd : kx = dai.toNat
        · subst hkd
          rw [hcD] at x1; cases x1
          have hB : ((r.archetypes.setArchetype (en.archetypeIndex env).toNat a2).setArchetype dai.toNat b').archetypes[dai.toNat]? = some b' :=
            List.getElem?_set_self (by simpa [ArchetypeRegistry.setArchetype] using hbl)
          have hrb := h.arch.rep _ _ _ hb hcD
          obtain ⟨p1, p2⟩ := getComponent_loc (c := c) hlr hb
          obtain ⟨p3, p4⟩ := getComponent_loc (r := ⟨m2, (r.archetypes.setArchetype (en.archetypeIndex env).toNat a2).setArchetype dai.toNat b'⟩) (c := c) hlx hB
          rw [p1, p2, p3, p4, hL.desc]
          refine ⟨?_, rfl⟩
          by_cases hm : b.descriptor.hasComponent c = true
          · rw [hL.old c ((hrb.desc.hasComponent_iff hW).mp hm) jx hjx]
          · rw [if_pos hm, if_pos hm]
        · obtain ⟨ax, hax, _⟩ : ∃ ax, r.archetypes.archetypes[kx]? = some ax ∧ True := by
            have hlen := h.arch.len
            have := (List.getElem?_eq_some_iff.mp x1).1
            exact ⟨_, List.getElem?_eq_getElem (by omega), trivial⟩
          have hX : ((r.archetypes.setArchetype (en.archetypeIndex env).toNat a2).setArchetype dai.toNat b').archetypes[kx]? = some ax := by
            show ((r.archetypes.archetypes.set _ _).set _ _)[_]? = _
            rw [List.getElem?_set_ne (Ne.symm hkd), List.getElem?_set_ne (Ne.symm hks)]; exact hax
          obtain ⟨p1, p2⟩ := getComponent_loc (c := c) hlr hax
          obtain ⟨p3, p4⟩ := getComponent_loc (r := ⟨m2, (r.archetypes.setArchetype (en.archetypeIndex env).toNat a2).setArchetype dai.toNat b'⟩) (c := c) hlx hX
          rw [p1, p2, p3, p4]
          exact ⟨rfl, rfl⟩

/-! ## Finding the colliding archetype -/

theorem ARInv.adding_collide {ar : ArchetypeRegistry} (h : ARInv W ar cs) {src : UInt16}
    (ha : ar.archetypes[src.toNat]? = some a) (hc : cs[src.toNat]? = some ct) {c : CompTy} (hW : W.Has c) (hn : c ∉ ct.cts)
    (hl : ct.cts.length ≤ 12) {s : List UInt16} (hs : AscSet s (AddedIds ct.cts c)) {k : Nat}
    (hb : ar.archetypes[k]? = some b) (hbl : b.descriptor.len = ct.cts.length + 1) (hid : b.descriptor.archetypeId = plainId env s)
    (hbv : b.descriptor.isValid = true) :
    ∃ dai : UInt16, dai.toNat = k ∧ src.toNat ≠ k ∧ ar.findOrCreateAdding env src c.descriptor = .ok (ar, some (src.toNat, dai, k)) := by
  have hd := (h.rep _ _ _ ha hc).desc
  have hlt := (List.getElem?_eq_some_iff.mp ha).1
  have hdl := hd.length
  obtain ⟨nd, i, h1, h2, _⟩ := ArchetypeDescriptor.addComponent_spec (env := env) (cd := c.descriptor) hd.wf
    (by omega) (fun hx => hn ((hd.id_mem hW).mp hx))
  obtain ⟨nd', cts', n1, n2, n3, n4, n5, n7, n6⟩ := hd.add hW hn hl
  rw [h1] at n1; cases n1
  have hse : nd.ids = s := n5.unique hs
  rw [hse] at n4
  have hv : nd.isValid = true := by
    unfold ArchetypeDescriptor.isValid at hbv ⊢
    rw [n4, ← hid]; exact hbv
  obtain ⟨dai, g1, g2⟩ := h.find_colliding (env := env) h2 hv hb (by omega) (by rw [hid, n4])
  have hne : src.toNat ≠ k := by
    intro hk
    rw [hk, hb] at ha
    cases ha
    omega
  refine ⟨dai, g1, hne, ?_⟩
  unfold ArchetypeRegistry.findOrCreateAdding
  rw [if_neg (by omega), index_of_getElem? ha]
  simp only [ok_bind]
  rw [h1]
  simp only [ok_bind]
  rw [g2]
  simp only [ok_bind]
  rw [g1, disjointMut_ne hlt (List.getElem?_eq_some_iff.mp hb).1 hne]
  rfl

theorem ARInv.removing_collide {ar : ArchetypeRegistry} (h : ARInv W ar cs) {src : UInt16}
    (ha : ar.archetypes[src.toNat]? = some a) (hc : cs[src.toNat]? = some ct) {c : CompTy} (hm : c ∈ ct.cts)
    (h2 : 2 ≤ ct.cts.length) (hl : ct.cts.length ≤ 13) {s : List UInt16} (hs : AscSet s (RemovedIds ct.cts c)) {k : Nat}
    (hb : ar.archetypes[k]? = some b) (hbl : b.descriptor.len + 1 = ct.cts.length) (hid : b.descriptor.archetypeId = plainId env s)
    (hbv : b.descriptor.isValid = true) :
    ∃ dai : UInt16, dai.toNat = k ∧ src.toNat ≠ k ∧ ar.findOrCreateRemoving env src c.descriptor = .ok (ar, some (src.toNat, dai, k)) := by
  have hd := (h.rep _ _ _ ha hc).desc
  have hlt := (List.getElem?_eq_some_iff.mp ha).1
  have hdl := hd.length
  have hi := idxOf_getElem? hm
  obtain ⟨hci, hce⟩ := List.getElem?_eq_some_iff.mp (hd.comp_getElem? hi)
  obtain ⟨nd, h1, q2, h3, h5, h6⟩ := ArchetypeDescriptor.removeComponent_spec (env := env) (id := c.id) hd.wf
    (by omega) (by omega) hci (by rw [hce]; rfl)
  obtain ⟨nd', cts', n1, n2, n3, n4, n5, n7, n6⟩ := hd.remove hm h2 hl
  rw [h1] at n1; cases n1
  have hse : nd.ids = s := n5.unique hs
  rw [hse] at n4
  have hv : nd.isValid = true := by
    unfold ArchetypeDescriptor.isValid at hbv ⊢
    rw [n4, ← hid]; exact hbv
  obtain ⟨dai, g1, g2⟩ := h.find_colliding (env := env) q2 hv hb (by omega) (by rw [hid, n4])
  have hne : src.toNat ≠ k := by
    intro hk
    rw [hk, hb] at ha
    cases ha
    omega
  refine ⟨dai, g1, hne, ?_⟩
  unfold ArchetypeRegistry.findOrCreateRemoving
  rw [if_neg (by omega), index_of_getElem? ha]
  simp only [ok_bind]
  rw [CompTy.descriptor_id, h1]
  simp only [ok_bind]
  rw [g2]
  simp only [ok_bind]
  rw [g1, disjointMut_ne hlt (List.getElem?_eq_some_iff.mp hb).1 hne]
  rfl

/-! ## The calls -/

/-- `add_component` when the set with the added component has the number of components and the archetype id of `b`. -/
theorem RInv.add_collide (h : RInv W r cs) {e : Entity} {en : EntityEntry} (he : r.entities.entityEntry env e = some en)
    (hc : cs[(en.archetypeIndex env).toNat]? = some ct) {c : CompTy} (hW : W.Has c) {v : Val} (hv : v.HasTy c) (hn : c ∉ ct.cts)
    (hl : ct.cts.length ≤ 12) {s : List UInt16} (hs : AscSet s (AddedIds ct.cts c)) {k : Nat}
    (hb : r.archetypes.archetypes[k]? = some b) (hcD : cs[k]? = some ctD)
    (hbl : b.descriptor.len = ct.cts.length + 1) (hid : b.descriptor.archetypeId = plainId env s) (hlt : ctD.ents.length < 8388608) :
    (c ∉ ctD.cts → r.addComponent env e c v = .error (.panic .unreachable)) ∧
    (c ∈ ctD.cts → ∃ r', r.addComponent env e c v = .ok (r', .ok ()) ∧
      Strayed W r r' e k b ctD (fun c' => if c' = c then some v else ct.get c' en.indexInArchetype.value.toNat)) := by
  obtain ⟨a, ct0, ha, hc0, hr, hk, hloc, hlook⟩ := h.entry he
  rw [hc] at hc0; cases hc0
  have hkl := (List.getElem?_eq_some_iff.mp hk).1
  have hrb := h.arch.rep _ _ _ hb hcD
  obtain ⟨dai, rfl, hne, hfind⟩ := h.arch.adding_collide (env := env) ha hc hW hn hl hs hb hbl hid hrb.desc.valid
  have hok : dai ≠ 65535 := by
    rintro rfl
    have := h.arch.le
    have hk := (List.getElem?_eq_some_iff.mp hb).1
    have h65 : (65535 : UInt16).toNat = 65535 := rfl
    omega
  obtain ⟨a1, s1, s2, s3, s4⟩ := hr.swapToLast_spec (env := env) hkl
  have hl1 : (ct.swap en.indexInArchetype.value.toNat (ct.ents.length - 1)).ents.length = ct.ents.length := by
    simp [Content.swap, swapAt_length]
  have hswk : ∀ sw, ct.ents[ct.ents.length - 1]? = some sw →
      (ct.swap en.indexInArchetype.value.toNat (ct.ents.length - 1)).ents[en.indexInArchetype.value.toNat]? = some sw := by
    intro sw hsw
    show (swapAt ct.ents _ _)[_]? = _
    rw [getElem?_swapAt hkl (by omega)]
    split
    · next heq => rw [← heq] at hsw; exact hsw
    · rw [if_pos rfl]; exact hsw
  have hswl : (ct.swap en.indexInArchetype.value.toNat (ct.ents.length - 1)).ents[ct.ents.length - 1]? = some e := by
    show (swapAt ct.ents _ _)[_]? = _
    rw [getElem?_swapAt hkl (by omega), if_pos rfl]; exact hk
  obtain ⟨m, m1, m2, m3, m4, m5⟩ := h.fixSwap he hc (a1.entityAt en.indexInArchetype.value.toNat)
    (fun _ sw hsw => s4.entityAt_ok (hswk sw hsw))
  have hred : r.addComponent env e c v = (do
    let p ← b.pushUninitializedEntity env
    let dst := p.1
    let sIdx ← subU32 env a1.entityCount 1
    let dIdx ← subU32 env dst.entityCount 1
    let dst ← Archetype.copyCommonComponents a1 sIdx dst dIdx
    let dst ← dst.writeSingleComponentUnchecked c dIdx v
    let h ← a1.entityAt sIdx
    let dst ← dst.setEntityAt dIdx h
    let src ← a1.decrementLenUnchecked env
    let niia ← unwrap (IndexInArchetype.new (UInt32.ofNat dIdx))
    let ents ← unwrap (m.updateEntry env e
      (fun en => (en.setArchetypeIndex env dai).setIndexInArchetype niia))
    return (⟨ents, (r.archetypes.setArchetype (en.archetypeIndex env).toNat src).setArchetype dai.toNat dst⟩, .ok ())) := by
    unfold Registry.addComponent
    rw [he]
    simp only []
    rw [hfind]
    simp only [ok_bind]
    rw [index_of_getElem? ha, index_of_getElem? hb]
    simp only [ok_bind]
    rw [s1]
    simp only [ok_bind]
    rw [m1]
    rfl
  have hcnt : a1.entityCount = ct.ents.length := by rw [s4.count, hl1]
  have hkS : ct.ents.length - 1 < (ct.swap en.indexInArchetype.value.toNat (ct.ents.length - 1)).ents.length := by omega
  have hgl := fun c' => hr.get_swap_last hkl c'
  constructor
  · intro hcd
    obtain ⟨d1, d2, t1, t2, t3, t4⟩ := hrb.land_add_absent (env := env) s4 hkS hlt hW hcd v
    rw [hred, t1]
    simp only [ok_bind]
    rw [hcnt, subU32_le (by omega), t2, subU32_le (by omega)]
    simp only [ok_bind, Nat.add_sub_cancel]
    rw [t3]
    simp only [ok_bind]
    rw [t4]
    rfl
  · intro hcd
    obtain ⟨d1, d2, d3, d4, t1, t2, t3, t4, t5, t6⟩ := hrb.land_add (env := env) s4 hkS hlt hn hcd hv e
    simp only [hgl] at t6
    obtain ⟨a2, x1, x2, x3, x4⟩ := s4.decrementLen_spec (env := env) (by omega)
    obtain ⟨n1, n2⟩ := IndexInArchetype.new_ofNat (n := ctD.ents.length) (by omega)
    obtain ⟨mm, y1, y2⟩ := h.strayed he ha hc (x2.trans s2) x4 hb hcD t6 hne hok hlt m2 m4 m5
    refine ⟨_, ?_, y2⟩
    rw [hred, t1]
    simp only [ok_bind]
    rw [hcnt, subU32_le (by omega), t2, subU32_le (by omega)]
    simp only [ok_bind, Nat.add_sub_cancel]
    rw [t3]
    simp only [ok_bind]
    rw [t4]
    simp only [ok_bind]
    rw [s4.entityAt_ok hswl]
    simp only [ok_bind]
    rw [t5]
    simp only [ok_bind]
    rw [x1]
    simp only [ok_bind]
    rw [n1]
    simp only [unwrap, ok_bind]
    rw [y1]
    rfl

/-- `remove_component` when the set without the removed component has the number of components and the archetype id of `b`. -/
theorem RInv.remove_collide (h : RInv W r cs) {e : Entity} {en : EntityEntry} (he : r.entities.entityEntry env e = some en)
    (hc : cs[(en.archetypeIndex env).toNat]? = some ct) {c : CompTy} (hm : c ∈ ct.cts)
    (hl2 : 2 ≤ ct.cts.length) (hl : ct.cts.length ≤ 13) {s : List UInt16} (hs : AscSet s (RemovedIds ct.cts c)) {k : Nat}
    (hb : r.archetypes.archetypes[k]? = some b) (hcD : cs[k]? = some ctD)
    (hbl : b.descriptor.len + 1 = ct.cts.length) (hid : b.descriptor.archetypeId = plainId env s) (hlt : ctD.ents.length < 8388608) :
    ∃ r' v, r.removeComponent env e c = .ok (r', .ok v) ∧ ct.get c en.indexInArchetype.value.toNat = some v ∧
      Strayed W r r' e k b ctD (fun c' => ct.get c' en.indexInArchetype.value.toNat) := by
  obtain ⟨a, ct0, ha, hc0, hr, hk, hloc, hlook⟩ := h.entry he
  rw [hc] at hc0; cases hc0
  have hkl := (List.getElem?_eq_some_iff.mp hk).1
  have hrb := h.arch.rep _ _ _ hb hcD
  obtain ⟨dai, rfl, hne, hfind⟩ := h.arch.removing_collide (env := env) ha hc hm hl2 hl hs hb hbl hid hrb.desc.valid
  have hok : dai ≠ 65535 := by
    rintro rfl
    have := h.arch.le
    have hk := (List.getElem?_eq_some_iff.mp hb).1
    have h65 : (65535 : UInt16).toNat = 65535 := rfl
    omega
  obtain ⟨a1, s1, s2, s3, s4⟩ := hr.swapToLast_spec (env := env) hkl
  have hl1 : (ct.swap en.indexInArchetype.value.toNat (ct.ents.length - 1)).ents.length = ct.ents.length := by
    simp [Content.swap, swapAt_length]
  have hswk : ∀ sw, ct.ents[ct.ents.length - 1]? = some sw →
      (ct.swap en.indexInArchetype.value.toNat (ct.ents.length - 1)).ents[en.indexInArchetype.value.toNat]? = some sw := by
    intro sw hsw
    show (swapAt ct.ents _ _)[_]? = _
    rw [getElem?_swapAt hkl (by omega)]
    split
    · next heq => rw [← heq] at hsw; exact hsw
    · rw [if_pos rfl]; exact hsw
  have hswl : (ct.swap en.indexInArchetype.value.toNat (ct.ents.length - 1)).ents[ct.ents.length - 1]? = some e := by
    show (swapAt ct.ents _ _)[_]? = _
    rw [getElem?_swapAt hkl (by omega), if_pos rfl]; exact hk
  obtain ⟨m, m1, m2, m3, m4, m5⟩ := h.fixSwap he hc (a1.entityAt en.indexInArchetype.value.toNat)
    (fun _ sw hsw => s4.entityAt_ok (hswk sw hsw))
  have hred : r.removeComponent env e c = (do
    let p ← b.pushUninitializedEntity env
    let dst := p.1
    let sIdx ← subU32 env a1.entityCount 1
    let dIdx ← subU32 env dst.entityCount 1
    let dst ← Archetype.copyCommonComponents a1 sIdx dst dIdx
    let v ← a1.readComponentUnchecked c sIdx
    let h ← a1.entityAt sIdx
    let dst ← dst.setEntityAt dIdx h
    let src ← a1.decrementLenUnchecked env
    let niia ← unwrap (IndexInArchetype.new (UInt32.ofNat dIdx))
    let ents ← unwrap (m.updateEntry env e
      (fun en => (en.setArchetypeIndex env dai).setIndexInArchetype niia))
    return (⟨ents, (r.archetypes.setArchetype (en.archetypeIndex env).toNat src).setArchetype dai.toNat dst⟩, .ok v)) := by
    unfold Registry.removeComponent
    rw [he]
    simp only []
    rw [hfind]
    simp only [ok_bind]
    rw [index_of_getElem? ha, index_of_getElem? hb]
    simp only [ok_bind]
    rw [s1]
    simp only [ok_bind]
    rw [m1]
    rfl
  have hcnt : a1.entityCount = ct.ents.length := by rw [s4.count, hl1]
  have hkS : ct.ents.length - 1 < (ct.swap en.indexInArchetype.value.toNat (ct.ents.length - 1)).ents.length := by omega
  have hgl := fun c' => hr.get_swap_last hkl c'
  obtain ⟨w, hw, _⟩ := hr.get_some hm hkl
  obtain ⟨d1, d2, d4, t1, t2, t3, t5, t6⟩ := hrb.land_remove (env := env) s4 hkS hlt e
  simp only [hgl] at t6
  obtain ⟨a2, x1, x2, x3, x4⟩ := s4.decrementLen_spec (env := env) (by omega)
  obtain ⟨n1, n2⟩ := IndexInArchetype.new_ofNat (n := ctD.ents.length) (by omega)
  obtain ⟨mm, y1, y2⟩ := h.strayed he ha hc (x2.trans s2) x4 hb hcD t6 hne hok hlt m2 m4 m5
  refine ⟨_, w, ?_, hw, y2⟩
  rw [hred, t1]
  simp only [ok_bind]
  rw [hcnt, subU32_le (by omega), t2, subU32_le (by omega)]
  simp only [ok_bind, Nat.add_sub_cancel]
  rw [t3]
  simp only [ok_bind]
  rw [s4.readComponentUnchecked_ok ((hgl c).trans hw)]
  simp only [ok_bind]
  rw [s4.entityAt_ok hswl]
  simp only [ok_bind]
  rw [t5]
  simp only [ok_bind]
  rw [x1]
  simp only [ok_bind]
  rw [n1]
  simp only [unwrap, ok_bind]
  rw [y1]
  rfl

end Shard
