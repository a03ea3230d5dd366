import Verif.Proofs.RegistryCreate
import Verif.Proofs.RegistryRead
/-!
# `create_entity` with a component set that collides with the set of an archetype

Nothing is assumed about the archetype id of the created set.
-/

set_option autoImplicit false

namespace Shard

open Archetype

variable {env : Env} {W : World env}

/-! ## Memory -/

/-- Bytes of another type cannot be read. -/
theorem decodeFrom_foreign (ty : Nat) : ∀ (bs : List (Option TByte)) (k p : Nat) (t : TByte), bs[p]? = some (some t) →
    t.ty ≠ ty → ∃ f, decodeFrom ty k bs = .error (.ub f)
  | [], _, p, _, h, _ => by simp at h
  | none :: _, _, _, _, _, _ => ⟨.uninit, rfl⟩
  | some b :: rest, k, p, t, h, hne => by
    simp only [decodeFrom]
    split
    · next hb =>
      cases p with
      | zero =>
        simp only [List.getElem?_cons_zero, Option.some.injEq] at h
        subst h
        exact absurd hb.1 hne
      | succ p =>
        obtain ⟨f, hf⟩ := decodeFrom_foreign ty rest (k + 1) p t (by simpa using h) hne
        exact ⟨f, by rw [hf]⟩
    · exact ⟨.typeConfusion, rfl⟩

theorem encode_getElem? {v : Val} {p : Nat} (hp : p < v.bytes.length) :
    ∃ t : TByte, v.encode[p]? = some (some t) ∧ t.ty = v.ty := by
  refine ⟨⟨v.ty, p, v.bytes[p]⟩, ?_, rfl⟩
  simp [Val.encode, hp]

/-- Writing a value of another type over part of a cell: the cell cannot be read any more. -/
theorem readVal_overlap {b b' : Block} {sz al ty j off : Nat} {v : Val} (hb : b.align = al) (hm : sz % al = 0)
    (hj : sz * j + sz ≤ b.bytes.length) (hw : writeBytes (some b) off v.encode = .ok b') (hty : v.ty ≠ ty)
    (h1 : off < sz * j + sz) (h2 : sz * j < off + v.bytes.length) (h3 : 0 < v.bytes.length) (h4 : 0 < sz) :
    ∃ f, readVal (some b') ty sz al (sz * j) = .error (.ub f) := by
  unfold writeBytes at hw
  simp only [] at hw
  split at hw
  · next hle =>
    cases hw
    have hvl := v.encode_length
    have hlen : (b.bytes.take off ++ v.encode ++ b.bytes.drop (off + v.encode.length)).length = b.bytes.length := by
      simp only [List.length_append, List.length_take, List.length_drop]; omega
    obtain ⟨t, ht, htt⟩ := encode_getElem? (v := v) (p := max (sz * j) off - off) (by omega)
    obtain ⟨f, hf⟩ := decodeFrom_foreign ty
      (cell ⟨b.align, b.bytes.take off ++ v.encode ++ b.bytes.drop (off + v.encode.length)⟩ sz j) 0
      (max (sz * j) off - sz * j) t (by
        unfold cell
        simp only []
        rw [List.getElem?_take_of_lt (by omega), List.getElem?_drop, overwrite_getElem? _ _ _ hle, if_pos (by omega),
          show sz * j + (max (sz * j) off - sz * j) - off = max (sz * j) off - off by omega, ht]) (by rw [htt]; exact hty)
    refine ⟨f, ?_⟩
    unfold readVal
    have hb' : (⟨b.align, b.bytes.take off ++ v.encode ++ b.bytes.drop (off + v.encode.length)⟩ : Block).align = al := hb
    rw [checkAligned_cell hb' hm, readBytes_cell (by simp only []; omega)]
    simp only [ok_bind]
    unfold decodeVal
    rw [hf]
  · cases hw

/-- Writing elsewhere does not change what is read. -/
theorem readVal_apart {b b' : Block} {sz al ty j off : Nat} {bs : List (Option TByte)} (hb : b.align = al) (hm : sz % al = 0)
    (hj : sz * j + sz ≤ b.bytes.length) (hw : writeBytes (some b) off bs = .ok b')
    (h : sz * j + sz ≤ off ∨ off + bs.length ≤ sz * j ∨ bs.length = 0 ∨ sz = 0) :
    readVal (some b') ty sz al (sz * j) = readVal (some b) ty sz al (sz * j) := by
  unfold writeBytes at hw
  simp only [] at hw
  split at hw
  · next hle =>
    cases hw
    have hlen : (b.bytes.take off ++ bs ++ b.bytes.drop (off + bs.length)).length = b.bytes.length := by
      simp only [List.length_append, List.length_take, List.length_drop]; omega
    have hc : cell ⟨b.align, b.bytes.take off ++ bs ++ b.bytes.drop (off + bs.length)⟩ sz j = cell b sz j := by
      apply List.ext_getElem?
      intro p
      unfold cell
      simp only []
      by_cases hp : p < sz
      · rw [List.getElem?_take_of_lt hp, List.getElem?_take_of_lt hp, List.getElem?_drop, List.getElem?_drop,
          overwrite_getElem? _ _ _ hle, if_neg (by omega)]
      · rw [List.getElem?_eq_none (by simp; omega), List.getElem?_eq_none (by simp; omega)]
    unfold readVal
    have hb' : (⟨b.align, b.bytes.take off ++ bs ++ b.bytes.drop (off + bs.length)⟩ : Block).align = al := hb
    rw [checkAligned_cell hb' hm, checkAligned_cell hb hm, readBytes_cell (by simp only []; omega), readBytes_cell hj, hc]
  · cases hw

/-! ## The copy loop -/

/-- A loop over columns in which some step fails. -/
theorem ptrLoop_fail {f : Nat → List (Option Block) → M (List (Option Block))} {ptrs : List (Option Block)} {F : Fault} :
    ∀ (n lo : Nat) (s : List (Option Block)), s.length = ptrs.length → (∀ i, lo ≤ i → s[i]? = ptrs[i]?) →
      (∀ i, lo ≤ i → i < lo + n → ∀ s', s'.length = ptrs.length → s'[i]? = ptrs[i]? →
        (∃ b, f i s' = .ok (s'.set i (some b))) ∨ f i s' = .error F) →
      (∃ i, lo ≤ i ∧ i < lo + n ∧ ∀ s', s'.length = ptrs.length → s'[i]? = ptrs[i]? → f i s' = .error F) →
      forRange lo n f s = .error F
  | 0, lo, s, _, _, _, h => by obtain ⟨i, h1, h2, _⟩ := h; omega
  | n + 1, lo, s, hl, hs, hf, ⟨i, h1, h2, h3⟩ => by
    simp only [forRange]
    rcases hf lo (Nat.le_refl _) (by omega) s hl (hs lo (Nat.le_refl _)) with ⟨b, hb⟩ | hb
    · rw [hb]
      have hne : i ≠ lo := by
        rintro rfl
        rw [h3 s hl (hs i (Nat.le_refl _))] at hb
        cases hb
      refine ptrLoop_fail n (lo + 1) _ (by simpa using hl) ?_ ?_ ⟨i, by omega, by omega, h3⟩
      · intro j hj
        rw [List.getElem?_set_ne (by omega)]
        exact hs j (by omega)
      · intro j hj hj' s' q1 q2
        exact hf j (by omega) (by omega) s' q1 q2
    · rw [hb]

theorem GroupSpec.cts_slot' {g : Group} (gs : GroupSpec env g) (hg : ∀ c ∈ g, W.Has c) {k : Nat} {c : CompTy}
    (hc : (g.cts env)[k]? = some c) : ∃ j, ∃ hj : j < g.length, g.slot env j = k ∧ g[j] = c := by
  obtain ⟨hl, _, hs⟩ := Group.cts_perm gs hg
  have hk := (List.getElem?_eq_some_iff.mp hc).1
  obtain ⟨j, hj, he⟩ := gs.slot_surj (show k < g.length by omega)
  refine ⟨j, hj, he, ?_⟩
  have := hs j hj
  rw [he, hc] at this
  exact (Option.some.inj this).symm

/-- One step of the copy loop. -/
theorem writeColumn_step {g : Group} (gs : GroupSpec env g) (hg : ∀ c ∈ g, W.Has c) {vals : List Val} (ht : TypedVals g vals)
    {i : Nat} {c : CompTy} (hc : (g.cts env)[i]? = some c) :
    ∃ v : Val, v.HasTy c ∧ ∀ (n : Nat) (s : List (Option Block)) (b : Block), s[i]? = some (some b) →
      (do let d ← indexUnchecked (g.descriptor env).archetype.comps i
          let dst ← indexUnchecked s i
          let src ← indexUnchecked (asSortedPointers env g vals) i
          let bs ← readStack src d.size
          let b ← writeBytes dst (d.size * n) bs
          setIndex s i (some b)) =
      (match writeBytes (some b) (c.size * n) v.encode with
        | .ok b' => .ok (s.set i (some b'))
        | .error f => .error f) := by
  obtain ⟨j, hj, hje, hjc⟩ := gs.cts_slot' hg hc
  obtain ⟨v, hv, _, hty⟩ := ht.lookup gs.wf.nodup' hj
  have hW : W.Has c := hjc ▸ hg _ (List.getElem_mem hj)
  subst hje
  rw [hjc] at hty
  refine ⟨v, hty, ?_⟩
  intro n s b hb
  have hci : (g.descriptor env).archetype.comps[g.slot env j]? = some c.descriptor := by
    rw [gs.desc.comps_getElem? (by rw [gs.len]; have := (List.getElem?_eq_some_iff.mp hc).1; rw [(Group.cts_perm gs hg).1] at this; exact this),
      gs.slot j hj, hjc]
  rw [indexUnchecked_of_getElem? hci, indexUnchecked_of_getElem? hb,
    indexUnchecked_of_getElem? (asSortedPointers_spec gs hj), hv]
  simp only [ok_bind, W.desc_size hW]
  have hrs : readStack (some v) c.size = .ok v.encode := by
    unfold readStack
    simp only []
    rw [if_pos (by rw [hty.2]; exact Nat.le_refl _), List.take_of_length_le (by rw [v.encode_length, hty.2]; exact Nat.le_refl _)]
  rw [hrs]
  simp only [ok_bind]
  cases hw : writeBytes (some b) (c.size * n) v.encode with
  | error f => rfl
  | ok b' =>
    simp only [ok_bind]
    rw [setIndex_lt (List.getElem?_eq_some_iff.mp hb).1]

/-- What the copy loop writes. -/
structure Wrote (g : Group) (gcts : List CompTy) (n : Nat) (ptrs ptrs' : List (Option Block)) : Prop where
  length : ptrs'.length = ptrs.length
  col : ∀ (i : Nat) (c : CompTy), gcts[i]? = some c → ∃ (b b' : Block) (v : Val), ptrs[i]? = some (some b) ∧ ptrs'[i]? = some (some b') ∧
    v.HasTy c ∧ writeBytes (some b) (c.size * n) v.encode = .ok b'
  rest : ∀ i, gcts.length ≤ i → ptrs'[i]? = ptrs[i]?

theorem writeBytes_cases (b : Block) (off : Nat) (v : Val) {sz : Nat} (h : v.bytes.length = sz) :
    (off + sz ≤ b.bytes.length → ∃ b', writeBytes (some b) off v.encode = .ok b') ∧
    (¬ off + sz ≤ b.bytes.length → writeBytes (some b) off v.encode = .error (.ub .outOfBounds)) := by
  subst h
  unfold writeBytes
  simp only [v.encode_length]
  constructor
  · intro h; rw [if_pos h]; exact ⟨_, rfl⟩
  · intro h; rw [if_neg h]

theorem writeColumns_collide {g : Group} (gs : GroupSpec env g) (hg : ∀ c ∈ g, W.Has c) {vals : List Val}
    (ht : TypedVals g vals) {n : Nat} {ptrs : List (Option Block)}
    (hb : ∀ i, i < g.length → ∃ b, ptrs[i]? = some (some b)) :
    ((∀ (i : Nat) (c : CompTy) (b : Block), (g.cts env)[i]? = some c → ptrs[i]? = some (some b) →
        c.size * n + c.size ≤ b.bytes.length) →
      ∃ ptrs', writeColumns (g.descriptor env).archetype n (asSortedPointers env g vals) ptrs = .ok ptrs' ∧
        Wrote g (g.cts env) n ptrs ptrs') ∧
    ((∃ (i : Nat) (c : CompTy) (b : Block), (g.cts env)[i]? = some c ∧ ptrs[i]? = some (some b) ∧
        b.bytes.length < c.size * n + c.size) →
      writeColumns (g.descriptor env).archetype n (asSortedPointers env g vals) ptrs = .error (.ub .outOfBounds)) := by
  have hl : (g.cts env).length = g.length := (Group.cts_perm gs hg).1
  have hlen : g.length ≤ ptrs.length := by
    rcases Nat.eq_zero_or_pos g.length with h | h
    · omega
    · obtain ⟨b, hb⟩ := hb (g.length - 1) (by omega)
      have := (List.getElem?_eq_some_iff.mp hb).1; omega
  unfold writeColumns
  rw [gs.len]
  constructor
  · intro hfit
    obtain ⟨s, h1, h2, h3, h4⟩ := ptrLoop (n := g.length) (ptrs := ptrs)
      (P := fun i p => ptrs[i]? = some p)
      (Q := fun i p => ∀ c, (g.cts env)[i]? = some c → ∃ (b b' : Block) (v : Val), ptrs[i]? = some (some b) ∧ p = some b' ∧
        v.HasTy c ∧ writeBytes (some b) (c.size * n) v.encode = .ok b')
      (f := fun i ptrs => do
        let c ← indexUnchecked (g.descriptor env).archetype.comps i
        let dst ← indexUnchecked ptrs i
        let src ← indexUnchecked (asSortedPointers env g vals) i
        let bs ← readStack src c.size
        let b ← writeBytes dst (c.size * n) bs
        setIndex ptrs i (some b)) hlen (fun i hi => by
          obtain ⟨b, hb⟩ := hb i hi
          exact ⟨_, hb, hb⟩)
      (by
        intro i hi s p hs hp hpp
        obtain ⟨b, hbi⟩ := hb i hi
        rw [hbi] at hpp; cases hpp
        have hci := List.getElem?_eq_getElem (show i < (g.cts env).length by omega)
        obtain ⟨v, hty, hstep⟩ := writeColumn_step gs hg ht hci
        obtain ⟨b', hw⟩ := (writeBytes_cases b _ v hty.2).1 (hfit i _ b hci hbi)
        refine ⟨b', ?_, ?_⟩
        · rw [hstep n s b hp, hw]
        · intro c hc
          rw [hci] at hc; cases hc
          exact ⟨b, b', v, hbi, rfl, hty, hw⟩)
    refine ⟨s, h1, h2, ?_, fun i hi => h4 i (by omega)⟩
    intro i c hc
    obtain ⟨p, hp, hq⟩ := h3 i (by have := (List.getElem?_eq_some_iff.mp hc).1; omega)
    obtain ⟨b, b', v, q1, q2, q3⟩ := hq c hc
    subst q2
    exact ⟨b, b', v, q1, hp, q3⟩
  · rintro ⟨i, c, b, hc, hbi, hbig⟩
    have hstep : ∀ i, i < g.length → ∃ (c : CompTy) (v : Val) (b : Block), (g.cts env)[i]? = some c ∧ v.HasTy c ∧
        ptrs[i]? = some (some b) ∧ ∀ s : List (Option Block), s[i]? = ptrs[i]? →
      (do let d ← indexUnchecked (g.descriptor env).archetype.comps i
          let dst ← indexUnchecked s i
          let src ← indexUnchecked (asSortedPointers env g vals) i
          let bs ← readStack src d.size
          let b ← writeBytes dst (d.size * n) bs
          setIndex s i (some b)) =
      (match writeBytes (some b) (c.size * n) v.encode with
        | .ok b' => .ok (s.set i (some b'))
        | .error f => .error f) := by
      intro i hi
      obtain ⟨b, hbi⟩ := hb i hi
      have hci := List.getElem?_eq_getElem (show i < (g.cts env).length by omega)
      obtain ⟨v, hty, hst⟩ := writeColumn_step gs hg ht hci
      exact ⟨_, v, b, hci, hty, hbi, fun s hs => hst n s b (by rw [hs, hbi])⟩
    refine ptrLoop_fail (ptrs := ptrs) g.length 0 ptrs rfl (fun _ _ => rfl) ?_ ⟨i, Nat.zero_le _, ?_, ?_⟩
    · intro j _ hj s hs hsj
      obtain ⟨c, v, b, _, hty, _, hst⟩ := hstep j (by omega)
      simp only [hst s hsj]
      rcases Nat.lt_or_ge b.bytes.length (c.size * n + c.size) with hlt | hge
      · right; rw [(writeBytes_cases b _ v hty.2).2 (by omega)]
      · left
        obtain ⟨b', hw⟩ := (writeBytes_cases b (c.size * n) v hty.2).1 hge
        exact ⟨b', by rw [hw]⟩
    · have := (List.getElem?_eq_some_iff.mp hc).1; omega
    · intro s hs hsi
      obtain ⟨c', v, b', hc', hty, hb', hst⟩ := hstep i (by have := (List.getElem?_eq_some_iff.mp hc).1; omega)
      rw [hc] at hc'; cases hc'
      rw [hbi] at hb'; cases hb'
      simp only [hst s hsi]
      rw [(writeBytes_cases b _ v hty.2).2 (by omega)]

/-! ## The archetype and the registry -/

/-- The capacity an archetype has when a row is written. -/
def grownCap (a : Archetype) : Nat := if a.entityCount = a.capacity then 2 * a.capacity else a.capacity

/-- The new row, laid out for the types `gcts`, is inside the columns of the types `cts`. -/
def ColsFit (cts gcts : List CompTy) (n cap : Nat) : Prop :=
  ∀ (i : Nat) (c cg : CompTy), cts[i]? = some c → gcts[i]? = some cg → cg.size * n + cg.size ≤ c.size * cap

theorem Rep.push_collide {a : Archetype} {ct : Content} (h : Rep W a ct) {g : Group} (hg : ∀ c ∈ g, W.Has c)
    (gs : GroupSpec env g) (hlen : ct.cts.length = g.length)
    (hid : (g.descriptor env).archetype.archetypeId = a.descriptor.archetypeId) (e : Entity) {vals : List Val}
    (ht : TypedVals g vals) (hlt : ct.ents.length < 8388608) :
    (ColsFit ct.cts (g.cts env) ct.ents.length (grownCap a) →
      ∃ a1 a', a.pushEntityUnchecked env e g vals = .ok (a', ct.ents.length) ∧ Rep W a1 ct ∧
        a1.capacity = grownCap a ∧ ct.ents.length < grownCap a ∧ a'.descriptor = a.descriptor ∧ a1.descriptor = a.descriptor ∧
        Wrote g (g.cts env) ct.ents.length a1.pointers a'.pointers) ∧
    (¬ ColsFit ct.cts (g.cts env) ct.ents.length (grownCap a) →
      a.pushEntityUnchecked env e g vals = .error (.ub .outOfBounds)) := by
  obtain ⟨a1, hr, h1, hd1, hlt1, hcap1⟩ := h.resizeIfNecessary_spec hlt
  have hcap : a1.capacity = grownCap a := by rw [hcap1]; unfold grownCap; rw [h.count]
  have hl : (g.cts env).length = g.length := (Group.cts_perm gs hg).1
  have hblock : ∀ (i : Nat) (c : CompTy), ct.cts[i]? = some c → ∃ b, a1.pointers[i]? = some (some b) ∧
      b.bytes.length = c.size * grownCap a := by
    intro i c hc
    obtain ⟨vs, b, _, q2, q3, _⟩ := h1.column hc
    exact ⟨b, q2, by rw [q3.size, hcap]⟩
  have hv : (g.descriptor env).isValid = true := gs.valid
  have hred : a.pushEntityUnchecked env e g vals = (do
      let ptrs ← writeColumns (g.descriptor env).archetype ct.ents.length (asSortedPointers env g vals) a1.pointers
      let a2 ← setEntityAt { a1 with pointers := ptrs, entityCount := a1.entityCount + 1 } ct.ents.length e
      return (a2, ct.ents.length)) := by
    unfold pushEntityUnchecked
    rw [debugAssert_true hv, debugAssert_true (by rw [hid]; simp), hr]
    simp only [ok_bind]
    unfold writeEntityUnchecked
    rw [debugAssert_true (by rw [h1.count]; simpa using hlt1), debugAssert_true hv,
      debugAssert_true (by simp only []; rw [hd1, hid]; simp)]
    simp only [ok_bind]
    rw [h1.count]
    cases writeColumns (g.descriptor env).archetype ct.ents.length (asSortedPointers env g vals) a1.pointers <;> rfl
  obtain ⟨w1, w2⟩ := writeColumns_collide gs hg ht (n := ct.ents.length) (ptrs := a1.pointers) (fun i hi => by
    obtain ⟨b, hb, _⟩ := hblock i _ (List.getElem?_eq_getElem (show i < ct.cts.length by omega))
    exact ⟨b, hb⟩)
  constructor
  · intro hfit
    obtain ⟨ptrs, hp, hw⟩ := w1 (by
      intro i cg b hcg hb
      have hi := (List.getElem?_eq_some_iff.mp hcg).1
      have hc := List.getElem?_eq_getElem (show i < ct.cts.length by omega)
      obtain ⟨b', hb', hbl⟩ := hblock i _ hc
      rw [hb] at hb'; cases hb'
      rw [hbl]
      exact hfit i _ cg hc hcg)
    obtain ⟨l, hl1, hl2, _⟩ := h1.ents.arr
    refine ⟨a1, ⟨a1.descriptor, ptrs, some (l.set ct.ents.length (some e)), a1.entityCount + 1, a1.capacity⟩, ?_, h1, hcap, by rw [← hcap]; exact hlt1, hd1, hd1, hw⟩
    rw [hred, hp]
    simp only [ok_bind]
    unfold setEntityAt
    rw [hl1]
    simp only []
    rw [if_pos (by rw [h1.count]; omega), if_pos (by rw [h1.count]; omega)]
    rfl
  · intro hfit
    rw [hred, w2]
    · rfl
    · apply Classical.byContradiction
      intro hno
      apply hfit
      intro i c cg hc hcg
      obtain ⟨b, hb, hbl⟩ := hblock i c hc
      rcases Nat.lt_or_ge b.bytes.length (cg.size * ct.ents.length + cg.size) with hlt' | hge
      · exact absurd ⟨i, cg, b, hcg, hb, hlt'⟩ hno
      · omega

theorem ARInv.find_colliding {ar : ArchetypeRegistry} {cs : List Content} (h : ARInv W ar cs) {d : ArchetypeDescriptor}
    (hd : WFDesc d) (hv : d.isValid = true) {k : Nat} {a : Archetype} (ha : ar.archetypes[k]? = some a)
    (hl : a.descriptor.len = d.len) (hid : a.descriptor.archetypeId = d.archetypeId) :
    ∃ i : UInt16, i.toNat = k ∧ ar.findOrCreateArchetype env d = .ok (ar, some i) := by
  have h2 := hd.len_le
  obtain ⟨keys, k1, k2, k3⟩ := h.searchLevel_spec hd
  rcases h.search_cases hd k1 with ⟨i, ky, b, s1, s2, s3, s4, s5⟩ | ⟨i, s1, s2, s3, s4, s5⟩
  · refine ⟨ky.archetypeIndex, h.unique_index s3 ha (s4.trans hl.symm) (s5.trans hid.symm), ?_⟩
    unfold ArchetypeRegistry.findOrCreateArchetype
    rw [if_neg (by rw [hv]; simp; exact h2), k3]
    simp only [ok_bind]
    rw [s1]
    simp only []
    rw [index_of_getElem? s2]
    simp only [ok_bind]
    rw [index_of_getElem? s3]
    rfl
  · exact absurd hid (s5 k a ha hl)

/-- A colliding creation that stays inside the columns. -/
structure Collided (W : World env) (r r' : Registry) (e : Entity) (k : Nat) (a : Archetype) (ct : Content) (g : Group) : Prop where
  dead : r.entities.entityEntry env e = none
  loc : r'.entities.loc env e = some (k, ct.ents.length)
  others : ∀ x, x ≠ e → r'.entities.entityEntry env x = r.entities.entityEntry env x
  arch : ∃ a1 a', r'.archetypes = r.archetypes.setArchetype k a' ∧ Rep W a1 ct ∧ a1.capacity = grownCap a ∧
    ct.ents.length < grownCap a ∧ a'.descriptor = a.descriptor ∧ a1.descriptor = a.descriptor ∧
    Wrote g (g.cts env) ct.ents.length a1.pointers a'.pointers

variable {r : Registry} {cs : List Content}

theorem RInv.create_collide (h : RInv W r cs) {g : Group} (hg : ∀ c ∈ g, W.Has c) (hv : (g.descriptor env).isValid = true)
    {vals : List Val} (ht : TypedVals g vals) {k : Nat} {a : Archetype} {ct : Content}
    (ha : r.archetypes.archetypes[k]? = some a) (hrep : Rep W a ct) (hlen : a.descriptor.len = g.length)
    (hid : a.descriptor.archetypeId = (g.descriptor env).archetype.archetypeId) (hlt : ct.ents.length < 8388608)
    (hroom : r.entities.entities.length < MAX_ENTITY_HANDLE_VALUE) :
    (ColsFit ct.cts (g.cts env) ct.ents.length (grownCap a) →
      ∃ r' e, r.createEntity env g vals = .ok (r', .ok e) ∧ Collided W r r' e k a ct g) ∧
    (¬ ColsFit ct.cts (g.cts env) ct.ents.length (grownCap a) → r.createEntity env g vals = .error (.ub .outOfBounds)) := by
  have gs := Group.spec hv
  obtain ⟨ai, hai, hfind⟩ := h.arch.find_colliding (env := env) gs.desc gs.valid ha (hlen.trans gs.len.symm) hid
  have hcl : ct.cts.length = g.length := by rw [hrep.desc.length, hlen]
  obtain ⟨n1, n2⟩ := IndexInArchetype.new_ofNat (n := ct.ents.length) (by omega)
  have hk := (List.getElem?_eq_some_iff.mp ha).1
  have hne : ai ≠ 65535 := by
    rintro rfl
    have := h.arch.le
    have h65 : (65535 : UInt16).toNat = 65535 := rfl
    omega
  obtain ⟨re', e, c1, c2⟩ := EntityRegistry.createEntity_ok (iia := ⟨UInt32.ofNat ct.ents.length⟩) (ai := ⟨ai⟩) h.ents hroom
    (by show (UInt32.ofNat ct.ents.length).toNat < _; rw [n2]; omega) hne
  obtain ⟨d1, d2, d3⟩ := c2.entry h.ents
  have hred : r.createEntity env g vals = (do
      let p ← a.pushEntityUnchecked env e g vals
      return (⟨re', r.archetypes.setArchetype k p.1⟩, .ok e)) := by
    unfold Registry.createEntity
    rw [if_neg (by simp [hv]), hfind]
    simp only [ok_bind]
    rw [hai, index_of_getElem? ha]
    simp only [ok_bind]
    rw [hrep.count, n1, ArchetypeIndex.new_ok hne]
    simp only [unwrap, ok_bind]
    rw [c1]
    rfl
  obtain ⟨p1, p2⟩ := hrep.push_collide hg gs hcl hid.symm e ht hlt
  constructor
  · intro hfit
    obtain ⟨a1, a', q1, q2⟩ := p1 hfit
    refine ⟨⟨re', r.archetypes.setArchetype k a'⟩, e, by rw [hred, q1]; rfl, d1, ?_, d3, a1, a', rfl, q2⟩
    rw [d2]
    show some (ai.toNat, (UInt32.ofNat ct.ents.length).toNat) = _
    rw [n2, hai]
  · intro hfit
    rw [hred, p2 hfit]
    rfl

/-! ## Reading afterwards -/

theorem getUnchecked_stored {ar : ArchetypeRegistry} {i : UInt16} {a : Archetype} (h : ar.archetypes[i.toNat]? = some a) :
    ar.getUnchecked i = .ok a := indexUnchecked_of_getElem? h

theorem getComponent_stored {r : Registry} {c : CompTy} {e : Entity} {en : EntityEntry} {a : Archetype}
    (he : r.entities.entityEntry env e = some en)
    (ha : r.archetypes.archetypes[(en.archetypeIndex env).toNat]? = some a) :
    r.getComponent env c e = (if ¬ a.descriptor.hasComponent c then .ok none else
      (a.getComponentUnchecked c en.indexInArchetype.value.toNat).map some) := by
  unfold Registry.getComponent
  rw [he]
  simp only []
  rw [getUnchecked_stored ha]
  simp only [ok_bind]
  split
  · rfl
  · cases a.getComponentUnchecked c en.indexInArchetype.value.toNat <;> rfl

theorem hasComponent_stored {r : Registry} {c : CompTy} {e : Entity} {en : EntityEntry} {a : Archetype}
    (he : r.entities.entityEntry env e = some en)
    (ha : r.archetypes.archetypes[(en.archetypeIndex env).toNat]? = some a) :
    r.hasComponent env c e = .ok (a.descriptor.hasComponent c) := by
  unfold Registry.hasComponent
  rw [he]
  simp only []
  rw [getUnchecked_stored ha]
  rfl

/-- Reading column `i` of an archetype that has the descriptor of a represented one. -/
theorem getUnchecked_column {a a' : Archetype} {ct : Content} (h : Rep W a ct) (hd : a'.descriptor = a.descriptor) {i j : Nat}
    {c : CompTy} {p : Option Block} (hc : ct.cts[i]? = some c) (hp : a'.pointers[i]? = some p) :
    a'.getComponentUnchecked c j = readVal p c.ty c.size c.align (c.size * j) := by
  unfold Archetype.getComponentUnchecked Archetype.componentRef
  rw [hd, h.desc.search hc]
  simp only [ok_bind]
  unfold Archetype.readRef
  simp only []
  rw [index_of_getElem? hp]
  rfl

/-- What is read from row `j` of the archetype after the colliding creation. -/
theorem read_collided {a a1 a' : Archetype} {ct : Content} {g : Group} {n : Nat} (h1 : Rep W a1 ct)
    (hd' : a'.descriptor = a.descriptor) (hd1 : a1.descriptor = a.descriptor)
    (hw : Wrote g (g.cts env) n a1.pointers a'.pointers) {i j : Nat} {c cg : CompTy} (hc : ct.cts[i]? = some c)
    (hcg : (g.cts env)[i]? = some cg) (hj : j < a1.capacity) :
    ((c.size * j + c.size ≤ cg.size * n ∨ cg.size * n + cg.size ≤ c.size * j ∨ cg.size = 0 ∨ c.size = 0) →
      a'.getComponentUnchecked c j = a1.getComponentUnchecked c j) ∧
    (¬ (c.size * j + c.size ≤ cg.size * n ∨ cg.size * n + cg.size ≤ c.size * j ∨ cg.size = 0 ∨ c.size = 0) →
      cg.ty ≠ c.ty → ∃ f, a'.getComponentUnchecked c j = .error (.ub f)) := by
  obtain ⟨b, b', v, q1, q2, q3, q4⟩ := hw.col i cg hcg
  obtain ⟨vs, b1, _, r2, r3, _⟩ := h1.column hc
  rw [q1] at r2; cases r2
  rw [getUnchecked_column h1 (hd'.trans hd1.symm) hc q2, getUnchecked_column h1 rfl hc q1]
  constructor
  · intro hap
    exact readVal_apart r3.align r3.mult (r3.bound hj) q4 (by rw [v.encode_length, q3.2]; omega)
  · intro hov hty
    exact readVal_overlap r3.align r3.mult (r3.bound hj) q4 (by rw [q3.1]; exact hty) (by omega) (by rw [q3.2]; omega)
      (by rw [q3.2]; omega) (by omega)

end Shard
