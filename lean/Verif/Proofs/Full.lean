import Verif.Proofs.ArchetypeMove
/-!
# What happens when an archetype with `2^23` rows has to grow

`resize_capacity` refuses the capacity `2^24` by freeing the storage; the following write goes through a null pointer
(or, for `push_entity_unchecked` in a debug build, fails a `debug_assert!`).
-/

namespace Shard

open Archetype

variable {env : Env} {W : World env} {a : Archetype} {ct : Content}

theorem forRange_same {σ : Type} {f : Nat → σ → M σ} {s : σ} : ∀ (n lo : Nat),
    (∀ i, lo ≤ i → i < lo + n → f i s = .ok s) → forRange lo n f s = .ok s
  | 0, _, _ => rfl
  | n + 1, lo, h => by
    simp only [forRange, h lo (Nat.le_refl _) (by omega)]
    exact forRange_same n (lo + 1) (fun i h1 h2 => h i (by omega) (by omega))

theorem forRange_err {σ : Type} {f : Nat → σ → M σ} {s : σ} {e : Fault} : ∀ (n lo : Nat),
    (∀ i, lo ≤ i → i < lo + n → f i s = .ok s ∨ f i s = .error e) →
    (∃ i, lo ≤ i ∧ i < lo + n ∧ f i s = .error e) → forRange lo n f s = .error e
  | 0, lo, _, ⟨i, h1, h2, _⟩ => by omega
  | n + 1, lo, h, ⟨i, h1, h2, h3⟩ => by
    rcases h lo (Nat.le_refl _) (by omega) with h0 | h0
    · simp only [forRange, h0]
      apply forRange_err n (lo + 1) (fun i h1 h2 => h i (by omega) (by omega))
      refine ⟨i, ?_, by omega, h3⟩
      rcases Nat.lt_or_ge lo i with hlt | hge
      · omega
      · have : i = lo := by omega
        subst this
        rw [h0] at h3; cases h3
    · simp only [forRange, h0]

theorem deallocLoop_none (h : Rep W a ct) : ∀ (n i : Nat) (ptrs : List (Option Block)),
    i + n = ct.cts.length → ptrs.length = 14 → (∀ j, i ≤ j → ptrs[j]? = a.pointers[j]?) → (∀ j, j < i → ptrs[j]? = some none) →
    ∃ ptrs', a.deallocLoop n i ptrs = .ok (ptrs', false) ∧ ∀ j, j < ct.cts.length → ptrs'[j]? = some none
  | 0, i, ptrs, hin, _, _, hq => ⟨ptrs, rfl, fun j hj => hq j (by omega)⟩
  | n + 1, i, ptrs, hin, hl, hp, hq => by
    have hle := h.desc.le
    have hc := List.getElem?_eq_getElem (show i < ct.cts.length by omega)
    obtain ⟨vs, b, h1, h2, h3, h4⟩ := h.column hc
    have hW := h.desc.world_of hc
    unfold Archetype.deallocLoop
    rw [index_of_getElem? (by rw [hp i (Nat.le_refl _), h2]), h.desc.index_comp hc]
    simp only [ok_bind, W.desc_size hW, W.desc_align hW]
    have hd : deallocBlock (some b) (ct.cts[i].size * a.capacity) ct.cts[i].align = .ok () := by
      unfold deallocBlock
      simp only []
      rw [if_neg (by rw [h3.size, h3.align]; simp)]
    rw [hd]
    simp only [ok_bind]
    exact deallocLoop_none h n (i + 1) _ (by omega) (by simpa using hl) (by
      intro j hj
      rw [List.getElem?_set_ne (by omega)]
      exact hp j (by omega)) (by
      intro j hj
      by_cases hij : i = j
      · subst hij; exact List.getElem?_set_self (by omega)
      · rw [List.getElem?_set_ne hij]; exact hq j (by omega))

/-- An archetype whose storage was freed under it. -/
structure Freed (a : Archetype) (d : ArchetypeDescriptor) (n : Nat) : Prop where
  desc : a.descriptor = d
  ptrs : ∀ j, j < d.len → a.pointers[j]? = some none
  ents : a.entityAssociations = none
  cap : a.capacity = 0
  count : a.entityCount = n

/-- Growing beyond `2^23` rows frees the storage. -/
theorem Rep.resize_full (h : Rep W a ct) (hfull : ct.ents.length = 8388608) :
    ∃ a', a.resizeIfNecessary env = .ok a' ∧ Freed a' a.descriptor ct.ents.length := by
  have hle := h.ents.len
  have hcle := h.cap.le
  have hcnt := h.count
  have hM : MAX_ENTITIES_PER_ARCHETYPE = 16777215 := rfl
  have hcap : a.capacity = 8388608 := by omega
  unfold Archetype.resizeIfNecessary Archetype.isFull
  rw [if_pos (by rw [hcnt, hcap, hfull]; simp), if_neg (by omega)]
  unfold Archetype.resizeCapacity
  simp only []
  rw [if_pos (by omega)]
  obtain ⟨ptrs, hp, hn⟩ := deallocLoop_none h ct.cts.length 0 a.pointers (by omega) h.cols.ptrs_len (by intros; rfl)
    (by intro j hj; omega)
  obtain ⟨l, hl, hll, _⟩ := h.ents.arr
  unfold Archetype.dealloc
  rw [← h.desc.length, hp]
  simp only [ok_bind, Bool.false_eq_true, if_false, hl]
  rw [if_neg (by simp [hll])]
  refine ⟨_, rfl, rfl, ?_, rfl, rfl, hcnt⟩
  intro j hj
  exact hn j (by rw [h.desc.length]; exact hj)

/-- Pushing onto an archetype that cannot grow. -/
theorem Rep.push_full (h : Rep W a ct) {g : Group} (hg : W.OkGroup g) (gs : GroupSpec env g) (hcts : ct.cts = g.cts env)
    (hid : (g.descriptor env).archetype.archetypeId = a.descriptor.archetypeId) (e : Entity) {vals : List Val}
    (ht : TypedVals g vals) (hfull : ct.ents.length = 8388608) :
    a.pushEntityUnchecked env e g vals = if env.debug then .error (.panic .debugAssert) else .error (.ub .nullDeref) := by
  obtain ⟨a', h1, h2⟩ := h.resize_full hfull
  unfold Archetype.pushEntityUnchecked
  have hv : (g.descriptor env).isValid = true := gs.valid
  have hid' : ((g.descriptor env).archetype.archetypeId == a.descriptor.archetypeId) = true := by rw [hid]; simp
  rw [debugAssert_true hv, debugAssert_true hid']
  simp only [ok_bind]
  rw [h1]
  simp only [ok_bind]
  unfold Archetype.writeEntityUnchecked
  simp only []
  have hcap : decide (a'.entityCount < a'.capacity) = false := by rw [h2.cap]; simp
  rw [hcap]
  cases hd : env.debug with
  | true =>
    simp only [debugAssert, hd]
    rfl
  | false =>
    have hda : ∀ b, debugAssert env b = .ok () := by intro b; simp [debugAssert, hd]
    simp only [hda, ok_bind]
    have hlen : (g.descriptor env).archetype.len = g.length := gs.len
    have hpos : 1 ≤ g.length := by rw [← hlen]; exact gs.desc.len_pos
    have hadl : a.descriptor.len = g.length := by
      rw [← h.desc.length, hcts]; exact (Group.cts_perm gs hg.has).1
    have hw : writeColumns (g.descriptor env).archetype a'.entityCount (asSortedPointers env g vals) a'.pointers =
        .error (.ub .nullDeref) := by
      unfold Archetype.writeColumns
      obtain ⟨m, hm⟩ : ∃ m, g.length = m + 1 := ⟨g.length - 1, by omega⟩
      rw [hlen, hm]
      simp only [forRange]
      obtain ⟨j, hj, hjs⟩ := gs.slot_surj (show 0 < g.length by omega)
      have hsp := asSortedPointers_spec gs (vals := vals) hj
      rw [hjs] at hsp
      obtain ⟨v, hv1, _, hv2⟩ := ht.lookup gs.wf.nodup' hj
      rw [hv1] at hsp
      have hc0 : (g.descriptor env).archetype.comps[0]? = some g[j].descriptor := by
        have := gs.slot j hj
        rw [hjs] at this
        exact (List.getElem?_take_of_lt (show 0 < (g.descriptor env).archetype.len by omega)).symm.trans this
      have hWj := hg.has _ (List.getElem_mem hj)
      rw [indexUnchecked_of_getElem? hc0, indexUnchecked_of_getElem? (h2.ptrs 0 (by omega)), indexUnchecked_of_getElem? hsp]
      simp only [ok_bind]
      have hrs : ∀ n, n ≤ v.bytes.length → readStack (some v) n = .ok (v.encode.take n) := by
        intro n hn; unfold readStack; simp only []; rw [if_pos hn]
      rw [hrs _ (by rw [W.desc_size hWj, hv2.2]; exact Nat.le_refl _)]
      rfl
    rw [hw]
    rfl

/-- Copying a row into an archetype whose storage was freed. -/
theorem Rep.copyCommon_freed {src dst : Archetype} {ctS : Content} (hS : Rep W src ctS) {k n m : Nat}
    (hk : k < ctS.ents.length) {d : ArchetypeDescriptor} {cts : List CompTy} (hd : DescOK W d cts) (hD : Freed dst d m)
    {c : CompTy} (hc : c ∈ cts) (hcS : c ∈ ctS.cts) : copyCommonComponents src k dst n = .error (.ub .nullDeref) := by
  unfold Archetype.copyCommonComponents
  have key : ∀ si c', ctS.cts[si]? = some c' →
      copyCommonInner src k dst n si c'.descriptor dst.pointers =
        (if c' ∈ cts then .error (.ub .nullDeref) else .ok dst.pointers) := by
    intro si c' hsi
    have hWs := hS.desc.world_of hsi
    obtain ⟨vs, b, q1, q2, q3, q4⟩ := hS.column hsi
    have hbody : ∀ di dc, cts[di]? = some dc → (do
        let dc' ← index dst.descriptor.components di
        if c'.descriptor.id ≠ dc'.id then return dst.pointers
        else
          let sp ← index src.pointers si
          let dp ← index dst.pointers di
          let bs ← readBytes sp (c'.descriptor.size * k) c'.descriptor.size
          let b ← writeBytes dp (dc'.size * n) bs
          setIndex dst.pointers di (some b) : M (List (Option Block))) =
          if c' = dc then .error (.ub .nullDeref) else .ok dst.pointers := by
      intro di dc hdi
      rw [hD.desc, hd.index_comp hdi]
      simp only [ok_bind]
      have hWd := hd.world_of hdi
      by_cases he : c' = dc
      · subst he
        rw [if_neg (by simp), if_pos rfl, index_of_getElem? q2,
          index_of_getElem? (hD.ptrs di (by rw [← hd.length]; exact (List.getElem?_eq_some_iff.mp hdi).1))]
        simp only [ok_bind]
        rw [W.desc_size hWs, readBytes_cell (q3.bound (by have := hS.ents.len; omega))]
        rfl
      · rw [if_neg he, if_pos]
        · rfl
        · intro hid; exact he (W.id_inj hWs hWd hid)
    unfold Archetype.copyCommonInner
    have hclen : dst.descriptor.components.length = cts.length := by rw [hD.desc, hd.clen]
    rw [hclen]
    split
    · next hm =>
      obtain ⟨di, hdi, hde⟩ := List.mem_iff_getElem.mp hm
      apply forRange_err
      · intro i _ hi
        have hi' : i < cts.length := by omega
        have := hbody i _ (List.getElem?_eq_getElem hi')
        split at this
        · exact Or.inr this
        · exact Or.inl this
      · refine ⟨di, by omega, by omega, ?_⟩
        have := hbody di _ (List.getElem?_eq_getElem hdi)
        rw [if_pos hde.symm] at this
        exact this
    · next hm =>
      apply forRange_same
      intro i _ hi
      have hi' : i < cts.length := by omega
      have := hbody i _ (List.getElem?_eq_getElem hi')
      rw [if_neg (by intro he; exact hm (he ▸ List.getElem_mem hi'))] at this
      exact this
  have hscl : src.descriptor.components.length = ctS.cts.length := hS.desc.clen
  have hloop : forRange 0 src.descriptor.components.length (fun si ptrs => do
      let sc ← index src.descriptor.components si
      copyCommonInner src k dst n si sc ptrs) dst.pointers = .error (.ub .nullDeref) := by
    rw [hscl]
    have hb : ∀ i (hi : i < ctS.cts.length), (do
        let sc ← index src.descriptor.components i
        copyCommonInner src k dst n i sc dst.pointers : M (List (Option Block))) =
          (if ctS.cts[i] ∈ cts then .error (.ub .nullDeref) else .ok dst.pointers) := by
      intro i hi
      rw [hS.desc.index_comp (List.getElem?_eq_getElem hi)]
      simp only [ok_bind]
      exact key i _ (List.getElem?_eq_getElem hi)
    apply forRange_err
    · intro i _ hi
      have := hb i (by omega)
      split at this
      · exact Or.inr this
      · exact Or.inl this
    · obtain ⟨i, hi, hie⟩ := List.mem_iff_getElem.mp hcS
      refine ⟨i, by omega, by omega, ?_⟩
      have := hb i hi
      rw [if_pos (hie ▸ hc)] at this
      exact this
  rw [hloop]
  rfl

end Shard
