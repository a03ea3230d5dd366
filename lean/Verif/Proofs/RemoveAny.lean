import Verif.Proofs.RegistryRead
/-!
# `remove_entity` with an arbitrary group
-/

set_option autoImplicit false

namespace Shard

open Archetype

variable {env : Env} {W : World env} {a : Archetype} {ct : Content}

theorem GroupSpec.mem_cts' {g : Group} (gs : GroupSpec env g) (hg : ∀ c ∈ g, W.Has c) {c : CompTy} :
    c ∈ g.cts env ↔ c ∈ g := by
  obtain ⟨hl, hW, hslot⟩ := Group.cts_perm gs hg
  constructor
  · intro hc
    have h1 : c.descriptor ∈ (g.cts env).map CompTy.descriptor := List.mem_map.mpr ⟨c, hc, rfl⟩
    rw [← Group.cts_comps gs] at h1
    obtain ⟨c', hc', he⟩ := List.mem_map.mp (gs.perm.mem_iff.mp h1)
    have : c'.id = c.id := congrArg ComponentDescriptor.id he
    rw [← W.id_inj (hg c' hc') (hW c hc) this]; exact hc'
  · intro hc
    obtain ⟨j, hj, rfl⟩ := List.mem_iff_getElem.mp hc
    exact List.mem_of_getElem? (hslot j hj)

/-- `swap_remove_unchecked` is: exchange the row with the last one, read the last row, shrink. -/
theorem Rep.swapRemove_core (h : Rep W a ct) {idx : Nat} (hi : idx < ct.ents.length) :
    ∃ a1 ct1 a', Rep W a1 ct1 ∧ ct1.cts = ct.cts ∧ ct1.ents.length = ct.ents.length ∧
      (∀ c, ct1.get c (ct.ents.length - 1) = ct.get c idx) ∧
      (∀ g, a.swapRemoveUnchecked env g idx = (a1.readComponentsExactUnchecked env g (ct.ents.length - 1)).bind
        (fun data => .ok (a', data, decide (idx ≠ ct.ents.length - 1)))) ∧
      a'.descriptor = a.descriptor ∧ a'.capacity = a.capacity ∧ Rep W a' (ct.swapPop idx) := by
  have hcnt := h.count
  by_cases hl : idx = ct.ents.length - 1
  · refine ⟨a, ct, { a with entityCount := ct.ents.length - 1 }, h, rfl, rfl, fun c => by rw [hl], fun g => ?_, rfl, rfl, ?_⟩
    · unfold Archetype.swapRemoveUnchecked
      rw [debugAssert_true (by simpa [hcnt] using hi), subU32_le (by omega), hcnt]
      simp only [ok_bind]
      rw [if_pos hl]
      have : decide (idx ≠ ct.ents.length - 1) = false := by simp [hl]
      rw [this, hl]
      cases a.readComponentsExactUnchecked env g (ct.ents.length - 1) <;> rfl
    · unfold Content.swapPop
      rw [← hl, ct.swap_self]
      rw [hl]; exact h.pop_spec
  · obtain ⟨a1, h1, h2, h3, h4⟩ := h.swapEntities_spec hl hi (by omega)
    have hc1 : a1.entityCount = ct.ents.length := by rw [h4.count]; simp [Content.swap, swapAt_length]
    have hl1 : (ct.swap idx (ct.ents.length - 1)).ents.length = ct.ents.length := by simp [Content.swap, swapAt_length]
    refine ⟨a1, ct.swap idx (ct.ents.length - 1), { a1 with entityCount := ct.ents.length - 1 }, h4, rfl, hl1,
      fun c => h.get_swap_last hi c, fun g => ?_, h2, h3, ?_⟩
    · unfold Archetype.swapRemoveUnchecked
      rw [debugAssert_true (by simpa [hcnt] using hi), subU32_le (by omega), hcnt]
      simp only [ok_bind]
      rw [if_neg hl, h1]
      simp only [ok_bind]
      rw [subU32_le (by omega)]
      simp only [ok_bind, hc1]
      have : decide (idx ≠ ct.ents.length - 1) = true := by simp [hl]
      rw [this]
      cases a1.readComponentsExactUnchecked env g (ct.ents.length - 1) <;> rfl
    · unfold Content.swapPop
      have := h4.pop_spec
      rwa [hl1] at this

/-- The pointer that `remove_entity` reads position `p` of the sorted group through. -/
theorem Rep.offsetPointer (h : Rep W a ct) (off : Nat) {p : Nat} (hp : p < 14) :
    (a.offsetSortedPointersUnchecked off).getD p none = (ct.cts[p]?).map (fun c => ⟨p, c.size * off⟩) := by
  have h14 : MAX_COMPONENTS_PER_ENTITY = 14 := rfl
  unfold offsetSortedPointersUnchecked
  rw [List.getD, List.getElem?_map, List.getElem?_range (by omega)]
  simp only [Option.map_some, Option.getD_some]
  cases hc : ct.cts[p]? with
  | none =>
    rw [if_neg (by rw [← h.desc.length]; have := List.getElem?_eq_none_iff.mp hc; omega)]; rfl
  | some c =>
    have hlt := (List.getElem?_eq_some_iff.mp hc).1
    obtain ⟨vs, b, q1, q2, q3, q4⟩ := h.column hc
    have hgd : a.pointers.getD p none = some b := by rw [List.getD, q2]; rfl
    rw [if_pos (by rw [← h.desc.length]; exact hlt), hgd]
    simp only []
    have : (a.descriptor.comps.getD p ComponentDescriptor.INVALID) = c.descriptor := by
      rw [h.desc.wf.getD_comps (by rw [← h.desc.length]; exact hlt)]
      obtain ⟨_, he⟩ := List.getElem?_eq_some_iff.mp (h.desc.comp_getElem? hc)
      exact he
    rw [this, W.desc_size (h.desc.world_of hc)]
    rfl

/-- A computation that does not panic. -/
def NoPanic {α : Type} (x : M α) : Prop := (∃ v, x = .ok v) ∨ ∃ k, x = .error (.ub k)

theorem decodeFrom_noPanic (ty : Nat) : ∀ (k : Nat) (bs : List (Option TByte)), NoPanic (decodeFrom ty k bs)
  | _, [] => Or.inl ⟨_, rfl⟩
  | _, none :: _ => Or.inr ⟨_, rfl⟩
  | k, some b :: rest => by
    unfold decodeFrom
    split
    · rcases decodeFrom_noPanic ty (k + 1) rest with ⟨v, hv⟩ | ⟨e, he⟩
      · rw [hv]; exact Or.inl ⟨_, rfl⟩
      · rw [he]; exact Or.inr ⟨_, rfl⟩
    · exact Or.inr ⟨_, rfl⟩

theorem readVal_noPanic (p : Option Block) (ty size align off : Nat) : NoPanic (readVal p ty size align off) := by
  unfold readVal checkAligned readBytes
  cases p with
  | none => exact Or.inr ⟨_, rfl⟩
  | some b =>
    simp only []
    split
    · simp only [ok_bind]
      split
      · simp only [ok_bind]
        unfold decodeVal
        rcases decodeFrom_noPanic ty 0 ((b.bytes.drop off).take size) with ⟨v, hv⟩ | ⟨e, he⟩
        · rw [hv]; exact Or.inl ⟨_, rfl⟩
        · rw [he]; exact Or.inr ⟨_, rfl⟩
      · exact Or.inr ⟨_, rfl⟩
    · exact Or.inr ⟨_, rfl⟩

theorem Rep.derefPtr_noPanic (h : Rep W a ct) (c : CompTy) (off : Nat) {p : Nat} (hp : p < 14) :
    NoPanic (a.derefPtr c ((a.offsetSortedPointersUnchecked off).getD p none)) := by
  rw [h.offsetPointer off hp]
  cases hc : ct.cts[p]? with
  | none => exact Or.inr ⟨_, rfl⟩
  | some c' =>
    simp only [Option.map_some, derefPtr, readRef]
    have : p < a.pointers.length := by rw [h.cols.ptrs_len]; exact hp
    rw [index_of_getElem? (List.getElem?_eq_getElem this)]
    exact readVal_noPanic _ _ _ _ _

theorem derefTuple_error {l : List (CompTy × Option Ref)} (hall : ∀ x ∈ l, NoPanic (a.derefPtr x.1 x.2))
    (hex : ∃ x ∈ l, ∃ k, a.derefPtr x.1 x.2 = .error (.ub k)) : ∃ k, a.derefTuple l = .error (.ub k) := by
  induction l with
  | nil => obtain ⟨x, hx, _⟩ := hex; cases hx
  | cons y l ih =>
    obtain ⟨c, p⟩ := y
    unfold derefTuple
    rcases hall _ List.mem_cons_self with ⟨v, hv⟩ | ⟨k, hk⟩
    · simp only at hv
      rw [hv]
      simp only [ok_bind]
      obtain ⟨k, hk⟩ := ih (fun x hx => hall x (List.mem_cons_of_mem _ hx)) (by
        obtain ⟨x, hx, k, hk⟩ := hex
        rcases List.mem_cons.mp hx with rfl | hx
        · simp only at hk; rw [hv] at hk; cases hk
        · exact ⟨x, hx, k, hk⟩)
      rw [hk]
      exact ⟨k, rfl⟩
    · simp only at hk
      rw [hk]
      exact ⟨k, rfl⟩

/-- Reading a stored value at another type. -/
theorem ColOK.read_other {c c' : CompTy} {cap : Nat} {b : Block} {vs : List Val} (h : ColOK c cap b vs) {k : Nat}
    (hk : k < vs.length) (hty : c'.ty ≠ c.ty) (hs : 0 < c.size) (hs' : 0 < c'.size) :
    ∃ u, readVal (some b) c'.ty c'.size c'.align (c.size * k) = .error (.ub u) := by
  rcases readVal_noPanic (some b) c'.ty c'.size c'.align (c.size * k) with ⟨v, hv⟩ | h
  · exfalso
    unfold readVal at hv
    cases hal : checkAligned (some b) c'.align (c.size * k) with
    | error f => rw [hal] at hv; cases hv
    | ok u =>
      rw [hal] at hv
      simp only [ok_bind] at hv
      unfold readBytes at hv
      simp only [] at hv
      split at hv
      · rename_i hle
        simp only [ok_bind] at hv
        obtain ⟨h1, h2, h3⟩ := h.cells k vs[k] (List.getElem?_eq_getElem hk)
        have hb : b.bytes[c.size * k]? = some (some ⟨c.ty, 0, vs[k].bytes[0]'(by omega)⟩) := by
          have : (cell b c.size k)[0]? = (vs[k].encode)[0]? := by rw [h3]
          unfold cell at this
          rw [List.getElem?_take, if_pos hs, List.getElem?_drop, Nat.add_zero] at this
          rw [this]
          unfold Val.encode
          rw [List.getElem?_mapIdx, List.getElem?_eq_getElem (by omega)]
          simp [h1]
        have hne : (b.bytes.drop (c.size * k)).take c'.size =
            some ⟨c.ty, 0, vs[k].bytes[0]'(by omega)⟩ :: ((b.bytes.drop (c.size * k)).take c'.size).tail := by
          apply List.ext_getElem?
          intro i
          cases i with
          | zero => rw [List.getElem?_take, if_pos hs', List.getElem?_drop, Nat.add_zero, hb]; rfl
          | succ i => simp
        rw [hne] at hv
        unfold decodeVal decodeFrom at hv
        rw [if_neg (by rintro ⟨h4, _⟩; exact hty h4.symm)] at hv
        cases hv
      · cases hv
  · exact h

/-- Reading a row through a group whose sorted types are not a prefix of the archetype's types. -/
theorem Rep.readExact_fault (h : Rep W a ct) {g : Group} (hg : ∀ c ∈ g, W.Has c) (gs : GroupSpec env g)
    (hsize : ∀ c, W.Has c → 0 < c.size) (hty : ∀ c c', W.Has c → W.Has c' → c.ty = c'.ty → c = c')
    (hno : ¬ g.cts env <+: ct.cts) {k : Nat} (hk : k < ct.ents.length) :
    ∃ u, a.readComponentsExactUnchecked env g k = .error (.ub u) := by
  have hle : g.length ≤ 14 := gs.wf.le
  obtain ⟨hl, hW, hslot⟩ := Group.cts_perm gs hg
  have hlt : ∀ j, j < g.length → g.slot env j < g.length := fun j hj => by rw [← gs.components_length]; exact gs.slot_lt hj
  obtain ⟨p, hp, hpe⟩ : ∃ p, p < g.length ∧ ct.cts[p]? ≠ (g.cts env)[p]? := by
    refine Classical.byContradiction fun hx => hno ?_
    have hx : ∀ p, p < g.length → ct.cts[p]? = (g.cts env)[p]? := fun p hp =>
      Classical.byContradiction fun hn => hx ⟨p, hp, hn⟩
    rw [List.prefix_iff_eq_take]
    apply List.ext_getElem?
    intro p
    rw [List.getElem?_take, hl]
    split
    · rename_i hp; exact (hx p hp).symm
    · exact List.getElem?_eq_none (by omega)
  -- the tuple position that is stored there
  obtain ⟨j, hj, hjs⟩ : ∃ j, ∃ hj : j < g.length, (g.cts env)[p]? = some g[j] ∧ g.slot env j = p := by
    have hmem : (g.cts env)[p]'(by omega) ∈ g.cts env := List.getElem_mem _
    have hc : (g.cts env)[p]? = some ((g.cts env)[p]'(by omega)) := List.getElem?_eq_getElem (by omega)
    have hmg : (g.cts env)[p]'(by omega) ∈ g := (gs.mem_cts' hg).mp hmem
    obtain ⟨j, hj, hje⟩ := List.mem_iff_getElem.mp hmg
    refine ⟨j, hj, by rw [hc, hje], ?_⟩
    have h1 := hslot j hj
    rw [hje] at h1
    have hnd : (g.cts env).Nodup := by
      have : ((g.cts env).map CompTy.descriptor).Nodup := by
        rw [← Group.cts_comps gs]
        exact nodup_of_map (f := fun c : ComponentDescriptor => c.id) gs.desc.ids_nodup
      exact nodup_of_map this
    exact (List.getElem?_inj (by rw [hl]; exact hlt j hj) hnd).mp (h1.trans hc.symm)
  unfold readComponentsExactUnchecked
  apply derefTuple_error
  · intro x hx
    unfold tuplePointers at hx
    obtain ⟨i, hi, rfl⟩ := List.mem_mapIdx.mp hx
    exact h.derefPtr_noPanic _ _ (by have := hlt i hi; omega)
  · refine ⟨(g[j], (a.offsetSortedPointersUnchecked k).getD (g.slot env j) none), ?_, ?_⟩
    · unfold tuplePointers
      exact List.mem_mapIdx.mpr ⟨j, hj, rfl⟩
    · simp only []
      rw [hjs.2, h.offsetPointer k (by omega)]
      cases hc : ct.cts[p]? with
      | none => exact ⟨_, rfl⟩
      | some c =>
        obtain ⟨vs, b, q1, q2, q3, q4⟩ := h.column hc
        simp only [Option.map_some, derefPtr, readRef]
        rw [index_of_getElem? q2]
        have hWc := h.desc.world_of hc
        have hWg := hg _ (List.getElem_mem hj)
        refine q3.read_other (by omega) ?_ (hsize c hWc) (hsize _ hWg)
        intro he
        have := hty _ _ hWg hWc he
        rw [hc, hjs.1, this] at hpe
        exact hpe rfl

/-- Reading a row through a group whose sorted types are a prefix of the archetype's types. -/
theorem Rep.readExact_prefix (h : Rep W a ct) {g : Group} (hg : ∀ c ∈ g, W.Has c) (gs : GroupSpec env g)
    (hpre : g.cts env <+: ct.cts) {k : Nat} (hk : k < ct.ents.length) :
    a.readComponentsExactUnchecked env g k = .ok (g.map (fun c => (ct.get c k).getD default)) := by
  obtain ⟨hl, hW, hslot⟩ := Group.cts_perm gs hg
  have hle : g.length ≤ 14 := gs.wf.le
  have hp : GoodPtrs env ct.cts g (a.offsetSortedPointersUnchecked k) k := by
    intro j hj
    have hlt : g.slot env j < g.length := by rw [← gs.components_length]; exact gs.slot_lt hj
    have h1 : ct.cts[g.slot env j]? = some g[j] := by
      rw [List.prefix_iff_eq_take] at hpre
      have := hslot j hj
      rw [hpre, List.getElem?_take, if_pos (by rw [hl]; exact hlt)] at this
      exact this
    rw [h.offsetPointer k (by omega), h1, h.idxOf_eq h1]
    rfl
  unfold readComponentsExactUnchecked
  rw [tuplePointers_eq hp]
  exact h.derefTuple_ok hk g (fun c hc => hpre.subset ((gs.mem_cts' hg).mpr hc))

/-- `remove_entity` of a live entity: the registry is the one `destroy_entity` produces, the result is what is read. -/
theorem RInv.removeEntity_core {r : Registry} {cs : List Content} (h : RInv W r cs) {e : Entity} {f : CompTy → Option Val}
    (hf : r.look env cs e = some f) :
    ∃ (a1 : Archetype) (ct1 : Content) (k : Nat) (r' : Registry) (cs' : List Content) (vs : List Val), Rep W a1 ct1 ∧ k < ct1.ents.length ∧ (∀ c, ct1.get c k = f c) ∧
      (∀ g, r.removeEntity env g e = (a1.readComponentsExactUnchecked env g k).bind (fun data => .ok (r', some data))) ∧
      Removed W r cs e r' cs' vs := by
  obtain ⟨en, he⟩ := h.look_some hf
  obtain ⟨a, ct, ha, hc, hr, hk, _, hlook⟩ := h.entry he
  rw [hlook] at hf; cases hf
  have hkl := (List.getElem?_eq_some_iff.mp hk).1
  obtain ⟨a1, ct1, a', s0, _, s1, s2, s3, s4, s5, s6⟩ := hr.swapRemove_core (env := env) hkl
  obtain ⟨m, r2, m1, m2, m3⟩ := h.removal he ha hc s4 s5 s6 (a'.entityAt en.indexInArchetype.value.toNat) (by
    intro hne sw hsw
    apply s6.entityAt_ok
    rw [swapPop_ents hkl, if_neg (by omega), if_pos rfl]
    exact hsw)
  refine ⟨a1, ct1, ct.ents.length - 1, _, _, _, s0, by omega, s2, fun g => ?_, m3⟩
  unfold Registry.removeEntity
  rw [he]
  simp only []
  unfold ArchetypeRegistry.getUnchecked
  rw [indexUnchecked_of_getElem? ha]
  simp only [ok_bind]
  rw [s3]
  cases a1.readComponentsExactUnchecked env g (ct.ents.length - 1) with
  | error f => rfl
  | ok data =>
    simp only [Except.bind, ok_bind]
    rw [m1]
    simp only [ok_bind]
    rw [m2, debugAssert_true rfl]
    rfl

end Shard
