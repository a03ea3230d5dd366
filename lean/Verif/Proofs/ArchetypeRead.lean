import Verif.Proofs.ArchetypeOps
/-!
# The archetype: tuple accesses, slices, entity handles, stores through references
-/

namespace Shard

open Archetype

variable {env : Env} {W : World env} {a : Archetype} {ct : Content}

/-! ## Positions of components -/

theorem idxOf_getElem? {cts : List CompTy} {c : CompTy} (h : c ∈ cts) : cts[cts.idxOf c]? = some c := by
  have hlt := List.idxOf_lt_length_iff.mpr h
  rw [List.getElem?_eq_getElem hlt, List.getElem_idxOf]

theorem Rep.idxOf_eq (h : Rep W a ct) {i : Nat} {c : CompTy} (hc : ct.cts[i]? = some c) : ct.cts.idxOf c = i :=
  h.desc.id_inj (idxOf_getElem? (List.mem_of_getElem? hc)) hc rfl

/-- In strictly sorted lists, an element of a subset does not come later than in the superset. -/
theorem sorted_subset_pos {l1 l2 : List UInt16} (h1 : l1.Pairwise (fun a b => a < b)) (h2 : l2.Pairwise (fun a b => a < b))
    (hs : ∀ x ∈ l1, x ∈ l2) {i k : Nat} {x : UInt16} (hi : l1[i]? = some x) (hk : l2[k]? = some x) : i ≤ k := by
  obtain ⟨hi', hie⟩ := List.getElem?_eq_some_iff.mp hi
  obtain ⟨hk', hke⟩ := List.getElem?_eq_some_iff.mp hk
  have hlen : (l1.take (i + 1)).length ≤ (l2.take (k + 1)).length := by
    apply nodup_subset_length
    · have : l1.Nodup := h1.imp (by intro a b hab he; rw [he] at hab; exact UInt16.lt_irrefl _ hab)
      exact this.sublist (List.take_sublist _ _)
    · intro y hy
      obtain ⟨m, hm, rfl⟩ := List.mem_iff_getElem.mp hy
      rw [List.length_take] at hm
      rw [List.getElem_take]
      obtain ⟨q, hq, hqe⟩ := List.mem_iff_getElem.mp (hs l1[m] (List.getElem_mem (by omega)))
      rw [← hqe]
      have hqk : q ≤ k := by
        refine Classical.byContradiction fun hlt => ?_
        have h3 := List.pairwise_iff_getElem.mp h2 k q hk' hq (by omega)
        rw [hqe, hke] at h3
        rcases Nat.lt_or_ge m i with hmi | hmi
        · have h4 := List.pairwise_iff_getElem.mp h1 m i (by omega) hi' hmi
          rw [hie] at h4
          exact UInt16.lt_irrefl _ (UInt16.lt_trans h3 h4)
        · have : m = i := by omega
          subst this
          rw [hie] at h3
          exact UInt16.lt_irrefl _ h3
      rw [List.mem_iff_getElem]
      exact ⟨q, by rw [List.length_take]; omega, by rw [List.getElem_take]⟩
  rw [List.length_take, List.length_take] at hlen
  omega

theorem fuzzyFind_spec {d : ArchetypeDescriptor} {cts : List CompTy} (h : DescOK W d cts) (had : a.descriptor = d)
    {p : Nat} {c : CompTy} (hc : cts[p]? = some c) : ∀ (n check : Nat), check ≤ p → p < check + n →
      a.fuzzyFind c.id n check = some p
  | 0, check, h1, h2 => by omega
  | n + 1, check, h1, h2 => by
    have hp := (List.getElem?_eq_some_iff.mp hc).1
    have hlt : check < cts.length := by omega
    have hg : (a.descriptor.comps.getD check ComponentDescriptor.INVALID).id = cts[check].id := by
      rw [had, h.wf.getD_comps (by rw [← h.length]; exact hlt)]
      have := h.comp_getElem? (List.getElem?_eq_getElem hlt)
      obtain ⟨_, he⟩ := List.getElem?_eq_some_iff.mp this
      rw [he]; rfl
    unfold fuzzyFind
    rw [hg]
    by_cases hcp : check = p
    · subst hcp
      have : cts[check] = c := by
        rw [List.getElem?_eq_getElem hlt] at hc
        exact Option.some.inj hc
      rw [if_pos (by rw [this])]
    · rw [if_neg]
      · exact fuzzyFind_spec h had hc n (check + 1) (by omega) (by omega)
      · intro he
        exact hcp (h.id_inj (List.getElem?_eq_getElem hlt) hc he)

/-- `ptrs` are pointers to the components of the group `g` in row `off`. -/
def GoodPtrs (env : Env) (cts : List CompTy) (g : Group) (ptrs : List (Option Ref)) (off : Nat) : Prop :=
  ∀ j (hj : j < g.length), ptrs.getD (g.slot env j) none = some ⟨cts.idxOf g[j], g[j].size * off⟩

theorem DescOK.fuzzyPointers {cts : List CompTy} (h : DescOK W a.descriptor cts) {g : Group} (gs : GroupSpec env g) (hsub : ∀ c ∈ g, c ∈ cts) (off : Nat) :
    GoodPtrs env cts g (a.getFuzzyPointersUnchecked env g off) off := by
  intro j hj
  have hsl := gs.slot_lt hj
  have hsl' : g.slot env j < g.length := by rw [← gs.components_length]; exact hsl
  have h14 : MAX_COMPONENTS_PER_ENTITY = 14 := rfl
  have hgl := gs.wf.le
  unfold getFuzzyPointersUnchecked
  rw [List.getD, List.getElem?_map, List.getElem?_range (by omega)]
  simp only [Option.map_some, Option.getD_some, gs.slot j hj]
  have hmem := hsub g[j] (List.getElem_mem hj)
  have hc := idxOf_getElem? hmem
  have hpl := (List.getElem?_eq_some_iff.mp hc).1
  have hW := h.world_of hc
  have hle : g.slot env j ≤ cts.idxOf g[j] := by
    refine sorted_subset_pos gs.desc.ids_sorted h.wf.ids_sorted ?_ (x := g[j].id) ?_ ?_
    · intro x hx
      obtain ⟨c, hcg, rfl⟩ := (gs.mem_ids x).mp hx
      rw [h.ids_eq]
      exact List.mem_map.mpr ⟨c, hsub c hcg, rfl⟩
    · unfold ArchetypeDescriptor.ids
      rw [List.getElem?_map, gs.slot j hj]; rfl
    · rw [h.ids_eq, List.getElem?_map, hc]; rfl
  have hf := fuzzyFind_spec h rfl hc (a.descriptor.len - g.slot env j) (g.slot env j) hle
    (by rw [← h.length]; omega)
  have hid : g[j].descriptor.id = g[j].id := rfl
  rw [hid, hf, W.desc_size hW]

theorem Rep.fuzzyPointers (h : Rep W a ct) {g : Group} (gs : GroupSpec env g) (hsub : ∀ c ∈ g, c ∈ ct.cts) (off : Nat) :
    GoodPtrs env ct.cts g (a.getFuzzyPointersUnchecked env g off) off := h.desc.fuzzyPointers gs hsub off

theorem tuplePointers_eq {g : Group} {ptrs : List (Option Ref)} {cts : List CompTy} {off : Nat}
    (hp : GoodPtrs env cts g ptrs off) :
    tuplePointers env g ptrs = g.map (fun c => (c, some ⟨cts.idxOf c, c.size * off⟩)) := by
  unfold tuplePointers
  apply List.ext_getElem (by simp)
  intro j h1 h2
  have hj : j < g.length := by simpa using h2
  simp only [List.getElem_mapIdx, List.getElem_map]
  rw [hp j hj]

theorem Rep.derefTuple_ok (h : Rep W a ct) {k : Nat} (hk : k < ct.ents.length) : ∀ (g : Group), (∀ c ∈ g, c ∈ ct.cts) →
    a.derefTuple (g.map (fun c => (c, some ⟨ct.cts.idxOf c, c.size * k⟩))) =
      .ok (g.map (fun c => (ct.get c k).getD default))
  | [], _ => rfl
  | c :: g, hs => by
    have hc := hs c List.mem_cons_self
    obtain ⟨v, hv, _⟩ := h.get_some hc hk
    simp only [List.map_cons, derefTuple, derefPtr]
    rw [h.readRef_ok (idxOf_getElem? hc) hv, h.derefTuple_ok hk g (fun x hx => hs x (List.mem_cons_of_mem _ hx))]
    simp only [ok_bind, hv, Option.getD_some]
    rfl

theorem Rep.getFuzzyComponents_ok (h : Rep W a ct) {g : Group} (gs : GroupSpec env g) (hsub : ∀ c ∈ g, c ∈ ct.cts)
    {k : Nat} (hk : k < ct.ents.length) :
    a.getFuzzyComponentsUnchecked env g k = .ok (g.map (fun c => (ct.get c k).getD default)) := by
  have hv : (g.descriptor env).isValid = true := gs.valid
  unfold getFuzzyComponentsUnchecked
  rw [debugAssert_true hv, tuplePointers_eq (h.fuzzyPointers gs hsub k)]
  exact h.derefTuple_ok hk g hsub

theorem Rep.getFuzzyComponentsMut_ok (h : Rep W a ct) {g : Group} (gs : GroupSpec env g) (hsub : ∀ c ∈ g, c ∈ ct.cts)
    {k : Nat} (hk : k < ct.ents.length) :
    a.getFuzzyComponentsUncheckedMut env g k = .ok (g.map (fun c => (c, some ⟨ct.cts.idxOf c, c.size * k⟩))) := by
  have hv : (g.descriptor env).isValid = true := gs.valid
  unfold getFuzzyComponentsUncheckedMut
  rw [debugAssert_true hv, tuplePointers_eq (h.fuzzyPointers gs hsub k)]
  simp only [ok_bind]
  rw [h.derefTuple_ok hk g hsub]
  rfl

/-! ## Slices -/

theorem sliceTuple_ok {g : Group} {ptrs : List (Option Ref)} {cts : List CompTy} {off len : Nat}
    (hp : GoodPtrs env cts g ptrs off) :
    sliceTuple env g ptrs len = .ok (g.map (fun c => ⟨c, ⟨cts.idxOf c, c.size * off⟩, len⟩)) := by
  unfold sliceTuple
  rw [tuplePointers_eq hp]
  rw [mapM_ok (g := fun cp => (⟨cp.1, ⟨cts.idxOf cp.1, cp.1.size * off⟩, len⟩ : SliceRef))]
  · rw [List.map_map]; rfl
  · intro cp hcp
    obtain ⟨c, _, rfl⟩ := List.mem_map.mp hcp
    rfl

theorem Rep.readSliceRef_ok (h : Rep W a ct) {c : CompTy} (hc : c ∈ ct.cts) :
    a.readSliceRef ⟨c, ⟨ct.cts.idxOf c, c.size * 0⟩, a.entityCount⟩ = .ok ((lookupTy ct.cts ct.cols c).getD []) := by
  obtain ⟨vs, b, h1, h2, h3, h4⟩ := h.column (idxOf_getElem? hc)
  unfold readSliceRef
  simp only []
  rw [index_of_getElem? h2]
  simp only [ok_bind]
  rw [h3.readSlice_ok 0 a.entityCount (by rw [h.count]; omega), h.lookupTy_eq (idxOf_getElem? hc) h1]
  rw [h.count, ← h4]
  simp

theorem Rep.readSlices_ok (h : Rep W a ct) {g : Group} (hsub : ∀ c ∈ g, c ∈ ct.cts) :
    (g.map (fun c => (⟨c, ⟨ct.cts.idxOf c, c.size * 0⟩, a.entityCount⟩ : SliceRef))).mapM a.readSliceRef =
      .ok (g.map (fun c => (lookupTy ct.cts ct.cols c).getD [])) := by
  rw [mapM_ok (g := fun s => (lookupTy ct.cts ct.cols s.cty).getD [])]
  · rw [List.map_map]; rfl
  · intro s hs
    obtain ⟨c, hc, rfl⟩ := List.mem_map.mp hs
    exact h.readSliceRef_ok (hsub c hc)

/-- The slices of a group in an archetype. -/
def sliceRefs (cts : List CompTy) (g : Group) (n : Nat) : List SliceRef :=
  g.map (fun c => ⟨c, ⟨cts.idxOf c, 0⟩, n⟩)

theorem sliceRefs_eq (cts : List CompTy) (g : Group) (n : Nat) :
    g.map (fun c => (⟨c, ⟨cts.idxOf c, c.size * 0⟩, n⟩ : SliceRef)) = sliceRefs cts g n := by
  unfold sliceRefs
  simp

theorem Rep.getFuzzySlices_ok (h : Rep W a ct) {g : Group} (gs : GroupSpec env g) (hsub : ∀ c ∈ g, c ∈ ct.cts) :
    a.getFuzzySlicesUnchecked env g = .ok (g.map (fun c => (lookupTy ct.cts ct.cols c).getD [])) := by
  have hv : (g.descriptor env).isValid = true := gs.valid
  unfold getFuzzySlicesUnchecked
  rw [debugAssert_true hv, sliceTuple_ok (h.fuzzyPointers gs hsub 0)]
  exact h.readSlices_ok hsub

theorem Rep.getFuzzySlicesMut_ok (h : Rep W a ct) {g : Group} (gs : GroupSpec env g) (hsub : ∀ c ∈ g, c ∈ ct.cts) :
    a.getFuzzySlicesUncheckedMut env g = .ok (sliceRefs ct.cts g ct.ents.length) := by
  have hv : (g.descriptor env).isValid = true := gs.valid
  unfold getFuzzySlicesUncheckedMut
  rw [debugAssert_true hv, sliceTuple_ok (h.fuzzyPointers gs hsub 0)]
  simp only [ok_bind]
  rw [h.readSlices_ok hsub, sliceRefs_eq, h.count]
  rfl

/-! ## Entity handles -/

theorem Rep.entitiesRaw_ok (h : Rep W a ct) : a.entitiesRaw = .ok (ct.ents.map some) := by
  obtain ⟨l, hl, hll, hl3⟩ := h.ents.arr
  have hle := h.ents.len
  unfold entitiesRaw
  rw [hl]
  simp only []
  rw [if_pos (by rw [h.count]; omega), h.count]
  congr 1
  apply List.ext_getElem?
  intro k
  rw [List.getElem?_take, List.getElem?_map]
  by_cases hk : k < ct.ents.length
  · rw [if_pos hk, List.getElem?_eq_getElem hk, hl3 k _ (List.getElem?_eq_getElem hk)]; rfl
  · rw [if_neg hk, List.getElem?_eq_none (by omega)]; rfl

theorem Rep.entities_ok (h : Rep W a ct) : a.entities = .ok ct.ents := by
  unfold Archetype.entities
  rw [h.entitiesRaw_ok]
  simp only [ok_bind]
  rw [mapM_ok (g := fun o => o.getD Entity.INVALID)]
  · rw [List.map_map]
    congr 1
    conv => rhs; rw [← List.map_id ct.ents]
    rfl
  · intro o ho
    obtain ⟨e, _, rfl⟩ := List.mem_map.mp ho
    rfl

theorem Rep.entityAt_ok (h : Rep W a ct) {k : Nat} {e : Entity} (hk : ct.ents[k]? = some e) : a.entityAt k = .ok e := by
  unfold Archetype.entityAt
  rw [h.entitiesRaw_ok]
  simp only [ok_bind]
  rw [index_of_getElem? (show (ct.ents.map some)[k]? = some (some e) by rw [List.getElem?_map, hk]; rfl)]
  rfl

theorem Rep.entityAtUnchecked_ok (h : Rep W a ct) {k : Nat} {e : Entity} (hk : ct.ents[k]? = some e) :
    a.entityAtUnchecked k = .ok e := by
  unfold Archetype.entityAtUnchecked
  rw [h.entitiesRaw_ok]
  simp only [ok_bind]
  rw [indexUnchecked_of_getElem? (show (ct.ents.map some)[k]? = some (some e) by rw [List.getElem?_map, hk]; rfl)]
  rfl

theorem Rep.getEntityFuzzySlices_ok (h : Rep W a ct) {g : Group} (gs : GroupSpec env g) (hsub : ∀ c ∈ g, c ∈ ct.cts) :
    a.getEntityFuzzySlicesUnchecked env g = .ok (ct.ents, g.map (fun c => (lookupTy ct.cts ct.cols c).getD [])) := by
  have hv : (g.descriptor env).isValid = true := gs.valid
  unfold getEntityFuzzySlicesUnchecked
  rw [debugAssert_true hv, sliceTuple_ok (h.fuzzyPointers gs hsub 0), h.entities_ok]
  simp only [ok_bind]
  rw [h.readSlices_ok hsub]
  rfl

theorem Rep.getEntityFuzzySlicesMut_ok (h : Rep W a ct) {g : Group} (gs : GroupSpec env g) (hsub : ∀ c ∈ g, c ∈ ct.cts) :
    a.getEntityFuzzySlicesUncheckedMut env g = .ok (ct.ents, sliceRefs ct.cts g ct.ents.length) := by
  have hv : (g.descriptor env).isValid = true := gs.valid
  unfold getEntityFuzzySlicesUncheckedMut
  rw [debugAssert_true hv, sliceTuple_ok (h.fuzzyPointers gs hsub 0), h.entities_ok]
  simp only [ok_bind]
  rw [h.readSlices_ok hsub, sliceRefs_eq, h.count]
  rfl

/-! ## Exact access -/

theorem DescOK.idxOf_eq {d : ArchetypeDescriptor} {cts : List CompTy} (h : DescOK W d cts) {i : Nat} {c : CompTy}
    (hc : cts[i]? = some c) : cts.idxOf c = i := h.id_inj (idxOf_getElem? (List.mem_of_getElem? hc)) hc rfl

theorem DescOK.exact_slot {d : ArchetypeDescriptor} {cts : List CompTy} (h : DescOK W d cts) {g : Group}
    (hg : ∀ c ∈ g, W.Has c) (gs : GroupSpec env g) (hcts : cts = g.cts env) {j : Nat} (hj : j < g.length) :
    cts[g.slot env j]? = some g[j] ∧ cts.idxOf g[j] = g.slot env j := by
  have h1 : cts[g.slot env j]? = some g[j] := by
    rw [hcts]; exact (Group.cts_perm gs hg).2.2 j hj
  exact ⟨h1, h.idxOf_eq h1⟩

theorem DescOK.offsetPointers {cts : List CompTy} (h : DescOK W a.descriptor cts)
    (hp : ∀ i, i < cts.length → ∃ b, a.pointers[i]? = some (some b)) {g : Group} (hg : ∀ c ∈ g, W.Has c)
    (gs : GroupSpec env g) (hcts : cts = g.cts env) (off : Nat) :
    GoodPtrs env cts g (a.offsetSortedPointersUnchecked off) off := by
  intro j hj
  obtain ⟨h1, h2⟩ := h.exact_slot hg gs hcts hj
  have h14 : MAX_COMPONENTS_PER_ENTITY = 14 := rfl
  have hlt := (List.getElem?_eq_some_iff.mp h1).1
  have := h.le
  obtain ⟨b, q2⟩ := hp _ hlt
  have hW := h.world_of h1
  unfold offsetSortedPointersUnchecked
  rw [List.getD, List.getElem?_map, List.getElem?_range (by omega)]
  simp only [Option.map_some, Option.getD_some]
  have hgd : a.pointers.getD (g.slot env j) none = some b := by rw [List.getD, q2]; rfl
  rw [if_pos (by rw [← h.length]; exact hlt), hgd, h2]
  simp only []
  have : (a.descriptor.comps.getD (g.slot env j) ComponentDescriptor.INVALID) = g[j].descriptor := by
    rw [h.wf.getD_comps (by rw [← h.length]; exact hlt)]
    obtain ⟨_, he⟩ := List.getElem?_eq_some_iff.mp (h.comp_getElem? h1)
    exact he
  rw [this, W.desc_size hW]

theorem DescOK.basePointers {cts : List CompTy} (h : DescOK W a.descriptor cts)
    (hp : ∀ i, i < cts.length → ∃ b, a.pointers[i]? = some (some b)) {g : Group} (hg : ∀ c ∈ g, W.Has c)
    (gs : GroupSpec env g) (hcts : cts = g.cts env) : GoodPtrs env cts g a.basePointers 0 := by
  intro j hj
  obtain ⟨h1, h2⟩ := h.exact_slot hg gs hcts hj
  obtain ⟨b, q2⟩ := hp _ (List.getElem?_eq_some_iff.mp h1).1
  unfold Archetype.basePointers
  rw [List.getD, List.getElem?_mapIdx, q2, h2]
  simp

theorem Rep.pointers_some (h : Rep W a ct) : ∀ i, i < ct.cts.length → ∃ b, a.pointers[i]? = some (some b) := by
  intro i hi
  obtain ⟨_, b, _, h2, _⟩ := h.column (List.getElem?_eq_getElem hi)
  exact ⟨b, h2⟩

theorem Rep.offsetPointers (h : Rep W a ct) {g : Group} (hg : ∀ c ∈ g, W.Has c) (gs : GroupSpec env g)
    (hcts : ct.cts = g.cts env) (off : Nat) : GoodPtrs env ct.cts g (a.offsetSortedPointersUnchecked off) off :=
  h.desc.offsetPointers h.pointers_some hg gs hcts off

theorem Rep.basePointers (h : Rep W a ct) {g : Group} (hg : ∀ c ∈ g, W.Has c) (gs : GroupSpec env g)
    (hcts : ct.cts = g.cts env) : GoodPtrs env ct.cts g a.basePointers 0 :=
  h.desc.basePointers h.pointers_some hg gs hcts

theorem exact_sub {g : Group} (hg : W.OkGroup g) (gs : GroupSpec env g) (hcts : ct.cts = g.cts env) :
    ∀ c ∈ g, c ∈ ct.cts := by
  intro c hc
  rw [hcts]
  exact (gs.mem_cts hg).mpr hc

theorem Rep.readExact_ok (h : Rep W a ct) {g : Group} (hg : W.OkGroup g) (gs : GroupSpec env g)
    (hcts : ct.cts = g.cts env) {k : Nat} (hk : k < ct.ents.length) :
    a.readComponentsExactUnchecked env g k = .ok (g.map (fun c => (ct.get c k).getD default)) := by
  unfold readComponentsExactUnchecked
  rw [tuplePointers_eq (h.offsetPointers hg.has gs hcts k)]
  exact h.derefTuple_ok hk g (exact_sub hg gs hcts)

theorem Rep.getSlicesExact_ok (h : Rep W a ct) {g : Group} (hg : W.OkGroup g) (gs : GroupSpec env g)
    (hcts : ct.cts = g.cts env) (hid : (g.descriptor env).archetype.archetypeId = a.descriptor.archetypeId) :
    a.getSlicesUncheckedExact env g = .ok (g.map (fun c => (lookupTy ct.cts ct.cols c).getD [])) := by
  unfold getSlicesUncheckedExact
  rw [debugAssert_true (by rw [hid]; simp), sliceTuple_ok (h.basePointers hg.has gs hcts)]
  exact h.readSlices_ok (exact_sub hg gs hcts)

theorem Rep.getSlicesExactMut_ok (h : Rep W a ct) {g : Group} (hg : W.OkGroup g) (gs : GroupSpec env g)
    (hcts : ct.cts = g.cts env) (hid : (g.descriptor env).archetype.archetypeId = a.descriptor.archetypeId) :
    a.getSlicesUncheckedExactMut env g = .ok (sliceRefs ct.cts g ct.ents.length) := by
  unfold getSlicesUncheckedExactMut
  rw [debugAssert_true (by rw [hid]; simp), sliceTuple_ok (h.basePointers hg.has gs hcts)]
  simp only [ok_bind]
  rw [h.readSlices_ok (exact_sub hg gs hcts), sliceRefs_eq, h.count]
  rfl

theorem Rep.get_swap_last (h : Rep W a ct) {idx : Nat} (hi : idx < ct.ents.length) (c : CompTy) :
    (ct.swap idx (ct.ents.length - 1)).get c (ct.ents.length - 1) = ct.get c idx := by
  unfold Content.get Content.swap
  simp only [lookupTy_map]
  cases hx : lookupTy ct.cts ct.cols c with
  | none => rfl
  | some vs =>
    obtain ⟨i, h1, h2⟩ := lookupTy_some_mem hx
    have hvl := h.lens i vs h2
    simp only [Option.map_some, Option.bind_some]
    rw [getElem?_swapAt (by omega) (by omega), if_pos rfl]

theorem Rep.swapRemove_spec (h : Rep W a ct) {g : Group} (hg : W.OkGroup g) (gs : GroupSpec env g)
    (hcts : ct.cts = g.cts env) {idx : Nat} (hi : idx < ct.ents.length) :
    ∃ a', a.swapRemoveUnchecked env g idx =
        .ok (a', g.map (fun c => (ct.get c idx).getD default), decide (idx ≠ ct.ents.length - 1)) ∧
      a'.descriptor = a.descriptor ∧ a'.capacity = a.capacity ∧ Rep W a' (ct.swapPop idx) := by
  have hcnt := h.count
  unfold Archetype.swapRemoveUnchecked
  rw [debugAssert_true (by simpa [hcnt] using hi), subU32_le (by omega), hcnt]
  simp only [ok_bind]
  by_cases hl : idx = ct.ents.length - 1
  · rw [if_pos hl, h.readExact_ok hg gs hcts hi]
    refine ⟨{ a with entityCount := ct.ents.length - 1 }, ?_, rfl, rfl, ?_⟩
    · have : decide (idx ≠ ct.ents.length - 1) = false := by simp [hl]
      rw [this]; rfl
    · unfold Content.swapPop
      rw [← hl, ct.swap_self]
      rw [hl]; exact h.pop_spec
  · rw [if_neg hl]
    obtain ⟨a1, h1, h2, h3, h4⟩ := h.swapEntities_spec hl hi (by omega)
    have hc1 : a1.entityCount = ct.ents.length := by rw [h4.count]; simp [Content.swap, swapAt_length]
    have hl1 : (ct.swap idx (ct.ents.length - 1)).ents.length = ct.ents.length := by simp [Content.swap, swapAt_length]
    rw [h1]
    simp only [ok_bind]
    rw [subU32_le (by omega)]
    simp only [ok_bind, hc1]
    rw [h4.readExact_ok hg gs hcts (by rw [hl1]; omega)]
    refine ⟨{ a1 with entityCount := ct.ents.length - 1 }, ?_, h2, h3, ?_⟩
    · have : decide (idx ≠ ct.ents.length - 1) = true := by simp [hl]
      rw [this]
      simp only [h.get_swap_last hi]
      rfl
    · unfold Content.swapPop
      have := h4.pop_spec
      rwa [hl1] at this

/-! ## Stores through references -/

theorem Content.get_setVal {ct : Content} (hn : ct.cts.Nodup) {i k : Nat} {c : CompTy} {v : Val} (hc : ct.cts[i]? = some c)
    (c' : CompTy) (k' : Nat) (hk : (ct.get c k).isSome) :
    (ct.setVal i k v).get c' k' = if c' = c ∧ k' = k then some v else ct.get c' k' := by
  obtain ⟨cts, ents, cols⟩ := ct
  simp only [Content.get, Content.setVal] at *
  induction cts generalizing cols i with
  | nil => simp at hc
  | cons d cs ih =>
    match cols, i with
    | [], _ => simp [lookupTy] at hk
    | col :: cols, 0 =>
      simp at hc
      subst hc
      simp only [List.modify_zero_cons, lookupTy, if_pos, Option.bind_some] at *
      by_cases h1 : d = c'
      · subst h1
        simp only [if_pos, Option.bind_some, true_and]
        rw [List.getElem?_set]
        by_cases h2 : k' = k
        · subst h2
          have : k' < col.length := by
            rw [Option.isSome_iff_exists] at hk
            obtain ⟨x, hx⟩ := hk
            exact (List.getElem?_eq_some_iff.mp hx).1
          simp [this]
        · rw [if_neg (Ne.symm h2), if_neg h2]
      · simp only [if_neg h1]
        rw [if_neg (fun h => h1 h.1.symm)]
    | col :: cols, i + 1 =>
      simp only [List.getElem?_cons_succ] at hc
      obtain ⟨hn1, hn2⟩ := List.nodup_cons.mp hn
      have hdc : d ≠ c := by rintro rfl; exact hn1 (List.mem_of_getElem? hc)
      simp only [List.modify_succ_cons, lookupTy, if_neg hdc] at *
      by_cases h1 : d = c'
      · subst h1
        simp only [if_pos]
        rw [if_neg (fun h => hdc h.1)]
      · simp only [if_neg h1]
        exact ih cols hn2 hc hk

theorem Rep.writeRef_spec (h : Rep W a ct) {i k : Nat} {c : CompTy} {v : Val} (hc : ct.cts[i]? = some c)
    (hk : k < ct.ents.length) (hv : v.HasTy c) :
    ∃ a', a.writeRef c ⟨i, c.size * k⟩ v = .ok a' ∧ a'.descriptor = a.descriptor ∧ a'.capacity = a.capacity ∧
      Rep W a' (ct.setVal i k v) := by
  obtain ⟨vs, b, h1, h2, h3, h4⟩ := h.column hc
  obtain ⟨b', hb', hok'⟩ := h3.set (k := k) (by omega) hv.1 hv.2
  refine ⟨{ a with pointers := a.pointers.set i (some b') }, ?_, rfl, rfl, h.desc, ?_, ?_, h.ents, h.count, h.cap⟩
  · unfold Archetype.writeRef
    simp only []
    rw [index_of_getElem? h2]
    simp only [ok_bind]
    rw [h3.aligned k]
    simp only [ok_bind]
    rw [hb']
    rfl
  · refine ⟨by rw [List.length_set]; exact h.cols.ptrs_len, h.cols.cts_le, by simp [Content.setVal, h.cols.cols_len], ?_,
      fun j h5 h6 => by
        have := (List.getElem?_eq_some_iff.mp hc).1
        have h5 : ct.cts.length ≤ j := h5
        rw [List.getElem?_set_ne (by omega)]
        exact h.cols.rest j h5 h6⟩
    intro j c' vs' hc' hvs'
    simp only [Content.setVal, List.getElem?_modify] at hvs' hc'
    by_cases hij : i = j
    · subst hij
      rw [hc] at hc'; cases hc'
      rw [h1] at hvs'
      simp at hvs'
      subst hvs'
      exact ⟨b', List.getElem?_set_self (by rw [h.cols.ptrs_len]; have := (List.getElem?_eq_some_iff.mp hc).1; have := h.desc.le; omega), hok'⟩
    · simp [hij] at hvs'
      obtain ⟨b2, hb2, hok2⟩ := h.cols.col j c' vs' hc' hvs'
      exact ⟨b2, by rw [List.getElem?_set_ne hij]; exact hb2, hok2⟩
  · intro j col hcol
    simp only [Content.setVal, List.getElem?_modify] at hcol ⊢
    cases hx : ct.cols[j]? with
    | none => rw [hx] at hcol; simp at hcol
    | some vs' =>
      rw [hx] at hcol
      have := h.lens j vs' hx
      simp at hcol
      split at hcol <;> (rw [← hcol]; simpa using this)

end Shard
