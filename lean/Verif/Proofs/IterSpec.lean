import Verif.Proofs.Iterators
import Verif.Spec.Api
/-!
# What the iterators of the registry yield
-/

namespace Shard

variable {env : Env} {W : World env} {r : Registry} {cs : List Content}

/-- The content at a position. -/
def contentAt (cs : List Content) (i : Nat) : Content := cs[i]?.getD (Content.empty [])

theorem contentAt_of {i : Nat} {ct : Content} (h : cs[i]? = some ct) : contentAt cs i = ct := by
  unfold contentAt; rw [h]; rfl

/-- The column of a component type. -/
def Content.col (ct : Content) (c : CompTy) : List Val := (lookupTy ct.cts ct.cols c).getD []

theorem Rep.col_getElem? {a : Archetype} {ct : Content} (hr : Rep W a ct) {c : CompTy} (hc : c ∈ ct.cts) (k : Nat) :
    (ct.col c)[k]? = ct.get c k ∧ (ct.col c).length = ct.ents.length := by
  unfold Content.col Content.get
  have h1 := idxOf_getElem? hc
  have hlt : ct.cts.idxOf c < ct.cols.length := by
    rw [hr.cols.cols_len]; exact (List.getElem?_eq_some_iff.mp h1).1
  have h2 := List.getElem?_eq_getElem hlt
  rw [hr.lookupTy_eq h1 h2]
  exact ⟨rfl, hr.lens _ _ h2⟩

theorem Rep.subset_of_contains {a : Archetype} {ct : Content} (hr : Rep W a ct) {g : Group} (hg : ∀ c ∈ g, W.Has c)
    (hv : (g.descriptor env).isValid = true) (hs : a.descriptor.containsSubset (g.descriptor env).archetype = true) :
    ∀ c ∈ g, c ∈ ct.cts := (hr.containsSubset_iff hg hv).mp hs

section Matching

variable {g : Group} (h : RInv W r cs) (hg : ∀ c ∈ g, W.Has c) (hv : (g.descriptor env).isValid = true)
  (filter : ArchetypeDescriptor → Bool)
include h hg hv

theorem RInv.iterFilteredComponentsMatching_eq :
    r.iterFilteredComponentsMatching env g filter =
      .ok ((yielded env r.archetypes g filter).map (fun i => (i, g.map (fun c => (contentAt cs i).col c)))) := by
  apply h.arch.iterate_spec hv
  intro i a ha hs
  obtain ⟨ct, hc, hr⟩ := h.arch.content ha
  rw [contentAt_of hc]
  exact hr.getFuzzySlices_ok (Group.spec hv) (hr.subset_of_contains hg hv hs)

theorem RInv.iterFilteredComponentsMatchingMut_eq :
    r.iterFilteredComponentsMatchingMut env g filter =
      .ok ((yielded env r.archetypes g filter).map (fun i =>
        (i, sliceRefs (contentAt cs i).cts g (contentAt cs i).ents.length))) := by
  apply h.arch.iterate_spec hv
  intro i a ha hs
  obtain ⟨ct, hc, hr⟩ := h.arch.content ha
  rw [contentAt_of hc]
  exact hr.getFuzzySlicesMut_ok (Group.spec hv) (hr.subset_of_contains hg hv hs)

theorem RInv.iterFilteredEntityComponentsMatching_eq :
    r.iterFilteredEntityComponentsMatching env g filter =
      .ok ((yielded env r.archetypes g filter).map (fun i =>
        (i, (contentAt cs i).ents, g.map (fun c => (contentAt cs i).col c)))) := by
  apply h.arch.iterate_spec hv
  intro i a ha hs
  obtain ⟨ct, hc, hr⟩ := h.arch.content ha
  rw [contentAt_of hc]
  exact hr.getEntityFuzzySlices_ok (Group.spec hv) (hr.subset_of_contains hg hv hs)

theorem RInv.iterFilteredEntityComponentsMatchingMut_eq :
    r.iterFilteredEntityComponentsMatchingMut env g filter =
      .ok ((yielded env r.archetypes g filter).map (fun i =>
        (i, (contentAt cs i).ents, sliceRefs (contentAt cs i).cts g (contentAt cs i).ents.length))) := by
  apply h.arch.iterate_spec hv
  intro i a ha hs
  obtain ⟨ct, hc, hr⟩ := h.arch.content ha
  rw [contentAt_of hc]
  exact hr.getEntityFuzzySlicesMut_ok (Group.spec hv) (hr.subset_of_contains hg hv hs)

end Matching

/-! The unfiltered iterators are the filtered ones with the constant filter (in the model by definition). -/

theorem iterComponentsMatching_filtered (g : Group) :
    r.iterComponentsMatching env g = r.iterFilteredComponentsMatching env g (fun _ => true) := rfl
theorem iterComponentsMatchingMut_filtered (g : Group) :
    r.iterComponentsMatchingMut env g = r.iterFilteredComponentsMatchingMut env g (fun _ => true) := rfl
theorem iterEntityComponentsMatching_filtered (g : Group) :
    r.iterEntityComponentsMatching env g = r.iterFilteredEntityComponentsMatching env g (fun _ => true) := rfl
theorem iterEntityComponentsMatchingMut_filtered (g : Group) :
    r.iterEntityComponentsMatchingMut env g = r.iterFilteredEntityComponentsMatchingMut env g (fun _ => true) := rfl

/-! ## Exact iteration -/

/-- `find_archetype` for a group: the archetype with exactly the types of the group and the id of the group. -/
theorem RInv.find_group (h : RInv W r cs) {g : Group} (hg : W.OkGroup g) (hv : (g.descriptor env).isValid = true) :
    (∃ i a ct, r.archetypes.findArchetype env (g.descriptor env).archetype = .ok (some i) ∧
      r.archetypes.archetypes[i]? = some a ∧ cs[i]? = some ct ∧ Rep W a ct ∧ ct.cts = g.cts env ∧
      (g.descriptor env).archetype.archetypeId = a.descriptor.archetypeId) ∨
    (r.archetypes.findArchetype env (g.descriptor env).archetype = .ok none ∧
      ∀ (j : Nat) (a : Archetype), r.archetypes.archetypes[j]? = some a →
        a.descriptor.len = (g.descriptor env).archetype.len →
        a.descriptor.archetypeId ≠ (g.descriptor env).archetype.archetypeId) := by
  have hd := Group.descOK hg hv
  rcases h.arch.findArchetype_spec (env := env) hd.wf hd.valid with ⟨i, a, h1, h2, h3, h4⟩ | h1
  · left
    obtain ⟨ct, hc, hr⟩ := h.arch.content h2
    exact ⟨i, a, ct, h1, h2, hc, hr, hr.desc.unique hd h3 h4, h4.symm⟩
  · right; exact h1

section Exact

variable {g : Group} (h : RInv W r cs) (hg : W.OkGroup g) (hv : (g.descriptor env).isValid = true)
include h hg hv

theorem RInv.iterExact_eq :
    (∃ i a ct, r.archetypes.findArchetype env (g.descriptor env).archetype = .ok (some i) ∧
      r.archetypes.archetypes[i]? = some a ∧ cs[i]? = some ct ∧ Rep W a ct ∧ ct.cts = g.cts env ∧
      r.iterComponentsExact env g = .ok (g.map (fun c => ct.col c)) ∧
      r.iterComponentsExactMut env g = .ok (some (i, sliceRefs ct.cts g ct.ents.length)) ∧
      r.iterEntityComponentsExact env g = .ok (ct.ents, g.map (fun c => ct.col c)) ∧
      r.iterEntityComponentsExactMut env g = .ok (some (i, ct.ents, sliceRefs ct.cts g ct.ents.length))) ∨
    (r.archetypes.findArchetype env (g.descriptor env).archetype = .ok none ∧
      r.iterComponentsExact env g = .ok (g.map (fun _ => [])) ∧
      r.iterComponentsExactMut env g = .ok none ∧
      r.iterEntityComponentsExact env g = .ok ([], g.map (fun _ => [])) ∧
      r.iterEntityComponentsExactMut env g = .ok none) := by
  have gs := Group.spec hv
  rcases h.find_group hg hv with ⟨i, a, ct, h1, h2, h3, h4, h5, h6⟩ | ⟨h1, _⟩
  · left
    refine ⟨i, a, ct, h1, h2, h3, h4, h5, ?_, ?_, ?_, ?_⟩
    · unfold Registry.iterComponentsExact
      rw [h1]; simp only [ok_bind]; rw [index_of_getElem? h2]; simp only [ok_bind]
      exact h4.getSlicesExact_ok hg gs h5 h6
    · unfold Registry.iterComponentsExactMut
      rw [h1]; simp only [ok_bind]; rw [index_of_getElem? h2]; simp only [ok_bind]
      rw [h4.getSlicesExactMut_ok hg gs h5 h6]; rfl
    · unfold Registry.iterEntityComponentsExact
      rw [h1]; simp only [ok_bind]; rw [index_of_getElem? h2]; simp only [ok_bind]
      rw [h4.entities_ok, h4.getSlicesExact_ok hg gs h5 h6]; rfl
    · unfold Registry.iterEntityComponentsExactMut
      rw [h1]; simp only [ok_bind]; rw [index_of_getElem? h2]; simp only [ok_bind]
      rw [h4.entities_ok, h4.getSlicesExactMut_ok hg gs h5 h6]; rfl
  · right
    refine ⟨h1, ?_, ?_, ?_, ?_⟩
    · unfold Registry.iterComponentsExact; rw [h1]; rfl
    · unfold Registry.iterComponentsExactMut; rw [h1]; rfl
    · unfold Registry.iterEntityComponentsExact; rw [h1]; rfl
    · unfold Registry.iterEntityComponentsExactMut; rw [h1]; rfl

end Exact

/-! ## Mutable items -/

/-- The items of every mutable iterator are tuples of slices of one archetype that has the types of the group. -/
theorem RInv.items_spec (h : RInv W r cs) {g : Group} (hg : ∀ c ∈ g, W.Has c) (hv : (g.descriptor env).isValid = true)
    (it : MutIter) (hx : match it with
      | .exact => W.Used g.idSet
      | .entityExact => W.Used g.idSet
      | _ => True) :
    ∃ items, it.items env r g = .ok items ∧ (items.map Prod.fst).Nodup ∧
      ∀ x ∈ items, ∃ ct, cs[x.1]? = some ct ∧ (∀ c ∈ g, c ∈ ct.cts) ∧ x.2 = sliceRefs ct.cts g ct.ents.length := by
  have key : ∀ filter (x : Nat × List SliceRef), x ∈ ((yielded env r.archetypes g filter).map (fun i =>
        (i, sliceRefs (contentAt cs i).cts g (contentAt cs i).ents.length))) →
      ∃ ct, cs[x.1]? = some ct ∧ (∀ c ∈ g, c ∈ ct.cts) ∧ x.2 = sliceRefs ct.cts g ct.ents.length := by
    intro filter x hx
    obtain ⟨i, hi, rfl⟩ := List.mem_map.mp hx
    obtain ⟨a, ct, _, hc, hs, _⟩ := (h.arch.mem_yielded hg hv).mp hi
    exact ⟨ct, hc, hs, by rw [contentAt_of hc]⟩
  have nd : ∀ filter, (((yielded env r.archetypes g filter).map (fun i =>
        (i, sliceRefs (contentAt cs i).cts g (contentAt cs i).ents.length))).map Prod.fst).Nodup := by
    intro filter
    rw [List.map_map]
    have : (Prod.fst ∘ fun i => (i, sliceRefs (contentAt cs i).cts g (contentAt cs i).ents.length)) = id := rfl
    rw [this, List.map_id]
    exact h.arch.yielded_nodup g filter
  cases it with
  | matching => exact ⟨_, h.iterFilteredComponentsMatchingMut_eq hg hv _, nd _, key _⟩
  | filtered f => exact ⟨_, h.iterFilteredComponentsMatchingMut_eq hg hv f, nd _, key _⟩
  | entityMatching =>
    refine ⟨_, ?_, nd (fun _ => true), key (fun _ => true)⟩
    simp only [MutIter.items]
    rw [iterEntityComponentsMatchingMut_filtered, h.iterFilteredEntityComponentsMatchingMut_eq hg hv]
    simp only [ok_bind, pure_eq_ok, List.map_map]
    rfl
  | entityFiltered f =>
    refine ⟨_, ?_, nd f, key f⟩
    simp only [MutIter.items]
    rw [h.iterFilteredEntityComponentsMatchingMut_eq hg hv]
    simp only [ok_bind, pure_eq_ok, List.map_map]
    rfl
  | exact =>
    have hok : W.OkGroup g := ⟨hg, hx⟩
    rcases h.iterExact_eq hok hv with ⟨i, a, ct, q1, q2, q3, q4, q5, q6, q7, q8, q9⟩ | ⟨q1, q2, q3, q4, q5⟩
    · refine ⟨_, by simp only [MutIter.items]; rw [q7]; rfl, by simp, ?_⟩
      intro x hx
      simp only [Option.toList_some, List.mem_singleton] at hx
      subst hx
      exact ⟨ct, q3, fun c hc => by rw [q5]; exact ((Group.spec hv).mem_cts hok).mpr hc, rfl⟩
    · exact ⟨_, by simp only [MutIter.items]; rw [q3]; rfl, by simp, by simp⟩
  | entityExact =>
    have hok : W.OkGroup g := ⟨hg, hx⟩
    rcases h.iterExact_eq hok hv with ⟨i, a, ct, q1, q2, q3, q4, q5, q6, q7, q8, q9⟩ | ⟨q1, q2, q3, q4, q5⟩
    · refine ⟨_, by simp only [MutIter.items]; rw [q9]; rfl, by simp, ?_⟩
      intro x hx
      simp only [Option.toList_some, List.map_cons, List.map_nil, List.mem_singleton] at hx
      subst hx
      exact ⟨ct, q3, fun c hc => by rw [q5]; exact ((Group.spec hv).mem_cts hok).mpr hc, rfl⟩
    · exact ⟨_, by simp only [MutIter.items]; rw [q5]; rfl, by simp, by simp⟩

/-- An element of a slice is a reference to the component of the entity in that row. -/
theorem RInv.row_look (h : RInv W r cs) {i k : Nat} {ct : Content} {e : Entity} (hc : cs[i]? = some ct)
    (he : ct.ents[k]? = some e) : r.look env cs e = some (fun c => ct.get c k) :=
  look_of ((h.placed _ _ _).mpr ⟨ct, hc, he⟩) hc

theorem RInv.slice_ref (h : RInv W r cs) {g : Group} {ai : Nat} {ct : Content} (hc : cs[ai]? = some ct)
    (hs : ∀ c ∈ g, c ∈ ct.cts) {j : Nat} {s : SliceRef} (hj : (sliceRefs ct.cts g ct.ents.length)[j]? = some s) {k : Nat}
    (hk : k < s.len) : ∃ c e, g[j]? = some c ∧ s.cty = c ∧ ct.ents[k]? = some e ∧ RefTo env r cs e c ai (s.elem k) := by
  unfold sliceRefs at hj
  rw [List.getElem?_map] at hj
  cases hx : g[j]? with
  | none => rw [hx] at hj; cases hj
  | some c =>
    rw [hx] at hj; cases hj
    have he := List.getElem?_eq_getElem (show k < ct.ents.length from hk)
    refine ⟨c, _, rfl, rfl, he, k, ct.cts.idxOf c, ct, (h.placed _ _ _).mpr ⟨ct, hc, he⟩, hc,
      idxOf_getElem? (hs c (List.mem_of_getElem? hx)), ?_⟩
    show (⟨ct.cts.idxOf c, 0 + c.size * k⟩ : Ref) = _
    rw [Nat.zero_add]

end Shard
