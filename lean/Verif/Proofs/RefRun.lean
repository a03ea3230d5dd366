import Verif.Proofs.RefWrite
/-!
# Queries and sequences of calls agree with the reference registry
-/

set_option autoImplicit false

namespace Shard

variable {env : Env} {W : World env}

namespace RRel

variable {r : Registry} {cs : List Content} {R : RReg}

theorem get_eq (h : RRel W r cs R) (c : CompTy) (e : Entity) : R.get c e = (r.look env cs e).bind (fun f => f c) := by
  unfold RReg.get
  cases hx : r.entities.entityEntry env e with
  | none => rw [h.find_dead hx, h.inv.look_none.mpr hx]; rfl
  | some en =>
    obtain ⟨a, ct, ha, hct, hr, hk, hloc, hlook⟩ := h.inv.entry hx
    rw [h.find_live hloc hct ha, hlook]
    exact hr.lookup_row (List.getElem?_eq_some_iff.mp hk).1 c

theorem gets_eq (h : RRel W r cs R) (g : Group) (e : Entity) : R.gets g e = (r.look env cs e).bind (fun f =>
      if hasAll f g then some (g.map (fun c => (f c).getD default)) else none) := by
  unfold RReg.gets
  cases hx : r.entities.entityEntry env e with
  | none => rw [h.find_dead hx, h.inv.look_none.mpr hx]; rfl
  | some en =>
    obtain ⟨a, ct, ha, hct, hr, hk, hloc, hlook⟩ := h.inv.entry hx
    have hkl := (List.getElem?_eq_some_iff.mp hk).1
    rw [h.find_live hloc hct ha, hlook]
    simp only [Option.bind_some, hr.valOf_row hkl]
    have := hr.hasAll_iff (g := g) hkl
    by_cases hs : ∀ c ∈ g, c ∈ ct.cts
    · rw [if_pos (this.mpr hs), if_pos (by simpa using hs)]
    · rw [if_neg (fun hx => hs (this.mp hx)), if_neg (by simpa using hs)]

theorem matching_eq (h : RRel W r cs R) {g : Group} (hg : ∀ c ∈ g, W.Has c) (hv : (g.descriptor env).isValid = true)
    {f : ArchetypeDescriptor → Bool} (hf : Observing f) :
    R.matching g f = (yielded env r.archetypes g f).map (fun i =>
        (i, (contentAt cs i).ents, g.map (fun c => (contentAt cs i).col c))) := by
  unfold RReg.matching
  rw [h.tables]
  refine h.inv.arch.visits_map (F := fun t i => (i, t.rows.map Prod.fst, g.map t.column)) hg hv hf ?_
  intro i a ct ha hc hs
  obtain ⟨a', ha', hr⟩ := h.inv.arch.arch hc
  rw [contentAt_of hc]
  simp only [ct.rows_fst, Prod.mk.injEq, true_and]
  apply List.map_congr_left
  intro c hcg
  exact hr.tableColumn (hs c hcg) _

theorem exactly_eq (h : RRel W r cs R) {g : Group} (hg : W.OkGroup g) (hv : (g.descriptor env).isValid = true) :
    r.iterEntityComponentsExact env g = .ok (R.exactly env g) ∧
    r.iterComponentsExact env g = .ok (R.exactly env g).2 ∧
    ∃ o, r.iterEntityComponentsExactMut env g = .ok o ∧
      r.iterComponentsExactMut env g = .ok (o.map (fun x => (x.1, x.2.2))) ∧
      o.map (fun x => (x.1, x.2.1, x.2.2.map SliceRef.len)) = (exactIndex env R.tables g).map (fun i =>
        (i, (R.exactly env g).1, (R.exactly env g).2.map List.length)) := by
  have he := h.inv.arch.exactIndex_eq hg hv
  rw [← h.tables] at he
  rcases h.inv.iterExact_eq hg hv with ⟨i, a, ct, q1, q2, q3, q4, q5, q6, q7, q8, q9⟩ | ⟨q1, q2, q3, q4, q5⟩
  · rw [q1] at he
    simp only [Except.ok.injEq] at he
    have ht : R.tables[i]? = some ⟨ct.cts, a.descriptor.archetypeId, ct.rows⟩ := by rw [h.tables]; exact ARInv.table q3 q2
    have : R.exactly env g = (ct.ents, g.map (fun c => ct.col c)) := by
      unfold RReg.exactly
      rw [← he]
      simp only [Option.bind_some, ht, ct.rows_fst, Prod.mk.injEq, true_and]
      apply List.map_congr_left
      intro c hcg
      exact q4.tableColumn (by rw [q5]; exact ((Group.spec hv).mem_cts hg).mpr hcg) _
    rw [this]
    refine ⟨q8, q6, _, q9, q7, ?_⟩
    rw [← he]
    simp only [Option.map_some, Option.some.injEq, Prod.mk.injEq, true_and]
    unfold sliceRefs
    rw [List.map_map, List.map_map]
    apply List.map_congr_left
    intro c hcg
    exact ((q4.col_getElem? (by rw [q5]; exact ((Group.spec hv).mem_cts hg).mpr hcg) 0).2).symm
  · rw [q1] at he
    simp only [Except.ok.injEq] at he
    have : R.exactly env g = ([], g.map (fun _ => [])) := by
      unfold RReg.exactly
      rw [← he]; rfl
    rw [this]
    refine ⟨q4, q2, none, q5, q3, ?_⟩
    rw [← he]
    rfl

theorem contentAt_lens (h : RRel W r cs R) {g : Group} (hg : ∀ c ∈ g, W.Has c) (hv : (g.descriptor env).isValid = true)
    {f : ArchetypeDescriptor → Bool} {i : Nat} (hi : i ∈ yielded env r.archetypes g f) :
    (sliceRefs (contentAt cs i).cts g (contentAt cs i).ents.length).map SliceRef.len =
      (g.map (fun c => (contentAt cs i).col c)).map List.length := by
  obtain ⟨a, ct, ha, hc, hs, _⟩ := (h.inv.arch.mem_yielded hg hv).mp hi
  obtain ⟨a', ha', hr⟩ := h.inv.arch.arch hc
  rw [contentAt_of hc]
  unfold sliceRefs
  rw [List.map_map, List.map_map]
  apply List.map_congr_left
  intro c hcg
  exact ((hr.col_getElem? (hs c hcg) 0).2).symm

theorem answers (h : RRel W r cs R) : SameAnswers W r R where
  entities := h.slots.entities
  get := by
    intro c e hc
    rw [h.get_eq]
    exact ⟨h.inv.getComponent_eq hc e, h.inv.hasComponent_eq hc e⟩
  gets := by
    intro g e hg hv
    rw [h.gets_eq]
    refine ⟨h.inv.getComponents_eq hg hv e, ?_⟩
    rw [h.inv.hasComponents_eq hg hv e]
    cases r.look env cs e with
    | none => rfl
    | some f =>
      simp only [Option.any_some, Option.bind_some]
      cases hasAll f g <;> rfl
  filtered := by
    intro g f hg hv hf
    rw [h.matching_eq hg hv hf]
    refine ⟨h.inv.iterFilteredEntityComponentsMatching_eq hg hv f, ?_, ⟨_, h.inv.iterFilteredEntityComponentsMatchingMut_eq hg hv f, ?_⟩,
      ⟨_, h.inv.iterFilteredComponentsMatchingMut_eq hg hv f, ?_⟩⟩
    · rw [h.inv.iterFilteredComponentsMatching_eq hg hv f, List.map_map]; rfl
    · rw [List.map_map, List.map_map]
      apply List.map_congr_left
      intro i hi
      simp only [Function.comp_apply]
      rw [h.contentAt_lens hg hv hi]
    · rw [List.map_map, List.map_map]
      apply List.map_congr_left
      intro i hi
      simp only [Function.comp_apply]
      rw [h.contentAt_lens hg hv hi]
  matching := by
    intro g hg hv
    have hob : Observing (fun _ => true) := fun _ _ _ _ _ => rfl
    rw [h.matching_eq hg hv hob]
    refine ⟨h.inv.iterFilteredEntityComponentsMatching_eq hg hv _, ?_,
      ⟨_, h.inv.iterFilteredEntityComponentsMatchingMut_eq hg hv (fun _ => true), ?_⟩,
      ⟨_, h.inv.iterFilteredComponentsMatchingMut_eq hg hv (fun _ => true), ?_⟩⟩
    · rw [iterComponentsMatching_filtered, h.inv.iterFilteredComponentsMatching_eq hg hv, List.map_map]; rfl
    · rw [List.map_map, List.map_map]
      apply List.map_congr_left
      intro i hi
      simp only [Function.comp_apply]
      rw [h.contentAt_lens hg hv hi]
    · rw [List.map_map, List.map_map]
      apply List.map_congr_left
      intro i hi
      simp only [Function.comp_apply]
      rw [h.contentAt_lens hg hv hi]
  exactly := fun g hg hv => h.exactly_eq hg hv
  drop := by
    obtain ⟨left, h1, _⟩ := h.inv.drop_eq
    refine ⟨left, ?_⟩
    rw [h1]
    unfold RReg.all
    rw [h.tables, h.inv.arch.all_eq]

/-- Every sequence of calls. -/
theorem run (h : RRel W r cs R) : ∀ {calls : List Call}, OkRun W r calls →
    (runAll env r calls).1 = (R.run env calls).1 ∧ SameEnd W (runAll env r calls).2 (R.run env calls).2 := by
  intro calls
  induction calls generalizing r cs R with
  | nil => intro _; exact ⟨rfl, h.answers⟩
  | cons c rest ih =>
    rintro ⟨h1, h2, h3⟩
    have hs := h.step h1 h2
    unfold Agree at hs
    unfold runAll RReg.run
    cases hx : R.step env c with
    | error f =>
      rw [hx] at hs
      rw [hs]
      exact ⟨rfl, rfl⟩
    | ok p =>
      obtain ⟨R', out⟩ := p
      rw [hx] at hs
      obtain ⟨r', cs', q1, q2⟩ := hs
      rw [q1]
      obtain ⟨k1, k2⟩ := ih q2 (h3 r' out q1)
      exact ⟨by simp only [k1], k2⟩

end RRel

end Shard
