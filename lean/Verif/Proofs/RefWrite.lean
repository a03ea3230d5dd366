import Verif.Proofs.RefMove
/-!
# Overwriting values is simulated by the reference registry
-/

set_option autoImplicit false

namespace Shard

variable {env : Env} {W : World env}

namespace RRel

variable {r : Registry} {cs : List Content} {R : RReg}

theorem stored (h : RRel W r cs R) {e : Entity} {c : CompTy} {v old : Val} {r' : Registry} {cs' : List Content}
    (hs : RowStored env r cs e c v old r' cs') (hinv : RInv W r' cs') (he : r'.entities = r.entities) :
    ∃ i k ct a, r.entities.loc env e = some (i, k) ∧ cs[i]? = some ct ∧ r.archetypes.archetypes[i]? = some a ∧ Rep W a ct ∧
      ct.ents[k]? = some e ∧ c ∈ ct.cts ∧
      lookupTy ct.cts (ct.rowVals k) c = some old ∧
      RRel W r' cs' (R.store i k ⟨ct.cts, a.descriptor.archetypeId, ct.rows⟩ (e, ct.rowVals k) c v) := by
  obtain ⟨i, k, ct, j, h1, h2, h3, h4, h5, h6⟩ := hs
  obtain ⟨a, ha, hr⟩ := h.inv.arch.arch h2
  obtain ⟨ct', q1, q2⟩ := (h.inv.placed _ _ _).mp h1
  rw [h2] at q1; cases q1
  have hk := (List.getElem?_eq_some_iff.mp q2).1
  refine ⟨i, k, ct, a, h1, h2, ha, hr, q2, List.mem_of_getElem? h3, by rw [hr.lookup_row hk]; exact h4, hinv, ?_, ?_⟩
  · unfold RReg.store
    simp only []
    rw [h6.idsOf, h5, h.tables]
    exact (tablesOf_set (ct' := ct.setVal j k v) (f := fun rows => rows.set k (e, setTy ct.cts (ct.rowVals k) c v)) h2 rfl
      (hr.rows_setVal h3 q2)).symm
  · rw [he]; exact h.slots

theorem write (h : RRel W r cs R) {e : Entity} {c : CompTy} {v : Val} (hadm : (Call.write e c v).Admissible W r) :
    Agree W r (.write e c v) (R.step env (.write e c v)) := by
  obtain ⟨hW, hv⟩ := hadm
  unfold Agree
  simp only [RReg.step, Call.run]
  rcases h.inv.replaceComponent_spec hW e hv with ⟨h1, h2⟩ | ⟨r', cs', f, old, h1, h2, h3, h4, h5, h6, h7, h8, h9⟩
  · rw [h2]
    cases hx : r.entities.entityEntry env e with
    | none => rw [h.find_dead hx]; exact ⟨r, cs, rfl, h⟩
    | some en =>
      obtain ⟨a, ct, ha, hct, hr, hk, hloc, hlook⟩ := h.inv.entry hx
      rw [h.find_live hloc hct ha]
      simp only []
      rw [hr.lookup_row (List.getElem?_eq_some_iff.mp hk).1, h1 _ hlook]
      exact ⟨r, cs, rfl, h⟩
  · rw [h1]
    obtain ⟨i, k, ct, a, q1, q2, q3, q4, q5, q6, q7, q8⟩ := h.stored h9 h2 h7
    rw [h.find_live q1 q2 q3]
    simp only []
    rw [q7]
    exact ⟨r', cs', rfl, q8⟩

theorem writeIn (h : RRel W r cs R) {g : Group} {e : Entity} {j : Nat} {v : Val}
    (hadm : (Call.writeIn g e j v).Admissible W r) :
    Agree W r (.writeIn g e j v) (R.step env (.writeIn g e j v)) := by
  obtain ⟨hg, hval, hv⟩ := hadm
  unfold Agree
  simp only [RReg.step, Call.run]
  rcases h.inv.getComponentsMut_eq hg hval e with ⟨h1, h2⟩ | ⟨f, ai, ref, h1, h2, h3, h4⟩
  · rw [h2]
    cases hx : r.entities.entityEntry env e with
    | none => rw [h.find_dead hx]; exact ⟨r, cs, rfl, h⟩
    | some en =>
      obtain ⟨a, ct, ha, hct, hr, hk, hloc, hlook⟩ := h.inv.entry hx
      rw [h.find_live hloc hct ha]
      simp only []
      rw [if_neg]
      · exact ⟨r, cs, rfl, h⟩
      · intro hall
        have := (hr.hasAll_iff (g := g) (List.getElem?_eq_some_iff.mp hk).1).mpr (by simpa using hall)
        rw [h1 _ hlook] at this
        cases this
  · obtain ⟨en, he⟩ := h.inv.look_some h1
    obtain ⟨a, ct, ha, hct, hr, hk, hloc, hlook⟩ := h.inv.entry he
    rw [h1] at hlook
    simp only [Option.some.injEq] at hlook
    subst hlook
    have hall := (hr.hasAll_iff (List.getElem?_eq_some_iff.mp hk).1).mp h2
    rw [h3, h.find_live hloc hct ha]
    simp only [ok_bind, List.getElem?_map]
    rw [if_pos (by simpa using hall)]
    cases hj : g[j]? with
    | none => exact ⟨r, cs, rfl, h⟩
    | some c =>
      simp only [Option.map_some]
      obtain ⟨r', cs', old, s1, s2, s3, s4, s5, s6, _, s7⟩ := h.inv.replaceAt_spec (h4 c (List.mem_of_getElem? hj)) (hv c hj)
      obtain ⟨i, k, ct', a', q1, q2, q3, q4, q5, q6, q7, q8⟩ := h.stored s7 s2 s5
      rw [hloc] at q1; cases q1
      rw [hct] at q2; cases q2
      rw [ha] at q3; cases q3
      rw [s1]
      refine ⟨r', cs', ?_, q8⟩
      unfold valOf
      rw [q7]
      rfl

/-- The items of the mutable iterators, in the order of the reference. -/
theorem items (h : RRel W r cs R) {g : Group} (hg : ∀ c ∈ g, W.Has c) (hv : (g.descriptor env).isValid = true) (it : MutIter)
    (hx : match it with | .exact => W.Used g.idSet | .entityExact => W.Used g.idSet | _ => True)
    (ho : it.Observing) :
    ∃ items, it.items env r g = .ok items ∧ items.map Prod.fst = iterTables env R.tables g it ∧
      ∀ x ∈ items, ∃ ct, cs[x.1]? = some ct ∧ (∀ c ∈ g, c ∈ ct.cts) ∧ x.2 = sliceRefs ct.cts g ct.ents.length := by
  obtain ⟨items, h1, _, h2⟩ := h.inv.items_spec hg hv it hx
  refine ⟨items, h1, ?_, h2⟩
  have hob : Shard.Observing (fun _ => true) := fun _ _ _ _ _ => rfl
  cases it with
  | matching =>
    have := h.inv.iterFilteredComponentsMatchingMut_eq hg hv (fun _ => true)
    cases (h1.symm.trans this)
    simp only [iterTables]
    rw [h.tables, h.inv.arch.visits_eq hg hv hob, List.map_map]
    exact List.map_id _
  | filtered f =>
    have := h.inv.iterFilteredComponentsMatchingMut_eq hg hv f
    simp only [MutIter.items] at h1
    rw [this] at h1; cases h1
    simp only [iterTables]
    rw [h.tables, h.inv.arch.visits_eq hg hv ho, List.map_map]
    exact List.map_id _
  | entityMatching =>
    simp only [MutIter.items] at h1
    rw [iterEntityComponentsMatchingMut_filtered, h.inv.iterFilteredEntityComponentsMatchingMut_eq hg hv] at h1
    simp only [ok_bind, pure_eq_ok, List.map_map] at h1
    cases h1
    simp only [iterTables]
    rw [h.tables, h.inv.arch.visits_eq hg hv hob, List.map_map]
    exact List.map_id _
  | entityFiltered f =>
    simp only [MutIter.items] at h1
    rw [h.inv.iterFilteredEntityComponentsMatchingMut_eq hg hv] at h1
    simp only [ok_bind, pure_eq_ok, List.map_map] at h1
    cases h1
    simp only [iterTables]
    rw [h.tables, h.inv.arch.visits_eq hg hv ho, List.map_map]
    exact List.map_id _
  | exact =>
    have hok : W.OkGroup g := ⟨hg, hx⟩
    have he := h.inv.arch.exactIndex_eq hok hv
    rw [← h.tables] at he
    simp only [MutIter.items] at h1
    simp only [iterTables]
    rcases h.inv.iterExact_eq hok hv with ⟨i, a, ct, q1, q2, q3, q4, q5, q6, q7, q8, q9⟩ | ⟨q1, q2, q3, q4, q5⟩
    · rw [q7] at h1; cases h1
      rw [q1] at he
      simp only [Except.ok.injEq] at he
      rw [← he]; rfl
    · rw [q3] at h1; cases h1
      rw [q1] at he
      simp only [Except.ok.injEq] at he
      rw [← he]; rfl
  | entityExact =>
    have hok : W.OkGroup g := ⟨hg, hx⟩
    have he := h.inv.arch.exactIndex_eq hok hv
    rw [← h.tables] at he
    simp only [MutIter.items] at h1
    simp only [iterTables]
    rcases h.inv.iterExact_eq hok hv with ⟨i, a, ct, q1, q2, q3, q4, q5, q6, q7, q8, q9⟩ | ⟨q1, q2, q3, q4, q5⟩
    · rw [q9] at h1; cases h1
      rw [q1] at he
      simp only [Except.ok.injEq] at he
      rw [← he]; rfl
    · rw [q5] at h1; cases h1
      rw [q1] at he
      simp only [Except.ok.injEq] at he
      rw [← he]; rfl

theorem writeIter (h : RRel W r cs R) {it : MutIter} {g : Group} {n j k : Nat} {v : Val}
    (hadm : (Call.writeIter it g n j k v).Admissible W r)
    (ho : it.Observing) :
    Agree W r (.writeIter it g n j k v) (R.step env (.writeIter it g n j k v)) := by
  obtain ⟨hg, hval, hv, hx⟩ := hadm
  unfold Agree
  simp only [RReg.step, Call.run]
  obtain ⟨items, h1, h2, h3⟩ := h.items hg hval it hx ho
  rw [h1, ← h2, List.getElem?_map]
  simp only [ok_bind]
  cases hn : items[n]? with
  | none => exact ⟨r, cs, rfl, h⟩
  | some x =>
    obtain ⟨i, ss⟩ := x
    obtain ⟨ct, p1, p2, p3⟩ := h3 _ (List.mem_of_getElem? hn)
    simp only [Option.map_some] at p1 p3 ⊢
    obtain ⟨a, ha, hr⟩ := h.inv.arch.arch p1
    have ht : R.tables[i]? = some ⟨ct.cts, a.descriptor.archetypeId, ct.rows⟩ := by rw [h.tables]; exact ARInv.table p1 ha
    rw [ht]
    cases hj : g[j]? with
    | none =>
      have : ss[j]? = none := by rw [p3]; unfold sliceRefs; rw [List.getElem?_map, hj]; rfl
      rw [this]
      exact ⟨r, cs, rfl, h⟩
    | some c =>
      have hs : ∃ s, ss[j]? = some s ∧ s.len = ct.ents.length := by
        refine ⟨_, by rw [p3]; unfold sliceRefs; rw [List.getElem?_map, hj]; rfl, rfl⟩
      obtain ⟨s, hs1, hs2⟩ := hs
      rw [hs1]
      simp only []
      rw [ct.rows_getElem?]
      by_cases hk : k < s.len
      · rw [if_pos hk]
        rw [p3] at hs1
        obtain ⟨c', e, q1, q2, q3, q4⟩ := h.inv.slice_ref p1 p2 hs1 hk
        rw [hj] at q1; cases q1
        rw [q2]
        obtain ⟨r', cs', old, s1, s2, _, s4, s5, s6, _, s7⟩ := h.inv.replaceAt_spec q4 (hv c hj)
        obtain ⟨i', k', ct', a', z1, z2, z3, z4, z5, z6, z7, z8⟩ := h.stored s7 s2 s5
        rw [(h.inv.placed e i k).mpr ⟨ct, p1, q3⟩] at z1
        cases z1
        rw [p1] at z2; cases z2
        rw [ha] at z3; cases z3
        rw [q3, s1]
        simp only [Option.map_some]
        refine ⟨r', cs', ?_, z8⟩
        unfold valOf
        rw [z7]
        rfl
      · rw [if_neg hk, List.getElem?_eq_none (by omega)]
        exact ⟨r, cs, rfl, h⟩

/-- Every call. -/
theorem step (h : RRel W r cs R) {call : Call} (hd : call.Disciplined W r) (ho : call.Observing) :
    Agree W r call (R.step env call) := by
  obtain ⟨hadm, hm⟩ := hd
  cases call with
  | create g vals => exact h.create hadm
  | destroy e => exact h.destroy e
  | removeEntity g e => exact h.removeEntity hm
  | add e c v => exact h.add hadm
  | remove e c => exact h.remove hadm
  | write e c v => exact h.write hadm
  | writeIn g e j v => exact h.writeIn hadm
  | writeIter it g n j k v =>
    exact h.writeIter hadm ho

end RRel

end Shard
