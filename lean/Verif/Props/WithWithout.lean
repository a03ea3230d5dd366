import Verif.Spec.WithWithout
import Verif.Props.System
/-!
# C118: systems over a part of the entities
-/

set_option autoImplicit false

namespace Shard

variable {env : Env} {W : World env} {r : Registry} {cs : List Content} {g w x : Group}

theorem Rep.excludesSubset_iff {a : Archetype} {ct : Content} (hr : Rep W a ct) (hg : ∀ c ∈ g, W.Has c)
    (hv : (g.descriptor env).isValid = true) :
    a.descriptor.excludesSubset (g.descriptor env).archetype = true ↔ ∀ c ∈ g, c ∉ ct.cts := by
  have gs := Group.spec hv
  rw [hr.desc.wf.excludesSubset_iff gs.desc]
  constructor
  · intro h c hc hm
    exact h c.id ((gs.mem_ids c.id).mpr ⟨c, hc, rfl⟩) ((hr.desc.id_mem (hg c hc)).mpr hm)
  · intro h id hid hm
    obtain ⟨c, hc, rfl⟩ := (gs.mem_ids id).mp hid
    exact h c hc ((hr.desc.id_mem (hg c hc)).mp hm)

theorem RInv.row_has (h : RInv W r cs) {i k : Nat} {ct : Content} {e : Entity} (hc : cs[i]? = some ct)
    (hk : ct.ents[k]? = some e) {c : CompTy} (hW : W.Has c) : r.hasComponent env c e = .ok (decide (c ∈ ct.cts)) := by
  obtain ⟨a, ha, hr⟩ := h.arch.arch hc
  rw [h.hasComponent_eq hW, h.row_look hc hk]
  simp only [Option.bind_some]
  by_cases hm : c ∈ ct.cts
  · obtain ⟨v, hv, _⟩ := hr.get_some hm (List.getElem?_eq_some_iff.mp hk).1
    rw [hv, decide_eq_true hm]
    rfl
  · rw [decide_eq_false hm]
    cases hq : ct.get c k with
    | none => rfl
    | some v => exact absurd (hr.mem_of_get hq).1 hm

/-- The entities a filtered iteration visits. -/
def visitedBy (env : Env) (r : Registry) (cs : List Content) (g : Group) (p : ArchetypeDescriptor → Bool) : List Entity :=
  (yielded env r.archetypes g p).flatMap (fun i => (contentAt cs i).ents)

theorem RInv.mem_visited (h : RInv W r cs) (hg : ∀ c ∈ g, W.Has c) (hv : (g.descriptor env).isValid = true)
    {p : ArchetypeDescriptor → Bool} {e : Entity} :
    e ∈ visitedBy env r cs g p ↔ ∃ (i k : Nat) (a : Archetype) (ct : Content),
      r.archetypes.archetypes[i]? = some a ∧ cs[i]? = some ct ∧ ct.ents[k]? = some e ∧
      (∀ c ∈ g, c ∈ ct.cts) ∧ p a.descriptor = true := by
  unfold visitedBy
  rw [List.mem_flatMap]
  constructor
  · rintro ⟨i, hi, he⟩
    obtain ⟨a, ct, ha, hc, hs, hp⟩ := (h.arch.mem_yielded hg hv).mp hi
    rw [contentAt_of hc] at he
    obtain ⟨k, hk⟩ := List.mem_iff_getElem?.mp he
    exact ⟨i, k, a, ct, ha, hc, hk, hs, hp⟩
  · rintro ⟨i, k, a, ct, ha, hc, hk, hs, hp⟩
    exact ⟨i, (h.arch.mem_yielded hg hv).mpr ⟨a, ct, ha, hc, hs, hp⟩, by rw [contentAt_of hc]; exact List.mem_of_getElem? hk⟩

theorem RInv.mem_visited_withWithout (h : RInv W r cs) (hg : ∀ c ∈ g, W.Has c) (hv : (g.descriptor env).isValid = true)
    (hw : ∀ c ∈ w, W.Has c) (hwv : (w.descriptor env).isValid = true) (hx : ∀ c ∈ x, W.Has c)
    (hxv : (x.descriptor env).isValid = true) {e : Entity} :
    e ∈ visitedBy env r cs g (withWithout env w x) ↔ Matches env r g e ∧ Matches env r w e ∧ Lacks env r x e := by
  rw [h.mem_visited hg hv]
  constructor
  · rintro ⟨i, k, a, ct, ha, hc, hk, hs, hp⟩
    have hr := h.arch.rep i a ct ha hc
    have hp : (a.descriptor.containsSubset (w.descriptor env).archetype &&
      a.descriptor.excludesSubset (x.descriptor env).archetype) = true := hp
    rw [Bool.and_eq_true] at hp
    refine ⟨h.row_matches hc (List.mem_of_getElem? hk) hs,
      h.row_matches hc (List.mem_of_getElem? hk) ((hr.containsSubset_iff hw hwv).mp hp.1), fun c hcx => ?_⟩
    rw [h.row_has hc hk (hx c hcx), decide_eq_false ((hr.excludesSubset_iff hx hxv).mp hp.2 c hcx)]
  · rintro ⟨h1, h2, h3⟩
    obtain ⟨i, k, ct, hc, hk, hs⟩ := h.matches_row hg h1
    obtain ⟨a, ha, hr⟩ := h.arch.arch hc
    refine ⟨i, k, a, ct, ha, hc, hk, hs, ?_⟩
    show (a.descriptor.containsSubset (w.descriptor env).archetype &&
      a.descriptor.excludesSubset (x.descriptor env).archetype) = true
    rw [Bool.and_eq_true]
    refine ⟨(hr.containsSubset_iff hw hwv).mpr (fun c hcw => ?_), (hr.excludesSubset_iff hx hxv).mpr (fun c hcx hm => ?_)⟩
    · have := h2.2 c hcw
      rw [h.row_has hc hk (hw c hcw)] at this
      injection this with this
      exact of_decide_eq_true this
    · have := h3 c hcx
      rw [h.row_has hc hk (hx c hcx), decide_eq_true hm] at this
      cases this

/-- What a system over a filtered iterator does. -/
theorem RInv.filtered_eq (h : RInv W r cs) (hR : Reachable W r) (hg : ∀ c ∈ g, W.Has c)
    (hv : (g.descriptor env).isValid = true) (p : ArchetypeDescriptor → Bool) {F : List Val → List Val}
    (hF : ∀ vals, TypedVals g vals → TypedVals g (F vals)) :
    ∃ r' cs', runSystem env (.filtered p) g F r = .ok r' ∧ RInv W r' cs' ∧ Reachable W r' ∧
      (∀ e, r'.look env cs' e = if e ∈ visitedBy env r cs g p then (r.look env cs e).map (fun f => putAll g (F (tupleOf g f)) f)
        else r.look env cs e) ∧ SameShape r cs r' cs' := by
  obtain ⟨items, h1, h2, h3⟩ := h.items_spec hg hv (.filtered p) trivial
  obtain ⟨_, r', cs', u1, u2, u3, u4, u5⟩ := h.system_eq hR hg hv hF h1 h2 h3
  have hit : (MutIter.filtered p).items env r g = _ := h.iterFilteredComponentsMatchingMut_eq hg hv p
  rw [h1] at hit
  injection hit with hit
  have hfst : items.map Prod.fst = yielded env r.archetypes g p := by
    rw [hit, List.map_map]
    exact List.map_id _
  rw [hfst] at u4
  exact ⟨r', cs', u1, u2, u3, u4, u5⟩

/-- **C118** `iter_filtered_entity_components_matching` with a filter made of `contains_subset` and `excludes_subset` yields exactly
the entities that have the components of the tuple and the wanted ones, and none of the unwanted ones; each once, with its
values beside it. -/
theorem C118_select (hr : Reachable W r) (hg : ∀ c ∈ g, W.Has c) (hv : (g.descriptor env).isValid = true)
    (hw : ∀ c ∈ w, W.Has c) (hwv : (w.descriptor env).isValid = true) (hx : ∀ c ∈ x, W.Has c)
    (hxv : (x.descriptor env).isValid = true) :
    ∃ items, r.iterFilteredEntityComponentsMatching env g (withWithout env w x) = .ok items ∧
      (items.flatMap (fun y => y.2.1)).Nodup ∧
      (∀ e, e ∈ items.flatMap (fun y => y.2.1) ↔ Matches env r g e ∧ Matches env r w e ∧ Lacks env r x e) ∧
      ∀ y ∈ items, Aligned env r g y.2.1 y.2.2 := by
  obtain ⟨cs, h⟩ := hr.inv
  have hfl : ((yielded env r.archetypes g (withWithout env w x)).map (fun i =>
      (i, (contentAt cs i).ents, g.map (fun c => (contentAt cs i).col c)))).flatMap (fun y => y.2.1) =
      visitedBy env r cs g (withWithout env w x) := by
    rw [List.flatMap_map]
    rfl
  refine ⟨_, h.iterFilteredEntityComponentsMatching_eq hg hv (withWithout env w x), ?_, fun e => ?_, fun y hy => ?_⟩
  · rw [hfl]
    exact h.flat_nodup (h.arch.yielded_nodup g _)
  · rw [hfl]
    exact h.mem_visited_withWithout hg hv hw hwv hx hxv
  · obtain ⟨i, hi, rfl⟩ := List.mem_map.mp hy
    obtain ⟨a, ct, ha, hc, hs, _⟩ := (h.arch.mem_yielded hg hv).mp hi
    simp only [contentAt_of hc]
    exact h.aligned hc hs

/-- **C118** A system over the filtered mutable iterator with such a filter updates exactly these entities. -/
theorem C118_system (hr : Reachable W r) (hg : ∀ c ∈ g, W.Has c) (hv : (g.descriptor env).isValid = true)
    (hw : ∀ c ∈ w, W.Has c) (hwv : (w.descriptor env).isValid = true) (hx : ∀ c ∈ x, W.Has c)
    (hxv : (x.descriptor env).isValid = true) {F : List Val → List Val}
    (hF : ∀ vals, TypedVals g vals → TypedVals g (F vals)) :
    ∃ r', runSystem env (.filtered (withWithout env w x)) g F r = .ok r' ∧ Reachable W r' ∧
      (∀ e, Matches env r g e → Matches env r w e → Lacks env r x e → TupleUpdated W g F r r' e) ∧
      ∀ e, ¬ (Matches env r g e ∧ Matches env r w e ∧ Lacks env r x e) → SameEntity W r r' e := by
  obtain ⟨cs, h⟩ := hr.inv
  obtain ⟨r', cs', u1, u2, u3, u4, _⟩ := h.filtered_eq hr hg hv (withWithout env w x) hF
  refine ⟨r', u1, u3, fun e q1 q2 q3 => ?_, fun e he => ?_⟩
  · have := u4 e
    rw [if_pos ((h.mem_visited_withWithout hg hv hw hwv hx hxv).mpr ⟨q1, q2, q3⟩)] at this
    exact h.updated u2 hg hv hF q1 this
  · have := u4 e
    rw [if_neg (fun hh => he ((h.mem_visited_withWithout hg hv hw hwv hx hxv).mp hh))] at this
    exact h.sameEntity_of_look u2 this

theorem SameShape.visited {r' : Registry} {cs' : List Content} (s : SameShape r cs r' cs') (p : ArchetypeDescriptor → Bool) :
    visitedBy env r' cs' g p = visitedBy env r cs g p := by
  unfold visitedBy
  rw [s.yielded]
  congr 1
  funext i
  exact (s.contentAt i).2

/-- **C118** Running a system over the archetypes that any filter accepts, and then over those it rejects, is running it
over all of them. -/
theorem C118_split (hr : Reachable W r) (hg : ∀ c ∈ g, W.Has c) (hv : (g.descriptor env).isValid = true)
    (p : ArchetypeDescriptor → Bool) {F : List Val → List Val} (hF : ∀ vals, TypedVals g vals → TypedVals g (F vals)) :
    ∃ r₁ r₂ r₃, runSystem env (.filtered p) g F r = .ok r₁ ∧ runSystem env (.filtered (fun d => !p d)) g F r₁ = .ok r₂ ∧
      runSystem env .matching g F r = .ok r₃ ∧ Reachable W r₂ ∧ ∀ e, SameEntity W r₃ r₂ e := by
  obtain ⟨cs, h⟩ := hr.inv
  obtain ⟨r₁, c₁, a1, a2, a3, a4, a5⟩ := h.filtered_eq hr hg hv p hF
  obtain ⟨r₂, c₂, b1, b2, b3, b4, _⟩ := a2.filtered_eq a3 hg hv (fun d => !p d) hF
  obtain ⟨r₃, c₃, d1, d2, d3, d4, _⟩ := h.filtered_eq hr hg hv (fun _ => true) hF
  refine ⟨r₁, r₂, r₃, a1, b1, d1, b3, fun e => d2.sameEntity_of_look b2 ?_⟩
  rw [b4 e, d4 e, a5.visited, a4 e]
  have hor : e ∈ visitedBy env r cs g (fun _ => true) ↔
      e ∈ visitedBy env r cs g p ∨ e ∈ visitedBy env r cs g (fun d => !p d) := by
    rw [h.mem_visited hg hv, h.mem_visited hg hv, h.mem_visited hg hv]
    constructor
    · rintro ⟨i, k, a, ct, ha, hc, hk, hs, _⟩
      by_cases hp : p a.descriptor = true
      · exact Or.inl ⟨i, k, a, ct, ha, hc, hk, hs, hp⟩
      · exact Or.inr ⟨i, k, a, ct, ha, hc, hk, hs, by simp only [Bool.not_eq_true'] ; exact Bool.eq_false_iff.mpr hp⟩
    · rintro (⟨i, k, a, ct, ha, hc, hk, hs, _⟩ | ⟨i, k, a, ct, ha, hc, hk, hs, _⟩) <;>
        exact ⟨i, k, a, ct, ha, hc, hk, hs, rfl⟩
  have hand : ¬ (e ∈ visitedBy env r cs g p ∧ e ∈ visitedBy env r cs g (fun d => !p d)) := by
    rw [h.mem_visited hg hv, h.mem_visited hg hv]
    rintro ⟨⟨i, k, a, ct, ha, hc, hk, hs, hp⟩, ⟨i', k', a', ct', ha', hc', hk', hs', hp'⟩⟩
    obtain ⟨rfl, _⟩ := h.row_inj hc hc' hk hk'
    rw [ha] at ha'
    cases ha'
    rw [hp] at hp'
    cases hp'
  by_cases k1 : e ∈ visitedBy env r cs g p <;> by_cases k2 : e ∈ visitedBy env r cs g (fun d => !p d)
  · exact absurd ⟨k1, k2⟩ hand
  · rw [if_neg k2, if_pos k1, if_pos (hor.mpr (Or.inl k1))]
  · rw [if_pos k2, if_neg k1, if_pos (hor.mpr (Or.inr k2))]
  · rw [if_neg k2, if_neg k1, if_neg (fun hh => (hor.mp hh).elim k1 k2)]

/-! ## Examples -/

set_option maxRecDepth 100000 in
/-- C118 on the example registry: the entities with `A`, with `A` and without `B`: one of the two that have `A`. -/
example : Reachable exWorld exR ∧ (Group.descriptor exEnv [exA]).isValid = true ∧ (Group.descriptor exEnv [exB]).isValid = true ∧
    okOr none ((exR.iterFilteredEntityComponentsMatching exEnv [exA] (withWithout exEnv [exA] [exB])).map (fun l => some
      (l.flatMap (fun y => y.2.1)))) = some [exE2] ∧
    okOr none ((runSystem exEnv (.filtered (withWithout exEnv [exA] [exB])) [exA] exSystem exR).map (fun r => some
      ([exE1, exE2, exE4].map (fun e => okOr none (r.getComponent exEnv exA e))))) =
      some [some exValA, some ⟨1, [6, 7, 8, 9]⟩, none] :=
  ⟨exReachable, by decide +kernel, by decide +kernel, by decide +kernel, by decide +kernel⟩

set_option maxRecDepth 100000 in
/-- C118: the filter splits the entities with `A` into two parts, neither of which is empty. -/
example : okOr none ((runSystem exEnv (.filtered (fun d => !withWithout exEnv [exA] [exB] d)) [exA] exSystem exR).map
      (fun r => some ([exE1, exE2].map (fun e => okOr none (r.getComponent exEnv exA e))))) =
      some [some ⟨1, [2, 3, 4, 5]⟩, okOr none (exR.getComponent exEnv exA exE2)] := by decide +kernel

end Shard
