import Verif.Props.WithWithout
import Verif.Props.Archetypes
/-!
# C121: loops over iterators can be merged and reordered
-/

set_option autoImplicit false

namespace Shard

variable {env : Env} {W : World env} {r : Registry} {cs : List Content} {g g' : Group}

/-- The entities in the items of an iteration. -/
def visitedIn (cs : List Content) (items : List (Nat × List SliceRef)) : List Entity :=
  (items.map Prod.fst).flatMap (fun i => (contentAt cs i).ents)

/-- The components of an entity after a system has visited it. -/
def stepOf (g : Group) (F : List Val → List Val) (f : CompTy → Option Val) : CompTy → Option Val :=
  putAll g (F (tupleOf g f)) f

theorem SameShape.visitedIn {r' : Registry} {cs' : List Content} (s : SameShape r cs r' cs') (items : List (Nat × List SliceRef)) :
    visitedIn cs' items = visitedIn cs items := by
  unfold Shard.visitedIn
  congr 1
  funext i
  exact (s.contentAt i).2

/-- What a system over any iterator does. -/
theorem RInv.run_eq (h : RInv W r cs) (hR : Reachable W r) (hg : ∀ c ∈ g, W.Has c) (hv : (g.descriptor env).isValid = true)
    {it : MutIter} (hit : it.Ok W g) {F : List Val → List Val} (hF : ∀ vals, TypedVals g vals → TypedVals g (F vals)) :
    ∃ items r' cs', it.items env r g = .ok items ∧ runSystem env it g F r = .ok r' ∧ RInv W r' cs' ∧ Reachable W r' ∧
      (∀ e, r'.look env cs' e = if e ∈ visitedIn cs items then (r.look env cs e).map (stepOf g F) else r.look env cs e) ∧
      SameShape r cs r' cs' ∧ ∀ e ∈ visitedIn cs items, ∃ f, r.look env cs e = some f ∧ ∀ c ∈ g, (f c).isSome := by
  obtain ⟨items, h1, h2, h3⟩ := h.items_spec hg hv it hit
  obtain ⟨_, r', cs', u1, u2, u3, u4, u5⟩ := h.system_eq hR hg hv hF h1 h2 h3
  refine ⟨items, r', cs', h1, u1, u2, u3, u4, u5, fun e he => ?_⟩
  obtain ⟨i, hi, hei⟩ := List.mem_flatMap.mp he
  obtain ⟨x, hx, rfl⟩ := List.mem_map.mp hi
  obtain ⟨ct, hc, hs, _⟩ := h3 x hx
  rw [contentAt_of hc] at hei
  have hm := h.row_matches hc hei hs
  obtain ⟨f, hf⟩ := h.live_iff.mp hm.1
  exact ⟨f, hf, fun c hcg => (h.has_iff hf (hg c hcg)).mp (hm.2 c hcg)⟩

theorem RInv.tupleOf_typed (h : RInv W r cs) {e : Entity} {f : CompTy → Option Val} (hf : r.look env cs e = some f)
    (hall : ∀ c ∈ g, (f c).isSome) : TypedVals g (tupleOf g f) := by
  refine ⟨by simp [tupleOf], fun i c v h1 h2 => ?_⟩
  unfold tupleOf at h2
  rw [List.getElem?_map, h1] at h2
  simp only [Option.map_some, Option.some.injEq] at h2
  obtain ⟨w, hw⟩ := Option.isSome_iff_exists.mp (hall c (List.mem_of_getElem? h1))
  rw [hw] at h2
  rw [← h2]
  exact h.look_typed hf hw

theorem tupleOf_putAll_self (hn : g.Nodup) {vals : List Val} (hv : TypedVals g vals) (f : CompTy → Option Val) :
    tupleOf g (putAll g vals f) = vals := by
  refine Eq.trans ?_ (map_lookupTy hv hn)
  refine List.map_congr_left (fun c hc => ?_)
  obtain ⟨w, hw, _⟩ := lookupTy_isSome hv hn hc
  unfold putAll
  rw [hw]
  rfl

theorem putAll_putAll (hn : g.Nodup) {vals : List Val} (hv : TypedVals g vals) (vals' : List Val) (f : CompTy → Option Val) :
    putAll g vals (putAll g vals' f) = putAll g vals f := by
  funext c
  unfold putAll
  by_cases hc : c ∈ g
  · obtain ⟨w, hw, _⟩ := lookupTy_isSome hv hn hc
    rw [hw]
    rfl
  · rw [lookupTy_none hc, lookupTy_none hc]
    rfl

/-- **C121** Two loops over the same iterator, one after the other, are one loop with both bodies. -/
theorem C121_merge (hr : Reachable W r) (hg : ∀ c ∈ g, W.Has c) (hv : (g.descriptor env).isValid = true) {it : MutIter}
    (hit : it.Ok W g) {F G : List Val → List Val} (hF : ∀ vals, TypedVals g vals → TypedVals g (F vals))
    (hG : ∀ vals, TypedVals g vals → TypedVals g (G vals)) :
    ∃ r₁ r₂ r₃, runSystem env it g F r = .ok r₁ ∧ runSystem env it g G r₁ = .ok r₂ ∧
      runSystem env it g (fun vals => G (F vals)) r = .ok r₃ ∧ Reachable W r₂ ∧ ∀ e, SameEntity W r₃ r₂ e := by
  obtain ⟨cs, h⟩ := hr.inv
  have hn : g.Nodup := nodup_of_map (Group.spec hv).wf.nodup
  obtain ⟨i₁, r₁, c₁, a0, a1, a2, a3, a4, a5, a6⟩ := h.run_eq hr hg hv hit hF
  obtain ⟨i₂, r₂, c₂, b0, b1, b2, b3, b4, _, _⟩ := a2.run_eq a3 hg hv hit hG
  obtain ⟨i₃, r₃, c₃, d0, d1, d2, d3, d4, _, _⟩ := h.run_eq hr hg hv hit (F := fun vals => G (F vals)) (fun vals ht => hG _ (hF _ ht))
  rw [a5.items h a2 hg hv hit, a0] at b0
  cases b0
  rw [a0] at d0
  cases d0
  refine ⟨r₁, r₂, r₃, a1, b1, d1, b3, fun e => d2.sameEntity_of_look b2 ?_⟩
  rw [b4 e, d4 e, a5.visitedIn, a4 e]
  by_cases he : e ∈ visitedIn cs i₁
  · rw [if_pos he, if_pos he, if_pos he]
    obtain ⟨f, hf, hall⟩ := a6 e he
    rw [hf]
    simp only [Option.map_some]
    have ht := h.tupleOf_typed hf hall
    unfold stepOf
    rw [tupleOf_putAll_self hn (hF _ ht), putAll_putAll hn (hG _ (hF _ ht))]
  · rw [if_neg he, if_neg he, if_neg he]

/-- **C121** A loop whose body writes back what it has read changes nothing. -/
theorem C121_idle (hr : Reachable W r) (hg : ∀ c ∈ g, W.Has c) (hv : (g.descriptor env).isValid = true) {it : MutIter}
    (hit : it.Ok W g) : ∃ r', runSystem env it g id r = .ok r' ∧ Reachable W r' ∧ ∀ e, SameEntity W r r' e := by
  obtain ⟨cs, h⟩ := hr.inv
  have hn : g.Nodup := nodup_of_map (Group.spec hv).wf.nodup
  obtain ⟨i₁, r₁, c₁, a0, a1, a2, a3, a4, a5, a6⟩ := h.run_eq hr hg hv hit (F := id) (fun vals ht => ht)
  refine ⟨r₁, a1, a3, fun e => h.sameEntity_of_look a2 ?_⟩
  rw [a4 e]
  split
  · rename_i he
    obtain ⟨f, hf, hall⟩ := a6 e he
    rw [hf, Option.map_some]
    congr 1
    have ht := h.tupleOf_typed hf hall
    funext c
    unfold stepOf putAll
    by_cases hc : c ∈ g
    · have hself : ∀ (g : Group), g.Nodup → c ∈ g → lookupTy g (tupleOf g f) c = some ((f c).getD default) := by
        intro g
        induction g with
        | nil => intro _ hc; simp at hc
        | cons d g ih =>
          intro hn hc
          rw [List.nodup_cons] at hn
          show lookupTy (d :: g) ((f d).getD default :: tupleOf g f) c = _
          unfold lookupTy
          by_cases hd : d = c
          · rw [if_pos hd, hd]
          · rw [if_neg hd]
            exact ih hn.2 ((List.mem_cons.mp hc).resolve_left (fun hh => hd hh.symm))
      obtain ⟨v, hv'⟩ := Option.isSome_iff_exists.mp (hall c hc)
      simp only [id]
      rw [hself g hn hc, hv']
      rfl
    · rw [lookupTy_none hc]
      rfl
  · rfl

theorem stepOf_isSome {F : List Val → List Val} {f : CompTy → Option Val} {c : CompTy} (h : (f c).isSome) :
    (stepOf g F f c).isSome := by
  unfold stepOf putAll
  cases lookupTy g (F (tupleOf g f)) c with
  | none => exact h
  | some v => rfl

/-- **C121** Two loops, over any iterators, whose tuples have no component type in common can be run in either order. -/
theorem C121_disjoint_tuples (hr : Reachable W r) (hg : ∀ c ∈ g, W.Has c) (hv : (g.descriptor env).isValid = true)
    (hg' : ∀ c ∈ g', W.Has c) (hv' : (g'.descriptor env).isValid = true) (hd : ∀ c ∈ g, c ∉ g') {it it' : MutIter}
    (hit : it.Ok W g) (hit' : it'.Ok W g')
    {F F' : List Val → List Val} (hF : ∀ vals, TypedVals g vals → TypedVals g (F vals))
    (hF' : ∀ vals, TypedVals g' vals → TypedVals g' (F' vals)) :
    ∃ r₁ r₂ r₁₂ r₂₁, runSystem env it g F r = .ok r₁ ∧ runSystem env it' g' F' r₁ = .ok r₁₂ ∧
      runSystem env it' g' F' r = .ok r₂ ∧ runSystem env it g F r₂ = .ok r₂₁ ∧
      Reachable W r₁₂ ∧ Reachable W r₂₁ ∧ ∀ e, SameEntity W r₁₂ r₂₁ e := by
  obtain ⟨cs, h⟩ := hr.inv
  obtain ⟨i₁, r₁, c₁, a0, a1, a2, a3, a4, a5, _⟩ := h.run_eq hr hg hv hit hF
  obtain ⟨i₂, r₂, c₂, b0, b1, b2, b3, b4, b5, _⟩ := h.run_eq hr hg' hv' hit' hF'
  obtain ⟨i₁₂, r₁₂, c₁₂, d0, d1, d2, d3, d4, _, _⟩ := a2.run_eq a3 hg' hv' hit' hF'
  obtain ⟨i₂₁, r₂₁, c₂₁, e0, e1, e2, e3, e4, _, _⟩ := b2.run_eq b3 hg hv hit hF
  rw [a5.items h a2 hg' hv' hit', b0] at d0
  cases d0
  rw [b5.items h b2 hg hv hit, a0] at e0
  cases e0
  refine ⟨r₁, r₂, r₁₂, r₂₁, a1, d1, b1, e1, d3, e3, fun x => d2.sameEntity_of_look e2 ?_⟩
  have hd' : ∀ c ∈ g', c ∉ g := fun c hc hc' => hd c hc' hc
  rw [d4 x, e4 x, a5.visitedIn, b5.visitedIn, a4 x, b4 x]
  by_cases k1 : x ∈ visitedIn cs i₁ <;> by_cases k2 : x ∈ visitedIn cs i₂ <;>
    simp only [k1, k2, ite_true, ite_false]
  cases r.look env cs x with
  | none => rfl
  | some f =>
    simp only [Option.map_some]
    unfold stepOf
    rw [tupleOf_putAll hd, tupleOf_putAll hd', putAll_comm hd]

/-- **C121** Two loops over filtered iterators whose closures never both accept a descriptor can be run in either order,
whatever their tuples have in common. -/
theorem C121_disjoint_filters (hr : Reachable W r) (hg : ∀ c ∈ g, W.Has c) (hv : (g.descriptor env).isValid = true)
    (hg' : ∀ c ∈ g', W.Has c) (hv' : (g'.descriptor env).isValid = true) {p q : ArchetypeDescriptor → Bool}
    (hpq : ∀ d, p d = true → q d = false)
    {F F' : List Val → List Val} (hF : ∀ vals, TypedVals g vals → TypedVals g (F vals))
    (hF' : ∀ vals, TypedVals g' vals → TypedVals g' (F' vals)) :
    ∃ r₁ r₂ r₁₂ r₂₁, runSystem env (.filtered p) g F r = .ok r₁ ∧ runSystem env (.filtered q) g' F' r₁ = .ok r₁₂ ∧
      runSystem env (.filtered q) g' F' r = .ok r₂ ∧ runSystem env (.filtered p) g F r₂ = .ok r₂₁ ∧
      Reachable W r₁₂ ∧ Reachable W r₂₁ ∧ ∀ e, SameEntity W r₁₂ r₂₁ e := by
  obtain ⟨cs, h⟩ := hr.inv
  obtain ⟨r₁, c₁, a1, a2, a3, a4, a5⟩ := h.filtered_eq hr hg hv p hF
  obtain ⟨r₂, c₂, b1, b2, b3, b4, b5⟩ := h.filtered_eq hr hg' hv' q hF'
  obtain ⟨r₁₂, c₁₂, d1, d2, d3, d4, _⟩ := a2.filtered_eq a3 hg' hv' q hF'
  obtain ⟨r₂₁, c₂₁, e1, e2, e3, e4, _⟩ := b2.filtered_eq b3 hg hv p hF
  refine ⟨r₁, r₂, r₁₂, r₂₁, a1, d1, b1, e1, d3, e3, fun x => d2.sameEntity_of_look e2 ?_⟩
  rw [d4 x, e4 x, a5.visited, b5.visited, a4 x, b4 x]
  have hand : ¬ (x ∈ visitedBy env r cs g p ∧ x ∈ visitedBy env r cs g' q) := by
    rw [h.mem_visited hg hv, h.mem_visited hg' hv']
    rintro ⟨⟨i, k, a, ct, ha, hc, hk, hs, hp⟩, ⟨i', k', a', ct', ha', hc', hk', hs', hp'⟩⟩
    obtain ⟨rfl, _⟩ := h.row_inj hc hc' hk hk'
    rw [ha] at ha'
    cases ha'
    rw [hpq _ hp] at hp'
    cases hp'
  by_cases k1 : x ∈ visitedBy env r cs g p <;> by_cases k2 : x ∈ visitedBy env r cs g' q
  · exact absurd ⟨k1, k2⟩ hand
  all_goals simp only [k1, k2, ite_true, ite_false]

/-! ## Examples -/

set_option maxRecDepth 100000 in
/-- C121 on the example registry: two loops over the exact iterator of `A`, and one loop with both bodies. -/
example : Reachable exWorld exR ∧ (MutIter.exact).Ok exWorld [exA] ∧
    okOr none ((runSystem exEnv .exact [exA] exSystem exR).bind (fun r =>
      (runSystem exEnv .exact [exA] exSystem r).map (fun r => some
        ([exE1, exE2].map (fun e => okOr none (r.getComponent exEnv exA e)))))) =
      some [some exValA, some ⟨1, [7, 8, 9, 10]⟩] ∧
    okOr none ((runSystem exEnv .exact [exA] (fun v => exSystem (exSystem v)) exR).map (fun r => some
        ([exE1, exE2].map (fun e => okOr none (r.getComponent exEnv exA e))))) =
      some [some exValA, some ⟨1, [7, 8, 9, 10]⟩] :=
  ⟨exReachable, exArchGroup.used, by decide +kernel, by decide +kernel⟩

set_option maxRecDepth 100000 in
/-- C121: the loops over `A` of the entities without and with `B`; closures that exclude each other, and both loops visit
an entity. -/
example : (∀ d, withWithout exEnv [exA] [exB] d = true → (!withWithout exEnv [exA] [exB] d) = false) ∧
    okOr none ((runSystem exEnv (.filtered (withWithout exEnv [exA] [exB])) [exA] exSystem exR).bind (fun r =>
      (runSystem exEnv (.filtered (fun d => !withWithout exEnv [exA] [exB] d)) [exA, exB] exSystem r).map (fun r => some
        ([exE1, exE2].map (fun e => okOr none (r.getComponent exEnv exA e)))))) =
      some [some ⟨1, [2, 3, 4, 5]⟩, some ⟨1, [6, 7, 8, 9]⟩] :=
  ⟨fun d h => by rw [h]; rfl, by decide +kernel⟩

end Shard
