import Verif.Proofs.Home
import Verif.Props.Iteration
/-!
# C34: completeness of exact iteration
-/

set_option autoImplicit false

namespace Shard

variable {env : Env} {W : World env} {r r' : Registry}

/-- The claim of **C34**: exact iteration yields exactly the live entities whose component set is exactly `G`. -/
def C34_statement : Prop :=
  ∀ (env : Env) (W : World env) (r : Registry), Reachable W r → ∀ g : Group, W.OkGroup g →
    (g.descriptor env).isValid = true → ∀ ents cols, r.iterEntityComponentsExact env g = .ok (ents, cols) →
    ∀ e, e ∈ ents ↔ HasExactly W r e g

set_option maxRecDepth 100000 in
/-- **C34** is false: in `exR`, `exE1` has exactly the components `A`, `B`, `C` (it was created with `B`, `A` and given
`C`), but exact iteration over them yields nothing. -/
theorem C34_violated : ¬ C34_statement := by
  intro h
  have hok : exWorld.OkGroup [exA, exB, exC] :=
    (exCheck_ok (call := .create [exA, exB, exC] [exValA, exValB, exValC]) (by decide +kernel) exR).2 (by decide)
  have := (h exEnv exWorld exR exReachable [exA, exB, exC] hok (by decide +kernel) [] [[], [], []]
    (by decide +kernel) exE1).mpr
  refine absurd (this ⟨?_, ?_⟩) (by simp)
  · unfold Live; rw [exR_live.1]; exact List.mem_cons_self
  · intro c hc
    have hc : c ∈ [exA, exB, exC] := hc
    simp only [List.mem_cons, List.not_mem_nil, or_false] at hc
    rcases hc with rfl | rfl | rfl <;> decide +kernel

/-- **C34** (partial: an entity that came to have the set by `add_component` or `remove_component` is missed) Exact
iteration yields, each once and with its values, exactly the live entities whose component set is exactly `G` and whose
last structural change was their creation. The component-only and the mutable variants yield the same. An entity whose
last structural change was `add_component` or `remove_component` is yielded only if the two ids that the code computes
for the set happen to be equal. -/
theorem C34_exact_iteration_partial {hist : List (Call × Outcome)}
    (hs : Steps env (Call.Admissible W) Registry.default hist r) {g : Group} (hg : W.OkGroup g)
    (hv : (g.descriptor env).isValid = true) :
    ∃ ents cols o, r.iterEntityComponentsExact env g = .ok (ents, cols) ∧ r.iterComponentsExact env g = .ok cols ∧
      r.iterEntityComponentsExactMut env g = .ok o ∧
      r.iterComponentsExactMut env g = .ok (o.map (fun x => (x.1, x.2.2))) ∧
      (∀ x, o = some x → x.2.1 = ents ∧ AlignedMut W r g x.1 x.2.1 x.2.2) ∧ (o = none → ents = []) ∧
      Aligned env r g ents cols ∧ ents.Nodup ∧
      ∀ e, e ∈ ents ↔ HasExactly W r e g ∧ (movedLast hist e = false ∨ plainId env g.idSet = groupId env g.idSet) := by
  have hr : Reachable W r := ⟨_, hs⟩
  obtain ⟨ents, cols, o, p1, p2, p3, p4, p5, p6, p7⟩ := (C31_aligned_slices hr hg.has hv (fun _ => true)).2.2.2.2 hg.used
  refine ⟨ents, cols, o, p1, p2, p4, p5, p6, p7, p3, ?_⟩
  obtain ⟨cs, h⟩ := hr.inv
  have gs := Group.spec hv
  have hd := Group.descOK hg hv
  -- the home of an entity with exactly these components
  have hhome : ∀ e, HasExactly W r e g → ∃ ai a ct k, r.entities.loc env e = some (ai, k) ∧
      r.archetypes.archetypes[ai]? = some a ∧ cs[ai]? = some ct ∧ ct.ents[k]? = some e ∧ a.descriptor.len = g.length ∧
      a.descriptor.archetypeId = if movedLast hist e then plainId env g.idSet else groupId env g.idSet := by
    intro e he
    obtain ⟨s, ai, a, h1, h2, h3, h4⟩ := hs.home (W := W) (fun _ _ h => h) he.1
    unfold Registry.archOf at h1
    cases hl : r.entities.loc env e with
    | none => rw [hl] at h1; cases h1
    | some x =>
      obtain ⟨ai', k⟩ := x
      rw [hl] at h1
      cases h1
      obtain ⟨ct, q1, q2⟩ := (h.placed _ _ _).mp hl
      have hrep := h.arch.rep _ _ _ h2 q1
      have hm : ∀ c, c ∈ ct.cts ↔ c ∈ g := by
        intro c
        rw [← (h.hasExactly_iff (look_of hl q1) hg.has).mp he c]
        constructor
        · intro hc
          obtain ⟨v, hv, _⟩ := hrep.get_some hc (List.getElem?_eq_some_iff.mp q2).1
          simp [hv]
        · intro hs
          obtain ⟨v, hv⟩ := Option.isSome_iff_exists.mp hs
          exact (hrep.mem_of_get hv).1
      have hcts : ct.cts = g.cts env := hrep.cts_eq_group hg hv hm
      have hids : a.descriptor.ids = g.idSet := by
        rw [hrep.desc.ids_eq, hcts, ← hd.ids_eq, gs.ids_eq]
      refine ⟨ai', a, ct, k, rfl, h2, q1, q2, ?_, ?_⟩
      · rw [← hrep.desc.length, hcts, hd.length, gs.len]
      · rw [h4, ← h3, hids]
  rcases h.find_group hg hv with ⟨i, a, ct, q1, q2, q3, q4, q5, q6⟩ | ⟨q1, q2⟩
  · have hents : ents = ct.ents := by
      rcases h.iterExact_eq hg hv with ⟨i', a', ct', w1, w2, w3, w4, w5, w6, w7, w8, w9⟩ | ⟨w1, _⟩
      · rw [q1] at w1; cases w1
        rw [q3] at w3; cases w3
        rw [p1] at w8; cases w8; rfl
      · rw [q1] at w1; cases w1
    subst hents
    refine ⟨h.ents_nodup q3, fun e => ?_⟩
    have hid : a.descriptor.archetypeId = groupId env g.idSet := by rw [← q6, gs.archetypeId_eq, gs.ids_eq]
    have hlen : a.descriptor.len = g.length := by rw [← q4.desc.length, q5, hd.length, gs.len]
    constructor
    · intro he
      obtain ⟨k, hk⟩ := List.mem_iff_getElem?.mp he
      have hlook := h.row_look q3 hk
      have hex : HasExactly W r e g := by
        refine (h.hasExactly_iff hlook hg.has).mpr (fun c => ?_)
        rw [← gs.mem_cts hg, ← q5]
        constructor
        · intro hs
          obtain ⟨v, hv⟩ := Option.isSome_iff_exists.mp hs
          exact (q4.mem_of_get hv).1
        · intro hc
          obtain ⟨v, hv, _⟩ := q4.get_some hc (List.getElem?_eq_some_iff.mp hk).1
          simp [hv]
      refine ⟨hex, ?_⟩
      obtain ⟨ai, a', ct', k', z1, z2, z3, z4, z5, z6⟩ := hhome e hex
      obtain ⟨rfl, _⟩ := h.row_inj q3 z3 hk z4
      rw [q2] at z2; cases z2
      cases hml : movedLast hist e with
      | false => exact Or.inl rfl
      | true =>
        rw [hml, hid] at z6
        exact Or.inr z6.symm
    · rintro ⟨hex, hm⟩
      obtain ⟨ai, a', ct', k', z1, z2, z3, z4, z5, z6⟩ := hhome e hex
      have hz : a'.descriptor.archetypeId = groupId env g.idSet := by
        rcases hm with hm | hm
        · rw [z6, hm]; rfl
        · rw [z6, hm]; split <;> rfl
      have := h.arch.unique_index q2 z2 (by rw [hlen, z5]) (by rw [hid, hz])
      subst this
      rw [q3] at z3; cases z3
      exact List.mem_of_getElem? z4
  · have hents : ents = [] := by
      rcases h.iterExact_eq hg hv with ⟨i', a', ct', w1, _⟩ | ⟨w1, w2, w3, w4, w5⟩
      · rw [q1] at w1; cases w1
      · rw [p1] at w4; cases w4; rfl
    subst hents
    refine ⟨List.nodup_nil, fun e => ⟨fun he => (by cases he), ?_⟩⟩
    rintro ⟨hex, hm⟩
    obtain ⟨ai, a', ct', k', z1, z2, z3, z4, z5, z6⟩ := hhome e hex
    refine absurd ?_ (q2 ai a' z2 (by rw [z5, gs.len]))
    rw [gs.archetypeId_eq, gs.ids_eq]
    rcases hm with hm | hm
    · rw [z6, hm]; rfl
    · rw [z6, hm]; split <;> rfl

set_option maxRecDepth 100000 in
/-- C34 on `exR`: iterating exactly over `A` yields `exE2`; `exE1` was moved last. -/
example : Steps exEnv (Call.Admissible exWorld) Registry.default (exCalls.zip exOuts) exR ∧ exWorld.OkGroup [exA] ∧
    (Group.descriptor exEnv [exA]).isValid = true ∧ movedLast (exCalls.zip exOuts) exE1 = true ∧
    movedLast (exCalls.zip exOuts) exE2 = false ∧
    exR.iterEntityComponentsExact exEnv [exA] = .ok ([exE2], [[exValA']]) :=
  ⟨exSteps, (exCheck_ok (call := .create [exA] [exValA]) (by decide +kernel) exR).2 (by decide), by decide +kernel,
    by decide +kernel, by decide +kernel, by decide +kernel⟩

end Shard
