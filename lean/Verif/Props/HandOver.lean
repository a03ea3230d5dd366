import Verif.Spec.HandOver
import Verif.Props.Exchange
/-!
# C128: handing a component from one entity to another
-/

set_option autoImplicit false

namespace Shard

open Script

variable {env : Env} {W : World env} {r r' : Registry} {hist : List (Call × Outcome)} {n : Nat} {a b : Entity} {c : CompTy}

theorem typed_of_get (hr : Reachable W r) (hc : W.Has c) {v : Val} (h : r.getComponent env c a = .ok (some v)) :
    v.HasTy c := by
  obtain ⟨cs, i⟩ := hr.inv
  rw [i.getComponent_eq hc] at h
  injection h with h
  cases hf : r.look env cs a with
  | none => rw [hf] at h; cases h
  | some f =>
    rw [hf] at h
    exact i.look_typed hf h

theorem live_of_has (hr : Reachable W r) (hc : W.Has c) (h : r.hasComponent env c a = .ok true) : Live env r a := by
  obtain ⟨cs, i⟩ := hr.inv
  rw [i.hasComponent_eq hc] at h
  cases hf : r.look env cs a with
  | none => rw [hf] at h; cases h
  | some f => exact i.live_iff.mpr ⟨f, hf⟩

theorem handOver_give (hc : W.Has c) (hs : Steps env (Call.Admissible W) Registry.default hist r)
    (hroom : Roomy W hist (n + 2)) (ha : CanLose W r a c) (hb : CanGain W r b c) :
    ∃ r' hist' v, handOver env r c a b = .ok (some (r', true)) ∧ Steps env (Call.Admissible W) Registry.default hist' r' ∧
      Roomy W hist' n ∧ r.getComponent env c a = .ok (some v) ∧ HandedOver W r r' c v a b := by
  have hne : a ≠ b := fun hh => by have := ha.1; rw [hh, hb.2.1] at this; cases this
  obtain ⟨r1, hist1, v, l1, l2, l3, l4, l5, l6, l7, l8, l9⟩ := lose_one (n := n + 1) hc hs hroom ha
  have hvt : v.HasTy c := typed_of_get ⟨_, hs⟩ hc l4
  obtain ⟨r2, hist2, g1, g2, g3, g4, g5, g6, g7, g8⟩ := gain_one (n := n) hc l2 l3 (hb.same hc (l9 b (Ne.symm hne))) hvt
  refine ⟨r2, hist2, v, ?_, g2, g3, l4, (g8 a hne).1.mpr l5, ?_, ?_, ?_, g4, g5, g6, ?_, fun x h1 h2 => ?_⟩
  · unfold handOver
    rw [l1]
    simp only [ok_bind]
    rw [g1]
    rfl
  · rw [((g8 a hne).2 c hc).1]; exact l6
  · rw [((g8 a hne).2 c hc).2]; exact l7
  · intro c' h1 h2
    exact ⟨((g8 a hne).2 c' h1).1.trans (l8 c' h1 h2).1, ((g8 a hne).2 c' h1).2.trans (l8 c' h1 h2).2⟩
  · intro c' h1 h2
    exact ⟨(g7 c' h1 h2).1.trans ((l9 b (Ne.symm hne)).2 c' h1).1, (g7 c' h1 h2).2.trans ((l9 b (Ne.symm hne)).2 c' h1).2⟩
  · exact (l9 x h1).trans (g8 x h2)

/-- **C128** A component goes from `a`, which has others, to `b`, which has none of this type: `b` has the value `a` had; both
keep their handles and their other components; no other entity changes. -/
theorem C128_give (hc : W.Has c) (hs : Steps env (Call.Admissible W) Registry.default hist r)
    (hroom : Roomy W hist 2) (ha : CanLose W r a c) (hb : CanGain W r b c) :
    ∃ r' v, handOver env r c a b = .ok (some (r', true)) ∧ Reachable W r' ∧ r.getComponent env c a = .ok (some v) ∧
      HandedOver W r r' c v a b := by
  obtain ⟨r', hist', v, h1, h2, _, h3, h4⟩ := handOver_give (n := 0) hc hs hroom ha hb
  exact ⟨r', v, h1, ⟨_, h2⟩, h3, h4⟩

/-- An entity that has lost a component can gain it again. -/
theorem Settled.canGain (hc : W.Has c) {k : Nat} (hk : k ≤ 13) (h : Settled W r a k) (hy : r.hasComponent env c a = .ok true)
    (hl : Live env r' a) (h1 : r'.hasComponent env c a = .ok false) (h2 : SameOthers W r r' a c) : CanGain W r' a c := by
  obtain ⟨t, t1, t2, t3, t4, t5⟩ := h
  refine ⟨hl, h1, t, t1.congr (fun i => ?_), by omega, t4, t5⟩
  unfold WithId
  rw [hasId_lost hc h1 h2]
  constructor
  · intro hi
    by_cases hic : i = c.id
    · exact Or.inl hic
    · exact Or.inr ⟨hic, hi⟩
  · rintro (rfl | ⟨_, hi⟩)
    · exact ⟨c, hc, rfl, hy⟩
    · exact hi

/-- An entity that has gained a component can lose it again. -/
theorem Settled.canLose (hc : W.Has c) {k : Nat} (hk : k ≤ 12) (h : Settled W r a k) (hy : r.hasComponent env c a = .ok false)
    (h1 : r'.hasComponent env c a = .ok true) (h2 : SameOthers W r r' a c) : CanLose W r' a c := by
  obtain ⟨t, t1, t2, t3, t4, t5⟩ := h
  refine ⟨h1, t, t1.congr (fun i => ?_), t2, by omega, t4, t5⟩
  unfold WithoutId
  rw [hasId_gained hc h1 h2]
  constructor
  · intro hi
    refine ⟨?_, Or.inr hi⟩
    rintro rfl
    obtain ⟨c', q1, q2, q3⟩ := hi
    rw [W.id_inj q1 hc q2, hy] at q3
    cases q3
  · rintro ⟨hi, rfl | hi'⟩
    · exact absurd rfl hi
    · exact hi'

/-- **C128** Handing it back leaves every query answered as at the beginning. -/
theorem C128_back (hc : W.Has c) (hs : Steps env (Call.Admissible W) Registry.default hist r)
    (hroom : Roomy W hist 4) (ha : CanLose W r a c) (hb : CanGain W r b c) (ha' : Settled W r a 13) (hb' : Settled W r b 12) :
    ∃ r₁ r₂, handOver env r c a b = .ok (some (r₁, true)) ∧ handOver env r₁ c b a = .ok (some (r₂, true)) ∧ Reachable W r₂ ∧
      ∀ x, SameEntity W r r₂ x := by
  have hne : a ≠ b := fun hh => by have := ha.1; rw [hh, hb.2.1] at this; cases this
  obtain ⟨r1, hist1, v, h1, h2, h3, h4, k1, k2, k3, k4, k5, k6, k7, k8, k9⟩ := handOver_give (n := 2) hc hs hroom ha hb
  obtain ⟨r2, hist2, w, q1, q2, q3, q4, m1, m2, m3, m4, m5, m6, m7, m8, m9⟩ := handOver_give (n := 0) hc h2 h3
    (hb'.canLose hc (by omega) hb.2.1 k6 k8) (ha'.canGain hc (by omega) ha.1 k1 k2 k4)
  rw [k7] at q4
  cases q4
  have hlive : Live env r a := live_of_has ⟨_, hs⟩ hc ha.1
  refine ⟨r1, r2, h1, q1, ⟨_, q2⟩, fun x => ?_⟩
  by_cases hxa : x = a
  · subst hxa
    refine ⟨⟨fun _ => hlive, fun _ => m5⟩, fun c' hc' => ?_⟩
    by_cases hcc : c' = c
    · subst hcc
      exact ⟨m6.trans ha.1.symm, m7.trans h4.symm⟩
    · exact ⟨(m8 c' hc' hcc).1.trans (k4 c' hc' hcc).1, (m8 c' hc' hcc).2.trans (k4 c' hc' hcc).2⟩
  · by_cases hxb : x = b
    · subst hxb
      refine ⟨⟨fun _ => hb.1, fun _ => m1⟩, fun c' hc' => ?_⟩
      by_cases hcc : c' = c
      · subst hcc
        refine ⟨m2.trans hb.2.1.symm, ?_⟩
        obtain ⟨cs, i⟩ := Reachable.inv ⟨_, hs⟩
        have hn := hb.2.1
        rw [i.hasComponent_eq hc'] at hn
        rw [m3, i.getComponent_eq hc']
        cases hh : (r.look env cs x).bind (fun f => f c') with
        | none => rfl
        | some w => rw [hh] at hn; cases hn
      · exact ⟨(m4 c' hc' hcc).1.trans (k8 c' hc' hcc).1, (m4 c' hc' hcc).2.trans (k8 c' hc' hcc).2⟩
    · exact (k9 x hxa hxb).trans (m9 x hxb hxa)

/-- **C128** If `b` is not live or has such a component already, it refuses the component; the value comes back and `a` gets it
again, and every query is answered as at the beginning. -/
theorem C128_refused (hc : W.Has c) (hs : Steps env (Call.Admissible W) Registry.default hist r)
    (hroom : Roomy W hist 2) (ha : CanLose W r a c) (ha' : Settled W r a 13) (hne : a ≠ b)
    (hb : ¬ Live env r b ∨ r.hasComponent env c b = .ok true) (hset : Live env r b → ∀ s, AscSet s (HasId W r b) → W.Used s) :
    ∃ r', handOver env r c a b = .ok (some (r', false)) ∧ Reachable W r' ∧ ∀ x, SameEntity W r r' x := by
  obtain ⟨r1, hist1, v, l1, l2, l3, l4, l5, l6, l7, l8, l9⟩ := lose_one (n := 1) hc hs hroom ha
  have hvt : v.HasTy c := typed_of_get ⟨_, hs⟩ hc l4
  have hsame := l9 b (Ne.symm hne)
  have hadm : (Call.add b c v).Admissible W r1 := ⟨hc, hvt, fun hl s h => by
    have hl' := hsame.1.mp hl
    refine hset hl' s (h.congr (fun i => ?_))
    rw [hsame.hasId]
    constructor
    · rintro (rfl | hi)
      · exact ⟨c, hc, rfl, hb.resolve_left (fun hn => hn hl')⟩
      · exact hi
    · exact Or.inr⟩
  have href := (C14_add_failure (r' := r1) ⟨_, l2⟩ hadm).1 (by
    rcases hb with hb | hb
    · exact Or.inl (fun hl => hb (hsame.1.mp hl))
    · exact Or.inr (by rw [(hsame.2 c hc).1]; exact hb))
  obtain ⟨r2, hist2, g1, g2, g3, g4, g5, g6, g7, g8⟩ := gain_one (n := 0) hc l2 l3 (ha'.canGain hc (by omega) ha.1 l5 l6 l8) hvt
  refine ⟨r2, ?_, ⟨_, g2⟩, fun x => ?_⟩
  · unfold handOver
    rw [l1]
    simp only [ok_bind]
    rw [href]
    simp only [ok_bind]
    rw [g1]
    rfl
  · by_cases hxa : x = a
    · subst hxa
      have hlive : Live env r x := live_of_has ⟨_, hs⟩ hc ha.1
      refine ⟨⟨fun _ => hlive, fun _ => g4⟩, fun c' hc' => ?_⟩
      by_cases hcc : c' = c
      · subst hcc
        exact ⟨g5.trans ha.1.symm, g6.trans l4.symm⟩
      · exact ⟨(g7 c' hc' hcc).1.trans (l8 c' hc' hcc).1, (g7 c' hc' hcc).2.trans (l8 c' hc' hcc).2⟩
    · exact (l9 x hxa).trans (g8 x hxa)

/-! ## Examples -/

set_option maxRecDepth 100000 in
/-- C128 on `exR`: the `B` of `exE1` goes to `exE2` and back. -/
example : exWorld.Has exB ∧ Steps exEnv (Call.Admissible exWorld) Registry.default (exCalls.zip exOuts) exR ∧
    Roomy exWorld (exCalls.zip exOuts) 4 ∧ CanLose exWorld exR exE1 exB ∧ CanGain exWorld exR exE2 exB ∧
    Settled exWorld exR exE1 13 ∧ Settled exWorld exR exE2 12 ∧
    okOr none ((handOver exEnv exR exB exE1 exE2).map (fun o => o.map (fun x =>
      (x.2, [exE1, exE2].map (fun e => okOr none (x.1.getComponent exEnv exB e)))))) = some (true, [none, some exValB]) :=
  ⟨show exB ∈ [exA, exB, exC] by decide, exSteps, ⟨.inl (by decide +kernel), by decide +kernel⟩,
    ⟨by decide +kernel, [10, 30], withoutId_check (by decide +kernel), by decide, by decide,
      exUsed (by decide) (by decide) (by decide), by decide +kernel⟩,
    ⟨by unfold Live; rw [exR_live.1]; decide, by decide +kernel, [10, 20], withId_check (by decide +kernel),
      by decide, exUsed (by decide) (by decide) (by decide), by decide +kernel⟩,
    ⟨[10, 20, 30], ids_check (by decide +kernel), by decide, by decide, exUsed (by decide) (by decide) (by decide),
      by decide +kernel⟩,
    ⟨[10], ids_check (by decide +kernel), by decide, by decide, exUsed (by decide) (by decide) (by decide), by decide +kernel⟩,
    by decide +kernel⟩

set_option maxRecDepth 100000 in
/-- C128 on `exR`: `exE2` refuses the `A` of `exE1`, as it has one; so does `exE3`, which is not live. -/
example : CanLose exWorld exR exE1 exA ∧ exE1 ≠ exE2 ∧ exR.hasComponent exEnv exA exE2 = .ok true ∧
    (∀ s, AscSet s (HasId exWorld exR exE2) → exWorld.Used s) ∧ exE1 ≠ exE3 ∧ ¬ Live exEnv exR exE3 ∧
    [exE2, exE3].map (fun b => okOr none ((handOver exEnv exR exA exE1 b).map (fun o => o.map (fun x =>
      (x.2, [exE1, exE2].map (fun e => okOr none (x.1.getComponent exEnv exA e))))))) =
      [some (false, [some exValA, some exValA']), some (false, [some exValA, some exValA'])] :=
  ⟨⟨by decide +kernel, [20, 30], withoutId_check (by decide +kernel), by decide, by decide,
      exUsed (by decide) (by decide) (by decide), by decide +kernel⟩, by decide, by decide +kernel,
    fun s h => by
      rw [h.unique (show AscSet [10] _ from ids_check (by decide +kernel))]
      exact exUsed (by decide) (by decide) (by decide),
    by decide, by unfold Live; rw [exR_live.1]; decide, by decide +kernel⟩

end Shard
