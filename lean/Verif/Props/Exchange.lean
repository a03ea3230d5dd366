import Verif.Spec.Exchange
import Verif.Props.Marks
import Verif.Props.LastStored
/-!
# C119: exchanging one component type for another
-/

set_option autoImplicit false

namespace Shard

open Script

variable {env : Env} {W : World env} {r r' : Registry} {hist : List (Call × Outcome)} {n : Nat}

theorem gain_one {e : Entity} {c : CompTy} {v : Val} (hc : W.Has c)
    (hs : Steps env (Call.Admissible W) Registry.default hist r) (hroom : Roomy W hist (n + 1)) (hg : CanGain W r e c)
    (hv : v.HasTy c) :
    ∃ r' hist', r.addComponent env e c v = .ok (r', .ok ()) ∧ Steps env (Call.Admissible W) Registry.default hist' r' ∧
      Roomy W hist' n ∧ Live env r' e ∧ r'.hasComponent env c e = .ok true ∧ r'.getComponent env c e = .ok (some v) ∧
      SameOthers W r r' e c ∧ ∀ x, x ≠ e → SameEntity W r r' x := by
  obtain ⟨a1, a2, t, a3, a4, a5, a6⟩ := hg
  have hadm : (Call.add e c v).Admissible W r := ⟨hc, hv, fun _ s h => by rw [AscSet.unique h a3]; exact a5⟩
  have ho := hroom.ordinary hs
  obtain ⟨r1, hadd⟩ := ((C75_ordinary_programs ho.1 ho.2.1 ho.2.2).2.1 e c v t hadm a1 a2 a3).1 a4 a6
  obtain ⟨_, _, b1, b2, b3, b4, b5⟩ := C13_add_component ⟨_, hs⟩ hadm hadd
  exact ⟨r1, _, hadd, hs.snoc hadm (run_add_ok hadd), hroom.snoc _, b1, b2, b3, b4, b5⟩

theorem lose_one {e : Entity} {c : CompTy} (hc : W.Has c)
    (hs : Steps env (Call.Admissible W) Registry.default hist r) (hroom : Roomy W hist (n + 1)) (hg : CanLose W r e c) :
    ∃ r' hist' w, r.removeComponent env e c = .ok (r', .ok w) ∧ Steps env (Call.Admissible W) Registry.default hist' r' ∧
      Roomy W hist' n ∧ r.getComponent env c e = .ok (some w) ∧ Live env r' e ∧ r'.hasComponent env c e = .ok false ∧
      r'.getComponent env c e = .ok none ∧ SameOthers W r r' e c ∧ ∀ x, x ≠ e → SameEntity W r r' x := by
  obtain ⟨a2, t, a3, a4, a5, a6, a7⟩ := hg
  have hadm : (Call.remove e c).Admissible W r := ⟨hc, fun _ s _ h => by rw [AscSet.unique h a3]; exact a6⟩
  have ho := hroom.ordinary hs
  obtain ⟨r1, v, hrem⟩ := ((C75_ordinary_programs ho.1 ho.2.1 ho.2.2).2.2.1 e c t hadm a2 a3).2.1 a4 a5 a7
  obtain ⟨b0, _, b1, b2, b3, b4, _, b5⟩ := (C15_remove_component ⟨_, hs⟩ hadm).1 v hrem
  exact ⟨r1, _, v, hrem, hs.snoc hadm (run_remove_ok hrem), hroom.snoc _, b0, b1, b2, b3, b4, b5⟩

/-- The ids after gaining `c`. -/
theorem hasId_gained {e : Entity} {c : CompTy} (hc : W.Has c) (h1 : r'.hasComponent env c e = .ok true)
    (h2 : SameOthers W r r' e c) (i : UInt16) : HasId W r' e i ↔ i = c.id ∨ HasId W r e i := by
  constructor
  · rintro ⟨c', q1, q2, q3⟩
    by_cases hcc : c' = c
    · exact Or.inl (by rw [← q2, hcc])
    · exact Or.inr ⟨c', q1, q2, by rw [← (h2 c' q1 hcc).1]; exact q3⟩
  · rintro (rfl | ⟨c', q1, q2, q3⟩)
    · exact ⟨c, hc, rfl, h1⟩
    · by_cases hcc : c' = c
      · exact ⟨c', q1, q2, by rw [hcc]; exact h1⟩
      · exact ⟨c', q1, q2, by rw [(h2 c' q1 hcc).1]; exact q3⟩

/-- The ids after losing `d`. -/
theorem hasId_lost {e : Entity} {d : CompTy} (hd : W.Has d) (h1 : r'.hasComponent env d e = .ok false)
    (h2 : SameOthers W r r' e d) (i : UInt16) : HasId W r' e i ↔ i ≠ d.id ∧ HasId W r e i := by
  constructor
  · rintro ⟨c', q1, q2, q3⟩
    have hcd : c' ≠ d := fun hh => by rw [hh, h1] at q3; cases q3
    exact ⟨fun hi => hcd (W.id_inj q1 hd (q2.trans hi)), c', q1, q2, by rw [← (h2 c' q1 hcd).1]; exact q3⟩
  · rintro ⟨hi, c', q1, q2, q3⟩
    have hcd : c' ≠ d := fun hh => hi (by rw [← q2, hh])
    exact ⟨c', q1, q2, by rw [(h2 c' q1 hcd).1]; exact q3⟩

/-- The sets involved have at most 12 components. -/
theorem exchange_len {e : Entity} {c d : CompTy} (hr : Reachable W r) (hc : W.Has c) (hd : W.Has d)
    (hg : CanGain W r e c) (hy : r.hasComponent env d e = .ok true) {s : List UInt16}
    (hs : AscSet s (fun i => i = c.id ∨ i ≠ d.id ∧ HasId W r e i)) : 1 ≤ s.length ∧ s.length ≤ 12 := by
  obtain ⟨cs, i⟩ := hr.inv
  obtain ⟨a1, a2, t, a3, a4, a5, a6⟩ := hg
  have hm : c.id ∈ s := (hs.2 _).mpr (Or.inl rfl)
  refine ⟨List.length_pos_of_mem hm, ?_⟩
  have hne : d ≠ c := fun hh => by rw [hh, a2] at hy; cases hy
  have hdt : d.id ∈ t := (a3.2 _).mpr (Or.inr ⟨d, hd, rfl, hy⟩)
  have hnd : t.Nodup := a3.1.imp (fun hlt he => by subst he; exact UInt16.lt_irrefl _ hlt)
  have her : AscSet (t.erase d.id) (fun i => i = c.id ∨ i ≠ d.id ∧ HasId W r e i) := by
    refine ⟨a3.1.sublist List.erase_sublist, fun j => ?_⟩
    rw [hnd.mem_erase_iff, a3.2 j]
    unfold WithId
    constructor
    · rintro ⟨q1, q2 | q2⟩
      · exact Or.inl q2
      · exact Or.inr ⟨q1, q2⟩
    · rintro (q | ⟨q1, q2⟩)
      · exact ⟨fun hh => hne (W.id_inj hd hc (hh.symm.trans q)), Or.inl q⟩
      · exact ⟨q1, Or.inr q2⟩
  rw [hs.unique her, List.length_erase_of_mem hdt]
  omega

/-- **C119** Adding the new component first: both calls succeed, the old value comes out, and the entity has the one
component in place of the other; nothing else changes. It does not matter whether the entity has other components. -/
theorem C119_exchange {e : Entity} {c d : CompTy} {v : Val} (hc : W.Has c) (hd : W.Has d)
    (hs : Steps env (Call.Admissible W) Registry.default hist r) (hroom : Roomy W hist 2) (hg : CanGain W r e c)
    (hy : r.hasComponent env d e = .ok true) (hx : CanExchange W r e c d) (hv : v.HasTy c) :
    ∃ r' w, gainThenLose env r e c v d = .ok (some (r', w)) ∧ r.getComponent env d e = .ok (some w) ∧
      Exchanged W r r' e c v d := by
  obtain ⟨s, s1, s2, s3⟩ := hx
  obtain ⟨l1, l2⟩ := exchange_len ⟨_, hs⟩ hc hd hg hy s1
  have hne : d ≠ c := fun hh => by rw [hh, hg.2.1] at hy; cases hy
  obtain ⟨r1, hist1, a1, a2, a3, a4, a5, a6, a7, a8⟩ := gain_one (n := 1) hc hs hroom hg hv
  have hlose : CanLose W r1 e d := by
    refine ⟨by rw [(a7 d hd hne).1]; exact hy, s, s1.congr (fun i => ?_), l1, l2, s2, s3⟩
    unfold WithoutId
    rw [hasId_gained hc a5 a7]
    constructor
    · rintro (q | ⟨q1, q2⟩)
      · exact ⟨fun hh => hne (W.id_inj hd hc (hh.symm.trans q)), Or.inl q⟩
      · exact ⟨q1, Or.inr q2⟩
    · rintro ⟨q1, q2 | q2⟩
      · exact Or.inl q2
      · exact Or.inr ⟨q1, q2⟩
  obtain ⟨r2, hist2, w, b1, b2, b3, b4, b5, b6, b7, b8, b9⟩ := lose_one (n := 0) hd a2 a3 hlose
  refine ⟨r2, w, ?_, by rw [← (a7 d hd hne).2]; exact b4, b5, ?_, ?_, b6, b7, fun c' h1 h2 h3 => ?_, fun x hx => ?_⟩
  · unfold gainThenLose
    rw [a1]
    simp only [ok_bind]
    rw [b1]
    rfl
  · rw [(b8 c hc (fun hh => hne hh.symm)).1]; exact a5
  · rw [(b8 c hc (fun hh => hne hh.symm)).2]; exact a6
  · exact ⟨(b8 c' h1 h3).1.trans (a7 c' h1 h2).1, (b8 c' h1 h3).2.trans (a7 c' h1 h2).2⟩
  · exact (a8 x hx).trans (b9 x hx)

theorem exchange_other {e : Entity} {c d : CompTy} {v : Val} (hc : W.Has c) (hd : W.Has d)
    (hs : Steps env (Call.Admissible W) Registry.default hist r) (hroom : Roomy W hist 2) (hg : CanGain W r e c)
    (hl : CanLose W r e d) (hx : CanExchange W r e c d) (hv : v.HasTy c) :
    ∃ r' w, loseThenGain env r e c v d = .ok (some (r', w)) ∧ r.getComponent env d e = .ok (some w) ∧
      Exchanged W r r' e c v d := by
  obtain ⟨s, s1, s2, s3⟩ := hx
  obtain ⟨l1, l2⟩ := exchange_len ⟨_, hs⟩ hc hd hg hl.1 s1
  have hne : d ≠ c := fun hh => by have := hl.1; rw [hh, hg.2.1] at this; cases this
  obtain ⟨r1, hist1, w, b1, b2, b3, b4, b5, b6, b7, b8, b9⟩ := lose_one (n := 1) hd hs hroom hl
  have hgain : CanGain W r1 e c := by
    refine ⟨b5, by rw [(b8 c hc (fun hh => hne hh.symm)).1]; exact hg.2.1, s, s1.congr (fun i => ?_), by omega, s2, s3⟩
    unfold WithId
    rw [hasId_lost hd b6 b8]
  obtain ⟨r2, hist2, a1, a2, a3, a4, a5, a6, a7, a8⟩ := gain_one (n := 0) hc b2 b3 hgain hv
  refine ⟨r2, w, ?_, b4, a4, a5, a6, ?_, ?_, fun c' h1 h2 h3 => ?_, fun x hx => ?_⟩
  · unfold loseThenGain
    rw [b1]
    simp only [ok_bind]
    rw [a1]
    rfl
  · rw [(a7 d hd hne).1]; exact b6
  · rw [(a7 d hd hne).2]; exact b7
  · exact ⟨(a7 c' h1 h2).1.trans (b8 c' h1 h3).1, (a7 c' h1 h2).2.trans (b8 c' h1 h3).2⟩
  · exact (b9 x hx).trans (a8 x hx)

/-- **C119** If the old component is not the only one, the two orders give the same value and registries that answer every
query alike. -/
theorem C119_order {e : Entity} {c d : CompTy} {v : Val} (hc : W.Has c) (hd : W.Has d)
    (hs : Steps env (Call.Admissible W) Registry.default hist r) (hroom : Roomy W hist 2) (hg : CanGain W r e c)
    (hl : CanLose W r e d) (hx : CanExchange W r e c d) (hv : v.HasTy c) :
    ∃ r₁ r₂ w, gainThenLose env r e c v d = .ok (some (r₁, w)) ∧ loseThenGain env r e c v d = .ok (some (r₂, w)) ∧
      Exchanged W r r₁ e c v d ∧ ∀ x, SameEntity W r₁ r₂ x := by
  obtain ⟨r₁, w₁, a1, a2, a3, a4, a5, a6, a7, a8, a9⟩ := C119_exchange hc hd hs hroom hg hl.1 hx hv
  obtain ⟨r₂, w₂, b1, b2, b3, b4, b5, b6, b7, b8, b9⟩ := exchange_other hc hd hs hroom hg hl hx hv
  rw [a2] at b2
  cases b2
  refine ⟨r₁, r₂, w₁, a1, b1, ⟨a3, a4, a5, a6, a7, a8, a9⟩, fun x => ?_⟩
  by_cases he : x = e
  · subst he
    refine ⟨⟨fun _ => a3, fun _ => b3⟩, fun c' hc' => ?_⟩
    by_cases h1 : c' = c
    · subst h1
      exact ⟨b4.trans a4.symm, b5.trans a5.symm⟩
    · by_cases h2 : c' = d
      · subst h2
        exact ⟨b6.trans a6.symm, b7.trans a7.symm⟩
      · exact ⟨(b8 c' hc' h1 h2).1.trans (a8 c' hc' h1 h2).1.symm, (b8 c' hc' h1 h2).2.trans (a8 c' hc' h1 h2).2.symm⟩
  · obtain ⟨p1, p2⟩ := a9 x he
    obtain ⟨q1, q2⟩ := b9 x he
    exact ⟨q1.trans p1.symm, fun c' hc' => ⟨(q2 c' hc').1.trans (p2 c' hc').1.symm, (q2 c' hc').2.trans (p2 c' hc').2.symm⟩⟩

/-- **C119** If the old component is the only one, removing it first is refused, and nothing changes. -/
theorem C119_only {e : Entity} {d : CompTy} (hr : Reachable W r) (hd : W.Has d)
    (ho : ∀ c', W.Has c' → r.hasComponent env c' e = .ok true → c' = d) :
    r.removeComponent env e d = .ok (r, .err ()) ∧ ∀ c v, loseThenGain env r e c v d = .ok none := by
  have hadm : (Call.remove e d).Admissible W r := ⟨hd, fun hy s hne h => by
    cases s with
    | nil => exact absurd rfl hne
    | cons i s =>
      obtain ⟨hi, c', q1, q2, q3⟩ := (h.2 i).mp List.mem_cons_self
      exact absurd (by rw [← q2, ho c' q1 q3]) hi⟩
  have := (C15_remove_component (r' := r) hr hadm).2.1 (Or.inr (Or.inr ho))
  refine ⟨this, fun c v => ?_⟩
  unfold loseThenGain
  rw [this]
  rfl

/-! ## Examples -/

theorem exchange_check {types : List CompTy} {sets : List (List UInt16)} {hw : worldCheck env types sets = true} {e : Entity}
    {c d : CompTy} {s : List UInt16}
    (h : ascCheck s (c.id :: (idsOf env types r e).filter (fun i => decide (i ≠ d.id))) = true) :
    AscSet s (fun i => i = c.id ∨ i ≠ d.id ∧ HasId (World.ofLists env types sets hw) r e i) :=
  ascCheck_ok h (fun i => by rw [hasId_ofLists, List.mem_cons, List.mem_filter]; simp [and_comm])

set_option maxRecDepth 100000 in
/-- C119: the hypotheses for an entity whose only component is `A`, which is exchanged for `B`. Adding first works;
removing first is refused. -/
example : Steps exEnv (Call.Admissible exWorld) Registry.default (exCalls.zip exOuts) exR ∧
    Roomy exWorld (exCalls.zip exOuts) 2 ∧ CanGain exWorld exR exE2 exB ∧ exR.hasComponent exEnv exA exE2 = .ok true ∧
    CanExchange exWorld exR exE2 exB exA ∧ exValB.HasTy exB ∧
    okOr none ((gainThenLose exEnv exR exE2 exB exValB exA).map (fun o => o.map (fun x =>
      (x.2, [exA, exB].map (fun c => okOr none (x.1.getComponent exEnv c exE2)))))) = some (exValA', [none, some exValB]) ∧
    okOr none ((loseThenGain exEnv exR exE2 exB exValB exA).map (fun o => o.map (fun x => x.2))) = none :=
  ⟨exSteps, ⟨.inl (by decide +kernel), by decide +kernel⟩,
    ⟨by unfold Live; rw [exR_live.1]; decide, by decide +kernel, [10, 20], withId_check (by decide +kernel),
      by decide, exUsed (by decide) (by decide) (by decide), by decide +kernel⟩, by decide +kernel,
    ⟨[20], exchange_check (by decide +kernel), exUsed (by decide) (by decide) (by decide), by decide +kernel⟩, ⟨rfl, rfl⟩,
    by decide +kernel, by decide +kernel⟩

set_option maxRecDepth 100000 in
/-- C119: the hypotheses for an entity with `A` and `B`, whose `A` is exchanged for `C`, in either order. -/
example : Steps exEnv (Call.Admissible exWorld) Registry.default exHist2 exR2 ∧ Roomy exWorld exHist2 2 ∧
    CanGain exWorld exR2 exE2 exC ∧ CanLose exWorld exR2 exE2 exA ∧ CanExchange exWorld exR2 exE2 exC exA ∧ exValC.HasTy exC ∧
    okOr none ((gainThenLose exEnv exR2 exE2 exC exValC exA).map (fun o => o.map (fun x =>
      (x.2, [exA, exB, exC].map (fun c => okOr none (x.1.getComponent exEnv c exE2)))))) =
      some (exValA, [none, some exValB, some exValC]) ∧
    okOr none ((loseThenGain exEnv exR2 exE2 exC exValC exA).map (fun o => o.map (fun x =>
      (x.2, [exA, exB, exC].map (fun c => okOr none (x.1.getComponent exEnv c exE2)))))) =
      some (exValA, [none, some exValB, some exValC]) :=
  ⟨exSteps2, ⟨.inl (by decide +kernel), by decide +kernel⟩,
    ⟨by unfold Live; decide +kernel, by decide +kernel, [10, 20, 30], withId_check (by decide +kernel),
      by decide, exUsed (by decide) (by decide) (by decide), by decide +kernel⟩,
    ⟨by decide +kernel, [20], withoutId_check (by decide +kernel), by decide, by decide,
      exUsed (by decide) (by decide) (by decide), by decide +kernel⟩,
    ⟨[20, 30], exchange_check (by decide +kernel), exUsed (by decide) (by decide) (by decide), by decide +kernel⟩, ⟨rfl, rfl⟩,
    by decide +kernel, by decide +kernel⟩

end Shard
