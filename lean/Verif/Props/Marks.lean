import Verif.Spec.Marks
import Verif.Props.Script
import Verif.Props.Components
import Verif.Props.Ordinary
import Verif.Props.Transfer
import Verif.Props.Locality
import Verif.Props.Check
/-!
# Adding a component to many entities and taking it away again: properties
-/

set_option autoImplicit false

namespace Shard

open Script

variable {env : Env} {W : World env} {r r' : Registry}

theorem CanGain.same {e : Entity} {c : CompTy} (hc : W.Has c) (h : CanGain W r e c) (hs : SameEntity W r r' e) : CanGain W r' e c := by
  obtain ⟨h1, h2, t, h3, h4⟩ := h
  refine ⟨hs.1.mpr h1, by rw [(hs.2 c hc).1]; exact h2, t, ⟨h3.1, fun i => ?_⟩, h4⟩
  rw [h3.2 i]
  unfold WithId
  rw [hs.hasId]

theorem CanLose.same {e : Entity} {c : CompTy} (hc : W.Has c) (h : CanLose W r e c) (hs : SameEntity W r r' e) : CanLose W r' e c := by
  obtain ⟨h2, t, h3, h4⟩ := h
  refine ⟨by rw [(hs.2 c hc).1]; exact h2, t, ⟨h3.1, fun i => ?_⟩, h4⟩
  rw [h3.2 i]
  unfold WithoutId
  rw [hs.hasId]

/-- **C115** A component can be added to any number of entities: all calls succeed, every entity has its value, its other
components and all other entities are as before. -/
theorem C115_add {c : CompTy} (hc : W.Has c) : ∀ (l : List (Entity × Val)) {r : Registry} {hist : List (Call × Outcome)} {n : Nat},
    Steps env (Call.Admissible W) Registry.default hist r → Roomy W hist (n + l.length) → (l.map (fun x => x.1)).Nodup →
    (∀ x ∈ l, CanGain W r x.1 c ∧ x.2.HasTy c) →
    ∃ r' hist', addToAll env c r l = .ok (some r') ∧ Steps env (Call.Admissible W) Registry.default hist' r' ∧
      Roomy W hist' n ∧
      (∀ x ∈ l, Live env r' x.1 ∧ r'.hasComponent env c x.1 = .ok true ∧ r'.getComponent env c x.1 = .ok (some x.2) ∧
        SameOthers W r r' x.1 c) ∧
      ∀ e, e ∉ l.map (fun x => x.1) → SameEntity W r r' e
  | [], r, hist, n, hs, hroom, _, _ =>
    ⟨r, hist, rfl, hs, hroom, fun x hx => by simp at hx, fun _ _ => ⟨Iff.rfl, fun _ _ => ⟨rfl, rfl⟩⟩⟩
  | (e, v) :: l, r, hist, n, hs, hroom, hn, hall => by
    rw [List.map_cons, List.nodup_cons] at hn
    obtain ⟨⟨a1, a2, t, a3, a4, a5, a6⟩, a7⟩ := hall (e, v) List.mem_cons_self
    have hr : Reachable W r := ⟨_, hs⟩
    have hroom' : Roomy W hist (n + l.length + 1) := hroom
    have hadm : (Call.add e c v).Admissible W r :=
      ⟨hc, a7, fun _ s h => by rw [AscSet.unique h a3]; exact a5⟩
    have ho := hroom'.ordinary hs
    obtain ⟨r1, hadd⟩ := ((C75_ordinary_programs ho.1 ho.2.1 ho.2.2).2.1 e c v t hadm a1 a2 a3).1 a4 a6
    obtain ⟨_, _, b1, b2, b3, b4, b5⟩ := C13_add_component hr hadm hadd
    have hs1 := hs.snoc hadm (run_add_ok hadd)
    have hne : ∀ x ∈ l, x.1 ≠ e := fun x hx hh => hn.1 (List.mem_map.mpr ⟨x, hx, hh⟩)
    obtain ⟨r2, hist2, p1, p2, p3, p4, p5⟩ := C115_add hc l hs1 (hroom'.snoc _) hn.2 (fun x hx =>
      ⟨(hall x (List.mem_cons_of_mem _ hx)).1.same hc (b5 x.1 (hne x hx)), (hall x (List.mem_cons_of_mem _ hx)).2⟩)
    refine ⟨r2, hist2, ?_, p2, p3, fun x hx => ?_, fun x hx => ?_⟩
    · unfold addToAll
      rw [hadd]
      exact p1
    · rcases List.mem_cons.mp hx with rfl | hx
      · have hsame := p5 e hn.1
        refine ⟨hsame.1.mpr b1, by rw [(hsame.2 c hc).1]; exact b2, by rw [(hsame.2 c hc).2]; exact b3, fun c' h1 h2 => ?_⟩
        exact ⟨(hsame.2 c' h1).1.trans (b4 c' h1 h2).1, (hsame.2 c' h1).2.trans (b4 c' h1 h2).2⟩
      · obtain ⟨q1, q2, q3, q4⟩ := p4 x hx
        have hsame := b5 x.1 (hne x hx)
        refine ⟨q1, q2, q3, fun c' h1 h2 => ?_⟩
        exact ⟨(q4 c' h1 h2).1.trans (hsame.2 c' h1).1, (q4 c' h1 h2).2.trans (hsame.2 c' h1).2⟩
    · rw [List.map_cons, List.mem_cons, not_or] at hx
      exact (b5 x hx.1).trans (p5 x hx.2)

/-- **C115** A component can be taken from any number of entities: all calls succeed and return the values the entities
had; the other components and all other entities are as before. -/
theorem C115_remove {c : CompTy} (hc : W.Has c) : ∀ (l : List Entity) {r : Registry} {hist : List (Call × Outcome)} {n : Nat},
    Steps env (Call.Admissible W) Registry.default hist r → Roomy W hist (n + l.length) → l.Nodup →
    (∀ e ∈ l, CanLose W r e c) →
    ∃ r' hist' vals, removeFromAll env c r l = .ok (some (r', vals)) ∧
      Steps env (Call.Admissible W) Registry.default hist' r' ∧ Roomy W hist' n ∧ vals.length = l.length ∧
      (∀ (k : Nat) (e : Entity), l[k]? = some e → r.getComponent env c e = .ok vals[k]?) ∧
      (∀ e ∈ l, Live env r' e ∧ r'.hasComponent env c e = .ok false ∧ r'.getComponent env c e = .ok none ∧
        SameOthers W r r' e c) ∧
      ∀ e, e ∉ l → SameEntity W r r' e
  | [], r, hist, n, hs, hroom, _, _ =>
    ⟨r, hist, [], rfl, hs, hroom, rfl, fun k e h => by simp at h, fun x hx => by simp at hx,
      fun _ _ => ⟨Iff.rfl, fun _ _ => ⟨rfl, rfl⟩⟩⟩
  | e :: l, r, hist, n, hs, hroom, hn, hall => by
    rw [List.nodup_cons] at hn
    obtain ⟨a2, t, a3, a4, a5, a6, a7⟩ := hall e List.mem_cons_self
    have hr : Reachable W r := ⟨_, hs⟩
    have hroom' : Roomy W hist (n + l.length + 1) := hroom
    have hadm : (Call.remove e c).Admissible W r := ⟨hc, fun _ s _ h => by rw [AscSet.unique h a3]; exact a6⟩
    have ho := hroom'.ordinary hs
    obtain ⟨r1, v, hrem⟩ := ((C75_ordinary_programs ho.1 ho.2.1 ho.2.2).2.2.1 e c t hadm a2 a3).2.1 a4 a5 a7
    obtain ⟨b0, _, b1, b2, b3, b4, _, b5⟩ := (C15_remove_component hr hadm).1 v hrem
    have hs1 := hs.snoc hadm (run_remove_ok hrem)
    have hne : ∀ x ∈ l, x ≠ e := fun x hx hh => hn.1 (hh ▸ hx)
    obtain ⟨r2, hist2, vals, p1, p2, p3, p4, p5, p6, p7⟩ := C115_remove hc l hs1 (hroom'.snoc _) hn.2 (fun x hx =>
      (hall x (List.mem_cons_of_mem _ hx)).same hc (b5 x (hne x hx)))
    refine ⟨r2, hist2, v :: vals, ?_, p2, p3, by simp [p4], fun k x hk => ?_, fun x hx => ?_, fun x hx => ?_⟩
    · unfold removeFromAll
      rw [hrem]
      simp only [ok_bind, p1]
      rfl
    · cases k with
      | zero =>
        simp only [List.getElem?_cons_zero, Option.some.injEq] at hk
        subst hk
        exact b0
      | succ k =>
        simp only [List.getElem?_cons_succ] at hk ⊢
        rw [← ((b5 x (hne x (List.mem_of_getElem? hk))).2 c hc).2]
        exact p5 k x hk
    · rcases List.mem_cons.mp hx with rfl | hx
      · have hsame := p7 x hn.1
        refine ⟨hsame.1.mpr b1, by rw [(hsame.2 c hc).1]; exact b2, by rw [(hsame.2 c hc).2]; exact b3, fun c' h1 h2 => ?_⟩
        exact ⟨(hsame.2 c' h1).1.trans (b4 c' h1 h2).1, (hsame.2 c' h1).2.trans (b4 c' h1 h2).2⟩
      · obtain ⟨q1, q2, q3, q4⟩ := p6 x hx
        have hsame := b5 x (hne x hx)
        refine ⟨q1, q2, q3, fun c' h1 h2 => ?_⟩
        exact ⟨(q4 c' h1 h2).1.trans (hsame.2 c' h1).1, (q4 c' h1 h2).2.trans (hsame.2 c' h1).2⟩
    · rw [List.mem_cons, not_or] at hx
      exact (b5 x hx.1).trans (p7 x hx.2)

/-- **C115** Marking and unmarking: add a component to many entities, then take it from the same entities in any order.
All calls succeed, every entity gives back the value it was given, and every query is answered as before. -/
theorem C115_roundtrip {c : CompTy} (hc : W.Has c) {l : List (Entity × Val)} {hist : List (Call × Outcome)}
    (hs : Steps env (Call.Admissible W) Registry.default hist r) (hroom : Roomy W hist (l.length + l.length))
    (hn : (l.map (fun x => x.1)).Nodup) (hall : ∀ x ∈ l, CanGain W r x.1 c ∧ x.2.HasTy c)
    (hback : ∀ x ∈ l, ∃ s, AscSet s (HasId W r x.1) ∧ W.Used s ∧ plainId env s ≠ ARCHETYPE_ID_INVALID)
    {es : List Entity} (hes : es.Perm (l.map (fun x => x.1))) :
    ∃ r₁ r₂ vals, addToAll env c r l = .ok (some r₁) ∧ removeFromAll env c r₁ es = .ok (some (r₂, vals)) ∧
      (es.zip vals).Perm l ∧ ∀ e, SameEntity W r r₂ e := by
  obtain ⟨r1, hist1, p1, p2, p3, p4, p5⟩ := C115_add hc l hs hroom hn hall
  have hr : Reachable W r := ⟨_, hs⟩
  obtain ⟨cs, i⟩ := hr.inv
  have hlen : es.length = l.length := by rw [hes.length_eq]; simp
  have hlose : ∀ e ∈ es, CanLose W r1 e c := by
    intro e he
    obtain ⟨x, hx, rfl⟩ := List.mem_map.mp (hes.mem_iff.mp he)
    obtain ⟨q1, q2, q3, q4⟩ := p4 x hx
    obtain ⟨s, s1, s2, s3⟩ := hback x hx
    obtain ⟨⟨g1, g2, t, g3, g4, _⟩, _⟩ := hall x hx
    obtain ⟨t', t1, t2⟩ := withId hc g2 s1
    rw [AscSet.unique t1 g3] at t2
    obtain ⟨s', s1', s4, _⟩ := i.ascSet g1
    rw [AscSet.unique s1' s1] at s4
    refine ⟨q2, s, ⟨s1.1, fun j => ?_⟩, s4, by omega, s2, s3⟩
    rw [s1.2 j]
    constructor
    · rintro ⟨c', h1, h2, h3⟩
      have hcc : c' ≠ c := fun hh => by rw [hh, g2] at h3; cases h3
      exact ⟨fun hj => hcc (W.id_inj h1 hc (h2.trans hj)), c', h1, h2, by rw [(q4 c' h1 hcc).1]; exact h3⟩
    · rintro ⟨hj, c', h1, h2, h3⟩
      have hcc : c' ≠ c := fun hh => hj (by rw [← h2, hh])
      exact ⟨c', h1, h2, by rw [← (q4 c' h1 hcc).1]; exact h3⟩
  obtain ⟨r2, hist2, vals, u1, u2, u3, u4, u5, u6, u7⟩ := C115_remove hc es (n := 0) p2 (by rw [hlen, Nat.zero_add]; exact p3)
    (hes.nodup_iff.mpr hn) hlose
  refine ⟨r1, r2, vals, p1, u1, ?_, fun e => ?_⟩
  · have hmap : es.zip vals = es.map (fun e => (e, ((r1.getComponent env c e).toOption.join).getD default)) := by
      refine List.ext_getElem? (fun k => ?_)
      rw [List.getElem?_map]
      cases hk : es[k]? with
      | none =>
        have : es.length ≤ k := List.getElem?_eq_none_iff.mp hk
        simp [List.getElem?_eq_none_iff, List.length_zip]
        omega
      | some e =>
        have hlt := (List.getElem?_eq_some_iff.mp hk).1
        rw [List.getElem?_zip_eq_some (z := (e, vals[k]'(by omega))) |>.mpr ⟨hk, List.getElem?_eq_getElem (show k < vals.length by omega)⟩]
        rw [Option.map_some, u5 k e hk, List.getElem?_eq_getElem (show k < vals.length by omega)]
        rfl
    rw [hmap]
    refine (hes.map _).trans ?_
    rw [List.map_map]
    have : l.map ((fun e => (e, ((r1.getComponent env c e).toOption.join).getD default)) ∘ fun x => x.1) = l.map id :=
      List.map_congr_left (fun x hx => by
        obtain ⟨q1, q2, q3, q4⟩ := p4 x hx
        simp only [Function.comp]
        rw [q3]
        rfl)
    rw [this, List.map_id]
  · by_cases he : e ∈ es
    · obtain ⟨x, hx, rfl⟩ := List.mem_map.mp (hes.mem_iff.mp he)
      obtain ⟨w1, w2, w3, w4⟩ := u6 _ he
      obtain ⟨q1, q2, q3, q4⟩ := p4 x hx
      obtain ⟨⟨g1, g2, _⟩, _⟩ := hall x hx
      refine ⟨⟨fun _ => g1, fun _ => w1⟩, fun c' hc' => ?_⟩
      by_cases hcc : c' = c
      · subst hcc
        rw [w2, w3, g2]
        refine ⟨rfl, ?_⟩
        rw [i.hasComponent_eq hc] at g2
        rw [i.getComponent_eq hc]
        cases hx : (r.look env cs x.1).bind (fun f => f c') with
        | none => rfl
        | some v => rw [hx] at g2; cases g2
      · exact ⟨(w4 c' hc' hcc).1.trans (q4 c' hc' hcc).1, (w4 c' hc' hcc).2.trans (q4 c' hc' hcc).2⟩
    · exact (p5 e (fun hh => he (hes.mem_iff.mpr hh))).trans (u7 e he)

/-! ## Examples -/

set_option maxRecDepth 100000 in
/-- C115: the hypotheses for adding `B` to the two entities of the example registry that lack it, and taking it away in the
other order. -/
example : Steps exEnv (Call.Admissible exWorld) Registry.default (exCalls.zip exOuts) exR ∧
    Roomy exWorld (exCalls.zip exOuts) 4 ∧ (∀ x ∈ [(exE2, exValB), (exE4, exValB)], CanGain exWorld exR x.1 exB ∧ x.2.HasTy exB) ∧
    (∀ x ∈ [(exE2, exValB), (exE4, exValB)], ∃ s, AscSet s (HasId exWorld exR x.1) ∧ exWorld.Used s ∧
      plainId exEnv s ≠ ARCHETYPE_ID_INVALID) ∧
    [exE4, exE2].Perm ([(exE2, exValB), (exE4, exValB)].map (fun x => x.1)) := by
  refine ⟨exSteps, ⟨.inl (by decide +kernel), by decide +kernel⟩, fun x hx => ?_, fun x hx => ?_, by decide⟩
  · simp only [List.mem_cons, List.not_mem_nil, or_false] at hx
    rcases hx with rfl | rfl
    · exact ⟨⟨by unfold Live; rw [exR_live.1]; decide, by decide +kernel, [10, 20], withId_check (by decide +kernel),
        by decide, exUsed (by decide) (by decide) (by decide), by decide +kernel⟩, rfl, rfl⟩
    · exact ⟨⟨by unfold Live; rw [exR_live.1]; decide, by decide +kernel, [20, 30], withId_check (by decide +kernel),
        by decide, exUsed (by decide) (by decide) (by decide), by decide +kernel⟩, rfl, rfl⟩
  · simp only [List.mem_cons, List.not_mem_nil, or_false] at hx
    rcases hx with rfl | rfl
    · exact ⟨[10], ids_check (by decide +kernel), exUsed (by decide) (by decide) (by decide), by decide +kernel⟩
    · exact ⟨[30], ids_check (by decide +kernel), exUsed (by decide) (by decide) (by decide), by decide +kernel⟩

set_option maxRecDepth 100000 in
/-- C115: both loops, computed. -/
example : okOr none ((addToAll exEnv exB exR [(exE2, exValB), (exE4, exValB)]).bind (fun o => match o with
      | none => .ok none
      | some r => (removeFromAll exEnv exB r [exE4, exE2]).map (fun x => x.map (fun y =>
        ([exE1, exE2, exE4].map (fun e => okOr false (r.hasComponent exEnv exB e)), y.2,
          [exE1, exE2, exE4].map (fun e => okOr false (y.1.hasComponent exEnv exB e))))))) =
    some ([true, true, true], [exValB, exValB], [true, false, false]) := by decide +kernel

end Shard
