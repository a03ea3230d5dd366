import Verif.Proofs.Unwind
import Verif.Props.Violations
/-!
# C58: destructors that panic inside `destroy_entity`
-/

set_option autoImplicit false

namespace Shard

variable {env : Env} {W : World env} {r r' : Registry}

/-- First half of the claim of **C58**: if a destructor panics inside `destroy_entity` and the caller catches the panic,
the other entities keep their components. -/
def C58_statement_others : Prop :=
  ∀ (env : Env) (W : World env) (r : Registry), Reachable W r → ∀ (boom : Val → Bool) (e : Entity) (r' : Registry)
    (d : List Val), r.destroyEntityUnwind boom env e = .ok (r', none, d) →
    ∀ (x : Entity) (c : CompTy), x ≠ e → W.Has c → r'.getComponent env c x = r.getComponent env c x

/-- Second half: no value that `destroy_entity` has dropped is dropped again with the registry. (The values dropped by
the two together are at most those the registry owned.) -/
def C58_statement_once : Prop :=
  ∀ (env : Env) (W : World env) (r : Registry), Reachable W r → ∀ (boom : Val → Bool) (e : Entity) (r' : Registry)
    (d vals owned : List Val) (left left' : List Archetype), r.destroyEntityUnwind boom env e = .ok (r', none, d) →
    r'.drop = .ok (vals, left) → r.drop = .ok (owned, left') → (d ++ vals).length ≤ owned.length

/-- Two entities with an `A` each. -/
def exPanicCalls : List Call := [.create [exA] [exValA], .create [exA] [exValA']]
def exPanicR : Registry := (okOr ([], Registry.default) (runCalls exEnv Registry.default exPanicCalls)).2
def exPanicOuts : List Outcome := (okOr ([], Registry.default) (runCalls exEnv Registry.default exPanicCalls)).1

/-- The registry after the first one was destroyed while its destructor panicked. -/
def exPanicR' : Registry :=
  (okOr (exPanicR, none, []) (exPanicR.destroyEntityUnwind (fun v => v == exValA) exEnv exE1)).1

set_option maxRecDepth 100000 in
theorem exPanicReachable : Reachable exWorld exPanicR := by
  refine ⟨exPanicCalls.zip exPanicOuts, ?_⟩
  have := Steps.of_run (calls := exPanicCalls) (ok := Call.Admissible exWorld)
    (fun r call hc => exCheck_ok (List.all_eq_true.mp (show exPanicCalls.all exCheck = true by decide +kernel) call hc) r)
    Steps.nil (show runCalls exEnv Registry.default exPanicCalls = .ok (exPanicOuts, exPanicR) by decide +kernel)
  simpa using this

set_option maxRecDepth 100000 in
/-- What happens: the value of the first entity is dropped; both entities stay alive; the second one now shows the value
that has been dropped; and dropping the registry drops it a second time. -/
theorem C58_witness :
    exPanicR.destroyEntityUnwind (fun v => v == exValA) exEnv exE1 = .ok (exPanicR', none, [exValA]) ∧
    exPanicR.getComponent exEnv exA exE2 = .ok (some exValA') ∧
    exPanicR'.getComponent exEnv exA exE2 = .ok (some exValA) ∧
    exPanicR'.iterEntities exEnv = [exE1, exE2] ∧
    exPanicR.drop.map Prod.fst = .ok [exValA, exValA'] ∧
    exPanicR'.drop.map Prod.fst = .ok [exValA', exValA] := by decide +kernel

/-- **C58 is false**, first half: another entity now has a component that was dropped. -/
theorem C58_others_violated : ¬ C58_statement_others := by
  intro h
  obtain ⟨h1, h2, h3, _⟩ := C58_witness
  have := h exEnv exWorld exPanicR exPanicReachable _ exE1 _ _ h1 exE2 exA (by decide +kernel)
    (by show exA ∈ [exA, exB, exC]; decide)
  rw [h2, h3] at this
  exact absurd this (by decide)

/-- **C58 is false**, second half: a value is dropped twice. -/
theorem C58_once_violated : ¬ C58_statement_once := by
  intro h
  obtain ⟨h1, _, _, _, h5, h6⟩ := C58_witness
  cases hd : exPanicR.drop with
  | error f => rw [hd] at h5; cases h5
  | ok x =>
    cases hd' : exPanicR'.drop with
    | error f => rw [hd'] at h6; cases h6
    | ok y =>
      rw [hd] at h5
      rw [hd'] at h6
      have e1 : x.1 = [exValA, exValA'] := by simpa [Except.map] using h5
      have e2 : y.1 = [exValA', exValA] := by simpa [Except.map] using h6
      have := h exEnv exWorld exPanicR exPanicReachable _ exE1 _ _ y.1 x.1 y.2 x.2 h1 (by rw [hd']) (by rw [hd])
      rw [e1, e2] at this
      exact absurd this (by decide)

/-- **C58** (partial: exactly what happens) Let `row` be the components of the live entity `e` in the order of their
columns. If none of their destructors panics, `destroy_entity` behaves as described elsewhere. Otherwise the components
up to the first one that panics are dropped, and the panic unwinds out of a registry in which:
* the same handles are live, `e` among them;
* `e` and one entity `x` of the same archetype (possibly `e` itself) have exchanged their components, dropped ones
  included, and every other entity is unchanged;
* dropping the registry drops every component, so each of those already dropped is dropped again. -/
theorem C58_panicking_destructor_partial (hr : Reachable W r) (boom : Val → Bool) {e : Entity} (hl : Live env r e) :
    ∃ (cts : List CompTy) (row : List Val), cts.Nodup ∧ (∀ c, c ∈ cts ↔ W.Has c ∧ r.hasComponent env c e = .ok true) ∧
      row.length = cts.length ∧
      (∀ (i : Nat) (c : CompTy), cts[i]? = some c → r.getComponent env c e = .ok row[i]?) ∧
      ((∀ v ∈ row, boom v = false) →
        r.destroyEntityUnwind boom env e = (r.destroyEntity env e).map (fun x => (x.1, some x.2.1, x.2.2))) ∧
      (∀ (before : List Val) (v : Val) (after : List Val), row = before ++ v :: after → (∀ u ∈ before, boom u = false) →
        boom v = true → ∃ (r' : Registry) (x : Entity),
          r.destroyEntityUnwind boom env e = .ok (r', none, before ++ [v]) ∧ Live env r x ∧
          (∀ c, W.Has c → (r.hasComponent env c x = .ok true ↔ r.hasComponent env c e = .ok true)) ∧
          r'.iterEntities env = r.iterEntities env ∧
          (∀ (y : Entity) (c : CompTy), W.Has c →
            r'.getComponent env c y = r.getComponent env c (if y = e then x else if y = x then e else y)) ∧
          ∃ vals vals' left left', r.drop = .ok (vals, left) ∧ r'.drop = .ok (vals', left') ∧ vals'.Perm vals) := by
  obtain ⟨cs, h⟩ := hr.inv
  obtain ⟨f, hf⟩ := h.live_iff.mp hl
  obtain ⟨en, he⟩ := h.look_some hf
  obtain ⟨row, ⟨cts, h1, h2, h3⟩, h4, h5⟩ := h.destroyUnwind_panic he (boom := boom)
  rw [hf] at h2 h3
  simp only [Option.bind_some] at h2 h3
  refine ⟨cts, row, h1, fun c => ?_, by simpa using congrArg List.length h3, fun i c hc => ?_, fun hb => ?_, ?_⟩
  · rw [h2]
    constructor
    · intro hc
      have hw := h.has_of_look hf hc
      exact ⟨hw, (h.has_iff hf hw).mpr hc⟩
    · rintro ⟨hw, hc⟩
      exact (h.has_iff hf hw).mp hc
  · have hs := (h2 c).mp (List.mem_of_getElem? hc)
    rw [h.getComponent_eq (h.has_of_look hf hs), hf]
    have h4 := congrArg (fun l => l[i]?) h3
    simp only [List.getElem?_map, hc, Option.map_some] at h4
    obtain ⟨v, hv⟩ := Option.isSome_iff_exists.mp hs
    simp only [Option.bind_some]
    rw [hv] at h4 ⊢
    cases hx : row[i]? with
    | none => rw [hx] at h4; cases h4
    | some w => rw [hx] at h4; cases h4; rfl
  · exact h4 (by rw [List.any_eq_false]; intro v hv; rw [hb v hv]; simp)
  · rintro before v after rfl hb hv
    have hany : (before ++ v :: after).any boom = true := by simp [hv]
    have hup : upToPanic boom (before ++ v :: after) = before ++ [v] := by
      clear h5 h4 h3
      induction before with
      | nil => simp [upToPanic, hv]
      | cons u us ih =>
        have hu := hb u (by simp)
        simp only [List.cons_append, upToPanic, hu, Bool.false_eq_true, if_false]
        rw [ih (fun w hw => hb w (by simp [hw])) (by simp [hv])]
    obtain ⟨r', cs', x, g1, g2, g3, g4, ⟨fx, g5, g6⟩, g7⟩ := h5 hany
    rw [hup] at g1
    obtain ⟨left, d1, _⟩ := h.drop_eq
    refine ⟨r', x, g1, h.live_iff.mpr ⟨fx, g5⟩, ?_, by unfold Registry.iterEntities; rw [g2], g7, ?_⟩
    · intro c hc
      rw [h.hasComponent_eq hc, h.hasComponent_eq hc]
      obtain ⟨enx, hex⟩ := h.look_some g5
      obtain ⟨a, ct, a1, a2, a3, a4, a5, a6⟩ := h.entry he
      obtain ⟨b, bt, b1, b2, b3, b4, b5, b6⟩ := h.entry hex
      unfold Registry.archOf at g6
      rw [a5, b5] at g6
      simp only [Option.map_some, Option.some.injEq] at g6
      rw [g6, a2] at b2
      cases b2
      rw [a6, b6]
      simp only [Option.bind_some, Except.ok.injEq]
      rw [a3.get_isSome (List.getElem?_eq_some_iff.mp a4).1, a3.get_isSome (List.getElem?_eq_some_iff.mp b4).1]
    · obtain ⟨left', q1, _⟩ := drop_loop g3 r'.archetypes.archetypes.length 0 ([], []) (by omega)
      refine ⟨stored cs, stored cs', left, left', d1, ?_, g4⟩
      unfold Registry.drop ArchetypeRegistry.drop
      rw [q1]
      simp

set_option maxRecDepth 100000 in
/-- C58_partial applies to `exE1` of `exR`, whose second component panics. -/
example : Reachable exWorld exR ∧ Live exEnv exR exE1 ∧
    (exR.destroyEntityUnwind (fun v => v == exValB) exEnv exE1).map (fun x => x.2) = .ok (none, [exValA, exValB]) :=
  ⟨exReachable, exLive.1, by decide +kernel⟩

end Shard
