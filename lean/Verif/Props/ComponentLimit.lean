import Verif.Props.Check
/-!
# C25, C26: adding and removing components at the component limit
-/

set_option autoImplicit false

namespace Shard

variable {env : Env} {W : World env} {r : Registry}

/-- C25 as intended: `add_component` of a new component never panics, whatever the number of components; with 14
components it returns `Err`, with fewer it succeeds (given room for the archetype). -/
def C25_statement : Prop :=
  ∀ {env : Env} (W : World env) (r : Registry), Reachable W r → ∀ (e : Entity) (c : CompTy) (v : Val),
    (Call.add e c v).Admissible W r → Live env r e → r.hasComponent env c e = .ok false →
    ∀ s t, AscSet s (HasId W r e) → AscSet t (WithId W r e c) →
      (∀ k, r.addComponent env e c v ≠ .error (.panic k)) ∧
      (s.length = 14 → r.addComponent env e c v = .ok (r, .err v)) ∧
      (s.length < 14 → Room r.archetypes t.length (plainId env t) → FewerThan STORAGE_LIMIT (fun x => HasSet W r x t) →
        ∃ r', r.addComponent env e c v = .ok (r', .ok ()))

/-- C26 as intended: `remove_component` never panics, whatever the number of components; from an entity with 2 to 14
components it removes the component (given room for the archetype). -/
def C26_statement : Prop :=
  ∀ {env : Env} (W : World env) (r : Registry), Reachable W r → ∀ (e : Entity) (c : CompTy),
    (Call.remove e c).Admissible W r → r.hasComponent env c e = .ok true →
    ∀ s t, AscSet s (HasId W r e) → AscSet t (WithoutId W r e c) →
      (∀ k, r.removeComponent env e c ≠ .error (.panic k)) ∧
      (2 ≤ s.length → Room r.archetypes t.length (plainId env t) → FewerThan STORAGE_LIMIT (fun x => HasSet W r x t) →
        ∃ r' v, r.removeComponent env e c = .ok (r', .ok v))

/-- **C25** (partial: the code panics for exactly 13 components) `add_component` of a new component to an entity with at
most 12 components never panics and succeeds if there is room for the archetype; with 13 components it always panics
with an index out of bounds; with 14 it returns `Err`, handing the component back and changing nothing. -/
theorem C25_add_at_limit_partial (hr : Reachable W r) {e : Entity} {c : CompTy} {v : Val}
    (hadm : (Call.add e c v).Admissible W r) (hl : Live env r e) (hn : r.hasComponent env c e = .ok false)
    {s t : List UInt16} (hs : AscSet s (HasId W r e)) (ht : AscSet t (WithId W r e c)) :
    (s.length ≤ 12 → (∀ k, r.addComponent env e c v ≠ .error (.panic k)) ∧
      (Room r.archetypes t.length (plainId env t) → FewerThan STORAGE_LIMIT (fun x => HasSet W r x t) →
        ∃ r', r.addComponent env e c v = .ok (r', .ok ()))) ∧
    (s.length = 13 → r.addComponent env e c v = .error (.panic .indexOutOfBounds)) ∧
    (s.length = 14 → r.addComponent env e c v = .ok (r, .err v)) ∧
    s.length ≤ 14 := by
  obtain ⟨cs, h⟩ := hr.inv
  obtain ⟨f, hf⟩ := h.live_iff.mp hl
  have hnone : f c = none := by
    rw [h.hasComponent_eq hadm.1, hf] at hn
    simpa using hn
  rcases h.add_cases hadm hf hnone hs ht with ⟨h1, h2⟩ | ⟨h1, h2⟩ | ⟨h1, h2, h3⟩ | ⟨h1, h2, ⟨r1, h3⟩ | ⟨h3, h4⟩⟩
  · exact ⟨fun _ => by omega, fun _ => by omega, fun _ => h2, by omega⟩
  · exact ⟨fun _ => by omega, fun _ => h2, fun _ => by omega, by omega⟩
  · refine ⟨fun _ => ⟨fun k hk => ?_, fun hroom => absurd hroom h2⟩, fun _ => by omega, fun _ => by omega, by omega⟩
    rw [h3] at hk; cases hk
  · refine ⟨fun _ => ⟨fun k hk => ?_, fun _ _ => ⟨r1, h3⟩⟩, fun _ => by omega, fun _ => by omega, by omega⟩
    rw [h3] at hk; cases hk
  · refine ⟨fun _ => ⟨fun k hk => ?_, fun _ hfew => absurd h3 (h.not_full_with hf hadm.1 ht hfew)⟩, fun _ => by omega,
      fun _ => by omega, by omega⟩
    rw [h4] at hk; cases hk

/-- **C26** (partial: the code panics for exactly 14 components) `remove_component` from an entity with 2 to 13 components
never panics and removes the component if there is room for the archetype; with 14 components it always panics with an
index out of bounds; the only component is never removed. -/
theorem C26_remove_at_limit_partial (hr : Reachable W r) {e : Entity} {c : CompTy}
    (hadm : (Call.remove e c).Admissible W r) (hy : r.hasComponent env c e = .ok true)
    {s t : List UInt16} (hs : AscSet s (HasId W r e)) (ht : AscSet t (WithoutId W r e c)) :
    (s.length ≤ 13 → ∀ k, r.removeComponent env e c ≠ .error (.panic k)) ∧
    (2 ≤ s.length → s.length ≤ 13 → Room r.archetypes t.length (plainId env t) →
      FewerThan STORAGE_LIMIT (fun x => HasSet W r x t) → ∃ r' v, r.removeComponent env e c = .ok (r', .ok v)) ∧
    (s.length = 14 → r.removeComponent env e c = .error (.panic .indexOutOfBounds)) ∧
    (s.length = 1 → r.removeComponent env e c = .ok (r, .err ())) ∧
    1 ≤ s.length ∧ s.length ≤ 14 := by
  obtain ⟨cs, h⟩ := hr.inv
  cases hf : r.look env cs e with
  | none => rw [h.hasComponent_eq hadm.1, hf] at hy; cases hy
  | some f =>
    obtain ⟨v, hsome⟩ := Option.isSome_iff_exists.mp ((h.has_iff hf hadm.1).mp hy)
    rcases h.remove_cases hadm hf hsome hs ht with ⟨h1, h2⟩ | ⟨h1, h2⟩ | ⟨h0, h1, h2, h3⟩ | ⟨h0, h1, h2, ⟨r1, h3⟩ | ⟨h3, h4⟩⟩
    · exact ⟨fun _ k hk => by (rw [h2] at hk; cases hk), fun _ => by omega, fun _ => by omega, fun _ => h2, by omega⟩
    · exact ⟨fun _ => by omega, fun _ => by omega, fun _ => h2, fun _ => by omega, by omega⟩
    · exact ⟨fun _ k hk => by (rw [h3] at hk; cases hk), fun _ _ hroom => absurd hroom h2, fun _ => by omega,
        fun _ => by omega, by omega⟩
    · exact ⟨fun _ k hk => by (rw [h3] at hk; cases hk), fun _ _ _ _ => ⟨r1, v, h3⟩, fun _ => by omega,
        fun _ => by omega, by omega⟩
    · exact ⟨fun _ k hk => by (rw [h4] at hk; cases hk),
        fun _ _ _ hfew => absurd h3 (h.not_full_without hf hadm.1 ht hfew), fun _ => by omega, fun _ => by omega, by omega⟩

/-! ## Witnesses: 14 one-byte components -/

/-- Component type `i`: one byte, id `i`. -/
def exT (i : Nat) : CompTy := ⟨i, UInt16.ofNat i, 1, 1⟩

/-- A value of component type `i`. -/
def exValT (i : Nat) : Val := ⟨i, [UInt8.ofNat i]⟩

/-- The first `n` types. -/
def exTs (n : Nat) : List CompTy := (List.range n).map (fun i => exT (i + 1))

/-- Values for the first `n` types. -/
def exValTs (n : Nat) : List Val := (List.range n).map (fun i => exValT (i + 1))

/-- The ids of the first `n` types. -/
def exIds (n : Nat) : List UInt16 := (List.range n).map (fun i => UInt16.ofNat (i + 1))

def exSetsT : List (List UInt16) := [exIds 12, exIds 13, exIds 14]

/-- A program with 14 component types and entities with the first 12, 13 or 14 of them. -/
def exWorldT : World exEnv := World.ofLists exEnv (exTs 14) exSetsT (by decide +kernel)

def exCallsT : List Call := [.create (exTs 12) (exValTs 12), .create (exTs 13) (exValTs 13), .create (exTs 14) (exValTs 14)]

/-- Three entities, with 12, 13 and 14 components. -/
def exRT : Registry := runTo exEnv (exTs 14) exSetsT exCallsT

def exE12 : Entity := Entity.newUnchecked 0 0
def exE13 : Entity := Entity.newUnchecked 1 0
def exE14 : Entity := Entity.newUnchecked 2 0

set_option maxRecDepth 100000 in
theorem exRT_reachable : Reachable exWorldT exRT := runTo_reachable (by decide +kernel)

set_option maxRecDepth 100000 in
theorem exRT_live : exRT.iterEntities exEnv = [exE12, exE13, exE14] := by decide +kernel

theorem exRT_few {P : Entity → Prop} (h : ∀ e, P e → Live exEnv exRT e) : FewerThan STORAGE_LIMIT P :=
  few_of_live exRT_live (by decide) h

set_option maxRecDepth 100000 in
/-- **C25** is false: adding a fourteenth component panics. -/
theorem C25_violated : ¬ C25_statement := by
  intro h
  have h1 := (h exWorldT exRT exRT_reachable exE13 (exT 14) (exValT 14)
    (addCheck_ok (t := exIds 14) (by decide +kernel)) (by unfold Live; rw [exRT_live]; decide) (by decide +kernel)
    (exIds 13) (exIds 14) (ids_check (by decide +kernel)) (withId_check (by decide +kernel))).1 .indexOutOfBounds
  have h2 : (exRT.addComponent exEnv exE13 (exT 14) (exValT 14)).map (fun _ => ()) = .error (.panic .indexOutOfBounds) := by
    decide +kernel
  cases hx : exRT.addComponent exEnv exE13 (exT 14) (exValT 14) with
  | ok x => rw [hx] at h2; cases h2
  | error f =>
    rw [hx] at h2 h1
    cases h2
    exact h1 rfl

set_option maxRecDepth 100000 in
/-- **C26** is false: removing one of 14 components panics. -/
theorem C26_violated : ¬ C26_statement := by
  intro h
  have h1 := (h exWorldT exRT exRT_reachable exE14 (exT 14)
    (removeCheck_ok (t := exIds 13) (by decide +kernel)) (by decide +kernel)
    (exIds 14) (exIds 13) (ids_check (by decide +kernel)) (withoutId_check (by decide +kernel))).1 .indexOutOfBounds
  have h2 : (exRT.removeComponent exEnv exE14 (exT 14)).map (fun _ => ()) = .error (.panic .indexOutOfBounds) := by
    decide +kernel
  cases hx : exRT.removeComponent exEnv exE14 (exT 14) with
  | ok x => rw [hx] at h2; cases h2
  | error f =>
    rw [hx] at h2 h1
    cases h2
    exact h1 rfl

set_option maxRecDepth 100000 in
/-- C25 and C26 on `exRT`: an entity that can grow to 13 components, and one that can shrink to 12. -/
example : Reachable exWorldT exRT ∧ (Call.add exE12 (exT 13) (exValT 13)).Admissible exWorldT exRT ∧
    Live exEnv exRT exE12 ∧ exRT.hasComponent exEnv (exT 13) exE12 = .ok false ∧
    AscSet (exIds 12) (HasId exWorldT exRT exE12) ∧ AscSet (exIds 13) (WithId exWorldT exRT exE12 (exT 13)) ∧
    Room exRT.archetypes 13 (plainId exEnv (exIds 13)) ∧ FewerThan STORAGE_LIMIT (fun x => HasSet exWorldT exRT x (exIds 13)) ∧
    (Call.remove exE13 (exT 13)).Admissible exWorldT exRT ∧ exRT.hasComponent exEnv (exT 13) exE13 = .ok true ∧
    AscSet (exIds 13) (HasId exWorldT exRT exE13) ∧ AscSet (exIds 12) (WithoutId exWorldT exRT exE13 (exT 13)) ∧
    Room exRT.archetypes 12 (plainId exEnv (exIds 12)) ∧ FewerThan STORAGE_LIMIT (fun x => HasSet exWorldT exRT x (exIds 12)) :=
  ⟨exRT_reachable, addCheck_ok (t := exIds 13) (by decide +kernel), by unfold Live; rw [exRT_live]; decide,
    by decide +kernel, ids_check (by decide +kernel), withId_check (by decide +kernel),
    ⟨by decide +kernel, Or.inr (by decide +kernel)⟩, exRT_few (fun _ h => h.1),
    removeCheck_ok (t := exIds 12) (by decide +kernel), by decide +kernel, ids_check (by decide +kernel),
    withoutId_check (by decide +kernel), ⟨by decide +kernel, Or.inr (by decide +kernel)⟩, exRT_few (fun _ h => h.1)⟩

end Shard
