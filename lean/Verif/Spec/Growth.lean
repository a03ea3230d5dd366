import Verif.Spec.Api
/-!
# Capacities along a history
-/

set_option autoImplicit false

namespace Shard

/-- The registries before, between and after the calls. -/
def statesOf (env : Env) : Registry → List Call → List Registry
  | r, [] => [r]
  | r, c :: rest =>
    r :: (match c.run env r with
      | .ok (r', _) => statesOf env r' rest
      | .error _ => [])

/-- The number of entities in the `i`-th archetype. -/
def rowsIn (i : Nat) (r : Registry) : Nat := (r.archetypes.archetypes[i]?.map (fun a => a.entityCount)).getD 0

/-- The largest number of entities the `i`-th archetype has had. -/
def peakRows (i : Nat) (rs : List Registry) : Nat := (rs.map (rowsIn i)).foldr max 0

/-- Whether the arrays of the `i`-th archetype have been replaced by longer (or shorter) ones. -/
def resized (i : Nat) (r r' : Registry) : Bool :=
  match r.archetypes.archetypes[i]?, r'.archetypes.archetypes[i]? with
  | some a, some a' => decide (a.capacity ≠ a'.capacity)
  | _, _ => false

/-- How often that has happened. -/
def resizes (i : Nat) : List Registry → Nat
  | r :: r' :: rs => (if resized i r r' then 1 else 0) + resizes i (r' :: rs)
  | _ => 0

/-- How many entities were copied from old arrays to new ones. -/
def movedRows (i : Nat) : List Registry → Nat
  | r :: r' :: rs => (if resized i r r' then rowsIn i r else 0) + movedRows i (r' :: rs)
  | _ => 0

/-- `cap` is the smallest of 128, 256, 512, … that is not below `p`. -/
def CapFor (cap p : Nat) : Prop := (∃ k, cap = 128 * 2 ^ k) ∧ p ≤ cap ∧ ∀ k, p ≤ 128 * 2 ^ k → cap ≤ 128 * 2 ^ k

end Shard
