import Verif.Spec.Limits
/-!
# Programs that stay far from the limits
-/

set_option autoImplicit false

namespace Shard

/-- Calls that can make an archetype: `create_entity`, `add_component` and `remove_component`. -/
def Call.reshapes : Call → Bool
  | .create _ _ => true
  | .add _ _ _ => true
  | .remove _ _ => true
  | _ => false

/-- The history has fewer than 65,534 calls of `create_entity`, `add_component` and `remove_component` (and any number of
other calls), or the program forms fewer than 32,767 different component sets (and makes any number of calls). -/
def ArchetypeBudget {env : Env} (W : World env) (hist : List (Call × Outcome)) : Prop :=
  (hist.filter (fun x => x.1.reshapes)).length < 65534 ∨
  ∃ L : List (List UInt16), (∀ s, W.Used s → s ∈ L) ∧ L.length < 32767

end Shard
