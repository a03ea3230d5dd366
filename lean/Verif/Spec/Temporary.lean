import Verif.Spec.Api
/-!
# Calls that can move an entity
-/

set_option autoImplicit false

namespace Shard

/-- The entity a call may end or move to another archetype (`registry/registry.rs:43-99`, `registry/registry.rs:213-342`);
none for `create_entity` and for writes. -/
def Call.restructures : Call → Option Entity
  | .destroy e => some e
  | .removeEntity _ e => some e
  | .add e _ _ => some e
  | .remove e _ => some e
  | _ => none

/-- A call of a piece of code that neither ends nor moves entities that were live in the registry `r₀` in which it began. It
may create entities, do anything with these, and write anywhere. -/
def Call.Spares {env : Env} (W : World env) (r₀ : Registry) (r : Registry) (call : Call) : Prop :=
  call.Admissible W r ∧ ∀ e, call.restructures = some e → ¬ Live env r₀ e

end Shard
