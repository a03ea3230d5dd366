import Verif.Spec.Ordinary
import Verif.Spec.History
import Verif.Spec.Limits
/-!
# Calls about one entity
-/

set_option autoImplicit false

namespace Shard

/-- The entity a call is about; none for `create_entity` and for writes through an iterator. -/
def Call.about : Call → Option Entity
  | .create _ _ => none
  | .destroy e => some e
  | .removeEntity _ e => some e
  | .add e _ _ => some e
  | .remove e _ => some e
  | .write e _ _ => some e
  | .writeIn _ e _ _ => some e
  | .writeIter _ _ _ _ _ _ => none

/-- Two outcomes differ in the order of the dropped values at most. -/
def SameOutcome (o o' : Outcome) : Prop := { o with dropped := o'.dropped } = o' ∧ o.dropped.Perm o'.dropped

/-- Two runs end the same way: with the same fault, or with the same outcome and registries related by `R`. -/
def CallsAlike (R : Registry → Registry → Prop) : M (Registry × Outcome) → M (Registry × Outcome) → Prop
  | .ok (r, o), .ok (r', o') => SameOutcome o o' ∧ R r r'
  | .error f, .error f' => f = f'
  | _, _ => False

/-- An ordinary history: within the budget for archetypes, and fewer live entities at a time than an archetype holds. -/
def OrdinaryRun {env : Env} (W : World env) (hist : List (Call × Outcome)) (r : Registry) : Prop :=
  Steps env (Call.Admissible W) Registry.default hist r ∧ ArchetypeBudget W hist ∧ (liveCount hist).2 < STORAGE_LIMIT

end Shard
