import Verif.Spec.Pairs
/-!
# Totals over a query

Client code that adds something up in a loop over `iter_entity_components_matching` (`registry/registry.rs:369-378`).
-/

set_option autoImplicit false

namespace Shard

/-- `let mut acc = init; for (e, tuple) in rows::<G>() { acc = f(acc, e, tuple) }` -/
def total {β : Type} (env : Env) (g : Group) (f : β → Entity → List Val → β) (init : β) (r : Registry) : M β := do
  let xs ← visited env g r
  return xs.foldl (fun acc x => f acc x.1 x.2) init

/-- The order in which things are added up does not matter. -/
def OrderFree {β : Type} (f : β → Entity → List Val → β) : Prop :=
  ∀ z a v b w, f (f z a v) b w = f (f z b w) a v

/-- What an entity with this tuple, or without one, adds to a total. -/
def addTo {β : Type} (f : β → Entity → List Val → β) (t : β) (e : Entity) : Option (List Val) → β
  | none => t
  | some v => f t e v

end Shard
