import Verif.Spec.Clear
/-!
# Selecting entities by iteration and destroying them

The registry cannot be changed during an iteration, so client code collects handles first:
`let l: Vec<Entity> = registry.iter_entity_components_matching::<(A, B)>().flat_map(…).filter(…).collect();`
and then destroys them (`registry/registry.rs:369-378`, `registry/registry.rs:43-66`).
-/

set_option autoImplicit false

namespace Shard

/-- The handles that `iter_entity_components_matching::<G>` passes with a tuple that satisfies `p`, in the order of the
iteration. -/
def selectBy (env : Env) (g : Group) (p : Entity → List Val → Bool) (r : Registry) : M (List Entity) := do
  let items ← r.iterEntityComponentsMatching env g
  return ((items.flatMap (fun x => x.2.1.zip (Script.rowsOf x.2.2))).filter (fun y => p y.1 y.2)).map (fun y => y.1)

/-- Destroy the selected entities: the registry afterwards, the results and the dropped values. -/
def destroyWhere (env : Env) (g : Group) (p : Entity → List Val → Bool) (r : Registry) : M (Registry × List Bool × List Val) := do
  let l ← selectBy env g p r
  destroyAll env r l

end Shard
