import Verif.Spec.Select
/-!
# Loops that search again after every change

`while let Some(e) = registry.iter_entity_components_matching::<G>()….find(…) { … }`: client code that looks for the first
entity that satisfies a predicate, changes the registry, and looks again (`registry/registry.rs:369-378`,
`registry/registry.rs:43-66`, `registry/registry.rs:281-342`).
-/

set_option autoImplicit false

namespace Shard

/-- At most `n` rounds of the loop: the registry and the entities found, in order, once no entity is found any more; nothing if
an entity was found in every round. -/
def workLoop (env : Env) (g : Group) (p : Entity → List Val → Bool) (act : Registry → Entity → M Registry) :
    Nat → Registry → M (Option (Registry × List Entity))
  | 0, _ => .ok none
  | n + 1, r => do
    match ← selectBy env g p r with
    | [] => return some (r, [])
    | e :: _ =>
      let r' ← act r e
      match ← workLoop env g p act n r' with
      | none => return none
      | some (r'', es) => return some (r'', e :: es)

/-- `registry.destroy_entity(e);` -/
def actDestroy (env : Env) (r : Registry) (e : Entity) : M Registry := do
  let x ← r.destroyEntity env e
  return x.1

/-- `let _ = registry.remove_component::<C>(e);` -/
def actRemove (env : Env) (c : CompTy) (r : Registry) (e : Entity) : M Registry := do
  let x ← r.removeComponent env e c
  return x.1

end Shard
