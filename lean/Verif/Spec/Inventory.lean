import Verif.Spec.Rebuild
/-!
# Listing what a registry contains

`iter_entities` (`registry/registry.rs:347-349`) and `has_component` (`registry/registry.rs:103-110`) for all component types
of the program: how client code finds out what there is to be saved.
-/

set_option autoImplicit false

namespace Shard

/-- Those of the types that `e` has: `has_component::<C>(e)` for one after the other. -/
def typesOf (env : Env) (r : Registry) (e : Entity) : List CompTy → M (List CompTy)
  | [] => .ok []
  | c :: cs => do
    let b ← r.hasComponent env c e
    let rest ← typesOf env r e cs
    return if b then c :: rest else rest

/-- `for e in registry.iter_entities() { … }`: every entity with the types it has. -/
def takeInventory (env : Env) (types : List CompTy) (r : Registry) : M (List (Entity × Group)) :=
  (r.iterEntities env).mapM (fun e => do
    let g ← typesOf env r e types
    return (e, g))

end Shard
