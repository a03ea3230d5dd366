import Verif.Spec.Duplicate
/-!
# Copying entities from one registry into another

`get_components` (`registry/registry.rs:143-165`) on one registry, a clone of what the references point to, and
`create_entity` (`registry/registry.rs:17-39`) on another: how client code saves and loads a world, or moves entities between
worlds.
-/

set_option autoImplicit false

namespace Shard

/-- `dst.create_entity(src.get_components::<G>(e)?.cloned())`: the second registry afterwards and the new handle; nothing if a
call fails. -/
def copyInto (env : Env) (src dst : Registry) (e : Entity) (g : Group) : M (Option (Registry × Entity)) := do
  match ← src.getComponents env g e with
  | none => return none
  | some vals =>
    let x ← dst.createEntity env g vals
    match x.2 with
    | .ok e' => return some (x.1, e')
    | .err _ => return none

/-- The same for the members of a list, one after the other. -/
def copyAll (env : Env) (src : Registry) : Registry → List (Entity × Group) → M (Option (Registry × List Entity))
  | dst, [] => .ok (some (dst, []))
  | dst, (e, g) :: l => do
    match ← copyInto env src dst e g with
    | none => return none
    | some (dst', e') =>
      match ← copyAll env src dst' l with
      | none => return none
      | some (dst'', es) => return some (dst'', e' :: es)

/-- The list names every live entity of the registry once, with a tuple of exactly the components it has. -/
def Inventory {env : Env} (W : World env) (r : Registry) (l : List (Entity × Group)) : Prop :=
  (l.map Prod.fst).Nodup ∧ (∀ e, Live env r e ↔ e ∈ l.map Prod.fst) ∧ ∀ x ∈ l, HasExactly W r x.1 x.2

end Shard
