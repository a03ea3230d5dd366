import Verif.Spec.Script
/-!
# Moving entities from one registry to another

`remove_entity` takes the components out of one registry, `create_entity` puts them into another one.
-/

set_option autoImplicit false

namespace Shard

/-- `to.create_entity(from.remove_entity::<G>(e)?)`: both registries afterwards, and the new handle; nothing if one of the
calls fails. -/
def transfer (env : Env) (src dst : Registry) (e : Entity) (g : Group) : M (Option (Registry × Registry × Entity)) := do
  let x ← src.removeEntity env g e
  match x.2 with
  | none => return none
  | some vals =>
    let y ← dst.createEntity env g vals
    match y.2 with
    | .ok e' => return some (x.1, y.1, e')
    | .err _ => return none

/-- Move the listed entities, one after the other, each with its component types: both registries afterwards, and the new
handles in the same order; nothing if one of the calls fails. -/
def transferAll (env : Env) : Registry → Registry → List (Entity × Group) → M (Option (Registry × Registry × List Entity))
  | src, dst, [] => .ok (some (src, dst, []))
  | src, dst, (e, g) :: l => do
    match ← transfer env src dst e g with
    | none => return none
    | some (src', dst', e') =>
      match ← transferAll env src' dst' l with
      | none => return none
      | some (src'', dst'', es) => return some (src'', dst'', e' :: es)

end Shard
