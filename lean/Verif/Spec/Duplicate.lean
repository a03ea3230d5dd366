import Verif.Spec.Script
/-!
# Making new entities from the components of existing ones

`get_components` (`registry/registry.rs:143-165`), a clone of what the references point to, and `create_entity`
(`registry/registry.rs:17-39`): how client code spawns copies of a template entity, or of all entities of some kind.
-/

set_option autoImplicit false

namespace Shard

/-- `registry.create_entity(registry.get_components::<G>(e)?.cloned())`: the registry afterwards and the new handle; nothing
if a call fails. -/
def duplicate (env : Env) (r : Registry) (e : Entity) (g : Group) : M (Option (Registry × Entity)) := do
  match ← r.getComponents env g e with
  | none => return none
  | some vals =>
    let x ← r.createEntity env g vals
    match x.2 with
    | .ok e' => return some (x.1, e')
    | .err _ => return none

/-- The same for the members of a list, one after the other; an entity may occur several times. -/
def duplicateAll (env : Env) : Registry → List (Entity × Group) → M (Option (Registry × List Entity))
  | r, [] => .ok (some (r, []))
  | r, (e, g) :: l => do
    match ← duplicate env r e g with
    | none => return none
    | some (r', e') =>
      match ← duplicateAll env r' l with
      | none => return none
      | some (r'', es) => return some (r'', e' :: es)

/-- In `r'`, `e'` has exactly the components `g`, with the values they have in `e` in `r`. -/
def CopyOf {env : Env} (W : World env) (r : Registry) (e : Entity) (g : Group) (r' : Registry) (e' : Entity) : Prop :=
  HasExactly W r' e' g ∧ (∀ c ∈ g, r'.getComponent env c e' = r.getComponent env c e) ∧
    ∀ c, W.Has c → c ∉ g → r'.getComponent env c e' = .ok none

end Shard
