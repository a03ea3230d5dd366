import Verif.Spec.Script
import Verif.Spec.Limits
/-!
# Adding a component to many entities and taking it away again

The usual way to mark entities: collect their handles, then call `add_component` (`registry/registry.rs:213-274`) for each
of them, later `remove_component` (`registry/registry.rs:281-342`).
-/

set_option autoImplicit false

namespace Shard

/-- `for (e, v) in l { registry.add_component(e, v) }`: the registry afterwards; nothing if one of the calls is refused. -/
def addToAll (env : Env) (c : CompTy) : Registry → List (Entity × Val) → M (Option Registry)
  | r, [] => .ok (some r)
  | r, (e, v) :: l => do
    let x ← r.addComponent env e c v
    match x.2 with
    | .ok () => addToAll env c x.1 l
    | .err _ => return none

/-- `for e in l { registry.remove_component::<C>(e) }`: the registry afterwards and the removed values, in the order of
the list; nothing if one of the calls is refused. -/
def removeFromAll (env : Env) (c : CompTy) : Registry → List Entity → M (Option (Registry × List Val))
  | r, [] => .ok (some (r, []))
  | r, e :: l => do
    let x ← r.removeComponent env e c
    match x.2 with
    | .ok v =>
      match ← removeFromAll env c x.1 l with
      | none => return none
      | some (r', vs) => return some (r', v :: vs)
    | .err () => return none

/-- `e` is live, does not have `c`, and with `c` it would have at most 13 components, whose set is one of the program and
does not have the reserved archetype id. -/
def CanGain {env : Env} (W : World env) (r : Registry) (e : Entity) (c : CompTy) : Prop :=
  Live env r e ∧ r.hasComponent env c e = .ok false ∧ ∃ t, AscSet t (WithId W r e c) ∧ t.length ≤ 13 ∧ W.Used t ∧
    plainId env t ≠ ARCHETYPE_ID_INVALID

/-- `e` has `c`, and without `c` it would have between 1 and 12 components, whose set is one of the program and does not
have the reserved archetype id. -/
def CanLose {env : Env} (W : World env) (r : Registry) (e : Entity) (c : CompTy) : Prop :=
  r.hasComponent env c e = .ok true ∧ ∃ s, AscSet s (WithoutId W r e c) ∧ 1 ≤ s.length ∧ s.length ≤ 12 ∧ W.Used s ∧
    plainId env s ≠ ARCHETYPE_ID_INVALID

end Shard
