import Verif.Spec.Marks
/-!
# Exchanging one component type for another

The usual way to move an entity from one state to the next when states are component types: `add_component`
(`registry/registry.rs:213-274`) of the new one and `remove_component` (`registry/registry.rs:281-342`) of the old one, in
one order or the other.
-/

set_option autoImplicit false

namespace Shard

/-- `registry.add_component(e, v)?; registry.remove_component::<D>(e)?`: the registry afterwards and the value that came out;
nothing if a call is refused. -/
def gainThenLose (env : Env) (r : Registry) (e : Entity) (c : CompTy) (v : Val) (d : CompTy) : M (Option (Registry × Val)) := do
  let x ← r.addComponent env e c v
  match x.2 with
  | .err _ => return none
  | .ok () =>
    let y ← x.1.removeComponent env e d
    match y.2 with
    | .err () => return none
    | .ok w => return some (y.1, w)

/-- `let w = registry.remove_component::<D>(e)?; registry.add_component(e, v)?` -/
def loseThenGain (env : Env) (r : Registry) (e : Entity) (c : CompTy) (v : Val) (d : CompTy) : M (Option (Registry × Val)) := do
  let x ← r.removeComponent env e d
  match x.2 with
  | .err () => return none
  | .ok w =>
    let y ← x.1.addComponent env e c v
    match y.2 with
    | .err _ => return none
    | .ok () => return some (y.1, w)

/-- The set of components `e` has with `c` in place of `d` is one of the program and does not have the reserved archetype
id. -/
def CanExchange {env : Env} (W : World env) (r : Registry) (e : Entity) (c d : CompTy) : Prop :=
  ∃ s, AscSet s (fun i => i = c.id ∨ i ≠ d.id ∧ HasId W r e i) ∧ W.Used s ∧ plainId env s ≠ ARCHETYPE_ID_INVALID

/-- In `r'`, `e` has `c` with the value `v` in place of `d`; nothing else differs from `r`. -/
def Exchanged {env : Env} (W : World env) (r r' : Registry) (e : Entity) (c : CompTy) (v : Val) (d : CompTy) : Prop :=
  Live env r' e ∧ r'.hasComponent env c e = .ok true ∧ r'.getComponent env c e = .ok (some v) ∧
  r'.hasComponent env d e = .ok false ∧ r'.getComponent env d e = .ok none ∧
  (∀ c', W.Has c' → c' ≠ c → c' ≠ d →
    r'.hasComponent env c' e = r.hasComponent env c' e ∧ r'.getComponent env c' e = r.getComponent env c' e) ∧
  ∀ x, x ≠ e → SameEntity W r r' x

end Shard
