import Verif.Spec.Exchange
import Verif.Spec.Select
/-!
# Replacing a component type on all entities

Client code that collects all entities with a component of the type `D` and gives each of them, in place of it, a component of
the type `C` computed from it: `iter_entity_components_matching` (`registry/registry.rs:369-378`), then `get_component`
(`registry/registry.rs:128-141`), `add_component` (`registry/registry.rs:213-274`) and `remove_component`
(`registry/registry.rs:281-342`).
-/

set_option autoImplicit false

namespace Shard

/-- `for e in l { let v = f(registry.get_component::<D>(e)?); registry.add_component(e, v)?; registry.remove_component::<D>(e)? }`:
the registry afterwards; nothing if a call is refused. -/
def convertAll (env : Env) (c d : CompTy) (f : Val → Val) : Registry → List Entity → M (Option Registry)
  | r, [] => .ok (some r)
  | r, e :: l => do
    match ← r.getComponent env d e with
    | none => return none
    | some w =>
      match ← gainThenLose env r e c (f w) d with
      | none => return none
      | some (r', _) => convertAll env c d f r' l

/-- The same for all entities that have a `D`. -/
def migrate (env : Env) (c d : CompTy) (f : Val → Val) (r : Registry) : M (Option Registry) := do
  let l ← selectBy env [d] (fun _ _ => true) r
  convertAll env c d f r l

/-- `e` has `d` and can have `c` in place of it. -/
def Convertible {env : Env} (W : World env) (r : Registry) (c d : CompTy) (e : Entity) : Prop :=
  r.hasComponent env d e = .ok true ∧ CanGain W r e c ∧ CanExchange W r e c d

/-- In `r'`, `e` has in place of `d` a `c` with the value `f` computes from that of `d`; its other components are as in `r`. -/
def Converted {env : Env} (W : World env) (r r' : Registry) (c d : CompTy) (f : Val → Val) (e : Entity) : Prop :=
  Live env r' e ∧ r'.hasComponent env c e = .ok true ∧ (∃ w, r.getComponent env d e = .ok (some w) ∧
    r'.getComponent env c e = .ok (some (f w))) ∧ r'.hasComponent env d e = .ok false ∧ r'.getComponent env d e = .ok none ∧
  ∀ c', W.Has c' → c' ≠ c → c' ≠ d →
    r'.hasComponent env c' e = r.hasComponent env c' e ∧ r'.getComponent env c' e = r.getComponent env c' e

end Shard
