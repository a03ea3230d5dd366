import Verif.Spec.Marks
/-!
# Handing a component from one entity to another

`remove_component` (`registry/registry.rs:281-342`) on the one, `add_component` (`registry/registry.rs:213-274`) on the other,
and back to the first if the second refuses it.
-/

set_option autoImplicit false

namespace Shard

/-- `let v = registry.remove_component::<C>(a)?;`
`if let Err(v) = registry.add_component(b, v) { registry.add_component(a, v)?; false } else { true }`: the registry afterwards
and whether `b` took the component; nothing if the first or the last call is refused. -/
def handOver (env : Env) (r : Registry) (c : CompTy) (a b : Entity) : M (Option (Registry × Bool)) := do
  let x ← r.removeComponent env a c
  match x.2 with
  | .err () => return none
  | .ok v =>
    let y ← x.1.addComponent env b c v
    match y.2 with
    | .ok () => return some (y.1, true)
    | .err v' =>
      let z ← y.1.addComponent env a c v'
      match z.2 with
      | .ok () => return some (z.1, false)
      | .err _ => return none

/-- The set of components of `e` has between 1 and `n` members, is one of the program and does not have the reserved archetype
id. -/
def Settled {env : Env} (W : World env) (r : Registry) (e : Entity) (n : Nat) : Prop :=
  ∃ t, AscSet t (HasId W r e) ∧ 1 ≤ t.length ∧ t.length ≤ n ∧ W.Used t ∧ plainId env t ≠ ARCHETYPE_ID_INVALID

/-- In `r'`, `b` has the component `c` with the value `v`, and `a` has none; nothing else differs from `r`. -/
def HandedOver {env : Env} (W : World env) (r r' : Registry) (c : CompTy) (v : Val) (a b : Entity) : Prop :=
  Live env r' a ∧ r'.hasComponent env c a = .ok false ∧ r'.getComponent env c a = .ok none ∧ SameOthers W r r' a c ∧
  Live env r' b ∧ r'.hasComponent env c b = .ok true ∧ r'.getComponent env c b = .ok (some v) ∧ SameOthers W r r' b c ∧
  ∀ x, x ≠ a → x ≠ b → SameEntity W r r' x

end Shard
