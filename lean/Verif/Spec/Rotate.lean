import Verif.Spec.Api
/-!
# Exchanging a component among several entities

Client code that holds one value of a component type and swaps it with that of one entity after the other, through
`get_component_mut` (`registry/registry.rs:170-183`) and `core::mem::swap`.
-/

set_option autoImplicit false

namespace Shard

/-- `for e in es { if let Some(p) = registry.get_component_mut::<C>(e) { core::mem::swap(p, &mut x) } }`: the registry and `x`
afterwards. -/
def swapAlong (env : Env) (c : CompTy) : Registry → Val → List Entity → M (Registry × Val)
  | r, x, [] => .ok (r, x)
  | r, x, e :: es => do
    let y ← r.replaceComponent env c e x
    match y.2 with
    | none => swapAlong env c y.1 x es
    | some old => swapAlong env c y.1 old es

/-- The value `get_component::<C>(e)` (`registry/registry.rs:128-141`) refers to, if there is one. -/
def valueOf (env : Env) (c : CompTy) (r : Registry) (e : Entity) : Option Val :=
  match r.getComponent env c e with
  | .ok o => o
  | .error _ => none

/-- The two registries have the same entities in the same order, and these the same components; at most values of the
component `c` differ. -/
def OnlyValues {env : Env} (W : World env) (r r' : Registry) (c : CompTy) : Prop :=
  r'.iterEntities env = r.iterEntities env ∧ ∀ e, r'.hasComponent env c e = r.hasComponent env c e ∧ SameOthers W r r' e c

end Shard
