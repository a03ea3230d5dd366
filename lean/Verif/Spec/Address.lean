import Verif.Model.FlatRegistry
/-!
# Addresses of components
-/

set_option autoImplicit false

namespace Shard

/-- The entity that a call, if it succeeds, takes out of the archetype in which it is stored. -/
def Call.leaver : Call → Option Entity
  | .destroy e => some e
  | .removeEntity _ e => some e
  | .add e _ _ => some e
  | .remove e _ => some e
  | _ => none

/-- The capacity of the archetype with number `i`. -/
def capacityAt (r : Registry) (i : Nat) : Option Nat := (r.archetypes.archetypes[i]?).map (·.capacity)

namespace Flat

/-- The address of the component `c` of `e`: where the reference from `get_component_mut` points. -/
def addressOf (env : Env) (h : Heap) (fr : FReg) (c : CompTy) (e : Entity) : Option Ptr :=
  match fr.getComponentMut env c e h with
  | (.ok o, _) => o
  | _ => none

/-- A program and then one more call, in both models: on blocks it leads from the empty registry to `r` and on to `r'`, on
addresses, from memory `h`, to `fr` in memory `h1` and on to `fr'` in memory `h2`. -/
structure OneMore {env : Env} (W : World env) (A : Allocator) (h : Heap) (hist : List (Call × Outcome)) (r : Registry)
    (fr : FReg) (h1 : Heap) (call : Call) (out : Outcome) (r' : Registry) (fr' : FReg) (h2 : Heap) : Prop where
  steps : Steps env (Call.Admissible W) Registry.default hist r
  adm : call.Admissible W r
  run : call.run env r = .ok (r', out)
  prog : ∃ outs, FReg.default.calls A env (hist.map (·.1)) h = (.ok (fr, outs), h1)
  last : ∃ out', fr.call A env call h1 = (.ok (fr', out'), h2)

end Flat

end Shard
