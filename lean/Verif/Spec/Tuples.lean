import Verif.Spec.World
/-!
# The place of a component among the components of a tuple
-/

set_option autoImplicit false

namespace Shard

/-- How many components of `g` have a smaller id than `c`. -/
def idRank (g : Group) (c : CompTy) : Nat := (g.filter (fun d => decide (d.id.toNat < c.id.toNat))).length

end Shard
