import Verif.Spec.Interleave
/-!
# Destroying a list of entities
-/

set_option autoImplicit false

namespace Shard

/-- `for e in list { registry.destroy_entity(e); }`: the registry afterwards, the results and the dropped values. -/
def destroyAll (env : Env) : Registry → List Entity → M (Registry × List Bool × List Val)
  | r, [] => .ok (r, [], [])
  | r, e :: l => do
    let x ← r.destroyEntity env e
    let y ← destroyAll env x.1 l
    return (y.1, x.2.1 :: y.2.1, x.2.2 ++ y.2.2)

end Shard
