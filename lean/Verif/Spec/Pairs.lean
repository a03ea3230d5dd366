import Verif.Spec.Iter
import Verif.Spec.Interleave
/-!
# Loops within loops

Client code that looks at pairs of entities: a loop over `iter_entity_components_matching` (`registry/registry.rs:369-378`)
within another one. Both iterators borrow the registry as `&self`.
-/

set_option autoImplicit false

namespace Shard

/-- The handles and tuples a loop over `iter_entity_components_matching` visits, in their order. -/
def visited (env : Env) (g : Group) (r : Registry) : M (List (Entity × List Val)) := do
  let items ← r.iterEntityComponentsMatching env g
  return items.flatMap (fun x => x.2.1.zip (Script.rowsOf x.2.2))

/-- `for x in rows::<G>() { for y in rows::<H>() { body(x, y) } }`: the pairs the body gets, in their order. -/
def crossLoop (env : Env) (g h : Group) (r : Registry) : M (List ((Entity × List Val) × (Entity × List Val))) := do
  let xs ← visited env g r
  let ls ← xs.mapM (fun x => do
    let ys ← visited env h r
    return ys.map (fun y => (x, y)))
  return ls.flatten

/-- `for (i, x) in rows::<G>().enumerate() { for y in rows::<G>().skip(i + 1) { body(x, y) } }` -/
def halfLoop (env : Env) (g : Group) (r : Registry) : M (List ((Entity × List Val) × (Entity × List Val))) := do
  let xs ← visited env g r
  let ls ← xs.zipIdx.mapM (fun p => do
    let ys ← visited env g r
    return (ys.drop (p.2 + 1)).map (fun y => (p.1, y)))
  return ls.flatten

/-- The handles of a list of pairs. -/
def handlesOf (l : List ((Entity × List Val) × (Entity × List Val))) : List (Entity × Entity) := l.map (fun p => (p.1.1, p.2.1))

end Shard
