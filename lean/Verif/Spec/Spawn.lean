import Verif.Spec.Api
/-!
# Creating many entities with the same components

`for t in tuples { handles.push(registry.create_entity(t)?) }`: client code over `create_entity`
(`registry/registry.rs:17-39`).
-/

set_option autoImplicit false

namespace Shard

/-- One entity for each tuple, in turn: the registry afterwards and the handles; nothing if a call fails. -/
def spawnAll (env : Env) (g : Group) : Registry → List (List Val) → M (Option (Registry × List Entity))
  | r, [] => .ok (some (r, []))
  | r, vals :: l => do
    let x ← r.createEntity env g vals
    match x.2 with
    | .err _ => return none
    | .ok e =>
      match ← spawnAll env g x.1 l with
      | none => return none
      | some (r', es) => return some (r', e :: es)

/-- The columns of a table with one more row. -/
def addRow (cols : List (List Val)) (vals : List Val) : List (List Val) := List.zipWith (fun col v => col ++ [v]) cols vals

end Shard
