import Verif.Model.WidthRegistry
import Verif.Spec.Reference
/-!
# Calls on targets with narrow pointers
-/

set_option autoImplicit false

namespace Shard

/-- `Call.run` on a target with `w`-bit pointers. -/
def Call.runW (w : Nat) (env : Env) (r : Registry) : Call → M (Registry × Outcome)
  | .create g vals => do
    let x ← r.createEntityW w env g vals
    match x.2 with
    | .ok e => return (x.1, { success := true, created := some e, given := vals })
    | .err vs => return (x.1, { success := false, given := vals, returned := vs })
  | .add e c v => do
    let x ← r.addComponentW w env e c v
    match x.2 with
    | .ok _ => return (x.1, { success := true, given := [v] })
    | .err w => return (x.1, { success := false, given := [v], returned := [w] })
  | .remove e c => do
    let x ← r.removeComponentW w env e c
    match x.2 with
    | .ok w => return (x.1, { success := true, returned := [w] })
    | .err _ => return (x.1, { success := false })
  -- these do not allocate
  | call => call.run env r

/-- `runAll` on a target with `w`-bit pointers. -/
def runAllW (w : Nat) (env : Env) : Registry → List Call → List Outcome × M Registry
  | r, [] => ([], .ok r)
  | r, c :: rest =>
    match c.runW w env r with
    | .error f => ([], .error f)
    | .ok (r', out) => (out :: (runAllW w env r' rest).1, (runAllW w env r' rest).2)

end Shard
