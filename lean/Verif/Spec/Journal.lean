import Verif.Spec.Api
/-!
# Writes with a journal

Client code that replaces components through `get_component_mut` (`registry/registry.rs:170-183`) and notes the old values so
that it can undo the writes.
-/

set_option autoImplicit false

namespace Shard

/-- A write: the entity, the component type and the new value. -/
abbrev Write := Entity × CompTy × Val

/-- `if let Some(x) = registry.get_component_mut::<C>(e) { journal.push((e, core::mem::replace(x, v))) }` for each write in
turn: the registry afterwards, and the journal, the latest entry first. -/
def writeAll (env : Env) : Registry → List Write → M (Registry × List Write)
  | r, [] => .ok (r, [])
  | r, (e, c, v) :: l => do
    let x ← r.replaceComponent env c e v
    let y ← writeAll env x.1 l
    match x.2 with
    | none => return y
    | some old => return (y.1, y.2 ++ [(e, c, old)])

/-- The value the last of the writes to the component `c` of `e` puts there. -/
def lastWrite (e : Entity) (c : CompTy) : List Write → Option Val
  | [] => none
  | w :: l =>
    match lastWrite e c l with
    | some v => some v
    | none => if w.1 = e ∧ w.2.1 = c then some w.2.2 else none

end Shard
