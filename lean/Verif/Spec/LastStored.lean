import Verif.Spec.Api

/-!
# What was last stored

The answer a caller expects from a query, read off the calls made so far and their results. No table, no handle
arithmetic and no abstract map is involved: the record is searched from its most recent entry backwards for the
last successful call that says something about the handle.
-/

set_option autoImplicit false

namespace Shard

/-- The call names the entity it concerns, in its arguments or its result. A write through an iterator does not: the
caller holds a reference and is not told whose component it is. -/
def Call.NamesEntity : Call → Prop
  | .writeIter .. => False
  | _ => True

/-- The value the record, most recent call first, says `c` of `e` holds. -/
def lastStored : List (Call × Outcome) → Entity → CompTy → Option Val
  | [], _, _ => none
  | (call, out) :: earlier, e, c =>
    if out.success = false then lastStored earlier e c
    else match call with
      | .create g vals => if out.created = some e then lookupTy g vals c else lastStored earlier e c
      | .destroy e' | .removeEntity _ e' => if e' = e then none else lastStored earlier e c
      | .add e' c' v | .write e' c' v => if e' = e ∧ c' = c then some v else lastStored earlier e c
      | .remove e' c' => if e' = e ∧ c' = c then none else lastStored earlier e c
      | .writeIn g e' j v => if e' = e ∧ g[j]? = some c then some v else lastStored earlier e c
      | .writeIter .. => lastStored earlier e c

/-- The record, most recent call first, says `e` is alive: it was created, and not destroyed or removed since. -/
def lastAlive : List (Call × Outcome) → Entity → Bool
  | [], _ => false
  | (call, out) :: earlier, e =>
    if out.success = false then lastAlive earlier e
    else match call with
      | .create _ _ => if out.created = some e then true else lastAlive earlier e
      | .destroy e' | .removeEntity _ e' => if e' = e then false else lastAlive earlier e
      | _ => lastAlive earlier e

end Shard
