import Verif.Model.FlatArchetype
import Verif.Spec.Rows
/-!
# Archetypes on their own, on addresses

The calls of `Spec/Rows.lean`, made on archetypes whose columns are raw pointers into one memory (`Model/FlatArchetype.lean`).
-/

set_option autoImplicit false

namespace Shard.Flat

/-- Call the modelled function of one archetype (`src/archetype/data_access.rs`, `src/archetype/metadata.rs`). -/
def rowCall (A : Allocator) (env : Env) (a : FArch) : RowOp → FM (FArch × RowAns)
  | .push e g vals => do
    let x ← a.pushEntityUnchecked A env e g vals
    return (x.1, .index x.2)
  | .pushUninit => do
    let x ← a.pushUninitializedEntity A env
    return (x.1, .index x.2)
  | .decrement => do
    let a ← a.decrementLenUnchecked env
    return (a, .unit)
  | .write c k v => do
    a.writeSingleComponentUnchecked c k v
    return (a, .unit)
  | .writeRow k e g vals => do
    a.writeEntityUnchecked env k e g vals
    return (a, .unit)
  | .setEntity k e => do
    a.setEntityAt k e
    return (a, .unit)
  | .assign c k v => do
    let p ← a.getComponentUncheckedMut c k
    let old ← readVal p c.ty c.size c.align
    writeVal p c.align v
    return (a, .dropped [old])
  | .swap i j => do
    a.swapEntities i j
    return (a, .unit)
  | .swapToLast k => do
    let b ← a.swapToLastUnchecked env k
    return (a, .swapped b)
  | .swapDrop k => do
    let x ← a.swapDropUnchecked env k
    return (x.1, .swappedDropped x.2.1 x.2.2)
  | .swapRemove g k => do
    let x ← a.swapRemoveUnchecked env g k
    return (x.1, .removed x.2.1 x.2.2)
  | .moveOut c k => do
    let v ← a.readComponentUnchecked c k
    return (a, .values [v])
  | .dropRow k => do
    let vs ← a.dropEntity k
    return (a, .dropped vs)
  | .dropRows => do
    let vs ← a.dropEntities
    return (a, .dropped vs)
  | .size => pure (a, .sizes a.entityCount a.capacity (a.entityCount == a.capacity))
  | .entities => do
    let es ← a.entities
    return (a, .ents es)
  | .get c k => do
    let v ← a.getComponentUnchecked c k
    return (a, .values [v])
  | .getFuzzy g k => do
    let vs ← a.getFuzzyComponentsUnchecked env g k
    return (a, .values vs)
  | .slicesExact g => do
    let vs ← a.getSlicesUncheckedExact env g
    return (a, .slices vs)
  | .slicesFuzzy g => do
    let vs ← a.getFuzzySlicesUnchecked env g
    return (a, .slices vs)
  | .slicesEntity g => do
    let x ← a.getEntityFuzzySlicesUnchecked env g
    return (a, .entSlices x.1 x.2)

/-- The pointers that an archetype holds: to the handles, and to the columns. -/
def pointersOf (a : FArch) : List Ptr := a.entityAssociations :: a.pointers

/-- Whether no allocation of the archetype is left in memory `h`. -/
def noneLeft (a : FArch) (h : Heap) : Bool :=
  (pointersOf a).all (fun p => p.addr == 0 || (h.allocs p.prov).isNone)

/-- Call the modelled function on a list of archetypes. -/
def storeCall (A : Allocator) (env : Env) (as : List FArch) : StoreOp → FM (List FArch × RowAns)
  | .create g n => do
    let a ← FArch.withCapacity A env (g.descriptor env).archetype n
    return (as ++ [a], .unit)
  | .on i op => do
    let a ← (liftM (index as i) : FM FArch)
    let x ← rowCall A env a op
    return (as.set i x.1, x.2)
  | .copy i k j l => do
    let s ← (liftM (index as i) : FM FArch)
    let d ← (liftM (index as j) : FM FArch)
    FArch.copyCommonComponents s k d l
    return (as, .unit)
  | .drop i => do
    let a ← (liftM (index as i) : FM FArch)
    let vs ← a.drop
    let h ← (fun h => (.ok h, h) : FM Heap)
    return (as.eraseIdx i, .gone vs (noneLeft a h))

/-- A sequence of calls, with the answers. -/
def storeCalls (A : Allocator) (env : Env) : List FArch → List StoreOp → FM (List FArch × List RowAns)
  | as, [] => pure (as, [])
  | as, op :: ops => do
    let x ← storeCall A env as op
    let y ← storeCalls A env x.1 ops
    return (y.1, x.2 :: y.2)

/-- The component `c` of row `k` of the archetype `a` lives at `q`: a nonnull aligned address inside an allocation whose
number is not below `first`. -/
structure CellAt (first : Nat) (h : Heap) (a : FArch) (c : CompTy) (k : Nat) (q : Ptr) : Prop where
  eq : a.componentPtr c k h = (.ok q, h)
  nonnull : q.addr ≠ 0
  aligned : q.addr % c.align = 0
  own : first ≤ q.prov
  inside : ∃ al, h.allocs q.prov = some al ∧ al.base ≤ q.addr ∧ q.addr + c.size ≤ al.base + al.size

end Shard.Flat
