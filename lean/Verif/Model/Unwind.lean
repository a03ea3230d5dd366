import Verif.Model.Registry
/-!
# `destroy_entity` and dropping a registry with destructors that panic

The functions of `Registry.lean` assume that dropping a component returns. Here a predicate `boom` tells for which values
the destructor panics. A value whose destructor panics counts as dropped: its destructor has run, and its fields are
dropped during unwinding. The panic unwinds through `destroy_entity` to the caller, who may catch it and go on using
the registry; the functions below return the state in which the caller finds the registry.
-/

namespace Shard

namespace Archetype

/-- `data_access.rs:385-392`: the loop of `drop_entity` from column `i`, `n` left: the dropped values, and whether a
destructor panicked. -/
def dropUnwindLoop (boom : Val → Bool) (a : Archetype) (idx : Nat) : (n i : Nat) → M (List Val × Bool)
  | 0, _ => .ok ([], false)
  | n + 1, i => do
    let d ← index a.descriptor.components i
    let p ← index a.pointers i
    let vs ← runDropHandler d p (idx * d.size) 1
    if vs.any boom then return (vs, true)
    else
      let rest ← dropUnwindLoop boom a idx n (i + 1)
      return (vs ++ rest.1, rest.2)

/-- `data_access.rs:385-392` `drop_entity`. -/
def dropEntityUnwind (boom : Val → Bool) (a : Archetype) (idx : Nat) : M (List Val × Bool) :=
  a.dropUnwindLoop boom idx a.descriptor.components.length 0

/-- `data_access.rs:313-326` `swap_drop_unchecked`: new state, the result (`none`: a destructor panicked before
`entity_count` was decremented), the dropped values. -/
def swapDropUnwind (boom : Val → Bool) (env : Env) (a : Archetype) (idx : Nat) : M (Archetype × Option Bool × List Val) := do
  debugAssert env (decide (idx < a.entityCount))
  let last ← subU32 env a.entityCount 1
  if idx = last then
    let d ← a.dropEntityUnwind boom idx
    if d.2 then return (a, none, d.1)
    else
      let n ← subU32 env a.entityCount 1
      return ({ a with entityCount := n }, some false, d.1)
  else
    let a ← a.swapEntities idx last
    let last ← subU32 env a.entityCount 1
    let d ← a.dropEntityUnwind boom last
    if d.2 then return (a, none, d.1)
    else
      let n ← subU32 env a.entityCount 1
      return ({ a with entityCount := n }, some true, d.1)

end Archetype

/-- `registry.rs:43-66` `destroy_entity`: new state, the result (`none`: a destructor panicked, and nothing after
`swap_drop_unchecked` was executed), the dropped values. -/
def Registry.destroyEntityUnwind (boom : Val → Bool) (env : Env) (r : Registry) (e : Entity) :
    M (Registry × Option Bool × List Val) :=
  match r.entities.entityEntry env e with
  | none => .ok (r, some false, [])
  | some entry => do
    let ai := entry.archetypeIndex env
    let a ← r.archetypes.getUnchecked ai
    let iia := entry.indexInArchetype
    let s ← a.swapDropUnwind boom env iia.value.toNat
    match s.2.1 with
    | none => return (⟨r.entities, r.archetypes.setArchetype ai.toNat s.1⟩, none, s.2.2)
    | some swapped =>
      let ents ← (if swapped then do
          let sw ← s.1.entityAtUnchecked iia.value.toNat
          unwrap (r.entities.updateEntry env sw (fun en => en.setIndexInArchetype iia))
        else .ok r.entities)
      let d := ents.destroyEntity env e
      debugAssert env d.2
      return (⟨d.1, r.archetypes.setArchetype ai.toNat s.1⟩, some true, s.2.2)

/-! ## Dropping -/

/-- The values dropped before the first panic, and the one whose destructor panics: `s.iter_mut().for_each(drop)`
(`component_descriptor.rs:137-140`) stops there. -/
def dropUntilPanic (boom : Val → Bool) : List Val → List Val
  | [] => []
  | v :: vs => if boom v then [v] else v :: dropUntilPanic boom vs

namespace Archetype

/-- `data_access.rs:396-400`: the loop of `drop_entities` from column `i`, `n` left: the dropped values, and whether a
destructor panicked. -/
def dropAllUnwindLoop (boom : Val → Bool) (a : Archetype) : (n i : Nat) → M (List Val × Bool)
  | 0, _ => .ok ([], false)
  | n + 1, i => do
    let d ← index a.descriptor.components i
    let p ← index a.pointers i
    let vs ← runDropHandler d p 0 a.entityCount
    if vs.any boom then return (dropUntilPanic boom vs, true)
    else
      let rest ← dropAllUnwindLoop boom a n (i + 1)
      return (vs ++ rest.1, rest.2)

/-- `archetype/mod.rs:78-89` `Drop for Archetype`: the dropped values, whether a destructor panicked (then `dealloc` is
not executed, and `Archetype` has no fields with destructors), and the archetype afterwards. -/
def dropUnwind (boom : Val → Bool) (a : Archetype) : M (List Val × Bool × Archetype) := do
  if a.capacity = 0 then return ([], false, a)
  else
    let d ← a.dropAllUnwindLoop boom a.descriptor.components.length 0
    if d.2 then return (d.1, true, a)
    else
      let a ← a.dealloc
      return (d.1, false, a)

end Archetype

/-- How dropping a registry ends: normally, by a panic that unwinds to the caller, or by aborting the process. -/
inductive DropEnd
  | finished
  | panicked
  | aborted
  deriving DecidableEq, Repr

/-- Drop glue of `Vec<Archetype>` (`archetype_registry/mod.rs:42-46`): the elements are dropped in order; after a panic the
remaining ones are dropped while unwinding, and a second panic then aborts the process. `unwinding` tells whether a
panic has occurred already. -/
def dropVecUnwind (boom : Val → Bool) : Bool → List Archetype → M (List Val × DropEnd × List Archetype)
  | unwinding, [] => .ok ([], if unwinding then .panicked else .finished, [])
  | unwinding, a :: rest => do
    let x ← a.dropUnwind boom
    if unwinding && x.2.1 then return (x.1, .aborted, x.2.2 :: rest)
    else
      let y ← dropVecUnwind boom (unwinding || x.2.1) rest
      return (x.1 ++ y.1, y.2.1, x.2.2 :: y.2.2)

/-- Dropping a `Registry`: the dropped values, how it ends, and what is left of the archetypes. -/
def Registry.dropUnwind (boom : Val → Bool) (r : Registry) : M (List Val × DropEnd × List Archetype) :=
  dropVecUnwind boom false r.archetypes.archetypes

end Shard
