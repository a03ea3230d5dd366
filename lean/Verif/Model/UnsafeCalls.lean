import Verif.Spec.Api
/-!
# The calls of `unsafe fn`s

The functions of `registry.rs`, `data_access.rs`, `entity_registry/mod.rs` and the iterators once more, now recording the
calls of the `unsafe fn`s of the crate they make, with the arguments and the archetype as it is at the time of the call. The
record is kept when the function panics or runs into undefined behaviour: it then has the calls made up to that point. What
the functions compute is the same (`UnsafeCalls.C96_results`).

Simplifications: `resize_capacity`, `dealloc`, `resize_if_necessary`, `drop_entities`, `push_uninitialized_entity` and
`offset_sorted_pointers_unchecked` state no condition on their arguments and are not recorded; the functions of
`ComponentGroup` (`component_group.rs:42-73`), which get the pointer arrays of the functions recorded here, are not either.
-/

set_option autoImplicit false

namespace Shard.UnsafeCalls

/-- A call of an `unsafe fn`, with its arguments. -/
inductive UCall
  /-- `archetype_registry/mod.rs:206-208` `get_unchecked`, `213-215` `get_unchecked_mut` -/
  | getUnchecked (r : ArchetypeRegistry) (i : UInt16)
  /-- `data_access.rs:14` `get_component_unchecked`, `29` `get_component_unchecked_mut` -/
  | getComponent (a : Archetype) (c : CompTy) (index : Nat)
  /-- `data_access.rs:70` `read_component_unchecked` -/
  | readComponent (a : Archetype) (c : CompTy) (index : Nat)
  /-- `data_access.rs:245` `write_single_component_unchecked` -/
  | writeComponent (a : Archetype) (c : CompTy) (index : Nat)
  /-- `data_access.rs:44` `get_fuzzy_components_unchecked`, `57` `get_fuzzy_components_unchecked_mut` -/
  | fuzzyComponents (a : Archetype) (g : Group) (index : Nat)
  /-- `data_access.rs:120`, `133`, `147`, `164`: the four functions for slices of a subset -/
  | fuzzySlices (a : Archetype) (g : Group)
  /-- `data_access.rs:544` `get_fuzzy_pointers_unchecked` -/
  | fuzzyPointers (a : Archetype) (g : Group) (offset : Nat)
  /-- `data_access.rs:88` `get_slices_unchecked_exact_mut`, `104` `get_slices_unchecked_exact` -/
  | exactSlices (a : Archetype) (g : Group)
  /-- `data_access.rs:209` `push_entity_unchecked` -/
  | pushEntity (a : Archetype) (g : Group)
  /-- `data_access.rs:272` `write_entity_unchecked` -/
  | writeEntity (a : Archetype) (g : Group) (index : Nat)
  /-- `data_access.rs:238` `decrement_len_unchecked` -/
  | decrementLen (a : Archetype)
  /-- `data_access.rs:313` `swap_drop_unchecked` -/
  | swapDrop (a : Archetype) (index : Nat)
  /-- `data_access.rs:334` `swap_to_last_unchecked` -/
  | swapToLast (a : Archetype) (index : Nat)
  /-- `data_access.rs:353` `swap_remove_unchecked` -/
  | swapRemove (a : Archetype) (g : Group) (index : Nat)
  /-- `data_access.rs:373` `swap_entities` -/
  | swapEntities (a : Archetype) (first second : Nat)
  /-- `data_access.rs:385` `drop_entity` -/
  | dropEntity (a : Archetype) (index : Nat)
  /-- `data_access.rs:406` `read_components_exact_unchecked` -/
  | readExact (a : Archetype) (g : Group) (index : Nat)
  /-- `data_access.rs:515` `copy_common_components_between_archetypes_unchecked` -/
  | copyCommon (source : Archetype) (sourceIndex : Nat) (destination : Archetype) (destinationIndex : Nat)
  /-- `entry.rs:60` `EntityEntry::invalidate` -/
  | invalidate (nextFreeSlot : UInt32)
  /-- `index_in_archetype.rs:21` `IndexInArchetype::new_unchecked` -/
  | newIndex (value : UInt32)
  /-- `entity.rs:43` `Entity::new_unchecked` -/
  | newEntity (index : UInt32)

/-- A computation that records the calls. -/
structure T (α : Type) where
  calls : List UCall
  res : M α

/-- What follows is not executed after a fault. -/
def T.bind {α β : Type} (x : T α) (f : α → T β) : T β :=
  match x.res with
  | .ok a => ⟨x.calls ++ (f a).calls, (f a).res⟩
  | .error e => ⟨x.calls, .error e⟩

instance : Monad T where
  pure a := ⟨[], .ok a⟩
  bind := T.bind

/-- A computation that makes no call. -/
def lift {α : Type} (m : M α) : T α := ⟨[], m⟩

/-- A call. -/
def note (u : UCall) : T Unit := ⟨[u], .ok ()⟩

/-! ## `data_access.rs` -/

/-- `data_access.rs:14-23` -/
def getComponent (a : Archetype) (c : CompTy) (index : Nat) : T Val := do
  note (.getComponent a c index)
  lift (a.getComponentUnchecked c index)

/-- `data_access.rs:29-38` -/
def getComponentMut (a : Archetype) (c : CompTy) (index : Nat) : T Ref := do
  note (.getComponent a c index)
  lift (a.getComponentUncheckedMut c index)

/-- `data_access.rs:70-81` -/
def readComponent (a : Archetype) (c : CompTy) (index : Nat) : T Val := do
  note (.readComponent a c index)
  lift (a.readComponentUnchecked c index)

/-- `data_access.rs:245-261` -/
def writeComponent (a : Archetype) (c : CompTy) (index : Nat) (v : Val) : T Archetype := do
  note (.writeComponent a c index)
  lift (a.writeSingleComponentUnchecked c index v)

/-- `data_access.rs:544-568` -/
def fuzzyPointers (env : Env) (a : Archetype) (g : Group) (offset : Nat) : T (List (Option Ref)) := do
  note (.fuzzyPointers a g offset)
  return a.getFuzzyPointersUnchecked env g offset

/-- `data_access.rs:44-51` -/
def fuzzyComponents (env : Env) (a : Archetype) (g : Group) (index : Nat) : T (List Val) := do
  note (.fuzzyComponents a g index)
  lift (debugAssert env (g.descriptor env).isValid)
  let ps ← fuzzyPointers env a g index
  lift (a.derefTuple (Archetype.tuplePointers env g ps))

/-- `data_access.rs:57-64` -/
def fuzzyComponentsMut (env : Env) (a : Archetype) (g : Group) (index : Nat) : T (List (CompTy × Option Ref)) := do
  note (.fuzzyComponents a g index)
  lift (debugAssert env (g.descriptor env).isValid)
  let ps ← fuzzyPointers env a g index
  let _ ← lift (a.derefTuple (Archetype.tuplePointers env g ps))
  return Archetype.tuplePointers env g ps

/-- `data_access.rs:120-126` -/
def fuzzySlices (env : Env) (a : Archetype) (g : Group) : T (List (List Val)) := do
  note (.fuzzySlices a g)
  lift (debugAssert env (g.descriptor env).isValid)
  let ps ← fuzzyPointers env a g 0
  let s ← lift (Archetype.sliceTuple env g ps a.entityCount)
  lift (s.mapM a.readSliceRef)

/-- `data_access.rs:133-139` -/
def fuzzySlicesMut (env : Env) (a : Archetype) (g : Group) : T (List SliceRef) := do
  note (.fuzzySlices a g)
  lift (debugAssert env (g.descriptor env).isValid)
  let ps ← fuzzyPointers env a g 0
  let s ← lift (Archetype.sliceTuple env g ps a.entityCount)
  let _ ← lift (s.mapM a.readSliceRef)
  return s

/-- `data_access.rs:147-156`. The pointers are computed before the handles are read. -/
def entityFuzzySlices (env : Env) (a : Archetype) (g : Group) : T (List Entity × List (List Val)) := do
  note (.fuzzySlices a g)
  lift (debugAssert env (g.descriptor env).isValid)
  let ps ← fuzzyPointers env a g 0
  let es ← lift a.entities
  let s ← lift (Archetype.sliceTuple env g ps a.entityCount)
  let vs ← lift (s.mapM a.readSliceRef)
  return (es, vs)

/-- `data_access.rs:164-173` -/
def entityFuzzySlicesMut (env : Env) (a : Archetype) (g : Group) : T (List Entity × List SliceRef) := do
  note (.fuzzySlices a g)
  lift (debugAssert env (g.descriptor env).isValid)
  let ps ← fuzzyPointers env a g 0
  let es ← lift a.entities
  let s ← lift (Archetype.sliceTuple env g ps a.entityCount)
  let _ ← lift (s.mapM a.readSliceRef)
  return (es, s)

/-- `data_access.rs:104-113` -/
def exactSlices (env : Env) (a : Archetype) (g : Group) : T (List (List Val)) := do
  note (.exactSlices a g)
  lift (a.getSlicesUncheckedExact env g)

/-- `data_access.rs:88-97` -/
def exactSlicesMut (env : Env) (a : Archetype) (g : Group) : T (List SliceRef) := do
  note (.exactSlices a g)
  lift (a.getSlicesUncheckedExactMut env g)

/-- `data_access.rs:272-304` -/
def writeEntity (env : Env) (a : Archetype) (idx : Nat) (e : Entity) (g : Group) (vals : List Val) : T Archetype := do
  note (.writeEntity a g idx)
  lift (a.writeEntityUnchecked env idx e g vals)

/-- `data_access.rs:209-224` -/
def pushEntity (env : Env) (a : Archetype) (e : Entity) (g : Group) (vals : List Val) : T (Archetype × Nat) := do
  note (.pushEntity a g)
  lift (debugAssert env (g.descriptor env).isValid)
  lift (debugAssert env ((g.descriptor env).archetype.archetypeId == a.descriptor.archetypeId))
  let a ← lift (a.resizeIfNecessary env)
  let a' ← writeEntity env { a with entityCount := a.entityCount + 1 } a.entityCount e g vals
  return (a', a.entityCount)

/-- `data_access.rs:238-240` -/
def decrementLen (env : Env) (a : Archetype) : T Archetype := do
  note (.decrementLen a)
  lift (a.decrementLenUnchecked env)

/-- `data_access.rs:373-380` -/
def swapEntities (a : Archetype) (first second : Nat) : T Archetype := do
  note (.swapEntities a first second)
  lift (a.swapEntities first second)

/-- `data_access.rs:385-392` -/
def dropEntity (a : Archetype) (idx : Nat) : T (List Val) := do
  note (.dropEntity a idx)
  lift (a.dropEntity idx)

/-- `data_access.rs:406-409` -/
def readExact (env : Env) (a : Archetype) (g : Group) (idx : Nat) : T (List Val) := do
  note (.readExact a g idx)
  lift (a.readComponentsExactUnchecked env g idx)

/-- `data_access.rs:313-326` -/
def swapDrop (env : Env) (a : Archetype) (idx : Nat) : T (Archetype × Bool × List Val) := do
  note (.swapDrop a idx)
  lift (debugAssert env (decide (idx < a.entityCount)))
  let last ← lift (subU32 env a.entityCount 1)
  if idx = last then
    let dropped ← dropEntity a idx
    let n ← lift (subU32 env a.entityCount 1)
    return ({ a with entityCount := n }, false, dropped)
  else
    let a ← swapEntities a idx last
    let last ← lift (subU32 env a.entityCount 1)
    let dropped ← dropEntity a last
    let n ← lift (subU32 env a.entityCount 1)
    return ({ a with entityCount := n }, true, dropped)

/-- `data_access.rs:334-342` -/
def swapToLast (env : Env) (a : Archetype) (idx : Nat) : T (Archetype × Bool) := do
  note (.swapToLast a idx)
  lift (debugAssert env (decide (idx < a.entityCount)))
  let last ← lift (subU32 env a.entityCount 1)
  if idx = last then return (a, false)
  else
    let a ← swapEntities a idx last
    return (a, true)

/-- `data_access.rs:353-366` -/
def swapRemove (env : Env) (a : Archetype) (g : Group) (idx : Nat) : T (Archetype × List Val × Bool) := do
  note (.swapRemove a g idx)
  lift (debugAssert env (decide (idx < a.entityCount)))
  let last ← lift (subU32 env a.entityCount 1)
  if idx = last then
    let data ← readExact env a g idx
    let n ← lift (subU32 env a.entityCount 1)
    return ({ a with entityCount := n }, data, false)
  else
    let a ← swapEntities a idx last
    let last ← lift (subU32 env a.entityCount 1)
    let data ← readExact env a g last
    let n ← lift (subU32 env a.entityCount 1)
    return ({ a with entityCount := n }, data, true)

/-- `data_access.rs:515-537` -/
def copyCommon (src : Archetype) (srcIdx : Nat) (dst : Archetype) (dstIdx : Nat) : T Archetype := do
  note (.copyCommon src srcIdx dst dstIdx)
  lift (Archetype.copyCommonComponents src srcIdx dst dstIdx)

/-! ## `archetype_registry/mod.rs` and the iterators -/

/-- `archetype_registry/mod.rs:206-215` -/
def getUnchecked (r : ArchetypeRegistry) (i : UInt16) : T Archetype := do
  note (.getUnchecked r i)
  lift (r.getUnchecked i)

/-- The loop of an iterator (`ArchIter.collect`), with the recorded access to each archetype. -/
def collect {α : Type} (env : Env) (g : Group) (filter : ArchetypeDescriptor → Bool) (r : ArchetypeRegistry)
    (f : Archetype → T α) : (n : Nat) → ArchIter → T (List (Nat × α))
  | 0, _ => ⟨[], .ok []⟩
  | n + 1, it => do
    let s ← lift (ArchIter.next env g filter r it)
    match s.1 with
    | none => return []
    | some i =>
      let a ← lift (indexUnchecked r.archetypes i)
      let x ← f a
      let rest ← collect env g filter r f n s.2
      return (i, x) :: rest

/-- `ArchetypeRegistry.iterate` with recorded accesses. -/
def iterate {α : Type} (env : Env) (r : ArchetypeRegistry) (g : Group) (filter : ArchetypeDescriptor → Bool)
    (f : Archetype → T α) : T (List (Nat × α)) := do
  let it ← lift (ArchIter.new env g)
  collect env g filter r f (r.archetypes.length + 1) it

/-! ## `entity_registry/mod.rs` -/

/-- `entity_registry/mod.rs:36-60`: the call in line 45 or 53. -/
def createEntry (env : Env) (r : EntityRegistry) (iia : IndexInArchetype) (ai : ArchetypeIndex) :
    T (EntityRegistry × Option Entity) :=
  if r.entities.length ≥ EntityRegistry.MAX_ENTITY_COUNT then lift (r.createEntity env iia ai)
  else if r.nextFreeSlot = IndexInArchetype.INVALID_VALUE then do
    note (.newEntity (UInt32.ofNat r.entities.length))
    lift (r.createEntity env iia ai)
  else do
    let _ ← lift (index r.entities r.nextFreeSlot.toNat)
    note (.newEntity r.nextFreeSlot)
    lift (r.createEntity env iia ai)

/-- `entity_registry/mod.rs:62-74`: the call in line 70, and the one it makes (`entry.rs:61`). -/
def destroyEntry (env : Env) (r : EntityRegistry) (e : Entity) : T (EntityRegistry × Bool) :=
  if (r.destroyEntity env e).2 then do
    note (.invalidate r.nextFreeSlot)
    note (.newIndex r.nextFreeSlot)
    return r.destroyEntity env e
  else return r.destroyEntity env e

/-- `iterator.rs:22-36`, run to the end of the table: the call in lines 28-31 for every valid entry. -/
def iterEntries (env : Env) (r : EntityRegistry) : T (List Entity) :=
  ⟨((r.entities.zipIdx.filter (fun x => x.1.isValid env)).map (fun x => .newEntity (UInt32.ofNat x.2))), .ok (r.iter env)⟩

/-! ## `registry.rs` -/

/-- `registry.rs:21-39` -/
def createEntity (env : Env) (r : Registry) (g : Group) (vals : List Val) :
    T (Registry × Registry.Res Entity (List Val)) :=
  if ¬ (g.descriptor env).isValid then lift (.ok (r, .err vals))
  else do
    let f ← lift (r.archetypes.findOrCreateArchetype env (g.descriptor env).archetype)
    match f.2 with
    | none => return (⟨r.entities, f.1⟩, .err vals)
    | some ai =>
      let a ← lift (index f.1.archetypes ai.toNat)
      let iia ← lift (unwrap (IndexInArchetype.new (UInt32.ofNat a.entityCount)))
      let aix ← lift (unwrap (ArchetypeIndex.new ai))
      let c ← createEntry env r.entities iia aix
      match c.2 with
      | none => return (⟨c.1, f.1⟩, .err vals)
      | some e =>
        let p ← pushEntity env a e g vals
        return (⟨c.1, f.1.setArchetype ai.toNat p.1⟩, .ok e)

/-- `registry.rs:43-66` -/
def destroyEntity (env : Env) (r : Registry) (e : Entity) : T (Registry × Bool × List Val) :=
  match r.entities.entityEntry env e with
  | none => lift (.ok (r, false, []))
  | some entry => do
    let a ← getUnchecked r.archetypes (entry.archetypeIndex env)
    let s ← swapDrop env a entry.indexInArchetype.value.toNat
    let ents ← lift (if s.2.1 then do
        let sw ← s.1.entityAtUnchecked entry.indexInArchetype.value.toNat
        unwrap (r.entities.updateEntry env sw (fun en => en.setIndexInArchetype entry.indexInArchetype))
      else .ok r.entities)
    let d ← destroyEntry env ents e
    lift (debugAssert env d.2)
    return (⟨d.1, r.archetypes.setArchetype (entry.archetypeIndex env).toNat s.1⟩, true, s.2.2)

/-- `registry.rs:71-99` -/
def removeEntity (env : Env) (r : Registry) (g : Group) (e : Entity) : T (Registry × Option (List Val)) :=
  match r.entities.entityEntry env e with
  | none => lift (.ok (r, none))
  | some entry => do
    let a ← getUnchecked r.archetypes (entry.archetypeIndex env)
    let s ← swapRemove env a g entry.indexInArchetype.value.toNat
    let ents ← lift (if s.2.2 then do
        let sw ← s.1.entityAt entry.indexInArchetype.value.toNat
        unwrap (r.entities.updateEntry env sw (fun en => en.setIndexInArchetype entry.indexInArchetype))
      else .ok r.entities)
    let d ← destroyEntry env ents e
    lift (debugAssert env d.2)
    return (⟨d.1, r.archetypes.setArchetype (entry.archetypeIndex env).toNat s.1⟩, some s.2.1)

/-- `registry.rs:103-110` -/
def hasComponent (env : Env) (r : Registry) (c : CompTy) (e : Entity) : T Bool :=
  match r.entities.entityEntry env e with
  | none => lift (.ok false)
  | some entry => do
    let a ← getUnchecked r.archetypes (entry.archetypeIndex env)
    return a.descriptor.hasComponent c

/-- `registry.rs:115-124` -/
def hasComponents (env : Env) (r : Registry) (g : Group) (e : Entity) : T Bool :=
  match r.entities.entityEntry env e with
  | none => lift (.ok false)
  | some entry => do
    let a ← getUnchecked r.archetypes (entry.archetypeIndex env)
    return a.descriptor.containsSubset (g.descriptor env).archetype

/-- `registry.rs:128-141` -/
def getComponentOf (env : Env) (r : Registry) (c : CompTy) (e : Entity) : T (Option Val) :=
  match r.entities.entityEntry env e with
  | none => lift (.ok none)
  | some entry => do
    let a ← getUnchecked r.archetypes (entry.archetypeIndex env)
    if ¬ a.descriptor.hasComponent c then return none
    else
      let v ← getComponent a c entry.indexInArchetype.value.toNat
      return some v

/-- `registry.rs:146-165` -/
def getComponentsOf (env : Env) (r : Registry) (g : Group) (e : Entity) : T (Option (List Val)) :=
  match r.entities.entityEntry env e with
  | none => lift (.ok none)
  | some entry => do
    let a ← getUnchecked r.archetypes (entry.archetypeIndex env)
    if ¬ a.descriptor.containsSubset (g.descriptor env).archetype then return none
    else
      let vs ← fuzzyComponents env a g entry.indexInArchetype.value.toNat
      return some vs

/-- `registry.rs:170-183` -/
def getComponentMutOf (env : Env) (r : Registry) (c : CompTy) (e : Entity) : T (Option (Nat × Ref)) :=
  match r.entities.entityEntry env e with
  | none => lift (.ok none)
  | some entry => do
    let a ← getUnchecked r.archetypes (entry.archetypeIndex env)
    if ¬ a.descriptor.hasComponent c then return none
    else
      let p ← getComponentMut a c entry.indexInArchetype.value.toNat
      return some ((entry.archetypeIndex env).toNat, p)

/-- `registry.rs:187-206` -/
def getComponentsMutOf (env : Env) (r : Registry) (g : Group) (e : Entity) :
    T (Option (Nat × List (CompTy × Option Ref))) :=
  match r.entities.entityEntry env e with
  | none => lift (.ok none)
  | some entry => do
    let a ← getUnchecked r.archetypes (entry.archetypeIndex env)
    if ¬ a.descriptor.containsSubset (g.descriptor env).archetype then return none
    else
      let ps ← fuzzyComponentsMut env a g entry.indexInArchetype.value.toNat
      return some ((entry.archetypeIndex env).toNat, ps)

/-- `registry.rs:213-274` -/
def addComponent (env : Env) (r : Registry) (e : Entity) (c : CompTy) (v : Val) : T (Registry × Registry.Res Unit Val) :=
  match r.entities.entityEntry env e with
  | none => lift (.ok (r, .err v))
  | some entry => do
    let f ← lift (r.archetypes.findOrCreateAdding env (entry.archetypeIndex env) c.descriptor)
    match f.2 with
    | none => return (⟨r.entities, f.1⟩, .err v)
    | some (si, dai, di) =>
      let src ← lift (index f.1.archetypes si)
      let dst ← lift (index f.1.archetypes di)
      let s ← swapToLast env src entry.indexInArchetype.value.toNat
      let ents ← lift (if s.2 then do
          let sw ← s.1.entityAt entry.indexInArchetype.value.toNat
          unwrap (r.entities.updateEntry env sw (fun en => en.setIndexInArchetype entry.indexInArchetype))
        else .ok r.entities)
      let p ← lift (dst.pushUninitializedEntity env)
      let sIdx ← lift (subU32 env s.1.entityCount 1)
      let dIdx ← lift (subU32 env p.1.entityCount 1)
      let dst ← copyCommon s.1 sIdx p.1 dIdx
      let dst ← writeComponent dst c dIdx v
      let h ← lift (s.1.entityAt sIdx)
      let dst ← lift (dst.setEntityAt dIdx h)
      let src ← decrementLen env s.1
      let niia ← lift (unwrap (IndexInArchetype.new (UInt32.ofNat dIdx)))
      let ents ← lift (unwrap (ents.updateEntry env e
        (fun en => (en.setArchetypeIndex env dai).setIndexInArchetype niia)))
      return (⟨ents, (f.1.setArchetype si src).setArchetype di dst⟩, .ok ())

/-- `registry.rs:281-342` -/
def removeComponent (env : Env) (r : Registry) (e : Entity) (c : CompTy) : T (Registry × Registry.Res Val Unit) :=
  match r.entities.entityEntry env e with
  | none => lift (.ok (r, .err ()))
  | some entry => do
    let f ← lift (r.archetypes.findOrCreateRemoving env (entry.archetypeIndex env) c.descriptor)
    match f.2 with
    | none => return (⟨r.entities, f.1⟩, .err ())
    | some (si, dai, di) =>
      let src ← lift (index f.1.archetypes si)
      let dst ← lift (index f.1.archetypes di)
      let s ← swapToLast env src entry.indexInArchetype.value.toNat
      let ents ← lift (if s.2 then do
          let sw ← s.1.entityAt entry.indexInArchetype.value.toNat
          unwrap (r.entities.updateEntry env sw (fun en => en.setIndexInArchetype entry.indexInArchetype))
        else .ok r.entities)
      let p ← lift (dst.pushUninitializedEntity env)
      let sIdx ← lift (subU32 env s.1.entityCount 1)
      let dIdx ← lift (subU32 env p.1.entityCount 1)
      let dst ← copyCommon s.1 sIdx p.1 dIdx
      let v ← readComponent s.1 c sIdx
      let h ← lift (s.1.entityAt sIdx)
      let dst ← lift (dst.setEntityAt dIdx h)
      let src ← decrementLen env s.1
      let niia ← lift (unwrap (IndexInArchetype.new (UInt32.ofNat dIdx)))
      let ents ← lift (unwrap (ents.updateEntry env e
        (fun en => (en.setArchetypeIndex env dai).setIndexInArchetype niia)))
      return (⟨ents, (f.1.setArchetype si src).setArchetype di dst⟩, .ok v)

/-- `registry.rs:465-472`, `490-500`: the two functions with shared slices; `withHandles` for the second. -/
def exact (env : Env) (r : Registry) (g : Group) (withHandles : Bool) : T (List Entity × List (List Val)) := do
  let o ← lift (r.archetypes.findArchetype env (g.descriptor env).archetype)
  match o with
  | some i =>
    let a ← lift (index r.archetypes.archetypes i)
    let es ← lift (if withHandles then a.entities else .ok [])
    let s ← exactSlices env a g
    return (es, s)
  | none => return ([], g.map (fun _ => []))

/-- `registry.rs:476-486`, `504-523`: the two functions with mutable slices. -/
def exactMut (env : Env) (r : Registry) (g : Group) (withHandles : Bool) : T (Option (Nat × List Entity × List SliceRef)) := do
  let o ← lift (r.archetypes.findArchetype env (g.descriptor env).archetype)
  match o with
  | some i =>
    let a ← lift (index r.archetypes.archetypes i)
    let es ← lift (if withHandles then a.entities else .ok [])
    let s ← exactSlicesMut env a g
    return some (i, es, s)
  | none => return none

/-! ## All calls -/

/-- The kinds of iterators over archetypes that contain a group; with a filter for every kind. -/
inductive IterKind
  | slices
  | slicesMut
  | entitySlices
  | entitySlicesMut

/-- A call of a public function of `Registry`. -/
inductive ApiCall
  | createEntity (g : Group) (vals : List Val)
  | destroyEntity (e : Entity)
  | removeEntity (g : Group) (e : Entity)
  | hasComponent (c : CompTy) (e : Entity)
  | hasComponents (g : Group) (e : Entity)
  | getComponent (c : CompTy) (e : Entity)
  | getComponents (g : Group) (e : Entity)
  | getComponentMut (c : CompTy) (e : Entity)
  | getComponentsMut (g : Group) (e : Entity)
  | addComponent (e : Entity) (c : CompTy) (v : Val)
  | removeComponent (e : Entity) (c : CompTy)
  | iterEntities
  | iterMatching (k : IterKind) (g : Group) (filter : ArchetypeDescriptor → Bool)
  | exact (g : Group) (withHandles : Bool)
  | exactMut (g : Group) (withHandles : Bool)

/-- The calls of `unsafe fn`s a call makes. -/
def ApiCall.calls (env : Env) (r : Registry) : ApiCall → List UCall
  | .createEntity g vals => (UnsafeCalls.createEntity env r g vals).calls
  | .destroyEntity e => (UnsafeCalls.destroyEntity env r e).calls
  | .removeEntity g e => (UnsafeCalls.removeEntity env r g e).calls
  | .hasComponent c e => (UnsafeCalls.hasComponent env r c e).calls
  | .hasComponents g e => (UnsafeCalls.hasComponents env r g e).calls
  | .getComponent c e => (getComponentOf env r c e).calls
  | .getComponents g e => (getComponentsOf env r g e).calls
  | .getComponentMut c e => (getComponentMutOf env r c e).calls
  | .getComponentsMut g e => (getComponentsMutOf env r g e).calls
  | .addComponent e c v => (UnsafeCalls.addComponent env r e c v).calls
  | .removeComponent e c => (UnsafeCalls.removeComponent env r e c).calls
  | .iterEntities => (iterEntries env r.entities).calls
  | .iterMatching .slices g f => (iterate env r.archetypes g f (fun a => fuzzySlices env a g)).calls
  | .iterMatching .slicesMut g f => (iterate env r.archetypes g f (fun a => fuzzySlicesMut env a g)).calls
  | .iterMatching .entitySlices g f => (iterate env r.archetypes g f (fun a => entityFuzzySlices env a g)).calls
  | .iterMatching .entitySlicesMut g f => (iterate env r.archetypes g f (fun a => entityFuzzySlicesMut env a g)).calls
  | .exact g h => (UnsafeCalls.exact env r g h).calls
  | .exactMut g h => (UnsafeCalls.exactMut env r g h).calls

end Shard.UnsafeCalls
