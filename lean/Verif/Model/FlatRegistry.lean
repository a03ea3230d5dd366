import Verif.Model.FlatArchetype
import Verif.Model.Registry
import Verif.Spec.Api
/-!
# `src/archetype_registry/` and `src/registry/registry.rs` on addresses

The functions of `ArchetypeRegistry.lean`, `Iterators.lean` and `Registry.lean` again, for archetypes with raw pointers.
Searches that only look at keys and descriptors are shared: they are run on `shell`, the registry without memory. The
`Vec`s of the two registries belong to the standard library and stay lists.
-/

set_option autoImplicit false

namespace Shard.Flat

open Registry (Res)

/-- `registry.rs:11-14` `Registry` with `archetype_registry/mod.rs:40-44` `ArchetypeRegistry` inside. -/
structure FReg where
  entities : EntityRegistry
  sortedMappings : List (List SortedArchetypeKey)
  archetypes : List FArch
  deriving DecidableEq, Repr

namespace FReg

/-- `registry.rs:10` `#[derive(Default)]`, `archetype_registry/mod.rs:46-68`. -/
def default : FReg := ⟨EntityRegistry.default, List.replicate MAX_COMPONENTS_PER_ENTITY [], []⟩

/-- The archetype registry without the memory of its archetypes. -/
def shell (r : FReg) : ArchetypeRegistry := ⟨r.sortedMappings, r.archetypes.map FArch.shell⟩

/-- Store the archetype a `&mut Archetype` at position `i` refers to. -/
def setArchetype (r : FReg) (i : Nat) (a : FArch) : FReg := { r with archetypes := r.archetypes.set i a }

/-- `mod.rs:164-201` `find_or_create_archetype`. -/
def findOrCreateArchetype (A : Allocator) (env : Env) (r : FReg) (d : ArchetypeDescriptor) : FM (FReg × Option UInt16) :=
  if d.len > MAX_COMPONENTS_PER_ENTITY ∨ ¬ d.isValid then pure (r, none)
  else do
    let s ← r.shell.searchLevel env d
    match s.2 with
    | .found i =>
      let k ← index s.1 i
      let _ ← index r.archetypes k.archetypeIndex.toNat
      return (r, some k.archetypeIndex)
    | .insertAt i =>
      if r.archetypes.length ≥ MAX_ARCHETYPE_COUNT then return (r, none)
      else
        let a ← FArch.withCapacity A env d DEFAULT_ARCHETYPE_ALLOCATION_SIZE
        let key : SortedArchetypeKey := ⟨d.archetypeId, UInt16.ofNat r.archetypes.length⟩
        let archetypes := r.archetypes ++ [a]
        ensure (decide (i ≤ s.1.length)) (.panic .indexOutOfBounds)
        let maps := r.sortedMappings.set (d.len - 1) (s.1.take i ++ key :: s.1.drop i)
        return (⟨r.entities, maps, archetypes⟩, some (UInt16.ofNat archetypes.length - 1))

/-- The part that `mod.rs:110-134` and `mod.rs:138-162` share: the archetype for the new descriptor and the two disjoint
references. -/
def findOrCreatePair (A : Allocator) (env : Env) (r : FReg) (src : UInt16) (nd : Option ArchetypeDescriptor) :
    FM (FReg × Option (Nat × UInt16 × Nat)) :=
  match nd with
  | none => pure (r, none)
  | some nd => do
    let f ← r.findOrCreateArchetype A env nd
    match f.2 with
    | none => return (f.1, none)
    | some dst =>
      match disjointMut f.1.archetypes src.toNat dst.toNat with
      | none => return (f.1, none)
      | some p => return (f.1, some (p.1, dst, p.2))

/-- `mod.rs:110-134` `find_or_create_archetype_adding_component`. -/
def findOrCreateAdding (A : Allocator) (env : Env) (r : FReg) (src : UInt16) (cd : ComponentDescriptor) :
    FM (FReg × Option (Nat × UInt16 × Nat)) :=
  if src.toNat > r.archetypes.length then pure (r, none)
  else do
    let a ← index r.archetypes src.toNat
    let nd ← a.descriptor.addComponent env cd
    r.findOrCreatePair A env src nd

/-- `mod.rs:138-162` `find_or_create_archetype_removing_component`. -/
def findOrCreateRemoving (A : Allocator) (env : Env) (r : FReg) (src : UInt16) (cd : ComponentDescriptor) :
    FM (FReg × Option (Nat × UInt16 × Nat)) :=
  if src.toNat > r.archetypes.length then pure (r, none)
  else do
    let a ← index r.archetypes src.toNat
    let nd ← a.descriptor.removeComponent env cd.id
    r.findOrCreatePair A env src nd

/-- `mod.rs:206-215` `get_unchecked`, `get_unchecked_mut`. -/
def getUnchecked (r : FReg) (i : UInt16) : M FArch := indexUnchecked r.archetypes i.toNat

/-- `registry.rs:21-39` `create_entity`. -/
def createEntity (A : Allocator) (env : Env) (r : FReg) (g : Group) (vals : List Val) : FM (FReg × Res Entity (List Val)) :=
  if ¬ (g.descriptor env).isValid then pure (r, .err vals)
  else do
    let f ← r.findOrCreateArchetype A env (g.descriptor env).archetype
    match f.2 with
    | none => return (f.1, .err vals)
    | some ai =>
      let a ← index f.1.archetypes ai.toNat
      let iia ← unwrap (IndexInArchetype.new (UInt32.ofNat a.entityCount))
      let aix ← unwrap (ArchetypeIndex.new ai)
      let c ← r.entities.createEntity env iia aix
      match c.2 with
      | none => return ({ f.1 with entities := c.1 }, .err vals)
      | some e =>
        let p ← a.pushEntityUnchecked A env e g vals
        return ({ f.1.setArchetype ai.toNat p.1 with entities := c.1 }, .ok e)

/-- `registry.rs:43-66` `destroy_entity`. -/
def destroyEntity (env : Env) (r : FReg) (e : Entity) : FM (FReg × Bool × List Val) :=
  match r.entities.entityEntry env e with
  | none => pure (r, false, [])
  | some entry => do
    let ai := entry.archetypeIndex env
    let a ← r.getUnchecked ai
    let iia := entry.indexInArchetype
    let s ← a.swapDropUnchecked env iia.value.toNat
    let ents ← (if s.2.1 then do
        let sw ← s.1.entityAtUnchecked iia.value.toNat
        (unwrap (r.entities.updateEntry env sw (fun en => en.setIndexInArchetype iia)) : M EntityRegistry)
      else pure r.entities : FM EntityRegistry)
    let d := ents.destroyEntity env e
    debugAssert env d.2
    return ({ r.setArchetype ai.toNat s.1 with entities := d.1 }, true, s.2.2)

/-- `registry.rs:71-99` `remove_entity`. -/
def removeEntity (env : Env) (r : FReg) (g : Group) (e : Entity) : FM (FReg × Option (List Val)) :=
  match r.entities.entityEntry env e with
  | none => pure (r, none)
  | some entry => do
    let ai := entry.archetypeIndex env
    let a ← r.getUnchecked ai
    let iia := entry.indexInArchetype
    let s ← a.swapRemoveUnchecked env g iia.value.toNat
    let ents ← (if s.2.2 then do
        let sw ← s.1.entityAt iia.value.toNat
        (unwrap (r.entities.updateEntry env sw (fun en => en.setIndexInArchetype iia)) : M EntityRegistry)
      else pure r.entities : FM EntityRegistry)
    let d := ents.destroyEntity env e
    debugAssert env d.2
    return ({ r.setArchetype ai.toNat s.1 with entities := d.1 }, some s.2.1)

/-- `registry.rs:103-110` `has_component`. -/
def hasComponent (env : Env) (r : FReg) (c : CompTy) (e : Entity) : M Bool :=
  match r.entities.entityEntry env e with
  | none => .ok false
  | some entry => do
    let a ← r.getUnchecked (entry.archetypeIndex env)
    return a.descriptor.hasComponent c

/-- `registry.rs:115-124` `has_components`. -/
def hasComponents (env : Env) (r : FReg) (g : Group) (e : Entity) : M Bool :=
  match r.entities.entityEntry env e with
  | none => .ok false
  | some entry => do
    let a ← r.getUnchecked (entry.archetypeIndex env)
    return a.descriptor.containsSubset (g.descriptor env).archetype

/-- `registry.rs:128-141` `get_component`. -/
def getComponent (env : Env) (r : FReg) (c : CompTy) (e : Entity) : FM (Option Val) :=
  match r.entities.entityEntry env e with
  | none => pure none
  | some entry => do
    let a ← r.getUnchecked (entry.archetypeIndex env)
    if ¬ a.descriptor.hasComponent c then return none
    else
      let v ← a.getComponentUnchecked c entry.indexInArchetype.value.toNat
      return some v

/-- `registry.rs:146-165` `get_components`. -/
def getComponents (env : Env) (r : FReg) (g : Group) (e : Entity) : FM (Option (List Val)) :=
  match r.entities.entityEntry env e with
  | none => pure none
  | some entry => do
    let a ← r.getUnchecked (entry.archetypeIndex env)
    if ¬ a.descriptor.containsSubset (g.descriptor env).archetype then return none
    else
      let vs ← a.getFuzzyComponentsUnchecked env g entry.indexInArchetype.value.toNat
      return some vs

/-- `registry.rs:170-183` `get_component_mut`: the address of the returned reference. -/
def getComponentMut (env : Env) (r : FReg) (c : CompTy) (e : Entity) : FM (Option Ptr) :=
  match r.entities.entityEntry env e with
  | none => pure none
  | some entry => do
    let a ← r.getUnchecked (entry.archetypeIndex env)
    if ¬ a.descriptor.hasComponent c then return none
    else
      let p ← a.getComponentUncheckedMut c entry.indexInArchetype.value.toNat
      return some p

/-- `registry.rs:187-206` `get_components_mut`: the addresses of the returned references. -/
def getComponentsMut (env : Env) (r : FReg) (g : Group) (e : Entity) : FM (Option (List (CompTy × Ptr))) :=
  match r.entities.entityEntry env e with
  | none => pure none
  | some entry => do
    let a ← r.getUnchecked (entry.archetypeIndex env)
    if ¬ a.descriptor.containsSubset (g.descriptor env).archetype then return none
    else
      let ps ← a.getFuzzyComponentsUncheckedMut env g entry.indexInArchetype.value.toNat
      return some ps

/-- The user's `core::mem::replace(reference, v)`. -/
def replaceAt (c : CompTy) (p : Ptr) (v : Val) : FM Val := do
  let old ← readVal p c.ty c.size c.align
  writeVal p c.align v
  return old

/-- `registry.rs:213-274` `add_component`. -/
def addComponent (A : Allocator) (env : Env) (r : FReg) (e : Entity) (c : CompTy) (v : Val) : FM (FReg × Res Unit Val) :=
  match r.entities.entityEntry env e with
  | none => pure (r, .err v)
  | some entry => do
    let f ← r.findOrCreateAdding A env (entry.archetypeIndex env) c.descriptor
    match f.2 with
    | none => return (f.1, .err v)
    | some (si, dai, di) =>
      let src ← index f.1.archetypes si
      let dst ← index f.1.archetypes di
      let iia := entry.indexInArchetype
      let s ← src.swapToLastUnchecked env iia.value.toNat
      let ents ← (if s then do
          let sw ← src.entityAt iia.value.toNat
          (unwrap (r.entities.updateEntry env sw (fun en => en.setIndexInArchetype iia)) : M EntityRegistry)
        else pure r.entities : FM EntityRegistry)
      let p ← dst.pushUninitializedEntity A env
      let dst := p.1
      let sIdx ← subU32 env src.entityCount 1
      let dIdx ← subU32 env dst.entityCount 1
      FArch.copyCommonComponents src sIdx dst dIdx
      dst.writeSingleComponentUnchecked c dIdx v
      let h ← src.entityAt sIdx
      dst.setEntityAt dIdx h
      let src ← src.decrementLenUnchecked env
      let niia ← unwrap (IndexInArchetype.new (UInt32.ofNat dIdx))
      let ents ← unwrap (ents.updateEntry env e
        (fun en => (en.setArchetypeIndex env dai).setIndexInArchetype niia))
      return ({ (f.1.setArchetype si src).setArchetype di dst with entities := ents }, .ok ())

/-- `registry.rs:281-342` `remove_component`. -/
def removeComponent (A : Allocator) (env : Env) (r : FReg) (e : Entity) (c : CompTy) : FM (FReg × Res Val Unit) :=
  match r.entities.entityEntry env e with
  | none => pure (r, .err ())
  | some entry => do
    let f ← r.findOrCreateRemoving A env (entry.archetypeIndex env) c.descriptor
    match f.2 with
    | none => return (f.1, .err ())
    | some (si, dai, di) =>
      let src ← index f.1.archetypes si
      let dst ← index f.1.archetypes di
      let iia := entry.indexInArchetype
      let s ← src.swapToLastUnchecked env iia.value.toNat
      let ents ← (if s then do
          let sw ← src.entityAt iia.value.toNat
          (unwrap (r.entities.updateEntry env sw (fun en => en.setIndexInArchetype iia)) : M EntityRegistry)
        else pure r.entities : FM EntityRegistry)
      let p ← dst.pushUninitializedEntity A env
      let dst := p.1
      let sIdx ← subU32 env src.entityCount 1
      let dIdx ← subU32 env dst.entityCount 1
      FArch.copyCommonComponents src sIdx dst dIdx
      let v ← src.readComponentUnchecked c sIdx
      let h ← src.entityAt sIdx
      dst.setEntityAt dIdx h
      let src ← src.decrementLenUnchecked env
      let niia ← unwrap (IndexInArchetype.new (UInt32.ofNat dIdx))
      let ents ← unwrap (ents.updateEntry env e
        (fun en => (en.setArchetypeIndex env dai).setIndexInArchetype niia))
      return ({ (f.1.setArchetype si src).setArchetype di dst with entities := ents }, .ok v)

/-- `Iterators.lean` `ArchIter.collect`: an iterator is run to its end, at most `n` items. -/
def collect {α : Type} (env : Env) (g : Group) (filter : ArchetypeDescriptor → Bool) (r : FReg) (f : FArch → FM α) :
    (n : Nat) → ArchIter → FM (List (Nat × α))
  | 0, _ => pure []
  | n + 1, it => do
    let s ← ArchIter.next env g filter r.shell it
    match s.1 with
    | none => return []
    | some i =>
      let a ← indexUnchecked r.archetypes i
      let x ← f a
      let rest ← collect env g filter r f n s.2
      return (i, x) :: rest

/-- Run an iterator from its creation to its end. -/
def iterate {α : Type} (env : Env) (r : FReg) (g : Group) (filter : ArchetypeDescriptor → Bool) (f : FArch → FM α) :
    FM (List (Nat × α)) := do
  let it ← ArchIter.new env g
  collect env g filter r f (r.archetypes.length + 1) it

/-- `registry.rs:353-357`, `396-406`: `iter_components_matching` (constant filter) and its filtered version. -/
def iterComponents (env : Env) (r : FReg) (g : Group) (filter : ArchetypeDescriptor → Bool) :
    FM (List (Nat × List (List Val))) :=
  r.iterate env g filter (fun a => a.getFuzzySlicesUnchecked env g)

/-- `registry.rs:361-365`, `411-421`. -/
def iterComponentsMut (env : Env) (r : FReg) (g : Group) (filter : ArchetypeDescriptor → Bool) :
    FM (List (Nat × List FSlice)) :=
  r.iterate env g filter (fun a => a.getFuzzySlicesUncheckedMut env g)

/-- `registry.rs:369-378`, `426-441`. -/
def iterEntityComponents (env : Env) (r : FReg) (g : Group) (filter : ArchetypeDescriptor → Bool) :
    FM (List (Nat × List Entity × List (List Val))) :=
  r.iterate env g filter (fun a => a.getEntityFuzzySlicesUnchecked env g)

/-- `registry.rs:382-391`, `446-461`. -/
def iterEntityComponentsMut (env : Env) (r : FReg) (g : Group) (filter : ArchetypeDescriptor → Bool) :
    FM (List (Nat × List Entity × List FSlice)) :=
  r.iterate env g filter (fun a => a.getEntityFuzzySlicesUncheckedMut env g)

/-- `registry.rs:465-472` `iter_components_exact`. -/
def iterComponentsExact (env : Env) (r : FReg) (g : Group) : FM (List (List Val)) := do
  let o ← r.shell.findArchetype env (g.descriptor env).archetype
  match o with
  | some i =>
    let a ← index r.archetypes i
    a.getSlicesUncheckedExact env g
  | none => return g.map (fun _ => [])

/-- `registry.rs:476-486` `iter_components_exact_mut`. -/
def iterComponentsExactMut (env : Env) (r : FReg) (g : Group) : FM (Option (Nat × List FSlice)) := do
  let o ← r.shell.findArchetype env (g.descriptor env).archetype
  match o with
  | some i =>
    let a ← index r.archetypes i
    let s ← a.getSlicesUncheckedExactMut env g
    return some (i, s)
  | none => return none

/-- `registry.rs:490-500` `iter_entity_components_exact`. -/
def iterEntityComponentsExact (env : Env) (r : FReg) (g : Group) : FM (List Entity × List (List Val)) := do
  let o ← r.shell.findArchetype env (g.descriptor env).archetype
  match o with
  | some i =>
    let a ← index r.archetypes i
    let es ← a.entities
    let s ← a.getSlicesUncheckedExact env g
    return (es, s)
  | none => return ([], g.map (fun _ => []))

/-- `registry.rs:504-523` `iter_entity_components_exact_mut`. -/
def iterEntityComponentsExactMut (env : Env) (r : FReg) (g : Group) : FM (Option (Nat × List Entity × List FSlice)) := do
  let o ← r.shell.findArchetype env (g.descriptor env).archetype
  match o with
  | some i =>
    let a ← index r.archetypes i
    let es ← a.entities
    let s ← a.getSlicesUncheckedExactMut env g
    return some (i, es, s)
  | none => return none

/-- Dropping the registry drops the archetypes in order: the dropped values. -/
def drop (r : FReg) : FM (List Val) :=
  loop 0 r.archetypes.length (fun i acc => do
    let a ← index r.archetypes i
    let x ← a.drop
    return acc ++ x) []

/-- The items of a mutable iterator, run to its end. -/
def items (env : Env) (r : FReg) (g : Group) : MutIter → FM (List (Nat × List FSlice))
  | .matching => r.iterComponentsMut env g (fun _ => true)
  | .entityMatching => do
    let l ← r.iterEntityComponentsMut env g (fun _ => true)
    return l.map (fun x => (x.1, x.2.2))
  | .filtered f => r.iterComponentsMut env g f
  | .entityFiltered f => do
    let l ← r.iterEntityComponentsMut env g f
    return l.map (fun x => (x.1, x.2.2))
  | .exact => do
    let o ← r.iterComponentsExactMut env g
    return o.toList
  | .entityExact => do
    let o ← r.iterEntityComponentsExactMut env g
    return o.toList.map (fun x => (x.1, x.2.2))

/-- Run a call (`Spec/Api.lean` `Call.run`) on addresses. -/
def call (A : Allocator) (env : Env) (r : FReg) : Call → FM (FReg × Outcome)
  | .create g vals => do
    let x ← r.createEntity A env g vals
    match x.2 with
    | .ok e => return (x.1, { success := true, created := some e, given := vals })
    | .err vs => return (x.1, { success := false, given := vals, returned := vs })
  | .destroy e => do
    let x ← r.destroyEntity env e
    return (x.1, { success := x.2.1, vacated := if x.2.1 then some e else none, dropped := x.2.2 })
  | .removeEntity g e => do
    let x ← r.removeEntity env g e
    match x.2 with
    | some vs => return (x.1, { success := true, vacated := some e, returned := vs })
    | none => return (x.1, { success := false })
  | .add e c v => do
    let x ← r.addComponent A env e c v
    match x.2 with
    | .ok _ => return (x.1, { success := true, given := [v] })
    | .err w => return (x.1, { success := false, given := [v], returned := [w] })
  | .remove e c => do
    let x ← r.removeComponent A env e c
    match x.2 with
    | .ok w => return (x.1, { success := true, returned := [w] })
    | .err _ => return (x.1, { success := false })
  | .write e c v => do
    let o ← r.getComponentMut env c e
    match o with
    | some p =>
      let old ← replaceAt c p v
      return (r, { success := true, given := [v], returned := [old] })
    | none => return (r, { success := false, given := [v], returned := [v] })
  | .writeIn g e j v => do
    let o ← r.getComponentsMut env g e
    match o with
    | none => return (r, { success := false, given := [v], returned := [v] })
    | some ps =>
      match ps[j]? with
      | some (c, p) =>
        let old ← replaceAt c p v
        return (r, { success := true, given := [v], returned := [old] })
      | none => return (r, { success := false, given := [v], returned := [v] })
  | .writeIter it g n j k v => do
    let items ← r.items env g it
    match items[n]? with
    | none => return (r, { success := false, given := [v], returned := [v] })
    | some (_, ss) =>
      match ss[j]? with
      | none => return (r, { success := false, given := [v], returned := [v] })
      | some s =>
        if k < s.len then
          let old ← replaceAt s.cty (s.base.plus (s.cty.size * k)) v
          return (r, { success := true, given := [v], returned := [old] })
        else return (r, { success := false, given := [v], returned := [v] })

/-- Run a program: the outcomes of its calls, and the registry afterwards. -/
def calls (A : Allocator) (env : Env) (r : FReg) : List Call → FM (FReg × List Outcome)
  | [] => pure (r, [])
  | c :: cs => do
    let x ← r.call A env c
    let y ← x.1.calls A env cs
    return (y.1, x.2 :: y.2)

end FReg

end Shard.Flat
