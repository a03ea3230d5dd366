import Verif.Model.Width
import Verif.Model.Registry
/-!
# The registry on targets with narrow pointers

The functions of the registry that reach `with_capacity` or `resize_capacity`, with the arithmetic of `Width.lean`. The other
computations with sizes are offsets into columns and the layouts passed to `dealloc`; none of them exceeds the size of a column.
-/

set_option autoImplicit false

namespace Shard

namespace Archetype

/-- `data_access.rs:209-224` `push_entity_unchecked`. -/
def pushEntityUncheckedW (w : Nat) (env : Env) (a : Archetype) (e : Entity) (g : Group) (vals : List Val) :
    M (Archetype × Nat) := do
  debugAssert env (g.descriptor env).isValid
  debugAssert env ((g.descriptor env).archetype.archetypeId == a.descriptor.archetypeId)
  let a ← a.resizeIfNecessaryW w env
  let idx := a.entityCount
  let a := { a with entityCount := a.entityCount + 1 }
  let a ← a.writeEntityUnchecked env idx e g vals
  return (a, idx)

/-- `data_access.rs:229-234` `push_uninitialized_entity`. -/
def pushUninitializedEntityW (w : Nat) (env : Env) (a : Archetype) : M (Archetype × Nat) := do
  let a ← a.resizeIfNecessaryW w env
  return ({ a with entityCount := a.entityCount + 1 }, a.entityCount)

end Archetype

namespace ArchetypeRegistry

/-- `archetype_registry/mod.rs:164-201` `find_or_create_archetype`: the returned index (the reference is to the archetype at it). -/
def findOrCreateArchetypeW (w : Nat) (env : Env) (r : ArchetypeRegistry) (d : ArchetypeDescriptor) :
    M (ArchetypeRegistry × Option UInt16) :=
  if d.len > MAX_COMPONENTS_PER_ENTITY ∨ ¬ d.isValid then .ok (r, none)
  else do
    let s ← r.searchLevel env d
    match s.2 with
    | .found i =>
      let k ← index s.1 i
      let _ ← index r.archetypes k.archetypeIndex.toNat
      return (r, some k.archetypeIndex)
    | .insertAt i =>
      if r.archetypes.length ≥ MAX_ARCHETYPE_COUNT then return (r, none)
      else
        let a ← Archetype.withCapacityW w env d DEFAULT_ARCHETYPE_ALLOCATION_SIZE
        let key : SortedArchetypeKey := ⟨d.archetypeId, UInt16.ofNat r.archetypes.length⟩
        let archetypes := r.archetypes ++ [a]
        -- `Vec::insert` panics for an index beyond the length
        ensure (decide (i ≤ s.1.length)) (.panic .indexOutOfBounds)
        let maps := r.sortedMappings.set (d.len - 1) (s.1.take i ++ key :: s.1.drop i)
        return (⟨maps, archetypes⟩, some (UInt16.ofNat archetypes.length - 1))

/-- `archetype_registry/mod.rs:110-134` `find_or_create_archetype_adding_component`: positions of source and destination. -/
def findOrCreateAddingW (w : Nat) (env : Env) (r : ArchetypeRegistry) (src : UInt16) (cd : ComponentDescriptor) :
    M (ArchetypeRegistry × Option (Nat × UInt16 × Nat)) :=
  if src.toNat > r.archetypes.length then .ok (r, none)
  else do
    let a ← index r.archetypes src.toNat
    let nd ← a.descriptor.addComponent env cd
    match nd with
    | none => return (r, none)
    | some nd =>
      let f ← r.findOrCreateArchetypeW w env nd
      match f.2 with
      | none => return (f.1, none)
      | some dst =>
        match disjointMut f.1.archetypes src.toNat dst.toNat with
        | none => return (f.1, none)
        | some p => return (f.1, some (p.1, dst, p.2))

/-- `archetype_registry/mod.rs:138-162` `find_or_create_archetype_removing_component`. -/
def findOrCreateRemovingW (w : Nat) (env : Env) (r : ArchetypeRegistry) (src : UInt16) (cd : ComponentDescriptor) :
    M (ArchetypeRegistry × Option (Nat × UInt16 × Nat)) :=
  if src.toNat > r.archetypes.length then .ok (r, none)
  else do
    let a ← index r.archetypes src.toNat
    let nd ← a.descriptor.removeComponent env cd.id
    match nd with
    | none => return (r, none)
    | some nd =>
      let f ← r.findOrCreateArchetypeW w env nd
      match f.2 with
      | none => return (f.1, none)
      | some dst =>
        match disjointMut f.1.archetypes src.toNat dst.toNat with
        | none => return (f.1, none)
        | some p => return (f.1, some (p.1, dst, p.2))

end ArchetypeRegistry

namespace Registry

/-- `registry.rs:21-39` `create_entity`. -/
def createEntityW (w : Nat) (env : Env) (r : Registry) (g : Group) (vals : List Val) :
    M (Registry × Res Entity (List Val)) :=
  if ¬ (g.descriptor env).isValid then .ok (r, .err vals)
  else do
    let f ← r.archetypes.findOrCreateArchetypeW w env (g.descriptor env).archetype
    match f.2 with
    | none => return (⟨r.entities, f.1⟩, .err vals)
    | some ai =>
      let a ← index f.1.archetypes ai.toNat
      let iia ← unwrap (IndexInArchetype.new (UInt32.ofNat a.entityCount))
      let aix ← unwrap (ArchetypeIndex.new ai)
      let c ← r.entities.createEntity env iia aix
      match c.2 with
      | none => return (⟨c.1, f.1⟩, .err vals)
      | some e =>
        let p ← a.pushEntityUncheckedW w env e g vals
        return (⟨c.1, f.1.setArchetype ai.toNat p.1⟩, .ok e)

/-- `registry.rs:213-274` `add_component`. -/
def addComponentW (w : Nat) (env : Env) (r : Registry) (e : Entity) (c : CompTy) (v : Val) : M (Registry × Res Unit Val) :=
  match r.entities.entityEntry env e with
  | none => .ok (r, .err v)
  | some entry => do
    let f ← r.archetypes.findOrCreateAddingW w env (entry.archetypeIndex env) c.descriptor
    match f.2 with
    | none => return (⟨r.entities, f.1⟩, .err v)
    | some (si, dai, di) =>
      let src ← index f.1.archetypes si
      let dst ← index f.1.archetypes di
      let iia := entry.indexInArchetype
      let s ← src.swapToLastUnchecked env iia.value.toNat
      let src := s.1
      let ents ← (if s.2 then do
          let sw ← src.entityAt iia.value.toNat
          unwrap (r.entities.updateEntry env sw (fun en => en.setIndexInArchetype iia))
        else .ok r.entities)
      let p ← dst.pushUninitializedEntityW w env
      let dst := p.1
      let sIdx ← subU32 env src.entityCount 1
      let dIdx ← subU32 env dst.entityCount 1
      let dst ← Archetype.copyCommonComponents src sIdx dst dIdx
      let dst ← dst.writeSingleComponentUnchecked c dIdx v
      let h ← src.entityAt sIdx
      let dst ← dst.setEntityAt dIdx h
      let src ← src.decrementLenUnchecked env
      let niia ← unwrap (IndexInArchetype.new (UInt32.ofNat dIdx))
      let ents ← unwrap (ents.updateEntry env e
        (fun en => (en.setArchetypeIndex env dai).setIndexInArchetype niia))
      return (⟨ents, (f.1.setArchetype si src).setArchetype di dst⟩, .ok ())

/-- `registry.rs:281-342` `remove_component`. -/
def removeComponentW (w : Nat) (env : Env) (r : Registry) (e : Entity) (c : CompTy) : M (Registry × Res Val Unit) :=
  match r.entities.entityEntry env e with
  | none => .ok (r, .err ())
  | some entry => do
    let f ← r.archetypes.findOrCreateRemovingW w env (entry.archetypeIndex env) c.descriptor
    match f.2 with
    | none => return (⟨r.entities, f.1⟩, .err ())
    | some (si, dai, di) =>
      let src ← index f.1.archetypes si
      let dst ← index f.1.archetypes di
      let iia := entry.indexInArchetype
      let s ← src.swapToLastUnchecked env iia.value.toNat
      let src := s.1
      let ents ← (if s.2 then do
          let sw ← src.entityAt iia.value.toNat
          unwrap (r.entities.updateEntry env sw (fun en => en.setIndexInArchetype iia))
        else .ok r.entities)
      let p ← dst.pushUninitializedEntityW w env
      let dst := p.1
      let sIdx ← subU32 env src.entityCount 1
      let dIdx ← subU32 env dst.entityCount 1
      let dst ← Archetype.copyCommonComponents src sIdx dst dIdx
      let v ← src.readComponentUnchecked c sIdx
      let h ← src.entityAt sIdx
      let dst ← dst.setEntityAt dIdx h
      let src ← src.decrementLenUnchecked env
      let niia ← unwrap (IndexInArchetype.new (UInt32.ofNat dIdx))
      let ents ← unwrap (ents.updateEntry env e
        (fun en => (en.setArchetypeIndex env dai).setIndexInArchetype niia))
      return (⟨ents, (f.1.setArchetype si src).setArchetype di dst⟩, .ok v)

end Registry

end Shard
