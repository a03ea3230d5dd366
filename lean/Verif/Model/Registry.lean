import Verif.Model.Iterators
import Verif.Model.EntityRegistry
/-!
# `src/registry/registry.rs`
-/

namespace Shard

/-- `registry.rs:11-14`. -/
structure Registry where
  entities : EntityRegistry
  archetypes : ArchetypeRegistry
  deriving DecidableEq, Repr

namespace Registry

/-- `registry.rs:10` `#[derive(Default)]`. -/
def default : Registry := ⟨EntityRegistry.default, ArchetypeRegistry.default⟩

/-- `Result<T, E>`. -/
inductive Res (α ε : Type)
  | ok (a : α)
  | err (e : ε)
  deriving DecidableEq, Repr

/-- `registry.rs:21-39` `create_entity`. -/
def createEntity (env : Env) (r : Registry) (g : Group) (vals : List Val) :
    M (Registry × Res Entity (List Val)) :=
  if ¬ (g.descriptor env).isValid then .ok (r, .err vals)
  else do
    let f ← r.archetypes.findOrCreateArchetype env (g.descriptor env).archetype
    match f.2 with
    | none => return (⟨r.entities, f.1⟩, .err vals)
    | some ai =>
      let a ← index f.1.archetypes ai.toNat
      let iia ← unwrap (IndexInArchetype.new (UInt32.ofNat a.entityCount))
      let aix ← unwrap (ArchetypeIndex.new ai)
      let c ← r.entities.createEntity env iia aix
      match c.2 with
      | none => return (⟨c.1, f.1⟩, .err vals)
      | some e =>
        let p ← a.pushEntityUnchecked env e g vals
        return (⟨c.1, f.1.setArchetype ai.toNat p.1⟩, .ok e)

/-- `registry.rs:43-66` `destroy_entity`: new state, result, dropped values. -/
def destroyEntity (env : Env) (r : Registry) (e : Entity) : M (Registry × Bool × List Val) :=
  match r.entities.entityEntry env e with
  | none => .ok (r, false, [])
  | some entry => do
    let ai := entry.archetypeIndex env
    let a ← r.archetypes.getUnchecked ai
    let iia := entry.indexInArchetype
    let s ← a.swapDropUnchecked env iia.value.toNat
    let ents ← (if s.2.1 then do
        let sw ← s.1.entityAtUnchecked iia.value.toNat
        unwrap (r.entities.updateEntry env sw (fun en => en.setIndexInArchetype iia))
      else .ok r.entities)
    let d := ents.destroyEntity env e
    debugAssert env d.2
    return (⟨d.1, r.archetypes.setArchetype ai.toNat s.1⟩, true, s.2.2)

/-- `registry.rs:71-99` `remove_entity`. -/
def removeEntity (env : Env) (r : Registry) (g : Group) (e : Entity) : M (Registry × Option (List Val)) :=
  match r.entities.entityEntry env e with
  | none => .ok (r, none)
  | some entry => do
    let ai := entry.archetypeIndex env
    let a ← r.archetypes.getUnchecked ai
    let iia := entry.indexInArchetype
    let s ← a.swapRemoveUnchecked env g iia.value.toNat
    let ents ← (if s.2.2 then do
        let sw ← s.1.entityAt iia.value.toNat
        unwrap (r.entities.updateEntry env sw (fun en => en.setIndexInArchetype iia))
      else .ok r.entities)
    let d := ents.destroyEntity env e
    debugAssert env d.2
    return (⟨d.1, r.archetypes.setArchetype ai.toNat s.1⟩, some s.2.1)

/-- `registry.rs:103-110` `has_component`. -/
def hasComponent (env : Env) (r : Registry) (c : CompTy) (e : Entity) : M Bool :=
  match r.entities.entityEntry env e with
  | none => .ok false
  | some entry => do
    let a ← r.archetypes.getUnchecked (entry.archetypeIndex env)
    return a.descriptor.hasComponent c

/-- `registry.rs:115-124` `has_components`. -/
def hasComponents (env : Env) (r : Registry) (g : Group) (e : Entity) : M Bool :=
  match r.entities.entityEntry env e with
  | none => .ok false
  | some entry => do
    let a ← r.archetypes.getUnchecked (entry.archetypeIndex env)
    return a.descriptor.containsSubset (g.descriptor env).archetype

/-- `registry.rs:128-141` `get_component`: the value behind the returned reference. -/
def getComponent (env : Env) (r : Registry) (c : CompTy) (e : Entity) : M (Option Val) :=
  match r.entities.entityEntry env e with
  | none => .ok none
  | some entry => do
    let a ← r.archetypes.getUnchecked (entry.archetypeIndex env)
    if ¬ a.descriptor.hasComponent c then return none
    else
      let v ← a.getComponentUnchecked c entry.indexInArchetype.value.toNat
      return some v

/-- `registry.rs:146-165` `get_components`: the values behind the returned references, in tuple order. -/
def getComponents (env : Env) (r : Registry) (g : Group) (e : Entity) : M (Option (List Val)) :=
  match r.entities.entityEntry env e with
  | none => .ok none
  | some entry => do
    let a ← r.archetypes.getUnchecked (entry.archetypeIndex env)
    if ¬ a.descriptor.containsSubset (g.descriptor env).archetype then return none
    else
      let vs ← a.getFuzzyComponentsUnchecked env g entry.indexInArchetype.value.toNat
      return some vs

/-- `registry.rs:170-183` `get_component_mut`: the archetype and the pointer behind the returned reference. -/
def getComponentMut (env : Env) (r : Registry) (c : CompTy) (e : Entity) : M (Option (Nat × Ref)) :=
  match r.entities.entityEntry env e with
  | none => .ok none
  | some entry => do
    let a ← r.archetypes.getUnchecked (entry.archetypeIndex env)
    if ¬ a.descriptor.hasComponent c then return none
    else
      let p ← a.getComponentUncheckedMut c entry.indexInArchetype.value.toNat
      return some ((entry.archetypeIndex env).toNat, p)

/-- `registry.rs:187-206` `get_components_mut`: the archetype and the pointers behind the returned references. -/
def getComponentsMut (env : Env) (r : Registry) (g : Group) (e : Entity) :
    M (Option (Nat × List (CompTy × Option Ref))) :=
  match r.entities.entityEntry env e with
  | none => .ok none
  | some entry => do
    let a ← r.archetypes.getUnchecked (entry.archetypeIndex env)
    if ¬ a.descriptor.containsSubset (g.descriptor env).archetype then return none
    else
      let ps ← a.getFuzzyComponentsUncheckedMut env g entry.indexInArchetype.value.toNat
      return some ((entry.archetypeIndex env).toNat, ps)

/-- A store through a reference to a `c` in archetype `ai` (the user's `*reference = value`). -/
def storeRef (r : Registry) (ai : Nat) (c : CompTy) (p : Ref) (v : Val) : M Registry := do
  let a ← index r.archetypes.archetypes ai
  let a ← a.writeRef c p v
  return ⟨r.entities, r.archetypes.setArchetype ai a⟩

/-- The user's `core::mem::replace(registry.get_component_mut::<C>(e)?, v)`: new state and the old value. -/
def replaceComponent (env : Env) (r : Registry) (c : CompTy) (e : Entity) (v : Val) : M (Registry × Option Val) := do
  let p ← r.getComponentMut env c e
  match p with
  | none => return (r, none)
  | some (ai, p) =>
    let a ← index r.archetypes.archetypes ai
    let old ← a.readRef c p
    let r ← r.storeRef ai c p v
    return (r, some old)

/-- `registry.rs:213-274` `add_component`. -/
def addComponent (env : Env) (r : Registry) (e : Entity) (c : CompTy) (v : Val) : M (Registry × Res Unit Val) :=
  match r.entities.entityEntry env e with
  | none => .ok (r, .err v)
  | some entry => do
    let f ← r.archetypes.findOrCreateAdding env (entry.archetypeIndex env) c.descriptor
    match f.2 with
    | none => return (⟨r.entities, f.1⟩, .err v)
    | some (si, dai, di) =>
      let src ← index f.1.archetypes si
      let dst ← index f.1.archetypes di
      let iia := entry.indexInArchetype
      let s ← src.swapToLastUnchecked env iia.value.toNat
      let src := s.1
      let ents ← (if s.2 then do
          let sw ← src.entityAt iia.value.toNat
          unwrap (r.entities.updateEntry env sw (fun en => en.setIndexInArchetype iia))
        else .ok r.entities)
      let p ← dst.pushUninitializedEntity env
      let dst := p.1
      let sIdx ← subU32 env src.entityCount 1
      let dIdx ← subU32 env dst.entityCount 1
      let dst ← Archetype.copyCommonComponents src sIdx dst dIdx
      let dst ← dst.writeSingleComponentUnchecked c dIdx v
      let h ← src.entityAt sIdx
      let dst ← dst.setEntityAt dIdx h
      let src ← src.decrementLenUnchecked env
      let niia ← unwrap (IndexInArchetype.new (UInt32.ofNat dIdx))
      let ents ← unwrap (ents.updateEntry env e
        (fun en => (en.setArchetypeIndex env dai).setIndexInArchetype niia))
      return (⟨ents, (f.1.setArchetype si src).setArchetype di dst⟩, .ok ())

/-- `registry.rs:281-342` `remove_component`. -/
def removeComponent (env : Env) (r : Registry) (e : Entity) (c : CompTy) : M (Registry × Res Val Unit) :=
  match r.entities.entityEntry env e with
  | none => .ok (r, .err ())
  | some entry => do
    let f ← r.archetypes.findOrCreateRemoving env (entry.archetypeIndex env) c.descriptor
    match f.2 with
    | none => return (⟨r.entities, f.1⟩, .err ())
    | some (si, dai, di) =>
      let src ← index f.1.archetypes si
      let dst ← index f.1.archetypes di
      let iia := entry.indexInArchetype
      let s ← src.swapToLastUnchecked env iia.value.toNat
      let src := s.1
      let ents ← (if s.2 then do
          let sw ← src.entityAt iia.value.toNat
          unwrap (r.entities.updateEntry env sw (fun en => en.setIndexInArchetype iia))
        else .ok r.entities)
      let p ← dst.pushUninitializedEntity env
      let dst := p.1
      let sIdx ← subU32 env src.entityCount 1
      let dIdx ← subU32 env dst.entityCount 1
      let dst ← Archetype.copyCommonComponents src sIdx dst dIdx
      let v ← src.readComponentUnchecked c sIdx
      let h ← src.entityAt sIdx
      let dst ← dst.setEntityAt dIdx h
      let src ← src.decrementLenUnchecked env
      let niia ← unwrap (IndexInArchetype.new (UInt32.ofNat dIdx))
      let ents ← unwrap (ents.updateEntry env e
        (fun en => (en.setArchetypeIndex env dai).setIndexInArchetype niia))
      return (⟨ents, (f.1.setArchetype si src).setArchetype di dst⟩, .ok v)

/-- `registry.rs:347-349` `iter_entities`, run to its end. -/
def iterEntities (env : Env) (r : Registry) : List Entity := r.entities.iter env

/-- `registry.rs:353-357`. -/
def iterComponentsMatching (env : Env) (r : Registry) (g : Group) := r.archetypes.iterComponentsMatching env g
/-- `registry.rs:361-365`. -/
def iterComponentsMatchingMut (env : Env) (r : Registry) (g : Group) := r.archetypes.iterComponentsMatchingMut env g
/-- `registry.rs:369-378`. -/
def iterEntityComponentsMatching (env : Env) (r : Registry) (g : Group) :=
  r.archetypes.iterEntityComponentsMatching env g
/-- `registry.rs:382-391`. -/
def iterEntityComponentsMatchingMut (env : Env) (r : Registry) (g : Group) :=
  r.archetypes.iterEntityComponentsMatchingMut env g
/-- `registry.rs:396-406`. -/
def iterFilteredComponentsMatching (env : Env) (r : Registry) (g : Group) (f : ArchetypeDescriptor → Bool) :=
  r.archetypes.iterFilteredComponentsMatching env g f
/-- `registry.rs:411-421`. -/
def iterFilteredComponentsMatchingMut (env : Env) (r : Registry) (g : Group) (f : ArchetypeDescriptor → Bool) :=
  r.archetypes.iterFilteredComponentsMatchingMut env g f
/-- `registry.rs:426-441`. -/
def iterFilteredEntityComponentsMatching (env : Env) (r : Registry) (g : Group) (f : ArchetypeDescriptor → Bool) :=
  r.archetypes.iterFilteredEntityComponentsMatching env g f
/-- `registry.rs:446-461`. -/
def iterFilteredEntityComponentsMatchingMut (env : Env) (r : Registry) (g : Group)
    (f : ArchetypeDescriptor → Bool) :=
  r.archetypes.iterFilteredEntityComponentsMatchingMut env g f

/-- `registry.rs:465-472` `iter_components_exact`: the contents of the slices. -/
def iterComponentsExact (env : Env) (r : Registry) (g : Group) : M (List (List Val)) := do
  let o ← r.archetypes.findArchetype env (g.descriptor env).archetype
  match o with
  | some i =>
    let a ← index r.archetypes.archetypes i
    a.getSlicesUncheckedExact env g
  | none => return g.map (fun _ => [])

/-- `registry.rs:476-486` `iter_components_exact_mut`: `none` stands for the tuple of empty slices. -/
def iterComponentsExactMut (env : Env) (r : Registry) (g : Group) : M (Option (Nat × List SliceRef)) := do
  let o ← r.archetypes.findArchetype env (g.descriptor env).archetype
  match o with
  | some i =>
    let a ← index r.archetypes.archetypes i
    let s ← a.getSlicesUncheckedExactMut env g
    return some (i, s)
  | none => return none

/-- `registry.rs:490-500` `iter_entity_components_exact`. -/
def iterEntityComponentsExact (env : Env) (r : Registry) (g : Group) : M (List Entity × List (List Val)) := do
  let o ← r.archetypes.findArchetype env (g.descriptor env).archetype
  match o with
  | some i =>
    let a ← index r.archetypes.archetypes i
    let es ← a.entities
    let s ← a.getSlicesUncheckedExact env g
    return (es, s)
  | none => return ([], g.map (fun _ => []))

/-- `registry.rs:504-523` `iter_entity_components_exact_mut`. -/
def iterEntityComponentsExactMut (env : Env) (r : Registry) (g : Group) :
    M (Option (Nat × List Entity × List SliceRef)) := do
  let o ← r.archetypes.findArchetype env (g.descriptor env).archetype
  match o with
  | some i =>
    let a ← index r.archetypes.archetypes i
    let es ← a.entities
    let s ← a.getSlicesUncheckedExactMut env g
    return some (i, es, s)
  | none => return none

/-- Dropping a `Registry`: the component values dropped, and what is left of the archetypes. -/
def drop (r : Registry) : M (List Val × List Archetype) := r.archetypes.drop

end Registry

end Shard
