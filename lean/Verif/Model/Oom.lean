import Verif.Model.Registry
/-!
# `create_entity`, `add_component` and `remove_component` when the allocator fails

`Memory.lean` lets every allocation succeed. Here a predicate `fail` tells which of the allocations made by one call
return a null pointer: number 0 is the array of entity handles, number `i + 1` the `i`-th column. (One call
either allocates a new archetype or grows an existing one, never both.) After every allocation the code asserts that
the pointer is not null, so a failure is a panic that unwinds to the caller; the functions below return the state in
which the caller finds the registry. The growth of the `Vec`s of the registries is not covered: when it fails the
process is aborted.
-/

namespace Shard

/-- `for i in lo..lo+n`, where step `i` performs allocation number `i + 1`: `good` is the step with a successful
allocation, `bad` the step up to the assertion that ends the loop (the flag is then set). -/
def forFail {σ : Type} (fail : Nat → Bool) (good bad : Nat → σ → M σ) : (n i : Nat) → σ → M (σ × Bool)
  | 0, _, s => .ok (s, false)
  | n + 1, i, s =>
    if fail (i + 1) then
      match bad i s with
      | .ok s' => .ok (s', true)
      | .error e => .error e
    else
      match good i s with
      | .ok s' => forFail fail good bad n (i + 1) s'
      | .error e => .error e

namespace Archetype

/-- `archetype/mod.rs:40-71` `with_capacity`; `none`: an allocation failed. The archetype under construction is dropped
during unwinding with `capacity` still 0, so its `Drop` does nothing (`mod.rs:80-83`) and what was allocated is leaked. -/
def withCapacityOom (fail : Nat → Bool) (env : Env) (d : ArchetypeDescriptor) (capacity : Nat) : M (Option Archetype) := do
  ensure d.isValid (.panic .assertFailed)
  let a : Archetype := ⟨d, List.replicate MAX_COMPONENTS_PER_ENTITY none, none, 0, 0⟩
  if capacity > 0 ∧ capacity ≤ MAX_ENTITIES_PER_ARCHETYPE then
    if fail 0 then return none
    else
      let p ← forFail fail
        (fun i ptrs => do
          let c ← index d.components i
          let b ← allocBlock env (c.size * capacity) c.align
          setIndex ptrs i (some b))
        (fun i ptrs => do
          let c ← index d.components i
          let _ ← allocBlock env (c.size * capacity) c.align
          setIndex ptrs i none)
        d.components.length 0 a.pointers
      if p.2 then return none
      else return some { a with
        entityAssociations := some (List.replicate capacity none), pointers := p.1, capacity := capacity }
  else
    return some a

/-- `data_access.rs:420-456` `resize_capacity`, and whether an allocation failed. `realloc` leaves the old block
allocated when it fails, but the pointer to it is overwritten with null. -/
def resizeCapacityOom (fail : Nat → Bool) (env : Env) (a : Archetype) (change : Int) : M (Archetype × Bool) := do
  let new : Int := (a.capacity : Int) + change
  if new ≤ 0 ∨ new ≥ (MAX_ENTITIES_PER_ARCHETYPE : Int) then
    let a ← a.dealloc
    return (a, false)
  else
    let newCapacity := new.toNat
    match a.entityAssociations with
    | none => .error (.ub .badRealloc)
    | some l =>
      if l.length ≠ a.capacity then .error (.ub .layoutMismatch)
      else if fail 0 then return ({ a with entityAssociations := none }, true)
      else
        let ea := l.take newCapacity ++ List.replicate (newCapacity - a.capacity) none
        let p ← forFail fail
          (fun i ptrs => do
            let p ← index ptrs i
            let c ← index a.descriptor.components i
            let b ← reallocBlock env p (c.size * a.capacity) c.align (c.size * newCapacity)
            setIndex ptrs i (some b))
          (fun i ptrs => do
            let p ← index ptrs i
            let c ← index a.descriptor.components i
            let _ ← reallocBlock env p (c.size * a.capacity) c.align (c.size * newCapacity)
            setIndex ptrs i none)
          a.descriptor.len 0 a.pointers
        if p.2 then return ({ a with pointers := p.1, entityAssociations := some ea }, true)
        else return ({ a with pointers := p.1, entityAssociations := some ea, capacity := newCapacity }, false)

/-- `data_access.rs:503-512` `resize_if_necessary`. -/
def resizeIfNecessaryOom (fail : Nat → Bool) (env : Env) (a : Archetype) : M (Archetype × Bool) :=
  if a.isFull then
    let additional := if a.capacity = 0 then DEFAULT_ARCHETYPE_ALLOCATION_SIZE else a.capacity
    a.resizeCapacityOom fail env (additional : Int)
  else .ok (a, false)

/-- `data_access.rs:209-224` `push_entity_unchecked`; `none`: an allocation failed. -/
def pushEntityOom (fail : Nat → Bool) (env : Env) (a : Archetype) (e : Entity) (g : Group) (vals : List Val) :
    M (Archetype × Option Nat) := do
  debugAssert env (g.descriptor env).isValid
  debugAssert env ((g.descriptor env).archetype.archetypeId == a.descriptor.archetypeId)
  let p ← a.resizeIfNecessaryOom fail env
  if p.2 then return (p.1, none)
  else
    let a := p.1
    let idx := a.entityCount
    let a := { a with entityCount := a.entityCount + 1 }
    let a ← a.writeEntityUnchecked env idx e g vals
    return (a, some idx)

end Archetype

/-- `archetype_registry/mod.rs:164-201` `find_or_create_archetype`; `none`: an allocation failed, before anything was
changed. -/
def ArchetypeRegistry.findOrCreateOom (fail : Nat → Bool) (env : Env) (r : ArchetypeRegistry) (d : ArchetypeDescriptor) :
    M (Option (ArchetypeRegistry × Option UInt16)) :=
  if d.len > MAX_COMPONENTS_PER_ENTITY ∨ ¬ d.isValid then .ok (some (r, none))
  else do
    let s ← r.searchLevel env d
    match s.2 with
    | .found i =>
      let k ← index s.1 i
      let _ ← index r.archetypes k.archetypeIndex.toNat
      return some (r, some k.archetypeIndex)
    | .insertAt i =>
      if r.archetypes.length ≥ MAX_ARCHETYPE_COUNT then return some (r, none)
      else
        let a ← Archetype.withCapacityOom fail env d DEFAULT_ARCHETYPE_ALLOCATION_SIZE
        match a with
        | none => return none
        | some a =>
          let key : SortedArchetypeKey := ⟨d.archetypeId, UInt16.ofNat r.archetypes.length⟩
          let archetypes := r.archetypes ++ [a]
          ensure (decide (i ≤ s.1.length)) (.panic .indexOutOfBounds)
          let maps := r.sortedMappings.set (d.len - 1) (s.1.take i ++ key :: s.1.drop i)
          return some (⟨maps, archetypes⟩, some (UInt16.ofNat archetypes.length - 1))

/-- `registry.rs:21-39` `create_entity`; result `none`: an allocation failed. The components, moved into the call, are
then dropped during unwinding. The entity was entered into the entity registry before `push_entity_unchecked`. -/
def Registry.createEntityOom (fail : Nat → Bool) (env : Env) (r : Registry) (g : Group) (vals : List Val) :
    M (Registry × Option (Registry.Res Entity (List Val))) :=
  if ¬ (g.descriptor env).isValid then .ok (r, some (.err vals))
  else do
    let f ← r.archetypes.findOrCreateOom fail env (g.descriptor env).archetype
    match f with
    | none => return (r, none)
    | some f =>
      match f.2 with
      | none => return (⟨r.entities, f.1⟩, some (.err vals))
      | some ai =>
        let a ← index f.1.archetypes ai.toNat
        let iia ← unwrap (IndexInArchetype.new (UInt32.ofNat a.entityCount))
        let aix ← unwrap (ArchetypeIndex.new ai)
        let c ← r.entities.createEntity env iia aix
        match c.2 with
        | none => return (⟨c.1, f.1⟩, some (.err vals))
        | some e =>
          let p ← a.pushEntityOom fail env e g vals
          match p.2 with
          | none => return (⟨c.1, f.1.setArchetype ai.toNat p.1⟩, none)
          | some _ => return (⟨c.1, f.1.setArchetype ai.toNat p.1⟩, some (.ok e))

/-! ## `add_component` and `remove_component`

They can also panic at the component limit, before anything is changed; that panic is caught here too. -/

/-- `data_access.rs:229-234` `push_uninitialized_entity`; `none`: an allocation failed. -/
def Archetype.pushUninitializedOom (fail : Nat → Bool) (env : Env) (a : Archetype) : M (Archetype × Option Nat) := do
  let p ← a.resizeIfNecessaryOom fail env
  if p.2 then return (p.1, none)
  else return ({ p.1 with entityCount := p.1.entityCount + 1 }, some p.1.entityCount)

/-- The archetype registry's part of `add_component` and `remove_component` once the new descriptor is computed
(`archetype_registry/mod.rs:124-133` and `152-161`); `none`: the call panicked, before anything was changed. -/
def ArchetypeRegistry.findOrCreateWithOom (fail : Nat → Bool) (env : Env) (r : ArchetypeRegistry) (src : UInt16)
    (nd : M (Option ArchetypeDescriptor)) : M (Option (ArchetypeRegistry × Option (Nat × UInt16 × Nat))) :=
  match nd with
  | .error (.panic _) => .ok none
  | .error (.ub u) => .error (.ub u)
  | .ok none => .ok (some (r, none))
  | .ok (some nd) => do
    let f ← r.findOrCreateOom fail env nd
    match f with
    | none => return none
    | some f =>
      match f.2 with
      | none => return some (f.1, none)
      | some dst =>
        match disjointMut f.1.archetypes src.toNat dst.toNat with
        | none => return some (f.1, none)
        | some p => return some (f.1, some (p.1, dst, p.2))

/-- `archetype_registry/mod.rs:110-134` `find_or_create_archetype_adding_component`. -/
def ArchetypeRegistry.findOrCreateAddingOom (fail : Nat → Bool) (env : Env) (r : ArchetypeRegistry) (src : UInt16)
    (cd : ComponentDescriptor) : M (Option (ArchetypeRegistry × Option (Nat × UInt16 × Nat))) :=
  if src.toNat > r.archetypes.length then .ok (some (r, none))
  else do
    let a ← index r.archetypes src.toNat
    r.findOrCreateWithOom fail env src (a.descriptor.addComponent env cd)

/-- `archetype_registry/mod.rs:138-162` `find_or_create_archetype_removing_component`. -/
def ArchetypeRegistry.findOrCreateRemovingOom (fail : Nat → Bool) (env : Env) (r : ArchetypeRegistry) (src : UInt16)
    (cd : ComponentDescriptor) : M (Option (ArchetypeRegistry × Option (Nat × UInt16 × Nat))) :=
  if src.toNat > r.archetypes.length then .ok (some (r, none))
  else do
    let a ← index r.archetypes src.toNat
    r.findOrCreateWithOom fail env src (a.descriptor.removeComponent env cd.id)

namespace Registry

/-- `registry.rs:213-274` `add_component`; result `none`: the call panicked. The component, moved into the call, is then
dropped during unwinding. The entity was moved to the end of its archetype, and the entry of the entity it changed places
with was updated, before `push_uninitialized_entity`; its own entry was not. -/
def addComponentOom (fail : Nat → Bool) (env : Env) (r : Registry) (e : Entity) (c : CompTy) (v : Val) :
    M (Registry × Option (Res Unit Val)) :=
  match r.entities.entityEntry env e with
  | none => .ok (r, some (.err v))
  | some entry => do
    let f ← r.archetypes.findOrCreateAddingOom fail env (entry.archetypeIndex env) c.descriptor
    match f with
    | none => return (r, none)
    | some f =>
    match f.2 with
    | none => return (⟨r.entities, f.1⟩, some (.err v))
    | some (si, dai, di) =>
      let src ← index f.1.archetypes si
      let dst ← index f.1.archetypes di
      let iia := entry.indexInArchetype
      let s ← src.swapToLastUnchecked env iia.value.toNat
      let src := s.1
      let ents ← (if s.2 then do
          let sw ← src.entityAt iia.value.toNat
          unwrap (r.entities.updateEntry env sw (fun en => en.setIndexInArchetype iia))
        else .ok r.entities)
      let p ← dst.pushUninitializedOom fail env
      let dst := p.1
      match p.2 with
      | none => return (⟨ents, (f.1.setArchetype si src).setArchetype di dst⟩, none)
      | some _ =>
      let sIdx ← subU32 env src.entityCount 1
      let dIdx ← subU32 env dst.entityCount 1
      let dst ← Archetype.copyCommonComponents src sIdx dst dIdx
      let dst ← dst.writeSingleComponentUnchecked c dIdx v
      let h ← src.entityAt sIdx
      let dst ← dst.setEntityAt dIdx h
      let src ← src.decrementLenUnchecked env
      let niia ← unwrap (IndexInArchetype.new (UInt32.ofNat dIdx))
      let ents ← unwrap (ents.updateEntry env e
        (fun en => (en.setArchetypeIndex env dai).setIndexInArchetype niia))
      return (⟨ents, (f.1.setArchetype si src).setArchetype di dst⟩, some (.ok ()))

/-- `registry.rs:281-342` `remove_component`; result `none`: the call panicked. -/
def removeComponentOom (fail : Nat → Bool) (env : Env) (r : Registry) (e : Entity) (c : CompTy) :
    M (Registry × Option (Res Val Unit)) :=
  match r.entities.entityEntry env e with
  | none => .ok (r, some (.err ()))
  | some entry => do
    let f ← r.archetypes.findOrCreateRemovingOom fail env (entry.archetypeIndex env) c.descriptor
    match f with
    | none => return (r, none)
    | some f =>
    match f.2 with
    | none => return (⟨r.entities, f.1⟩, some (.err ()))
    | some (si, dai, di) =>
      let src ← index f.1.archetypes si
      let dst ← index f.1.archetypes di
      let iia := entry.indexInArchetype
      let s ← src.swapToLastUnchecked env iia.value.toNat
      let src := s.1
      let ents ← (if s.2 then do
          let sw ← src.entityAt iia.value.toNat
          unwrap (r.entities.updateEntry env sw (fun en => en.setIndexInArchetype iia))
        else .ok r.entities)
      let p ← dst.pushUninitializedOom fail env
      let dst := p.1
      match p.2 with
      | none => return (⟨ents, (f.1.setArchetype si src).setArchetype di dst⟩, none)
      | some _ =>
      let sIdx ← subU32 env src.entityCount 1
      let dIdx ← subU32 env dst.entityCount 1
      let dst ← Archetype.copyCommonComponents src sIdx dst dIdx
      let v ← src.readComponentUnchecked c sIdx
      let h ← src.entityAt sIdx
      let dst ← dst.setEntityAt dIdx h
      let src ← src.decrementLenUnchecked env
      let niia ← unwrap (IndexInArchetype.new (UInt32.ofNat dIdx))
      let ents ← unwrap (ents.updateEntry env e
        (fun en => (en.setArchetypeIndex env dai).setIndexInArchetype niia))
      return (⟨ents, (f.1.setArchetype si src).setArchetype di dst⟩, some (.ok v))

end Registry

end Shard
