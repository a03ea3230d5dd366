import Verif.Model.Entity
/-!
# `src/entity_registry/{mod,iterator}.rs`
-/

namespace Shard

/-- `entity_registry/mod.rs:15-18` `EntityRegistry`. The `Vec` is a list. -/
structure EntityRegistry where
  entities : List EntityEntry
  nextFreeSlot : UInt32
  deriving DecidableEq, Repr

namespace EntityRegistry

/-- `mod.rs:20-27` `Default`. -/
def default : EntityRegistry := ⟨[], IndexInArchetype.INVALID_VALUE⟩

/-- `mod.rs:30`. -/
def MAX_ENTITY_COUNT : Nat := MAX_ENTITY_HANDLE_VALUE

/-- `mod.rs:32-34` `can_register_new_entity`. -/
def canRegisterNewEntity (r : EntityRegistry) : Bool := decide (r.entities.length < MAX_ENTITY_COUNT)

/-- `mod.rs:36-60` `create_entity`. `None` is `(r, none)`. The indexing `self.entities[slot]` is checked. -/
def createEntity (env : Env) (r : EntityRegistry) (iia : IndexInArchetype) (ai : ArchetypeIndex) :
    M (EntityRegistry × Option Entity) :=
  if r.entities.length ≥ MAX_ENTITY_COUNT then
    .ok (r, none)
  else if r.nextFreeSlot = IndexInArchetype.INVALID_VALUE then
    -- the linked list of free slots is empty: push a default entry and fill it in
    let idx := r.entities.length
    let entity := Entity.newUnchecked (UInt32.ofNat idx) 0
    let entry := (EntityEntry.default.setArchetypeIndex env ai.value).setIndexInArchetype iia
    .ok (⟨r.entities ++ [entry], r.nextFreeSlot⟩, some entity)
  else
    let slot := r.nextFreeSlot
    match r.entities[slot.toNat]? with
    | none => .error (.panic .indexOutOfBounds)
    | some entry =>
      let next := entry.indexInArchetype.value
      let entity := Entity.newUnchecked slot entry.version
      let entry' := (entry.setArchetypeIndex env ai.value).setIndexInArchetype iia
      .ok (⟨r.entities.set slot.toNat entry', next⟩, some entity)

/-- `mod.rs:76-85` `entity_entry` (and `mod.rs:87-96` `entity_entry_mut`, which performs the same checks). -/
def entityEntry (env : Env) (r : EntityRegistry) (e : Entity) : Option EntityEntry :=
  if e.index.toNat ≥ r.entities.length ∨ e = Entity.INVALID then none
  else
    match r.entities[e.index.toNat]? with
    | none => none
    | some entry =>
      if entry.version ≠ e.version ∨ ¬ entry.isValid env then none else some entry

/-- `mod.rs:87-96` `entity_entry_mut` followed by an update `f` of the entry: `None` if the checks fail. -/
def updateEntry (env : Env) (r : EntityRegistry) (e : Entity) (f : EntityEntry → EntityEntry) :
    Option EntityRegistry :=
  match r.entityEntry env e with
  | none => none
  | some entry => some { r with entities := r.entities.set e.index.toNat (f entry) }

/-- `mod.rs:62-74` `destroy_entity`. -/
def destroyEntity (env : Env) (r : EntityRegistry) (e : Entity) : EntityRegistry × Bool :=
  if e.index.toNat ≥ r.entities.length ∨ e = Entity.INVALID then (r, false)
  else
    match r.entities[e.index.toNat]? with
    | none => (r, false)
    | some entry =>
      if entry.version ≠ e.version ∨ ¬ entry.isValid env then (r, false)
      else
        let entry' := entry.invalidate env r.nextFreeSlot
        let entry'' := entry'.setVersion (entry'.version + 1)   -- `wrapping_add(1)`
        (⟨r.entities.set e.index.toNat entry'', e.index⟩, true)

end EntityRegistry

/-! ## `iterator.rs` -/

/-- `iterator.rs:5-8` `EntityIter`: the slice is fixed during the iteration, the state is `current`. -/
def entityIterNext (env : Env) (entities : List EntityEntry) : (fuel current : Nat) → Option Entity × Nat
  -- `iterator.rs:22-36` `next`: `while self.current < self.entities.len()`, fuel = remaining length
  | 0, current => (none, current)
  | fuel + 1, current =>
    match entities[current]? with
    | none => (none, current)
    | some entry =>
      if entry.isValid env then
        (some (Entity.newUnchecked (UInt32.ofNat current) entry.version), current + 1)
      else entityIterNext env entities fuel (current + 1)

/-- The state of an `EntityIter` (`iterator.rs:5-8`). -/
structure EntityIter where
  entities : List EntityEntry
  current : Nat

namespace EntityIter

/-- `iterator.rs:11-16` `new`. -/
def new (entities : List EntityEntry) : EntityIter := ⟨entities, 0⟩

/-- `iterator.rs:22-36` `next`. -/
def next (env : Env) (it : EntityIter) : Option Entity × EntityIter :=
  let r := entityIterNext env it.entities (it.entities.length - it.current) it.current
  (r.1, { it with current := r.2 })

/-- `for e in iter { .. }`: call `next` until it returns `None` (at most `n` times). -/
def collect (env : Env) : (n : Nat) → EntityIter → List Entity
  | 0, _ => []
  | n + 1, it =>
    match it.next env with
    | (none, _) => []
    | (some e, it') => e :: collect env n it'

end EntityIter

/-- `mod.rs:98-100` `iter`, run to its end. Each `next` call advances `current`, so `len + 1` calls suffice. -/
def EntityRegistry.iter (env : Env) (r : EntityRegistry) : List Entity :=
  (EntityIter.new r.entities).collect env (r.entities.length + 1)

end Shard
