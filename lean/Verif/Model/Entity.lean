import Verif.Model.Fnv1a
/-!
# `src/entity_registry/{entity,index_in_archetype,archetype_index,entry}.rs`
-/

namespace Shard

/-! ## `entity.rs` -/

/-- `entity.rs:6-8` `Entity { handle: u32 }`. -/
structure Entity where
  handle : UInt32
  deriving DecidableEq, Repr

namespace Entity

/-- `entity.rs:43-47` `Entity::new_unchecked`. -/
def newUnchecked (index : UInt32) (version : UInt8) : Entity :=
  ⟨(index <<< 8) ||| version.toUInt32⟩

/-- `entity.rs:17-18` `Entity::INVALID`. -/
def INVALID : Entity := newUnchecked 16777215 255

/-- `entity.rs:10-14` `Default`. -/
def default : Entity := INVALID

/-- `entity.rs:25-27` `from_raw`. -/
def fromRaw (raw : UInt32) : Entity := ⟨raw⟩

/-- `entity.rs:30-32` `is_valid`. -/
def isValid (e : Entity) : Bool := e.handle != INVALID.handle

/-- `entity.rs:50-52` `index`. -/
def index (e : Entity) : UInt32 := e.handle >>> 8

/-- `entity.rs:70-72` `version`: `(0xFFFFFF & self.handle) as u8`. -/
def version (e : Entity) : UInt8 := (0xFFFFFF &&& e.handle).toUInt8

/-- `entity.rs:59-67` `set_index` (the `debug_assert!` on `index < 2^24` is the caller's obligation, see `setIndexChecked`). -/
def setIndex (e : Entity) (index : UInt32) : Entity :=
  let version : UInt8 := (0xFFFFFF &&& e.handle).toUInt8
  ⟨(index <<< 8) ||| version.toUInt32⟩

/-- `entity.rs:59-67` `set_index` with its debug assertion. -/
def setIndexChecked (env : Env) (e : Entity) (index : UInt32) : M Entity := do
  debugAssert env (decide (index.toNat < 2 ^ ENTITY_HANDLE_BITS))
  return e.setIndex index

/-- `entity.rs:75-77` `set_version`. -/
def setVersion (e : Entity) (version : UInt8) : Entity :=
  ⟨(e.index <<< 8) ||| version.toUInt32⟩

/-- `entity.rs:80-82` `raw`. -/
def raw (e : Entity) : UInt32 := e.handle

end Entity

/-! ## `index_in_archetype.rs` -/

/-- `index_in_archetype.rs:3-5`. -/
structure IndexInArchetype where
  value : UInt32
  deriving DecidableEq, Repr

namespace IndexInArchetype

/-- `index_in_archetype.rs:9` -/
def INVALID_VALUE : UInt32 := 16777215

/-- `index_in_archetype.rs:13-18` `new`. -/
def new (value : UInt32) : Option IndexInArchetype :=
  if INVALID_VALUE ≤ value then none else some ⟨value⟩

/-- `index_in_archetype.rs:21-23` `new_unchecked`. -/
def newUnchecked (value : UInt32) : IndexInArchetype := ⟨value⟩

/-- `index_in_archetype.rs:26-32` `from_bytes`. -/
def fromBytes (b0 b1 b2 : UInt8) : IndexInArchetype :=
  ⟨(0 : UInt32) + (b0.toUInt32 <<< 16) + (b1.toUInt32 <<< 8) + b2.toUInt32⟩

/-- `index_in_archetype.rs:36-42` `to_bytes`. -/
def toBytes (i : IndexInArchetype) : UInt8 × UInt8 × UInt8 :=
  (((i.value &&& 0x00FF0000) >>> 16).toUInt8,
   ((i.value &&& 0x0000FF00) >>> 8).toUInt8,
   (i.value &&& 0x000000FF).toUInt8)

end IndexInArchetype

/-! ## `archetype_index.rs` -/

/-- `archetype_index.rs:3-5`. -/
structure ArchetypeIndex where
  value : UInt16
  deriving DecidableEq, Repr

namespace ArchetypeIndex

/-- `archetype_index.rs:9`. -/
def INVALID_VALUE : UInt16 := 65535

/-- `archetype_index.rs:11-16` `new`. -/
def new (value : UInt16) : Option ArchetypeIndex :=
  if value = INVALID_VALUE then none else some ⟨value⟩

end ArchetypeIndex

/-! ## `entry.rs` -/

/-- `entry.rs:11-13` `EntityEntry { values: [u8; 6] }`, the six bytes named. -/
structure EntityEntry where
  v0 : UInt8
  v1 : UInt8
  v2 : UInt8
  v3 : UInt8
  v4 : UInt8
  v5 : UInt8
  deriving DecidableEq, Repr

namespace EntityEntry

/-- `entry.rs:15-28` `Default`. -/
def default : EntityEntry := ⟨0, 0, 0, 0, 0, 0⟩

/-- `entry.rs:31-33`. -/
def version (e : EntityEntry) : UInt8 := e.v0

/-- `entry.rs:34-36`. -/
def setVersion (e : EntityEntry) (v : UInt8) : EntityEntry := { e with v0 := v }

/-- `entry.rs:37-39`. -/
def indexInArchetype (e : EntityEntry) : IndexInArchetype := IndexInArchetype.fromBytes e.v1 e.v2 e.v3

/-- `entry.rs:40-44`. -/
def setIndexInArchetype (e : EntityEntry) (i : IndexInArchetype) : EntityEntry :=
  { e with v1 := i.toBytes.1, v2 := i.toBytes.2.1, v3 := i.toBytes.2.2 }

/-- `entry.rs:45-47`. -/
def archetypeIndex (env : Env) (e : EntityEntry) : UInt16 := u16FromNeBytes env (e.v4, e.v5)

/-- `entry.rs:48-52`. -/
def setArchetypeIndex (env : Env) (e : EntityEntry) (a : UInt16) : EntityEntry :=
  let bytes := u16ToNeBytes env a
  { e with v4 := bytes.1, v5 := bytes.2 }

/-- `entry.rs:54-56` `is_valid`. -/
def isValid (env : Env) (e : EntityEntry) : Bool := e.archetypeIndex env != INVALID_ARCHETYPE_INDEX

/-- `entry.rs:60-63` `invalidate`. -/
def invalidate (env : Env) (e : EntityEntry) (nextFreeSlot : UInt32) : EntityEntry :=
  (e.setIndexInArchetype (IndexInArchetype.newUnchecked nextFreeSlot)).setArchetypeIndex env INVALID_ARCHETYPE_INDEX

end EntityEntry

end Shard
