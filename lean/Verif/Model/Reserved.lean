import Verif.Model.Registry
/-!
# Reserved values and the conversions of the identifier types

The parts of `constants.rs`, `component_type_id.rs`, `archetype_id.rs` and `index_in_archetype.rs` that no other function
of the crate uses.
-/

set_option autoImplicit false

namespace Shard.Reserved

/-- `constants.rs:11` `INVALID_ENTITY_HANDLE_VALUE`. Used nowhere else in the crate. -/
def INVALID_ENTITY_HANDLE_VALUE : UInt32 := 16777216

/-- `component_type_id.rs:22` `ComponentTypeId::INVALID`. -/
def COMPONENT_TYPE_ID_INVALID : UInt16 := 65535

/-- `component_type_id.rs:24-26` `ComponentTypeId::is_valid`. -/
def componentTypeIdIsValid (v : UInt16) : Bool := v != COMPONENT_TYPE_ID_INVALID

/-- `archetype_id.rs:19-21` `ArchetypeId::is_valid`. -/
def archetypeIdIsValid (v : UInt32) : Bool := v != ARCHETYPE_ID_INVALID

/-- `component_type_id.rs:15-19` `impl From<ComponentTypeId> for ArchetypeId`. -/
def archetypeIdOfComponentTypeId (v : UInt16) : UInt32 := v.toUInt32

/-- `index_in_archetype.rs:50-54` `impl Default for IndexInArchetype`. -/
def indexInArchetypeDefault : IndexInArchetype := ⟨0⟩

/-- The value that `EntityRegistry::destroy_entity` (`entity_registry/mod.rs:70`) passes to `EntityEntry::invalidate`, which
passes it to `IndexInArchetype::new_unchecked` (`entry.rs:61`): the field `next_free_slot`. Nothing if the handle is refused
(`mod.rs:63-69`). -/
def newUncheckedArgument (env : Env) (r : EntityRegistry) (e : Entity) : Option UInt32 :=
  match r.entityEntry env e with
  | none => none
  | some _ => some r.nextFreeSlot

end Shard.Reserved
