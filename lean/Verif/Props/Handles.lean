import Verif.Proofs.Entity
/-!
# C01, C02: entity handles and entity entries
-/

namespace Shard

/-- **C01** Entity handle packing round-trips: construction from an index below `2^24` and any version is read back
exactly, raw round-trips, `set_version`/`set_index` change one field each, and a handle is its two fields. -/
theorem C01_handle_packing :
    (∀ (i : UInt32) (v : UInt8), i.toNat < 2 ^ 24 →
      (Entity.newUnchecked i v).index = i ∧ (Entity.newUnchecked i v).version = v) ∧
    (∀ e : Entity, Entity.fromRaw e.raw = e ∧ e.index.toNat < 2 ^ 24) ∧
    (∀ raw : UInt32, (Entity.fromRaw raw).raw = raw) ∧
    (∀ (e : Entity) (v : UInt8), (e.setVersion v).version = v ∧ (e.setVersion v).index = e.index) ∧
    (∀ (env : Env) (e : Entity) (i : UInt32), i.toNat < 2 ^ 24 →
      ∃ e', e.setIndexChecked env i = .ok e' ∧ e'.index = i ∧ e'.version = e.version) ∧
    (∀ a b : Entity, a = b ↔ a.index = b.index ∧ a.version = b.version) ∧
    (∀ e : Entity, e.isValid = false ↔ e.index.toNat = 2 ^ 24 - 1 ∧ e.version.toNat = 255) := by
  refine ⟨fun i v h => ⟨Entity.index_newUnchecked i v h, Entity.version_newUnchecked i v⟩,
    fun e => ⟨rfl, e.index_lt⟩, fun _ => rfl,
    fun e v => ⟨e.setVersion_version v, e.setVersion_index v⟩, ?_, fun _ _ => Entity.ext_iff, ?_⟩
  · intro env e i h
    refine ⟨e.setIndex i, ?_, e.setIndex_index i h, e.setIndex_version i⟩
    have : decide (i.toNat < 2 ^ ENTITY_HANDLE_BITS) = true := decide_eq_true h
    simp [Entity.setIndexChecked, debugAssert, this]
    rfl
  · intro e
    have h1 := e.index_toNat
    have h2 := e.version_toNat
    have hI : Entity.INVALID.handle.toNat = 4294967295 := by decide
    have hlt := e.handle.toNat_lt
    unfold Entity.isValid
    rw [bne_eq_false_iff_eq, ← UInt32.toNat_inj, hI]
    omega

/-- C01 is about non-trivial handles: index 4711, version 42 packs to `0x0012672A`. -/
example : (Entity.newUnchecked 4711 42).raw = 0x0012672A ∧ (Entity.newUnchecked 4711 42).index = 4711 ∧
    ((Entity.newUnchecked 4711 42).setVersion 43).raw = 0x0012672B := by decide

/-- **C02** Entity entry fields are independent, on both byte orders. -/
theorem C02_entry_fields (env : Env) (en : EntityEntry) :
    (∀ v : UInt8, (en.setVersion v).version = v ∧ (en.setVersion v).indexInArchetype = en.indexInArchetype ∧
      (en.setVersion v).archetypeIndex env = en.archetypeIndex env) ∧
    (∀ i : IndexInArchetype, i.value.toNat < 2 ^ 24 →
      (en.setIndexInArchetype i).indexInArchetype = i ∧ (en.setIndexInArchetype i).version = en.version ∧
      (en.setIndexInArchetype i).archetypeIndex env = en.archetypeIndex env) ∧
    (∀ a : UInt16, (en.setArchetypeIndex env a).archetypeIndex env = a ∧
      (en.setArchetypeIndex env a).version = en.version ∧
      (en.setArchetypeIndex env a).indexInArchetype = en.indexInArchetype) ∧
    (∀ n : UInt32, n.toNat < 2 ^ 24 →
      (en.invalidate env n).isValid env = false ∧ (en.invalidate env n).version = en.version ∧
      (en.invalidate env n).indexInArchetype.value = n) ∧
    (∀ a : UInt16, (en.setArchetypeIndex env a).isValid env = decide (a ≠ 65535)) ∧
    en.isValid env = decide (en.archetypeIndex env ≠ 65535) :=
  ⟨fun _ => ⟨rfl, rfl, rfl⟩,
   fun i h => ⟨en.indexInArchetype_set i h, rfl, rfl⟩,
   fun a => ⟨en.archetypeIndex_set env a, rfl, rfl⟩,
   fun n h => ⟨en.isValid_invalidate env n, rfl, en.indexInArchetype_invalidate env n h⟩,
   fun a => by
    unfold EntityEntry.isValid
    rw [en.archetypeIndex_set env a]
    show (!(a == 65535)) = _
    by_cases h : a = 65535 <;> simp [h],
   by
    show (!(en.archetypeIndex env == 65535)) = _
    by_cases h : en.archetypeIndex env = 65535 <;> simp [h]⟩

/-- C02 on a concrete entry, big-endian target. -/
example : let env : Env := ⟨true, true, false⟩
    let en := ((EntityEntry.default.setVersion 7).setIndexInArchetype ⟨0x123456⟩).setArchetypeIndex env 0xABCD
    en = ⟨7, 0x12, 0x34, 0x56, 0xAB, 0xCD⟩ ∧ en.archetypeIndex env = 0xABCD ∧ en.indexInArchetype = ⟨0x123456⟩ := by
  decide

end Shard
