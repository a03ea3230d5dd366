import Verif.Model.Entity
/-!
# Bit-level lemmas for handles and entries
-/

namespace Shard

theorem UInt8.toNat_lt256 (v : UInt8) : v.toNat < 256 := by
  have := v.toNat_lt; omega

theorem u32_pack_toNat (i : UInt32) (v : UInt8) :
    ((i <<< 8) ||| v.toUInt32).toNat = (i.toNat * 256) % 2 ^ 32 + v.toNat := by
  have hv := UInt8.toNat_lt256 v
  rw [UInt32.toNat_or, UInt32.toNat_shiftLeft, UInt8.toNat_toUInt32]
  have h8 : (8 : UInt32).toNat % 32 = 8 := rfl
  rw [h8, Nat.shiftLeft_eq]
  have e : i.toNat * 2 ^ 8 % 2 ^ 32 = (i.toNat % 2 ^ 24) <<< 8 := by
    rw [Nat.shiftLeft_eq]; omega
  rw [e, ← Nat.shiftLeft_add_eq_or_of_lt (by omega)]

namespace Entity

theorem newUnchecked_toNat (i : UInt32) (v : UInt8) (h : i.toNat < 2 ^ 24) :
    (newUnchecked i v).handle.toNat = i.toNat * 256 + v.toNat := by
  unfold newUnchecked
  rw [u32_pack_toNat]
  omega

theorem index_toNat (e : Entity) : e.index.toNat = e.handle.toNat / 256 := by
  unfold index
  rw [UInt32.toNat_shiftRight]
  have h8 : (8 : UInt32).toNat % 32 = 8 := rfl
  rw [h8, Nat.shiftRight_eq_div_pow]

theorem version_toNat (e : Entity) : e.version.toNat = e.handle.toNat % 256 := by
  unfold version
  rw [UInt32.toNat_toUInt8, UInt32.toNat_and]
  have hb : (0xFFFFFF : UInt32).toNat = 2 ^ 24 - 1 := rfl
  rw [hb, Nat.and_comm, Nat.and_two_pow_sub_one_eq_mod]
  omega

theorem index_lt (e : Entity) : e.index.toNat < 2 ^ 24 := by
  rw [index_toNat]; have := e.handle.toNat_lt; omega

theorem index_newUnchecked (i : UInt32) (v : UInt8) (h : i.toNat < 2 ^ 24) : (newUnchecked i v).index = i := by
  apply UInt32.toNat_inj.mp
  rw [index_toNat, newUnchecked_toNat i v h]
  have := UInt8.toNat_lt256 v; omega

theorem version_newUnchecked (i : UInt32) (v : UInt8) : (newUnchecked i v).version = v := by
  apply UInt8.toNat_inj.mp
  rw [version_toNat]
  unfold newUnchecked
  rw [u32_pack_toNat]
  have := UInt8.toNat_lt256 v; omega

theorem newUnchecked_index_version (e : Entity) : newUnchecked e.index e.version = e := by
  cases e with
  | mk h =>
    unfold newUnchecked
    congr 1
    apply UInt32.toNat_inj.mp
    rw [u32_pack_toNat, index_toNat, version_toNat]
    have := h.toNat_lt
    simp only
    omega

theorem ext_iff {a b : Entity} : a = b ↔ a.index = b.index ∧ a.version = b.version := by
  constructor
  · rintro rfl; exact ⟨rfl, rfl⟩
  · rintro ⟨h1, h2⟩
    rw [← newUnchecked_index_version a, ← newUnchecked_index_version b, h1, h2]

theorem newUnchecked_inj {i j : UInt32} {v w : UInt8} (hi : i.toNat < 2 ^ 24) (hj : j.toNat < 2 ^ 24) :
    newUnchecked i v = newUnchecked j w ↔ i = j ∧ v = w := by
  rw [ext_iff, index_newUnchecked _ _ hi, index_newUnchecked _ _ hj, version_newUnchecked, version_newUnchecked]

theorem INVALID_index : INVALID.index.toNat = 16777215 := by decide

theorem setVersion_index (e : Entity) (v : UInt8) : (e.setVersion v).index = e.index := by
  show (newUnchecked e.index v).index = e.index
  exact index_newUnchecked _ _ e.index_lt

theorem setVersion_version (e : Entity) (v : UInt8) : (e.setVersion v).version = v := by
  show (newUnchecked e.index v).version = v
  exact version_newUnchecked _ _

theorem setIndex_index (e : Entity) (i : UInt32) (h : i.toNat < 2 ^ 24) : (e.setIndex i).index = i := by
  show (newUnchecked i e.version).index = i
  exact index_newUnchecked _ _ h

theorem setIndex_version (e : Entity) (i : UInt32) : (e.setIndex i).version = e.version := by
  show (newUnchecked i e.version).version = e.version
  exact version_newUnchecked _ _

end Entity

/-! ## Entries -/

theorem IndexInArchetype.fromBytes_toNat (b0 b1 b2 : UInt8) :
    (IndexInArchetype.fromBytes b0 b1 b2).value.toNat = b0.toNat * 65536 + b1.toNat * 256 + b2.toNat := by
  have h0 := UInt8.toNat_lt256 b0
  have h1 := UInt8.toNat_lt256 b1
  have h2 := UInt8.toNat_lt256 b2
  unfold IndexInArchetype.fromBytes
  simp only [UInt32.toNat_add, UInt32.toNat_shiftLeft, UInt8.toNat_toUInt32]
  have h8 : (8 : UInt32).toNat % 32 = 8 := rfl
  have h16 : (16 : UInt32).toNat % 32 = 16 := rfl
  have hz : (0 : UInt32).toNat = 0 := rfl
  rw [h8, h16, hz, Nat.shiftLeft_eq, Nat.shiftLeft_eq]
  omega

theorem IndexInArchetype.toBytes_toNat (i : IndexInArchetype) :
    i.toBytes.1.toNat = i.value.toNat / 65536 % 256 ∧ i.toBytes.2.1.toNat = i.value.toNat / 256 % 256 ∧
    i.toBytes.2.2.toNat = i.value.toNat % 256 := by
  have h8 : (8 : UInt32).toNat % 32 = 8 := rfl
  have h16 : (16 : UInt32).toNat % 32 = 16 := rfl
  have m0 : (0x00FF0000 : UInt32).toNat = (2 ^ 8 - 1) <<< 16 := rfl
  have m1 : (0x0000FF00 : UInt32).toNat = (2 ^ 8 - 1) <<< 8 := rfl
  have m2 : (0x000000FF : UInt32).toNat = 2 ^ 8 - 1 := rfl
  unfold IndexInArchetype.toBytes
  simp only [UInt32.toNat_toUInt8, UInt32.toNat_shiftRight, UInt32.toNat_and]
  rw [h8, h16, m0, m1, m2]
  refine ⟨?_, ?_, ?_⟩
  · rw [Nat.shiftRight_and_distrib, Nat.shiftLeft_shiftRight, Nat.and_two_pow_sub_one_eq_mod,
      Nat.shiftRight_eq_div_pow]; omega
  · rw [Nat.shiftRight_and_distrib, Nat.shiftLeft_shiftRight, Nat.and_two_pow_sub_one_eq_mod,
      Nat.shiftRight_eq_div_pow]; omega
  · rw [Nat.and_two_pow_sub_one_eq_mod]; omega

theorem u16FromNe_toNe (env : Env) (v : UInt16) : u16FromNeBytes env (u16ToNeBytes env v) = v := by
  have key : (((v >>> 8).toUInt8.toUInt16 <<< 8) ||| v.toUInt8.toUInt16) = v := by
    apply UInt16.toNat_inj.mp
    have h8 : (8 : UInt16).toNat % 16 = 8 := rfl
    simp only [UInt16.toNat_or, UInt16.toNat_shiftLeft, UInt16.toNat_shiftRight, UInt8.toNat_toUInt16,
      UInt16.toNat_toUInt8]
    rw [h8, Nat.shiftRight_eq_div_pow]
    have hv := v.toNat_lt
    have e : (v.toNat / 2 ^ 8 % 2 ^ 8) <<< 8 % 2 ^ 16 = (v.toNat / 2 ^ 8) <<< 8 := by
      rw [Nat.shiftLeft_eq, Nat.shiftLeft_eq]; omega
    rw [e, ← Nat.shiftLeft_add_eq_or_of_lt (by omega), Nat.shiftLeft_eq]
    omega
  unfold u16FromNeBytes u16ToNeBytes
  split <;> exact key

namespace EntityEntry

theorem indexInArchetype_toNat_lt (e : EntityEntry) : e.indexInArchetype.value.toNat < 2 ^ 24 := by
  unfold indexInArchetype
  rw [IndexInArchetype.fromBytes_toNat]
  have h0 := UInt8.toNat_lt256 e.v1
  have h1 := UInt8.toNat_lt256 e.v2
  have h2 := UInt8.toNat_lt256 e.v3
  omega

theorem indexInArchetype_set (e : EntityEntry) (i : IndexInArchetype) (h : i.value.toNat < 2 ^ 24) :
    (e.setIndexInArchetype i).indexInArchetype = i := by
  obtain ⟨a, b, c⟩ := i.toBytes_toNat
  cases i with
  | mk v =>
    have : (IndexInArchetype.fromBytes (IndexInArchetype.toBytes ⟨v⟩).1 (IndexInArchetype.toBytes ⟨v⟩).2.1
        (IndexInArchetype.toBytes ⟨v⟩).2.2).value = v := by
      apply UInt32.toNat_inj.mp
      rw [IndexInArchetype.fromBytes_toNat, a, b, c]
      simp only at h ⊢
      omega
    show IndexInArchetype.fromBytes _ _ _ = _
    generalize hx : IndexInArchetype.fromBytes _ _ _ = x at this ⊢
    cases x
    simp only [setIndexInArchetype] at *
    simp_all

theorem version_setIndexInArchetype (e : EntityEntry) (i : IndexInArchetype) :
    (e.setIndexInArchetype i).version = e.version := rfl
theorem archetypeIndex_setIndexInArchetype (env : Env) (e : EntityEntry) (i : IndexInArchetype) :
    (e.setIndexInArchetype i).archetypeIndex env = e.archetypeIndex env := rfl
theorem archetypeIndex_set (env : Env) (e : EntityEntry) (a : UInt16) :
    (e.setArchetypeIndex env a).archetypeIndex env = a := by
  show u16FromNeBytes env ((u16ToNeBytes env a).1, (u16ToNeBytes env a).2) = a
  exact u16FromNe_toNe env a
theorem version_setArchetypeIndex (env : Env) (e : EntityEntry) (a : UInt16) :
    (e.setArchetypeIndex env a).version = e.version := rfl
theorem indexInArchetype_setArchetypeIndex (env : Env) (e : EntityEntry) (a : UInt16) :
    (e.setArchetypeIndex env a).indexInArchetype = e.indexInArchetype := rfl
theorem version_setVersion (e : EntityEntry) (v : UInt8) : (e.setVersion v).version = v := rfl
theorem archetypeIndex_setVersion (env : Env) (e : EntityEntry) (v : UInt8) :
    (e.setVersion v).archetypeIndex env = e.archetypeIndex env := rfl
theorem indexInArchetype_setVersion (e : EntityEntry) (v : UInt8) :
    (e.setVersion v).indexInArchetype = e.indexInArchetype := rfl

theorem isValid_iff (env : Env) (e : EntityEntry) : e.isValid env = true ↔ e.archetypeIndex env ≠ 65535 := by
  simp [isValid, INVALID_ARCHETYPE_INDEX]

theorem isValid_set (env : Env) (e : EntityEntry) (a : UInt16) :
    (e.setArchetypeIndex env a).isValid env = true ↔ a ≠ 65535 := by
  rw [isValid_iff, archetypeIndex_set]

theorem isValid_setIndexInArchetype (env : Env) (e : EntityEntry) (i : IndexInArchetype) :
    (e.setIndexInArchetype i).isValid env = e.isValid env := rfl

theorem isValid_setVersion (env : Env) (e : EntityEntry) (v : UInt8) :
    (e.setVersion v).isValid env = e.isValid env := rfl

theorem isValid_invalidate (env : Env) (e : EntityEntry) (n : UInt32) : (e.invalidate env n).isValid env = false := by
  unfold invalidate
  unfold isValid
  rw [archetypeIndex_set]
  rfl

theorem version_invalidate (env : Env) (e : EntityEntry) (n : UInt32) : (e.invalidate env n).version = e.version := rfl

theorem indexInArchetype_invalidate (env : Env) (e : EntityEntry) (n : UInt32) (h : n.toNat < 2 ^ 24) :
    (e.invalidate env n).indexInArchetype.value = n := by
  unfold invalidate
  rw [indexInArchetype_setArchetypeIndex, indexInArchetype_set _ (IndexInArchetype.newUnchecked n) h]
  rfl

end EntityEntry

end Shard
