import Verif.Proofs.HashSpec
import Verif.Spec.World
/-!
# Archetype ids of single-component groups that are below 65536
-/

set_option autoImplicit false

namespace Shard

/-- One step of FNV-1a on natural numbers. -/
def stepN (h b : Nat) : Nat := Nat.mod (Nat.mul (Nat.xor h b) 16777619) 4294967296
def stepN2 (h : Nat) : Nat := stepN (stepN h 255) 255
def stepN6 (h : Nat) : Nat := stepN2 (stepN2 (stepN2 h))
def stepN26 (h : Nat) : Nat := stepN2 (stepN6 (stepN6 (stepN6 (stepN6 h))))

/-- All numbers below `n` satisfy `f`. -/
def allBelow (f : Nat → Bool) : Nat → Bool
  | 0 => true
  | n + 1 => match f n with
    | true => allBelow f n
    | false => false

theorem allBelow_iff {f : Nat → Bool} : ∀ {n : Nat}, allBelow f n = true → ∀ i, i < n → f i = true
  | 0, _, i, hi => by omega
  | n + 1, h, i, hi => by
    unfold allBelow at h
    split at h
    · rename_i hf
      by_cases hin : i = n
      · rw [hin]; exact hf
      · exact allBelow_iff h i (by omega)
    · cases h

/-- The id of the bytes `a`, `b` followed by 26 bytes `0xFF` is not below 65536, except for two pairs. -/
def largeId (h0 a b : Nat) : Bool :=
  Nat.ble 65536 (stepN26 (stepN h0 b)) || (Nat.beq (a + 256 * b) 20339 || Nat.beq (a + 256 * b) 52513)

set_option maxRecDepth 100000 in
theorem largeId_table : allBelow (fun a => allBelow (fun b => largeId (stepN 2166136261 a) a b) 256) 256 = true := by
  decide +kernel

theorem fnvStep_stepN (h : UInt32) (b : UInt8) : (fnvStep h b).toNat = stepN h.toNat b.toNat := by
  unfold fnvStep stepN
  rw [UInt32.toNat_mul, UInt32.toNat_xor, UInt8.toNat_toUInt32]
  rfl

theorem largeId_cases {h0 a b : Nat} (h : largeId h0 a b = true) :
    65536 ≤ stepN26 (stepN h0 b) ∨ a + 256 * b = 20339 ∨ a + 256 * b = 52513 := by
  unfold largeId at h
  rw [Bool.or_eq_true, Bool.or_eq_true] at h
  rcases h with h | h | h
  · exact .inl (Nat.le_of_ble_eq_true h)
  · exact .inr (.inl (Nat.eq_of_beq_eq_true h))
  · exact .inr (.inr (Nat.eq_of_beq_eq_true h))

theorem fnvTail_toNat (h : UInt32) : ((List.replicate 26 0xFF).foldl fnvStep h).toNat = stepN26 h.toNat := by
  simp only [List.replicate, List.foldl_cons, List.foldl_nil, fnvStep_stepN]
  rfl

theorem groupId_single (env : Env) (i : UInt16) : groupId env [i] =
    (List.replicate 26 0xFF).foldl fnvStep (fnv2 (u16ToNeBytes env i).1 (u16ToNeBytes env i).2) := by
  unfold groupId
  have h14 : MAX_COMPONENTS_PER_ENTITY = 14 := rfl
  rw [h14, computeArchetypeId_eq _ _ (by simp) (by simp)]
  have hI : idPair env ComponentDescriptor.INVALID = [0xFF, 0xFF] := by
    cases env with
    | mk d b z => cases b <;> rfl
  have hfm : (List.replicate 13 ComponentDescriptor.INVALID).flatMap (idPair env) = List.replicate 26 0xFF := by
    simp only [List.replicate, List.flatMap_cons, List.flatMap_nil, hI]
    rfl
  simp only [List.length_cons, List.length_nil, List.map_cons, List.map_nil, List.cons_append, List.nil_append,
    List.flatMap_cons, List.length_replicate, Nat.zero_add, Nat.reduceSub, Nat.reduceAdd, Nat.reduceMul,
    List.replicate_zero, List.append_nil, hfm, idPair, List.foldl_cons]
  rfl

theorem groupId_single_inj (env : Env) {i j : UInt16} (h : groupId env [i] = groupId env [j]) : i = j := by
  rw [groupId_single, groupId_single] at h
  obtain ⟨h1, h2⟩ := fnv2_inj (foldl_fnvStep_inj _ h)
  exact u16ToNe_inj env (Prod.ext h1 h2)

theorem plainId_single (env : Env) (i : UInt16) : plainId env [i] = i.toUInt32 := rfl

/-- A little-endian debug build. -/
def limEnv : Env := ⟨true, false, false⟩

theorem groupId_large {i : UInt16} (h1 : i ≠ 20339) (h2 : i ≠ 52513) : 65536 ≤ (groupId limEnv [i]).toNat := by
  have ha : (u16ToNeBytes limEnv i).1.toNat < 256 := UInt8.toNat_lt256 _
  have hb : (u16ToNeBytes limEnv i).2.toNat < 256 := UInt8.toNat_lt256 _
  have hi : (u16ToNeBytes limEnv i).1.toNat + 256 * (u16ToNeBytes limEnv i).2.toNat = i.toNat := by
    have hl : i.toNat < 65536 := i.toNat_lt
    unfold u16ToNeBytes limEnv
    simp [UInt16.toNat_shiftRight, Nat.shiftRight_eq_div_pow]
    omega
  have ht := allBelow_iff (allBelow_iff largeId_table _ ha) _ hb
  rw [groupId_single, fnvTail_toNat]
  unfold fnv2
  rw [fnvStep_stepN, fnvStep_stepN]
  have hB : FNV_OFFSET_BASIS_32.toNat = 2166136261 := by decide
  rw [hB]
  rcases largeId_cases ht with h | h | h
  · exact h
  · rw [hi] at h
    exact absurd (UInt16.toNat_inj.mp h) h1
  · rw [hi] at h
    exact absurd (UInt16.toNat_inj.mp h) h2

end Shard
