import Verif.Model.Fnv1a
import Verif.Proofs.Descriptors
import Verif.Proofs.Entity
/-!
# FNV-1a: the hash loop, its injectivity on a common suffix, and single-component archetype ids
-/

namespace Shard

theorem foldl_range_getD {σ : Type} (F : σ → UInt8 → σ) (l : List UInt8) : ∀ (n : Nat) (s : σ), n ≤ l.length →
    (List.range n).foldl (fun h i => F h (l.getD i 0)) s = (l.take n).foldl F s
  | 0, s, _ => by simp
  | n + 1, s, h => by
    rw [List.range_succ, List.foldl_append, foldl_range_getD F l n s (by omega), List.take_add_one, List.foldl_append,
      List.getElem?_eq_getElem (by omega)]
    simp [List.getD, show n < l.length by omega]

theorem fnvLen_le (n : Nat) (limit : Option Nat) : fnvLen n limit ≤ n := by
  unfold fnvLen
  split
  · split <;> omega
  · omega

/-- One FNV-1a step on `u32`. -/
def fnvStep (h : UInt32) (b : UInt8) : UInt32 := (h ^^^ b.toUInt32) * FNV_PRIME_32

theorem fnv1aHash32_eq (bytes : List UInt8) (limit : Option Nat) :
    fnv1aHash32 bytes limit = (bytes.take (fnvLen bytes.length limit)).foldl fnvStep FNV_OFFSET_BASIS_32 := by
  unfold fnv1aHash32
  exact foldl_range_getD fnvStep bytes _ _ (fnvLen_le _ _)

theorem fnv1aHash64_eq (bytes : List UInt8) (limit : Option Nat) :
    fnv1aHash64 bytes limit = (bytes.take (fnvLen bytes.length limit)).foldl
      (fun h b => (h ^^^ b.toUInt64) * FNV_PRIME_64) FNV_OFFSET_BASIS_64 := by
  unfold fnv1aHash64
  exact foldl_range_getD (fun h b => (h ^^^ b.toUInt64) * FNV_PRIME_64) bytes _ _ (fnvLen_le _ _)

/-- The FNV prime is odd, hence invertible modulo `2^32`. -/
theorem prime_inv : FNV_PRIME_32 * 0x359c449b = 1 := by decide

theorem fnvStep_inj {h h' : UInt32} {b : UInt8} (he : fnvStep h b = fnvStep h' b) : h = h' := by
  unfold fnvStep at he
  have h1 := congrArg (· * (0x359c449b : UInt32)) he
  simp only [UInt32.mul_assoc, prime_inv, UInt32.mul_one] at h1
  have h2 := congrArg (· ^^^ b.toUInt32) h1
  simpa [UInt32.xor_assoc] using h2

theorem foldl_fnvStep_inj : ∀ (l : List UInt8) {h h' : UInt32}, l.foldl fnvStep h = l.foldl fnvStep h' → h = h'
  | [], _, _, he => he
  | b :: l, h, h', he => by
    rw [List.foldl_cons, List.foldl_cons] at he
    exact fnvStep_inj (foldl_fnvStep_inj l he)

/-- The state after two bytes. -/
def fnv2 (a b : UInt8) : UInt32 := fnvStep (fnvStep FNV_OFFSET_BASIS_32 a) b

theorem u8_forall {P : UInt8 → Prop} (h : ∀ n : Fin 256, P (UInt8.ofNat n.val)) : ∀ a, P a := by
  intro a
  have := h ⟨a.toNat, UInt8.toNat_lt256 a⟩
  simpa using this

theorem basis_xor_table : ∀ m : Fin 256, 2166136064 ≤ (FNV_OFFSET_BASIS_32 ^^^ (UInt8.ofNat m.val).toUInt32).toNat ∧
    (FNV_OFFSET_BASIS_32 ^^^ (UInt8.ofNat m.val).toUInt32).toNat < 2166136064 + 256 := by decide +kernel

theorem basis_xor_bounds (a : UInt8) : 2166136064 ≤ (FNV_OFFSET_BASIS_32 ^^^ a.toUInt32).toNat ∧
    (FNV_OFFSET_BASIS_32 ^^^ a.toUInt32).toNat < 2166136064 + 256 :=
  u8_forall (P := fun a => 2166136064 ≤ (FNV_OFFSET_BASIS_32 ^^^ a.toUInt32).toNat ∧
    (FNV_OFFSET_BASIS_32 ^^^ a.toUInt32).toNat < 2166136064 + 256) basis_xor_table a

theorem fnv_arith_mod (x : Nat) : x * 16777619 % 4294967296 % 16777216 = x * 403 % 16777216 := by
  rw [Nat.mod_mod_of_dvd _ (by decide), show x * 16777619 = x * 403 + 16777216 * x by omega, Nat.add_mul_mod_self_left]

theorem fnv_arith_hi (u u' : Nat) (h : u / 256 = u' / 256) : u % 16777216 / 256 = u' % 16777216 / 256 := by omega

theorem fnv_arith {x x' : Nat} (hx : 2166136064 ≤ x ∧ x < 2166136064 + 256) (hx' : 2166136064 ≤ x' ∧ x' < 2166136064 + 256)
    (h : x * 16777619 % 2 ^ 32 / 2 ^ 8 = x' * 16777619 % 2 ^ 32 / 2 ^ 8) : x = x' := by
  have e3 := fnv_arith_hi _ _ h
  rw [fnv_arith_mod x, fnv_arith_mod x'] at e3
  clear h
  obtain ⟨y, rfl⟩ : ∃ y, x = 2166136064 + y := ⟨x - 2166136064, by omega⟩
  obtain ⟨y', rfl⟩ : ∃ y', x' = 2166136064 + y' := ⟨x' - 2166136064, by omega⟩
  have hm : ∀ z, z < 256 → (2166136064 + z) * 403 % 16777216 = 730880 + 403 * z := by intro z hz; omega
  rw [hm y (by omega), hm y' (by omega)] at e3
  omega

/-- After one byte, the states differ above the lowest byte. -/
theorem fnvStep_high_inj {a a' : UInt8}
    (h : (fnvStep FNV_OFFSET_BASIS_32 a) >>> 8 = (fnvStep FNV_OFFSET_BASIS_32 a') >>> 8) : a = a' := by
  have hx := basis_xor_bounds a
  have hx' := basis_xor_bounds a'
  have h1 := congrArg UInt32.toNat h
  have h8 : (8 : UInt32).toNat % 32 = 8 := rfl
  rw [UInt32.toNat_shiftRight, UInt32.toNat_shiftRight, h8, Nat.shiftRight_eq_div_pow, Nat.shiftRight_eq_div_pow] at h1
  unfold fnvStep at h1
  rw [UInt32.toNat_mul, UInt32.toNat_mul] at h1
  have hp : FNV_PRIME_32.toNat = 16777619 := rfl
  rw [hp] at h1
  have h2 : (FNV_OFFSET_BASIS_32 ^^^ a.toUInt32).toNat = (FNV_OFFSET_BASIS_32 ^^^ a'.toUInt32).toNat := by
    exact fnv_arith hx hx' h1
  have h3 := UInt32.toNat_inj.mp h2
  have h4 := congrArg (FNV_OFFSET_BASIS_32 ^^^ ·) h3
  simp only [← UInt32.xor_assoc, UInt32.xor_self, UInt32.zero_xor] at h4
  apply UInt8.toNat_inj.mp
  have := congrArg UInt32.toNat h4
  simpa using this

theorem u8_shift (b : UInt8) : b.toUInt32 >>> 8 = 0 := by
  apply UInt32.toNat_inj.mp
  rw [UInt32.toNat_shiftRight, UInt8.toNat_toUInt32]
  have h8 : (8 : UInt32).toNat % 32 = 8 := rfl
  have := UInt8.toNat_lt256 b
  rw [h8, Nat.shiftRight_eq_div_pow, Nat.div_eq_of_lt (by omega)]
  rfl

theorem fnv2_inj {a b a' b' : UInt8} (h : fnv2 a b = fnv2 a' b') : a = a' ∧ b = b' := by
  unfold fnv2 at h
  have h1 : fnvStep FNV_OFFSET_BASIS_32 a ^^^ b.toUInt32 = fnvStep FNV_OFFSET_BASIS_32 a' ^^^ b'.toUInt32 := by
    have h1 := congrArg (· * (0x359c449b : UInt32)) h
    have e : ∀ x (b : UInt8), fnvStep x b = (x ^^^ b.toUInt32) * FNV_PRIME_32 := fun _ _ => rfl
    rw [e (fnvStep FNV_OFFSET_BASIS_32 a), e (fnvStep FNV_OFFSET_BASIS_32 a')] at h1
    simpa only [UInt32.mul_assoc, prime_inv, UInt32.mul_one] using h1
  have h2 := congrArg (· >>> (8 : UInt32)) h1
  simp only [UInt32.shiftRight_xor, u8_shift, UInt32.xor_zero] at h2
  have ha := fnvStep_high_inj h2
  subst ha
  refine ⟨rfl, ?_⟩
  have h3 := congrArg (fnvStep FNV_OFFSET_BASIS_32 a ^^^ ·) h1
  simp only [← UInt32.xor_assoc, UInt32.xor_self, UInt32.zero_xor] at h3
  apply UInt8.toNat_inj.mp
  have := congrArg UInt32.toNat h3
  simpa using this

/-- The two bytes of a component id in hashing order. -/
def idPair (env : Env) (d : ComponentDescriptor) : List UInt8 := [(u16ToNeBytes env d.id).1, (u16ToNeBytes env d.id).2]

theorem idBytes_eq (env : Env) (ds : List ComponentDescriptor) (h : ds.length ≤ 14) :
    ArchetypeDescriptor.idBytes env ds = ds.flatMap (idPair env) ++ List.replicate (28 - 2 * ds.length) 0 := by
  have gen : ∀ n, n ≤ ds.length →
      (List.range n).foldl (fun bytes i =>
        let b := u16ToNeBytes env ((ds.getD i ComponentDescriptor.INVALID).id)
        (bytes.set (i * 2 + 0) b.1).set (i * 2 + 1) b.2) (List.replicate (MAX_COMPONENTS_PER_ENTITY * 2) 0) =
      (ds.take n).flatMap (idPair env) ++ List.replicate (28 - 2 * n) 0 := by
    intro n
    induction n with
    | zero => intro _; simp [MAX_COMPONENTS_PER_ENTITY]
    | succ n ih =>
      intro hn
      rw [List.range_succ, List.foldl_append, ih (by omega), List.foldl_cons, List.foldl_nil]
      have hfl : ((ds.take n).flatMap (idPair env)).length = n * 2 := by
        rw [List.length_flatMap]
        have : (List.map (fun a => (idPair env a).length) (ds.take n)) = List.replicate n 2 := by
          apply List.eq_replicate_iff.mpr
          refine ⟨by rw [List.length_map, List.length_take]; omega, ?_⟩
          intro b hb
          obtain ⟨x, _, rfl⟩ := List.mem_map.mp hb
          rfl
        rw [this, List.sum_replicate_nat]
      have hrep : List.replicate (28 - 2 * n) (0 : UInt8) = 0 :: 0 :: List.replicate (28 - 2 * (n + 1)) 0 := by
        rw [show 28 - 2 * n = (28 - 2 * (n + 1)) + 1 + 1 by omega, List.replicate_succ, List.replicate_succ]
      have hgd : ds.getD n ComponentDescriptor.INVALID = ds[n] := by simp [List.getD, show n < ds.length by omega]
      simp only [hgd]
      rw [hrep, List.take_add_one, List.getElem?_eq_getElem (by omega), List.flatMap_append]
      rw [List.set_append_right _ _ (by omega), hfl, List.set_append_right _ _ (by omega), hfl]
      simp only [Nat.add_zero, Nat.sub_self, List.set_cons_zero, Nat.add_sub_cancel_left, List.set_cons_succ,
        Option.toList_some, List.flatMap_cons, List.flatMap_nil, List.append_nil, idPair, List.append_assoc,
        List.cons_append, List.nil_append]
  have := gen ds.length (Nat.le_refl _)
  rw [List.take_length] at this
  exact this

theorem flatMap_idPair_length (env : Env) (ds : List ComponentDescriptor) :
    (ds.flatMap (idPair env)).length = 2 * ds.length := by
  induction ds with
  | nil => rfl
  | cons d ds ih => rw [List.flatMap_cons, List.length_append, ih]; simp [idPair]; omega

/-- The id of two or more descriptors: FNV-1a over the 28-byte buffer. -/
theorem computeArchetypeId_eq (env : Env) (ds : List ComponentDescriptor) (h2 : 2 ≤ ds.length) (h : ds.length ≤ 14) :
    ArchetypeDescriptor.computeArchetypeId env ds =
      (ds.flatMap (idPair env) ++ List.replicate (28 - 2 * ds.length) 0).foldl fnvStep FNV_OFFSET_BASIS_32 := by
  unfold ArchetypeDescriptor.computeArchetypeId
  split
  · simp at h2
  · simp at h2
  · have hl : (ArchetypeDescriptor.idBytes env ds).length = 28 := by
      rw [idBytes_eq env ds h, List.length_append, flatMap_idPair_length, List.length_replicate]; omega
    rw [fnv1aHash32_eq, hl]
    have : fnvLen 28 (some 28) = 28 := rfl
    rw [this, List.take_of_length_le (by omega), idBytes_eq env ds h]

theorem u16ToNe_inj (env : Env) {a b : UInt16} (h : u16ToNeBytes env a = u16ToNeBytes env b) : a = b := by
  rw [← u16FromNe_toNe env a, h, u16FromNe_toNe]

/-- The archetype id of a single-component group. -/
theorem single_archetypeId (env : Env) (c : CompTy) :
    Group.archetypeId env [c] =
      (List.replicate 26 0xFF).foldl fnvStep (fnv2 (u16ToNeBytes env c.id).1 (u16ToNeBytes env c.id).2) := by
  have hs : ComponentGroupDescriptor.computeSortedDescriptors ([c].map CompTy.descriptor) =
      c.descriptor :: List.replicate 13 ComponentDescriptor.INVALID := rfl
  unfold Group.archetypeId
  rw [hs, computeArchetypeId_eq _ _ (by simp) (by simp)]
  have hI : idPair env ComponentDescriptor.INVALID = [0xFF, 0xFF] := by
    cases env with
    | mk d b z => cases b <;> rfl
  have hfm : (List.replicate 13 ComponentDescriptor.INVALID).flatMap (idPair env) = List.replicate 26 0xFF := by
    simp only [List.replicate, List.flatMap_cons, List.flatMap_nil, hI]
    rfl
  rw [List.flatMap_cons, hfm]
  simp only [List.length_cons, List.length_replicate, idPair, List.cons_append, List.nil_append, List.foldl_cons]
  simp only [Nat.reduceMul, Nat.reduceAdd, Nat.reduceSub, List.replicate_zero, List.append_nil]
  rfl

theorem single_archetypeId_inj (env : Env) (c c' : CompTy) (h : Group.archetypeId env [c] = Group.archetypeId env [c']) :
    c.id = c'.id := by
  rw [single_archetypeId, single_archetypeId] at h
  obtain ⟨h1, h2⟩ := fnv2_inj (foldl_fnvStep_inj _ h)
  exact u16ToNe_inj env (Prod.ext h1 h2)

theorem fnv2_ne_table : ∀ n : Fin 256, 255 < (fnvStep FNV_OFFSET_BASIS_32 (UInt8.ofNat n.val) ^^^ 0xd95d1543) := by decide +kernel

/-- A single-component group's id is never the invalid one. -/
theorem single_archetypeId_valid (env : Env) (c : CompTy) : Group.archetypeId env [c] ≠ ARCHETYPE_ID_INVALID := by
  rw [single_archetypeId]
  intro h
  have hM : ARCHETYPE_ID_INVALID = (List.replicate 26 0xFF).foldl fnvStep 0x70887879 := by decide +kernel
  rw [hM] at h
  have h1 := foldl_fnvStep_inj _ h
  unfold fnv2 at h1
  generalize (u16ToNeBytes env c.id).1 = a at h1
  generalize (u16ToNeBytes env c.id).2 = b at h1
  have h2 := congrArg (· * (0x359c449b : UInt32)) h1
  conv at h2 => lhs; unfold fnvStep
  simp only [UInt32.mul_assoc, prime_inv, UInt32.mul_one] at h2
  have hP : (0x70887879 * 0x359c449b : UInt32) = 0xd95d1543 := by decide
  rw [hP] at h2
  have h3 := fnv2_ne_table ⟨a.toNat, UInt8.toNat_lt256 a⟩
  simp only [UInt8.ofNat_toNat] at h3
  rw [← h2] at h3
  have h4 : fnvStep FNV_OFFSET_BASIS_32 a ^^^ ((fnvStep FNV_OFFSET_BASIS_32 a) ^^^ b.toUInt32) = b.toUInt32 := by
    rw [← UInt32.xor_assoc, UInt32.xor_self, UInt32.zero_xor]
  rw [show fnvStep FNV_OFFSET_BASIS_32 a = (FNV_OFFSET_BASIS_32 ^^^ a.toUInt32) * FNV_PRIME_32 from rfl] at h4
  rw [show fnvStep FNV_OFFSET_BASIS_32 a = (FNV_OFFSET_BASIS_32 ^^^ a.toUInt32) * FNV_PRIME_32 from rfl, h4] at h3
  have h5 : (255 : UInt32).toNat < b.toUInt32.toNat := UInt32.lt_iff_toNat_lt.mp h3
  rw [UInt8.toNat_toUInt32] at h5
  have := UInt8.toNat_lt256 b
  have : (255 : UInt32).toNat = 255 := rfl
  omega

end Shard
