import Verif.Proofs.HashSpec
import Verif.Props.Hash
import Verif.Props.Storage
/-!
# C102: component sets that differ in one place never collide
-/

set_option autoImplicit false

namespace Shard

theorem xor_byte_div (h b : Nat) (hb : b < 256) : (h ^^^ b) / 256 = h / 256 := by
  have := Nat.shiftRight_xor_distrib (a := h) (b := b) (i := 8)
  rw [Nat.shiftRight_eq_div_pow, Nat.shiftRight_eq_div_pow, Nat.shiftRight_eq_div_pow, Nat.div_eq_of_lt (a := b) (by omega), Nat.xor_zero] at this
  exact this

theorem fnv_spread_arith {x x' u u' k k' : Nat} (hd : x / 256 = x' / 256) (h : u / 256 = u' / 256)
    (e : 4294967296 * k + u = x * 16777619) (e' : 4294967296 * k' + u' = x' * 16777619) : ¬ x < x' := by
  intro hlt
  rcases Nat.lt_or_ge k k' with hk | hk <;> omega

/-- The multiplication carries a difference in the lowest byte into the upper ones. -/
theorem fnv_spread {x x' : Nat} (hd : x / 256 = x' / 256)
    (h : x * 16777619 % 2 ^ 32 / 256 = x' * 16777619 % 2 ^ 32 / 256) : x = x' :=
  Nat.le_antisymm (Nat.le_of_not_lt (fnv_spread_arith hd.symm h.symm (Nat.div_add_mod _ _) (Nat.div_add_mod _ _)))
    (Nat.le_of_not_lt (fnv_spread_arith hd h (Nat.div_add_mod _ _) (Nat.div_add_mod _ _)))

/-- Two bytes are read off the state before and after hashing them. -/
theorem fnvStep2_inj {s : UInt32} {a b a' b' : UInt8} (h : fnvStep (fnvStep s a) b = fnvStep (fnvStep s a') b') : a = a' ∧ b = b' := by
  have cancel : ∀ {x y : UInt32}, x * FNV_PRIME_32 = y * FNV_PRIME_32 → x = y := by
    intro x y hx
    have h1 := congrArg (· * (0x359c449b : UInt32)) hx
    simpa only [UInt32.mul_assoc, prime_inv, UInt32.mul_one] using h1
  have xorl : ∀ {s : UInt32} {a a' : UInt8}, s ^^^ a.toUInt32 = s ^^^ a'.toUInt32 → a = a' := by
    intro s a a' hx
    have h3 := congrArg (s ^^^ ·) hx
    simp only [← UInt32.xor_assoc, UInt32.xor_self, UInt32.zero_xor] at h3
    apply UInt8.toNat_inj.mp
    have := congrArg UInt32.toNat h3
    simpa using this
  have h1 : fnvStep s a ^^^ b.toUInt32 = fnvStep s a' ^^^ b'.toUInt32 := cancel h
  have h2 := congrArg (fun x : UInt32 => x.toNat / 256) h1
  simp only [UInt32.toNat_xor, UInt8.toNat_toUInt32] at h2
  rw [xor_byte_div _ _ (UInt8.toNat_lt256 b), xor_byte_div _ _ (UInt8.toNat_lt256 b'), fnvStep_toNat, fnvStep_toNat] at h2
  have h3 := fnv_spread (by rw [xor_byte_div _ _ (UInt8.toNat_lt256 a), xor_byte_div _ _ (UInt8.toNat_lt256 a')]) h2
  have ha : a = a' := by
    apply xorl (s := s)
    apply UInt32.toNat_inj.mp
    rw [UInt32.toNat_xor, UInt32.toNat_xor, UInt8.toNat_toUInt32, UInt8.toNat_toUInt32]
    exact h3
  subst ha
  exact ⟨rfl, xorl h1⟩

theorem idBytes_two (be : Bool) (i : UInt16) : ∃ x y, Spec.idBytes be i = [x, y] ∧ ∀ j, Spec.idBytes be j = [x, y] → i = j := by
  have key : ∀ j : UInt16, UInt8.ofNat i.toNat = UInt8.ofNat j.toNat → UInt8.ofNat (i.toNat / 256) = UInt8.ofNat (j.toNat / 256) → i = j := by
    intro j h1 h2
    have h1 := congrArg UInt8.toNat h1
    have h2 := congrArg UInt8.toNat h2
    rw [UInt8.toNat_ofNat', UInt8.toNat_ofNat'] at h1 h2
    have := i.toNat_lt
    have := j.toNat_lt
    apply UInt16.toNat_inj.mp
    omega
  unfold Spec.idBytes
  cases be with
  | true => exact ⟨_, _, rfl, fun j hj => by simp at hj; exact key j hj.2.symm hj.1.symm⟩
  | false => exact ⟨_, _, rfl, fun j hj => by simp at hj; exact key j hj.1.symm hj.2.symm⟩

theorem fnv1a32_eq (bs : List UInt8) : Spec.fnv1a32 bs = (bs.foldl fnvStep FNV_OFFSET_BASIS_32).toNat := by
  rw [fold32_toNat]
  rfl

/-- Byte strings that differ in one component id only have different hashes. -/
theorem fnv1a32_one_place (be : Bool) (pre suf : List UInt8) {b c : UInt16}
    (h : Spec.fnv1a32 (pre ++ Spec.idBytes be b ++ suf) = Spec.fnv1a32 (pre ++ Spec.idBytes be c ++ suf)) : b = c := by
  rw [fnv1a32_eq, fnv1a32_eq] at h
  have h := UInt32.toNat_inj.mp h
  rw [List.foldl_append, List.foldl_append, List.foldl_append, List.foldl_append] at h
  have h := foldl_fnvStep_inj suf h
  obtain ⟨x, y, h1, h2⟩ := idBytes_two be b
  obtain ⟨x', y', h3, _⟩ := idBytes_two be c
  rw [h1, h3] at h
  obtain ⟨rfl, rfl⟩ := fnvStep2_inj h
  exact h2 c h3

/-- The sets, as ascending lists, have the same length and differ in one place at most. -/
def OnePlace (s t : List UInt16) : Prop := ∃ p b c q, s = p ++ b :: q ∧ t = p ++ c :: q

/-- **C102** Component sets that differ in one place never have the same archetype id: neither where `create_entity` computes
it nor where `add_component` and `remove_component` do. -/
theorem C102_one_place (bigEndian : Bool) {s t : List UInt16} (h : OnePlace s t) :
    (Spec.groupId bigEndian s = Spec.groupId bigEndian t ↔ s = t) ∧
    (Spec.movedId bigEndian s = Spec.movedId bigEndian t ↔ s = t) := by
  obtain ⟨p, b, c, q, rfl, rfl⟩ := h
  have hash : ∀ (x : UInt8), Spec.fnv1a32 ((p ++ b :: q).flatMap (Spec.idBytes bigEndian) ++ List.replicate (28 - 2 * (p ++ b :: q).length) x) =
      Spec.fnv1a32 ((p ++ c :: q).flatMap (Spec.idBytes bigEndian) ++ List.replicate (28 - 2 * (p ++ c :: q).length) x) → b = c := by
    intro x hx
    refine fnv1a32_one_place bigEndian (p.flatMap (Spec.idBytes bigEndian))
      (q.flatMap (Spec.idBytes bigEndian) ++ List.replicate (28 - 2 * (p ++ c :: q).length) x) ?_
    rw [show (p ++ b :: q).length = (p ++ c :: q).length by simp] at hx
    simpa only [List.flatMap_append, List.flatMap_cons, List.append_assoc] using hx
  refine ⟨⟨fun hx => by rw [hash _ hx], fun hx => by rw [hx]⟩, ⟨fun hx => ?_, fun hx => by rw [hx]⟩⟩
  cases p with
  | nil =>
    cases q with
    | nil =>
      have hx : b.toNat = c.toNat := hx
      rw [UInt16.toNat_inj.mp hx]
    | cons y q => rw [hash 0 hx]
  | cons x p =>
    have e : ∀ d, Spec.movedId bigEndian (x :: p ++ d :: q) =
        Spec.fnv1a32 ((x :: p ++ d :: q).flatMap (Spec.idBytes bigEndian) ++ List.replicate (28 - 2 * (x :: p ++ d :: q).length) 0) := by
      intro d
      cases p <;> rfl
    rw [e, e] at hx
    rw [hash 0 hx]

/-- **C102** (groups) Hence two valid groups whose component sets differ in one place have the same archetype id only if they
have the same components. -/
theorem C102_groups (env : Env) {g1 g2 : Group} (h1 : (g1.descriptor env).isValid = true) (h2 : (g2.descriptor env).isValid = true)
    (h : OnePlace g1.idSet g2.idSet) :
    (g1.descriptor env).archetype.archetypeId = (g2.descriptor env).archetype.archetypeId ↔
      ∀ i, i ∈ g1.map (fun c => c.id) ↔ i ∈ g2.map (fun c => c.id) := by
  have e1 := ((C57_group_ids env g1 _ (Group.idSet_perm g1) (Group.idSet_sorted g1)).2.1 h1)
  have e2 := ((C57_group_ids env g2 _ (Group.idSet_perm g2) (Group.idSet_sorted g2)).2.1 h2)
  have n1 := ((C57_group_ids env g1 _ (Group.idSet_perm g1) (Group.idSet_sorted g1)).1.mp h1).2.2.1
  have n2 := ((C57_group_ids env g2 _ (Group.idSet_perm g2) (Group.idSet_sorted g2)).1.mp h2).2.2.1
  rw [← UInt32.toNat_inj, e1.2, e2.2, (C102_one_place env.bigEndian h).1]
  constructor
  · intro he i
    rw [← (Group.idSet_perm g1).mem_iff, ← (Group.idSet_perm g2).mem_iff, he]
  · intro hm
    refine sorted_perm_ids (Group.idSet_sorted g1) (Group.idSet_sorted g2) ((List.perm_ext_iff_of_nodup n1 n2).mpr fun i => ?_)
    rw [(Group.idSet_perm g1).mem_iff, (Group.idSet_perm g2).mem_iff, hm]

/-- **C102** (descriptors) The same for `ArchetypeDescriptor::compute_archetype_id`, which `add_component` and
`remove_component` use. -/
theorem C102_compute (env : Env) {ds ds' : List ComponentDescriptor} (hl : ds.length ≤ 14)
    (h : OnePlace (ds.map (fun d => d.id)) (ds'.map (fun d => d.id))) :
    ArchetypeDescriptor.computeArchetypeId env ds = ArchetypeDescriptor.computeArchetypeId env ds' ↔
      ds.map (fun d => d.id) = ds'.map (fun d => d.id) := by
  have hlen : ds.length = ds'.length ∧ 1 ≤ ds.length := by
    obtain ⟨p, b, c, q, e1, e2⟩ := h
    have e1 := congrArg List.length e1
    have e2 := congrArg List.length e2
    rw [List.length_map, List.length_append, List.length_cons] at e1 e2
    omega
  rw [← UInt32.toNat_inj, computeArchetypeId_moved env ds (by omega) hl, computeArchetypeId_moved env ds' (by omega) (by omega)]
  exact (C102_one_place env.bigEndian h).2

/-- **C102** (programs) If any two component sets of the same size a program uses differ in one place at most (say, a common
set of components and one more with a larger id), then none collide among those of created entities, and none among those of
entities whose components were changed. -/
theorem C102_programs (env : Env) {Used : List UInt16 → Prop} (hU : ∀ s, Used s → 1 ≤ s.length ∧ s.length ≤ 14)
    (h : ∀ s t, Used s → Used t → s.length = t.length → OnePlace s t) {s t : List UInt16} (hs : Used s) (ht : Used t)
    (hl : s.length = t.length) :
    (groupId env s = groupId env t → s = t) ∧ (plainId env s = plainId env t → s = t) := by
  have ids : ∀ s : List UInt16, (s.map idOnly).map (fun d => d.id) = s := by
    intro s
    rw [List.map_map]
    exact List.map_id'' (fun _ => rfl) s
  have hp := h s t hs ht hl
  constructor
  · intro he
    have he := congrArg UInt32.toNat he
    have e : ∀ s, Used s → (groupId env s).toNat = Spec.groupId env.bigEndian s := by
      intro s hs
      have := computeArchetypeId_group env (s.map idOnly) (by rw [List.length_map]; exact (hU s hs).2)
      rw [ids, List.length_map] at this
      exact this
    rw [e s hs, e t ht] at he
    exact (C102_one_place env.bigEndian hp).1.mp he
  · intro he
    have := (C102_compute env (ds := s.map idOnly) (ds' := t.map idOnly) (by rw [List.length_map]; exact (hU s hs).2)
      (by rw [ids, ids]; exact hp)).mp he
    rwa [ids, ids] at this

/-- `{10, 20, 30}` and `{10, 25, 30}` differ in one place; the colliding sets of `C29_collision` do not. -/
example : OnePlace [10, 20, 30] [10, 25, 30] ∧ ¬ OnePlace [4083, 53647] [17631, 55333] := by
  refine ⟨⟨[10], 20, 25, [30], rfl, rfl⟩, ?_⟩
  rintro ⟨p, b, c, q, h1, h2⟩
  match p, h1, h2 with
  | [], h1, h2 =>
    have e1 := (List.cons.inj h1).2
    have e2 := (List.cons.inj h2).2
    rw [← e1] at e2
    exact absurd e2 (by decide)
  | x :: p, h1, h2 =>
    have e1 := (List.cons.inj h1).1
    have e2 := (List.cons.inj h2).1
    rw [← e1] at e2
    exact absurd e2 (by decide)

/-- A program with the common component 10 and one more component each. -/
example : groupId exEnv [10, 20] ≠ groupId exEnv [10, 30] ∧ plainId exEnv [10, 20] ≠ plainId exEnv [10, 30] := by
  have h := C102_programs exEnv (Used := fun s => ∃ i, s = [10, i]) (fun s ⟨i, hi⟩ => by subst hi; simp)
    (fun s t ⟨i, hi⟩ ⟨j, hj⟩ _ => ⟨[10], i, j, [], hi, hj⟩) ⟨20, rfl⟩ ⟨30, rfl⟩ rfl
  exact ⟨fun he => absurd (h.1 he) (by decide), fun he => absurd (h.2 he) (by decide)⟩

end Shard
