import Verif.Proofs.HashSpec
import Verif.Model.Registry
/-!
# C24, C43, C48: hashing and archetype ids
-/

namespace Shard

/-- big-endian debug build -/
def exEnvBE : Env := ⟨true, true, false⟩

theorem limited_eq (bs : List UInt8) (limit : Option Nat) : bs.take (fnvLen bs.length limit) = Spec.limited bs limit := by
  unfold fnvLen Spec.limited
  cases limit with
  | none => exact List.take_length
  | some v =>
    simp only
    by_cases h : v = 0 ∨ bs.length < v
    · rw [if_neg (by omega), if_pos h, List.take_length]
    · rw [if_pos (by omega), if_neg h]

theorem fold64_toNat : ∀ (bs : List UInt8) (h : UInt64),
    (bs.foldl (fun h b => (h ^^^ b.toUInt64) * FNV_PRIME_64) h).toNat =
      bs.foldl (fun h b => (h ^^^ b.toNat) * 1099511628211 % 2 ^ 64) h.toNat
  | [], _ => rfl
  | b :: bs, h => by
    have hp : FNV_PRIME_64.toNat = 1099511628211 := rfl
    rw [List.foldl_cons, List.foldl_cons, fold64_toNat bs, UInt64.toNat_mul, UInt64.toNat_xor, UInt8.toNat_toUInt64, hp]

theorem pack16 (x y : UInt8) : ((x.toUInt16 <<< 8) ||| y.toUInt16).toNat = x.toNat * 256 + y.toNat := by
  have hx := UInt8.toNat_lt256 x
  have hy := UInt8.toNat_lt256 y
  have h8 : (8 : UInt16).toNat % 16 = 8 := rfl
  rw [UInt16.toNat_or, UInt16.toNat_shiftLeft, UInt8.toNat_toUInt16, UInt8.toNat_toUInt16, h8,
    Nat.mod_eq_of_lt (by rw [Nat.shiftLeft_eq]; omega), ← Nat.shiftLeft_add_eq_or_of_lt (by omega), Nat.shiftLeft_eq]

theorem u32_bytes (v : UInt32) : v.toUInt8.toNat = v.toNat % 256 ∧ (v >>> 8).toUInt8.toNat = v.toNat / 256 % 256 ∧
    (v >>> 16).toUInt8.toNat = v.toNat / 65536 % 256 ∧ (v >>> 24).toUInt8.toNat = v.toNat / 16777216 % 256 := by
  have h8 : (8 : UInt32).toNat % 32 = 8 := rfl
  have h16 : (16 : UInt32).toNat % 32 = 16 := rfl
  have h24 : (24 : UInt32).toNat % 32 = 24 := rfl
  simp only [UInt32.toNat_toUInt8, UInt32.toNat_shiftRight, Nat.shiftRight_eq_div_pow, h8, h16, h24]
  simp

/-- **C43** The FNV-1a functions compute the reference hash of the selected bytes; the 16-bit variant is the xor of the
halves of the 32-bit hash on every byte order (so default component ids do not depend on the platform). -/
theorem C43_fnv1a (env : Env) (bs : List UInt8) (limit : Option Nat) :
    (fnv1aHash32 bs limit).toNat = Spec.fnv1a32 (Spec.limited bs limit) ∧
    (fnv1aHash64 bs limit).toNat = Spec.fnv1a64 (Spec.limited bs limit) ∧
    (fnv1aHash16Xor env bs limit).toNat =
      (Spec.fnv1a32 (Spec.limited bs limit) / 2 ^ 16) ^^^ (Spec.fnv1a32 (Spec.limited bs limit) % 2 ^ 16) ∧
    (∀ env', (CompTy.ofName env 0 bs 1 1).id = (CompTy.ofName env' 0 bs 1 1).id) := by
  have h32 : (fnv1aHash32 bs limit).toNat = Spec.fnv1a32 (Spec.limited bs limit) := by
    rw [fnv1aHash32_eq, limited_eq, fold32_toNat]; rfl
  have h16 : ∀ (env : Env) (limit : Option Nat), (fnv1aHash16Xor env bs limit).toNat =
      ((fnv1aHash32 bs limit).toNat / 2 ^ 16) ^^^ ((fnv1aHash32 bs limit).toNat % 2 ^ 16) := by
    intro env limit
    have hlt := (fnv1aHash32 bs limit).toNat_lt
    obtain ⟨b0, b1, b2, b3⟩ := u32_bytes (fnv1aHash32 bs limit)
    unfold fnv1aHash16Xor u32ToNeBytes u16FromNeBytes
    by_cases hb : env.bigEndian = true
    · simp only [hb, if_true]
      rw [UInt16.toNat_xor, pack16, pack16, b0, b1, b2, b3]
      congr 1 <;> omega
    · simp only [hb]
      simp only [Bool.false_eq_true, if_false]
      rw [UInt16.toNat_xor, pack16, pack16, b0, b1, b2, b3, Nat.xor_comm]
      congr 1 <;> omega
  refine ⟨h32, ?_, ?_, ?_⟩
  · rw [fnv1aHash64_eq, limited_eq, fold64_toNat]; rfl
  · rw [h16, h32]
  · intro env'
    apply UInt16.toNat_inj.mp
    show (fnv1aHash16Xor env bs none).toNat = (fnv1aHash16Xor env' bs none).toNat
    rw [h16, h16]

/-- C43 on the component name "Position": 32-bit hash and the default component id 54869. -/
example : (fnv1aHash16Xor exEnvBE [80, 111, 115, 105, 116, 105, 111, 110] none) = 54869 ∧
    Spec.fnv1a32 (Spec.limited [1, 2, 3, 4] (some 2)) = Spec.fnv1a32 [1, 2] ∧
    fnv1aHash32 [1, 2, 3, 4] (some 9) = fnv1aHash32 [1, 2, 3, 4] none := by decide +kernel

/-- **C48** Single-component archetypes never collide: every single-component group is valid, and two component types
with different ids have different archetype ids. -/
theorem C48_single_component_archetypes (env : Env) (c c' : CompTy) :
    (Group.descriptor env [c]).isValid = true ∧
    (c.id ≠ c'.id →
      (Group.descriptor env [c]).archetype.archetypeId ≠ (Group.descriptor env [c']).archetype.archetypeId) := by
  have hwf : ∀ x : CompTy, Group.WF [x] := fun x => ⟨by simp, by simp [MAX_COMPONENTS_PER_ENTITY], by simp⟩
  have hv : ∀ x : CompTy, (Group.descriptor env [x]).isValid = true := fun x =>
    Group.isValid_iff.mpr ⟨hwf x, single_archetypeId_valid env x⟩
  refine ⟨hv c, fun hne he => hne ?_⟩
  rw [(Group.spec (hv c)).id, (Group.spec (hv c')).id] at he
  exact single_archetypeId_inj env c c' he

/-- C48 at work on two neighbouring ids. -/
example : (Group.descriptor exEnvBE [⟨0, 7, 4, 4⟩]).isValid = true ∧ (Group.descriptor exEnvBE [⟨0, 7, 4, 4⟩]).archetype.ids = [7] ∧
    (Group.descriptor exEnvBE [⟨0, 7, 4, 4⟩]).archetype.archetypeId ≠
      (Group.descriptor exEnvBE [⟨1, 8, 4, 4⟩]).archetype.archetypeId := by decide +kernel

/-- **C57** Which groups are valid and which archetype id a group has, exactly. A group is valid exactly if it names 1 to
14 pairwise different components and the reference hash of its ids, in ascending order and filled up with `0xFF`, is not
`u32::MAX`; then its descriptor lists these ids and carries that hash. Any other group gets the invalid id. -/
theorem C57_group_ids (env : Env) (g : Group) (ids : List UInt16) (hp : ids.Perm (g.map (fun c => c.id)))
    (hs : ids.Pairwise (· ≤ ·)) :
    ((g.descriptor env).isValid = true ↔
      1 ≤ ids.length ∧ ids.length ≤ 14 ∧ ids.Nodup ∧ Spec.groupId env.bigEndian ids ≠ 2 ^ 32 - 1) ∧
    ((g.descriptor env).isValid = true → (g.descriptor env).archetype.ids = ids ∧
      (g.descriptor env).archetype.archetypeId.toNat = Spec.groupId env.bigEndian ids) ∧
    ((g.descriptor env).isValid = false → (g.descriptor env).archetype.archetypeId.toNat = 2 ^ 32 - 1) := by
  have hlen : ids.length = g.length := by rw [hp.length_eq, List.length_map]
  have hlt : ids.Nodup → ids.Pairwise (· < ·) := fun hn =>
    (List.Pairwise.and hs hn).imp (fun h => UInt16.lt_of_le_of_ne h.1 h.2)
  have hinv : ∀ x : UInt32, x = ARCHETYPE_ID_INVALID ↔ x.toNat = 2 ^ 32 - 1 := fun x =>
    ⟨fun h => by rw [h]; rfl, fun h => UInt32.toNat_inj.mp h⟩
  refine ⟨?_, ?_, ?_⟩
  · rw [Group.isValid_iff]
    constructor
    · rintro ⟨hw, hne⟩
      have hn : ids.Nodup := hp.nodup_iff.mpr hw.nodup
      refine ⟨by rw [hlen]; exact hw.pos, by rw [hlen]; exact hw.le, hn, fun h => hne ?_⟩
      rw [hinv, Group.archetypeId_spec env hw.le hp (hlt hn), h]
    · rintro ⟨h1, h2, hn, hne⟩
      refine ⟨⟨by omega, by rw [← hlen]; exact h2, hp.nodup_iff.mp hn⟩, fun h => hne ?_⟩
      rw [← (hinv _).mp h, Group.archetypeId_spec env (by omega) hp (hlt hn)]
  · intro hv
    have sp := Group.spec hv
    have hn : ids.Nodup := hp.nodup_iff.mpr sp.wf.nodup
    refine ⟨?_, by rw [sp.id, Group.archetypeId_spec env sp.wf.le hp (hlt hn)]⟩
    have e : (g.descriptor env).archetype.ids.Perm ids := by
      have := sp.perm.map (fun d => d.id)
      rw [List.map_map] at this
      exact this.trans hp.symm
    refine e.eq_of_pairwise (le := (· ≤ ·)) (fun a b _ _ => UInt16.le_antisymm) ?_ hs
    have hpw : ((g.descriptor env).archetype.components.map (fun c => c.id.toNat)).Pairwise (· < ·) := sp.desc.sorted
    rw [List.pairwise_map] at hpw
    unfold ArchetypeDescriptor.ids
    rw [List.pairwise_map]
    exact hpw.imp (fun h => UInt16.le_iff_toNat_le.mpr (Nat.le_of_lt h))
  · intro hv
    rw [← hinv]
    by_cases hw : g.WF
    · by_cases hid : g.archetypeId env = ARCHETYPE_ID_INVALID
      · rw [Group.descriptor_invalid_of_hash hid]; rfl
      · rw [Group.isValid_iff.mpr ⟨hw, hid⟩] at hv; cases hv
    · rw [Group.descriptor_invalid_of_not_WF hw]; rfl

/-- C57 on the group (B, A, C): the ids ascending, and the hash. -/
example : [(10 : UInt16), 20, 30].Perm ([⟨2, 20, 8, 8⟩, ⟨1, 10, 4, 4⟩, ⟨3, 30, 2, 2⟩].map (fun c : CompTy => c.id)) ∧
    [(10 : UInt16), 20, 30].Pairwise (· ≤ ·) ∧ Spec.groupId true [10, 20, 30] ≠ Spec.groupId false [10, 20, 30] ∧
    (Group.descriptor exEnvBE [⟨2, 20, 8, 8⟩, ⟨1, 10, 4, 4⟩, ⟨3, 30, 2, 2⟩]).archetype.archetypeId.toNat =
      Spec.groupId true [10, 20, 30] := by decide +kernel

/-- **C24 is false**: on little-endian targets the pair of component ids 17891 and 64606 hashes to `u32::MAX`, the invalid
archetype id; `create_entity` returns the data as an error in every registry. -/
theorem C24_wellformed_groups_violated :
    ∃ (env : Env) (g : Group), (1 ≤ g.length ∧ g.length ≤ 14 ∧ (g.map (fun c => c.id)).Nodup) ∧
      (g.descriptor env).isValid = false ∧
      ∀ (r : Registry) (vals : List Val), r.createEntity env g vals = .ok (r, .err vals) := by
  refine ⟨⟨false, false, false⟩, [⟨1, 17891, 4, 4⟩, ⟨2, 64606, 4, 4⟩], by decide, by decide +kernel, ?_⟩
  intro r vals
  unfold Registry.createEntity
  rw [if_pos]
  decide +kernel

/-- What does hold of C24: a group of 1 to 14 pairwise different component types is valid exactly if the reference hash of
its ids in ascending order is not `u32::MAX`, and `create_entity` refuses the others in every registry; every
single-component group is valid. Missing: groups with that hash. -/
theorem C24_wellformed_groups_partial (env : Env) (g : Group) (hlen : 1 ≤ g.length ∧ g.length ≤ 14)
    (hdistinct : (g.map (fun c => c.id)).Nodup) (ids : List UInt16) (hp : ids.Perm (g.map (fun c => c.id)))
    (hs : ids.Pairwise (· ≤ ·)) :
    ((g.descriptor env).isValid = true ↔ Spec.groupId env.bigEndian ids ≠ 4294967295) ∧
    (Spec.groupId env.bigEndian ids = 4294967295 → ∀ (r : Registry) (vals : List Val),
      r.createEntity env g vals = .ok (r, .err vals)) ∧
    (g.length = 1 → (g.descriptor env).isValid = true) := by
  have hl : ids.length = g.length := by rw [hp.length_eq, List.length_map]
  have h1 := (C57_group_ids env g ids hp hs).1
  have h2 : (g.descriptor env).isValid = true ↔ Spec.groupId env.bigEndian ids ≠ 4294967295 :=
    ⟨fun h => (h1.mp h).2.2.2, fun h => h1.mpr ⟨by omega, by omega, hp.nodup_iff.mpr hdistinct, h⟩⟩
  refine ⟨h2, fun hx r vals => ?_, fun h => ?_⟩
  · have hv : (g.descriptor env).isValid = false := by
      cases hv : (g.descriptor env).isValid with
      | false => rfl
      | true => exact absurd hx (h2.mp hv)
    unfold Registry.createEntity
    rw [if_pos (by rw [hv]; exact Bool.false_ne_true)]
  · obtain ⟨c, rfl⟩ := List.length_eq_one_iff.mp h
    exact (C48_single_component_archetypes env c c).1

/-- C24_partial applies to (B, A, C), which is valid, and to the pair of `C24_wellformed_groups_violated`. -/
example : ([10, 20, 30] : List UInt16).Perm (([⟨2, 20, 8, 8⟩, ⟨1, 10, 4, 4⟩, ⟨3, 30, 2, 2⟩] : Group).map (fun c => c.id)) ∧
    ([10, 20, 30] : List UInt16).Pairwise (· ≤ ·) ∧ Spec.groupId false [10, 20, 30] ≠ 4294967295 ∧
    Spec.groupId false [17891, 64606] = 4294967295 := by decide +kernel

end Shard
