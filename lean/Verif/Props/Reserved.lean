import Verif.Model.Reserved
import Verif.Proofs.Step
import Verif.Proofs.RegistryRead
import Verif.Props.Example
/-!
# C94: reserved values
-/

set_option autoImplicit false

namespace Shard.Reserved

variable {env : Env} {W : World env} {r : Registry}

/-- **C94** (types) The index types accept every value but the reserved ones and keep it. The three bytes of an index are
its base-256 digits, most significant first, and converting forth and back loses nothing, except that an index that does not
fit loses its upper byte. -/
theorem C94_index_types :
    (∀ (v : UInt32) (i : IndexInArchetype), IndexInArchetype.new v = some i ↔ v.toNat < 16777215 ∧ i.value = v) ∧
    (∀ (v : UInt16) (i : ArchetypeIndex), ArchetypeIndex.new v = some i ↔ v.toNat < 65535 ∧ i.value = v) ∧
    (∀ b0 b1 b2 : UInt8, (IndexInArchetype.fromBytes b0 b1 b2).value.toNat =
      b0.toNat * 65536 + b1.toNat * 256 + b2.toNat) ∧
    (∀ b0 b1 b2 : UInt8, (IndexInArchetype.fromBytes b0 b1 b2).toBytes = (b0, b1, b2)) ∧
    (∀ i : IndexInArchetype, (IndexInArchetype.fromBytes i.toBytes.1 i.toBytes.2.1 i.toBytes.2.2).value.toNat =
      i.value.toNat % 16777216) ∧
    IndexInArchetype.new 0 = some indexInArchetypeDefault := by
  refine ⟨fun v i => ?_, fun v i => ?_, IndexInArchetype.fromBytes_toNat, fun b0 b1 b2 => ?_, fun i => ?_, by decide⟩
  · have hI : IndexInArchetype.INVALID_VALUE.toNat = 16777215 := rfl
    unfold IndexInArchetype.new
    by_cases h : IndexInArchetype.INVALID_VALUE ≤ v
    · rw [if_pos h]
      have := UInt32.le_iff_toNat_le.mp h
      exact ⟨fun x => (by cases x), fun x => (by omega)⟩
    · rw [if_neg h]
      have h2 : v.toNat < 16777215 := by
        have := mt UInt32.le_iff_toNat_le.mpr h
        omega
      constructor
      · intro x
        injection x with x
        exact ⟨h2, by rw [← x]⟩
      · rintro ⟨_, rfl⟩
        rfl
  · unfold ArchetypeIndex.new
    have hlt : v.toNat < 65536 := v.toNat_lt
    by_cases h : v = ArchetypeIndex.INVALID_VALUE
    · rw [if_pos h]
      exact ⟨fun x => (by cases x), fun x => (by rw [h] at x; exact absurd x.1 (by decide))⟩
    · rw [if_neg h]
      have h2 : v.toNat ≠ 65535 := fun x => h (UInt16.toNat_inj.mp x)
      constructor
      · intro x
        injection x with x
        exact ⟨by omega, by rw [← x]⟩
      · rintro ⟨_, rfl⟩
        rfl
  · obtain ⟨h1, h2, h3⟩ := (IndexInArchetype.fromBytes b0 b1 b2).toBytes_toNat
    rw [IndexInArchetype.fromBytes_toNat] at h1 h2 h3
    have g0 : b0.toNat < 256 := b0.toNat_lt
    have g1 : b1.toNat < 256 := b1.toNat_lt
    have g2 : b2.toNat < 256 := b2.toNat_lt
    have k1 : (IndexInArchetype.fromBytes b0 b1 b2).toBytes.1 = b0 := UInt8.toNat_inj.mp (by omega)
    have k2 : (IndexInArchetype.fromBytes b0 b1 b2).toBytes.2.1 = b1 := UInt8.toNat_inj.mp (by omega)
    have k3 : (IndexInArchetype.fromBytes b0 b1 b2).toBytes.2.2 = b2 := UInt8.toNat_inj.mp (by omega)
    exact Prod.ext k1 (Prod.ext k2 k3)
  · obtain ⟨h1, h2, h3⟩ := i.toBytes_toNat
    rw [IndexInArchetype.fromBytes_toNat, h1, h2, h3]
    omega

/-- **C94** (identifiers) An identifier is valid exactly if it is not the greatest value of its type; a component id, converted
to an archetype id, keeps its value and is always a valid one, even if it was the invalid component id; the null handle is the one whose 24-bit index and
8-bit version are both the greatest, and every other handle is valid. -/
theorem C94_identifiers :
    (∀ v : UInt16, componentTypeIdIsValid v = true ↔ v.toNat < 65535) ∧
    (∀ v : UInt32, archetypeIdIsValid v = true ↔ v.toNat < 4294967295) ∧
    (∀ v : UInt16, (archetypeIdOfComponentTypeId v).toNat = v.toNat ∧
      archetypeIdIsValid (archetypeIdOfComponentTypeId v) = true) ∧
    (∀ e : Entity, e.isValid = false ↔ e.index.toNat = 16777215 ∧ e.version.toNat = 255) := by
  have key : ∀ v : UInt32, archetypeIdIsValid v = true ↔ v.toNat < 4294967295 := by
    intro v
    have hlt : v.toNat < 4294967296 := v.toNat_lt
    have hI : ARCHETYPE_ID_INVALID.toNat = 4294967295 := rfl
    unfold archetypeIdIsValid
    rw [bne_iff_ne]
    constructor
    · intro h
      have : v.toNat ≠ 4294967295 := fun x => h (UInt32.toNat_inj.mp (by rw [x, hI]))
      omega
    · intro h x
      rw [x, hI] at h
      omega
  refine ⟨fun v => ?_, key, fun v => ?_, fun e => ?_⟩
  · have hlt : v.toNat < 65536 := v.toNat_lt
    have hI : COMPONENT_TYPE_ID_INVALID.toNat = 65535 := rfl
    unfold componentTypeIdIsValid
    rw [bne_iff_ne]
    constructor
    · intro h
      have : v.toNat ≠ 65535 := fun x => h (UInt16.toNat_inj.mp (by rw [x, hI]))
      omega
    · intro h x
      rw [x, hI] at h
      omega
  · have hlt : v.toNat < 65536 := v.toNat_lt
    have h1 : (archetypeIdOfComponentTypeId v).toNat = v.toNat := UInt16.toNat_toUInt32 v
    exact ⟨h1, (key _).mpr (by omega)⟩
  · have h1 : e.isValid = false ↔ e = Entity.INVALID := by
      unfold Entity.isValid
      rw [bne_eq_false_iff_eq]
      exact ⟨fun h => by cases e; exact congrArg Entity.mk h, fun h => by rw [h]⟩
    rw [h1]
    constructor
    · rintro rfl
      decide
    · rintro ⟨h2, h3⟩
      exact Entity.ext_iff.mpr ⟨UInt32.toNat_inj.mp (by rw [h2]; decide), UInt8.toNat_inj.mp (by rw [h3]; decide)⟩

/-- **C94** (use) In every reachable registry the reserved values are in use for nothing: an entity has an index below the
greatest, an archetype number that is not reserved and that of an archetype, and a row that is not reserved; no archetype has
the reserved id. Exactly when every slot of the entity table is occupied, the end of the free list - the reserved index - is
what the destruction of an entity passes to `IndexInArchetype::new_unchecked`; otherwise it is the number of an unoccupied
slot. -/
theorem C94_partial (hr : Reachable W r) :
    (∀ e, Live env r e → e.index.toNat < 16777215 ∧ e.isValid = true ∧
      ∃ en, r.entities.entityEntry env e = some en ∧
        (en.archetypeIndex env).toNat < r.archetypes.archetypes.length ∧ en.indexInArchetype.value.toNat < 8388608) ∧
    r.archetypes.archetypes.length < 65535 ∧
    (∀ a ∈ r.archetypes.archetypes, archetypeIdIsValid a.descriptor.archetypeId = true) ∧
    (∀ e, ¬ Live env r e → newUncheckedArgument env r.entities e = none) ∧
    (∀ e, Live env r e → ∃ v, newUncheckedArgument env r.entities e = some v ∧
      ((∀ i, i < r.entities.entities.length → ∃ e', Live env r e' ∧ e'.index.toNat = i) → v.toNat = 16777215) ∧
      ((¬ ∀ i, i < r.entities.entities.length → ∃ e', Live env r e' ∧ e'.index.toNat = i) →
        v.toNat < r.entities.entities.length ∧ ∀ e', Live env r e' → e'.index ≠ v)) := by
  obtain ⟨cs, hI⟩ := hr.inv
  have hM : MAX_ENTITY_HANDLE_VALUE = 16777215 := rfl
  have hle := hI.ents.len_le
  have hlive : ∀ e, Live env r e ↔ ∃ en, r.entities.entityEntry env e = some en := fun e => mem_iter hI.ents
  have hiff := fun e en => EntityRegistry.entityEntry_iff (env := env) hle e en
  have hle' := hle
  rw [hM] at hle'
  refine ⟨fun e he => ?_, by have := hI.arch.le; omega, fun a ha => ?_, fun e he => ?_, fun e he => ?_⟩
  · obtain ⟨en, hen⟩ := (hlive e).mp he
    have hx := (List.getElem?_eq_some_iff.mp ((hiff e en).mp hen).1).1
    obtain ⟨a, ct, h1, _, h3, h4, _⟩ := hI.entry hen
    have hlt := (List.getElem?_eq_some_iff.mp h4).1
    have hcap := h3.cap.le
    have hcnt := h3.ents.len
    refine ⟨by omega, ?_, en, hen, (List.getElem?_eq_some_iff.mp h1).1, by omega⟩
    cases hv : e.isValid with
    | true => rfl
    | false =>
      have := (C94_identifiers.2.2.2 e).mp hv
      omega
  · obtain ⟨i, hi⟩ := List.mem_iff_getElem?.mp ha
    obtain ⟨ct, _, hrep⟩ := hI.arch.content hi
    exact hrep.desc.valid
  · unfold newUncheckedArgument
    cases hx : r.entities.entityEntry env e with
    | none => rfl
    | some en => exact absurd ((hlive e).mpr ⟨en, hx⟩) he
  · obtain ⟨en, hen⟩ := (hlive e).mp he
    obtain ⟨fl, hch, hnd, hfl⟩ := hI.ents.free
    refine ⟨r.entities.nextFreeSlot, by unfold newUncheckedArgument; rw [hen], fun hall => ?_, fun hall => ?_⟩
    · cases fl with
      | nil =>
        have : r.entities.nextFreeSlot = IndexInArchetype.INVALID_VALUE := hch
        rw [this]; rfl
      | cons j rest =>
        obtain ⟨_, en', he', _⟩ := hch
        have hj := (List.getElem?_eq_some_iff.mp he').1
        obtain ⟨e', h1, h2⟩ := hall j hj
        obtain ⟨en2, h3⟩ := (hlive e').mp h1
        obtain ⟨g1, _, g3⟩ := (hiff e' en2).mp h3
        rw [h2, he'] at g1
        cases g1
        have := (hfl j en' he').mpr List.mem_cons_self
        rw [g3] at this
        cases this
    · cases fl with
      | nil =>
        exfalso
        apply hall
        intro i hi
        have hgi := List.getElem?_eq_getElem hi
        have hv : (r.entities.entities[i]).isValid env = true := by
          cases hv : (r.entities.entities[i]).isValid env with
          | true => rfl
          | false => exact absurd ((hfl i _ hgi).mp hv) (by simp)
        have ht : (UInt32.ofNat i).toNat = i := by rw [UInt32.toNat_ofNat']; omega
        refine ⟨Entity.newUnchecked (UInt32.ofNat i) (r.entities.entities[i]).version, (hlive _).mpr
          ⟨r.entities.entities[i], (hiff _ _).mpr ⟨?_, ?_, hv⟩⟩, ?_⟩
        · rw [Entity.index_newUnchecked _ _ (by rw [ht]; omega), ht]; exact hgi
        · rw [Entity.version_newUnchecked]
        · rw [Entity.index_newUnchecked _ _ (by rw [ht]; omega), ht]
      | cons j rest =>
        obtain ⟨h0, en', he', _⟩ := hch
        have hj := (List.getElem?_eq_some_iff.mp he').1
        refine ⟨by omega, fun e' h1 h2 => ?_⟩
        obtain ⟨en2, h3⟩ := (hlive e').mp h1
        obtain ⟨g1, _, g3⟩ := (hiff e' en2).mp h3
        rw [h2, h0, he'] at g1
        cases g1
        have := (hfl j en' he').mpr List.mem_cons_self
        rw [g3] at this
        cases this

/-- C94_partial holds of the example registry, in which all four slots are occupied. -/
example : Reachable exWorld exR ∧ Live exEnv exR exE1 ∧
    newUncheckedArgument exEnv exR.entities exE1 = some 16777215 :=
  ⟨exReachable, by show exE1 ∈ exR.iterEntities exEnv; decide +kernel, by decide +kernel⟩

/-- Three component types whose ids hash to 0 on little-endian targets. -/
def zeroGroup : Group := [⟨1, 0, 4, 4⟩, ⟨2, 31576, 4, 4⟩, ⟨3, 34344, 4, 4⟩]

/-- **C94 is false as documented**: the null handle does not have the index `INVALID_ENTITY_HANDLE_VALUE`, which no handle at
all has and which `IndexInArchetype::new` refuses like the index it does have; the archetype id 0, documented to be the
invalid one, is valid, it is the id of three ordinary component types, and `create_entity` stores entities under it; the id
that is in fact reserved is another one; and destroying the only entity passes to `IndexInArchetype::new_unchecked` a value
with which its documentation says that the behaviour is undefined. -/
theorem C94_violated :
    (∀ e : Entity, e.index ≠ INVALID_ENTITY_HANDLE_VALUE) ∧
    Entity.INVALID.index ≠ INVALID_ENTITY_HANDLE_VALUE ∧
    archetypeIdIsValid 0 = true ∧ ARCHETYPE_ID_INVALID ≠ 0 ∧
    (∃ (env : Env) (vals : List Val) (r : Registry) (e : Entity),
      (zeroGroup.descriptor env).isValid = true ∧ (zeroGroup.map (fun c => c.id)).Nodup ∧
      Registry.default.createEntity env zeroGroup vals = .ok (r, .ok e) ∧
      r.archetypes.archetypes.map (fun a => (a.descriptor.archetypeId, a.entityCount)) = [(0, 1)] ∧
      newUncheckedArgument env r.entities e = some IndexInArchetype.INVALID_VALUE) := by
  refine ⟨fun e h => ?_, by decide, by decide, by decide, ?_⟩
  · have h1 := Entity.index_lt e
    rw [h] at h1
    exact absurd h1 (by decide)
  · have key : (match Registry.default.createEntity ⟨false, false, false⟩ zeroGroup
          [⟨1, [1, 0, 0, 0]⟩, ⟨2, [2, 0, 0, 0]⟩, ⟨3, [3, 0, 0, 0]⟩] with
        | .ok (r, .ok e) =>
          decide (r.archetypes.archetypes.map (fun a => (a.descriptor.archetypeId, a.entityCount)) = [(0, 1)] ∧
            newUncheckedArgument ⟨false, false, false⟩ r.entities e = some IndexInArchetype.INVALID_VALUE)
        | _ => false) = true := by decide +kernel
    split at key
    · next r e heq =>
      have k2 := of_decide_eq_true key
      exact ⟨_, _, r, e, by decide +kernel, by decide, heq, k2.1, k2.2⟩
    · cases key

end Shard.Reserved
