import Verif.Model.CrateTests
import Verif.Props.RawRegistry
import Verif.Props.Ordinary
import Verif.Props.Check
import Verif.Props.Reference
import Verif.Props.Table
/-!
# C76: the crate's own tests pass

The transcription of the tests is in `Verif/Model/CrateTests.lean`.
-/

set_option autoImplicit false

namespace Shard

open CrateTests

variable {env : Env} {r : Registry}

/-- The tests without loops and without random choices. -/
def fixedTests (env : Env) : List (M Unit) :=
  [registryTestGetComponent env, registryTestHasComponent env, testRegistryFirst env, testArchetypeSlices env,
    testArchetypeGetComponents env, testArchetypeSwapEntities env, testArchetypeReadComponents env,
    testArchetypeRegistry env, testEntityRegisterEntry env, testEntityHandles env, testEntityRegister env,
    testArchetypeDescriptorAddRemove env, testArchetypeDescriptorContains env, testArchetypeDescriptorExcludes env,
    testComputeSortedDescriptors, testComputeSortMappings, testComponentGroupPointers env, testComponentGroupLen env,
    testComponentGroupDescriptor env]

set_option maxRecDepth 100000 in
theorem fixedTests_pass (env : Env) : ∀ t ∈ fixedTests env, t = .ok () := by
  obtain ⟨d, b, z⟩ := env
  revert d b z
  decide +kernel

/-! ## Constructors -/

theorem constructAndDrop_ok (env : Env) (cap : Nat) :
    constructAndDrop env (Group.descriptor env [tA, tB]).archetype cap = .ok () := by
  have h14 : (Group.descriptor env [tA, tB]).archetype.comps.length = 14 := by
    obtain ⟨d, b, z⟩ := env; revert d b z; decide +kernel
  have hl : (Group.descriptor env [tA, tB]).archetype.len ≤ 14 := by
    obtain ⟨d, b, z⟩ := env; revert d b z; decide +kernel
  have hv : (Group.descriptor env [tA, tB]).archetype.isValid = true := by
    obtain ⟨d, b, z⟩ := env; revert d b z; decide +kernel
  have hcomp : (Group.descriptor env [tA, tB]).archetype.components = [tA.descriptor, tB.descriptor] := by
    obtain ⟨d, b, z⟩ := env; revert d b z; decide +kernel
  unfold constructAndDrop
  rw [withCapacity_eq_any h14 hl]
  by_cases hc : CapInRange cap
  · rw [(withCapacityAny_in hv hc h14 (by rw [hcomp]; decide) hl).1 (by
      rw [hcomp]
      intro c hm
      simp only [List.mem_cons, List.not_mem_nil, or_false] at hm
      rcases hm with rfl | rfl <;> exact ⟨⟨3, by decide⟩, Or.inl (by decide)⟩)]
    obtain ⟨a', ha⟩ := (allocated_drop h14 hl hc.1).1 (by
      rw [hcomp]
      intro c hm f hf
      simp only [List.mem_cons, List.not_mem_nil, or_false] at hm
      rcases hm with rfl | rfl <;> (cases hf; decide))
    simp only [ok_bind, ha]
    rfl
  · rw [withCapacityAny_out hv hc]
    rfl

theorem new_drop {d : ArchetypeDescriptor} (hv : d.isValid = true)
    (h : ∀ cap, constructAndDrop env d cap = .ok ()) : ∃ a x, Archetype.new env d = .ok a ∧ a.drop = .ok x := by
  have h0 := h DEFAULT_ARCHETYPE_ALLOCATION_SIZE
  unfold constructAndDrop at h0
  unfold Archetype.new
  rw [ensure_true hv]
  cases h1 : Archetype.withCapacity env d DEFAULT_ARCHETYPE_ALLOCATION_SIZE with
  | error f => rw [h1] at h0; cases h0
  | ok a =>
    rw [h1] at h0
    simp only [ok_bind] at h0
    cases h2 : a.drop with
    | error f => rw [h2] at h0; cases h0
    | ok x => exact ⟨a, x, by simp only [ok_bind], h2⟩

theorem testArchetypeConstructors_pass (env : Env) : testArchetypeConstructors env = .ok () := by
  have hv : (Group.descriptor env [tA, tB]).archetype.isValid = true := by
    obtain ⟨d, b, z⟩ := env; revert d b z; decide +kernel
  have hc := constructAndDrop_ok env
  unfold testArchetypeConstructors
  generalize (Group.descriptor env [tA, tB]).archetype = d at hv hc
  generalize MAX_ENTITIES_PER_ARCHETYPE = m
  obtain ⟨a, x, h1, h2⟩ := new_drop hv hc
  simp only [h1, h2, ok_bind, hc]

/-! ## Many slots -/

/-- The place all handles of the test get. -/
def testPlace : Place := (2, 1)

theorem replicate_set {α : Type} (k : Nat) (a b : α) (l : List α) :
    (List.replicate (k + 1) a ++ l).set k b = List.replicate k a ++ b :: l := by
  rw [List.replicate_succ', List.append_assoc, List.set_append_right _ _ (by simp)]
  simp

theorem createSlots_new : ∀ (n k : Nat) (r : EntityRegistry),
    TableRel env r ⟨List.replicate k (0, some testPlace), []⟩ → k + n < 16777216 →
    ∃ r' es, createSlots env ⟨2⟩ ⟨1⟩ n r = .ok (r', es) ∧
      TableRel env r' ⟨List.replicate (k + n) (0, some testPlace), []⟩ ∧
      es.map Entity.pair = (List.range' k n).map (fun i => (i, (0 : UInt8)))
  | 0, k, r, h, _ => ⟨r, [], rfl, h, rfl⟩
  | n + 1, k, r, h, hk => by
    obtain ⟨⟨r1, o⟩, h1, h2, h3⟩ := h.create (i := ⟨2⟩) (a := ⟨1⟩) (by decide) (by decide)
    unfold Table.create at h2 h3
    rw [if_pos (by simp; omega)] at h2 h3
    simp only [List.length_replicate] at h2 h3
    rw [show (List.replicate k ((0 : UInt8), some testPlace) ++ [(0, some ((2 : UInt32), (1 : UInt16)))]) =
      List.replicate (k + 1) (0, some testPlace) from by rw [List.replicate_succ']; rfl] at h2
    obtain ⟨r2, es, h4, h5, h6⟩ := createSlots_new n (k + 1) r1 h2 (by omega)
    refine ⟨r2, o.toList ++ es, ?_, ?_, ?_⟩
    · unfold createSlots
      simp only [h1, h4, ok_bind]
      rfl
    · rw [show k + (n + 1) = k + 1 + n by omega]; exact h5
    · cases o with
      | none => cases h3
      | some e =>
        simp only [Option.map_some, Option.some.injEq] at h3
        simp [List.range'_succ, h3, h6]

theorem createSlots_reuse (v : UInt8) : ∀ (n k : Nat) (r : EntityRegistry),
    TableRel env r ⟨List.replicate k (v, some testPlace) ++ List.replicate n (v, none), List.range' k n⟩ →
    k + n < 16777215 →
    ∃ r' es, createSlots env ⟨2⟩ ⟨1⟩ n r = .ok (r', es) ∧
      TableRel env r' ⟨List.replicate (k + n) (v, some testPlace), []⟩ ∧
      es.map Entity.pair = (List.range' k n).map (fun i => (i, v))
  | 0, k, r, h, _ => ⟨r, [], rfl, by simpa using h, rfl⟩
  | n + 1, k, r, h, hk => by
    obtain ⟨⟨r1, o⟩, h1, h2, h3⟩ := h.create (i := ⟨2⟩) (a := ⟨1⟩) (by decide) (by decide)
    unfold Table.create at h2 h3
    rw [if_pos (by simp; omega)] at h2 h3
    have hget : (List.replicate k (v, some testPlace) ++ List.replicate (n + 1) (v, none))[k]? = some (v, none) := by
      rw [List.getElem?_append_right (by simp)]
      simp
    have hset : (List.replicate k (v, some testPlace) ++ List.replicate (n + 1) (v, none)).set k
        (v, some ((2 : UInt32), (1 : UInt16))) =
        List.replicate (k + 1) (v, some testPlace) ++ List.replicate n (v, none) := by
      rw [List.set_append_right _ _ (by simp), List.length_replicate, Nat.sub_self, List.replicate_succ (n := n),
        List.set_cons_zero, List.replicate_succ' (n := k), List.append_assoc]
      rfl
    simp only [List.range'_succ, hget, hset] at h2 h3
    obtain ⟨r2, es, h4, h5, h6⟩ := createSlots_reuse v n (k + 1) r1 h2 (by omega)
    refine ⟨r2, o.toList ++ es, ?_, ?_, ?_⟩
    · unfold createSlots
      simp only [h1, h4, ok_bind]
      rfl
    · rw [show k + (n + 1) = k + 1 + n by omega]; exact h5
    · cases o with
      | none => cases h3
      | some e =>
        simp only [Option.map_some, Option.some.injEq] at h3
        simp [List.range'_succ, h3, h6]

theorem destroySlots_ok (v : UInt8) (okv : UInt8 → Bool) (hv : okv v = true) : ∀ (k n : Nat) (es : List Entity)
    (r : EntityRegistry),
    TableRel env r ⟨List.replicate k (v, some testPlace) ++ List.replicate n (v + 1, none), List.range' k n⟩ →
    es.map Entity.pair = ((List.range k).map (fun i => (i, v))).reverse →
    ∃ r', destroySlots env okv es r = .ok r' ∧
      TableRel env r' ⟨List.replicate (k + n) (v + 1, none), List.range' 0 (k + n)⟩
  | 0, n, es, r, h, he => by
    have : es = [] := by simpa using he
    subst this
    exact ⟨r, rfl, by simpa using h⟩
  | k + 1, n, [], r, h, he => by simp at he
  | k + 1, n, e :: es, r, h, he => by
    rw [List.range_succ, List.map_append, List.reverse_append] at he
    simp only [List.map_cons, List.map_nil, List.reverse_cons, List.reverse_nil, List.nil_append, List.cons_append,
      List.cons.injEq] at he
    obtain ⟨he1, he2⟩ := he
    have hlook : Table.look ⟨List.replicate (k + 1) (v, some testPlace) ++ List.replicate n (v + 1, none),
        List.range' (k + 1) n⟩ e.pair = some testPlace := by
      rw [he1]
      unfold Table.look
      simp only
      rw [List.getElem?_append_left (by simp)]
      simp
    obtain ⟨en, h1, h2⟩ := h.look_some.mp hlook
    obtain ⟨h3, h4, h5⟩ := (EntityRegistry.entityEntry_iff h.len_le e en).mp h1
    rw [EntityEntry.place_some h5] at h2
    simp only [testPlace, Option.some.injEq, Prod.mk.injEq] at h2
    have hev : en.version = v := by
      rw [h4]
      exact congrArg Prod.snd he1
    obtain ⟨h6, h7⟩ := h.destroy e
    unfold Table.destroy at h6 h7
    rw [hlook] at h6 h7
    simp only [he1, replicate_set] at h6 h7
    obtain ⟨r', h8, h9⟩ := destroySlots_ok v okv hv k (n + 1) es _ (by
      rw [List.replicate_succ (n := n), List.range'_succ]; exact h6) he2
    refine ⟨r', ?_, by rw [show k + 1 + n = k + (n + 1) by omega]; exact h9⟩
    unfold destroySlots
    simp only [h1, unwrap, hev, hv, h2.1, h2.2, h7, assertEq, assertThat, decide_true, ok_bind]
    exact h8

theorem deadSlots_ok {t : Table} {r : EntityRegistry} (h : TableRel env r t) (hd : ∀ x, t.look x = none) :
    ∀ es : List Entity, deadSlots env es r = .ok r
  | [] => rfl
  | e :: es => by
    have h1 := h.look_none.mp (hd e.pair)
    unfold deadSlots
    simp only [EntityRegistry.destroyEntity_dead h1, assertEq, assertThat, h1, Option.isNone_none, decide_true]
    exact deadSlots_ok h hd es

theorem look_dead (n : Nat) (v : UInt8) (st : List Nat) (x : Handle) :
    Table.look ⟨List.replicate n (v, none), st⟩ x = none := by
  unfold Table.look
  simp only [List.getElem?_replicate]
  split
  · next heq =>
    split at heq
    · cases heq; split <;> rfl
    · cases heq
  · rfl

theorem testManyEntities_pass (env : Env) (count : Nat) (hc : count < 16777215) :
    testManyEntities env count = .ok () := by
  have h0 := TableRel.empty env
  obtain ⟨r1, es1, a1, a2, a3⟩ := createSlots_new count 0 EntityRegistry.default (env := env) h0 (by omega)
  obtain ⟨r2, b1, b2⟩ := destroySlots_ok (env := env) 0 (fun v => v == 0) rfl count 0 es1.reverse r1
    (by simpa using a2) (by rw [List.map_reverse, a3, List.range_eq_range'])
  have hd2 := fun x => look_dead (count + 0) (0 + 1) (List.range' 0 (count + 0)) x
  obtain ⟨r3, es3, c1, c2, c3⟩ := createSlots_reuse (env := env) 1 count 0 r2 (by simpa using b2) (by omega)
  obtain ⟨r4, d1, d2⟩ := destroySlots_ok (env := env) 1 (fun v => v != 0) rfl count 0 es3.reverse r3
    (by simpa using c2) (by rw [List.map_reverse, c3, List.range_eq_range'])
  have hd4 := fun x => look_dead (count + 0) (1 + 1) (List.range' 0 (count + 0)) x
  have hi : EntityRegistry.default.destroyEntity env Entity.INVALID = (EntityRegistry.default, false) :=
    EntityRegistry.destroyEntity_dead (h0.look_none.mp rfl)
  have hi2 : r2.destroyEntity env Entity.INVALID = (r2, false) :=
    EntityRegistry.destroyEntity_dead (b2.look_none.mp (hd2 _))
  have n2 : IndexInArchetype.new 2 = some ⟨2⟩ := by decide
  have n1 : ArchetypeIndex.new 1 = some ⟨1⟩ := by decide
  unfold testManyEntities
  simp only [hi, n1, n2, unwrap, a1, b1, deadSlots_ok b2 hd2, hi2, c1, d1, deadSlots_ok d2 hd4, ok_bind, assertThat]
  rfl

end Shard
