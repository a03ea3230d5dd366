import Verif.Props.Lifecycle
import Verif.Props.Safety
/-!
# C50, C51: zero-sized components, archetypes without capacity
-/

set_option autoImplicit false

namespace Shard

variable {env : Env} {W : World env} {r r' : Registry}

/-! ## C50 -/

theorem allocLoop_zst {ds : List ComponentDescriptor} {cap : Nat} (hz : env.zstAllocOk = false)
    (hal : ∀ d ∈ ds, powerOfTwo d.align = true) : ∀ (n lo : Nat) (ptrs : List (Option Block)), lo + n ≤ ptrs.length → lo + n ≤ ds.length →
    (∃ i d, lo ≤ i ∧ i < lo + n ∧ ds[i]? = some d ∧ d.size = 0) →
    forRange lo n (fun i ptrs => do
      let c ← index ds i
      let b ← allocBlock env (c.size * cap) c.align
      setIndex ptrs i (some b)) ptrs = .error (.ub .zeroSizedAlloc)
  | 0, lo, ptrs, _, _, h => by
    obtain ⟨i, d, h1, h2, _⟩ := h
    omega
  | n + 1, lo, ptrs, hl, hd, h => by
    have hlo : lo < ds.length := by omega
    unfold forRange
    simp only [index_lt hlo, ok_bind]
    have ha := hal _ (List.getElem_mem hlo)
    unfold allocBlock
    rw [if_neg (by rw [ha]; decide)]
    by_cases hs : ds[lo].size * cap = 0
    · rw [if_pos ⟨hs, by simp [hz]⟩]
      rfl
    · rw [if_neg (fun hc => hs hc.1)]
      simp only [ok_bind]
      rw [setIndex_lt (by omega)]
      simp only []
      refine allocLoop_zst hz hal n (lo + 1) _ (by simp; omega) (by omega) ?_
      obtain ⟨i, d, h1, h2, h3, h4⟩ := h
      refine ⟨i, d, ?_, by omega, h3, h4⟩
      rcases Nat.lt_or_ge lo i with hx | hx
      · exact hx
      · have : i = lo := by omega
        subst this
        rw [List.getElem?_eq_getElem hlo] at h3
        cases h3
        rw [h4] at hs
        simp at hs

/-- The claim of **C50**: storing components, some of which have size zero, never calls the allocator with a zero-sized
layout. -/
def C50_statement : Prop :=
  ∀ (env : Env) (r : Registry) (g : Group) (vals : List Val), TypedVals g vals →
    r.createEntity env g vals ≠ .error (.ub .zeroSizedAlloc)

/-- A type of size zero and its only value. -/
def exZ : CompTy := ⟨7, 70, 0, 1⟩
def exValZ : Val := ⟨7, []⟩

set_option maxRecDepth 100000 in
/-- **C50** is false: the first entity with a zero-sized component makes the registry allocate zero bytes, which
`GlobalAlloc` does not allow. -/
theorem C50_violated : ¬ C50_statement :=
  fun h => h exEnv Registry.default [exA, exZ] [exValA, exValZ] (typedCheck_ok (by decide)) (by decide +kernel)

/-- In any registry, the first creation of a component set with a zero-sized type is a zero-sized allocation. -/
theorem C50_zero_sized_fault (hz : env.zstAllocOk = false) (r : Registry) {g : Group} (hv : (g.descriptor env).isValid = true)
    (hal : ∀ c ∈ g, c.align < 65536 ∧ ∃ k, c.align = 2 ^ k) (hc : ∃ c ∈ g, c.size = 0)
    (hnew : r.archetypes.findArchetype env (g.descriptor env).archetype = .ok none)
    (hroom : r.archetypes.archetypes.length < MAX_ARCHETYPE_COUNT) (vals : List Val) :
    r.createEntity env g vals = .error (.ub .zeroSizedAlloc) := by
  have gs := Group.spec hv
  have hle : g.length ≤ 14 := gs.wf.le
  have h14 : MAX_COMPONENTS_PER_ENTITY = 14 := rfl
  have hcl := gs.components_length
  have hal' : ∀ d ∈ (g.descriptor env).archetype.components, powerOfTwo d.align = true := by
    intro d hd
    obtain ⟨c, hc, rfl⟩ := List.mem_map.mp (gs.perm.mem_iff.mp hd)
    have := hal c hc
    show powerOfTwo (c.align % 65536) = true
    rw [Nat.mod_eq_of_lt this.1]
    exact powerOfTwo_iff.2 this
  have hsz : ∃ i d, 0 ≤ i ∧ i < 0 + (g.descriptor env).archetype.components.length ∧
      (g.descriptor env).archetype.components[i]? = some d ∧ d.size = 0 := by
    obtain ⟨c, hc, hs⟩ := hc
    have : c.descriptor ∈ (g.descriptor env).archetype.components := gs.perm.mem_iff.mpr (List.mem_map.mpr ⟨c, hc, rfl⟩)
    obtain ⟨i, hi⟩ := List.mem_iff_getElem?.mp this
    refine ⟨i, _, Nat.zero_le _, by have := (List.getElem?_eq_some_iff.mp hi).1; omega, hi, ?_⟩
    show c.size % 65536 = 0
    rw [hs]
  have halloc : Archetype.withCapacity env (g.descriptor env).archetype DEFAULT_ARCHETYPE_ALLOCATION_SIZE =
      .error (.ub .zeroSizedAlloc) := by
    unfold Archetype.withCapacity
    rw [ensure_true gs.valid]
    simp only [ok_bind]
    rw [if_pos (by decide)]
    unfold Archetype.allocColumns
    rw [allocLoop_zst hz hal' _ 0 _ (by rw [List.length_replicate, hcl]; omega) (by omega) hsz]
    rfl
  unfold Registry.createEntity
  rw [if_neg (by simp [hv])]
  unfold ArchetypeRegistry.findOrCreateArchetype
  unfold ArchetypeRegistry.findArchetype at hnew
  have hcond : ¬ ((g.descriptor env).archetype.len > MAX_COMPONENTS_PER_ENTITY ∨ ¬ (g.descriptor env).archetype.isValid = true) := by
    rw [gs.len, gs.valid]
    simp only [not_true_eq_false, or_false]
    omega
  rw [if_neg hcond] at hnew ⊢
  cases hs : r.archetypes.searchLevel env (g.descriptor env).archetype with
  | error f => rw [hs] at hnew; cases hnew
  | ok x =>
    obtain ⟨keys, s⟩ := x
    rw [hs] at hnew
    simp only [ok_bind] at hnew ⊢
    cases s with
    | found i =>
      exfalso
      simp only at hnew
      cases hk : index keys i with
      | error f => rw [hk] at hnew; cases hnew
      | ok k =>
        rw [hk] at hnew
        simp only [ok_bind] at hnew
        cases ha : index r.archetypes.archetypes k.archetypeIndex.toNat with
        | error f => rw [ha] at hnew; cases hnew
        | ok a => rw [ha] at hnew; cases hnew
    | insertAt i =>
      simp only []
      rw [if_neg (by omega), halloc]
      rfl

set_option maxRecDepth 100000 in
/-- C50 on `exR`: a group with a zero-sized type that has no archetype yet. -/
example : exEnv.zstAllocOk = false ∧ (Group.descriptor exEnv [exA, exZ]).isValid = true ∧
    (∀ c ∈ [exA, exZ], c.align < 65536 ∧ ∃ k, c.align = 2 ^ k) ∧ (∃ c ∈ [exA, exZ], c.size = 0) ∧
    exR.archetypes.findArchetype exEnv (Group.descriptor exEnv [exA, exZ]).archetype = .ok none ∧
    exR.archetypes.archetypes.length < MAX_ARCHETYPE_COUNT := by
  refine ⟨rfl, by decide +kernel, ?_, ⟨exZ, by decide, rfl⟩, by decide +kernel, by decide +kernel⟩
  intro c hc
  simp only [List.mem_cons, List.not_mem_nil, or_false] at hc
  rcases hc with rfl | rfl
  · exact ⟨by decide, 2, by decide⟩
  · exact ⟨by decide, 0, by decide⟩

/-- **C50** (partial: with an allocator that does not tolerate zero-sized requests, `C50_zero_sized_fault` shows that
every use of a zero-sized type misuses it) In a program whose component types all have positive sizes, or with an
allocator that tolerates zero-sized requests (this is what `World` asks for), no disciplined call within the limits
misuses the allocator or faults in any other way, and created components of any size, zero included, are read back. -/
theorem C50_zero_sized_partial (hr : Reachable W r) :
    (∀ c, W.Has c → 0 < c.size ∨ env.zstAllocOk = true) ∧
    (∀ call : Call, call.Disciplined W r → call.WithinLimits W r → ∃ r' out, call.run env r = .ok (r', out)) ∧
    (∀ g vals r' e, (Call.create g vals).Admissible W r → r.createEntity env g vals = .ok (r', .ok e) →
      ∀ (i : Nat) (c : CompTy) (v : Val), g[i]? = some c → vals[i]? = some v → r'.getComponent env c e = .ok (some v)) :=
  ⟨fun _ hc => W.zst hc, (C36_memory_safety_partial hr).1, fun _ _ _ _ hadm hx => (C10_create_then_read hr hadm hx).1⟩

/-- A debug build with an allocator that tolerates zero-sized requests, and a program with a zero-sized type. -/
def exEnvZ : Env := ⟨true, false, true⟩
def exWorldZ : World exEnvZ := .ofLists exEnvZ [exA, exZ] [[10], [70], [10, 70]] (by decide +kernel)

set_option maxRecDepth 100000 in
/-- C50 for `exWorldZ`: a value of the zero-sized type is stored and read back. -/
example : exWorldZ.Has exZ ∧ exZ.size = 0 ∧ Reachable exWorldZ Registry.default ∧
    (Call.create [exZ, exA] [exValZ, exValA]).Admissible exWorldZ Registry.default ∧
    (do let x ← Registry.default.createEntity exEnvZ [exZ, exA] [exValZ, exValA]
        x.1.getComponent exEnvZ exZ (Entity.newUnchecked 0 0)) = .ok (some exValZ) :=
  ⟨by show exZ ∈ [exA, exZ]; decide, rfl, ⟨[], Steps.nil⟩, (createCheck_ok (by decide) _).1, by decide +kernel⟩

/-! ## C51 -/

/-- The claim of **C51**: an archetype constructed with capacity 0 or with a capacity above the maximum owns no memory
and can be pushed to. -/
def C51_statement : Prop :=
  ∀ (env : Env) (W : World env) (g : Group) (cap : Nat), W.OkGroup g → (g.descriptor env).isValid = true →
    (cap = 0 ∨ cap > MAX_ENTITIES_PER_ARCHETYPE) →
    ∃ a, Archetype.withCapacity env (g.descriptor env).archetype cap = .ok a ∧ a.NoMemory ∧
      ∀ (e : Entity) (vals : List Val), TypedVals g vals → ∃ a' i, a.pushEntityUnchecked env e g vals = .ok (a', i)

/-- **C51** (partial: no memory is allocated, and the archetype can be dropped; but it cannot be pushed to) An archetype
constructed with capacity 0 or with a capacity above the maximum owns no memory, is empty and drops nothing. The first
push, of whatever values, reallocates a null pointer. -/
theorem C51_no_capacity_partial {g : Group} (hv : (g.descriptor env).isValid = true) {cap : Nat}
    (hc : cap = 0 ∨ cap > MAX_ENTITIES_PER_ARCHETYPE) :
    ∃ a, Archetype.withCapacity env (g.descriptor env).archetype cap = .ok a ∧
      a.descriptor = (g.descriptor env).archetype ∧ a.NoMemory ∧ a.entityCount = 0 ∧ a.capacity = 0 ∧ a.drop = .ok ([], a) ∧
      (∀ (e : Entity) (vals : List Val), a.pushEntityUnchecked env e g vals = .error (.ub .badRealloc)) ∧
      a.pushUninitializedEntity env = .error (.ub .badRealloc) := by
  have gs := Group.spec hv
  have hresize : Archetype.resizeIfNecessary env ⟨(g.descriptor env).archetype, List.replicate MAX_COMPONENTS_PER_ENTITY none,
      none, 0, 0⟩ = .error (.ub .badRealloc) := by
    unfold Archetype.resizeIfNecessary Archetype.isFull
    rw [if_pos (by simp), if_pos rfl]
    unfold Archetype.resizeCapacity
    rw [if_neg (show ¬ (((0 : Nat) : Int) + (DEFAULT_ARCHETYPE_ALLOCATION_SIZE : Int) ≤ 0 ∨
      ((0 : Nat) : Int) + (DEFAULT_ARCHETYPE_ALLOCATION_SIZE : Int) ≥ (MAX_ENTITIES_PER_ARCHETYPE : Int)) by decide)]
  refine ⟨⟨_, List.replicate MAX_COMPONENTS_PER_ENTITY none, none, 0, 0⟩, ?_, rfl,
    ⟨fun p hp => (List.mem_replicate.mp hp).2, rfl⟩, rfl, rfl, rfl, fun e vals => ?_, ?_⟩
  · unfold Archetype.withCapacity
    rw [ensure_true gs.valid]
    simp only [ok_bind]
    rw [if_neg (by omega)]
    rfl
  · unfold Archetype.pushEntityUnchecked
    rw [debugAssert_true hv, debugAssert_true (by simp)]
    simp only [ok_bind]
    rw [hresize]
    rfl
  · unfold Archetype.pushUninitializedEntity
    rw [hresize]
    rfl

set_option maxRecDepth 100000 in
/-- **C51** is false: `realloc` is called with a null pointer. -/
theorem C51_violated : ¬ C51_statement := by
  intro h
  obtain ⟨a, h1, _, h2⟩ := h exEnv exWorld [exA] 0
    ((exCheck_ok (call := .create [exA] [exValA]) (by decide +kernel) Registry.default).2 (by decide)) (by decide +kernel) (Or.inl rfl)
  obtain ⟨a', i, h3⟩ := h2 Entity.INVALID [exValA] (typedCheck_ok (by decide))
  obtain ⟨b, h4, _, _, _, _, _, h5, _⟩ := C51_no_capacity_partial (env := exEnv) (g := [exA]) (by decide +kernel) (Or.inl rfl)
  rw [h1] at h4
  cases h4
  exact absurd (h5 Entity.INVALID [exValA]) (by rw [h3]; intro hc; cases hc)

/-- C51 on the group `(B, A)`, with both kinds of capacity. -/
example : (Group.descriptor exEnv [exB, exA]).isValid = true ∧ (16777216 > MAX_ENTITIES_PER_ARCHETYPE) := by decide +kernel

end Shard
