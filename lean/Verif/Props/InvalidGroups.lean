import Verif.Props.Safety
/-!
# C20, C46: groups that name a component type twice
-/

set_option autoImplicit false

namespace Shard

variable {env : Env} {W : World env} {r : Registry}

/-- The group names a component type (or two types with the same id) twice. -/
def Group.Repeats (g : Group) : Prop := ¬ (g.map (fun c => c.id)).Nodup

theorem Group.Repeats.descriptor {g : Group} (h : g.Repeats) : g.descriptor env = ComponentGroupDescriptor.INVALID :=
  Group.descriptor_invalid_of_not_WF (fun hw => h hw.nodup)

theorem Group.Repeats.cons {g : Group} (h : g.Repeats) : ∃ c g', g = c :: g' := by
  cases g with
  | nil => exact absurd List.nodup_nil h
  | cons c g => exact ⟨c, g, rfl⟩

theorem Archetype.fuzzyPointers_invalid (a : Archetype) {g : Group} (h : g.descriptor env = ComponentGroupDescriptor.INVALID)
    (off k : Nat) : (a.getFuzzyPointersUnchecked env g off).getD k none = none := by
  have hc : ComponentGroupDescriptor.INVALID.archetype.components = [] := by decide +kernel
  unfold Archetype.getFuzzyPointersUnchecked
  rw [h, hc, List.getD, List.getElem?_map]
  cases (List.range MAX_COMPONENTS_PER_ENTITY)[k]? <;> rfl

theorem Archetype.fuzzyComponents_invalid (a : Archetype) {g : Group} (h : g.Repeats) (off : Nat) :
    a.getFuzzyComponentsUnchecked env g off = .error (if env.debug then .panic .debugAssert else .ub .nullDeref) ∧
    a.getFuzzyComponentsUncheckedMut env g off = .error (if env.debug then .panic .debugAssert else .ub .nullDeref) := by
  have hinv : ComponentGroupDescriptor.INVALID.isValid = false := by decide +kernel
  have hd := h.descriptor (env := env)
  have ht : a.derefTuple (Archetype.tuplePointers env g (a.getFuzzyPointersUnchecked env g off)) = .error (.ub .nullDeref) := by
    obtain ⟨c, g', rfl⟩ := h.cons
    unfold Archetype.tuplePointers
    rw [List.mapIdx_cons, a.fuzzyPointers_invalid hd]
    rfl
  unfold Archetype.getFuzzyComponentsUnchecked Archetype.getFuzzyComponentsUncheckedMut
  simp only [ht]
  rw [hd, hinv]
  unfold debugAssert
  cases env.debug <;> exact ⟨rfl, rfl⟩

/-! ## C20 -/

/-- The claim of **C20**: queries with a repeated component type do not fault and do not claim components the entity
lacks. -/
def C20_statement : Prop :=
  ∀ (env : Env) (W : World env) (r : Registry), Reachable W r → ∀ (e : Entity) (g : Group), (∀ c ∈ g, W.Has c) →
    g.Repeats →
    (r.hasComponents env g e = .ok true → ∀ c ∈ g, r.hasComponent env c e = .ok true) ∧
    (∃ o, r.getComponents env g e = .ok o) ∧ (∃ o, r.getComponentsMut env g e = .ok o)

set_option maxRecDepth 100000 in
/-- **C20** is false: `exE2` has no `C`, but `has_components::<(C, C)>` says it has. -/
theorem C20_violated : ¬ C20_statement := by
  intro h
  have := (h exEnv exWorld exR exReachable exE2 [exC, exC] (by show ∀ c ∈ _, c ∈ [exA, exB, exC]; decide)
    (by unfold Group.Repeats; decide)).1 (by decide +kernel) exC (by simp)
  exact absurd this (by decide +kernel)

/-- **C20** (partial: what happens instead) With a group that repeats a component type, `has_components` says whether
the handle is live, whatever its components are. `get_components` and `get_components_mut` return `None` for a handle
that is not live; for a live one they panic in debug builds and create null references in release builds. -/
theorem C20_repeated_types_partial (hr : Reachable W r) {g : Group} (hg : g.Repeats) (e : Entity) :
    (¬ Live env r e → r.hasComponents env g e = .ok false ∧ r.getComponents env g e = .ok none ∧
      r.getComponentsMut env g e = .ok none) ∧
    (Live env r e → r.hasComponents env g e = .ok true ∧
      r.getComponents env g e = .error (if env.debug then .panic .debugAssert else .ub .nullDeref) ∧
      r.getComponentsMut env g e = .error (if env.debug then .panic .debugAssert else .ub .nullDeref)) := by
  obtain ⟨cs, h⟩ := hr.inv
  refine ⟨fun hd => ?_, fun hl => ?_⟩
  · have := dead_ops (h.entry_none hd)
    exact ⟨this.2.1 g, this.2.2.2.1 g, this.2.2.2.2.2.1 g⟩
  · obtain ⟨en, he⟩ := h.live_entry.mp hl
    obtain ⟨a, ct, ha, hc, hrep, hk, _, _⟩ := h.entry he
    have hsub : a.descriptor.containsSubset ComponentGroupDescriptor.INVALID.archetype = true :=
      WFDesc.containsSubset_INVALID a.descriptor
    have hd := hg.descriptor (env := env)
    have hf := a.fuzzyComponents_invalid (env := env) hg en.indexInArchetype.value.toNat
    unfold Registry.hasComponents Registry.getComponents Registry.getComponentsMut ArchetypeRegistry.getUnchecked
    rw [he]
    simp only [indexUnchecked_of_getElem? ha, ok_bind]
    rw [hf.1, hf.2, hd, hsub]
    exact ⟨rfl, rfl, rfl⟩

set_option maxRecDepth 100000 in
/-- C20 on `exR`: a live and a dead handle, and the results. -/
example : Reachable exWorld exR ∧ Group.Repeats [exC, exC] ∧ Live exEnv exR exE2 ∧ ¬ Live exEnv exR exE3 ∧
    exR.hasComponents exEnv [exC, exC] exE2 = .ok true ∧ exR.hasComponent exEnv exC exE2 = .ok false ∧
    exR.getComponents exEnv [exC, exC] exE2 = .error (.ub .nullDeref) := by
  refine ⟨exReachable, by unfold Group.Repeats; decide, ?_, ?_, by decide +kernel⟩ <;>
  · unfold Live; rw [exR_live.1]; decide +kernel

/-! ## C46 -/

/-- The matching and filtered iterators over `g` all have the result `x` (`none`: they yield nothing). -/
def IteratorsAre (env : Env) (r : Registry) (g : Group) (x : Option Fault) : Prop :=
  (match x with
  | none => r.iterComponentsMatching env g = .ok [] ∧ r.iterComponentsMatchingMut env g = .ok [] ∧
      r.iterEntityComponentsMatching env g = .ok [] ∧ r.iterEntityComponentsMatchingMut env g = .ok [] ∧
      ∀ f, r.iterFilteredComponentsMatching env g f = .ok [] ∧ r.iterFilteredComponentsMatchingMut env g f = .ok [] ∧
        r.iterFilteredEntityComponentsMatching env g f = .ok [] ∧ r.iterFilteredEntityComponentsMatchingMut env g f = .ok []
  | some k => r.iterComponentsMatching env g = .error k ∧ r.iterComponentsMatchingMut env g = .error k ∧
      r.iterEntityComponentsMatching env g = .error k ∧ r.iterEntityComponentsMatchingMut env g = .error k ∧
      ∀ f, r.iterFilteredComponentsMatching env g f = .error k ∧ r.iterFilteredComponentsMatchingMut env g f = .error k ∧
        r.iterFilteredEntityComponentsMatching env g f = .error k ∧
        r.iterFilteredEntityComponentsMatchingMut env g f = .error k)

/-- The exact iterators over `g` yield nothing. -/
def ExactIteratorsEmpty (env : Env) (r : Registry) (g : Group) : Prop :=
  r.iterComponentsExact env g = .ok (g.map (fun _ => [])) ∧ r.iterComponentsExactMut env g = .ok none ∧
  r.iterEntityComponentsExact env g = .ok ([], g.map (fun _ => [])) ∧ r.iterEntityComponentsExactMut env g = .ok none

/-- The claim of **C46**: iterating with a group that repeats a component type yields nothing and does not panic. -/
def C46_statement : Prop :=
  ∀ (env : Env) (r : Registry) (g : Group), g.Repeats → IteratorsAre env r g none ∧ ExactIteratorsEmpty env r g

/-- **C46** is false: in a debug build `len() - 1` overflows when the iterator is created, even on an empty registry. -/
theorem C46_violated : ¬ C46_statement := by
  intro h
  have h1 := (h ⟨true, false, false⟩ Registry.default [exA, exA] (by unfold Group.Repeats; decide)).1.1
  have h2 : Registry.default.iterComponentsMatching ⟨true, false, false⟩ [exA, exA] = .error (.panic .overflow) := by
    decide +kernel
  rw [h1] at h2
  cases h2

/-- **C46** (partial: in debug builds the matching and filtered iterators panic when they are created) In every
registry, with every group that repeats a component type: in release builds every iterator yields nothing; in debug
builds the matching and filtered iterators overflow; the exact ones yield nothing in every build. -/
theorem C46_invalid_groups_partial (r : Registry) {g : Group} (hg : g.Repeats) :
    ExactIteratorsEmpty env r g ∧ (env.debug = false → IteratorsAre env r g none) ∧
    (env.debug = true → IteratorsAre env r g (some (.panic .overflow))) := by
  have hd := hg.descriptor (env := env)
  have hinv : ComponentGroupDescriptor.INVALID.isValid = false := by decide +kernel
  have hlen : ComponentGroupDescriptor.INVALID.len = 0 := by decide +kernel
  have hfind : r.archetypes.findArchetype env (g.descriptor env).archetype = .ok none := by
    have hv : ComponentGroupDescriptor.INVALID.archetype.isValid = false := hinv
    unfold ArchetypeRegistry.findArchetype
    rw [hd, hv, if_pos (Or.inr (by simp))]
  have hiter : ∀ {α : Type} (filter : ArchetypeDescriptor → Bool) (f : Archetype → M α),
      r.archetypes.iterate env g filter f = if env.debug then .error (.panic .overflow) else .ok [] := by
    intro α filter f
    unfold ArchetypeRegistry.iterate ArchIter.new subU8
    rw [hd, hlen]
    cases hdb : env.debug with
    | true => rfl
    | false =>
      simp only [if_false, Bool.false_eq_true]
      unfold ArchIter.collect ArchIter.next
      rw [hd, hinv]
      rfl
  refine ⟨?_, fun hdb => ?_, fun hdb => ?_⟩
  · unfold ExactIteratorsEmpty Registry.iterComponentsExact Registry.iterComponentsExactMut
      Registry.iterEntityComponentsExact Registry.iterEntityComponentsExactMut
    rw [hfind]
    exact ⟨rfl, rfl, rfl, rfl⟩
  · have : ∀ {α : Type} (filter : ArchetypeDescriptor → Bool) (f : Archetype → M α), r.archetypes.iterate env g filter f = .ok [] := by
      intro α filter f; rw [hiter, hdb]; rfl
    exact ⟨this _ _, this _ _, this _ _, this _ _, fun f => ⟨this _ _, this _ _, this _ _, this _ _⟩⟩
  · have : ∀ {α : Type} (filter : ArchetypeDescriptor → Bool) (f : Archetype → M α),
        r.archetypes.iterate env g filter f = .error (.panic .overflow) := by
      intro α filter f; rw [hiter, hdb]; rfl
    exact ⟨this _ _, this _ _, this _ _, this _ _, fun f => ⟨this _ _, this _ _, this _ _, this _ _⟩⟩

set_option maxRecDepth 100000 in
/-- C46 on `exR`: iterating over `(A, A)` in a release build yields nothing although there are entities with an `A`. -/
example : Group.Repeats [exA, exA] ∧ exEnv.debug = false ∧ exR.iterComponentsMatching exEnv [exA, exA] = .ok [] ∧
    exR.iterComponentsMatching exEnv [exA] ≠ .ok [] :=
  ⟨by unfold Group.Repeats; decide, rfl, by decide +kernel, by decide +kernel⟩

end Shard
