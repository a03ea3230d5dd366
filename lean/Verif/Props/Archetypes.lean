import Verif.Proofs.Archetypes
import Verif.Props.Example
/-!
# C64 and C65: the archetype registry on its own

`ArchetypeRegistry` is public, so these theorems are about sequences of calls on one that need not come from a `Registry`.
-/

set_option autoImplicit false

namespace Shard

/-! ## C64: the range check of the source index -/

/-- The claim of C64: a source index that names no archetype is answered with `None`. -/
def C64_claim (env : Env) : Prop := ∀ (ar : ArchetypeRegistry) (src : UInt16) (c : CompTy), ar.archetypes[src.toNat]? = none →
  ar.findOrCreateAdding env src c.descriptor = .ok (ar, none) ∧ ar.findOrCreateRemoving env src c.descriptor = .ok (ar, none)

/-- **C64** is violated: the range check (`archetype_registry/mod.rs:116`, `:144`) is off by one. On a new registry the index
0 passes it, and the indexing that follows panics. -/
theorem C64_violated (env : Env) : ¬ C64_claim env := by
  intro h
  have := (h ArchetypeRegistry.default 0 ⟨0, 1, 4, 4⟩ rfl).1
  unfold ArchetypeRegistry.findOrCreateAdding at this
  rw [if_neg (by decide)] at this
  cases this

/-- **C64** (what holds) Indices beyond the number of archetypes are answered with `None` and change nothing; the index
that equals the number of archetypes panics, in both functions. -/
theorem C64_range_check_partial (env : Env) (ar : ArchetypeRegistry) (src : UInt16) (c : CompTy)
    (h : ar.archetypes[src.toNat]? = none) :
    (src.toNat ≠ ar.archetypes.length → ar.findOrCreateAdding env src c.descriptor = .ok (ar, none) ∧
      ar.findOrCreateRemoving env src c.descriptor = .ok (ar, none)) ∧
    (src.toNat = ar.archetypes.length → ar.findOrCreateAdding env src c.descriptor = .error (.panic .indexOutOfBounds) ∧
      ar.findOrCreateRemoving env src c.descriptor = .error (.panic .indexOutOfBounds)) := by
  have hge := List.getElem?_eq_none_iff.mp h
  unfold ArchetypeRegistry.findOrCreateAdding ArchetypeRegistry.findOrCreateRemoving
  constructor
  · intro hne
    rw [if_pos (by omega), if_pos (by omega)]
    exact ⟨rfl, rfl⟩
  · intro he
    rw [if_neg (by omega), if_neg (by omega)]
    simp only [Shard.index, h]
    exact ⟨rfl, rfl⟩

/-- Both cases occur on a new registry. -/
example : ArchetypeRegistry.default.archetypes[(0 : UInt16).toNat]? = none ∧
    (0 : UInt16).toNat = ArchetypeRegistry.default.archetypes.length ∧
    ArchetypeRegistry.default.archetypes[(1 : UInt16).toNat]? = none ∧
    (1 : UInt16).toNat ≠ ArchetypeRegistry.default.archetypes.length := by decide

/-! ## C65: the archetype registry is an append-only list of keys -/

/-- **C65** (behaviour) Whatever sequence of calls is made on a new `ArchetypeRegistry` with descriptors of the program's
groups and components, the positions it answers with are those of the reference, and it panics exactly where the
reference says so. -/
theorem C65_archetypes_refine {env : Env} (W : World env) (calls : List ArchCall) (hok : OkCalls W [] calls) :
    (runArch env ArchetypeRegistry.default calls).1 = (refArch env [] calls).1 ∧
    (∀ l, (refArch env [] calls).2 = some l →
      ∃ ar, (runArch env ArchetypeRegistry.default calls).2 = .ok ar ∧ ar.keysOf = l) ∧
    ((refArch env [] calls).2 = none →
      (runArch env ArchetypeRegistry.default calls).2 = .error (.panic .indexOutOfBounds)) := by
  obtain ⟨h1, h2⟩ := (ArchRel.default W).run hok
  refine ⟨h1, ?_, ?_⟩
  · intro l hl
    rw [hl] at h2
    obtain ⟨ar, h3, h4, _⟩ := h2
    exact ⟨ar, h3, h4.2.symm⟩
  · intro hl
    rw [hl] at h2
    exact h2

/-- **C65** (append-only) Going on with further calls never moves, removes or changes an archetype: the archetypes there
were keep their positions, and what is added is empty. No two archetypes have the same component count and id, and the id
is one of the two hashes of the component set, so a component set has at most two archetypes; there are at most 65,534 of
them, and none has the reserved id. -/
theorem C65_append_only {env : Env} (W : World env) (calls more : List ArchCall) (ar : ArchetypeRegistry)
    (hok : OkCalls W [] calls) (h1 : (runArch env ArchetypeRegistry.default calls).2 = .ok ar)
    (hmore : OkCalls W ar.keysOf more) (ar' : ArchetypeRegistry) (h2 : (runArch env ar more).2 = .ok ar') :
    (∃ new, ar'.archetypes = ar.archetypes ++ new ∧ ∀ a ∈ new, a.entityCount = 0) ∧
    (ar'.keysOf.map (fun k => (k.1.length, k.2))).Nodup ∧ ar'.keysOf.length ≤ 65534 ∧
    ∀ k ∈ ar'.keysOf, k.2 ≠ 4294967295 ∧ (k.2 = plainId env k.1 ∨ k.2 = groupId env k.1) := by
  have hrel : ArchRel W ar ar.keysOf := by
    have := ((ArchRel.default W).run hok).2
    split at this
    · rw [h1] at this; cases this
    · obtain ⟨ar0, g1, g2, _⟩ := this
      rw [h1] at g1
      cases g1
      exact ⟨g2.1, rfl⟩
  have hx := (hrel.run hmore).2
  split at hx
  · rw [h2] at hx; cases hx
  · obtain ⟨ar0, g1, g2, new, g3, g4⟩ := hx
    rw [h2] at g1
    cases g1
    obtain ⟨cs, hi⟩ := g2.1
    have hinj : (ar'.keysOf.map (fun k => (k.1.length, k.2))).Nodup := by
      unfold ArchetypeRegistry.keysOf
      rw [List.map_map]
      refine List.pairwise_iff_getElem.mpr ?_
      intro i j hli hlj hij
      rw [List.length_map] at hli hlj
      have ei := List.getElem?_eq_getElem hli
      have ej := List.getElem?_eq_getElem hlj
      obtain ⟨ci, di⟩ := g2.wf ei
      obtain ⟨cj, dj⟩ := g2.wf ej
      rw [List.getElem_map, List.getElem_map]
      intro he
      have hl : ar'.archetypes[i].descriptor.ids.length = ar'.archetypes[j].descriptor.ids.length := congrArg Prod.fst he
      rw [di.wf.ids_length, dj.wf.ids_length] at hl
      have hid : ar'.archetypes[i].descriptor.archetypeId = ar'.archetypes[j].descriptor.archetypeId := congrArg Prod.snd he
      have := hi.unique_index ei ej hl hid
      omega
    refine ⟨⟨new, g3, g4⟩, hinj, ?_, ?_⟩
    · have := hi.le
      simpa [ArchetypeRegistry.keysOf] using this
    · intro k hk
      obtain ⟨a, ha, rfl⟩ := List.mem_map.mp hk
      obtain ⟨i, hlt, rfl⟩ := List.mem_iff_getElem.mp ha
      obtain ⟨ci, di⟩ := g2.wf (List.getElem?_eq_getElem hlt)
      have := di.valid
      unfold ArchetypeDescriptor.isValid at this
      exact ⟨bne_iff_ne.mp this, di.id⟩

/-- Calls that satisfy the hypotheses: two groups are looked up or created, a component is added, another removed, and one
source index is out of range. -/
def exArchCalls : List ArchCall :=
  [.find [exA], .findOrCreate [exA], .findOrCreate [exA], .adding 0 exB, .adding 1 exB, .removing 1 exA, .removing 9 exA,
   .find [exA]]

theorem OkCalls.cons {env : Env} {W : World env} {l : List ArchKey} {c : ArchCall} {rest : List ArchCall}
    {x : List ArchKey × Option Nat} (h : c.Ok W l) (hx : c.ref env l = some x) (hr : OkCalls W x.1 rest) :
    OkCalls W l (c :: rest) := ⟨h, fun y hy => by rw [hx] at hy; cases hy; exact hr⟩

theorem Group.key_single (env : Env) (c : CompTy) : Group.key env [c] = some ([c.id], groupId env [c.id]) := by
  unfold Group.key
  rw [if_pos ⟨by simp, by simp, by simp⟩]
  simp [Group.idSet]

theorem exArchGroup : exWorld.OkGroup [exA] :=
  ⟨fun c hc => by
    rw [List.mem_singleton.mp hc]
    exact List.mem_cons_self, by
    simp only [Group.idSet, List.map_cons, List.map_nil, List.mergeSort_singleton]
    exact List.mem_cons_self⟩

/-- The keys in the example. -/
def exKey1 : ArchKey := ([10], groupId exEnv [10])
def exKey2 : ArchKey := ([10, 20], plainId exEnv [10, 20])
def exKey3 : ArchKey := ([20], plainId exEnv [20])

theorem exArch_ok : OkCalls exWorld [] exArchCalls := by
  have hA : exWorld.Has exA := List.mem_cons_self
  have hB : exWorld.Has exB := List.mem_cons_of_mem _ List.mem_cons_self
  refine OkCalls.cons (x := ([], none)) exArchGroup ?_ ?_
  · unfold ArchCall.ref; dsimp only; rw [Group.key_single]; decide +kernel
  refine OkCalls.cons (x := ([exKey1], some 0)) exArchGroup ?_ ?_
  · unfold ArchCall.ref; dsimp only; rw [Group.key_single]; decide +kernel
  refine OkCalls.cons (x := ([exKey1], some 0)) exArchGroup ?_ ?_
  · unfold ArchCall.ref; dsimp only; rw [Group.key_single]; decide +kernel
  refine OkCalls.cons (x := ([exKey1, exKey2], some 1)) ⟨hB, ?_⟩ (by decide +kernel) ?_
  · intro k hk _
    cases hk
    show _ ∈ _
    decide +kernel
  refine OkCalls.cons (x := ([exKey1, exKey2], none)) ⟨hB, ?_⟩ (by decide +kernel) ?_
  · intro k hk hn
    cases hk
    exact absurd hn (by decide +kernel)
  refine OkCalls.cons (x := ([exKey1, exKey2, exKey3], some 2)) ⟨hA, ?_⟩ (by decide +kernel) ?_
  · intro k hk _ _
    cases hk
    show _ ∈ _
    decide +kernel
  refine OkCalls.cons (x := ([exKey1, exKey2, exKey3], none)) ⟨hA, ?_⟩ (by decide +kernel) ?_
  · intro k hk
    cases hk
  refine OkCalls.cons (x := ([exKey1, exKey2, exKey3], some 0)) exArchGroup ?_ trivial
  · unfold ArchCall.ref; dsimp only; rw [Group.key_single]; decide +kernel

/-- The answers in the example. -/
example : (runArch exEnv ArchetypeRegistry.default exArchCalls).1 =
    [none, some 0, some 0, some 1, none, some 2, none, some 0] := by
  rw [(C65_archetypes_refine exWorld exArchCalls exArch_ok).1]
  unfold exArchCalls
  simp only [refArch, ArchCall.ref, Group.key_single]
  decide +kernel

end Shard
