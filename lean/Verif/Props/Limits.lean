import Verif.Proofs.Progress
import Verif.Props.Example
/-!
# C27, C28, C38, C52–C54: archetypes, capacities and when calls succeed
-/

set_option autoImplicit false

namespace Shard

variable {env : Env} {W : World env} {r r' : Registry}

/-- Few entities are live in `exR`. -/
theorem exFew {P : Entity → Prop} (h : ∀ e, P e → Live exEnv exR e) : FewerThan STORAGE_LIMIT P := by
  intro l hn hp
  have := hn.length_le_of_subset (l₂ := [exE1, exE2, exE4]) (fun e he => by
    have := h e (hp e he)
    unfold Live at this
    rwa [exR_live.1] at this)
  exact Nat.lt_of_le_of_lt this (by decide)

/-- The ids of an entity of `exR`. -/
theorem exHasId {e : Entity} {i : UInt16} : HasId exWorld exR e i ↔
    i ∈ ([exA, exB, exC].filter (fun c => exR.hasComponent exEnv c e = .ok true)).map (fun c => c.id) := by
  rw [List.mem_map]
  constructor
  · rintro ⟨c, h1, h2, h3⟩
    exact ⟨c, List.mem_filter.mpr ⟨h1, by simpa using h3⟩, h2⟩
  · rintro ⟨c, h1, h2⟩
    obtain ⟨h3, h4⟩ := List.mem_filter.mp h1
    exact ⟨c, h3, h2, by simpa using h4⟩

/-- **C52** `create_entity` with a valid group succeeds exactly if an archetype for the group is there or can be created
and the entity table is not full; otherwise the components are handed back. (The archetype must not be one that cannot
grow any more, see `C37`.) -/
theorem C52_create_progress (hr : Reachable W r) {g : Group} {vals : List Val}
    (hadm : (Call.create g vals).Admissible W r) (hv : (g.descriptor env).isValid = true)
    (hfew : FewerThan STORAGE_LIMIT (fun x => HasExactly W r x g)) :
    ((∃ r' e, r.createEntity env g vals = .ok (r', .ok e)) ↔
      Room r.archetypes g.length (groupId env g.idSet) ∧ r.entities.entities.length < MAX_ENTITY_HANDLE_VALUE) ∧
    (¬ (Room r.archetypes g.length (groupId env g.idSet) ∧ r.entities.entities.length < MAX_ENTITY_HANDLE_VALUE) →
      ∃ r', r.createEntity env g vals = .ok (r', .err vals)) := by
  obtain ⟨cs, h⟩ := hr.inv
  have hg := (hadm.2 (Group.spec hv).wf.nodup).has
  rcases h.create_cases hadm hv with ⟨h1, h2⟩ | ⟨h1, h2, r1, h3⟩ | ⟨h1, h2, h3 | ⟨h3, _⟩⟩
  · refine ⟨⟨?_, fun hx => absurd hx.1 h1⟩, fun _ => ⟨r, h2⟩⟩
    rintro ⟨r1, e, h3⟩
    rw [h2] at h3; cases h3
  · refine ⟨⟨?_, fun hx => absurd hx.2 (by omega)⟩, fun _ => ⟨r1, h3⟩⟩
    rintro ⟨r1, e, h4⟩
    rw [h3] at h4; cases h4
  · exact ⟨⟨fun _ => ⟨h1, h2⟩, fun _ => h3⟩, fun hx => absurd ⟨h1, h2⟩ hx⟩
  · exact absurd h3 (h.not_full_group hg hfew)

set_option maxRecDepth 100000 in
/-- C52 on `exR`. -/
example : Reachable exWorld exR ∧ (Call.create [exC, exB] [exValC, exValB]).Admissible exWorld exR ∧
    (Group.descriptor exEnv [exC, exB]).isValid = true ∧
    FewerThan STORAGE_LIMIT (fun x => HasExactly exWorld exR x [exC, exB]) ∧
    Room exR.archetypes 2 (groupId exEnv [20, 30]) :=
  ⟨exReachable, exCheck_ok (by decide +kernel) _, by decide +kernel, exFew (fun _ h => h.1), by decide +kernel,
    Or.inr (by decide +kernel)⟩

/-- **C53** `add_component` of a new component to an entity with at most 12 components succeeds exactly if an archetype
for the new set is there or can be created; otherwise it hands the component back and changes nothing. (13 components:
`C25`; an archetype that cannot grow any more: `C37`.) -/
theorem C53_add_progress (hr : Reachable W r) {e : Entity} {c : CompTy} {v : Val}
    (hadm : (Call.add e c v).Admissible W r) (hl : Live env r e) (hn : r.hasComponent env c e = .ok false)
    {t : List UInt16} (ht : AscSet t (WithId W r e c)) (hlen : t.length ≤ 13)
    (hfew : FewerThan STORAGE_LIMIT (fun x => HasSet W r x t)) :
    ((∃ r', r.addComponent env e c v = .ok (r', .ok ())) ↔ Room r.archetypes t.length (plainId env t)) ∧
    (¬ Room r.archetypes t.length (plainId env t) → r.addComponent env e c v = .ok (r, .err v)) := by
  obtain ⟨cs, h⟩ := hr.inv
  obtain ⟨f, hf⟩ := h.live_iff.mp hl
  have hnone : f c = none := by
    rw [h.hasComponent_eq hadm.1, hf] at hn
    simpa using hn
  obtain ⟨s, hs, _⟩ := h.ascSet hl
  obtain ⟨t', ht', hl'⟩ := withId hadm.1 hn hs
  rw [← ht.unique ht'] at hl'
  rcases h.add_cases hadm hf hnone hs ht with ⟨h1, _⟩ | ⟨h1, _⟩ | ⟨_, h2, h3⟩ | ⟨_, h2, h3 | ⟨h3, _⟩⟩
  · omega
  · omega
  · refine ⟨⟨?_, fun hx => absurd hx h2⟩, fun _ => h3⟩
    rintro ⟨r1, h4⟩
    rw [h3] at h4; cases h4
  · exact ⟨⟨fun _ => h2, fun _ => h3⟩, fun hx => absurd h2 hx⟩
  · exact absurd h3 (h.not_full_with hf hadm.1 ht hfew)

set_option maxRecDepth 100000 in
/-- C53 on `exR`: `exE2` has only `A`. -/
example : Reachable exWorld exR ∧ (Call.add exE2 exB exValB).Admissible exWorld exR ∧ Live exEnv exR exE2 ∧
    exR.hasComponent exEnv exB exE2 = .ok false ∧ AscSet [10, 20] (WithId exWorld exR exE2 exB) ∧
    FewerThan STORAGE_LIMIT (fun x => HasSet exWorld exR x [10, 20]) ∧ Room exR.archetypes 2 (plainId exEnv [10, 20]) := by
  refine ⟨exReachable, exCheck_ok (by decide +kernel) _, by unfold Live; rw [exR_live.1]; decide, by decide +kernel,
    ⟨by decide, fun i => ?_⟩, exFew (fun _ h => h.1), by decide +kernel, Or.inr (by decide +kernel)⟩
  unfold WithId
  rw [exHasId]
  have : ([exA, exB, exC].filter (fun c => exR.hasComponent exEnv c exE2 = .ok true)).map (fun c => c.id) = [10] := by
    decide +kernel
  rw [this, show exB.id = 20 from rfl]
  simp only [List.mem_cons, List.not_mem_nil, or_false]
  exact Or.comm

/-- **C54** `remove_component` of a component of an entity with 2 to 13 components succeeds exactly if an archetype for
the remaining set is there or can be created; otherwise it changes nothing. (14 components: `C26`; an archetype that
cannot grow any more: `C37`.) -/
theorem C54_remove_progress (hr : Reachable W r) {e : Entity} {c : CompTy}
    (hadm : (Call.remove e c).Admissible W r) (hy : r.hasComponent env c e = .ok true)
    {t : List UInt16} (ht : AscSet t (WithoutId W r e c)) (hpos : 1 ≤ t.length) (hlen : t.length ≤ 12)
    (hfew : FewerThan STORAGE_LIMIT (fun x => HasSet W r x t)) :
    ((∃ r' v, r.removeComponent env e c = .ok (r', .ok v)) ↔ Room r.archetypes t.length (plainId env t)) ∧
    (¬ Room r.archetypes t.length (plainId env t) → r.removeComponent env e c = .ok (r, .err ())) := by
  obtain ⟨cs, h⟩ := hr.inv
  cases hf : r.look env cs e with
  | none => rw [h.hasComponent_eq hadm.1, hf] at hy; cases hy
  | some f =>
    obtain ⟨v, hsome⟩ := Option.isSome_iff_exists.mp ((h.has_iff hf hadm.1).mp hy)
    obtain ⟨s, hs, _⟩ := h.ascSet (h.live_iff.mpr ⟨f, hf⟩)
    obtain ⟨t', ht', hl'⟩ := withoutId hadm.1 hy hs
    rw [← ht.unique ht'] at hl'
    rcases h.remove_cases hadm hf hsome hs ht with ⟨h1, _⟩ | ⟨h1, _⟩ | ⟨_, _, h2, h3⟩ | ⟨_, _, h2, ⟨r1, h3⟩ | ⟨h3, _⟩⟩
    · omega
    · omega
    · refine ⟨⟨?_, fun hx => absurd hx h2⟩, fun _ => h3⟩
      rintro ⟨r1, v, h4⟩
      rw [h3] at h4; cases h4
    · exact ⟨⟨fun _ => h2, fun _ => ⟨r1, v, h3⟩⟩, fun hx => absurd h2 hx⟩
    · exact absurd h3 (h.not_full_without hf hadm.1 ht hfew)

set_option maxRecDepth 100000 in
/-- C54 on `exR`: `exE1` has `A`, `B` and `C`. -/
example : Reachable exWorld exR ∧ (Call.remove exE1 exB).Admissible exWorld exR ∧
    exR.hasComponent exEnv exB exE1 = .ok true ∧ AscSet [10, 30] (WithoutId exWorld exR exE1 exB) ∧
    FewerThan STORAGE_LIMIT (fun x => HasSet exWorld exR x [10, 30]) ∧ Room exR.archetypes 2 (plainId exEnv [10, 30]) := by
  refine ⟨exReachable, exCheck_ok (by decide +kernel) _, by decide +kernel,
    ⟨by decide, fun i => ?_⟩, exFew (fun _ h => h.1), by decide +kernel, Or.inr (by decide +kernel)⟩
  unfold WithoutId
  rw [exHasId]
  have : ([exA, exB, exC].filter (fun c => exR.hasComponent exEnv c exE1 = .ok true)).map (fun c => c.id) = [10, 20, 30] := by
    decide +kernel
  rw [this, show exB.id = 20 from rfl]
  simp only [List.mem_cons, List.not_mem_nil, or_false]
  constructor
  · rintro (rfl | rfl)
    · exact ⟨by decide, Or.inl rfl⟩
    · exact ⟨by decide, Or.inr (Or.inr rfl)⟩
  · rintro ⟨h1, rfl | h | rfl⟩
    · exact Or.inl rfl
    · exact absurd h h1
    · exact Or.inr rfl

/-- An archetype that is there is valid. -/
theorem RInv.room_of_has {cs : List Content} (h : RInv W r cs) {n : Nat} {id : UInt32} (hh : HasArchetype r.archetypes n id) :
    Room r.archetypes n id := by
  refine ⟨?_, Or.inl hh⟩
  obtain ⟨a, ha, _, rfl⟩ := hh
  obtain ⟨i, hi⟩ := List.mem_iff_getElem?.mp ha
  obtain ⟨ct, _, hr⟩ := h.arch.content hi
  have := hr.desc.valid
  unfold ArchetypeDescriptor.isValid at this
  simpa using this

/-- **C27** The archetype limit is graceful: there are never more than 65,534 archetypes; archetype indices are positions
of archetypes, hence never the reserved 65,535; when the limit is reached, an operation that needs a new archetype hands
the value back and changes nothing, and an operation whose archetype exists works. -/
theorem C27_archetype_limit (hr : Reachable W r) :
    r.archetypes.archetypes.length ≤ 65534 ∧
    (∀ e en, r.entities.entityEntry env e = some en →
      (en.archetypeIndex env).toNat < r.archetypes.archetypes.length) ∧
    (∀ d ar i, W.Desc d → r.archetypes.findOrCreateArchetype env d = .ok (ar, some i) →
      i.toNat < ar.archetypes.length ∧ ar.archetypes.length ≤ 65534) ∧
    (r.archetypes.archetypes.length = 65534 →
      (∀ g vals, (Call.create g vals).Admissible W r → (g.descriptor env).isValid = true →
        (¬ HasArchetype r.archetypes g.length (groupId env g.idSet) → r.createEntity env g vals = .ok (r, .err vals)) ∧
        (HasArchetype r.archetypes g.length (groupId env g.idSet) →
          r.entities.entities.length < MAX_ENTITY_HANDLE_VALUE → FewerThan STORAGE_LIMIT (fun x => HasExactly W r x g) →
          ∃ r' e, r.createEntity env g vals = .ok (r', .ok e))) ∧
      (∀ e c v t, (Call.add e c v).Admissible W r → Live env r e → r.hasComponent env c e = .ok false →
        AscSet t (WithId W r e c) → t.length ≤ 13 →
        (¬ HasArchetype r.archetypes t.length (plainId env t) → r.addComponent env e c v = .ok (r, .err v)) ∧
        (HasArchetype r.archetypes t.length (plainId env t) → FewerThan STORAGE_LIMIT (fun x => HasSet W r x t) →
          ∃ r', r.addComponent env e c v = .ok (r', .ok ()))) ∧
      (∀ e c t, (Call.remove e c).Admissible W r → r.hasComponent env c e = .ok true →
        AscSet t (WithoutId W r e c) → 1 ≤ t.length → t.length ≤ 12 →
        (¬ HasArchetype r.archetypes t.length (plainId env t) → r.removeComponent env e c = .ok (r, .err ())) ∧
        (HasArchetype r.archetypes t.length (plainId env t) → FewerThan STORAGE_LIMIT (fun x => HasSet W r x t) →
          ∃ r' v, r.removeComponent env e c = .ok (r', .ok v)))) := by
  obtain ⟨cs, h⟩ := hr.inv
  refine ⟨h.arch.le, ?_, ?_, fun hmax => ⟨?_, ?_, ?_⟩⟩
  · intro e en he
    obtain ⟨a, ct, ha, _⟩ := h.entry he
    exact (List.getElem?_eq_some_iff.mp ha).1
  · intro d ar i hd hf
    obtain ⟨cts, hd⟩ := hd.descOK
    rcases h.arch.findOrCreate_spec hd with ⟨j, b, h1, h2, _⟩ | ⟨_, ⟨_, h1⟩ | ⟨ar', a, j, h1, h2, h3, h4⟩⟩
    · rw [hf] at h1; cases h1
      exact ⟨(List.getElem?_eq_some_iff.mp h2).1, h.arch.le⟩
    · rw [hf] at h1; cases h1
    · rw [hf] at h2; cases h2
      rw [h4.archetypes, List.length_append, List.length_singleton]
      omega
  · intro g vals hadm hv
    constructor
    · intro hno
      have hroom : ¬ Room r.archetypes g.length (groupId env g.idSet) := by
        rintro ⟨_, hx | hx⟩
        · exact hno hx
        · omega
      rcases h.create_cases hadm hv with ⟨_, h2⟩ | ⟨h1, _⟩ | ⟨h1, _⟩
      · exact h2
      · exact absurd h1 hroom
      · exact absurd h1 hroom
    · intro hyes hlt hfew
      exact (C52_create_progress hr hadm hv hfew).1.mpr ⟨h.room_of_has hyes, hlt⟩
  · intro e c v t hadm hl hn ht hlen
    constructor
    · intro hno
      have hroom : ¬ Room r.archetypes t.length (plainId env t) := by
        rintro ⟨_, hx | hx⟩
        · exact hno hx
        · omega
      obtain ⟨f, hf⟩ := h.live_iff.mp hl
      have hnone : f c = none := by
        rw [h.hasComponent_eq hadm.1, hf] at hn
        simpa using hn
      obtain ⟨s, hs, _⟩ := h.ascSet hl
      obtain ⟨t', ht', hl'⟩ := withId hadm.1 hn hs
      rw [← ht.unique ht'] at hl'
      rcases h.add_cases hadm hf hnone hs ht with ⟨h1, _⟩ | ⟨h1, _⟩ | ⟨_, h2, h3⟩ | ⟨_, h2, _⟩
      · omega
      · omega
      · exact h3
      · exact absurd h2 hroom
    · intro hyes hfew
      exact (C53_add_progress hr hadm hl hn ht hlen hfew).1.mpr (h.room_of_has hyes)
  · intro e c t hadm hy ht hpos hlen
    constructor
    · intro hno
      have hroom : ¬ Room r.archetypes t.length (plainId env t) := by
        rintro ⟨_, hx | hx⟩
        · exact hno hx
        · omega
      cases hf : r.look env cs e with
      | none => rw [h.hasComponent_eq hadm.1, hf] at hy; cases hy
      | some f =>
        obtain ⟨v, hsome⟩ := Option.isSome_iff_exists.mp ((h.has_iff hf hadm.1).mp hy)
        obtain ⟨s, hs, _⟩ := h.ascSet (h.live_iff.mpr ⟨f, hf⟩)
        obtain ⟨t', ht', hl'⟩ := withoutId hadm.1 hy hs
        rw [← ht.unique ht'] at hl'
        rcases h.remove_cases hadm hf hsome hs ht with ⟨h1, _⟩ | ⟨h1, _⟩ | ⟨_, _, h2, h3⟩ | ⟨_, _, h2, _⟩
        · omega
        · omega
        · exact h3
        · exact absurd h2 hroom
    · intro hyes hfew
      exact (C54_remove_progress hr hadm hy ht hpos hlen hfew).1.mpr (h.room_of_has hyes)

/-- **C28** Archetype lookup is stable: `find_or_create_archetype` returns an archetype with the requested number of
components and id, and asking again returns the same index and creates nothing; over any later history every archetype
keeps its index and its descriptor (component set and id), and a descriptor that was found is found at the same index. -/
theorem C28_stable_lookup (hr : Reachable W r) {d : ArchetypeDescriptor} (hd : W.Desc d) :
    (∀ ar i, r.archetypes.findOrCreateArchetype env d = .ok (ar, some i) →
      (∃ a, ar.archetypes[i.toNat]? = some a ∧ a.descriptor.len = d.len ∧ a.descriptor.archetypeId = d.archetypeId) ∧
      ar.findArchetype env d = .ok (some i.toNat) ∧ ar.findOrCreateArchetype env d = .ok (ar, some i)) ∧
    (∀ hist, Steps env (Call.Admissible W) r hist r' →
      (∀ (i : Nat) (a : Archetype), r.archetypes.archetypes[i]? = some a →
        ∃ a', r'.archetypes.archetypes[i]? = some a' ∧ a'.descriptor = a.descriptor) ∧
      (∀ i, r.archetypes.findArchetype env d = .ok (some i) →
        r'.archetypes.findArchetype env d = .ok (some i) ∧
        r'.archetypes.findOrCreateArchetype env d = .ok (r'.archetypes, some (UInt16.ofNat i)))) := by
  obtain ⟨cs, h⟩ := hr.inv
  constructor
  · intro ar i hf
    have key : ∀ {ar : ArchetypeRegistry} {cs : List Content} {i : UInt16} {a : Archetype}, ARInv W ar cs →
        ar.archetypes[i.toNat]? = some a → a.descriptor.len = d.len → a.descriptor.archetypeId = d.archetypeId →
        (∃ a, ar.archetypes[i.toNat]? = some a ∧ a.descriptor.len = d.len ∧ a.descriptor.archetypeId = d.archetypeId) ∧
        ar.findArchetype env d = .ok (some i.toNat) ∧ ar.findOrCreateArchetype env d = .ok (ar, some i) := by
      intro ar cs i a h h1 h2 h3
      refine ⟨⟨a, h1, h2, h3⟩, h.find_of h1 h2.symm h3.symm, ?_⟩
      rw [h.findOrCreate_of h1 hd h2.symm h3.symm, UInt16.ofNat_toNat]
    obtain ⟨cts, hdo⟩ := hd.descOK
    rcases h.arch.findOrCreate_spec hdo with ⟨j, b, h1, h2, h3, h4⟩ | ⟨_, ⟨_, h1⟩ | ⟨ar', a, j, h1, h2, h3, h4⟩⟩
    · rw [hf] at h1; cases h1
      exact key h.arch h2 h3 h4
    · rw [hf] at h1; cases h1
    · rw [hf] at h2; cases h2
      refine key h4.inv (a := a) ?_ (by rw [h4.desc]) (by rw [h4.desc])
      rw [h4.archetypes, h3]
      simp
  · intro hist hs
    have hdesc : ∀ (i : Nat) (a : Archetype), r.archetypes.archetypes[i]? = some a →
        ∃ a', r'.archetypes.archetypes[i]? = some a' ∧ a'.descriptor = a.descriptor :=
      fun i a ha => hs.descriptors (fun _ _ h => h) h ha
    refine ⟨hdesc, fun i hf => ?_⟩
    obtain ⟨cs', h'⟩ := hs.inv (fun _ _ h => h) h
    obtain ⟨a, h1, h2, h3⟩ := h.arch.find_some hd hf
    obtain ⟨a', h4, h5⟩ := hdesc i a h1
    exact ⟨h'.arch.find_of h4 (by rw [h5, h2]) (by rw [h5, h3]),
      h'.arch.findOrCreate_of h4 hd (by rw [h5, h2]) (by rw [h5, h3])⟩

set_option maxRecDepth 100000 in
/-- C28 on `exR`: the descriptor of (B, A) is found at index 0; a descriptor derived with `add_component` at index 2. -/
example : Reachable exWorld exR ∧ exWorld.Desc (Group.descriptor exEnv [exB, exA]).archetype ∧
    exR.archetypes.findArchetype exEnv (Group.descriptor exEnv [exB, exA]).archetype = .ok (some 0) ∧
    ∃ d, exWorld.Desc d ∧ exR.archetypes.findArchetype exEnv d = .ok (some 2) := by
  have h1 : exWorld.Desc (Group.descriptor exEnv [exB, exA]).archetype :=
    .group ((exCheck_ok (call := .create [exB, exA] [exValB, exValA]) (by decide +kernel) exR).2 (by decide)) (by decide +kernel)
  refine ⟨exReachable, h1, by decide +kernel, ?_⟩
  cases hx : (Group.descriptor exEnv [exB, exA]).archetype.addComponent exEnv exC.descriptor with
  | error f =>
    have : (match (Group.descriptor exEnv [exB, exA]).archetype.addComponent exEnv exC.descriptor with
      | .ok (some _) => true | _ => false) = true := by decide +kernel
    rw [hx] at this; cases this
  | ok o =>
    cases o with
    | none =>
      have : (match (Group.descriptor exEnv [exB, exA]).archetype.addComponent exEnv exC.descriptor with
        | .ok (some _) => true | _ => false) = true := by decide +kernel
      rw [hx] at this; cases this
    | some d =>
      have h2 : (match (Group.descriptor exEnv [exB, exA]).archetype.addComponent exEnv exC.descriptor with
        | .ok (some d) => decide (d.isValid = true ∧ d.components.map (fun c => c.id) = [10, 20, 30] ∧
            exR.archetypes.findArchetype exEnv d = .ok (some 2)) | _ => false) = true := by decide +kernel
      rw [hx] at h2
      obtain ⟨q1, q2, q3⟩ := of_decide_eq_true h2
      refine ⟨d, .add h1 (c := exC) ?_ hx q1 ?_, q3⟩
      · show exC ∈ [exA, exB, exC]; decide
      · rw [q2]
        show [10, 20, 30] ∈ [[10], [20], [30], [10, 20], [10, 30], [20, 30], [10, 20, 30]]
        decide

/-- **C38** Capacity doubling: the capacity of every archetype is 128 times a power of two and not below its length; a call
changes the capacity of an archetype only if that is full and gains an entity, and then exactly doubles it; a new archetype
has capacity 128; and every component value that was stored before a creation, addition or removal is there afterwards
(except the one that is removed), so values survive growth. -/
theorem C38_capacity (hr : Reachable W r) :
    (∀ a ∈ r.archetypes.archetypes, (∃ k, a.capacity = 128 * 2 ^ k) ∧ a.entityCount ≤ a.capacity) ∧
    (∀ (call : Call) (out : Outcome), call.Admissible W r → call.run env r = .ok (r', out) →
      (∀ (i : Nat) (a : Archetype), r.archetypes.archetypes[i]? = some a → ∃ a', r'.archetypes.archetypes[i]? = some a' ∧
        (a'.capacity = a.capacity ∨
          a'.capacity = 2 * a.capacity ∧ a.entityCount = a.capacity ∧ a'.entityCount = a.entityCount + 1)) ∧
      (∀ (i : Nat) (a' : Archetype), r.archetypes.archetypes[i]? = none → r'.archetypes.archetypes[i]? = some a' →
        a'.capacity = 128) ∧
      ((∃ g vals, call = .create g vals) ∨ (∃ e c v, call = .add e c v) ∨ (∃ e c, call = .remove e c) →
        ∀ x c w, W.Has c → r.getComponent env c x = .ok (some w) →
          r'.getComponent env c x = .ok (some w) ∨ call = .remove x c)) := by
  obtain ⟨cs, h⟩ := hr.inv
  constructor
  · intro a ha
    obtain ⟨i, hi⟩ := List.mem_iff_getElem?.mp ha
    obtain ⟨ct, _, hrep⟩ := h.arch.content hi
    obtain ⟨k, _, hk⟩ := hrep.cap
    refine ⟨⟨k, hk⟩, ?_⟩
    rw [hrep.count]
    exact hrep.ents.len
  · intro call out hadm hrun
    obtain ⟨cs', hst⟩ := h.step hadm hrun
    refine ⟨?_, hst.arch.new, ?_⟩
    · intro i a ha
      obtain ⟨a', h1, _, h3⟩ := hst.arch.old i a ha
      exact ⟨a', h1, h3⟩
    · intro hcall x c w hc hw
      rw [hst.inv.getComponent_eq hc]
      rw [h.getComponent_eq hc] at hw
      have habs := hst.abs
      rcases hcall with ⟨g, vals, rfl⟩ | ⟨e, c1, v, rfl⟩ | ⟨e, c1, rfl⟩
      · left
        simp only [AMap.Step] at habs
        rcases habs with ⟨_, e, _, h1, h2⟩ | ⟨_, _, h2⟩
        · rw [h2]
          by_cases hx : x = e
          · subst hx; rw [h1] at hw; cases hw
          · rw [AMap.set_ne hx]; exact hw
        · rw [h2]; exact hw
      · left
        simp only [AMap.Step] at habs
        cases hf : r.look env cs e with
        | none => rw [hf] at habs; rw [habs.2.2]; exact hw
        | some f =>
          rw [hf] at habs
          rcases habs with ⟨_, h1, h2⟩ | ⟨_, _, h2⟩
          · rw [h2]
            by_cases hx : x = e
            · subst hx
              rw [AMap.set_self]
              rw [hf] at hw
              by_cases hcc : c = c1
              · subst hcc
                simp [h1] at hw
              · simpa [setComp, hcc] using hw
            · rw [AMap.set_ne hx]; exact hw
          · rw [h2]; exact hw
      · simp only [AMap.Step] at habs
        cases hf : r.look env cs e with
        | none => rw [hf] at habs; left; rw [habs.2]; exact hw
        | some f =>
          rw [hf] at habs
          rcases habs with ⟨_, v, h1, _, _, h2⟩ | ⟨_, h2⟩
          · by_cases hx : x = e
            · subst hx
              by_cases hcc : c = c1
              · right; rw [hcc]
              · left
                rw [h2, AMap.set_self]
                rw [hf] at hw
                simpa [setComp, hcc] using hw
            · left; rw [h2, AMap.set_ne hx]; exact hw
          · left; rw [h2]; exact hw

/-- 129 creations of the same kind. -/
def exMany : List Call := List.replicate 129 (.create [exA] [exValA])

set_option maxRecDepth 100000 in
/-- C38 at work: the 129th creation finds the archetype full and doubles it; the first value is still there. -/
example : (runCalls exEnv Registry.default exMany).map (fun x => (x.2.archetypes.archetypes.map (fun a => (a.capacity, a.entityCount)),
      x.2.getComponent exEnv exA (Entity.newUnchecked 0 0))) = .ok ([(256, 129)], .ok (some exValA)) ∧
    ∀ call ∈ exMany, ∀ r, call.Admissible exWorld r := by
  refine ⟨by decide +kernel, fun call hc r => exCheck_ok ?_ r⟩
  rw [List.eq_of_mem_replicate hc]
  decide

end Shard
