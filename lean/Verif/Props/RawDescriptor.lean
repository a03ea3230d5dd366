import Verif.Proofs.RawDescriptor
import Verif.Props.Hash
import Verif.Props.Example
/-!
# C73, C74: descriptors built through the public functions
-/

set_option autoImplicit false

namespace Shard

variable {env : Env}

/-- The archetype descriptors a program can have without calling `ArchetypeDescriptor::new` itself: the constant, the
descriptor of a component group, a component descriptor (its fields are public, so any) turned into an archetype
descriptor, and what `add_component` and `remove_component` make of them. -/
inductive Derived (env : Env) : ArchetypeDescriptor → Prop
  | invalid : Derived env ArchetypeDescriptor.INVALID
  | ofGroup (g : Group) : Derived env (g.descriptor env).archetype
  | ofComponent (cd : ComponentDescriptor) : Derived env cd.intoArchetype
  | add {d d' : ArchetypeDescriptor} (h : Derived env d) (cd : ComponentDescriptor)
      (hd : d.addComponentAny env cd = .ok (some d')) : Derived env d'
  | remove {d d' : ArchetypeDescriptor} (h : Derived env d) (id : UInt16)
      (hd : d.removeComponentAny env id = .ok (some d')) : Derived env d'

/-- All archetype descriptors a program can have: `ArchetypeDescriptor::new` stores any id, any `u8` and any array of 14
component descriptors. -/
inductive Obtained (env : Env) : ArchetypeDescriptor → Prop
  | derived {d : ArchetypeDescriptor} (h : Derived env d) : Obtained env d
  | new (id : UInt32) (len : UInt8) (comps : List ComponentDescriptor) (h : comps.length = 14) :
      Obtained env (ArchetypeDescriptor.new id len.toNat comps)
  | add {d d' : ArchetypeDescriptor} (h : Obtained env d) (cd : ComponentDescriptor)
      (hd : d.addComponentAny env cd = .ok (some d')) : Obtained env d'
  | remove {d d' : ArchetypeDescriptor} (h : Obtained env d) (id : UInt16)
      (hd : d.removeComponentAny env id = .ok (some d')) : Obtained env d'

/-- The ids among the 14 slots that the length of a descriptor covers. -/
def ArchetypeDescriptor.shown (d : ArchetypeDescriptor) : List UInt16 := (d.comps.map (fun c => c.id)).take d.len

theorem ArchetypeDescriptor.shown_eq (d : ArchetypeDescriptor) : d.shown = d.ids := by
  unfold shown ids components
  rw [List.map_take]

/-- **C73** as documented at `archetype_descriptor.rs:25-28`: a descriptor that reports to be valid has between 1 and 14
components, all different. -/
def C73_statement : Prop := ∀ (env : Env) (d : ArchetypeDescriptor), Obtained env d → d.isValid = true →
  1 ≤ d.len ∧ d.len ≤ 14 ∧ d.shown.Nodup

/-- **C73** does not hold: `ArchetypeDescriptor::new` checks neither the length against 14 nor the components. -/
theorem C73_violated : ¬ C73_statement := by
  intro h
  have := (h exEnv _ (.new 7 20 (List.replicate 14 exA.descriptor) rfl) (by decide)).2.1
  exact absurd this (by decide)

/-- The same for duplicate components, with a length inside the bounds. -/
theorem C73_duplicates_violated : ∃ d, Obtained exEnv d ∧ d.isValid = true ∧ 1 ≤ d.len ∧ d.len ≤ 14 ∧ ¬ d.shown.Nodup :=
  ⟨_, .new 7 2 (List.replicate 14 exA.descriptor) rfl, by decide, by decide, by decide, by decide⟩

/-- A descriptor that reports to be valid although every access to its components panics. -/
theorem C73_panics_violated : ∃ d, Obtained exEnv d ∧ d.isValid = true ∧
    d.componentsAny = .error (.panic .indexOutOfBounds) ∧
    (∀ c, d.hasComponentAny c = .error (.panic .indexOutOfBounds)) ∧
    (∀ cd, d.addComponentAny exEnv cd = .error (.panic .indexOutOfBounds)) :=
  ⟨_, .new 7 20 (List.replicate 14 exA.descriptor) rfl, by decide, rfl, fun _ => rfl, fun _ => rfl⟩

theorem into_eq (cd : ComponentDescriptor) : cd.intoArchetype =
    ⟨cd.id.toUInt32, cd :: List.replicate (MAX_COMPONENTS_PER_ENTITY - 1) ComponentDescriptor.INVALID, 1⟩ := by
  have hne : cd.id.toUInt32 ≠ ARCHETYPE_ID_INVALID := by
    intro h
    have h1 := congrArg UInt32.toNat h
    rw [UInt16.toNat_toUInt32] at h1
    have h2 : ARCHETYPE_ID_INVALID.toNat = 4294967295 := rfl
    have h3 := cd.id.toNat_lt
    omega
  unfold ComponentDescriptor.intoArchetype ArchetypeDescriptor.new
  rw [if_neg]
  rintro (h | h)
  · cases h
  · exact hne h

theorem wfDesc_into (cd : ComponentDescriptor) : WFDesc cd.intoArchetype ∧
    cd.intoArchetype.ids = [cd.id] ∧ cd.intoArchetype.archetypeId.toNat = cd.id.toNat := by
  rw [into_eq]
  refine ⟨⟨rfl, by simp, by simp [MAX_COMPONENTS_PER_ENTITY], ?_⟩, rfl, UInt16.toNat_toUInt32 _⟩
  show SortedLt [cd.id.toNat]
  simp [SortedLt]

theorem add_to_invalid (cd : ComponentDescriptor) :
    ArchetypeDescriptor.INVALID.addComponent env cd = .ok (some cd.intoArchetype) := by
  rw [into_eq]
  rfl

theorem remove_from_invalid (id : UInt16) : ArchetypeDescriptor.INVALID.removeComponent env id = .ok none := rfl

/-- What is known of a descriptor made without `new`. -/
structure Proper (env : Env) (d : ArchetypeDescriptor) : Prop where
  comps : d.comps.length = 14
  len : d.len ≤ 14
  ascending : d.ids.Pairwise (· < ·)
  wf : d = ArchetypeDescriptor.INVALID ∨ WFDesc d ∧
    (d.archetypeId.toNat = Spec.groupId env.bigEndian d.ids ∨ d.archetypeId.toNat = Spec.movedId env.bigEndian d.ids)

theorem WFDesc.ascending {d : ArchetypeDescriptor} (h : WFDesc d) : d.ids.Pairwise (· < ·) := by
  have := h.sorted
  unfold ArchetypeDescriptor.ids
  rw [List.pairwise_map]
  unfold SortedLt at this
  rw [List.pairwise_map] at this
  exact this.imp (fun h => UInt16.lt_iff_toNat_lt.mpr h)

theorem WFDesc.proper {d : ArchetypeDescriptor} (h : WFDesc d)
    (hid : d.archetypeId.toNat = Spec.groupId env.bigEndian d.ids ∨ d.archetypeId.toNat = Spec.movedId env.bigEndian d.ids) :
    Proper env d := ⟨h.comps_len, h.len_le, h.ascending, Or.inr ⟨h, hid⟩⟩

theorem Proper.invalid : Proper env ArchetypeDescriptor.INVALID := ⟨rfl, by decide, by decide, Or.inl rfl⟩

theorem moved_of_computed {d : ArchetypeDescriptor} (hd : WFDesc d)
    (he : d.archetypeId = ArchetypeDescriptor.computeArchetypeId env d.components) :
    d.archetypeId.toNat = Spec.movedId env.bigEndian d.ids := by
  have h1 := hd.components_length
  have h2 := hd.len_pos
  have h3 : d.len ≤ 14 := hd.len_le
  rw [he, computeArchetypeId_moved env d.components (by omega) (by omega)]
  rfl

theorem Derived.proper {d : ArchetypeDescriptor} (h : Derived env d) : Proper env d := by
  induction h with
  | invalid => exact Proper.invalid
  | ofGroup g =>
    cases hv : (g.descriptor env).isValid with
    | false =>
      rw [Group.descriptor_invalid_or hv]
      exact Proper.invalid
    | true =>
      have sp := Group.spec hv
      refine sp.desc.proper (Or.inl ?_)
      have hperm : (g.descriptor env).archetype.ids.Perm (g.map (fun c => c.id)) := by
        have := sp.perm.map (fun (c : ComponentDescriptor) => c.id)
        rw [List.map_map] at this
        exact this
      exact ((C57_group_ids env g _ hperm (sp.desc.ascending.imp (fun h => UInt16.le_of_lt h))).2.1 hv).2
  | ofComponent cd =>
    obtain ⟨hw, hi, hid⟩ := wfDesc_into cd
    refine hw.proper (Or.inr ?_)
    rw [hi, hid]
    rfl
  | @add d d' _ cd hd ih =>
    rw [ArchetypeDescriptor.addComponentAny_eq ih.comps ih.len] at hd
    rcases ih.wf with hI | ⟨hw, _⟩
    · subst hI
      rw [add_to_invalid] at hd
      cases hd
      obtain ⟨hw, hi, hid⟩ := wfDesc_into cd
      refine hw.proper (Or.inr ?_)
      rw [hi, hid]
      rfl
    · by_cases hp : cd.id ∈ d.ids
      · rw [ArchetypeDescriptor.addComponent_present hw hp] at hd; cases hd
      · by_cases hl : d.len ≤ 12
        · obtain ⟨d1, i, h1, hw1, _, _, _, hid⟩ := ArchetypeDescriptor.addComponent_spec (env := env) (cd := cd) hw hl hp
          rw [h1] at hd
          cases hd
          exact hw1.proper (Or.inr (moved_of_computed hw1 hid))
        · have := ih.len
          by_cases h13 : d.len = 13
          · rw [ArchetypeDescriptor.addComponent_thirteen hw h13 hp] at hd; cases hd
          · rw [ArchetypeDescriptor.addComponent_full (by omega)] at hd; cases hd
  | @remove d d' _ id hd ih =>
    rw [ArchetypeDescriptor.removeComponentAny_eq ih.comps ih.len] at hd
    rcases ih.wf with hI | ⟨hw, _⟩
    · subst hI
      rw [remove_from_invalid] at hd
      cases hd
    · by_cases hp : id ∈ d.ids
      · have := ih.len
        have hpos := hw.len_pos
        by_cases h1 : d.len = 1
        · rw [ArchetypeDescriptor.removeComponent_one h1] at hd; cases hd
        · by_cases h14 : d.len = 14
          · rw [ArchetypeDescriptor.removeComponent_fourteen hw h14 hp] at hd; cases hd
          · obtain ⟨i, hi, he⟩ := hw.mem_ids_iff.mp hp
            obtain ⟨d1, h1, hw1, _, _, hid⟩ :=
              ArchetypeDescriptor.removeComponent_spec (env := env) hw (by omega) (by omega) hi he
            rw [h1] at hd
            cases hd
            exact hw1.proper (Or.inr (moved_of_computed hw1 hid))
      · rw [ArchetypeDescriptor.removeComponent_absent hw hp] at hd; cases hd

theorem Proper.nodup {d : ArchetypeDescriptor} (h : Proper env d) : d.ids.Nodup :=
  h.ascending.imp (fun h => UInt16.ne_of_lt h)

theorem Proper.ids_length {d : ArchetypeDescriptor} (h : Proper env d) : d.ids.length = d.len := by
  unfold ArchetypeDescriptor.ids ArchetypeDescriptor.components
  rw [List.length_map, List.length_take, h.comps]
  exact Nat.min_eq_left h.len

/-- **C73**, the part that holds: a descriptor made without calling `ArchetypeDescriptor::new` directly has at most 14
components in ascending id order, hence all different. It reports to be valid only if it has one. It reports to be invalid
only if it is the constant `INVALID` or the hash of its ids happens to be the reserved id. On two such descriptors all
functions answer as operations on finite sets of ids, without a panic except for adding to 13 and removing from 14
components. Missing: descriptors made by `ArchetypeDescriptor::new`, for which `C73_violated`, `C73_duplicates_violated`
and `C73_panics_violated` are counterexamples. -/
theorem C73_partial (env : Env) (d : ArchetypeDescriptor) (hd : Derived env d) :
    -- the validity check
    d.len ≤ 14 ∧ d.shown.length = d.len ∧ d.shown.Pairwise (· < ·) ∧ d.shown.Nodup ∧ (d.isValid = true → 1 ≤ d.len) ∧
    (d.isValid = false → d = ArchetypeDescriptor.INVALID ∨
      Spec.groupId env.bigEndian d.shown = 2 ^ 32 - 1 ∨ Spec.movedId env.bigEndian d.shown = 2 ^ 32 - 1) ∧
    -- the observers
    d.componentsAny = .ok (d.comps.take d.len) ∧
    (∀ c : CompTy, d.hasComponentAny c = .ok (decide (c.id ∈ d.shown))) ∧
    (∀ o, Derived env o → d.containsSubsetAny o = .ok (decide (∀ id ∈ o.shown, id ∈ d.shown)) ∧
      d.excludesSubsetAny o = .ok (decide (∀ id ∈ o.shown, id ∉ d.shown))) ∧
    -- adding and removing
    (∀ cd : ComponentDescriptor,
      (d.len = 14 ∨ cd.id ∈ d.shown → d.addComponentAny env cd = .ok none) ∧
      (d.len = 13 → cd.id ∉ d.shown → d.addComponentAny env cd = .error (.panic .indexOutOfBounds)) ∧
      (¬ (13 ≤ d.len ∨ cd.id ∈ d.shown) → ∃ d', d.addComponentAny env cd = .ok (some d') ∧
        d'.shown.Perm (cd.id :: d.shown) ∧ d'.archetypeId.toNat = Spec.movedId env.bigEndian d'.shown)) ∧
    (∀ id : UInt16,
      (d.len = 1 ∨ id ∉ d.shown → d.removeComponentAny env id = .ok none) ∧
      (d.len = 14 → id ∈ d.shown → d.removeComponentAny env id = .error (.panic .indexOutOfBounds)) ∧
      (¬ (d.len = 1 ∨ d.len = 14 ∨ id ∉ d.shown) → ∃ d', d.removeComponentAny env id = .ok (some d') ∧
        (id :: d'.shown).Perm d.shown ∧ d'.archetypeId.toNat = Spec.movedId env.bigEndian d'.shown)) := by
  have hp := hd.proper
  have hM : MAX_COMPONENTS_PER_ENTITY = 14 := rfl
  simp only [ArchetypeDescriptor.shown_eq]
  refine ⟨hp.len, hp.ids_length, hp.ascending, hp.nodup, ?_, ?_, ArchetypeDescriptor.slice_ok hp.comps hp.len, ?_, ?_, ?_, ?_⟩
  · intro hv
    rcases hp.wf with h | ⟨h, _⟩
    · subst h; exact absurd hv (by decide)
    · exact h.len_pos
  · intro hv
    rcases hp.wf with h | ⟨_, h⟩
    · exact Or.inl h
    · right
      have hI : d.archetypeId.toNat = 2 ^ 32 - 1 := by
        unfold ArchetypeDescriptor.isValid at hv
        simp only [bne_eq_false_iff_eq] at hv
        rw [hv]; rfl
      rcases h with h | h
      · left; rw [← h, hI]
      · right; rw [← h, hI]
  · intro c
    unfold ArchetypeDescriptor.hasComponentAny
    rw [ArchetypeDescriptor.slice_ok hp.comps hp.len, ok_bind, pure_eq_ok]
    congr 1
    rw [Bool.eq_iff_iff, decide_eq_true_iff]
    rcases hp.wf with h | ⟨h, _⟩
    · subst h
      exact ⟨fun h => absurd h Bool.false_ne_true, fun h => absurd h List.not_mem_nil⟩
    · exact h.hasComponent_iff c
  · intro o ho
    have ho := ho.proper
    rw [ArchetypeDescriptor.containsSubsetAny_eq hp.comps ho.comps, ArchetypeDescriptor.excludesSubsetAny_eq hp.comps ho.comps,
      if_pos hp.len, if_pos hp.len, if_pos ho.len]
    constructor
    · by_cases hs : ∀ id ∈ o.ids, id ∈ d.ids
      · have hle := nodup_subset_length ho.nodup hs
        rw [ho.ids_length, hp.ids_length] at hle
        rw [if_neg (by omega), if_pos hs, decide_eq_true hs]
      · rw [if_neg hs, decide_eq_false hs]
        split <;> rfl
    · by_cases h0 : d.len = 0 ∨ o.len = 0
      · rw [if_pos h0, decide_eq_true]
        intro id hid hid'
        have h1 := List.length_pos_of_mem hid
        have h2 := List.length_pos_of_mem hid'
        rw [ho.ids_length] at h1
        rw [hp.ids_length] at h2
        omega
      · rw [if_neg h0]
        by_cases hs : ∀ id ∈ o.ids, id ∉ d.ids
        · rw [if_pos hs, decide_eq_true hs]
        · rw [if_neg hs, decide_eq_false hs]
  · intro cd
    rw [ArchetypeDescriptor.addComponentAny_eq hp.comps hp.len]
    rcases hp.wf with h | ⟨h, _⟩
    · subst h
      have h0 : ArchetypeDescriptor.INVALID.ids = [] := rfl
      have h1 : ArchetypeDescriptor.INVALID.len = 0 := rfl
      rw [h0, h1]
      refine ⟨by simp, by simp, fun _ => ⟨_, add_to_invalid cd, ?_, ?_⟩⟩
      · rw [(wfDesc_into cd).2.1]
      · rw [(wfDesc_into cd).2.1, (wfDesc_into cd).2.2]; rfl
    · refine ⟨?_, fun h13 hc => ArchetypeDescriptor.addComponent_thirteen h h13 hc, ?_⟩
      · rintro (h14 | hc)
        · exact ArchetypeDescriptor.addComponent_full h14
        · exact ArchetypeDescriptor.addComponent_present h hc
      · intro hn
        have hc : cd.id ∉ d.ids := fun h => hn (Or.inr h)
        have hl : d.len ≤ 12 := by
          have : ¬ 13 ≤ d.len := fun h => hn (Or.inl h)
          omega
        obtain ⟨d1, i, h1, hw1, _, _, hcm, hid⟩ := ArchetypeDescriptor.addComponent_spec (env := env) (cd := cd) h hl hc
        refine ⟨d1, h1, ?_, moved_of_computed hw1 hid⟩
        unfold ArchetypeDescriptor.ids
        rw [hcm, List.map_append, List.map_cons]
        refine List.perm_middle.trans ?_
        rw [← List.map_append, List.take_append_drop]
  · intro id
    rw [ArchetypeDescriptor.removeComponentAny_eq hp.comps hp.len]
    rcases hp.wf with h | ⟨h, _⟩
    · subst h
      have h0 : ArchetypeDescriptor.INVALID.ids = [] := rfl
      rw [h0]
      refine ⟨fun _ => remove_from_invalid id, by simp, fun hn => absurd (Or.inr (Or.inr (by simp))) hn⟩
    · refine ⟨?_, fun h14 hc => ArchetypeDescriptor.removeComponent_fourteen h h14 hc, ?_⟩
      · rintro (h1 | hc)
        · exact ArchetypeDescriptor.removeComponent_one h1
        · exact ArchetypeDescriptor.removeComponent_absent h hc
      · intro hn
        have hc : id ∈ d.ids := Classical.byContradiction fun h => hn (Or.inr (Or.inr h))
        have h1 : d.len ≠ 1 := fun h => hn (Or.inl h)
        have h14 : d.len ≠ 14 := fun h => hn (Or.inr (Or.inl h))
        have hpos := h.len_pos
        have hle := hp.len
        obtain ⟨i, hi, he⟩ := h.mem_ids_iff.mp hc
        obtain ⟨d1, h1, hw1, _, hcm, hid⟩ :=
          ArchetypeDescriptor.removeComponent_spec (env := env) h (by omega) (by omega) hi he
        refine ⟨d1, h1, ?_, moved_of_computed hw1 hid⟩
        unfold ArchetypeDescriptor.ids
        rw [hcm, ← he, List.eraseIdx_eq_take_drop_succ]
        refine List.Perm.trans ?_ (List.Perm.of_eq (congrArg (List.map _) (List.take_append_drop i d.components)))
        rw [List.drop_eq_getElem_cons hi, List.map_append, List.map_append, List.map_cons]
        exact List.perm_middle.symm

/-- **C74** The functions of a descriptor with any fields, `d` and `o` of any length up to 255: each answers, or panics
on an array access, as stated; none has undefined behaviour. `shown` are the ids in the slots that the length covers.
The binary searches on components that are not in ascending order may or may not find an id that is there; the statement
leaves that open. -/
theorem C74_any_descriptor (env : Env) (d o : ArchetypeDescriptor) (hd : d.comps.length = 14) (ho : o.comps.length = 14) :
    -- `components` and `has_component` look at the slice `0..len`
    (d.componentsAny = if d.len ≤ 14 then .ok (d.comps.take d.len) else .error (.panic .indexOutOfBounds)) ∧
    (∀ c : CompTy, 14 < d.len → d.hasComponentAny c = .error (.panic .indexOutOfBounds)) ∧
    (∀ c : CompTy, d.len ≤ 14 → ∃ b, d.hasComponentAny c = .ok b ∧ (b = true → c.id ∈ d.shown) ∧
      (d.shown.Pairwise (· < ·) → c.id ∈ d.shown → b = true)) ∧
    -- `contains_subset`: a longer descriptor is never contained
    (d.len < o.len → d.containsSubsetAny o = .ok false) ∧
    (o.len ≤ d.len → (∀ id ∈ o.shown, id ∈ d.shown) → o.len ≤ 14 → d.containsSubsetAny o = .ok true) ∧
    (o.len ≤ d.len → (∀ id ∈ o.shown, id ∈ d.shown) → 14 < o.len →
      d.containsSubsetAny o = .error (.panic .indexOutOfBounds)) ∧
    (o.len ≤ d.len → (∃ id ∈ o.shown, id ∉ d.shown) → d.len ≤ 14 → d.containsSubsetAny o = .ok false) ∧
    (o.len ≤ d.len → (∃ id ∈ o.shown, id ∉ d.shown) → 14 < d.len →
      d.containsSubsetAny o = .error (.panic .indexOutOfBounds)) ∧
    -- `excludes_subset`
    (d.len = 0 ∨ o.len = 0 → d.excludesSubsetAny o = .ok true) ∧
    (1 ≤ d.len → d.len ≤ 14 → 1 ≤ o.len → (∃ id ∈ o.shown, id ∈ d.shown) → d.excludesSubsetAny o = .ok false) ∧
    (1 ≤ d.len → d.len ≤ 14 → 1 ≤ o.len → (∀ id ∈ o.shown, id ∉ d.shown) →
      d.excludesSubsetAny o = if o.len ≤ 14 then .ok true else .error (.panic .indexOutOfBounds)) ∧
    (14 < d.len → 1 ≤ o.len → ∀ id, o.shown[0]? = some id →
      d.excludesSubsetAny o = if id ∈ d.shown then .ok false else .error (.panic .indexOutOfBounds)) ∧
    -- `add_component`, `remove_component`
    (∀ cd, 14 < d.len → d.addComponentAny env cd = .error (.panic .indexOutOfBounds)) ∧
    (∀ id, 14 < d.len → d.removeComponentAny env id = .error (.panic .indexOutOfBounds)) ∧
    (∀ cd, d.len ≤ 14 →
      (d.addComponentAny env cd = .ok none ∧ (d.len = 14 ∨ cd.id ∈ d.shown)) ∨
      (d.len = 13 ∧ d.addComponentAny env cd = .error (.panic .indexOutOfBounds)) ∨
      (d.len ≤ 12 ∧ ∃ d' pre post, d.addComponentAny env cd = .ok (some d') ∧ d.shown = pre ++ post ∧
        d'.shown = pre ++ cd.id :: post ∧ d'.archetypeId.toNat = Spec.movedId env.bigEndian d'.shown)) ∧
    (∀ id, d.len ≤ 14 →
      (d.removeComponentAny env id = .ok none ∧ (d.len = 1 ∨ id ∉ d.shown ∨ ¬ d.shown.Pairwise (· < ·))) ∨
      (d.len = 14 ∧ id ∈ d.shown ∧ d.removeComponentAny env id = .error (.panic .indexOutOfBounds)) ∨
      (2 ≤ d.len ∧ d.len ≤ 13 ∧ ∃ d' pre post, d.removeComponentAny env id = .ok (some d') ∧
        d.shown = pre ++ id :: post ∧ d'.shown = pre ++ post ∧
        d'.archetypeId.toNat = Spec.movedId env.bigEndian d'.shown)) ∧
    -- `compute_archetype_id`
    (∀ ds : List ComponentDescriptor,
      (14 < ds.length → ArchetypeDescriptor.computeArchetypeIdAny env ds = .error (.panic .indexOutOfBounds)) ∧
      (ds = [] → ArchetypeDescriptor.computeArchetypeIdAny env ds = .ok 4294967295) ∧
      (1 ≤ ds.length → ds.length ≤ 14 → ∃ x, ArchetypeDescriptor.computeArchetypeIdAny env ds = .ok x ∧
        x.toNat = Spec.movedId env.bigEndian (ds.map (fun c => c.id)))) := by
  simp only [ArchetypeDescriptor.shown_eq]
  have hM : MAX_COMPONENTS_PER_ENTITY = 14 := rfl
  have hcs := ArchetypeDescriptor.containsSubsetAny_eq hd ho
  have hes := ArchetypeDescriptor.excludesSubsetAny_eq hd ho
  refine ⟨?_, ?_, ?_, ?_, ?_, ?_, ?_, ?_, ?_, ?_, ?_, ?_, ?_, ?_, ?_, ?_, ?_⟩
  · unfold ArchetypeDescriptor.componentsAny
    rw [hd]
    rfl
  · intro c h
    unfold ArchetypeDescriptor.hasComponentAny
    rw [ArchetypeDescriptor.slice_long hd h]
    rfl
  · intro c h; exact ArchetypeDescriptor.hasComponent_any hd h c
  · intro h; rw [hcs, if_pos h]
  · intro h hs hl; rw [hcs, if_neg (by omega), if_pos hs, if_pos hl]
  · intro h hs hl; rw [hcs, if_neg (by omega), if_pos hs, if_neg (by omega)]
  · rintro h ⟨id, h1, h2⟩ hl; rw [hcs, if_neg (by omega), if_neg (fun hs => h2 (hs id h1)), if_pos hl]
  · rintro h ⟨id, h1, h2⟩ hl; rw [hcs, if_neg (by omega), if_neg (fun hs => h2 (hs id h1)), if_neg (by omega)]
  · intro h; rw [hes, if_pos h]
  · rintro h1 h2 h3 ⟨id, h4, h5⟩
    rw [hes, if_neg (by omega), if_pos h2, if_neg (fun hs => hs id h4 h5)]
  · intro h1 h2 h3 h4
    rw [hes, if_neg (by omega), if_pos h2, if_pos h4]
  · intro h1 h2 id hid
    rw [hes, if_neg (by omega), if_neg (by omega)]
    have : (o.comps.getD 0 ComponentDescriptor.INVALID).id = id := by
      unfold ArchetypeDescriptor.ids ArchetypeDescriptor.components at hid
      rw [List.getElem?_map, List.getElem?_take_of_lt (by omega)] at hid
      rw [List.getD_eq_getElem?_getD]
      cases h : o.comps[0]? with
      | none => rw [h] at hid; cases hid
      | some x => rw [h] at hid; simpa using hid
    rw [this]
  · intro cd h
    unfold ArchetypeDescriptor.addComponentAny
    rw [if_neg (by omega), ArchetypeDescriptor.slice_long hd h]
    rfl
  · intro id h
    unfold ArchetypeDescriptor.removeComponentAny
    rw [if_neg (by omega), ArchetypeDescriptor.slice_long hd h]
    rfl
  · intro cd h
    rw [ArchetypeDescriptor.addComponentAny_eq hd h cd]
    exact ArchetypeDescriptor.addComponent_any hd h cd
  · intro id h
    rw [ArchetypeDescriptor.removeComponentAny_eq hd h id]
    exact ArchetypeDescriptor.removeComponent_any hd h id
  · intro ds
    refine ⟨ArchetypeDescriptor.computeArchetypeIdAny_long, fun h => ?_, fun h1 h2 => ?_⟩
    · subst h; rfl
    · exact ⟨_, ArchetypeDescriptor.computeArchetypeIdAny_ok h2, computeArchetypeId_moved env ds h1 h2⟩

/-- C73 on a descriptor derived in three steps: the group (C, A), `B` added, `A` removed. -/
example : ∃ d, Derived exEnv d ∧ d.isValid = true ∧ d.shown = [20, 30] :=
  ⟨_, .remove (.add (.ofGroup [exC, exA]) exB.descriptor rfl) 10 rfl, by decide +kernel, by decide +kernel⟩

/-- C74 on descriptors of length 20: the first is contained in the second as far as the slots go, so the search runs past
the array; against a short one with another component the answer is found before. -/
example : let d := ArchetypeDescriptor.new 7 20 (List.replicate 14 exA.descriptor)
    let o := ArchetypeDescriptor.new 8 1 (List.replicate 14 exB.descriptor)
    d.containsSubsetAny d = .error (.panic .indexOutOfBounds) ∧ o.containsSubsetAny d = .ok false ∧
    d.excludesSubsetAny d = .ok false ∧ d.excludesSubsetAny o = .error (.panic .indexOutOfBounds) := by
  decide +kernel

/-- C74 on components in descending order: `C` is there but is not found, and is added a second time. -/
example : let d := ArchetypeDescriptor.new 7 3 ([exC.descriptor, exB.descriptor, exA.descriptor] ++
      List.replicate 11 ComponentDescriptor.INVALID)
    d.shown = [30, 20, 10] ∧ d.hasComponentAny exC = .ok false ∧ d.hasComponentAny exB = .ok true ∧
    ∃ d', d.addComponentAny exEnv exC.descriptor = .ok (some d') ∧ d'.shown = [30, 20, 10, 30] :=
  ⟨by decide +kernel, by decide +kernel, by decide +kernel, _, rfl, by decide +kernel⟩

end Shard
