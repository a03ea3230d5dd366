import Verif.Proofs.HashSpec
import Verif.Model.ArchetypeRegistry
/-!
# C39 – C42, C44: descriptors of component groups, and the disjoint borrow helper
-/

namespace Shard

/-! Example component types used beside the theorems. -/

/-- little-endian release build -/
def exEnv : Env := ⟨false, false, false⟩
def exA : CompTy := ⟨1, 10, 4, 4⟩
def exB : CompTy := ⟨2, 20, 8, 8⟩
def exC : CompTy := ⟨3, 30, 2, 2⟩

/-- The set of component ids of a group, as a predicate. -/
def Group.HasId (g : Group) (id : UInt16) : Prop := ∃ c ∈ g, c.id = id

/-- **C39** Descriptor set operations are set operations (inclusion, disjointness, membership of component ids);
hence independent of tuple order. -/
theorem C39_descriptor_set_ops (env : Env) (g h : Group)
    (hg : (g.descriptor env).isValid = true) (hh : (h.descriptor env).isValid = true) :
    ((g.descriptor env).archetype.containsSubset (h.descriptor env).archetype = true ↔ ∀ id, h.HasId id → g.HasId id) ∧
    ((g.descriptor env).archetype.excludesSubset (h.descriptor env).archetype = true ↔ ∀ id, h.HasId id → ¬ g.HasId id) ∧
    (∀ c : CompTy, (g.descriptor env).archetype.hasComponent c = true ↔ g.HasId c.id) ∧
    (∀ g' h' : Group, g.Perm g' → h.Perm h' →
      (g'.descriptor env).archetype.containsSubset (h'.descriptor env).archetype =
        (g.descriptor env).archetype.containsSubset (h.descriptor env).archetype ∧
      (g'.descriptor env).archetype.excludesSubset (h'.descriptor env).archetype =
        (g.descriptor env).archetype.excludesSubset (h.descriptor env).archetype) := by
  have sg := Group.spec hg
  have sh := Group.spec hh
  have main : ∀ {x y : Group}, GroupSpec env x → GroupSpec env y →
      ((x.descriptor env).archetype.containsSubset (y.descriptor env).archetype = true ↔ ∀ id, y.HasId id → x.HasId id) ∧
      ((x.descriptor env).archetype.excludesSubset (y.descriptor env).archetype = true ↔
        ∀ id, y.HasId id → ¬ x.HasId id) := by
    intro x y sx sy
    rw [sx.desc.containsSubset_iff sy.desc, sx.desc.excludesSubset_iff sy.desc]
    constructor
    · constructor
      · intro H id hid; exact (sx.mem_ids id).mp (H id ((sy.mem_ids id).mpr hid))
      · intro H id hid; exact (sx.mem_ids id).mpr (H id ((sy.mem_ids id).mp hid))
    · constructor
      · intro H id hid hx; exact H id ((sy.mem_ids id).mpr hid) ((sx.mem_ids id).mpr hx)
      · intro H id hid hx; exact H id ((sy.mem_ids id).mp hid) ((sx.mem_ids id).mp hx)
  refine ⟨(main sg sh).1, (main sg sh).2, ?_, ?_⟩
  · intro c
    rw [sg.desc.hasComponent_iff]
    exact sg.mem_ids c.id
  · intro g' h' pg ph
    have sg' : GroupSpec env g' := Group.spec (by rw [Group.isValid_perm env pg]; exact hg)
    have sh' : GroupSpec env h' := Group.spec (by rw [Group.isValid_perm env ph]; exact hh)
    have m1 : ∀ id, g'.HasId id ↔ g.HasId id := by
      intro id; unfold Group.HasId
      constructor
      · rintro ⟨c, hc, he⟩; exact ⟨c, pg.mem_iff.mpr hc, he⟩
      · rintro ⟨c, hc, he⟩; exact ⟨c, pg.mem_iff.mp hc, he⟩
    have m2 : ∀ id, h'.HasId id ↔ h.HasId id := by
      intro id; unfold Group.HasId
      constructor
      · rintro ⟨c, hc, he⟩; exact ⟨c, ph.mem_iff.mpr hc, he⟩
      · rintro ⟨c, hc, he⟩; exact ⟨c, ph.mem_iff.mp hc, he⟩
    constructor
    · rw [Bool.eq_iff_iff, (main sg' sh').1, (main sg sh).1]
      simp only [m1, m2]
    · rw [Bool.eq_iff_iff, (main sg' sh').2, (main sg sh).2]
      simp only [m1, m2]

/-- C39 is not vacuous: the groups (B, A, C) and (C, B) are valid, and (C, B) is contained in (B, A, C). -/
example : (Group.descriptor exEnv [exB, exA, exC]).isValid = true ∧ (Group.descriptor exEnv [exC, exB]).isValid = true ∧
    (Group.descriptor exEnv [exB, exA, exC]).archetype.containsSubset (Group.descriptor exEnv [exC, exB]).archetype = true ∧
    (Group.descriptor exEnv [exC, exB]).archetype.containsSubset (Group.descriptor exEnv [exA]).archetype = false := by
  decide +kernel

/-- **C40** Descriptor add and remove, for every descriptor and component. `WFDesc` says: 14 slots, 1..14 components,
strictly increasing ids; together with the permutation/filter equation it determines the component list of the result.
The archetype id of a result is the reference hash of its ids. The last two clauses are the boundary: adding to 13
and removing from 14 components indexes past the array (see C25, C26). -/
theorem C40_descriptor_add_remove (env : Env) (d : ArchetypeDescriptor) (hd : WFDesc d) (c : CompTy) :
    -- adding a component that is present, or to 14 components
    (c.id ∈ d.ids ∨ d.len = 14 → d.addComponent env c.descriptor = .ok none) ∧
    -- adding a component that is absent, to fewer than 13
    (c.id ∉ d.ids → d.len < 13 → ∃ d', d.addComponent env c.descriptor = .ok (some d') ∧ WFDesc d' ∧
      d'.components.Perm (c.descriptor :: d.components) ∧ d'.len = d.len + 1 ∧
      d'.archetypeId.toNat = Spec.movedId env.bigEndian d'.ids ∧
      -- removing what was added restores the component list
      ∃ d'', d'.removeComponent env c.id = .ok (some d'') ∧ WFDesc d'' ∧ d''.components = d.components ∧ d''.len = d.len ∧
        d''.archetypeId.toNat = Spec.movedId env.bigEndian d.ids) ∧
    -- removing a component that is absent, or the only component
    (c.id ∉ d.ids ∨ d.len = 1 → d.removeComponent env c.id = .ok none) ∧
    -- removing a component that is present, from 2..13
    (c.id ∈ d.ids → 2 ≤ d.len → d.len ≤ 13 → ∃ d', d.removeComponent env c.id = .ok (some d') ∧ WFDesc d' ∧
      d'.components = d.components.filter (fun x => x.id != c.id) ∧ d'.len = d.len - 1 ∧
      d'.archetypeId.toNat = Spec.movedId env.bigEndian d'.ids) ∧
    -- the boundary
    (c.id ∉ d.ids → d.len = 13 → d.addComponent env c.descriptor = .error (.panic .indexOutOfBounds)) ∧
    (c.id ∈ d.ids → d.len = 14 → d.removeComponent env c.id = .error (.panic .indexOutOfBounds)) := by
  have hmoved : ∀ d : ArchetypeDescriptor, WFDesc d → d.archetypeId = ArchetypeDescriptor.computeArchetypeId env d.components →
      d.archetypeId.toNat = Spec.movedId env.bigEndian d.ids := by
    intro d hd he
    have h1 := hd.components_length
    have h2 := hd.len_pos
    have h3 : d.len ≤ 14 := hd.len_le
    rw [he, computeArchetypeId_moved env d.components (by omega) (by omega)]
    rfl
  have hrem : ∀ d : ArchetypeDescriptor, WFDesc d → c.id ∈ d.ids → 2 ≤ d.len → d.len ≤ 13 →
      ∃ d', d.removeComponent env c.id = .ok (some d') ∧ WFDesc d' ∧
      d'.components = d.components.filter (fun x => x.id != c.id) ∧ d'.len = d.len - 1 ∧
      d'.archetypeId.toNat = Spec.movedId env.bigEndian d'.ids := by
    intro d hd hp h2 h13
    obtain ⟨i, hi, he⟩ := hd.mem_ids_iff.mp hp
    obtain ⟨d', h1, hw, hl, hc, hid⟩ := ArchetypeDescriptor.removeComponent_spec (env := env) hd h2 h13 hi he
    refine ⟨d', h1, hw, ?_, hl, hmoved d' hw hid⟩
    rw [hc, hd.eraseIdx_eq_filter hi, he]
  refine ⟨?_, ?_, ?_, hrem d hd, fun h hl => ArchetypeDescriptor.addComponent_thirteen (cd := c.descriptor) hd hl h,
    fun h hl => ArchetypeDescriptor.removeComponent_fourteen hd hl h⟩
  · rintro (h | h)
    · exact ArchetypeDescriptor.addComponent_present (cd := c.descriptor) hd h
    · exact ArchetypeDescriptor.addComponent_full h
  · intro habs hlt
    obtain ⟨d', i, h1, hw, hl, hi, hc, hid⟩ :=
      ArchetypeDescriptor.addComponent_spec (env := env) (cd := c.descriptor) hd (by omega) habs
    have hperm : d'.components.Perm (c.descriptor :: d.components) := by
      rw [hc]
      refine List.perm_middle.trans ?_
      rw [List.take_append_drop]
    have hpos := hd.len_pos
    have hmem : c.id ∈ d'.ids := by
      unfold ArchetypeDescriptor.ids
      exact List.mem_map.mpr ⟨c.descriptor, hperm.mem_iff.mpr List.mem_cons_self, rfl⟩
    refine ⟨d', h1, hw, hperm, hl, hmoved d' hw hid, ?_⟩
    obtain ⟨d'', k1, k2, k3, k4, k5⟩ := hrem d' hw hmem (by omega) (by omega)
    have k6 : d''.components = d.components := by
      rw [k3, hc, List.filter_append, List.filter_cons_of_neg (by simp [CompTy.descriptor]), ← List.filter_append,
        List.take_append_drop, List.filter_eq_self]
      intro x hx
      simp only [bne_iff_ne, ne_eq]
      rintro he
      exact habs (List.mem_map.mpr ⟨x, hx, he⟩)
    refine ⟨d'', k1, k2, k6, by omega, ?_⟩
    rw [k5]
    unfold ArchetypeDescriptor.ids
    rw [k6]
  · rintro (h | h)
    · exact ArchetypeDescriptor.removeComponent_absent hd h
    · exact ArchetypeDescriptor.removeComponent_one h

/-- C40 is not vacuous: adding `B` to the descriptor of (C, A) and removing it again. -/
example : let d := (Group.descriptor exEnv [exC, exA]).archetype
    (∃ d', d.addComponent exEnv exB.descriptor = .ok (some d') ∧ d'.ids = [10, 20, 30] ∧
      ∃ d'', d'.removeComponent exEnv 20 = .ok (some d'') ∧ d''.ids = [10, 30]) :=
  ⟨_, rfl, by decide +kernel, _, rfl, by decide +kernel⟩

/-- The descriptors of valid groups satisfy the hypothesis of C40. -/
theorem C40_hypothesis (env : Env) (g : Group) (h : (g.descriptor env).isValid = true) :
    WFDesc (g.descriptor env).archetype := (Group.spec h).desc

/-- **C41** Group descriptor normal form: a valid group descriptor lists exactly the group's component descriptors in
strictly increasing id order, and the two mappings are mutually inverse and relate tuple and sorted positions. -/
theorem C41_group_normal_form (env : Env) (g : Group)
    (hid : (g.descriptor env).isValid = true) :
    let d := g.descriptor env
    (1 ≤ g.length ∧ g.length ≤ 14 ∧ (g.map (fun c => c.id)).Nodup) ∧ d.archetype.len = g.length ∧
    d.archetype.components.length = g.length ∧
    (∀ cd, cd ∈ d.archetype.components ↔ ∃ c ∈ g, cd = c.descriptor) ∧
    d.archetype.components.Pairwise (fun x y => x.id < y.id) ∧
    (∀ i (h : i < g.length), d.unsortedToSorted.getD i 0 < g.length ∧
      d.archetype.components[d.unsortedToSorted.getD i 0]? = some g[i].descriptor ∧
      d.sortedToUnsorted.getD (d.unsortedToSorted.getD i 0) 0 = i) ∧
    (∀ k, k < g.length → d.sortedToUnsorted.getD k 0 < g.length ∧
      d.archetype.components[k]? = (g[d.sortedToUnsorted.getD k 0]?).map CompTy.descriptor ∧
      d.unsortedToSorted.getD (d.sortedToUnsorted.getD k 0) 0 = k) := by
  have s := Group.spec hid
  have hu : ∀ i (h : i < g.length), (g.descriptor env).unsortedToSorted.getD i 0 < g.length := by
    intro i h
    have := (List.getElem?_eq_some_iff.mp (s.unsortedToSorted h)).1
    rwa [s.components_length] at this
  refine ⟨⟨s.wf.pos, s.wf.le, s.wf.nodup⟩, s.len, s.components_length, ?_, ?_, ?_, ?_⟩
  · intro cd
    rw [s.perm.mem_iff, List.mem_map]
    constructor
    · rintro ⟨c, hc, rfl⟩; exact ⟨c, hc, rfl⟩
    · rintro ⟨c, hc, rfl⟩; exact ⟨c, hc, rfl⟩
  · have := s.desc.sorted
    unfold SortedLt at this
    rw [List.pairwise_map] at this
    exact this.imp (fun h => UInt16.lt_iff_toNat_lt.mpr h)
  · intro i h
    refine ⟨hu i h, s.unsortedToSorted h, ?_⟩
    obtain ⟨h1, h2⟩ := s.sortedToUnsorted (hu i h)
    rw [s.unsortedToSorted h] at h2
    have h3 := congrArg ComponentDescriptor.id (Option.some.inj h2)
    exact (s.wf.id_inj h h1 h3).symm
  · intro k hk
    obtain ⟨h1, h2⟩ := s.sortedToUnsorted hk
    refine ⟨h1, ?_, ?_⟩
    · rw [h2, List.getElem?_eq_getElem h1]; rfl
    · have h3 := s.unsortedToSorted h1
      have hk' : k < (g.descriptor env).archetype.components.length := by rw [s.components_length]; exact hk
      have h4 := (List.getElem?_eq_some_iff.mp h3).1
      rw [← h2, List.getElem?_eq_getElem hk', List.getElem?_eq_getElem h4] at h3
      have h6 := Option.some.inj h3
      exact s.desc.id_inj h4 hk' (congrArg ComponentDescriptor.id h6)

/-- C41 on the group (B, C, A). -/
example : (Group.descriptor exEnv [exB, exC, exA]).isValid = true ∧
    (Group.descriptor exEnv [exB, exC, exA]).archetype.ids = [10, 20, 30] ∧
    (Group.descriptor exEnv [exB, exC, exA]).unsortedToSorted.take 3 = [1, 2, 0] ∧
    (Group.descriptor exEnv [exB, exC, exA]).sortedToUnsorted.take 3 = [2, 0, 1] := by decide +kernel

/-- **C42 is false**: for the valid group (B, C, A), `as_unsorted(0)` returns the descriptor of `C`, which is neither
the descriptor of the component at tuple position 0 (`B`) nor at sorted position 0 (`A`). -/
theorem C42_as_unsorted_violated :
    ∃ (env : Env) (g : Group) (i : Nat) (cd : ComponentDescriptor), (g.descriptor env).isValid = true ∧ i < g.length ∧
      (g.descriptor env).asUnsorted i = .ok cd ∧
      (g[i]?).map CompTy.descriptor ≠ some cd ∧ (g.descriptor env).archetype.components[i]? ≠ some cd := by
  refine ⟨exEnv, [exB, exC, exA], 0, exC.descriptor, ?_⟩
  decide +kernel

/-- What does hold of C42: `as_unsorted(i)` is the descriptor of tuple position `i` exactly when the sort permutation
maps `i` the same way in both directions (e.g. for tuples already sorted by id, and for pairs). Missing: other
permutations, for which the claim is false. -/
theorem C42_as_unsorted_partial (env : Env) (g : Group) (hv : (g.descriptor env).isValid = true) (i : Nat)
    (hi : i < g.length) :
    ∃ cd, (g.descriptor env).asUnsorted i = .ok cd ∧ cd ∈ (g.descriptor env).archetype.components ∧
      ((g[i]?).map CompTy.descriptor = some cd ↔
        (g.descriptor env).sortedToUnsorted.getD i 0 = (g.descriptor env).unsortedToSorted.getD i 0) := by
  have s := Group.spec hv
  obtain ⟨h1, _⟩ := s.sortedToUnsorted hi
  have hid : g.archetypeId env ≠ ARCHETYPE_ID_INVALID := (Group.isValid_iff.mp hv).2
  have hlen : i < (g.descriptor env).sortedToUnsorted.length := by
    rw [Group.descriptor_eq s.wf hid]
    simp [ComponentGroupDescriptor.computeSortMappings]; omega
  have hget : (g.descriptor env).sortedToUnsorted[i]? = some ((g.descriptor env).sortedToUnsorted.getD i 0) := by
    simp [List.getD, hlen]
  have hk : (g.descriptor env).sortedToUnsorted.getD i 0 < (g.descriptor env).archetype.components.length := by
    rw [s.components_length]; exact h1
  refine ⟨(g.descriptor env).archetype.components[(g.descriptor env).sortedToUnsorted.getD i 0], ?_, List.getElem_mem hk, ?_⟩
  · unfold ComponentGroupDescriptor.asUnsorted
    rw [index_of_getElem? hget, ok_bind]
    refine index_of_getElem? ?_
    rw [s.desc.comps_getElem? (by rw [s.len]; exact h1), List.getElem?_eq_getElem hk]
  · have hu := s.unsortedToSorted hi
    obtain ⟨hu1, hu2⟩ := List.getElem?_eq_some_iff.mp hu
    rw [List.getElem?_eq_getElem hi, Option.map_some, Option.some.injEq]
    constructor
    · intro he
      apply s.desc.id_inj hk hu1
      rw [← he, hu2]
    · intro he
      rw [← hu2]
      congr 1
      exact he.symm

/-- C42_partial on the pair (B, A): the accessor is right there. -/
example : (Group.descriptor exEnv [exB, exA]).isValid = true ∧
    (Group.descriptor exEnv [exB, exA]).asUnsorted 0 = .ok exB.descriptor := by decide +kernel

/-- **C44** Two-element disjoint borrow: `None` iff the positions are equal or one is out of range, and otherwise exactly
the two given positions, in the given order (so the two borrows are distinct and in bounds). -/
theorem C44_disjoint_mut {α : Type} (slice : List α) (first second : Nat) :
    (disjointMut slice first second = none ↔ first = second ∨ slice.length ≤ first ∨ slice.length ≤ second) ∧
    (∀ p, disjointMut slice first second = some p →
      slice[p.1]? = slice[first]? ∧ slice[p.2]? = slice[second]? ∧ p = (first, second) ∧ p.1 ≠ p.2 ∧
      p.1 < slice.length ∧ p.2 < slice.length) := by
  unfold disjointMut
  by_cases h : first = second ∨ first ≥ slice.length ∨ second ≥ slice.length
  · rw [if_pos h]
    exact ⟨⟨fun _ => h, fun _ => rfl⟩, fun p hp => by cases hp⟩
  · rw [if_neg h]
    have h' : ¬ (first = second ∨ slice.length ≤ first ∨ slice.length ≤ second) := h
    simp only [not_or] at h
    by_cases hlt : first < second
    · rw [if_pos hlt]
      refine ⟨⟨fun hn => by simp at hn, fun hc => absurd hc h'⟩, ?_⟩
      rintro p hp
      have hp : p = (first, second) := by
        rw [← Option.some.inj hp]; congr 1; omega
      subst hp
      exact ⟨rfl, rfl, rfl, h.1, by simp only; omega, by simp only; omega⟩
    · rw [if_neg hlt]
      refine ⟨⟨fun hn => by simp at hn, fun hc => absurd hc h'⟩, ?_⟩
      rintro p hp
      have hp : p = (first, second) := by
        rw [← Option.some.inj hp]; congr 1; omega
      subst hp
      exact ⟨rfl, rfl, rfl, h.1, by simp only; omega, by simp only; omega⟩

/-- C44 on a concrete slice. -/
example : disjointMut ['a', 'b', 'c', 'd'] 3 1 = some (3, 1) ∧ disjointMut ['a', 'b', 'c', 'd'] 1 1 = none ∧
    disjointMut ['a', 'b', 'c', 'd'] 1 4 = none := by decide

end Shard
