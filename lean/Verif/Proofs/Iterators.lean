import Verif.Proofs.RegistryRead
/-!
# The archetype iterators
-/

namespace Shard

variable {env : Env} {W : World env} {ar : ArchetypeRegistry} {cs : List Content}

/-- Whether an archetype is yielded. -/
def accepts (gd : ArchetypeDescriptor) (filter : ArchetypeDescriptor → Bool) (ar : ArchetypeRegistry) (i : Nat) : Bool :=
  ar.archetypes[i]?.any (fun a => a.descriptor.containsSubset gd && filter a.descriptor)

theorem accepts_iff {gd : ArchetypeDescriptor} {filter : ArchetypeDescriptor → Bool} {i : Nat} :
    accepts gd filter ar i = true ↔ ∃ a, ar.archetypes[i]? = some a ∧ a.descriptor.containsSubset gd = true ∧
      filter a.descriptor = true := by
  unfold accepts
  cases ar.archetypes[i]? with
  | none => simp
  | some a => simp

/-- The positions of the archetypes that the keys refer to and that are yielded. -/
def selected (gd : ArchetypeDescriptor) (filter : ArchetypeDescriptor → Bool) (ar : ArchetypeRegistry)
    (keys : List SortedArchetypeKey) : List Nat :=
  (keys.map (fun k => k.archetypeIndex.toNat)).filter (accepts gd filter ar)

theorem selected_append (gd : ArchetypeDescriptor) (filter : ArchetypeDescriptor → Bool) (l1 l2 : List SortedArchetypeKey) :
    selected gd filter ar (l1 ++ l2) = selected gd filter ar l1 ++ selected gd filter ar l2 := by
  simp [selected]

/-- The keys still ahead of an iterator. -/
def ArchIter.ahead (ar : ArchetypeRegistry) (it : ArchIter) : List SortedArchetypeKey :=
  match ar.sortedMappings.drop it.level with
  | [] => []
  | l :: ls => l.drop it.idx ++ ls.flatten

theorem ArchIter.ahead_of {it : ArchIter} {keys : List SortedArchetypeKey} (h : ar.sortedMappings[it.level]? = some keys) :
    it.ahead ar = keys.drop it.idx ++ (⟨it.level + 1, 0⟩ : ArchIter).ahead ar := by
  obtain ⟨hl, he⟩ := List.getElem?_eq_some_iff.mp h
  unfold ArchIter.ahead
  rw [List.drop_eq_getElem_cons hl, he]
  simp only []
  congr 1
  split
  · next h => rw [h]; rfl
  · next h => rw [h]; simp

theorem ArchIter.nextInLevel_spec {gd : ArchetypeDescriptor} {filter : ArchetypeDescriptor → Bool}
    {level : List SortedArchetypeKey}
    (hk : ∀ k ∈ level, ∃ a, ar.archetypes[k.archetypeIndex.toNat]? = some a) : ∀ (n idx : Nat), level.length ≤ idx + n →
    ∃ o idx', nextInLevel gd filter ar.archetypes level n idx = .ok (o, idx') ∧
      ((o = none ∧ selected gd filter ar (level.drop idx) = []) ∨
        ∃ i, o = some i ∧ selected gd filter ar (level.drop idx) = i :: selected gd filter ar (level.drop idx'))
  | 0, idx, h => ⟨none, idx, rfl, Or.inl ⟨rfl, by rw [List.drop_eq_nil_of_le (by omega)]; rfl⟩⟩
  | n + 1, idx, h => by
    unfold nextInLevel
    by_cases hi : idx < level.length
    · rw [if_pos hi, indexUnchecked_of_getElem? (List.getElem?_eq_getElem hi)]
      obtain ⟨a, ha⟩ := hk level[idx] (List.getElem_mem hi)
      simp only [ok_bind]
      rw [indexUnchecked_of_getElem? ha]
      simp only [ok_bind]
      have hd : selected gd filter ar (level.drop idx) =
          if a.descriptor.containsSubset gd && filter a.descriptor then
            level[idx].archetypeIndex.toNat :: selected gd filter ar (level.drop (idx + 1))
          else selected gd filter ar (level.drop (idx + 1)) := by
        rw [List.drop_eq_getElem_cons hi]
        unfold selected
        rw [List.map_cons, List.filter_cons]
        unfold accepts
        rw [ha]
        rfl
      rw [hd]
      split
      · exact ⟨_, _, rfl, Or.inr ⟨_, rfl, rfl⟩⟩
      · exact nextInLevel_spec hk n (idx + 1) (by omega)
    · rw [if_neg hi]
      exact ⟨none, idx, rfl, Or.inl ⟨rfl, by rw [List.drop_eq_nil_of_le (by omega)]; rfl⟩⟩

/-- The archetypes the keys refer to exist. -/
theorem ARInv.keys_exist (h : ARInv W ar cs) {l : Nat} {keys : List SortedArchetypeKey} (hl : ar.sortedMappings[l]? = some keys) :
    ∀ k ∈ keys, ∃ a, ar.archetypes[k.archetypeIndex.toNat]? = some a := by
  intro k hk
  obtain ⟨a, ha, _⟩ := h.keys l keys hl k hk
  exact ⟨a, ha⟩

theorem ArchIter.nextLoop_spec (h : ARInv W ar cs) {gd : ArchetypeDescriptor} {filter : ArchetypeDescriptor → Bool} :
    ∀ (n : Nat) (it : ArchIter), 14 ≤ it.level + n →
    ∃ o it', nextLoop gd filter ar n it = .ok (o, it') ∧
      ((o = none ∧ selected gd filter ar (it.ahead ar) = [] ∧ 14 ≤ it'.level) ∨
        ∃ i, o = some i ∧ selected gd filter ar (it.ahead ar) = i :: selected gd filter ar (it'.ahead ar))
  | 0, it, hn => by
    refine ⟨none, it, rfl, Or.inl ⟨rfl, ?_, by omega⟩⟩
    unfold ArchIter.ahead
    rw [List.drop_eq_nil_of_le (by have := h.levels; omega)]
    rfl
  | n + 1, it, hn => by
    unfold nextLoop
    have hM : MAX_COMPONENTS_PER_ENTITY = 14 := rfl
    by_cases hl : it.level < MAX_COMPONENTS_PER_ENTITY
    · rw [if_pos hl]
      have hlt : it.level < ar.sortedMappings.length := by have := h.levels; omega
      have hx := List.getElem?_eq_getElem hlt
      rw [indexUnchecked_of_getElem? hx]
      simp only [ok_bind]
      obtain ⟨o, idx', h1, h2⟩ := nextInLevel_spec (ar := ar) (gd := gd) (filter := filter) (h.keys_exist hx)
        (ar.sortedMappings[it.level].length - it.idx) it.idx (by omega)
      rw [h1]
      simp only [ok_bind]
      have ha := ArchIter.ahead_of (it := it) hx
      rcases h2 with ⟨rfl, h2⟩ | ⟨i, rfl, h2⟩
      · simp only []
        obtain ⟨o, it', h3, h4⟩ := nextLoop_spec h (gd := gd) (filter := filter) n ⟨it.level + 1, 0⟩
          (by show 14 ≤ it.level + 1 + n; omega)
        refine ⟨o, it', h3, ?_⟩
        rw [ha, selected_append, h2, List.nil_append]
        exact h4
      · refine ⟨_, _, rfl, Or.inr ⟨i, rfl, ?_⟩⟩
        rw [ha, selected_append, h2, ArchIter.ahead_of (it := ⟨it.level, idx'⟩) hx, selected_append]
        rfl
    · rw [if_neg hl]
      refine ⟨none, it, rfl, Or.inl ⟨rfl, ?_, by omega⟩⟩
      unfold ArchIter.ahead
      rw [List.drop_eq_nil_of_le (by have := h.levels; omega)]
      rfl

theorem ArchIter.next_done {g : Group} {filter : ArchetypeDescriptor → Bool} {it : ArchIter}
    (hl : 14 ≤ it.level) : next env g filter ar it = .ok (none, it) := by
  unfold next
  split
  · rfl
  · have hM : MAX_COMPONENTS_PER_ENTITY = 14 := rfl
    have : MAX_COMPONENTS_PER_ENTITY - it.level = 0 := by omega
    rw [this]
    rfl

theorem ArchIter.next_spec (h : ARInv W ar cs) {g : Group} (hv : (g.descriptor env).isValid = true)
    {filter : ArchetypeDescriptor → Bool} (it : ArchIter) :
    ∃ o it', next env g filter ar it = .ok (o, it') ∧
      ((o = none ∧ selected (g.descriptor env).archetype filter ar (it.ahead ar) = [] ∧
        next env g filter ar it' = .ok (none, it')) ∨
        ∃ i, o = some i ∧ selected (g.descriptor env).archetype filter ar (it.ahead ar) =
          i :: selected (g.descriptor env).archetype filter ar (it'.ahead ar)) := by
  have hM : MAX_COMPONENTS_PER_ENTITY = 14 := rfl
  obtain ⟨o, it', h1, h2⟩ := nextLoop_spec h (gd := (g.descriptor env).archetype) (filter := filter)
    (MAX_COMPONENTS_PER_ENTITY - it.level) it (by omega)
  refine ⟨o, it', ?_, ?_⟩
  · unfold next
    rw [if_neg (by rw [hv]; simp)]
    exact h1
  · rcases h2 with ⟨h2, h3, h4⟩ | h2
    · exact Or.inl ⟨h2, h3, next_done h4⟩
    · exact Or.inr h2

theorem ArchIter.collect_spec {α : Type} (h : ARInv W ar cs) {g : Group} (hv : (g.descriptor env).isValid = true)
    {filter : ArchetypeDescriptor → Bool} {f : Archetype → M α} {F : Nat → α}
    (hf : ∀ (i : Nat) (a : Archetype), ar.archetypes[i]? = some a →
      a.descriptor.containsSubset (g.descriptor env).archetype = true → f a = .ok (F i)) :
    ∀ (n : Nat) (it : ArchIter), (selected (g.descriptor env).archetype filter ar (it.ahead ar)).length < n →
      it.collect env g filter ar f n = .ok ((selected (g.descriptor env).archetype filter ar (it.ahead ar)).map (fun i => (i, F i)))
  | 0, it, hn => by omega
  | n + 1, it, hn => by
    unfold ArchIter.collect
    obtain ⟨o, it', h1, h2⟩ := next_spec h hv (filter := filter) it
    rw [h1]
    simp only [ok_bind]
    rcases h2 with ⟨rfl, h2, _⟩ | ⟨i, rfl, h2⟩
    · rw [h2]; rfl
    · simp only []
      have hmem : i ∈ selected (g.descriptor env).archetype filter ar (it.ahead ar) := by rw [h2]; simp
      have hacc : accepts (g.descriptor env).archetype filter ar i = true := (List.mem_filter.mp hmem).2
      obtain ⟨a, ha, hp, _⟩ := accepts_iff.mp hacc
      rw [indexUnchecked_of_getElem? ha]
      simp only [ok_bind]
      rw [hf i a ha hp]
      simp only [ok_bind]
      rw [collect_spec h hv hf n it' (by rw [h2] at hn; simp only [List.length_cons] at hn; omega), h2]
      rfl

/-- The positions an iterator yields, in order. -/
def yielded (env : Env) (ar : ArchetypeRegistry) (g : Group) (filter : ArchetypeDescriptor → Bool) : List Nat :=
  selected (g.descriptor env).archetype filter ar (ar.sortedMappings.drop ((g.descriptor env).len - 1)).flatten

theorem ArchIter.ahead_start (l : Nat) : (⟨l, 0⟩ : ArchIter).ahead ar = (ar.sortedMappings.drop l).flatten := by
  unfold ArchIter.ahead
  split
  · next h => rw [show ar.sortedMappings.drop l = [] from h]; rfl
  · next h => rw [show ar.sortedMappings.drop l = _ from h]; rfl

theorem ARInv.positions_nodup (h : ARInv W ar cs) :
    ar.sortedMappings.flatten.Pairwise (fun k k' => k.archetypeIndex.toNat ≠ k'.archetypeIndex.toNat) := by
  rw [List.pairwise_flatten]
  constructor
  · intro keys hk
    obtain ⟨l, hl⟩ := List.mem_iff_getElem?.mp hk
    have hs := h.sorted l keys hl
    unfold SortedLt at hs
    rw [List.pairwise_map] at hs
    rw [List.pairwise_iff_getElem] at hs ⊢
    intro i j hi hj hij heq
    have := hs i j hi hj hij
    obtain ⟨a, ha, _, hid⟩ := h.keys l keys hl _ (List.getElem_mem hi)
    obtain ⟨a', ha', _, hid'⟩ := h.keys l keys hl _ (List.getElem_mem hj)
    rw [heq, ha'] at ha
    cases ha
    rw [← hid, ← hid'] at this
    omega
  · rw [List.pairwise_iff_getElem]
    intro i j hi hj hij k hk k' hk' heq
    obtain ⟨a, ha, hl, _⟩ := h.keys i _ (List.getElem?_eq_getElem hi) k hk
    obtain ⟨a', ha', hl', _⟩ := h.keys j _ (List.getElem?_eq_getElem hj) k' hk'
    rw [heq, ha'] at ha
    cases ha
    omega

theorem ARInv.yielded_nodup (h : ARInv W ar cs) (g : Group) (filter : ArchetypeDescriptor → Bool) :
    (yielded env ar g filter).Nodup := by
  unfold yielded selected
  apply List.Pairwise.filter
  rw [List.pairwise_map]
  have hp := h.positions_nodup
  rw [List.pairwise_flatten] at hp ⊢
  exact ⟨fun l hl => hp.1 l (List.mem_of_mem_drop hl), hp.2.sublist (List.drop_sublist _ _)⟩

theorem ARInv.mem_yielded (h : ARInv W ar cs) {g : Group} (hg : ∀ c ∈ g, W.Has c) (hv : (g.descriptor env).isValid = true)
    {filter : ArchetypeDescriptor → Bool} {i : Nat} :
    i ∈ yielded env ar g filter ↔ ∃ a ct, ar.archetypes[i]? = some a ∧ cs[i]? = some ct ∧ (∀ c ∈ g, c ∈ ct.cts) ∧
      filter a.descriptor = true := by
  unfold yielded selected
  rw [List.mem_filter, accepts_iff]
  constructor
  · rintro ⟨_, a, ha, hs, hf⟩
    obtain ⟨ct, hc, hr⟩ := h.content ha
    exact ⟨a, ct, ha, hc, (hr.containsSubset_iff hg hv).mp hs, hf⟩
  · rintro ⟨a, ct, ha, hc, hs, hf⟩
    have hr := h.rep i a ct ha hc
    refine ⟨?_, a, ha, (hr.containsSubset_iff hg hv).mpr hs, hf⟩
    obtain ⟨keys, k, hl, hk, hki⟩ := h.cover i a ha
    rw [List.mem_map]
    refine ⟨k, List.mem_flatten.mpr ⟨keys, ?_, hk⟩, hki⟩
    have gs := Group.spec hv
    have hle : (g.descriptor env).len ≤ a.descriptor.len := by
      have h1 : (g.descriptor env).len = g.length := gs.len
      have h2 := hr.desc.length
      have h3 : g.length ≤ ct.cts.length := by
        apply List.Nodup.length_le_of_subset (nodup_of_map gs.wf.nodup)
        exact hs
      omega
    apply List.mem_iff_getElem?.mpr
    refine ⟨a.descriptor.len - 1 - ((g.descriptor env).len - 1), ?_⟩
    rw [List.getElem?_drop]
    have : (g.descriptor env).len - 1 + (a.descriptor.len - 1 - ((g.descriptor env).len - 1)) = a.descriptor.len - 1 := by
      omega
    rw [this]
    exact hl

theorem ARInv.yielded_length (h : ARInv W ar cs) {g : Group} (filter : ArchetypeDescriptor → Bool) :
    (yielded env ar g filter).length ≤ ar.archetypes.length := by
  have h1 := (h.yielded_nodup (env := env) g filter).length_le_of_subset (l₂ := List.range ar.archetypes.length) (by
    intro i hi
    unfold yielded selected at hi
    obtain ⟨a, ha, _⟩ := accepts_iff.mp (List.mem_filter.mp hi).2
    exact List.mem_range.mpr (List.getElem?_eq_some_iff.mp ha).1)
  simpa using h1

/-- An iterator, run to its end. -/
theorem ARInv.iterate_spec {α : Type} (h : ARInv W ar cs) {g : Group} (hv : (g.descriptor env).isValid = true)
    (filter : ArchetypeDescriptor → Bool) {f : Archetype → M α} {F : Nat → α}
    (hf : ∀ (i : Nat) (a : Archetype), ar.archetypes[i]? = some a →
      a.descriptor.containsSubset (g.descriptor env).archetype = true → f a = .ok (F i)) :
    ar.iterate env g filter f = .ok ((yielded env ar g filter).map (fun i => (i, F i))) := by
  have gs := Group.spec hv
  have hpos : 1 ≤ (g.descriptor env).len := by
    have := gs.len; have := gs.wf.pos
    show 1 ≤ (g.descriptor env).archetype.len
    omega
  unfold ArchetypeRegistry.iterate ArchIter.new subU8
  rw [if_pos hpos]
  simp only [ok_bind]
  show ArchIter.collect env g filter ar f _ ⟨(g.descriptor env).len - 1, 0⟩ = _
  rw [ArchIter.collect_spec h hv hf, ArchIter.ahead_start]
  · rfl
  · rw [ArchIter.ahead_start]
    have := h.yielded_length (env := env) (g := g) filter
    unfold yielded at this
    omega

end Shard
