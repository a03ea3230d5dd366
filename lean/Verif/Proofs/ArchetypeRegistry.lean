import Verif.Model.ArchetypeRegistry
import Verif.Proofs.ArchetypeMove
/-!
# The archetype registry: invariant, lookup, creation
-/

namespace Shard

open ArchetypeRegistry

variable {env : Env} {W : World env} {ar : ArchetypeRegistry} {cs : List Content}

/-- Invariant of the archetype registry holding the contents `cs`. -/
structure ARInv (W : World env) (ar : ArchetypeRegistry) (cs : List Content) : Prop where
  len : cs.length = ar.archetypes.length
  le : ar.archetypes.length ≤ 65534
  rep : ∀ (i : Nat) (a : Archetype) (ct : Content), ar.archetypes[i]? = some a → cs[i]? = some ct → Rep W a ct
  levels : ar.sortedMappings.length = 14
  sorted : ∀ (l : Nat) (keys : List SortedArchetypeKey), ar.sortedMappings[l]? = some keys →
    SortedLt (keys.map (fun k => k.id.toNat))
  keys : ∀ (l : Nat) (keys : List SortedArchetypeKey), ar.sortedMappings[l]? = some keys → ∀ k ∈ keys,
    ∃ a, ar.archetypes[k.archetypeIndex.toNat]? = some a ∧ a.descriptor.len = l + 1 ∧ a.descriptor.archetypeId = k.id
  cover : ∀ (i : Nat) (a : Archetype), ar.archetypes[i]? = some a →
    ∃ keys k, ar.sortedMappings[a.descriptor.len - 1]? = some keys ∧ k ∈ keys ∧ k.archetypeIndex.toNat = i

theorem ARInv.default (W : World env) : ARInv W ArchetypeRegistry.default [] := by
  refine ⟨rfl, by decide, by intro i a ct h; simp [ArchetypeRegistry.default] at h, rfl, ?_, ?_, ?_⟩
  · intro l keys h
    simp only [ArchetypeRegistry.default, List.getElem?_replicate] at h
    split at h
    · cases h; exact List.Pairwise.nil
    · cases h
  · intro l keys h k hk
    simp only [ArchetypeRegistry.default, List.getElem?_replicate] at h
    split at h
    · cases h; cases hk
    · cases h
  · intro i a h; simp [ArchetypeRegistry.default] at h

namespace ARInv

/-- The archetype of a content. -/
theorem arch (h : ARInv W ar cs) {i : Nat} {ct : Content} (hc : cs[i]? = some ct) :
    ∃ a, ar.archetypes[i]? = some a ∧ Rep W a ct := by
  have hi := (List.getElem?_eq_some_iff.mp hc).1
  rw [h.len] at hi
  have := List.getElem?_eq_getElem hi
  exact ⟨_, this, h.rep i _ ct this hc⟩

theorem content (h : ARInv W ar cs) {i : Nat} {a : Archetype} (ha : ar.archetypes[i]? = some a) :
    ∃ ct, cs[i]? = some ct ∧ Rep W a ct := by
  have hi := (List.getElem?_eq_some_iff.mp ha).1
  rw [← h.len] at hi
  have := List.getElem?_eq_getElem hi
  exact ⟨_, this, h.rep i a _ ha this⟩

/-- Replacing an archetype by one with the same descriptor. -/
theorem set (h : ARInv W ar cs) {i : Nat} {a a' : Archetype} {ct' : Content} (ha : ar.archetypes[i]? = some a)
    (hd : a'.descriptor = a.descriptor) (hr : Rep W a' ct') : ARInv W (ar.setArchetype i a') (cs.set i ct') := by
  have hi := (List.getElem?_eq_some_iff.mp ha).1
  have hi' : i < cs.length := by rw [h.len]; exact hi
  refine ⟨by simp [setArchetype, h.len], by simp [setArchetype, h.le], ?_, h.levels, h.sorted, ?_, ?_⟩
  · intro j b ct hb hc
    simp only [setArchetype] at hb
    by_cases hij : i = j
    · subst hij
      rw [List.getElem?_set_self hi] at hb
      rw [List.getElem?_set_self hi'] at hc
      cases hb; cases hc; exact hr
    · rw [List.getElem?_set_ne hij] at hb hc
      exact h.rep j b ct hb hc
  · intro l keys hk k hkm
    obtain ⟨b, h1, h2, h3⟩ := h.keys l keys hk k hkm
    simp only [setArchetype]
    by_cases hij : i = k.archetypeIndex.toNat
    · refine ⟨a', by rw [← hij, List.getElem?_set_self hi], ?_⟩
      rw [← hij, ha] at h1
      cases h1
      rw [hd]; exact ⟨h2, h3⟩
    · exact ⟨b, by rw [List.getElem?_set_ne hij]; exact h1, h2, h3⟩
  · intro j b hb
    simp only [setArchetype] at hb ⊢
    by_cases hij : i = j
    · subst hij
      rw [List.getElem?_set_self hi] at hb
      cases hb
      rw [hd]; exact h.cover i a ha
    · rw [List.getElem?_set_ne hij] at hb
      exact h.cover j b hb

/-- A valid descriptor's level and the search in it. -/
theorem searchLevel_spec (h : ARInv W ar cs) {d : ArchetypeDescriptor} (hd : WFDesc d) :
    ∃ keys, ar.sortedMappings[d.len - 1]? = some keys ∧ SortedLt (keys.map (fun k => k.id.toNat)) ∧
      ar.searchLevel env d = .ok (keys, binarySearchByKey keys d.archetypeId.toNat (fun k => k.id.toNat)) := by
  have h1 := hd.len_pos
  have h2 := hd.len_le
  have hlt : d.len - 1 < ar.sortedMappings.length := by rw [h.levels]; have : (MAX_COMPONENTS_PER_ENTITY) = 14 := rfl; omega
  refine ⟨_, List.getElem?_eq_getElem hlt, h.sorted _ _ (List.getElem?_eq_getElem hlt), ?_⟩
  unfold ArchetypeRegistry.searchLevel
  rw [if_pos h1]
  simp only [ok_bind]
  rw [index_lt hlt]
  rfl

/-- What a lookup of a descriptor finds. -/
theorem search_cases (h : ARInv W ar cs) {d : ArchetypeDescriptor} (hd : WFDesc d) {keys : List SortedArchetypeKey}
    (hk : ar.sortedMappings[d.len - 1]? = some keys) :
    (∃ i k a, binarySearchByKey keys d.archetypeId.toNat (fun k => k.id.toNat) = .found i ∧ keys[i]? = some k ∧
      ar.archetypes[k.archetypeIndex.toNat]? = some a ∧ a.descriptor.len = d.len ∧
      a.descriptor.archetypeId = d.archetypeId) ∨
    (∃ i, binarySearchByKey keys d.archetypeId.toNat (fun k => k.id.toNat) = .insertAt i ∧ i ≤ keys.length ∧
      (∀ j (h : j < keys.length), j < i → keys[j].id.toNat < d.archetypeId.toNat) ∧
      (∀ j (h : j < keys.length), i ≤ j → d.archetypeId.toNat < keys[j].id.toNat) ∧
      ∀ (j : Nat) (a : Archetype), ar.archetypes[j]? = some a → a.descriptor.len = d.len →
        a.descriptor.archetypeId ≠ d.archetypeId) := by
  have hpos := hd.len_pos
  rcases binarySearchByKey_spec (key := d.archetypeId.toNat) (h.sorted _ _ hk) with ⟨i, hi, h1, h2⟩ | ⟨i, h1, h2, h3, h4⟩
  · left
    obtain ⟨a, q1, q2, q3⟩ := h.keys _ _ hk keys[i] (List.getElem_mem hi)
    refine ⟨i, keys[i], a, h1, List.getElem?_eq_getElem hi, q1, by omega, ?_⟩
    rw [q3]; exact UInt32.toNat_inj.mp h2
  · right
    refine ⟨i, h1, h2, h3, h4, ?_⟩
    intro j a ha hl hid
    obtain ⟨keys', k, c1, c2, c3⟩ := h.cover j a ha
    rw [hl, hk] at c1
    cases c1
    obtain ⟨b, q1, q2, q3⟩ := h.keys _ _ hk k c2
    rw [c3, ha] at q1
    cases q1
    obtain ⟨m, hm, hme⟩ := List.mem_iff_getElem.mp c2
    have hkid : keys[m].id.toNat = d.archetypeId.toNat := by rw [hme, ← q3, hid]
    rcases Nat.lt_or_ge m i with hlt | hge
    · have := h3 m hm hlt; omega
    · have := h4 m hm hge; omega

/-- `find_archetype`. -/
theorem findArchetype_spec (h : ARInv W ar cs) {d : ArchetypeDescriptor} (hd : WFDesc d) (hv : d.isValid = true) :
    (∃ i a, ar.findArchetype env d = .ok (some i) ∧ ar.archetypes[i]? = some a ∧ a.descriptor.len = d.len ∧
      a.descriptor.archetypeId = d.archetypeId) ∨
    (ar.findArchetype env d = .ok none ∧ ∀ (j : Nat) (a : Archetype), ar.archetypes[j]? = some a →
      a.descriptor.len = d.len → a.descriptor.archetypeId ≠ d.archetypeId) := by
  have h2 := hd.len_le
  obtain ⟨keys, k1, k2, k3⟩ := h.searchLevel_spec hd
  unfold ArchetypeRegistry.findArchetype
  rw [if_neg (by rw [hv]; simp; exact h2), k3]
  simp only [ok_bind]
  rcases h.search_cases hd k1 with ⟨i, k, a, s1, s2, s3, s4, s5⟩ | ⟨i, s1, _, _, _, s5⟩
  · left
    refine ⟨k.archetypeIndex.toNat, a, ?_, s3, s4, s5⟩
    rw [s1]
    simp only []
    rw [index_of_getElem? s2]
    simp only [ok_bind]
    rw [index_of_getElem? s3]
    rfl
  · right
    refine ⟨?_, s5⟩
    rw [s1]
    rfl

/-- `find_or_create_archetype` for an invalid descriptor. -/
theorem findOrCreate_invalid {d : ArchetypeDescriptor} (hv : d.isValid = false) :
    ar.findOrCreateArchetype env d = .ok (ar, none) := by
  unfold ArchetypeRegistry.findOrCreateArchetype
  rw [if_pos (by rw [hv]; simp)]

/-- The result of a creation. -/
structure NewArch (W : World env) (ar ar' : ArchetypeRegistry) (cs : List Content) (d : ArchetypeDescriptor)
    (cts : List CompTy) (a : Archetype) : Prop where
  archetypes : ar'.archetypes = ar.archetypes ++ [a]
  desc : a.descriptor = d
  cap : a.capacity = 128
  rep : Rep W a (Content.empty cts)
  inv : ARInv W ar' (cs ++ [Content.empty cts])

/-- `find_or_create_archetype`. -/
theorem findOrCreate_spec (h : ARInv W ar cs) {d : ArchetypeDescriptor} {cts : List CompTy} (hd : DescOK W d cts) :
    (∃ i a, ar.findOrCreateArchetype env d = .ok (ar, some i) ∧ ar.archetypes[i.toNat]? = some a ∧
      a.descriptor.len = d.len ∧ a.descriptor.archetypeId = d.archetypeId) ∨
    ((∀ (j : Nat) (a : Archetype), ar.archetypes[j]? = some a → a.descriptor.len = d.len →
        a.descriptor.archetypeId ≠ d.archetypeId) ∧
      ((ar.archetypes.length = 65534 ∧ ar.findOrCreateArchetype env d = .ok (ar, none)) ∨
       (∃ ar' a i, ar.archetypes.length < 65534 ∧ ar.findOrCreateArchetype env d = .ok (ar', some i) ∧
          i.toNat = ar.archetypes.length ∧ NewArch W ar ar' cs d cts a))) := by
  have h2 := hd.wf.len_le
  have hpos := hd.wf.len_pos
  have h14 : MAX_COMPONENTS_PER_ENTITY = 14 := rfl
  obtain ⟨keys, k1, k2, k3⟩ := h.searchLevel_spec hd.wf
  unfold ArchetypeRegistry.findOrCreateArchetype
  rw [if_neg (by rw [hd.valid]; simp; exact h2), k3]
  simp only [ok_bind]
  rcases h.search_cases hd.wf k1 with ⟨i, k, a, s1, s2, s3, s4, s5⟩ | ⟨i, s1, s2, s3, s4, s5⟩
  · left
    refine ⟨k.archetypeIndex, a, ?_, s3, s4, s5⟩
    rw [s1]
    simp only []
    rw [index_of_getElem? s2]
    simp only [ok_bind]
    rw [index_of_getElem? s3]
    rfl
  · right
    refine ⟨s5, ?_⟩
    rw [s1]
    simp only []
    have hM : MAX_ARCHETYPE_COUNT = 65534 := rfl
    have hle := h.le
    by_cases hfull : ar.archetypes.length ≥ MAX_ARCHETYPE_COUNT
    · left
      rw [if_pos hfull]
      exact ⟨by omega, rfl⟩
    · right
      rw [if_neg hfull]
      obtain ⟨a, w1, w2, w3, w4⟩ := withCapacity_spec hd CapOK.default
      have hlt : ar.archetypes.length < 65534 := by omega
      have hn : (UInt16.ofNat ar.archetypes.length).toNat = ar.archetypes.length := by
        rw [UInt16.toNat_ofNat']; exact Nat.mod_eq_of_lt (by omega)
      have hlast : (UInt16.ofNat (ar.archetypes ++ [a]).length - 1).toNat = ar.archetypes.length := by
        rw [UInt16.toNat_sub, UInt16.toNat_ofNat']
        simp only [List.length_append, List.length_cons, List.length_nil]
        have : (1 : UInt16).toNat = 1 := rfl
        rw [this]
        omega
      refine ⟨⟨ar.sortedMappings.set (d.len - 1) (keys.take i ++ ⟨d.archetypeId, UInt16.ofNat ar.archetypes.length⟩ ::
        keys.drop i), ar.archetypes ++ [a]⟩, a, UInt16.ofNat (ar.archetypes ++ [a]).length - 1, hlt, ?_, hlast,
        rfl, w2, w3, w4, ?_⟩
      · rw [show DEFAULT_ARCHETYPE_ALLOCATION_SIZE = 128 from rfl, w1]
        simp only [ok_bind]
        rw [ensure_true (by simpa using s2)]
        rfl
      · have hlv : d.len - 1 < ar.sortedMappings.length := (List.getElem?_eq_some_iff.mp k1).1
        have happ : ∀ (j : Nat) (b : Archetype), ar.archetypes[j]? = some b → (ar.archetypes ++ [a])[j]? = some b := by
          intro j b hb
          rw [List.getElem?_append_left (List.getElem?_eq_some_iff.mp hb).1]; exact hb
        have hself : (ar.archetypes ++ [a])[ar.archetypes.length]? = some a := by
          rw [List.getElem?_append_right (Nat.le_refl _)]; simp
        refine ⟨by simp [h.len], by simp; omega, ?_, by simp [h.levels], ?_, ?_, ?_⟩
        · intro j b ct hb hc
          simp only [] at hb
          rw [List.getElem?_append] at hb hc
          by_cases hj : j < ar.archetypes.length
          · rw [if_pos hj] at hb
            rw [if_pos (by rw [h.len]; exact hj)] at hc
            exact h.rep j b ct hb hc
          · rw [if_neg hj] at hb
            rw [if_neg (by rw [h.len]; exact hj)] at hc
            rw [List.getElem?_singleton] at hb hc
            split at hb
            · cases hb
              split at hc
              · cases hc; exact w4
              · cases hc
            · cases hb
        · intro l ks hl
          simp only [] at hl
          by_cases hll : d.len - 1 = l
          · subst hll
            rw [List.getElem?_set_self hlv] at hl
            cases hl
            rw [List.map_append, List.map_cons, List.map_take, List.map_drop]
            apply sortedLt_insert k2
            · intro j hj hji
              rw [List.length_map] at hj
              rw [List.getElem_map]; exact s3 j hj hji
            · intro j hj hji
              rw [List.length_map] at hj
              rw [List.getElem_map]; exact s4 j hj hji
          · rw [List.getElem?_set_ne hll] at hl
            exact h.sorted l ks hl
        · intro l ks hl k hk
          simp only [] at hl ⊢
          by_cases hll : d.len - 1 = l
          · subst hll
            rw [List.getElem?_set_self hlv] at hl
            cases hl
            have hk' : k = ⟨d.archetypeId, UInt16.ofNat ar.archetypes.length⟩ ∨ k ∈ keys := by
              rcases List.mem_append.mp hk with hm | hm
              · exact Or.inr (List.mem_of_mem_take hm)
              · rcases List.mem_cons.mp hm with hm | hm
                · exact Or.inl hm
                · exact Or.inr (List.mem_of_mem_drop hm)
            rcases hk' with rfl | hm
            · refine ⟨a, by simp only [hn]; exact hself, by rw [w2]; omega, by rw [w2]⟩
            · obtain ⟨b, q1, q2, q3⟩ := h.keys _ _ k1 k hm
              exact ⟨b, happ _ _ q1, q2, q3⟩
          · rw [List.getElem?_set_ne hll] at hl
            obtain ⟨b, q1, q2, q3⟩ := h.keys l ks hl k hk
            exact ⟨b, happ _ _ q1, q2, q3⟩
        · intro j b hb
          simp only [] at hb ⊢
          rw [List.getElem?_append] at hb
          by_cases hj : j < ar.archetypes.length
          · rw [if_pos hj] at hb
            obtain ⟨ks, k, q1, q2, q3⟩ := h.cover j b hb
            by_cases hll : d.len - 1 = b.descriptor.len - 1
            · rw [← hll] at q1 ⊢
              rw [k1] at q1
              cases q1
              refine ⟨_, k, List.getElem?_set_self hlv, ?_, q3⟩
              have := List.take_append_drop i keys ▸ q2
              rcases List.mem_append.mp this with hm | hm
              · exact List.mem_append_left _ hm
              · exact List.mem_append_right _ (List.mem_cons_of_mem _ hm)
            · exact ⟨ks, k, by rw [List.getElem?_set_ne hll]; exact q1, q2, q3⟩
          · rw [if_neg hj, List.getElem?_singleton] at hb
            split at hb
            · next hz =>
              cases hb
              refine ⟨_, ⟨d.archetypeId, UInt16.ofNat ar.archetypes.length⟩, by rw [w2]; exact List.getElem?_set_self hlv,
                List.mem_append_right _ List.mem_cons_self, ?_⟩
              simp only [hn]; omega
            · cases hb

/-- Two archetypes with the same number of components and the same id are the same archetype. -/
theorem unique_index (h : ARInv W ar cs) {i j : Nat} {a b : Archetype} (hi : ar.archetypes[i]? = some a)
    (hj : ar.archetypes[j]? = some b) (hl : a.descriptor.len = b.descriptor.len)
    (hid : a.descriptor.archetypeId = b.descriptor.archetypeId) : i = j := by
  obtain ⟨ks, k, q1, q2, q3⟩ := h.cover i a hi
  obtain ⟨ks', k', q1', q2', q3'⟩ := h.cover j b hj
  rw [← hl, q1] at q1'
  cases q1'
  obtain ⟨a', r1, r2, r3⟩ := h.keys _ _ q1 k q2
  obtain ⟨b', r1', r2', r3'⟩ := h.keys _ _ q1 k' q2'
  rw [q3, hi] at r1; cases r1
  rw [q3', hj] at r1'; cases r1'
  obtain ⟨m, hm, hme⟩ := List.mem_iff_getElem.mp q2
  obtain ⟨m', hm', hme'⟩ := List.mem_iff_getElem.mp q2'
  have : m = m' := by
    apply (h.sorted _ _ q1).inj (by simpa using hm) (by simpa using hm')
    simp only [List.getElem_map, hme, hme', ← r3, ← r3', hid]
  subst this
  rw [hme] at hme'
  subst hme'
  omega

end ARInv

end Shard
