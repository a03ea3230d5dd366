import Verif.Proofs.Sort
/-!
# Descriptors: well-formedness, set operations, add/remove, group normal form
-/

namespace Shard

/-- A well-formed archetype descriptor: between 1 and 14 components, strictly ascending by id. -/
structure WFDesc (d : ArchetypeDescriptor) : Prop where
  comps_len : d.comps.length = MAX_COMPONENTS_PER_ENTITY
  len_pos : 1 ≤ d.len
  len_le : d.len ≤ MAX_COMPONENTS_PER_ENTITY
  sorted : SortedLt (d.components.map (fun c => c.id.toNat))

/-- The component ids of a descriptor, in ascending order. -/
def ArchetypeDescriptor.ids (d : ArchetypeDescriptor) : List UInt16 := d.components.map (fun c => c.id)

namespace WFDesc

variable {d : ArchetypeDescriptor}

theorem components_length (h : WFDesc d) : d.components.length = d.len := by
  unfold ArchetypeDescriptor.components
  rw [List.length_take, h.comps_len]
  have := h.len_le; omega

theorem getD_comps (h : WFDesc d) {i : Nat} (hi : i < d.len) :
    d.comps.getD i ComponentDescriptor.INVALID = d.components[i]'(by rw [h.components_length]; exact hi) := by
  have h1 : i < d.comps.length := by have := h.len_le; have := h.comps_len; omega
  simp only [ArchetypeDescriptor.components, List.getElem_take]
  simp [List.getD, h1]

theorem comps_getElem? (_h : WFDesc d) {i : Nat} (hi : i < d.len) : d.comps[i]? = d.components[i]? := by
  unfold ArchetypeDescriptor.components
  rw [List.getElem?_take_of_lt hi]

theorem id_inj (h : WFDesc d) {i j : Nat} (hi : i < d.components.length) (hj : j < d.components.length)
    (he : d.components[i].id = d.components[j].id) : i = j :=
  h.sorted.inj (by simpa using hi) (by simpa using hj) (by simp [he])

theorem ids_nodup (h : WFDesc d) : d.ids.Nodup := by
  have := h.sorted
  unfold SortedLt at this
  unfold ArchetypeDescriptor.ids List.Nodup
  rw [List.pairwise_map] at this ⊢
  exact this.imp (by intro a b hab he; rw [he] at hab; exact Nat.lt_irrefl _ hab)

theorem ids_length (h : WFDesc d) : d.ids.length = d.len := by
  unfold ArchetypeDescriptor.ids
  rw [List.length_map, h.components_length]

theorem hasComponent_iff (h : WFDesc d) (c : CompTy) : d.hasComponent c = true ↔ c.id ∈ d.ids := by
  unfold ArchetypeDescriptor.hasComponent
  unfold ArchetypeDescriptor.ids
  constructor
  · intro hf
    rcases binarySearchByKey_spec (key := c.id.toNat) h.sorted with ⟨i, hi, h1, h2⟩ | ⟨i, h1, _⟩
    · refine List.mem_map.mpr ⟨_, List.getElem_mem hi, ?_⟩
      exact UInt16.toNat_inj.mp h2
    · rw [h1] at hf; cases hf
  · intro hm
    obtain ⟨x, hx, he⟩ := List.mem_map.mp hm
    obtain ⟨i, hi, rfl⟩ := List.mem_iff_getElem.mp hx
    have := binarySearchByKey_found h.sorted hi
    simp only [he] at this
    rw [this]; rfl

/-- Position of a component by id, as found by the binary searches. -/
theorem search_found (h : WFDesc d) {i : Nat} (hi : i < d.components.length) :
    binarySearchByKey d.components d.components[i].id.toNat (fun e => e.id.toNat) = .found i :=
  binarySearchByKey_found h.sorted hi

theorem mem_ids_iff (_h : WFDesc d) {id : UInt16} : id ∈ d.ids ↔ ∃ (i : Nat) (hi : i < d.components.length), d.components[i].id = id := by
  unfold ArchetypeDescriptor.ids
  constructor
  · intro hm
    obtain ⟨x, hx, he⟩ := List.mem_map.mp hm
    obtain ⟨i, hi, rfl⟩ := List.mem_iff_getElem.mp hx
    exact ⟨i, hi, he⟩
  · rintro ⟨i, hi, he⟩
    exact List.mem_map.mpr ⟨_, List.getElem_mem hi, he⟩

theorem any_iff (h : WFDesc d) (id : UInt16) :
    (List.range d.len).any (fun j => (d.comps.getD j ComponentDescriptor.INVALID).id == id) = true ↔ id ∈ d.ids := by
  rw [List.any_eq_true, h.mem_ids_iff]
  constructor
  · rintro ⟨j, hj, he⟩
    rw [List.mem_range] at hj
    rw [h.getD_comps hj] at he
    exact ⟨j, by rw [h.components_length]; exact hj, by simpa using he⟩
  · rintro ⟨j, hj, he⟩
    have hj' : j < d.len := by rw [← h.components_length]; exact hj
    exact ⟨j, List.mem_range.mpr hj', by rw [h.getD_comps hj']; simpa using he⟩

theorem containsLoop_iff (h : WFDesc d) (o : ArchetypeDescriptor) : ∀ (n i : Nat),
    ArchetypeDescriptor.containsLoop d o n i = true ↔
      ∀ k, i ≤ k → k < i + n → (o.comps.getD k ComponentDescriptor.INVALID).id ∈ d.ids
  | 0, i => by
    simp only [ArchetypeDescriptor.containsLoop, true_iff]
    intro k h1 h2; omega
  | n + 1, i => by
    unfold ArchetypeDescriptor.containsLoop
    have ha := h.any_iff (o.comps.getD i ComponentDescriptor.INVALID).id
    split
    · next hc =>
      rw [containsLoop_iff h o n (i + 1)]
      constructor
      · intro hk k h1 h2
        by_cases hki : k = i
        · subst hki; exact ha.mp hc
        · exact hk k (by omega) (by omega)
      · intro hk k h1 h2; exact hk k (by omega) (by omega)
    · next hc =>
      constructor
      · intro hf; cases hf
      · intro hk
        exact absurd (ha.mpr (hk i (by omega) (by omega))) hc

end WFDesc

theorem nodup_subset_length {l1 l2 : List UInt16} (hn : l1.Nodup) (hs : ∀ x ∈ l1, x ∈ l2) : l1.length ≤ l2.length := by
  induction l1 generalizing l2 with
  | nil => simp
  | cons a l ih =>
    obtain ⟨h1, h2⟩ := List.nodup_cons.mp hn
    have ha := hs a List.mem_cons_self
    have hlen : l.length ≤ (l2.erase a).length := by
      apply ih h2
      intro x hx
      have : x ≠ a := by rintro rfl; exact h1 hx
      exact (List.mem_erase_of_ne this).mpr (hs x (List.mem_cons_of_mem _ hx))
    rw [List.length_erase_of_mem ha] at hlen
    have : 0 < l2.length := List.length_pos_of_mem ha
    simp only [List.length_cons]
    omega

namespace WFDesc

variable {d : ArchetypeDescriptor}

/-- `contains_subset` decides inclusion of the id sets. -/
theorem containsSubset_iff (h : WFDesc d) {o : ArchetypeDescriptor} (ho : WFDesc o) :
    d.containsSubset o = true ↔ ∀ id ∈ o.ids, id ∈ d.ids := by
  unfold ArchetypeDescriptor.containsSubset
  have hl := h.containsLoop_iff o o.len 0
  have hids : (∀ k, 0 ≤ k → k < 0 + o.len → (o.comps.getD k ComponentDescriptor.INVALID).id ∈ d.ids) ↔
      ∀ id ∈ o.ids, id ∈ d.ids := by
    constructor
    · intro hk id hid
      obtain ⟨i, hi, rfl⟩ := ho.mem_ids_iff.mp hid
      have hi' : i < o.len := by rw [← ho.components_length]; exact hi
      have := hk i (by omega) (by omega)
      rwa [ho.getD_comps hi'] at this
    · intro hk k _ h2
      rw [ho.getD_comps (by omega)]
      exact hk _ (ho.mem_ids_iff.mpr ⟨k, by rw [ho.components_length]; omega, rfl⟩)
  split
  · next hgt =>
    constructor
    · intro hf; cases hf
    · intro hs
      have := nodup_subset_length ho.ids_nodup hs
      rw [ho.ids_length, h.ids_length] at this
      omega
  · rw [hl, hids]

/-- The invalid descriptor (no components) is contained in everything. -/
theorem containsSubset_INVALID (d : ArchetypeDescriptor) : d.containsSubset ArchetypeDescriptor.INVALID = true := by
  unfold ArchetypeDescriptor.containsSubset
  simp [ArchetypeDescriptor.INVALID, ArchetypeDescriptor.containsLoop]

/-- `excludes_subset` decides disjointness of the id sets. -/
theorem excludesSubset_iff (h : WFDesc d) {o : ArchetypeDescriptor} (ho : WFDesc o) :
    d.excludesSubset o = true ↔ ∀ id ∈ o.ids, id ∉ d.ids := by
  unfold ArchetypeDescriptor.excludesSubset
  rw [List.all_eq_true]
  constructor
  · intro hk id hid hmem
    obtain ⟨i, hi, rfl⟩ := ho.mem_ids_iff.mp hid
    obtain ⟨j, hj, he⟩ := h.mem_ids_iff.mp hmem
    have hi' : i < o.len := by rw [← ho.components_length]; exact hi
    have hj' : j < d.len := by rw [← h.components_length]; exact hj
    have h1 := hk i (List.mem_range.mpr hi')
    rw [List.all_eq_true] at h1
    have h2 := h1 j (List.mem_range.mpr hj')
    rw [ho.getD_comps hi', h.getD_comps hj'] at h2
    simp [he] at h2
  · intro hk i hi
    rw [List.mem_range] at hi
    rw [List.all_eq_true]
    intro j hj
    rw [List.mem_range] at hj
    rw [ho.getD_comps hi, h.getD_comps hj]
    have h1 := hk _ (ho.mem_ids_iff.mpr ⟨i, by rw [ho.components_length]; exact hi, rfl⟩)
    simp only [Bool.not_eq_true', beq_eq_false_iff_ne, ne_eq]
    intro he
    exact h1 (h.mem_ids_iff.mpr ⟨j, by rw [h.components_length]; exact hj, he⟩)

end WFDesc

theorem WFDesc.eraseIdx_eq_filter {d : ArchetypeDescriptor} (h : WFDesc d) {i : Nat} (hi : i < d.components.length) :
    d.components.eraseIdx i = d.components.filter (fun x => x.id != d.components[i].id) := by
  have hnd := h.ids_nodup
  unfold ArchetypeDescriptor.ids at hnd
  generalize d.components = l at *
  induction l generalizing i with
  | nil => simp at hi
  | cons a l ih =>
    rw [List.map_cons, List.nodup_cons] at hnd
    cases i with
    | zero =>
      rw [List.eraseIdx_cons_zero, List.getElem_cons_zero, List.filter_cons_of_neg (by simp)]
      symm
      rw [List.filter_eq_self]
      intro x hx
      simp only [bne_iff_ne, ne_eq]
      intro he
      exact hnd.1 (List.mem_map.mpr ⟨x, hx, he⟩)
    | succ j =>
      have hj : j < l.length := by simpa using hi
      rw [List.eraseIdx_cons_succ, List.getElem_cons_succ, List.filter_cons_of_pos, ih hj hnd.2]
      simp only [bne_iff_ne, ne_eq]
      intro he
      exact hnd.1 (List.mem_map.mpr ⟨l[j], List.getElem_mem hj, he.symm⟩)

/-! ## `add_component` and `remove_component` on descriptors -/

namespace ArchetypeDescriptor

/-- The shifting loop of `add_component`. -/
theorem addLoop_spec {comps : List ComponentDescriptor} {ins len : Nat} (hl : comps.length = 14) (hins : ins ≤ len)
    (hlen : len ≤ 12) :
    ∃ v, forRange ins (len + 1 - ins) (fun i v => do
        let x ← index comps i
        setIndex v (i + 1) x) comps = .ok v ∧ v.length = 14 ∧
      ∀ j, v[j]? = if ins + 1 ≤ j ∧ j ≤ len + 1 then comps[j - 1]? else comps[j]? := by
  obtain ⟨v, h1, h2, h3⟩ := forRange_inv (f := fun i v => do
        let x ← index comps i
        setIndex v (i + 1) x)
    (fun i v => v.length = 14 ∧ ∀ j, v[j]? = if ins + 1 ≤ j ∧ j ≤ i then comps[j - 1]? else comps[j]?)
    (len + 1 - ins) ins comps ⟨hl, by intro j; rw [if_neg (by omega)]⟩ (by
      intro i s hi hi' ⟨hs, hj⟩
      have hil : i < comps.length := by omega
      refine ⟨s.set (i + 1) comps[i], ?_, by simpa using hs, ?_⟩
      · simp only [index_lt hil, ok_bind]
        exact setIndex_lt (by omega)
      · intro j
        by_cases hji : i + 1 = j
        · subst hji
          rw [List.getElem?_set_self (by omega), if_pos (by omega), Nat.add_sub_cancel, List.getElem?_eq_getElem hil]
        · rw [List.getElem?_set_ne hji, hj]
          by_cases hc : ins + 1 ≤ j ∧ j ≤ i
          · rw [if_pos hc, if_pos (by omega)]
          · rw [if_neg hc, if_neg (by omega)])
  refine ⟨v, h1, h2, ?_⟩
  intro j
  rw [h3 j, show ins + (len + 1 - ins) = len + 1 by omega]

/-- With 13 components the shifting loop runs out of the array. -/
theorem addLoop_panic {comps : List ComponentDescriptor} {ins : Nat} (hl : comps.length = 14) (hins : ins ≤ 13) :
    forRange ins (13 + 1 - ins) (fun i v => do
        let x ← index comps i
        setIndex v (i + 1) x) comps = .error (.panic .indexOutOfBounds) := by
  have gen : ∀ (n i : Nat) (v : List ComponentDescriptor), v.length = 14 → i + n = 13 →
      forRange i (n + 1) (fun i v => do
        let x ← index comps i
        setIndex v (i + 1) x) v = .error (.panic .indexOutOfBounds) := by
    intro n
    induction n with
    | zero =>
      intro i v hv hi
      have hi : i = 13 := by omega
      subst hi
      have : 13 < comps.length := by omega
      simp only [forRange, index_lt this, ok_bind]
      simp [setIndex, hv]
    | succ n ih =>
      intro i v hv hi
      have h1 : i < comps.length := by omega
      rw [forRange]
      simp only [index_lt h1, ok_bind]
      rw [setIndex_lt (by omega)]
      exact ih (i + 1) _ (by simpa using hv) (by omega)
  have := gen (13 - ins) ins comps hl (by omega)
  rwa [show 13 - ins + 1 = 13 + 1 - ins by omega] at this

/-- Inserting a descriptor into the sorted component list. -/
theorem addComponent_spec {env : Env} {d : ArchetypeDescriptor} {cd : ComponentDescriptor} (h : WFDesc d)
    (hlen : d.len ≤ 12) (habs : cd.id ∉ d.ids) :
    ∃ d' i, d.addComponent env cd = .ok (some d') ∧ WFDesc d' ∧ d'.len = d.len + 1 ∧ i ≤ d.components.length ∧
      d'.components = d.components.take i ++ cd :: d.components.drop i ∧
      d'.archetypeId = computeArchetypeId env d'.components := by
  have habs' : ∀ x ∈ d.components, x.id.toNat ≠ cd.id.toNat := by
    intro x hx he
    exact habs (List.mem_map.mpr ⟨x, hx, UInt16.toNat_inj.mp he⟩)
  obtain ⟨i, hs, hi, hlo, hhi⟩ := binarySearchByKey_absent (f := fun (e : ComponentDescriptor) => e.id.toNat) h.sorted habs'
  have hcl := h.components_length
  obtain ⟨v, hv, hvl, hvj⟩ := addLoop_spec (ins := i) (len := d.len) h.comps_len (by omega) hlen
  have hadd : d.addComponent env cd = .ok (some ⟨computeArchetypeId env ((v.set i cd).take (d.len + 1)), v.set i cd, d.len + 1⟩) := by
    unfold addComponent
    rw [if_neg (by simp [MAX_COMPONENTS_PER_ENTITY]; omega)]
    have hs' : binarySearchByKey (d.comps.take d.len) cd.id.toNat (fun e => e.id.toNat) = .insertAt i := hs
    simp only [hs', hv, ok_bind]
    rw [setIndex_lt (by omega)]
    rfl
  have hcomp : (v.set i cd).take (d.len + 1) = d.components.take i ++ cd :: d.components.drop i := by
    apply List.ext_getElem?
    intro j
    rw [List.getElem?_take]
    by_cases hj : j < d.len + 1
    · rw [if_pos hj]
      rcases Nat.lt_trichotomy j i with hji | hji | hji
      · rw [List.getElem?_set_ne (by omega), hvj, if_neg (by omega), List.getElem?_append_left (by simp; omega),
          List.getElem?_take_of_lt hji, ← h.comps_getElem? (by omega)]
      · subst hji
        rw [List.getElem?_set_self (by omega), List.getElem?_append_right (by simp; omega)]
        simp [hi]
      · rw [List.getElem?_set_ne (by omega), hvj, if_pos (by omega), List.getElem?_append_right (by simp; omega)]
        rw [List.length_take, Nat.min_eq_left hi]
        obtain ⟨k, rfl⟩ : ∃ k, j = i + k + 1 := ⟨j - i - 1, by omega⟩
        rw [show i + k + 1 - i = k + 1 by omega, List.getElem?_cons_succ, List.getElem?_drop, Nat.add_sub_cancel,
          h.comps_getElem? (by omega)]
    · rw [if_neg hj, List.getElem?_eq_none]
      simp; omega
  refine ⟨_, i, hadd, ⟨?_, ?_, ?_, ?_⟩, rfl, hi, hcomp, rfl⟩
  · show (v.set i cd).length = 14
    simpa using hvl
  · simp
  · simp [MAX_COMPONENTS_PER_ENTITY]; omega
  · show SortedLt (List.map _ ((v.set i cd).take (d.len + 1)))
    rw [hcomp, List.map_append, List.map_cons, List.map_take, List.map_drop]
    apply sortedLt_insert h.sorted
    · intro j hj hji
      rw [List.getElem_map]
      exact hlo j (by simpa using hj) hji
    · intro j hj hji
      rw [List.getElem_map]
      exact hhi j (by simpa using hj) hji

theorem addComponent_full {env : Env} {d : ArchetypeDescriptor} {cd : ComponentDescriptor} (h : d.len = 14) :
    d.addComponent env cd = .ok none := by
  unfold addComponent
  exact if_pos h

theorem addComponent_present {env : Env} {d : ArchetypeDescriptor} {cd : ComponentDescriptor} (h : WFDesc d)
    (hp : cd.id ∈ d.ids) : d.addComponent env cd = .ok none := by
  unfold addComponent
  split
  · rfl
  · obtain ⟨i, hi, he⟩ := h.mem_ids_iff.mp hp
    have := h.search_found hi
    rw [he] at this
    have hs' : binarySearchByKey (d.comps.take d.len) cd.id.toNat (fun e => e.id.toNat) = .found i := this
    simp only [hs']

theorem addComponent_thirteen {env : Env} {d : ArchetypeDescriptor} {cd : ComponentDescriptor} (h : WFDesc d)
    (hlen : d.len = 13) (habs : cd.id ∉ d.ids) :
    d.addComponent env cd = .error (.panic .indexOutOfBounds) := by
  have habs' : ∀ x ∈ d.components, x.id.toNat ≠ cd.id.toNat := by
    intro x hx he
    exact habs (List.mem_map.mpr ⟨x, hx, UInt16.toNat_inj.mp he⟩)
  obtain ⟨i, hs, hi, hlo, hhi⟩ := binarySearchByKey_absent (f := fun (e : ComponentDescriptor) => e.id.toNat) h.sorted habs'
  have hs' : binarySearchByKey (d.comps.take d.len) cd.id.toNat (fun e => e.id.toNat) = .insertAt i := hs
  unfold addComponent
  rw [if_neg (by simp [MAX_COMPONENTS_PER_ENTITY]; omega)]
  simp only [hs']
  rw [hlen, addLoop_panic h.comps_len (by have := h.components_length; omega)]
  rfl

/-- The shifting loop of `remove_component`. -/
theorem removeLoop_spec {comps : List ComponentDescriptor} {fi len : Nat} (hl : comps.length = 14) (hfi : fi < len)
    (hlen : len ≤ 13) :
    ∃ v, forRange fi (len - fi) (fun i v => do
        let x ← index comps (i + 1)
        setIndex v i x) comps = .ok v ∧ v.length = 14 ∧
      ∀ j, v[j]? = if fi ≤ j ∧ j < len then comps[j + 1]? else comps[j]? := by
  obtain ⟨v, h1, h2, h3⟩ := forRange_inv (f := fun i v => do
        let x ← index comps (i + 1)
        setIndex v i x)
    (fun i v => v.length = 14 ∧ ∀ j, v[j]? = if fi ≤ j ∧ j < i then comps[j + 1]? else comps[j]?)
    (len - fi) fi comps ⟨hl, by intro j; rw [if_neg (by omega)]⟩ (by
      intro i s hi hi' ⟨hs, hj⟩
      have hil : i + 1 < comps.length := by omega
      refine ⟨s.set i comps[i + 1], ?_, by simpa using hs, ?_⟩
      · simp only [index_lt hil, ok_bind]
        exact setIndex_lt (by omega)
      · intro j
        by_cases hji : i = j
        · subst hji
          rw [List.getElem?_set_self (by omega), if_pos (by omega), List.getElem?_eq_getElem hil]
        · rw [List.getElem?_set_ne hji, hj]
          by_cases hc : fi ≤ j ∧ j < i
          · rw [if_pos hc, if_pos (by omega)]
          · rw [if_neg hc, if_neg (by omega)])
  refine ⟨v, h1, h2, ?_⟩
  intro j
  rw [h3 j, show fi + (len - fi) = len by omega]

theorem removeLoop_panic {comps : List ComponentDescriptor} {fi : Nat} (hl : comps.length = 14) (hfi : fi < 14) :
    forRange fi (14 - fi) (fun i v => do
        let x ← index comps (i + 1)
        setIndex v i x) comps = .error (.panic .indexOutOfBounds) := by
  have gen : ∀ (n i : Nat) (v : List ComponentDescriptor), v.length = 14 → i + n = 13 →
      forRange i (n + 1) (fun i v => do
        let x ← index comps (i + 1)
        setIndex v i x) v = .error (.panic .indexOutOfBounds) := by
    intro n
    induction n with
    | zero =>
      intro i v hv hi
      have hi : i = 13 := by omega
      subst hi
      simp [forRange, index, hl, error_bind]
    | succ n ih =>
      intro i v hv hi
      have h1 : i + 1 < comps.length := by omega
      rw [forRange]
      simp only [index_lt h1, ok_bind]
      rw [setIndex_lt (by omega)]
      exact ih (i + 1) _ (by simpa using hv) (by omega)
  have := gen (13 - fi) fi comps hl (by omega)
  rwa [show 13 - fi + 1 = 14 - fi by omega] at this

theorem removeComponent_spec {env : Env} {d : ArchetypeDescriptor} {id : UInt16} (h : WFDesc d)
    (h2 : 2 ≤ d.len) (hlen : d.len ≤ 13) {i : Nat} (hi : i < d.components.length) (he : d.components[i].id = id) :
    ∃ d', d.removeComponent env id = .ok (some d') ∧ WFDesc d' ∧ d'.len = d.len - 1 ∧
      d'.components = d.components.eraseIdx i ∧
      d'.archetypeId = computeArchetypeId env d'.components := by
  have hcl := h.components_length
  obtain ⟨v, hv, hvl, hvj⟩ := removeLoop_spec (fi := i) (len := d.len) h.comps_len (by omega) hlen
  have hs := h.search_found hi
  rw [he] at hs
  have hs' : binarySearchByKey (d.comps.take d.len) id.toNat (fun e => e.id.toNat) = .found i := hs
  have hrem : d.removeComponent env id = .ok (some ⟨computeArchetypeId env (v.take (d.len - 1)), v, d.len - 1⟩) := by
    unfold removeComponent
    rw [if_neg (by omega)]
    simp only [hs', hv, ok_bind]
    rfl
  have hcomp : v.take (d.len - 1) = d.components.eraseIdx i := by
    apply List.ext_getElem?
    intro j
    rw [List.getElem?_take, List.getElem?_eraseIdx]
    by_cases hj : j < d.len - 1
    · rw [if_pos hj, hvj]
      by_cases hji : j < i
      · rw [if_neg (by omega), if_pos hji, h.comps_getElem? (by omega)]
      · rw [if_pos (by omega), if_neg hji, h.comps_getElem? (by omega)]
    · rw [if_neg hj, if_neg (by omega), List.getElem?_eq_none (by omega)]
  refine ⟨_, hrem, ⟨?_, ?_, ?_, ?_⟩, rfl, hcomp, rfl⟩
  · exact hvl
  · show 1 ≤ d.len - 1; omega
  · show d.len - 1 ≤ _; have := h.len_le; omega
  · show SortedLt (List.map _ (v.take (d.len - 1)))
    rw [hcomp]
    exact h.sorted.sublist ((List.eraseIdx_sublist _ _).map _)

theorem removeComponent_one {env : Env} {d : ArchetypeDescriptor} {id : UInt16} (h : d.len = 1) :
    d.removeComponent env id = .ok none := by
  unfold removeComponent
  rw [if_pos h]

theorem removeComponent_absent {env : Env} {d : ArchetypeDescriptor} {id : UInt16} (h : WFDesc d)
    (habs : id ∉ d.ids) : d.removeComponent env id = .ok none := by
  unfold removeComponent
  split
  · rfl
  · have habs' : ∀ x ∈ d.components, x.id.toNat ≠ id.toNat := by
      intro x hx he
      exact habs (List.mem_map.mpr ⟨x, hx, UInt16.toNat_inj.mp he⟩)
    obtain ⟨i, hs, _⟩ := binarySearchByKey_absent (f := fun (e : ComponentDescriptor) => e.id.toNat) h.sorted habs'
    have hs' : binarySearchByKey (d.comps.take d.len) id.toNat (fun e => e.id.toNat) = .insertAt i := hs
    simp only [hs']

theorem removeComponent_fourteen {env : Env} {d : ArchetypeDescriptor} {id : UInt16} (h : WFDesc d)
    (hlen : d.len = 14) (hp : id ∈ d.ids) : d.removeComponent env id = .error (.panic .indexOutOfBounds) := by
  obtain ⟨i, hi, he⟩ := h.mem_ids_iff.mp hp
  have hs := h.search_found hi
  rw [he] at hs
  have hs' : binarySearchByKey (d.comps.take d.len) id.toNat (fun e => e.id.toNat) = .found i := hs
  unfold removeComponent
  rw [if_neg (by omega)]
  simp only [hs']
  rw [hlen, removeLoop_panic h.comps_len (by have := h.components_length; omega)]
  rfl

end ArchetypeDescriptor

/-! ## Group descriptors -/

/-- A well-formed component group: between 1 and 14 components with pairwise distinct ids. -/
structure Group.WF (g : Group) : Prop where
  pos : 1 ≤ g.length
  le : g.length ≤ MAX_COMPONENTS_PER_ENTITY
  nodup : (g.map (fun c => c.id)).Nodup

theorem Group.WF.id_inj {g : Group} (h : g.WF) {i j : Nat} (hi : i < g.length) (hj : j < g.length)
    (he : g[i].id = g[j].id) : i = j := by
  have := List.pairwise_iff_getElem.mp h.nodup
  simp only [List.getElem_map, List.length_map] at this
  rcases Nat.lt_trichotomy i j with h1 | h1 | h1
  · exact absurd he (this i j hi hj h1)
  · exact h1
  · exact absurd he.symm (this j i hj hi h1)

theorem validate_iff (g : Group) :
    ComponentGroupDescriptor.validate (g.map CompTy.descriptor) = true ↔ g.WF := by
  unfold ComponentGroupDescriptor.validate
  by_cases hlen : (g.map CompTy.descriptor).isEmpty || decide ((g.map CompTy.descriptor).length > MAX_COMPONENTS_PER_ENTITY)
  · rw [if_pos hlen]
    constructor
    · intro h; cases h
    · intro h
      have h1 := h.pos
      have h2 := h.le
      simp only [Bool.or_eq_true, List.isEmpty_iff, List.map_eq_nil_iff, decide_eq_true_eq, List.length_map] at hlen
      rcases hlen with hlen | hlen
      · subst hlen; simp at h1
      · omega
  · rw [if_neg hlen]
    simp only [Bool.or_eq_true, List.isEmpty_iff, List.map_eq_nil_iff, decide_eq_true_eq, List.length_map, not_or] at hlen
    have hpos : 1 ≤ g.length := by
      rcases Nat.eq_zero_or_pos g.length with h | h
      · exact absurd (List.eq_nil_of_length_eq_zero h) hlen.1
      · exact h
    have getD_id : ∀ k (hk : k < g.length),
        ((g.map CompTy.descriptor).getD k ComponentDescriptor.INVALID).id = g[k].id := by
      intro k hk
      simp [List.getD, hk, CompTy.descriptor]
    constructor
    · intro h
      refine ⟨hpos, by omega, ?_⟩
      unfold List.Nodup
      rw [List.pairwise_iff_getElem]
      intro i j hi hj hij he
      simp only [List.length_map] at hi hj
      simp only [List.getElem_map] at he
      rw [List.all_eq_true] at h
      have h1 := h i (List.mem_range.mpr (by simpa using hi))
      rw [List.all_eq_true] at h1
      have h2 := h1 j (by rw [List.mem_range'_1]; simp; omega)
      rw [getD_id i hi, getD_id j hj] at h2
      simp [he] at h2
    · intro h
      rw [List.all_eq_true]
      intro i hi
      rw [List.all_eq_true]
      intro j hj
      rw [List.mem_range] at hi
      rw [List.mem_range'_1] at hj
      simp only [List.length_map] at hi hj
      rw [getD_id i hi, getD_id j (by omega)]
      simp only [Bool.not_eq_true', beq_eq_false_iff_ne, ne_eq]
      intro he
      have := h.id_inj hi (by omega) he
      omega

theorem CompTy.descriptor_id (c : CompTy) : c.descriptor.id = c.id := rfl

/-- The id of the archetype a group of components is created in. -/
def Group.archetypeId (env : Env) (g : Group) : UInt32 :=
  ArchetypeDescriptor.computeArchetypeId env (ComponentGroupDescriptor.computeSortedDescriptors (g.map CompTy.descriptor))

theorem Group.descriptor_invalid_of_not_WF {env : Env} {g : Group} (h : ¬ g.WF) :
    g.descriptor env = ComponentGroupDescriptor.INVALID := by
  unfold Group.descriptor ComponentGroupDescriptor.new
  rw [if_pos]
  cases hv : ComponentGroupDescriptor.validate (g.map CompTy.descriptor)
  · rfl
  · exact absurd ((validate_iff g).mp hv) h

theorem Group.descriptor_invalid_of_hash {env : Env} {g : Group} (h : g.archetypeId env = ARCHETYPE_ID_INVALID) :
    g.descriptor env = ComponentGroupDescriptor.INVALID := by
  unfold Group.descriptor ComponentGroupDescriptor.new
  split
  · rfl
  · exact if_pos h

theorem Group.descriptor_eq {env : Env} {g : Group} (h : g.WF) (hid : g.archetypeId env ≠ ARCHETYPE_ID_INVALID) :
    g.descriptor env =
      ⟨⟨g.archetypeId env, ComponentGroupDescriptor.computeSortedDescriptors (g.map CompTy.descriptor), g.length⟩,
        (ComponentGroupDescriptor.computeSortMappings (g.map CompTy.descriptor)
          (ComponentGroupDescriptor.computeSortedDescriptors (g.map CompTy.descriptor))).2,
        (ComponentGroupDescriptor.computeSortMappings (g.map CompTy.descriptor)
          (ComponentGroupDescriptor.computeSortedDescriptors (g.map CompTy.descriptor))).1⟩ := by
  have hpos := h.pos
  have hnew : ArchetypeDescriptor.new (g.archetypeId env) (g.map CompTy.descriptor).length
      (ComponentGroupDescriptor.computeSortedDescriptors (g.map CompTy.descriptor)) =
      ⟨g.archetypeId env, ComponentGroupDescriptor.computeSortedDescriptors (g.map CompTy.descriptor), g.length⟩ := by
    unfold ArchetypeDescriptor.new
    rw [if_neg, List.length_map]
    rw [List.length_map]
    rintro (h | h)
    · omega
    · exact hid h
  unfold Group.descriptor ComponentGroupDescriptor.new
  rw [if_neg (by rw [(validate_iff g).mpr h]; simp)]
  simp only
  have hid' : ¬ ArchetypeDescriptor.computeArchetypeId env
      (ComponentGroupDescriptor.computeSortedDescriptors (g.map CompTy.descriptor)) = ARCHETYPE_ID_INVALID := hid
  rw [if_neg hid']
  unfold Group.archetypeId at hnew
  rw [hnew]
  rw [if_neg hid']
  rfl

theorem Group.isValid_iff {env : Env} {g : Group} :
    (g.descriptor env).isValid = true ↔ g.WF ∧ g.archetypeId env ≠ ARCHETYPE_ID_INVALID := by
  constructor
  · intro h
    refine ⟨Classical.byContradiction fun hc => ?_, fun hc => ?_⟩
    · rw [Group.descriptor_invalid_of_not_WF hc] at h; exact absurd h (by decide)
    · rw [Group.descriptor_invalid_of_hash hc] at h; exact absurd h (by decide)
  · rintro ⟨h1, h2⟩
    rw [Group.descriptor_eq h1 h2]
    simp only [ComponentGroupDescriptor.isValid, ArchetypeDescriptor.isValid, bne_iff_ne, ne_eq]
    exact h2

theorem Group.descriptor_invalid_or {env : Env} {g : Group} (h : (g.descriptor env).isValid = false) :
    g.descriptor env = ComponentGroupDescriptor.INVALID := by
  by_cases hw : g.WF
  · by_cases hid : g.archetypeId env = ARCHETYPE_ID_INVALID
    · exact Group.descriptor_invalid_of_hash hid
    · rw [Group.isValid_iff.mpr ⟨hw, hid⟩] at h; cases h
  · exact Group.descriptor_invalid_of_not_WF hw

/-- Normal form of a valid group descriptor. -/
structure GroupSpec (env : Env) (g : Group) : Prop where
  wf : g.WF
  desc : WFDesc (g.descriptor env).archetype
  valid : (g.descriptor env).archetype.isValid = true
  len : (g.descriptor env).archetype.len = g.length
  perm : (g.descriptor env).archetype.components.Perm (g.map CompTy.descriptor)
  slot : ∀ i (h : i < g.length), (g.descriptor env).archetype.components[g.slot env i]? = some g[i].descriptor
  id : (g.descriptor env).archetype.archetypeId = g.archetypeId env
  pad : ∀ k, g.length ≤ k → k < 14 → (g.descriptor env).archetype.comps[k]? = some ComponentDescriptor.INVALID

theorem Group.spec {env : Env} {g : Group} (hv : (g.descriptor env).isValid = true) : GroupSpec env g := by
  obtain ⟨hwf, hid⟩ := Group.isValid_iff.mp hv
  have hle := hwf.le
  obtain ⟨s, hs, hperm, hsorted⟩ := ComponentGroupDescriptor.computeSortedDescriptors_spec
    (ds := g.map CompTy.descriptor) (by simpa using hle)
  have hsl : s.length = g.length := by rw [hperm.length_eq, List.length_map]
  have hde := Group.descriptor_eq hwf hid
  have hcomps : (g.descriptor env).archetype.components = s := by
    rw [hde]
    simp only [ArchetypeDescriptor.components, hs]
    rw [← hsl, List.take_left']
    rfl
  have hids_nodup : (s.map (fun c => c.id)).Nodup := by
    have h1 : (s.map (fun c => c.id)).Perm (g.map (fun c => c.id)) := by
      have := hperm.map (fun c => c.id)
      rwa [List.map_map] at this
    exact h1.nodup_iff.mpr hwf.nodup
  have hstrict : SortedLt (s.map (fun c => c.id.toNat)) := by
    unfold SortedLt
    rw [List.pairwise_map]
    unfold List.Nodup at hids_nodup
    rw [List.pairwise_map] at hids_nodup
    have := hsorted.and hids_nodup
    refine this.imp ?_
    rintro a b ⟨h1, h2⟩
    have h1' : a.id.toNat ≤ b.id.toNat := UInt16.le_iff_toNat_le.mp h1
    have h2' : a.id.toNat ≠ b.id.toNat := fun h => h2 (UInt16.toNat_inj.mp h)
    omega
  have hcl : (g.descriptor env).archetype.len = g.length := by rw [hde]
  have hcompslen : (g.descriptor env).archetype.comps.length = 14 := by
    rw [hde]
    simp only [hs, List.length_append, List.length_replicate, List.length_map, hsl]
    simp [MAX_COMPONENTS_PER_ENTITY] at hle ⊢; omega
  refine ⟨hwf, ⟨hcompslen, ?_, ?_, ?_⟩, hv, hcl, ?_, ?_, ?_, ?_⟩
  · rw [hcl]; exact hwf.pos
  · rw [hcl]; exact hle
  · rw [hcomps]; exact hstrict
  · rw [hcomps]; exact hperm
  · intro i hi
    rw [hcomps]
    -- the descriptor of `g[i]` occurs in `s`
    have hmem : g[i].descriptor ∈ s := hperm.mem_iff.mpr (List.mem_map.mpr ⟨g[i], List.getElem_mem hi, rfl⟩)
    obtain ⟨k, hk, hke⟩ := List.mem_iff_getElem.mp hmem
    have huniq : ∀ k' (hk' : k' < s.length), s[k'].id = g[i].id → s[k'] = g[i].descriptor := by
      intro k' hk' he
      have : k' = k := by
        apply hstrict.inj (by simpa using hk') (by simpa using hk)
        simp [hke, he, CompTy.descriptor]
      subst this; exact hke
    have hgd : ∀ j, j < g.length → ((s ++ List.replicate (MAX_COMPONENTS_PER_ENTITY - g.length)
        ComponentDescriptor.INVALID).getD j ComponentDescriptor.INVALID) = s.getD j ComponentDescriptor.INVALID := by
      intro j hj
      simp only [List.getD]
      rw [List.getElem?_append_left (by omega)]
    have hslot : g.slot env i < s.length ∧ (s.getD (g.slot env i) ComponentDescriptor.INVALID).id = g[i].id := by
      unfold Group.slot
      split
      · next c =>
        -- a single component
        have hi0 : i = 0 := by simp at hi; exact hi
        subst hi0
        have hk0 : k = 0 := by
          simp at hsl
          omega
        subst hk0
        refine ⟨hk, ?_⟩
        rw [List.getD, List.getElem?_eq_getElem hk, Option.getD_some, hke]
        rfl
      · rw [hde]
        simp only [ComponentGroupDescriptor.computeSortMappings, List.length_map]
        rw [List.getD, List.getElem?_append_left (by simpa using hi), List.getElem?_map, List.getElem?_range hi]
        simp only [Option.map_some, Option.getD_some]
        have hdi : ((g.map CompTy.descriptor).getD i ComponentDescriptor.INVALID).id = g[i].id := by
          simp [List.getD, hi, CompTy.descriptor]
        rw [hdi]
        rw [hs, List.length_map]
        rcases ComponentGroupDescriptor.lastMatch_spec (l := s ++ List.replicate (MAX_COMPONENTS_PER_ENTITY - g.length)
          ComponentDescriptor.INVALID) (id := g[i].id) g.length with h | ⟨h1, h2⟩
        · exfalso
          apply h k (by omega)
          rw [hgd k (by omega), List.getD, List.getElem?_eq_getElem hk, Option.getD_some, hke]
          rfl
        · refine ⟨by omega, ?_⟩
          rw [hgd _ h1] at h2
          exact h2
    obtain ⟨h1, h2⟩ := hslot
    rw [List.getElem?_eq_getElem h1]
    rw [List.getD, List.getElem?_eq_getElem h1, Option.getD_some] at h2
    rw [huniq _ h1 h2]
  · rw [hde]
  · intro k hk hk'
    rw [hde]
    simp only [hs]
    rw [List.getElem?_append_right (by omega), List.getElem?_replicate, if_pos]
    simp [MAX_COMPONENTS_PER_ENTITY]; omega

theorem GroupSpec.slot_lt {env : Env} {g : Group} (h : GroupSpec env g) {i : Nat} (hi : i < g.length) :
    g.slot env i < (g.descriptor env).archetype.components.length :=
  (List.getElem?_eq_some_iff.mp (h.slot i hi)).1

theorem GroupSpec.components_length {env : Env} {g : Group} (h : GroupSpec env g) :
    (g.descriptor env).archetype.components.length = g.length := by
  rw [h.desc.components_length, h.len]

theorem GroupSpec.slot_inj {env : Env} {g : Group} (h : GroupSpec env g) {i j : Nat} (hi : i < g.length)
    (hj : j < g.length) (he : g.slot env i = g.slot env j) : i = j := by
  have h1 := h.slot i hi
  have h2 := h.slot j hj
  rw [he, h2] at h1
  have : g[j].descriptor = g[i].descriptor := by simpa using h1
  have hid : g[j].id = g[i].id := congrArg ComponentDescriptor.id this
  exact (h.wf.id_inj hj hi hid).symm

theorem GroupSpec.mem_ids {env : Env} {g : Group} (h : GroupSpec env g) (id : UInt16) :
    id ∈ (g.descriptor env).archetype.ids ↔ ∃ c ∈ g, c.id = id := by
  unfold ArchetypeDescriptor.ids
  have := (h.perm.map (fun c => c.id)).mem_iff (a := id)
  rw [this, List.map_map, List.mem_map]
  rfl

/-! ## The two mappings, and independence of tuple order -/

theorem lastMatch_of_mem {N : Nat} {l : List ComponentDescriptor} {id : UInt16} {k : Nat} (hk : k < N)
    (he : (l.getD k ComponentDescriptor.INVALID).id = id) :
    ComponentGroupDescriptor.lastMatch N l id < N ∧
      (l.getD (ComponentGroupDescriptor.lastMatch N l id) ComponentDescriptor.INVALID).id = id := by
  rcases ComponentGroupDescriptor.lastMatch_spec (l := l) (id := id) N with h | h
  · exact absurd he (h k hk)
  · exact h

/-- `unsorted_to_sorted` maps a tuple position to the position of its component in the sorted list. -/
theorem GroupSpec.unsortedToSorted {env : Env} {g : Group} (h : GroupSpec env g) {i : Nat} (hi : i < g.length) :
    (g.descriptor env).archetype.components[(g.descriptor env).unsortedToSorted.getD i 0]? = some g[i].descriptor := by
  have hid : g.archetypeId env ≠ ARCHETYPE_ID_INVALID := (Group.isValid_iff.mp h.valid).2
  have hde := Group.descriptor_eq h.wf hid
  have hslot := h.slot i hi
  have hsl := h.slot_lt hi
  have hsl' : g.slot env i < g.length := by rw [← h.components_length]; exact hsl
  have hg : ((g.descriptor env).archetype.comps.getD (g.slot env i) ComponentDescriptor.INVALID).id = g[i].id := by
    rw [h.desc.getD_comps (by rw [h.len]; exact hsl')]
    rw [List.getElem?_eq_getElem hsl] at hslot
    have := Option.some.inj hslot
    rw [this]; rfl
  have hu : (g.descriptor env).unsortedToSorted.getD i 0 =
      ComponentGroupDescriptor.lastMatch g.length (g.descriptor env).archetype.comps g[i].id := by
    rw [hde]
    simp only [ComponentGroupDescriptor.computeSortMappings, List.length_map]
    rw [List.getD, List.getElem?_append_left (by simpa using hi), List.getElem?_map, List.getElem?_range hi]
    simp only [Option.map_some, Option.getD_some]
    simp [List.getD, hi, CompTy.descriptor]
  rw [hu]
  obtain ⟨h1, h2⟩ := lastMatch_of_mem hsl' hg
  rw [h.desc.getD_comps (by rw [h.len]; exact h1)] at h2
  have h1' : ComponentGroupDescriptor.lastMatch g.length (g.descriptor env).archetype.comps g[i].id <
      (g.descriptor env).archetype.components.length := by rw [h.components_length]; exact h1
  have he : ComponentGroupDescriptor.lastMatch g.length (g.descriptor env).archetype.comps g[i].id = g.slot env i := by
    apply h.desc.id_inj h1' hsl
    rw [h2]
    rw [h.desc.getD_comps (by rw [h.len]; exact hsl')] at hg
    exact hg.symm
  rw [he]; exact hslot

/-- `sorted_to_unsorted` maps a sorted position to the tuple position of its component. -/
theorem GroupSpec.sortedToUnsorted {env : Env} {g : Group} (h : GroupSpec env g) {k : Nat} (hk : k < g.length) :
    ∃ hlt : (g.descriptor env).sortedToUnsorted.getD k 0 < g.length,
      (g.descriptor env).archetype.components[k]? =
        some (g[(g.descriptor env).sortedToUnsorted.getD k 0]'hlt).descriptor := by
  have hid : g.archetypeId env ≠ ARCHETYPE_ID_INVALID := (Group.isValid_iff.mp h.valid).2
  have hde := Group.descriptor_eq h.wf hid
  have hkc : k < (g.descriptor env).archetype.components.length := by rw [h.components_length]; exact hk
  have hmem : (g.descriptor env).archetype.components[k] ∈ g.map CompTy.descriptor :=
    h.perm.mem_iff.mp (List.getElem_mem hkc)
  obtain ⟨c, hc, hce⟩ := List.mem_map.mp hmem
  obtain ⟨i, hi, rfl⟩ := List.mem_iff_getElem.mp hc
  have hgd : ∀ j (hj : j < g.length), ((g.map CompTy.descriptor).getD j ComponentDescriptor.INVALID) = g[j].descriptor := by
    intro j hj; simp [List.getD, hj]
  have hg : ((g.map CompTy.descriptor).getD i ComponentDescriptor.INVALID).id =
      (g.descriptor env).archetype.components[k].id := by rw [hgd i hi, hce]
  have hu : (g.descriptor env).sortedToUnsorted.getD k 0 =
      ComponentGroupDescriptor.lastMatch g.length (g.map CompTy.descriptor)
        ((g.descriptor env).archetype.comps.getD k ComponentDescriptor.INVALID).id := by
    rw [hde]
    simp only [ComponentGroupDescriptor.computeSortMappings, List.length_map]
    rw [List.getD, List.getElem?_append_left (by simpa using hk), List.getElem?_map, List.getElem?_range hk]
    simp only [Option.map_some, Option.getD_some]
  rw [h.desc.getD_comps (by rw [h.len]; exact hk)] at hu
  obtain ⟨h1, h2⟩ := lastMatch_of_mem hi hg
  rw [← hu] at h1 h2
  refine ⟨h1, ?_⟩
  rw [hgd _ h1] at h2
  have : (g.descriptor env).sortedToUnsorted.getD k 0 = i := by
    apply h.wf.id_inj h1 hi
    have e1 : (g[(g.descriptor env).sortedToUnsorted.getD k 0]'h1).id = (g.descriptor env).archetype.components[k].id := h2
    rw [e1, ← hce]; rfl
  rw [List.getElem?_eq_getElem hkc]
  congr 1
  rw [← hce]
  congr 2
  exact this.symm

theorem computeSorted_perm {ds ds' : List ComponentDescriptor} (hp : ds.Perm ds')
    (hlen : ds.length ≤ MAX_COMPONENTS_PER_ENTITY) (hnd : (ds.map (fun d => d.id)).Nodup) :
    ComponentGroupDescriptor.computeSortedDescriptors ds' = ComponentGroupDescriptor.computeSortedDescriptors ds := by
  obtain ⟨s, h1, h2, h3⟩ := ComponentGroupDescriptor.computeSortedDescriptors_spec hlen
  obtain ⟨s', h1', h2', h3'⟩ := ComponentGroupDescriptor.computeSortedDescriptors_spec (ds := ds')
    (by rw [← hp.length_eq]; exact hlen)
  rw [h1, h1', ← hp.length_eq]
  congr 1
  have hperm : s'.Perm s := h2'.trans (hp.symm.trans h2.symm)
  refine List.Perm.eq_of_pairwise (le := fun x y => x.id ≤ y.id) ?_ h3' h3 hperm
  intro a b ha hb hab hba
  have hid : a.id = b.id := UInt16.le_antisymm hab hba
  have ha' : a ∈ ds := hp.mem_iff.mpr (h2'.mem_iff.mp ha)
  have hb' : b ∈ ds := h2.mem_iff.mp hb
  obtain ⟨i, hi, rfl⟩ := List.mem_iff_getElem.mp ha'
  obtain ⟨j, hj, rfl⟩ := List.mem_iff_getElem.mp hb'
  have hpw := List.pairwise_iff_getElem.mp hnd
  simp only [List.getElem_map, List.length_map] at hpw
  rcases Nat.lt_trichotomy i j with h | h | h
  · exact absurd hid (hpw i j hi hj h)
  · subst h; rfl
  · exact absurd hid.symm (hpw j i hj hi h)

theorem Group.WF.perm {g g' : Group} (h : g.WF) (hp : g.Perm g') : g'.WF :=
  ⟨by rw [← hp.length_eq]; exact h.pos, by rw [← hp.length_eq]; exact h.le,
   (hp.map _).nodup_iff.mp h.nodup⟩

theorem Group.archetypeId_perm (env : Env) {g g' : Group} (h : g.WF) (hp : g.Perm g') :
    g'.archetypeId env = g.archetypeId env := by
  unfold Group.archetypeId
  rw [computeSorted_perm (hp.map _) (by simpa using h.le) (by rw [List.map_map]; exact h.nodup)]

theorem Group.isValid_perm (env : Env) {g g' : Group} (hp : g.Perm g') :
    (g'.descriptor env).isValid = (g.descriptor env).isValid := by
  rw [Bool.eq_iff_iff, Group.isValid_iff, Group.isValid_iff]
  constructor
  · rintro ⟨h1, h2⟩
    exact ⟨h1.perm hp.symm, by rw [Group.archetypeId_perm env h1 hp.symm]; exact h2⟩
  · rintro ⟨h1, h2⟩
    exact ⟨h1.perm hp, by rw [Group.archetypeId_perm env h1 hp]; exact h2⟩

/-- The archetype descriptor of a group does not depend on the order of the tuple. -/
theorem Group.archetype_perm (env : Env) {g g' : Group} (hp : g.Perm g') :
    (g'.descriptor env).archetype = (g.descriptor env).archetype := by
  by_cases hw : g.WF
  · by_cases hid : g.archetypeId env = ARCHETYPE_ID_INVALID
    · rw [Group.descriptor_invalid_of_hash hid,
        Group.descriptor_invalid_of_hash (by rw [Group.archetypeId_perm env hw hp]; exact hid)]
    · rw [Group.descriptor_eq hw hid, Group.descriptor_eq (hw.perm hp) (by rw [Group.archetypeId_perm env hw hp]; exact hid)]
      simp only
      rw [Group.archetypeId_perm env hw hp, hp.length_eq,
        computeSorted_perm (hp.map _) (by simpa using hw.le) (by rw [List.map_map]; exact hw.nodup)]
  · rw [Group.descriptor_invalid_of_not_WF hw, Group.descriptor_invalid_of_not_WF (fun h => hw (h.perm hp.symm))]

end Shard
