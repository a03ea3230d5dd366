import Verif.Proofs.Basic
/-!
# The contract of `binary_search_by_key` on strictly sorted keys
-/

namespace Shard

/-- Strictly increasing list of keys. -/
def SortedLt (l : List Nat) : Prop := l.Pairwise (· < ·)

theorem SortedLt.getElem_lt {l : List Nat} (h : SortedLt l) {i j : Nat} (hij : i < j) (hj : j < l.length) :
    l[i] < l[j] := by
  exact List.pairwise_iff_getElem.mp h i j (by omega) hj hij

theorem SortedLt.lt_of_getElem_lt {l : List Nat} (h : SortedLt l) {i j : Nat} (hi : i < l.length) (hj : j < l.length)
    (hlt : l[i] < l[j]) : i < j := by
  rcases Nat.lt_trichotomy i j with h1 | h1 | h1
  · exact h1
  · subst h1; omega
  · have := h.getElem_lt h1 hi; omega

theorem SortedLt.inj {l : List Nat} (h : SortedLt l) {i j : Nat} (hi : i < l.length) (hj : j < l.length)
    (heq : l[i] = l[j]) : i = j := by
  rcases Nat.lt_trichotomy i j with h1 | h1 | h1
  · have := h.getElem_lt h1 hj; omega
  · exact h1
  · have := h.getElem_lt h1 hi; omega

theorem bsLoop_spec {keys : List Nat} {key : Nat} (hs : SortedLt keys) :
    ∀ (fuel left right : Nat), left ≤ right → right ≤ keys.length → right - left < fuel →
      (∀ i (h : i < keys.length), i < left → keys[i] < key) →
      (∀ i (h : i < keys.length), right ≤ i → key < keys[i]) →
      (∃ i, bsLoop keys key fuel left right = .found i ∧ keys[i]? = some key) ∨
      (∃ i, bsLoop keys key fuel left right = .insertAt i ∧ i ≤ keys.length ∧
        (∀ j (h : j < keys.length), j < i → keys[j] < key) ∧ (∀ j (h : j < keys.length), i ≤ j → key < keys[j]))
  | 0, left, right, _, _, hf, _, _ => by omega
  | fuel + 1, left, right, hlr, hr, hf, hL, hR => by
    unfold bsLoop
    by_cases hlt : left < right
    · simp only [hlt, if_true]
      have hm : left + (right - left) / 2 < keys.length := by omega
      simp only [List.getElem?_eq_getElem hm]
      split
      · next hk =>
        apply bsLoop_spec hs fuel _ right (by omega) hr (by omega) _ hR
        intro i hi hi'
        by_cases hc : i = left + (right - left) / 2
        · subst hc; exact hk
        · have := hs.getElem_lt (show i < left + (right - left) / 2 by omega) hm; omega
      · split
        · next hk =>
          apply bsLoop_spec hs fuel left _ (by omega) (by omega) (by omega) hL
          intro i hi hi'
          by_cases hc : i = left + (right - left) / 2
          · subst hc; exact hk
          · have := hs.getElem_lt (show left + (right - left) / 2 < i by omega) hi; omega
        · next h1 h2 =>
          left
          refine ⟨_, rfl, ?_⟩
          rw [List.getElem?_eq_getElem hm]
          congr 1
          omega
    · simp only [hlt, if_false]
      right
      refine ⟨left, rfl, by omega, fun j hj hji => hL j hj hji, fun j hj hij => hR j hj (by omega)⟩

/-- What the search says of any slice, sorted or not: a position it finds holds the key, and an insertion point is in range. -/
theorem bsLoop_any (keys : List Nat) (key : Nat) : ∀ (fuel left right : Nat), left ≤ right → right ≤ keys.length →
      (∃ i, bsLoop keys key fuel left right = .found i ∧ keys[i]? = some key) ∨
      (∃ i, bsLoop keys key fuel left right = .insertAt i ∧ i ≤ keys.length)
  | 0, left, right, hlr, hr => Or.inr ⟨left, rfl, by omega⟩
  | fuel + 1, left, right, hlr, hr => by
    unfold bsLoop
    by_cases hlt : left < right
    · simp only [hlt, if_true]
      have hm : left + (right - left) / 2 < keys.length := by omega
      simp only [List.getElem?_eq_getElem hm]
      split
      · exact bsLoop_any keys key fuel _ right (by omega) hr
      · split
        · exact bsLoop_any keys key fuel left _ (by omega) (by omega)
        · next h1 h2 =>
          left
          refine ⟨_, rfl, ?_⟩
          rw [List.getElem?_eq_getElem hm]
          congr 1
          omega
    · simp only [hlt, if_false]
      exact Or.inr ⟨left, rfl, by omega⟩

theorem binarySearchByKey_any {α : Type} (l : List α) (key : Nat) (f : α → Nat) :
    (∃ (i : Nat) (h : i < l.length), binarySearchByKey l key f = .found i ∧ f l[i] = key) ∨
    (∃ i, binarySearchByKey l key f = .insertAt i ∧ i ≤ l.length) := by
  rcases bsLoop_any (l.map f) key (l.length + 1) 0 l.length (by omega) (by simp) with ⟨i, h1, h2⟩ | ⟨i, h1, h2⟩
  · left
    have hi : i < l.length := by
      obtain ⟨h, _⟩ := List.getElem?_eq_some_iff.mp h2
      simpa using h
    exact ⟨i, hi, h1, by simpa [hi] using h2⟩
  · exact Or.inr ⟨i, h1, by simpa using h2⟩

/-- Contract of the binary search: it finds the key's position or its insertion point. -/
theorem binarySearchByKey_spec {α : Type} {l : List α} {key : Nat} {f : α → Nat} (hs : SortedLt (l.map f)) :
    (∃ (i : Nat) (h : i < l.length), binarySearchByKey l key f = .found i ∧ f l[i] = key) ∨
    (∃ i, binarySearchByKey l key f = .insertAt i ∧ i ≤ l.length ∧
      (∀ j (h : j < l.length), j < i → f l[j] < key) ∧ (∀ j (h : j < l.length), i ≤ j → key < f l[j])) := by
  have := bsLoop_spec (key := key) hs (l.length + 1) 0 l.length (by omega) (by simp) (by omega)
    (by intro i _ h; omega) (by intro i h h'; simp at h; omega)
  rcases this with ⟨i, h1, h2⟩ | ⟨i, h1, h2, h3, h4⟩
  · left
    have hi : i < l.length := by
      have := List.getElem?_eq_some_iff.mp h2
      obtain ⟨h, _⟩ := this
      simpa using h
    refine ⟨i, hi, h1, ?_⟩
    simpa [hi] using h2
  · right
    refine ⟨i, h1, by simpa using h2, ?_, ?_⟩
    · intro j hj hji
      have := h3 j (by simpa using hj) hji
      rwa [List.getElem_map] at this
    · intro j hj hij
      have := h4 j (by simpa using hj) hij
      rwa [List.getElem_map] at this

/-- If the key is present, the search finds its position. -/
theorem binarySearchByKey_found {α : Type} {l : List α} {f : α → Nat} (hs : SortedLt (l.map f))
    {i : Nat} (hi : i < l.length) : binarySearchByKey l (f l[i]) f = .found i := by
  rcases binarySearchByKey_spec (key := f l[i]) hs with ⟨j, hj, h1, h2⟩ | ⟨j, h1, _, h3, h4⟩
  · have : j = i := hs.inj (by simpa using hj) (by simpa using hi) (by simpa using h2)
    rw [h1, this]
  · by_cases hij : i < j
    · have := h3 i hi hij; omega
    · have := h4 i hi (by omega); omega

/-- If the key is absent, the search returns an insertion point that keeps the list sorted. -/
theorem binarySearchByKey_absent {α : Type} {l : List α} {f : α → Nat} {key : Nat} (hs : SortedLt (l.map f))
    (hk : ∀ x ∈ l, f x ≠ key) : ∃ i, binarySearchByKey l key f = .insertAt i ∧ i ≤ l.length ∧
      (∀ j (h : j < l.length), j < i → f l[j] < key) ∧ (∀ j (h : j < l.length), i ≤ j → key < f l[j]) := by
  rcases binarySearchByKey_spec (key := key) hs with ⟨j, hj, h1, h2⟩ | h
  · exact absurd h2 (hk _ (List.getElem_mem hj))
  · exact h

/-- Inserting at the insertion point keeps the keys strictly sorted. -/
theorem sortedLt_insert {l : List Nat} {key i : Nat} (hs : SortedLt l)
    (h3 : ∀ j (h : j < l.length), j < i → l[j] < key) (h4 : ∀ j (h : j < l.length), i ≤ j → key < l[j]) :
    SortedLt (l.take i ++ key :: l.drop i) := by
  unfold SortedLt at *
  rw [List.pairwise_append]
  refine ⟨hs.sublist (List.take_sublist _ _), ?_, ?_⟩
  · rw [List.pairwise_cons]
    refine ⟨?_, hs.sublist (List.drop_sublist _ _)⟩
    intro a ha
    obtain ⟨n, hn, rfl⟩ := List.mem_iff_getElem.mp ha
    simp only [List.length_drop] at hn
    rw [List.getElem_drop]
    exact h4 _ _ (by omega)
  · intro a ha b hb
    obtain ⟨n, hn, rfl⟩ := List.mem_iff_getElem.mp ha
    simp only [List.length_take] at hn
    have h1 : (l.take i)[n] < key := by
      rw [List.getElem_take]; exact h3 _ _ (by omega)
    rcases List.mem_cons.mp hb with rfl | hb
    · exact h1
    · obtain ⟨m, hm, rfl⟩ := List.mem_iff_getElem.mp hb
      simp only [List.length_drop] at hm
      have h2 : key < (l.drop i)[m] := by rw [List.getElem_drop]; exact h4 _ _ (by omega)
      omega

end Shard
