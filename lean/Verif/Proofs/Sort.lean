import Verif.Model.Descriptors
import Verif.Proofs.Search
/-!
# `compute_sorted_descriptors` and `compute_sort_mappings`
-/

namespace Shard
namespace ComponentGroupDescriptor

theorem getD_eq {l : List ComponentDescriptor} {i : Nat} (h : i < l.length) :
    l.getD i ComponentDescriptor.INVALID = l[i] := by
  simp [List.getD, h]

theorem sortStep_length (l : List ComponentDescriptor) (i j : Nat) : (sortStep l i j).length = l.length := by
  unfold sortStep; simp only; split <;> simp

theorem sortStep_perm {l : List ComponentDescriptor} {i j : Nat} (hi : i < l.length) (hj : j < l.length) :
    (sortStep l i j).Perm l := by
  unfold sortStep; simp only
  rw [getD_eq hi, getD_eq hj]
  split
  · exact List.set_set_perm hi hj
  · exact List.Perm.refl _

/-- Positions other than `i` and `j` are untouched. -/
theorem sortStep_ne {l : List ComponentDescriptor} {i j k : Nat} (hki : k ≠ i) (hkj : k ≠ j) :
    (sortStep l i j)[k]? = l[k]? := by
  unfold sortStep; simp only
  split
  · rw [List.getElem?_set_ne (Ne.symm hkj), List.getElem?_set_ne (Ne.symm hki)]
  · rfl

/-- After the step positions `i` and `j` hold the two old values, in order. -/
theorem sortStep_ij {l : List ComponentDescriptor} {i j : Nat} (hij : i < j) (hj : j < l.length) :
    ((sortStep l i j)[i]? = l[i]? ∧ (sortStep l i j)[j]? = l[j]? ∧ l[i].id ≤ l[j].id) ∨
    ((sortStep l i j)[i]? = l[j]? ∧ (sortStep l i j)[j]? = l[i]? ∧ l[j].id ≤ l[i].id) := by
  have hi : i < l.length := by omega
  unfold sortStep; simp only
  rw [getD_eq hi, getD_eq hj]
  split
  · next h =>
    right
    refine ⟨?_, ?_, ?_⟩
    · rw [List.getElem?_set_ne (by omega), List.getElem?_set_self hi, List.getElem?_eq_getElem hj]
    · rw [List.getElem?_set_self (by simpa using hj), List.getElem?_eq_getElem hi]
    · exact UInt16.le_of_lt h
  · next h =>
    left
    exact ⟨rfl, rfl, UInt16.not_lt.mp h⟩

/-- "`l[a] ≤ l[b]`" for positions given as optional lookups. -/
def leAt (l : List ComponentDescriptor) (a b : Nat) : Prop :=
  ∀ x y, l[a]? = some x → l[b]? = some y → x.id ≤ y.id

/-- One run of the inner loop. -/
theorem sortInner_spec {i N : Nat} : ∀ (n j : Nat) (l : List ComponentDescriptor), i < j → j + n = N → N ≤ l.length →
    (∀ k, i < k → k < j → leAt l i k) →
    (∀ a, a < i → ∀ b, a < b → b < N → leAt l a b) →
    (sortInner i n j l).length = l.length ∧ (sortInner i n j l).Perm l ∧
    (∀ k, N ≤ k → (sortInner i n j l)[k]? = l[k]?) ∧
    (∀ k, i < k → k < N → leAt (sortInner i n j l) i k) ∧
    (∀ a, a < i → ∀ b, a < b → b < N → leAt (sortInner i n j l) a b)
  | 0, j, l, hij, hjn, hN, hinner, houter => by
    refine ⟨rfl, List.Perm.refl _, fun _ _ => rfl, ?_, houter⟩
    intro k h1 h2; exact hinner k h1 (by omega)
  | n + 1, j, l, hij, hjn, hN, hinner, houter => by
    have hjl : j < l.length := by omega
    have hil : i < l.length := by omega
    have hstep := sortStep_ij hij hjl
    have hlen := sortStep_length l i j
    have key := sortInner_spec (i := i) (N := N) n (j + 1) (sortStep l i j) (by omega) (by omega) (by omega) ?_ ?_
    · obtain ⟨h1, h2, h3, h4, h5⟩ := key
      refine ⟨by rw [sortInner, h1, hlen], (h2.trans (sortStep_perm hil hjl)), ?_, h4, h5⟩
      intro k hk
      rw [sortInner, h3 k hk, sortStep_ne (by omega) (by omega)]
    · intro k hk hk' x y hx hy
      rcases hstep with ⟨e1, e2, hle⟩ | ⟨e1, e2, hle⟩
      · rw [e1] at hx
        by_cases hkj : k = j
        · subst hkj
          rw [e2] at hy
          rw [List.getElem?_eq_getElem hil] at hx
          rw [List.getElem?_eq_getElem hjl] at hy
          cases hx; cases hy; exact hle
        · rw [sortStep_ne (by omega) hkj] at hy
          exact hinner k hk (by omega) x y hx hy
      · rw [e1] at hx
        rw [List.getElem?_eq_getElem hjl] at hx
        cases hx
        by_cases hkj : k = j
        · subst hkj
          rw [e2, List.getElem?_eq_getElem hil] at hy
          cases hy; exact hle
        · rw [sortStep_ne (by omega) hkj] at hy
          exact UInt16.le_trans hle (hinner k hk (by omega) _ y (List.getElem?_eq_getElem hil) hy)
    · intro a ha b hab hb x y hx hy
      rw [sortStep_ne (by omega) (by omega)] at hx
      by_cases hbi : b = i
      · subst hbi
        rcases hstep with ⟨e1, e2, hle⟩ | ⟨e1, e2, hle⟩
        · rw [e1] at hy; exact houter a ha b hab hb x y hx hy
        · rw [e1] at hy; exact houter a ha j (by omega) (by omega) x y hx hy
      · by_cases hbj : b = j
        · subst hbj
          rcases hstep with ⟨e1, e2, hle⟩ | ⟨e1, e2, hle⟩
          · rw [e2] at hy; exact houter a ha b hab hb x y hx hy
          · rw [e2] at hy; exact houter a ha i (by omega) (by omega) x y hx hy
        · rw [sortStep_ne hbi hbj] at hy
          exact houter a ha b hab hb x y hx hy

theorem sortOuter_spec {N : Nat} : ∀ (n i : Nat) (l : List ComponentDescriptor), i + n = N → N ≤ l.length →
    (∀ a, a < i → ∀ b, a < b → b < N → leAt l a b) →
    (sortOuter N n i l).length = l.length ∧ (sortOuter N n i l).Perm l ∧
    (∀ k, N ≤ k → (sortOuter N n i l)[k]? = l[k]?) ∧
    (∀ a b, a < b → b < N → leAt (sortOuter N n i l) a b)
  | 0, i, l, hin, hN, h => by
    refine ⟨rfl, List.Perm.refl _, fun _ _ => rfl, ?_⟩
    intro a b hab hb; exact h a (by omega) b hab hb
  | n + 1, i, l, hin, hN, h => by
    obtain ⟨h1, h2, h3, h4, h5⟩ := sortInner_spec (i := i) (N := N) (N - (i + 1)) (i + 1) l (by omega) (by omega) hN
      (by intro k hk hk'; omega) h
    obtain ⟨k1, k2, k3, k4⟩ := sortOuter_spec (N := N) n (i + 1) (sortInner i (N - (i + 1)) (i + 1) l) (by omega)
      (by omega) (by
        intro a ha b hab hb
        by_cases hai : a = i
        · subst hai; exact h4 b hab hb
        · exact h5 a (by omega) b hab hb)
    refine ⟨by rw [sortOuter, k1, h1], k2.trans h2, ?_, k4⟩
    intro k hk
    rw [sortOuter, k3 k hk, h3 k hk]

/-- The 14-element array produced by `compute_sorted_descriptors`: the first `N` descriptors are a permutation of the
input in ascending order of ids, the rest is `INVALID` padding. -/
theorem computeSortedDescriptors_spec {ds : List ComponentDescriptor} (h : ds.length ≤ MAX_COMPONENTS_PER_ENTITY) :
    ∃ s, computeSortedDescriptors ds =
        s ++ List.replicate (MAX_COMPONENTS_PER_ENTITY - ds.length) ComponentDescriptor.INVALID ∧
      s.Perm ds ∧ s.Pairwise (fun x y => x.id ≤ y.id) := by
  have hN : ds.length ≤ (ds ++ List.replicate (MAX_COMPONENTS_PER_ENTITY - ds.length) ComponentDescriptor.INVALID).length := by
    simp
  obtain ⟨h1, h2, h3, h4⟩ := sortOuter_spec (N := ds.length) ds.length 0 _ (by omega) hN (by intro a ha; omega)
  let t := computeSortedDescriptors ds
  change t.length = _ at h1
  change t.Perm _ at h2
  change ∀ k, _ → t[k]? = _ at h3
  change ∀ a b, _ → _ → leAt t a b at h4
  have htl : t.length = 14 := by
    rw [h1]; simp [MAX_COMPONENTS_PER_ENTITY] at h ⊢; omega
  have hdrop : t.drop ds.length = List.replicate (MAX_COMPONENTS_PER_ENTITY - ds.length) ComponentDescriptor.INVALID := by
    apply List.ext_getElem?
    intro k
    rw [List.getElem?_drop, h3 _ (by omega), List.getElem?_append_right (by omega)]
    congr 1; omega
  refine ⟨t.take ds.length, ?_, ?_, ?_⟩
  · rw [← hdrop]; exact (List.take_append_drop _ _).symm
  · have : (t.take ds.length ++ t.drop ds.length).Perm (ds ++ t.drop ds.length) := by
      rw [List.take_append_drop, hdrop]; exact h2
    exact (List.perm_append_right_iff _).mp this
  · rw [List.pairwise_iff_getElem]
    intro i j hi hj hij
    simp only [List.length_take] at hi hj
    refine h4 i j hij (by omega) _ _ ?_ ?_
    · rw [List.getElem_take]; exact List.getElem?_eq_getElem (by omega)
    · rw [List.getElem_take]; exact List.getElem?_eq_getElem (by omega)

/-- The last matching position below `N`. -/
theorem lastMatch_spec {l : List ComponentDescriptor} {id : UInt16} : ∀ (N : Nat),
    (∀ j, j < N → (l.getD j ComponentDescriptor.INVALID).id ≠ id) ∨
    (lastMatch N l id < N ∧ (l.getD (lastMatch N l id) ComponentDescriptor.INVALID).id = id)
  | 0 => Or.inl (by intro j h; omega)
  | N + 1 => by
    have hstep : lastMatch (N + 1) l id =
        if (l.getD N ComponentDescriptor.INVALID).id = id then N else lastMatch N l id := by
      unfold lastMatch
      rw [List.range_succ, List.foldl_append]
      rfl
    by_cases hc : (l.getD N ComponentDescriptor.INVALID).id = id
    · right
      rw [hstep, if_pos hc]
      exact ⟨by omega, hc⟩
    · rw [hstep, if_neg hc]
      rcases lastMatch_spec (l := l) (id := id) N with h | ⟨h1, h2⟩
      · left
        intro j hj
        by_cases hjN : j = N
        · subst hjN; exact hc
        · exact h j (by omega)
      · right; exact ⟨by omega, h2⟩

end ComponentGroupDescriptor
end Shard
