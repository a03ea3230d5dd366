import Verif.Model.Base
/-!
# Lemmas about the base layer: the result monad, loops, indexing
-/

namespace Shard

theorem ok_bind {α β : Type} (a : α) (f : α → M β) : (Except.ok a >>= f : M β) = f a := rfl
theorem pure_eq_ok {α : Type} (a : α) : (pure a : M α) = .ok a := rfl
theorem error_bind {α β : Type} (e : Fault) (f : α → M β) : (Except.error e >>= f : M β) = .error e := rfl

theorem debugAssert_true {env : Env} {b : Bool} (h : b = true) : debugAssert env b = .ok () := by
  simp [debugAssert, h]

theorem ensure_true {b : Bool} {e : Fault} (h : b = true) : ensure b e = .ok () := by
  simp [ensure, h]

theorem index_of_getElem? {α : Type} {l : List α} {i : Nat} {a : α} (h : l[i]? = some a) : index l i = .ok a := by
  simp [index, h]

theorem index_lt {α : Type} {l : List α} {i : Nat} (h : i < l.length) : index l i = .ok l[i] := by
  simp [index, h]

theorem indexUnchecked_of_getElem? {α : Type} {l : List α} {i : Nat} {a : α} (h : l[i]? = some a) :
    indexUnchecked l i = .ok a := by
  simp [indexUnchecked, h]

theorem indexUnchecked_lt {α : Type} {l : List α} {i : Nat} (h : i < l.length) : indexUnchecked l i = .ok l[i] := by
  simp [indexUnchecked, h]

theorem setIndex_lt {α : Type} {l : List α} {i : Nat} {a : α} (h : i < l.length) : setIndex l i a = .ok (l.set i a) := by
  simp [setIndex, h]

theorem subU32_le {env : Env} {a b : Nat} (h : b ≤ a) : subU32 env a b = .ok (a - b) := by simp [subU32, h]
theorem subU8_le {env : Env} {a b : Nat} (h : b ≤ a) : subU8 env a b = .ok (a - b) := by simp [subU8, h]

/-- Invariant rule for `forRange`. -/
theorem forRange_inv {σ : Type} {f : Nat → σ → M σ} (I : Nat → σ → Prop) :
    ∀ (n lo : Nat) (s : σ), I lo s →
      (∀ i s, lo ≤ i → i < lo + n → I i s → ∃ s', f i s = .ok s' ∧ I (i + 1) s') →
      ∃ s', forRange lo n f s = .ok s' ∧ I (lo + n) s'
  | 0, lo, s, h, _ => ⟨s, rfl, h⟩
  | n + 1, lo, s, h, hs => by
    obtain ⟨s1, h1, hI⟩ := hs lo s (Nat.le_refl _) (by omega) h
    obtain ⟨s2, h2, hI2⟩ := forRange_inv I n (lo + 1) s1 hI (fun i s hi hi' hI => hs i s (by omega) (by omega) hI)
    refine ⟨s2, ?_, ?_⟩
    · simp only [forRange, h1, h2]
    · rw [show lo + (n + 1) = lo + 1 + n by omega]; exact hI2

/-- `mapRange` of computations that all succeed. -/
theorem mapRange_ok {α : Type} {f : Nat → M α} {g : Nat → α} :
    ∀ (n lo : Nat), (∀ k, k < n → f (lo + k) = .ok (g (lo + k))) →
      mapRange lo n f = .ok ((List.range' lo n).map g)
  | 0, _, _ => rfl
  | n + 1, lo, h => by
    have h0 := h 0 (by omega)
    have h1 := mapRange_ok (f := f) (g := g) n (lo + 1) (fun k hk => by
      have := h (k + 1) (by omega)
      rwa [show lo + (k + 1) = lo + 1 + k by omega] at this)
    simp only [Nat.add_zero] at h0
    simp only [mapRange, h0, h1]
    rfl

theorem mapM_ok {α β : Type} {f : α → M β} {g : α → β} :
    ∀ (l : List α), (∀ a ∈ l, f a = .ok (g a)) → l.mapM f = .ok (l.map g)
  | [], _ => rfl
  | a :: l, h => by
    have h1 := mapM_ok (f := f) (g := g) l (fun x hx => h x (List.mem_cons_of_mem _ hx))
    simp only [List.mapM_cons, h a (List.mem_cons_self), h1, ok_bind, pure_eq_ok, List.map_cons]

end Shard
