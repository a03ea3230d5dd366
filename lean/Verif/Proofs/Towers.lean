import Verif.Model.CallBorrows
import Verif.Proofs.BorrowTags
/-!
# Stacked Borrows: references made from one another
-/

set_option autoImplicit false

namespace Shard.Borrow

/-- The references in the list may be used (for writing, if marked so), the first made from the second and so on: using
one of them leaves those behind it in the list usable. -/
def Tower : List (Bool × Nat) → Stack → Prop
  | [], _ => True
  | x :: xs, s => ∃ a y b, s = a ++ y :: b ∧ y.grants x.1 x.2 = true ∧ Tower xs b

theorem Tower.below {a s : Stack} : ∀ {xs : List (Bool × Nat)}, Tower xs s → Tower xs (a ++ s)
  | [], _ => trivial
  | _ :: _, ⟨c, y, b, h1, h2, h3⟩ => ⟨a ++ c, y, b, by rw [h1, List.append_assoc], h2, h3⟩

theorem Tower.tail {x : Bool × Nat} {xs : List (Bool × Nat)} {s : Stack} (h : Tower (x :: xs) s) : Tower xs s := by
  obtain ⟨a, y, b, rfl, _, h⟩ := h
  rw [show a ++ y :: b = (a ++ [y]) ++ b by simp]
  exact h.below

theorem Tower.drop {s : Stack} : ∀ {ys xs : List (Bool × Nat)}, Tower (ys ++ xs) s → Tower xs s
  | [], _, h => h
  | _ :: _, _, h => Tower.drop (Tower.tail h)

/-- A use of the first leaves everything usable. -/
theorem access_tower {w w' : Bool} {t : Nat} {xs : List (Bool × Nat)} {s : Stack} (h : Tower ((w', t) :: xs) s)
    (hw : w = true → w' = true) : ∃ a y b, split (Item.grants w t) s = some (a, y, b) ∧ Tower ((w', t) :: xs) (y :: b) := by
  obtain ⟨c, z, d, rfl, h2, h3⟩ := h
  have hz : z.grants w t = true := by
    cases w with
    | false => exact grants_read h2
    | true => rw [hw rfl] at h2; exact h2
  obtain ⟨a, y, b, k1, k2, k3, k4⟩ := split_some (p := Item.grants w t) (s := c ++ z :: d) ⟨z, by simp, hz⟩
  refine ⟨a, y, b, k1, ?_⟩
  rcases List.append_eq_append_iff.mp k2 with ⟨e, h5, h6⟩ | ⟨e, h5, h6⟩
  · cases e with
    | nil =>
      simp only [List.nil_append, List.cons.injEq] at h6
      obtain ⟨rfl, rfl⟩ := h6
      exact ⟨[], z, d, rfl, h2, h3⟩
    | cons f e =>
      simp only [List.cons_append, List.cons.injEq] at h6
      have := k4 z (by rw [h5, h6.1]; simp)
      rw [hz] at this
      cases this
  · cases e with
    | nil =>
      simp only [List.nil_append, List.cons.injEq] at h6
      obtain ⟨rfl, rfl⟩ := h6
      exact ⟨[], _, _, rfl, h2, h3⟩
    | cons f e =>
      simp only [List.cons_append, List.cons.injEq] at h6
      obtain ⟨rfl, rfl⟩ := h6
      exact ⟨y :: e, z, d, rfl, h2, h3⟩

theorem access_tower' {w w' : Bool} {t : Nat} {xs : List (Bool × Nat)} {s : Stack} (h : Tower ((w', t) :: xs) s)
    (hw : w = true → w' = true) : ∃ s', access w t s = some s' ∧ Tower ((w', t) :: xs) s' := by
  obtain ⟨a, y, b, h1, h2⟩ := access_tower h hw
  refine ⟨_, by unfold access; rw [h1]; rfl, ?_⟩
  cases w <;> exact h2.below

/-- What a new reference may be used for. -/
def Kind.writes : Kind → Bool
  | .ref => false
  | _ => true

/-- Making a reference from the first. -/
theorem reborrow_tower {w' : Bool} {t : Nat} {xs : List (Bool × Nat)} {s : Stack} (n : Nat) (k : Kind)
    (h : Tower ((w', t) :: xs) s) (hw : k.writes = true → w' = true) :
    ∃ s', reborrow t n k s = some s' ∧ Tower ((k.writes, n) :: (w', t) :: xs) s' := by
  cases k with
  | mutRef =>
    obtain ⟨s', h1, h2⟩ := access_tower' (w := true) h hw
    exact ⟨_, by simp only [reborrow]; rw [h1]; rfl, [], _, s', rfl, unique_grants _ _, h2⟩
  | ref =>
    obtain ⟨s', h1, h2⟩ := access_tower' (w := false) h (fun h => by cases h)
    exact ⟨_, by simp only [reborrow]; rw [h1]; rfl, [], _, s', rfl, ref_grants _, h2⟩
  | raw =>
    obtain ⟨a, y, b, h1, h2⟩ := access_tower (w := true) h hw
    exact ⟨_, by simp only [reborrow]; rw [h1]; rfl, _, _, _, rfl, raw_grants _ _, h2.below⟩

/-! ## States -/

/-- Which references may be used at which location. -/
abbrev Towers := Loc → List (Bool × Nat)

/-- These references may be used, and all tags are below the next. -/
def Holds (H : Towers) (σ : State) : Prop := (∀ l, Tower (H l) (σ.stacks l)) ∧ Fresh σ

/-- A new reference, made from the first, at some locations. -/
def Towers.push (H : Towers) (ls : List Loc) (x : Bool × Nat) : Towers := fun l => if l ∈ ls then x :: H l else H l

theorem Holds.weaken {H H' : Towers} {σ : State} (h : Holds H σ) (hw : ∀ l, ∃ a, H l = a ++ H' l) : Holds H' σ := by
  refine ⟨fun l => ?_, h.2⟩
  obtain ⟨a, ha⟩ := hw l
  have := h.1 l
  rw [ha] at this
  exact this.drop

theorem Holds.pop {H : Towers} {ls : List Loc} {x : Bool × Nat} {σ : State} (h : Holds (H.push ls x) σ) : Holds H σ := by
  refine h.weaken fun l => ?_
  unfold Towers.push
  by_cases hl : l ∈ ls
  · exact ⟨[x], by rw [if_pos hl]; rfl⟩
  · exact ⟨[], by rw [if_neg hl]; rfl⟩

/-- The first reference at the location. -/
def Towers.Top (H : Towers) (w : Bool) (t : Nat) (l : Loc) : Prop := ∃ w' xs, H l = (w', t) :: xs ∧ (w = true → w' = true)

theorem Towers.Top.read {H : Towers} {w : Bool} {t : Nat} {l : Loc} (h : H.Top w t l) : H.Top false t l := by
  obtain ⟨w', xs, h1, _⟩ := h
  exact ⟨w', xs, h1, fun h => by cases h⟩

theorem Towers.top_push {H : Towers} {ls : List Loc} {w : Bool} {t : Nat} {l : Loc} (hl : l ∈ ls) : (H.push ls (w, t)).Top w t l :=
  ⟨w, H l, by unfold Towers.push; rw [if_pos hl], fun h => h⟩

theorem Towers.Top.push {H : Towers} {ls : List Loc} {x : Bool × Nat} {w : Bool} {t : Nat} {l : Loc} (h : H.Top w t l)
    (hl : l ∉ ls) : (H.push ls x).Top w t l := by
  obtain ⟨w', xs, h1, h2⟩ := h
  exact ⟨w', xs, by unfold Towers.push; rw [if_neg hl, h1], h2⟩

theorem Holds.access {H : Towers} {σ : State} (h : Holds H σ) {w : Bool} {t : Nat} {ls : List Loc}
    (ht : ∀ l ∈ ls, H.Top w t l) : ∃ σ', σ.access w t ls = .ok σ' ∧ Holds H σ' := by
  obtain ⟨σ', e, _, h1, h2⟩ := access_ok (σ := σ) (w := w) (t := t) (ls := ls) (fun l s => Tower (H l) s) (fun l hl => by
    obtain ⟨w', xs, k1, k2⟩ := ht l hl
    have := h.1 l
    rw [k1] at this ⊢
    exact access_tower' this k2)
  refine ⟨σ', e, fun l => ?_, h.2.access e⟩
  by_cases hl : l ∈ ls
  · exact h1 l hl
  · rw [h2 l hl]; exact h.1 l

theorem Holds.retag {H : Towers} {σ : State} (h : Holds H σ) {k : Kind} {t : Nat} {ls : List Loc}
    (ht : ∀ l ∈ ls, H.Top k.writes t l) : ∃ u σ', σ.retag t k ls = .ok (u, σ') ∧ Holds (H.push ls (k.writes, u)) σ' := by
  obtain ⟨σ', e, h1, h2⟩ := retag_ok (σ := σ) (t := t) (k := k) (ls := ls)
    (fun l s => Tower ((k.writes, σ.next) :: H l) s) (fun l hl => by
    obtain ⟨w', xs, k1, k2⟩ := ht l hl
    have := h.1 l
    rw [k1] at this ⊢
    exact reborrow_tower _ k this k2)
  refine ⟨_, σ', e, fun l => ?_, h.2.retag e⟩
  unfold Towers.push
  by_cases hl : l ∈ ls
  · rw [if_pos hl]; exact h1 l hl
  · rw [if_neg hl, h2 l hl]; exact h.1 l

theorem Holds.alloc {H : Towers} {σ : State} (h : Holds H σ) (p : Loc → Bool) :
    Holds (fun l => if p l then [(true, (σ.alloc p).1)] else H l) (σ.alloc p).2 := by
  refine ⟨fun l => ?_, fun l t ht => ?_⟩
  · simp only [State.alloc]
    by_cases hp : p l = true
    · rw [if_pos hp, if_pos hp]
      exact ⟨[], _, [], rfl, raw_grants _ _, trivial⟩
    · rw [if_neg hp, if_neg hp]
      exact h.1 l
  · simp only [State.alloc] at ht ⊢
    by_cases hp : p l = true
    · rw [if_pos hp] at ht
      obtain ⟨x, hx, rfl⟩ := ht
      rw [List.mem_singleton.mp hx]
      exact Nat.lt_succ_self _
    · rw [if_neg hp] at ht
      have := h.2 l t ht
      omega

theorem Holds.peek {H : Towers} {σ : State} (h : Holds H σ) {t i : Nat} (ht : H.Top false t (.struct i)) :
    ∃ σ', peek σ t i = .ok σ' ∧ Holds H σ' := by
  obtain ⟨u, σ1, e1, h1⟩ := h.retag (k := .ref) (ls := [.struct i]) (fun l hl => by rw [List.mem_singleton.mp hl]; exact ht)
  obtain ⟨σ2, e2, h2⟩ := h1.access (w := false) (t := u) (ls := [.struct i]) (fun l hl => Towers.top_push hl)
  refine ⟨σ2, ?_, h2.pop⟩
  unfold Borrow.peek
  rw [e1]
  exact e2

end Shard.Borrow
