import Verif.Proofs.Borrows
/-!
# Stacked Borrows: which tags occur in the stacks
-/

set_option autoImplicit false

namespace Shard.Borrow

variable {env : Env} {T : Tags}

theorem split_mem {p : Item → Bool} : ∀ {s : Stack} {y : Stack × Item × Stack}, split p s = some y →
    s = y.1 ++ y.2.1 :: y.2.2 ∧ p y.2.1 = true
  | [], y, h => by cases h
  | x :: s, y, h => by
    unfold split at h
    split at h
    · next hp => cases h; exact ⟨rfl, hp⟩
    · cases hs : split p s with
      | none => rw [hs] at h; cases h
      | some z =>
        rw [hs] at h
        cases h
        obtain ⟨h1, h2⟩ := split_mem hs
        exact ⟨by rw [h1]; rfl, h2⟩

theorem mem_compatible {a : Stack} {x y : Item} (h : y ∈ compatible a x) : y ∈ a ∧ y.perm = .sharedRW := by
  unfold compatible at h
  split at h
  · rw [List.mem_reverse] at h
    exact ⟨List.mem_reverse.mp (List.takeWhile_subset _ h), by
      have := List.all_eq_true.mp (List.all_takeWhile (p := fun y : Item => decide (y.perm = .sharedRW))) y h
      simpa using this⟩
  · cases h

/-- The tags that occur in a stack. -/
def Tagged (t : Nat) (s : Stack) : Prop := ∃ x ∈ s, x.tag = t

theorem access_tags {w : Bool} {t u : Nat} {s s' : Stack} (h : access w t s = some s') (hu : Tagged u s') : Tagged u s := by
  unfold access at h
  cases hs : split (Item.grants w t) s with
  | none => rw [hs] at h; cases h
  | some y =>
    rw [hs] at h
    simp only [Option.map_some, Option.some.injEq] at h
    obtain ⟨h1, _⟩ := split_mem hs
    obtain ⟨x, hx, rfl⟩ := hu
    rw [← h] at hx
    rw [h1]
    cases w with
    | true =>
      simp only [if_true, List.mem_append] at hx
      rcases hx with hx | hx
      · exact ⟨x, by simp [(mem_compatible hx).1], rfl⟩
      · exact ⟨x, List.mem_append_right _ hx, rfl⟩
    | false =>
      simp only [Bool.false_eq_true, if_false, List.mem_append] at hx
      rcases hx with hx | hx
      · obtain ⟨z, hz, rfl⟩ := List.mem_map.mp hx
        refine ⟨z, by simp [hz], ?_⟩
        unfold Item.disable
        split <;> rfl
      · exact ⟨x, List.mem_append_right _ hx, rfl⟩

theorem reborrow_tags {t n u : Nat} {k : Kind} {s s' : Stack} (h : reborrow t n k s = some s') (hu : Tagged u s') :
    u = n ∨ Tagged u s := by
  cases k with
  | raw =>
    simp only [reborrow] at h
    cases hs : split (Item.grants true t) s with
    | none => rw [hs] at h; cases h
    | some y =>
      rw [hs] at h
      simp only [Option.map_some, Option.some.injEq] at h
      obtain ⟨h1, _⟩ := split_mem hs
      obtain ⟨x, hx, rfl⟩ := hu
      rw [← h] at hx
      rcases List.mem_append.mp hx with hx | hx
      · exact .inr ⟨x, by rw [h1]; exact List.mem_append_left _ (List.mem_of_mem_take hx), rfl⟩
      · rcases List.mem_cons.mp hx with hx | hx
        · left; rw [hx]
        · right
          rcases List.mem_append.mp hx with hx | hx
          · exact ⟨x, by rw [h1]; exact List.mem_append_left _ (mem_compatible hx).1, rfl⟩
          · exact ⟨x, by rw [h1]; exact List.mem_append_right _ hx, rfl⟩
  | mutRef =>
    simp only [reborrow] at h
    cases hs : access true t s with
    | none => rw [hs] at h; cases h
    | some y =>
      rw [hs] at h
      cases h
      obtain ⟨x, hx, rfl⟩ := hu
      rcases List.mem_cons.mp hx with hx | hx
      · left; rw [hx]
      · exact .inr (access_tags hs ⟨x, hx, rfl⟩)
  | ref =>
    simp only [reborrow] at h
    cases hs : access false t s with
    | none => rw [hs] at h; cases h
    | some y =>
      rw [hs] at h
      cases h
      obtain ⟨x, hx, rfl⟩ := hu
      rcases List.mem_cons.mp hx with hx | hx
      · left; rw [hx]
      · exact .inr (access_tags hs ⟨x, hx, rfl⟩)

theorem update_inv {σ σ' : State} {f : Stack → Option Stack} {ls : List Loc} (h : σ.update f ls = .ok σ') :
    σ'.next = σ.next ∧ ∀ l, (l ∈ ls ∧ f (σ.stacks l) = some (σ'.stacks l)) ∨ (l ∉ ls ∧ σ'.stacks l = σ.stacks l) := by
  unfold State.update at h
  split at h
  · next hall =>
    cases h
    refine ⟨rfl, fun l => ?_⟩
    by_cases hl : l ∈ ls
    · left
      refine ⟨hl, ?_⟩
      simp only [if_pos hl]
      cases hf : f (σ.stacks l) with
      | none => have := hall l hl; rw [hf] at this; cases this
      | some s => rfl
    · right
      exact ⟨hl, by simp only [if_neg hl]⟩
  · cases h

/-- All tags are below the next one. -/
def Fresh (σ : State) : Prop := ∀ l t, Tagged t (σ.stacks l) → t < σ.next

/-- No tag `t` at `l`, and there will be none. -/
def Gone (t : Nat) (l : Loc) (σ : State) : Prop := t < σ.next ∧ ¬ Tagged t (σ.stacks l)

theorem retag_inv {σ σ' : State} {t n : Nat} {k : Kind} {ls : List Loc} (h : σ.retag t k ls = .ok (n, σ')) :
    n = σ.next ∧ σ'.next = σ.next + 1 ∧ ∀ l, (l ∈ ls ∧ reborrow t σ.next k (σ.stacks l) = some (σ'.stacks l)) ∨
      (l ∉ ls ∧ σ'.stacks l = σ.stacks l) := by
  unfold State.retag at h
  cases hu : σ.update (reborrow t σ.next k) ls with
  | error e => rw [hu] at h; cases h
  | ok τ =>
    rw [hu] at h
    cases h
    exact ⟨rfl, rfl, (update_inv hu).2⟩

theorem Fresh.retag {σ σ' : State} {t n : Nat} {k : Kind} {ls : List Loc} (hf : Fresh σ) (h : σ.retag t k ls = .ok (n, σ')) :
    Fresh σ' := by
  obtain ⟨_, h2, h3⟩ := retag_inv h
  intro l u hu
  rw [h2]
  rcases h3 l with ⟨_, h4⟩ | ⟨_, h4⟩
  · rcases reborrow_tags h4 hu with rfl | h5
    · omega
    · have := hf l u h5; omega
  · rw [h4] at hu
    have := hf l u hu
    omega

theorem Gone.retag {σ σ' : State} {v t n : Nat} {k : Kind} {ls : List Loc} {l : Loc} (hg : Gone v l σ)
    (h : σ.retag t k ls = .ok (n, σ')) : Gone v l σ' := by
  obtain ⟨_, h2, h3⟩ := retag_inv h
  obtain ⟨g1, g2⟩ := hg
  refine ⟨by omega, fun hu => ?_⟩
  rcases h3 l with ⟨_, h4⟩ | ⟨_, h4⟩
  · rcases reborrow_tags h4 hu with rfl | h5
    · omega
    · exact g2 h5
  · rw [h4] at hu
    exact g2 hu

theorem Fresh.access {σ σ' : State} {w : Bool} {t : Nat} {ls : List Loc} (hf : Fresh σ) (h : σ.access w t ls = .ok σ') :
    Fresh σ' := by
  obtain ⟨h2, h3⟩ := update_inv h
  intro l u hu
  rw [h2]
  rcases h3 l with ⟨_, h4⟩ | ⟨_, h4⟩
  · exact hf l u (access_tags h4 hu)
  · rw [h4] at hu
    exact hf l u hu

theorem Gone.access {σ σ' : State} {v : Nat} {w : Bool} {t : Nat} {ls : List Loc} {l : Loc} (hg : Gone v l σ)
    (h : σ.access w t ls = .ok σ') : Gone v l σ' := by
  obtain ⟨h2, h3⟩ := update_inv h
  obtain ⟨g1, g2⟩ := hg
  refine ⟨by omega, fun hu => ?_⟩
  rcases h3 l with ⟨_, h4⟩ | ⟨_, h4⟩
  · exact g2 (access_tags h4 hu)
  · rw [h4] at hu
    exact g2 hu

theorem bind_inv {α β : Type} {x : BM α} {f : α → BM β} {y : β} (h : (x >>= f) = .ok y) : ∃ a, x = .ok a ∧ f a = .ok y := by
  cases x with
  | error e => cases h
  | ok a => exact ⟨a, rfl, h⟩

/-- A property of states that every access and every reborrow keep. -/
structure Kept (P : State → Prop) : Prop where
  retag : ∀ {σ σ' : State} {t n : Nat} {k : Kind} {ls : List Loc}, P σ → σ.retag t k ls = .ok (n, σ') → P σ'
  access : ∀ {σ σ' : State} {w : Bool} {t : Nat} {ls : List Loc}, P σ → σ.access w t ls = .ok σ' → P σ'

theorem Kept.peek {P : State → Prop} (hP : Kept P) {σ σ' : State} {t i : Nat} (h : P σ) (he : peek σ t i = .ok σ') : P σ' := by
  unfold Borrow.peek at he
  obtain ⟨⟨t1, σ1⟩, h1, h2⟩ := bind_inv he
  exact hP.access (hP.retag h h1) h2

/-! ## What is at the bottom stays there -/

/-- The stacks of the archetypes still have `K` at the bottom, whose tags are below `n0`. -/
structure Based (n0 : Nat) (K : Nat → Stack) (σ : State) : Prop where
  fresh : Fresh σ
  le : n0 ≤ σ.next
  base : ∀ i, ∃ a, σ.stacks (.struct i) = a ++ K i

theorem split_above {w : Bool} {t n0 : Nat} {a K : Stack} {y : Stack × Item × Stack} (ht : n0 ≤ t)
    (hK : ∀ x ∈ K, x.tag < n0) (h : split (Item.grants w t) (a ++ K) = some y) : ∃ c, y.2.2 = c ++ K := by
  obtain ⟨h1, h2⟩ := split_mem h
  have hx : y.2.1.tag = t := by
    unfold Item.grants at h2
    simp only [Bool.and_eq_true, beq_iff_eq] at h2
    exact h2.1
  rcases List.append_eq_append_iff.mp h1 with ⟨e, _, k2⟩ | ⟨e, k1, k2⟩
  · have := hK y.2.1 (by rw [k2]; simp)
    omega
  · cases e with
    | nil =>
      simp only [List.nil_append] at k2
      have := hK y.2.1 (by rw [← k2]; simp)
      omega
    | cons z e =>
      simp only [List.cons_append, List.cons.injEq] at k2
      exact ⟨e, k2.2⟩

theorem access_above {w : Bool} {t n0 : Nat} {a K s' : Stack} (ht : n0 ≤ t) (hK : ∀ x ∈ K, x.tag < n0)
    (h : access w t (a ++ K) = some s') : ∃ c, s' = c ++ K := by
  unfold access at h
  cases hs : split (Item.grants w t) (a ++ K) with
  | none => rw [hs] at h; cases h
  | some y =>
    rw [hs] at h
    obtain ⟨c, hc⟩ := split_above ht hK hs
    simp only [Option.map_some, Option.some.injEq] at h
    rw [← h, hc]
    cases w with
    | true => exact ⟨compatible y.1 y.2.1 ++ y.2.1 :: c, by simp⟩
    | false => exact ⟨y.1.map Item.disable ++ y.2.1 :: c, by simp⟩

theorem reborrow_above {t m n0 : Nat} {k : Kind} {a K s' : Stack} (ht : n0 ≤ t) (hK : ∀ x ∈ K, x.tag < n0)
    (h : reborrow t m k (a ++ K) = some s') : ∃ c, s' = c ++ K := by
  cases k with
  | raw =>
    simp only [reborrow] at h
    cases hs : split (Item.grants true t) (a ++ K) with
    | none => rw [hs] at h; cases h
    | some y =>
      rw [hs] at h
      obtain ⟨c, hc⟩ := split_above ht hK hs
      simp only [Option.map_some, Option.some.injEq] at h
      rw [← h, hc]
      exact ⟨y.1.take (y.1.length - (compatible y.1 y.2.1).length) ++
        ⟨m, .sharedRW⟩ :: (compatible y.1 y.2.1 ++ y.2.1 :: c), by simp⟩
  | mutRef =>
    simp only [reborrow] at h
    cases hs : access true t (a ++ K) with
    | none => rw [hs] at h; cases h
    | some y =>
      rw [hs] at h
      cases h
      obtain ⟨c, rfl⟩ := access_above ht hK hs
      exact ⟨_ :: c, rfl⟩
  | ref =>
    simp only [reborrow] at h
    cases hs : access false t (a ++ K) with
    | none => rw [hs] at h; cases h
    | some y =>
      rw [hs] at h
      cases h
      obtain ⟨c, rfl⟩ := access_above ht hK hs
      exact ⟨_ :: c, rfl⟩

variable {n0 : Nat} {K : Nat → Stack} (hK : ∀ i, ∀ x ∈ K i, x.tag < n0)

include hK

theorem Based.retag {σ σ' : State} {t m : Nat} {k : Kind} {ls : List Loc} (h : Based n0 K σ)
    (ht : n0 ≤ t ∨ ∀ l ∈ ls, ∀ i, l ≠ .struct i) (e : σ.retag t k ls = .ok (m, σ')) : Based n0 K σ' ∧ n0 ≤ m := by
  obtain ⟨h1, h2, h3⟩ := retag_inv e
  have hle := h.le
  refine ⟨⟨h.fresh.retag e, by omega, fun i => ?_⟩, by omega⟩
  obtain ⟨a, ha⟩ := h.base i
  rcases h3 (.struct i) with ⟨h4, h5⟩ | ⟨_, h5⟩
  · rcases ht with ht | ht
    · rw [ha] at h5
      exact reborrow_above ht (hK i) h5
    · exact absurd rfl (ht _ h4 i)
  · exact ⟨a, by rw [h5, ha]⟩

theorem Based.access {σ σ' : State} {w : Bool} {t : Nat} {ls : List Loc} (h : Based n0 K σ)
    (ht : n0 ≤ t ∨ ∀ l ∈ ls, ∀ i, l ≠ .struct i) (e : σ.access w t ls = .ok σ') : Based n0 K σ' := by
  obtain ⟨h2, h3⟩ := update_inv e
  have hle := h.le
  refine ⟨h.fresh.access e, by omega, fun i => ?_⟩
  obtain ⟨a, ha⟩ := h.base i
  rcases h3 (.struct i) with ⟨h4, h5⟩ | ⟨_, h5⟩
  · rcases ht with ht | ht
    · rw [ha] at h5
      exact access_above ht (hK i) h5
    · exact absurd rfl (ht _ h4 i)
  · exact ⟨a, by rw [h5, ha]⟩

theorem Based.peek {σ σ' : State} {t i : Nat} (h : Based n0 K σ) (ht : n0 ≤ t) (e : Borrow.peek σ t i = .ok σ') :
    Based n0 K σ' := by
  unfold Borrow.peek at e
  obtain ⟨⟨t1, σ1⟩, h1, h2⟩ := bind_inv e
  obtain ⟨k1, k2⟩ := h.retag hK (.inl ht) h1
  exact k1.access hK (.inl k2) h2

theorem Based.visit {gd : ArchetypeDescriptor} {filter : Option (ArchetypeDescriptor → Bool)} {ar : ArchetypeRegistry} {i : Nat}
    {a : Archetype} {σ σ' : State} {o : Option Nat} (h : Based n0 K σ) (ht : n0 ≤ T.registry)
    (e : Borrow.visit T gd filter ar i a σ = .ok (o, σ')) : Based n0 K σ' ∧ ∀ t, o = some t → n0 ≤ t := by
  unfold Borrow.visit at e
  obtain ⟨⟨t1, σ1⟩, h1, e⟩ := bind_inv e
  obtain ⟨⟨t2, σ2⟩, h2, e⟩ := bind_inv e
  obtain ⟨⟨t3, σ3⟩, h3, e⟩ := bind_inv e
  obtain ⟨σ4, h4, e⟩ := bind_inv e
  obtain ⟨b1, l1⟩ := h.retag hK (.inl ht) h1
  obtain ⟨b2, l2⟩ := b1.retag hK (.inl l1) h2
  obtain ⟨b3, l3⟩ := b2.retag hK (.inl l2) h3
  have b4 := b3.peek hK l3 h4
  simp only [] at e
  split at e
  · cases filter with
    | none =>
      simp only [] at e
      obtain ⟨⟨t4, σ5⟩, h5, e⟩ := bind_inv e
      cases e
      obtain ⟨b5, l5⟩ := b4.retag hK (.inl l3) h5
      exact ⟨b5, fun t ht => by cases ht; exact l5⟩
    | some f =>
      simp only [] at e
      obtain ⟨σ5, h5, e⟩ := bind_inv e
      have b5 := b4.peek hK l3 h5
      split at e
      · obtain ⟨⟨t4, σ6⟩, h6, e⟩ := bind_inv e
        cases e
        obtain ⟨b6, l6⟩ := b5.retag hK (.inl l3) h6
        exact ⟨b6, fun t ht => by cases ht; exact l6⟩
      · cases e
        exact ⟨b5, fun t ht => by cases ht⟩
  · cases e
    exact ⟨b4, fun t ht => by cases ht⟩

omit hK in
theorem nextInLevel_based {visit : Nat → Archetype → State → BM (Option Nat × State)}
    (hv : ∀ i a σ o σ', Based n0 K σ → visit i a σ = .ok (o, σ') → Based n0 K σ' ∧ ∀ t, o = some t → n0 ≤ t)
    {ar : ArchetypeRegistry} {level : List SortedArchetypeKey} : ∀ (n idx : Nat) (σ : State) {x : Option (Nat × Nat) × Nat × State},
    Based n0 K σ → nextInLevel visit ar level n idx σ = .ok x → Based n0 K x.2.2 ∧ ∀ i t, x.1 = some (i, t) → n0 ≤ t
  | 0, idx, σ, x, h, e => by cases e; exact ⟨h, fun _ _ h => by cases h⟩
  | n + 1, idx, σ, x, h, e => by
    unfold nextInLevel at e
    split at e
    · obtain ⟨k, _, e⟩ := bind_inv e
      obtain ⟨a, _, e⟩ := bind_inv e
      obtain ⟨⟨o, σ1⟩, h1, e⟩ := bind_inv e
      obtain ⟨b1, l1⟩ := hv _ _ _ _ _ h h1
      cases o with
      | some t =>
        cases e
        exact ⟨b1, fun i t' ht => by cases ht; exact l1 _ rfl⟩
      | none => exact nextInLevel_based hv n (idx + 1) σ1 b1 e
    · cases e
      exact ⟨h, fun _ _ h => by cases h⟩

omit hK in
theorem nextLoop_based {visit : Nat → Archetype → State → BM (Option Nat × State)}
    (hv : ∀ i a σ o σ', Based n0 K σ → visit i a σ = .ok (o, σ') → Based n0 K σ' ∧ ∀ t, o = some t → n0 ≤ t)
    {ar : ArchetypeRegistry} : ∀ (n : Nat) (it : ArchIter) (σ : State) {x : Option (Nat × Nat) × ArchIter × State},
    Based n0 K σ → nextLoop visit ar n it σ = .ok x → Based n0 K x.2.2 ∧ ∀ i t, x.1 = some (i, t) → n0 ≤ t
  | 0, it, σ, x, h, e => by cases e; exact ⟨h, fun _ _ h => by cases h⟩
  | n + 1, it, σ, x, h, e => by
    unfold nextLoop at e
    split at e
    · obtain ⟨k, _, e⟩ := bind_inv e
      obtain ⟨⟨o, idx, σ1⟩, h1, e⟩ := bind_inv e
      obtain ⟨b1, l1⟩ := nextInLevel_based hv _ _ _ h h1
      cases o with
      | some y =>
        cases e
        exact ⟨b1, l1⟩
      | none => exact nextLoop_based hv n _ σ1 b1 e
    · cases e
      exact ⟨h, fun _ _ h => by cases h⟩

theorem Based.slicesMut {i : Nat} : ∀ (ss : List SliceRef) (σ : State) {x : List (SliceRef × Nat) × State},
    Based n0 K σ → Borrow.slicesMut T i ss σ = .ok x → Based n0 K x.2
  | [], σ, x, h, e => by cases e; exact h
  | s :: ss, σ, x, h, e => by
    unfold Borrow.slicesMut at e
    obtain ⟨⟨t, σ1⟩, h1, e⟩ := bind_inv e
    obtain ⟨⟨xs, σ2⟩, h2, e⟩ := bind_inv e
    cases e
    have b1 := (h.retag hK (.inr (fun l hl j he => by obtain ⟨o, rfl⟩ := mem_bytesAt hl; cases he)) h1).1
    have b2 := Based.slicesMut ss σ1 b1 h2
    exact b2

theorem Based.entitiesRef {i t : Nat} {a : Archetype} {σ : State} {x : (Nat × Nat) × State} (h : Based n0 K σ) (ht : n0 ≤ t)
    (e : Borrow.entitiesRef T i a t σ = .ok x) : Based n0 K x.2 := by
  unfold Borrow.entitiesRef at e
  obtain ⟨σ1, h1, e⟩ := bind_inv e
  obtain ⟨⟨t1, σ2⟩, h2, e⟩ := bind_inv e
  cases e
  exact ((h.peek hK ht h1).retag hK (.inr (fun l hl j he => by obtain ⟨o, _, rfl⟩ := List.mem_map.mp hl; cases he)) h2).1

theorem Based.next {g : Group} {filter : Option (ArchetypeDescriptor → Bool)} {ents : Bool} {ar : ArchetypeRegistry}
    {it : ArchIter} {σ : State} {x : Option Held × ArchIter × State} (h : Based n0 K σ) (ht : n0 ≤ T.registry)
    (e : Borrow.next env T g filter ents ar it σ = .ok x) : Based n0 K x.2.2 := by
  unfold Borrow.next at e
  obtain ⟨⟨o, it1, σ1⟩, h1, e⟩ := bind_inv e
  have q1 : Based n0 K σ1 ∧ ∀ i t, o = some (i, t) → n0 ≤ t := by
    unfold archNext at h1
    split at h1
    · cases h1
      exact ⟨h, fun _ _ h => by cases h⟩
    · exact nextLoop_based (fun i a σ o σ' hb he => hb.visit hK ht he) _ _ _ h h1
  obtain ⟨b1, l1⟩ := q1
  cases o with
  | none => cases e; exact b1
  | some y =>
    obtain ⟨i, t⟩ := y
    have l1 := l1 i t rfl
    obtain ⟨a, _, e⟩ := bind_inv e
    cases ents with
    | true =>
      simp only [if_true] at e
      obtain ⟨⟨y, σ2⟩, h2, e⟩ := bind_inv e
      cases e
      show Based n0 K σ2
      unfold entityFuzzySlicesMut at h2
      obtain ⟨⟨t1, τ1⟩, k1, h2⟩ := bind_inv h2
      obtain ⟨τ2, k2, h2⟩ := bind_inv h2
      obtain ⟨⟨es, τ3⟩, k3, h2⟩ := bind_inv h2
      obtain ⟨ss, _, h2⟩ := bind_inv h2
      obtain ⟨τ4, k4, h2⟩ := bind_inv h2
      obtain ⟨⟨xs, τ5⟩, k5, h2⟩ := bind_inv h2
      cases h2
      obtain ⟨c1, m1⟩ := b1.retag hK (.inl l1) k1
      exact Based.slicesMut hK _ _ (((c1.peek hK m1 k2).entitiesRef hK m1 k3).peek hK m1 k4) k5
    | false =>
      simp only [Bool.false_eq_true, if_false] at e
      obtain ⟨⟨y, σ2⟩, h2, e⟩ := bind_inv e
      cases e
      show Based n0 K σ2
      unfold fuzzySlicesMut at h2
      obtain ⟨⟨t1, τ1⟩, k1, h2⟩ := bind_inv h2
      obtain ⟨τ2, k2, h2⟩ := bind_inv h2
      obtain ⟨ss, _, h2⟩ := bind_inv h2
      obtain ⟨⟨xs, τ5⟩, k5, h2⟩ := bind_inv h2
      cases h2
      obtain ⟨c1, m1⟩ := b1.retag hK (.inl l1) k1
      exact Based.slicesMut hK _ _ (c1.peek hK m1 k2) k5

theorem Based.use {held : List Held} {u : Use} {σ σ' : State} (h : Based n0 K σ) (e : u.run held σ = .ok σ') :
    Based n0 K σ' := by
  cases u with
  | elem n j k w =>
    simp only [Use.run] at e
    split at e
    · cases e; exact h
    · split at e
      · cases e; exact h
      · split at e
        · exact h.access hK (.inr (fun l hl j he => by obtain ⟨o, rfl⟩ := mem_bytesAt hl; cases he)) e
        · cases e; exact h
  | entity n k =>
    simp only [Use.run] at e
    split at e
    · cases e; exact h
    · split at e
      · cases e; exact h
      · split at e
        · exact h.access hK (.inr (fun l hl j he => by rw [List.mem_singleton.mp hl] at he; cases he)) e
        · cases e; exact h

theorem Based.runUses {held : List Held} : ∀ (us : List Use) {σ σ' : State}, Based n0 K σ → Borrow.runUses held us σ = .ok σ' →
    Based n0 K σ'
  | [], σ, σ', h, e => by cases e; exact h
  | u :: us, σ, σ', h, e => by
    unfold Borrow.runUses at e
    obtain ⟨σ1, h1, e⟩ := bind_inv e
    exact Based.runUses us (h.use hK h1) e

theorem Based.run {g : Group} {filter : Option (ArchetypeDescriptor → Bool)} {ents : Bool} {ar : ArchetypeRegistry}
    (ht : n0 ≤ T.registry) : ∀ (acts : List Act) (held : List Held) (it : ArchIter) (σ : State)
    {x : List Held × ArchIter × State}, Based n0 K σ → Borrow.run env T g filter ents ar acts held it σ = .ok x →
    Based n0 K x.2.2
  | [], held, it, σ, x, h, e => by cases e; exact h
  | .next :: acts, held, it, σ, x, h, e => by
    unfold Borrow.run at e
    obtain ⟨⟨o, it1, σ1⟩, h1, e⟩ := bind_inv e
    exact Based.run ht acts _ it1 σ1 (h.next hK ht h1) e
  | .use u :: acts, held, it, σ, x, h, e => by
    unfold Borrow.run at e
    obtain ⟨σ1, h1, e⟩ := bind_inv e
    exact Based.run ht acts held it σ1 (h.use hK h1) e

theorem Based.exactMut {r : Registry} {g : Group} {σ : State} {x : Option Held × State} (h : Based n0 K σ)
    (ht : n0 ≤ T.registry) (e : Borrow.exactMut env T r g σ = .ok x) : Based n0 K x.2 := by
  unfold Borrow.exactMut at e
  obtain ⟨o, _, e⟩ := bind_inv e
  cases o with
  | none => cases e; exact h
  | some i =>
    obtain ⟨⟨t1, τ1⟩, k1, e⟩ := bind_inv e
    obtain ⟨τ2, k2, e⟩ := bind_inv e
    obtain ⟨a, _, e⟩ := bind_inv e
    obtain ⟨ss, _, e⟩ := bind_inv e
    obtain ⟨⟨xs, τ5⟩, k5, e⟩ := bind_inv e
    cases e
    obtain ⟨c1, m1⟩ := h.retag hK (.inl ht) k1
    exact Based.slicesMut hK _ _ (c1.peek hK m1 k2) k5

theorem Based.entityExactMut {r : Registry} {g : Group} {σ : State} {x : Option Held × State} (h : Based n0 K σ)
    (ht : n0 ≤ T.registry) (e : Borrow.entityExactMut env T r g σ = .ok x) : Based n0 K x.2 := by
  unfold Borrow.entityExactMut at e
  obtain ⟨o, _, e⟩ := bind_inv e
  cases o with
  | none => cases e; exact h
  | some i =>
    obtain ⟨a, _, e⟩ := bind_inv e
    obtain ⟨⟨t1, τ1⟩, k1, e⟩ := bind_inv e
    obtain ⟨⟨t2, τ2⟩, k2, e⟩ := bind_inv e
    obtain ⟨⟨es, τ3⟩, k3, e⟩ := bind_inv e
    obtain ⟨⟨t3, τ4⟩, k4, e⟩ := bind_inv e
    obtain ⟨τ5, k5, e⟩ := bind_inv e
    obtain ⟨ss, _, e⟩ := bind_inv e
    obtain ⟨⟨xs, τ6⟩, k6, e⟩ := bind_inv e
    cases e
    obtain ⟨c1, m1⟩ := h.retag hK (.inl ht) k1
    obtain ⟨c2, m2⟩ := c1.retag hK (.inl m1) k2
    obtain ⟨c4, m4⟩ := (c2.entitiesRef hK m2 k3).retag hK (.inl ht) k4
    exact Based.slicesMut hK _ _ (c4.peek hK m4 k5) k6

theorem Based.componentsMut {r : Registry} {g : Group} {en : Entity} {σ : State} {x : Option Held × State} (h : Based n0 K σ)
    (ht : n0 ≤ T.registry) (e : Borrow.componentsMut env T r g en σ = .ok x) : Based n0 K x.2 := by
  unfold Borrow.componentsMut at e
  obtain ⟨o, _, e⟩ := bind_inv e
  cases o with
  | none => cases e; exact h
  | some y =>
    obtain ⟨i, ps⟩ := y
    obtain ⟨τ1, k1, e⟩ := bind_inv e
    obtain ⟨⟨t2, τ2⟩, k2, e⟩ := bind_inv e
    obtain ⟨τ3, k3, e⟩ := bind_inv e
    obtain ⟨⟨xs, τ4⟩, k4, e⟩ := bind_inv e
    cases e
    obtain ⟨c2, m2⟩ := (h.peek hK ht k1).retag hK (.inl ht) k2
    exact Based.slicesMut hK _ _ (c2.peek hK m2 k3) k4

end Shard.Borrow
