import Verif.Model.Borrows
import Verif.Proofs.IterSpec
/-!
# Stacked Borrows: what the steps do to the stacks
-/

set_option autoImplicit false

namespace Shard.Borrow

/-- Something in the stack permits the access. -/
def Granted (w : Bool) (t : Nat) (s : Stack) : Prop := ∃ x ∈ s, x.grants w t = true

theorem grants_read {w : Bool} {t : Nat} {x : Item} (h : x.grants w t = true) : x.grants false t = true := by
  unfold Item.grants at h ⊢
  cases hp : x.perm <;> simp_all

theorem Granted.read {w : Bool} {t : Nat} {s : Stack} (h : Granted w t s) : Granted false t s := by
  obtain ⟨x, h1, h2⟩ := h
  exact ⟨x, h1, grants_read h2⟩

theorem grants_disable {w : Bool} {t : Nat} {x : Item} (h : x.grants w t = false) : x.disable.grants w t = false := by
  unfold Item.disable
  split
  · unfold Item.grants
    simp
  · exact h

theorem split_some {p : Item → Bool} : ∀ {s : Stack}, (∃ x ∈ s, p x = true) →
    ∃ a x b, split p s = some (a, x, b) ∧ s = a ++ x :: b ∧ p x = true ∧ ∀ y ∈ a, p y = false
  | [], h => by obtain ⟨x, hx, _⟩ := h; cases hx
  | y :: s, h => by
    unfold split
    by_cases hy : p y = true
    · rw [if_pos hy]
      exact ⟨[], y, s, rfl, rfl, hy, fun _ h => by cases h⟩
    · rw [if_neg hy]
      have : ∃ x ∈ s, p x = true := by
        obtain ⟨x, hx, hp⟩ := h
        rcases List.mem_cons.mp hx with rfl | hx
        · exact absurd hp hy
        · exact ⟨x, hx, hp⟩
      obtain ⟨a, x, b, h1, h2, h3, h4⟩ := split_some this
      refine ⟨y :: a, x, b, by rw [h1]; rfl, by rw [h2]; rfl, h3, ?_⟩
      intro z hz
      rcases List.mem_cons.mp hz with rfl | hz
      · simpa using hy
      · exact h4 z hz

theorem split_none {p : Item → Bool} : ∀ {s : Stack}, (∀ x ∈ s, p x = false) → split p s = none
  | [], _ => rfl
  | y :: s, h => by
    unfold split
    rw [if_neg (by rw [h y List.mem_cons_self]; decide), split_none (fun x hx => h x (List.mem_cons_of_mem _ hx))]
    rfl

theorem split_append {p : Item → Bool} : ∀ {a : Stack} {s : Stack}, (∀ y ∈ a, p y = false) →
    split p (a ++ s) = (split p s).map (fun y => (a ++ y.1, y.2.1, y.2.2))
  | [], s, _ => by cases h : split p s <;> simp [h]
  | y :: a, s, h => by
    rw [List.cons_append]
    conv => lhs; unfold split
    rw [if_neg (by rw [h y List.mem_cons_self]; decide), split_append (fun x hx => h x (List.mem_cons_of_mem _ hx))]
    cases split p s <;> rfl

theorem split_here {p : Item → Bool} {x : Item} {b : Stack} (h : p x = true) : split p (x :: b) = some ([], x, b) := by
  unfold split
  rw [if_pos h]

/-- The topmost item that permits writing through `t` has, below it, one that permits writing through `u`. -/
def Over (t u : Nat) (s : Stack) : Prop := ∃ a x b, split (Item.grants true t) s = some (a, x, b) ∧ Granted true u b

theorem Over.granted {t u : Nat} {s : Stack} (h : Over t u s) : Granted true t s ∧ Granted true u s := by
  obtain ⟨a, x, b, h1, y, h2, h3⟩ := h
  have : ∃ z ∈ s, Item.grants true t z = true := by
    apply Classical.byContradiction
    intro hn
    rw [split_none (fun z hz => by
      cases hg : Item.grants true t z with
      | false => rfl
      | true => exact absurd ⟨z, hz, hg⟩ hn)] at h1
    cases h1
  obtain ⟨a', x', b', k1, k2, k3, _⟩ := split_some this
  rw [h1] at k1
  cases k1
  exact ⟨this, y, by rw [k2]; simp [h2], h3⟩

theorem Over.of_mem {t u : Nat} {s : Stack} {x : Item} (hx : x.grants true t = true) (hs : Granted true u s) : Over t u (x :: s) :=
  ⟨[], x, s, split_here hx, hs⟩

theorem unique_grants (w : Bool) (t : Nat) : (⟨t, .unique⟩ : Item).grants w t = true := by simp [Item.grants]
theorem raw_grants (w : Bool) (t : Nat) : (⟨t, .sharedRW⟩ : Item).grants w t = true := by simp [Item.grants]
theorem ref_grants (t : Nat) : (⟨t, .sharedRO⟩ : Item).grants false t = true := by simp [Item.grants]

theorem Over.below {t u : Nat} {a s : Stack} (h : Over t u s) : Over t u (a ++ s) := by
  induction a with
  | nil => exact h
  | cons y a ih =>
    by_cases hy : Item.grants true t y = true
    · obtain ⟨z, hz, hg⟩ := ih.granted.2
      exact ⟨[], y, a ++ s, split_here hy, z, hz, hg⟩
    · obtain ⟨c, x, b, h1, h2⟩ := ih
      refine ⟨y :: c, x, b, ?_, h2⟩
      rw [List.cons_append]
      unfold split
      rw [if_neg hy, h1]
      rfl

/-- A write through `t`. -/
theorem access_write {t : Nat} {s : Stack} (h : Granted true t s) :
    ∃ s', access true t s = some s' ∧ Granted true t s' ∧ ∀ u, Over t u s → Over t u s' := by
  obtain ⟨a, x, b, h1, h2, h3, h4⟩ := split_some h
  refine ⟨_, by unfold access; rw [h1]; rfl, ⟨x, by simp, h3⟩, ?_⟩
  rintro u ⟨a', x', b', k1, k2⟩
  rw [h1] at k1
  cases k1
  simp only [if_true]
  exact (Over.of_mem h3 k2).below

/-- A read through `t`. -/
theorem access_read {t : Nat} {s : Stack} (h : Granted false t s) :
    ∃ s', access false t s = some s' ∧ Granted false t s' ∧ (∀ u, Over t u s → Over t u s') ∧
      (Granted true t s → Granted true t s') ∧ ∀ u, ⟨u, .sharedRO⟩ ∈ s → (⟨u, .sharedRO⟩ : Item) ∈ s' := by
  obtain ⟨a, x, b, h1, h2, h3, h4⟩ := split_some h
  have hsub : Granted true t s → Granted true t (x :: b) := by
    rintro ⟨y, hy, hg⟩
    rw [h2] at hy
    rcases List.mem_append.mp hy with hy | hy
    · exact absurd (grants_read hg) (by rw [h4 y hy]; decide)
    · exact ⟨y, hy, hg⟩
  refine ⟨_, by unfold access; rw [h1]; rfl, ⟨x, by simp, h3⟩, ?_, ?_, ?_⟩
  · rintro u ⟨a', x', b', k1, k2⟩
    simp only [if_false]
    apply Over.below
    rw [h2, split_append (fun y hy => by
      cases hg : Item.grants true t y with
      | false => rfl
      | true => exact absurd (grants_read hg) (by rw [h4 y hy]; decide))] at k1
    cases hs : split (Item.grants true t) (x :: b) with
    | none => rw [hs] at k1; cases k1
    | some z =>
      rw [hs] at k1
      obtain ⟨z1, z2, z3⟩ := z
      simp only [Option.map_some, Option.some.injEq, Prod.mk.injEq] at k1
      exact ⟨z1, z2, z3, hs, by rw [k1.2.2]; exact k2⟩
  · intro hg
    obtain ⟨y, hy, hg⟩ := hsub hg
    exact ⟨y, by simp only [if_false]; exact List.mem_append_right _ hy, hg⟩
  · intro u hu
    rw [h2] at hu
    simp only [if_false]
    rcases List.mem_append.mp hu with hu | hu
    · refine List.mem_append_left _ (List.mem_map.mpr ⟨_, hu, ?_⟩)
      simp [Item.disable]
    · exact List.mem_append_right _ hu

/-- Making a `&mut`. -/
theorem reborrow_mut {t : Nat} {s : Stack} (n : Nat) (h : Granted true t s) :
    ∃ s', reborrow t n .mutRef s = some (⟨n, .unique⟩ :: s') ∧ Granted true t s' ∧ ∀ u, Over t u s → Over t u s' := by
  obtain ⟨s', h1, h2, h3⟩ := access_write h
  exact ⟨s', by simp only [reborrow]; rw [h1]; rfl, h2, h3⟩

/-- Making a `&`. -/
theorem reborrow_ref {t : Nat} {s : Stack} (n : Nat) (h : Granted false t s) :
    ∃ s', reborrow t n .ref s = some (⟨n, .sharedRO⟩ :: s') ∧ (∀ u, Over t u s → Over t u s') ∧
      (Granted true t s → Granted true t s') ∧ ∀ u, ⟨u, .sharedRO⟩ ∈ s → (⟨u, .sharedRO⟩ : Item) ∈ s' := by
  obtain ⟨s', h1, _, h3, h4, h5⟩ := access_read h
  exact ⟨s', by simp only [reborrow]; rw [h1]; rfl, h3, h4, h5⟩

/-- Making a `*mut`. -/
theorem reborrow_raw {t u : Nat} {s : Stack} (n : Nat) (h : Over t u s) :
    ∃ s', reborrow t n .raw s = some s' ∧ Over n u s' := by
  obtain ⟨a, x, b, h1, z, hz, hg⟩ := h
  refine ⟨_, by simp only [reborrow]; rw [h1]; rfl, ?_⟩
  simp only []
  exact (Over.of_mem (raw_grants true n) ⟨z, by simp [hz], hg⟩).below

/-! ## Shared references -/

/-- A `&` with tag `v` that may be used, made while `t` could be used for writing. -/
def Above (t v : Nat) (s : Stack) : Prop := ∃ a b, s = a ++ ⟨v, .sharedRO⟩ :: b ∧ Granted true t b

theorem Above.granted {t v : Nat} {s : Stack} (h : Above t v s) : Granted true t s := by
  obtain ⟨a, b, rfl, x, hx, hg⟩ := h
  exact ⟨x, by simp [hx], hg⟩

theorem Above.mem {t v : Nat} {s : Stack} (h : Above t v s) : (⟨v, .sharedRO⟩ : Item) ∈ s := by
  obtain ⟨a, b, rfl, _⟩ := h
  simp

theorem Above.push {t : Nat} (v : Nat) {s : Stack} (h : Granted true t s) : Above t v (⟨v, .sharedRO⟩ :: s) := ⟨[], s, rfl, h⟩

theorem Above.below {t v : Nat} {a s : Stack} (h : Above t v s) : Above t v (a ++ s) := by
  obtain ⟨c, b, rfl, h⟩ := h
  exact ⟨a ++ c, b, by simp, h⟩

theorem read_keeps {t u : Nat} {a b : Stack} {x : Item} (hg : Granted true t (x :: b)) (h : Above t u (a ++ x :: b)) :
    Above t u (a.map Item.disable ++ x :: b) := by
  obtain ⟨c, d, he, hd⟩ := h
  rcases List.append_eq_append_iff.mp he with ⟨e, h1, h2⟩ | ⟨e, h1, h2⟩
  · refine ⟨a.map Item.disable ++ e, d, ?_, hd⟩
    rw [h2, List.append_assoc]
  · cases e with
    | nil =>
      simp only [List.nil_append] at h2
      exact ⟨a.map Item.disable, d, by rw [h2], hd⟩
    | cons z e =>
      simp only [List.cons_append, List.cons.injEq] at h2
      obtain ⟨rfl, rfl⟩ := h2
      subst h1
      refine ⟨c.map Item.disable, e.map Item.disable ++ x :: b, ?_, ?_⟩
      · simp [Item.disable]
      · obtain ⟨y, hy, hg⟩ := hg
        exact ⟨y, List.mem_append_right _ hy, hg⟩

/-- A read through the reference everything is made from. -/
theorem read_base {t : Nat} {s : Stack} (h : Granted true t s) :
    ∃ s', access false t s = some s' ∧ Granted true t s' ∧ ∀ v, Above t v s → Above t v s' := by
  obtain ⟨a, x, b, h1, h2, h3, h4⟩ := split_some h.read
  have hsub : Granted true t (x :: b) := by
    obtain ⟨y, hy, hg⟩ := h
    rw [h2] at hy
    rcases List.mem_append.mp hy with hy | hy
    · exact absurd (grants_read hg) (by rw [h4 y hy]; decide)
    · exact ⟨y, hy, hg⟩
  refine ⟨_, by unfold access; rw [h1]; rfl, ?_, ?_⟩
  · obtain ⟨y, hy, hg⟩ := hsub
    exact ⟨y, by simp only [if_false]; exact List.mem_append_right _ hy, hg⟩
  · intro v hv
    rw [h2] at hv
    exact read_keeps hsub hv

/-- A read through a `&`. -/
theorem read_ref {t u : Nat} {s : Stack} (h : Above t u s) :
    ∃ s', access false u s = some s' ∧ Granted true t s' ∧ ∀ v, Above t v s → Above t v s' := by
  obtain ⟨a, x, b, h1, h2, h3, h4⟩ := split_some (p := Item.grants false u) ⟨_, h.mem, ref_grants u⟩
  have hsub : Granted true t (x :: b) := by
    obtain ⟨c, d, he, z, hz, hg⟩ := h
    rw [h2] at he
    rcases List.append_eq_append_iff.mp he with ⟨e, _, k2⟩ | ⟨e, k1, k2⟩
    · exact ⟨z, by rw [k2]; simp [hz], hg⟩
    · cases e with
      | nil =>
        simp only [List.nil_append] at k2
        exact ⟨z, by rw [← k2]; simp [hz], hg⟩
      | cons w e =>
        simp only [List.cons_append, List.cons.injEq] at k2
        have := h4 w (by rw [k1]; simp)
        rw [← k2.1, ref_grants] at this
        cases this
  refine ⟨_, by unfold access; rw [h1]; rfl, ?_, ?_⟩
  · obtain ⟨y, hy, hg⟩ := hsub
    exact ⟨y, by simp only [if_false]; exact List.mem_append_right _ hy, hg⟩
  · intro v hv
    rw [h2] at hv
    exact read_keeps hsub hv

/-! ## The state -/

theorem update_ok {σ : State} {f : Stack → Option Stack} {ls : List Loc} (F : Loc → Stack)
    (h : ∀ l ∈ ls, f (σ.stacks l) = some (F l)) :
    ∃ σ', σ.update f ls = .ok σ' ∧ σ'.next = σ.next ∧ (∀ l ∈ ls, σ'.stacks l = F l) ∧ ∀ l, l ∉ ls → σ'.stacks l = σ.stacks l := by
  refine ⟨{ σ with stacks := fun l => if l ∈ ls then (f (σ.stacks l)).getD [] else σ.stacks l },
    by unfold State.update; rw [if_pos (fun l hl => by rw [h l hl]; rfl)], rfl, ?_, ?_⟩
  · intro l hl
    simp only [if_pos hl, h l hl, Option.getD_some]
  · intro l hl
    simp only [if_neg hl]

theorem access_ok {σ : State} {w : Bool} {t : Nat} {ls : List Loc} (P : Loc → Stack → Prop)
    (h : ∀ l ∈ ls, ∃ s, access w t (σ.stacks l) = some s ∧ P l s) :
    ∃ σ', σ.access w t ls = .ok σ' ∧ σ'.next = σ.next ∧ (∀ l ∈ ls, P l (σ'.stacks l)) ∧ ∀ l, l ∉ ls → σ'.stacks l = σ.stacks l := by
  obtain ⟨σ', h1, h2, h3, h4⟩ := update_ok (σ := σ) (f := access w t) (ls := ls)
    (fun l => (access w t (σ.stacks l)).getD []) (fun l hl => by
      obtain ⟨s, hs, _⟩ := h l hl
      rw [hs]; rfl)
  refine ⟨σ', h1, h2, ?_, h4⟩
  intro l hl
  obtain ⟨s, hs, hp⟩ := h l hl
  rw [h3 l hl, hs]
  exact hp

theorem retag_ok {σ : State} {t : Nat} {k : Kind} {ls : List Loc} (P : Loc → Stack → Prop)
    (h : ∀ l ∈ ls, ∃ s, reborrow t σ.next k (σ.stacks l) = some s ∧ P l s) :
    ∃ σ', σ.retag t k ls = .ok (σ.next, σ') ∧ (∀ l ∈ ls, P l (σ'.stacks l)) ∧ ∀ l, l ∉ ls → σ'.stacks l = σ.stacks l := by
  obtain ⟨σ', h1, h2, h3, h4⟩ := update_ok (σ := σ) (f := reborrow t σ.next k) (ls := ls)
    (fun l => (reborrow t σ.next k (σ.stacks l)).getD []) (fun l hl => by
      obtain ⟨s, hs, _⟩ := h l hl
      rw [hs]; rfl)
  refine ⟨⟨σ'.stacks, σ.next + 1⟩, by unfold State.retag; rw [h1]; rfl, ?_, h4⟩
  intro l hl
  obtain ⟨s, hs, hp⟩ := h l hl
  show P l (σ'.stacks l)
  rw [h3 l hl, hs]
  exact hp

theorem notMem_one {l l' : Loc} (h : l ≠ l') : l ∉ [l'] := by simpa using h

/-- A method that only reads the archetype, with a reference that may be used. -/
theorem peek_ok {σ : State} {t i : Nat} (h : Granted true t (σ.stacks (.struct i))) :
    ∃ σ', peek σ t i = .ok σ' ∧ Granted true t (σ'.stacks (.struct i)) ∧
      (∀ u, Over t u (σ.stacks (.struct i)) → Over t u (σ'.stacks (.struct i))) ∧
      ∀ l, l ≠ .struct i → σ'.stacks l = σ.stacks l := by
  obtain ⟨s1, h1, h2, h3, _⟩ := reborrow_ref σ.next h.read
  obtain ⟨σ1, k1, k2, k3⟩ := retag_ok (σ := σ) (t := t) (k := .ref) (ls := [.struct i])
    (fun _ s => s = ⟨σ.next, .sharedRO⟩ :: s1) (fun l hl => by
      rw [List.mem_singleton.mp hl]; exact ⟨_, h1, rfl⟩)
  have k2 := k2 _ List.mem_cons_self
  have ha : access false σ.next (⟨σ.next, .sharedRO⟩ :: s1) = some (⟨σ.next, .sharedRO⟩ :: s1) := by
    unfold access
    rw [split_here (ref_grants _)]
    rfl
  obtain ⟨σ2, j1, _, j2, j3⟩ := access_ok (σ := σ1) (w := false) (t := σ.next) (ls := [.struct i])
    (fun _ s => s = ⟨σ.next, .sharedRO⟩ :: s1) (fun l hl => by
      rw [List.mem_singleton.mp hl, k2]; exact ⟨_, ha, rfl⟩)
  have j2 := j2 _ List.mem_cons_self
  refine ⟨σ2, ?_, ?_, ?_, ?_⟩
  · unfold peek
    rw [k1]
    exact j1
  · rw [j2]
    obtain ⟨y, hy, hg⟩ := h3 h
    exact ⟨y, List.mem_cons_of_mem _ hy, hg⟩
  · intro u hu
    rw [j2]
    exact (h2 u hu).below (a := [_])
  · intro l hl
    rw [j3 l (notMem_one hl), k3 l (notMem_one hl)]

/-- A `&mut` to the archetype, from a reference that may be used. -/
theorem struct_mut {σ : State} {t i : Nat} (h : Granted true t (σ.stacks (.struct i))) :
    ∃ σ', σ.retag t .mutRef [.struct i] = .ok (σ.next, σ') ∧ Over σ.next t (σ'.stacks (.struct i)) ∧
      (∀ u, Over t u (σ.stacks (.struct i)) → Over σ.next u (σ'.stacks (.struct i)) ∧ Over t u (σ'.stacks (.struct i))) ∧
      ∀ l, l ≠ .struct i → σ'.stacks l = σ.stacks l := by
  obtain ⟨s1, h1, h2, h3⟩ := reborrow_mut σ.next h
  obtain ⟨σ1, k1, k2, k3⟩ := retag_ok (σ := σ) (t := t) (k := .mutRef) (ls := [.struct i])
    (fun _ s => s = ⟨σ.next, .unique⟩ :: s1) (fun l hl => by
      rw [List.mem_singleton.mp hl]; exact ⟨_, h1, rfl⟩)
  have k2 := k2 _ List.mem_cons_self
  refine ⟨σ1, k1, ?_, ?_, fun l hl => k3 l (notMem_one hl)⟩
  · rw [k2]
    exact Over.of_mem (unique_grants _ _) h2
  · intro u hu
    rw [k2]
    exact ⟨Over.of_mem (unique_grants _ _) (h3 u hu).granted.2, (h3 u hu).below (a := [_])⟩

/-! ## The archetype iterator -/

variable {env : Env} {T : Tags}

/-- The registry's reference to each archetype may be used. -/
def RegOk (T : Tags) (n : Nat) (σ : State) : Prop := ∀ j, j < n → Granted true T.registry (σ.stacks (.struct j))

theorem RegOk.one {σ σ' : State} {i n : Nat} (h : RegOk T n σ) (hf : ∀ l, l ≠ .struct i → σ'.stacks l = σ.stacks l)
    (hi : Granted true T.registry (σ'.stacks (.struct i))) : RegOk T n σ' := by
  intro j hn
  by_cases hj : j = i
  · rw [hj]; exact hi
  · rw [hf _ (by intro he; cases he; exact hj rfl)]
    exact h j hn

/-- The filter, if there is one. -/
def passes (filter : Option (ArchetypeDescriptor → Bool)) (d : ArchetypeDescriptor) : Bool :=
  filter.getD (fun _ => true) d

theorem visit_ok {gd : ArchetypeDescriptor} {filter : Option (ArchetypeDescriptor → Bool)} {ar : ArchetypeRegistry}
    {i : Nat} {a : Archetype} {σ : State} (hreg : RegOk T ar.archetypes.length σ) (hi : i < ar.archetypes.length) :
    ∃ o σ', visit T gd filter ar i a σ = .ok (o, σ') ∧
      o.isSome = (a.descriptor.containsSubset gd && passes filter a.descriptor) ∧ RegOk T ar.archetypes.length σ' ∧
      (∀ t, o = some t → Over t T.registry (σ'.stacks (.struct i))) ∧
      ∀ l, (∀ j, l ≠ .struct j) → σ'.stacks l = σ.stacks l := by
  have hmem : Loc.struct i ∈ structs ar := List.mem_map.mpr ⟨i, List.mem_range.mpr hi, rfl⟩
  have hns : ∀ {l : Loc}, (∀ j, l ≠ .struct j) → l ∉ structs ar := by
    intro l hl hm
    obtain ⟨j, _, rfl⟩ := List.mem_map.mp hm
    exact hl j rfl
  obtain ⟨σ1, e1, o1, f1⟩ := retag_ok (σ := σ) (t := T.registry) (k := .mutRef) (ls := structs ar)
    (fun _ s => Over σ.next T.registry s) (fun l hl => by
      obtain ⟨j, hj, rfl⟩ := List.mem_map.mp hl
      obtain ⟨s, h1, h2, _⟩ := reborrow_mut σ.next (hreg j (List.mem_range.mp hj))
      exact ⟨_, h1, Over.of_mem (unique_grants _ _) h2⟩)
  obtain ⟨σ2, e2, o2, f2⟩ := retag_ok (σ := σ1) (t := σ.next) (k := .raw) (ls := structs ar)
    (fun _ s => Over σ1.next T.registry s) (fun l hl => reborrow_raw σ1.next (o1 l hl))
  have r2 : RegOk T ar.archetypes.length σ2 := by
    intro j hj
    exact (o2 _ (List.mem_map.mpr ⟨j, List.mem_range.mpr hj, rfl⟩)).granted.2
  obtain ⟨σ3, e3, _, o3, f3⟩ := struct_mut (o2 _ hmem).granted.1
  have o3 := (o3 _ (o2 _ hmem)).1
  have r3 := r2.one f3 o3.granted.2
  obtain ⟨σ4, e4, _, o4, f4⟩ := peek_ok o3.granted.1
  have o4 := o4 _ o3
  have r4 := r3.one f4 o4.granted.2
  have fr4 : ∀ l, (∀ j, l ≠ .struct j) → σ4.stacks l = σ.stacks l := by
    intro l hl
    rw [f4 l (hl i), f3 l (hl i), f2 l (hns hl), f1 l (hns hl)]
  have last : ∀ σ5 : State, Over σ2.next T.registry (σ5.stacks (.struct i)) → RegOk T ar.archetypes.length σ5 →
      (∀ l, (∀ j, l ≠ .struct j) → σ5.stacks l = σ.stacks l) →
      ∃ σ6, σ5.retag σ2.next .mutRef [.struct i] = .ok (σ5.next, σ6) ∧ RegOk T ar.archetypes.length σ6 ∧
        Over σ5.next T.registry (σ6.stacks (.struct i)) ∧ ∀ l, (∀ j, l ≠ .struct j) → σ6.stacks l = σ.stacks l := by
    intro σ5 h1 h2 h3
    obtain ⟨σ6, e6, _, o6, f6⟩ := struct_mut h1.granted.1
    have o6 := (o6 _ h1).1
    exact ⟨σ6, e6, h2.one f6 o6.granted.2, o6, fun l hl => by rw [f6 l (hl i), h3 l hl]⟩
  have start : visit T gd filter ar i a σ =
      (if a.descriptor.containsSubset gd then
        match filter with
        | none => do
          let (t4, σ) ← σ4.retag σ2.next .mutRef [.struct i]
          return (some t4, σ)
        | some f => do
          let σ ← peek σ4 σ2.next i
          if f a.descriptor then
            let (t4, σ) ← σ.retag σ2.next .mutRef [.struct i]
            return (some t4, σ)
          else return (none, σ)
      else return (none, σ4)) := by
    unfold visit
    rw [e1]
    simp only [Except.bind, bind]
    rw [e2]
    simp only []
    rw [e3]
    simp only []
    rw [e4]
    rfl
  rw [start]
  by_cases hs : a.descriptor.containsSubset gd = true
  · rw [if_pos hs, hs]
    cases filter with
    | none =>
      obtain ⟨σ6, e6, r6, o6, f6⟩ := last σ4 o4 r4 fr4
      refine ⟨some σ4.next, σ6, ?_, rfl, r6, ?_, f6⟩
      · simp only []
        rw [e6]
        rfl
      · intro t ht
        cases ht
        exact o6
    | some f =>
      obtain ⟨σ5, e5, _, o5, f5⟩ := peek_ok o4.granted.1
      have o5 := o5 _ o4
      have r5 := r4.one f5 o5.granted.2
      have fr5 : ∀ l, (∀ j, l ≠ .struct j) → σ5.stacks l = σ.stacks l := fun l hl => by rw [f5 l (hl i), fr4 l hl]
      by_cases hf : f a.descriptor = true
      · obtain ⟨σ6, e6, r6, o6, f6⟩ := last σ5 o5 r5 fr5
        refine ⟨some σ5.next, σ6, ?_, by simp [passes, hf], r6, ?_, f6⟩
        · simp only []
          rw [e5]
          simp only [Except.bind, bind]
          rw [if_pos hf, e6]
          rfl
        · intro t ht
          cases ht
          exact o6
      · refine ⟨none, σ5, ?_, by simp [passes, hf], r5, (fun t ht => by cases ht), fr5⟩
        simp only []
        rw [e5]
        simp only [Except.bind, bind]
        rw [if_neg hf]
        rfl
  · rw [if_neg hs]
    refine ⟨none, σ4, rfl, by simp [hs], r4, (fun t ht => by cases ht), fr4⟩

theorem lift_ok {α : Type} {x : M α} {y : α} (h : x = .ok y) : lift x = .ok y := by rw [h]; rfl

theorem nextInLevel_ok {gd : ArchetypeDescriptor} {f : ArchetypeDescriptor → Bool} {ar : ArchetypeRegistry}
    {visit : Nat → Archetype → State → BM (Option Nat × State)} {P : State → Prop} {Q : State → State → Prop}
    {R : Nat → Nat → State → Prop} (hQ : ∀ σ, Q σ σ) (hQ' : ∀ σ σ' σ'', Q σ σ' → Q σ' σ'' → Q σ σ'')
    (hv : ∀ i a σ, P σ → i < ar.archetypes.length → ∃ o σ', visit i a σ = .ok (o, σ') ∧
      o.isSome = (a.descriptor.containsSubset gd && f a.descriptor) ∧ P σ' ∧ Q σ σ' ∧ ∀ t, o = some t → R i t σ')
    {level : List SortedArchetypeKey} (hk : ∀ k ∈ level, ∃ a, ar.archetypes[k.archetypeIndex.toNat]? = some a) :
    ∀ (n idx : Nat) (σ : State), P σ → ∃ o idx' σ', nextInLevel visit ar level n idx σ = .ok (o, idx', σ') ∧
      ArchIter.nextInLevel gd f ar.archetypes level n idx = .ok (o.map Prod.fst, idx') ∧ P σ' ∧ Q σ σ' ∧
      ∀ i t, o = some (i, t) → R i t σ'
  | 0, idx, σ, h => ⟨none, idx, σ, rfl, rfl, h, hQ σ, fun _ _ h => by cases h⟩
  | n + 1, idx, σ, h => by
    unfold nextInLevel ArchIter.nextInLevel
    by_cases hi : idx < level.length
    · rw [if_pos hi, if_pos hi]
      have h1 : level[idx]? = some level[idx] := List.getElem?_eq_getElem hi
      obtain ⟨a, ha⟩ := hk _ (List.getElem_mem hi)
      have e1 : indexUnchecked level idx = .ok level[idx] := by unfold indexUnchecked; rw [h1]
      have e2 : indexUnchecked ar.archetypes level[idx].archetypeIndex.toNat = .ok a := by unfold indexUnchecked; rw [ha]
      obtain ⟨o, σ1, e3, k1, k2, k4, k3⟩ := hv _ a σ h (List.getElem?_eq_some_iff.mp ha).1
      rw [e1, lift_ok rfl]
      simp only [Except.bind, bind]
      rw [e2, lift_ok rfl]
      simp only []
      rw [e3]
      simp only []
      rw [← k1]
      cases o with
      | some t =>
        refine ⟨some (_, t), idx + 1, σ1, rfl, rfl, k2, k4, ?_⟩
        intro i t' ht
        cases ht
        exact k3 _ rfl
      | none =>
        obtain ⟨o', idx', σ', q1, q2, q3, q5, q4⟩ := nextInLevel_ok hQ hQ' hv hk n (idx + 1) σ1 k2
        exact ⟨o', idx', σ', q1, q2, q3, hQ' _ _ _ k4 q5, q4⟩
    · rw [if_neg hi, if_neg hi]
      exact ⟨none, idx, σ, rfl, rfl, h, hQ σ, fun _ _ h => by cases h⟩

theorem nextLoop_ok {W : World env} {cs : List Content} {ar : ArchetypeRegistry} (har : ARInv W ar cs)
    {gd : ArchetypeDescriptor} {f : ArchetypeDescriptor → Bool}
    {visit : Nat → Archetype → State → BM (Option Nat × State)} {P : State → Prop} {Q : State → State → Prop}
    {R : Nat → Nat → State → Prop} (hQ : ∀ σ, Q σ σ) (hQ' : ∀ σ σ' σ'', Q σ σ' → Q σ' σ'' → Q σ σ'')
    (hv : ∀ i a σ, P σ → i < ar.archetypes.length → ∃ o σ', visit i a σ = .ok (o, σ') ∧
      o.isSome = (a.descriptor.containsSubset gd && f a.descriptor) ∧ P σ' ∧ Q σ σ' ∧ ∀ t, o = some t → R i t σ') :
    ∀ (n : Nat) (it : ArchIter) (σ : State), P σ → ∃ o it' σ', nextLoop visit ar n it σ = .ok (o, it', σ') ∧
      ArchIter.nextLoop gd f ar n it = .ok (o.map Prod.fst, it') ∧ P σ' ∧ Q σ σ' ∧ ∀ i t, o = some (i, t) → R i t σ'
  | 0, it, σ, h => ⟨none, it, σ, rfl, rfl, h, hQ σ, fun _ _ h => by cases h⟩
  | n + 1, it, σ, h => by
    unfold nextLoop ArchIter.nextLoop
    by_cases hi : it.level < MAX_COMPONENTS_PER_ENTITY
    · rw [if_pos hi, if_pos hi]
      have hM : MAX_COMPONENTS_PER_ENTITY = 14 := rfl
      have hlen : it.level < ar.sortedMappings.length := by rw [har.levels]; omega
      have h1 : ar.sortedMappings[it.level]? = some ar.sortedMappings[it.level] := List.getElem?_eq_getElem hlen
      have e1 : indexUnchecked ar.sortedMappings it.level = .ok ar.sortedMappings[it.level] := by unfold indexUnchecked; rw [h1]
      obtain ⟨o, idx', σ1, e2, k1, k2, k4, k3⟩ := nextInLevel_ok hQ hQ' hv (har.keys_exist h1)
        (ar.sortedMappings[it.level].length - it.idx) it.idx σ h
      rw [e1, lift_ok rfl]
      simp only [Except.bind, bind]
      rw [e2, k1]
      simp only []
      cases o with
      | some x => exact ⟨some x, _, σ1, rfl, rfl, k2, k4, k3⟩
      | none =>
        obtain ⟨o', it', σ', q1, q2, q3, q5, q4⟩ := nextLoop_ok har hQ hQ' hv n ⟨it.level + 1, 0⟩ σ1 k2
        exact ⟨o', it', σ', q1, q2, q3, hQ' _ _ _ k4 q5, q4⟩
    · rw [if_neg hi, if_neg hi]
      exact ⟨none, it, σ, rfl, rfl, h, hQ σ, fun _ _ h => by cases h⟩

theorem archNext_ok {W : World env} {cs : List Content} {ar : ArchetypeRegistry} (har : ARInv W ar cs) {g : Group}
    {filter : Option (ArchetypeDescriptor → Bool)} (it : ArchIter) {σ : State} (h : RegOk T ar.archetypes.length σ) :
    ∃ o it' σ', archNext env T g filter ar it σ = .ok (o, it', σ') ∧
      ArchIter.next env g (passes filter) ar it = .ok (o.map Prod.fst, it') ∧ RegOk T ar.archetypes.length σ' ∧
      (∀ i t, o = some (i, t) → Over t T.registry (σ'.stacks (.struct i))) ∧
      ∀ l, (∀ j, l ≠ .struct j) → σ'.stacks l = σ.stacks l := by
  unfold archNext ArchIter.next
  split
  · exact ⟨none, it, σ, rfl, rfl, h, (fun _ _ h => by cases h), fun _ _ => rfl⟩
  · obtain ⟨o, it', σ', q1, q2, q3, q4, q5⟩ := nextLoop_ok har (gd := (g.descriptor env).archetype) (f := passes filter)
      (P := RegOk T ar.archetypes.length) (Q := fun σ σ' => ∀ l, (∀ j, l ≠ .struct j) → σ'.stacks l = σ.stacks l)
      (R := fun i t σ => Over t T.registry (σ.stacks (.struct i)))
      (visit := visit T (g.descriptor env).archetype filter ar)
      (fun _ _ _ => rfl) (fun _ _ _ h1 h2 l hl => by rw [h2 l hl, h1 l hl])
      (fun i a σ h hi => by
        obtain ⟨o, σ', e, k1, k2, k3, k4⟩ := visit_ok (gd := (g.descriptor env).archetype) (filter := filter) (a := a) h hi
        exact ⟨o, σ', e, k1, k2, k4, k3⟩)
      (MAX_COMPONENTS_PER_ENTITY - it.level) it σ h
    exact ⟨o, it', σ', q1, q2, q3, q5, q4⟩

/-! ## The slices -/

theorem mem_bytesAt {i : Nat} {s : SliceRef} {k n : Nat} {l : Loc} (h : l ∈ bytesAt i s k n) : ∃ o, l = .byte i s.base.col o := by
  obtain ⟨b, _, rfl⟩ := List.mem_map.mp h
  exact ⟨_, rfl⟩

theorem bytesAt_sub {i : Nat} {s : SliceRef} {k : Nat} (hk : k < s.len) {l : Loc} (h : l ∈ bytesAt i s k 1) :
    l ∈ bytesAt i s 0 s.len := by
  obtain ⟨b, hb, rfl⟩ := List.mem_map.mp h
  rw [List.mem_range] at hb
  refine List.mem_map.mpr ⟨s.cty.size * k + b, List.mem_range.mpr ?_, ?_⟩
  · have h1 : s.cty.size * (k + 1) ≤ s.cty.size * s.len := Nat.mul_le_mul_left _ hk
    rw [Nat.mul_add] at h1
    omega
  · rw [Nat.mul_zero, Nat.add_zero, Nat.add_assoc]

/-- The slice's `&mut` is the last reference made to each of its bytes. -/
def OnTop (T : Tags) (σ : State) (i : Nat) (x : SliceRef × Nat) : Prop :=
  ∀ l ∈ bytesAt i x.1 0 x.1.len, ∃ rest, σ.stacks l = ⟨x.2, .unique⟩ :: rest ∧ Granted true (T.col i x.1.base.col) rest

/-- The allocator's pointers to the columns may be used. -/
def ColsOk (T : Tags) (σ : State) : Prop := ∀ i c o, Granted true (T.col i c) (σ.stacks (.byte i c o))

theorem slicesMut_ok {i : Nat} : ∀ (ss : List SliceRef) (σ : State), (ss.map (fun s => s.base.col)).Nodup →
    ColsOk T σ →
    ∃ xs σ', slicesMut T i ss σ = .ok (xs, σ') ∧ xs.map Prod.fst = ss ∧ (∀ x ∈ xs, OnTop T σ' i x) ∧ ColsOk T σ' ∧
      ∀ l, (∀ c o, c ∈ ss.map (fun s => s.base.col) → l ≠ .byte i c o) → σ'.stacks l = σ.stacks l
  | [], σ, _, h => ⟨[], σ, rfl, rfl, (fun _ h => by cases h), h, fun _ _ => rfl⟩
  | s :: ss, σ, hnd, hok => by
    rw [List.map_cons, List.nodup_cons] at hnd
    obtain ⟨σ1, e1, o1, f1⟩ := retag_ok (σ := σ) (t := T.col i s.base.col) (k := .mutRef) (ls := bytesAt i s 0 s.len)
      (fun _ st => ∃ rest, st = ⟨σ.next, .unique⟩ :: rest ∧ Granted true (T.col i s.base.col) rest) (fun l hl => by
        obtain ⟨o, rfl⟩ := mem_bytesAt hl
        obtain ⟨s1, h1, h2, _⟩ := reborrow_mut σ.next (hok i s.base.col o)
        exact ⟨_, h1, s1, rfl, h2⟩)
    have hother : ∀ l, (∀ o, l ≠ .byte i s.base.col o) → σ1.stacks l = σ.stacks l := by
      intro l hl
      apply f1
      intro hm
      obtain ⟨o, rfl⟩ := mem_bytesAt hm
      exact hl o rfl
    have hok1 : ColsOk T σ1 := by
      intro i' c o
      by_cases hm : Loc.byte i' c o ∈ bytesAt i s 0 s.len
      · obtain ⟨o', he⟩ := mem_bytesAt hm
        obtain ⟨rest, h1, y, hy, hg⟩ := o1 _ hm
        injection he with he1 he2 _
        rw [h1, he1, he2]
        exact ⟨y, List.mem_cons_of_mem _ hy, hg⟩
      · rw [f1 _ hm]
        exact hok i' c o
    obtain ⟨xs, σ2, e2, h1, h2, h4, h3⟩ := slicesMut_ok (i := i) ss σ1 hnd.2 hok1
    refine ⟨(s, σ.next) :: xs, σ2, ?_, ?_, ?_, h4, ?_⟩
    · unfold slicesMut
      rw [e1]
      simp only [Except.bind, bind]
      rw [e2]
      rfl
    · rw [List.map_cons, h1]
    · intro x hx
      rcases List.mem_cons.mp hx with rfl | hx
      · intro l hl
        rw [h3]
        · exact o1 l hl
        · intro c o hc he
          obtain ⟨o', rfl⟩ := mem_bytesAt hl
          cases he
          exact hnd.1 hc
      · exact h2 x hx
    · intro l hl
      rw [h3 l (fun c o hc => hl c o (List.mem_cons_of_mem _ hc)), hother l (fun o => hl _ o List.mem_cons_self)]

/-- The allocator's pointers to the entity columns may be used. -/
def EntsOk (T : Tags) (σ : State) : Prop := ∀ i k, Granted true (T.ent i) (σ.stacks (.entity i k))

/-- The `&` to the entity slice may be used. -/
def EntHeld (T : Tags) (σ : State) (i : Nat) (x : Nat × Nat) : Prop := ∀ k, k < x.1 → Above (T.ent i) x.2 (σ.stacks (.entity i k))

theorem entitiesRef_ok {σ : State} {i t : Nat} {a : Archetype} (h : Granted true t (σ.stacks (.struct i))) (he : EntsOk T σ) :
    ∃ tag σ', entitiesRef T i a t σ = .ok ((a.entityCount, tag), σ') ∧ Granted true t (σ'.stacks (.struct i)) ∧
      (∀ u, Over t u (σ.stacks (.struct i)) → Over t u (σ'.stacks (.struct i))) ∧ EntHeld T σ' i (a.entityCount, tag) ∧
      EntsOk T σ' ∧ ∀ l, l ≠ .struct i → (∀ k, l ≠ .entity i k) → σ'.stacks l = σ.stacks l := by
  obtain ⟨σ1, e1, h1, h2, h3⟩ := peek_ok h
  obtain ⟨σ2, e2, k1, k2⟩ := retag_ok (σ := σ1) (t := T.ent i) (k := .ref) (ls := (List.range a.entityCount).map (.entity i))
    (fun _ st => Above (T.ent i) σ1.next st) (fun l hl => by
      obtain ⟨k, _, rfl⟩ := List.mem_map.mp hl
      rw [h3 _ (by intro h; cases h)]
      obtain ⟨s1, q1, q2, _⟩ := read_base (he i k)
      exact ⟨_, by simp only [reborrow]; rw [q1]; rfl, Above.push _ q2⟩)
  have hn : ∀ l, (∀ k, l ≠ .entity i k) → l ∉ (List.range a.entityCount).map (Loc.entity i) := by
    intro l hl hm
    obtain ⟨k, _, rfl⟩ := List.mem_map.mp hm
    exact hl k rfl
  refine ⟨σ1.next, σ2, ?_, ?_, ?_, ?_, ?_, ?_⟩
  · unfold entitiesRef
    rw [e1]
    simp only [Except.bind, bind]
    rw [e2]
    rfl
  · rw [k2 _ (hn _ (fun k h => by cases h))]
    exact h1
  · intro u hu
    rw [k2 _ (hn _ (fun k h => by cases h))]
    exact h2 u hu
  · intro k hk
    exact k1 _ (List.mem_map.mpr ⟨k, List.mem_range.mpr hk, rfl⟩)
  · intro j k
    by_cases hm : Loc.entity j k ∈ (List.range a.entityCount).map (Loc.entity i)
    · obtain ⟨k', _, hk'⟩ := List.mem_map.mp hm
      injection hk' with hk'
      rw [← hk']
      exact (k1 _ (hk' ▸ hm)).granted
    · rw [k2 _ hm, h3 _ (by intro h; cases h)]
      exact he j k
  · intro l h4 h5
    rw [k2 l (hn l h5), h3 l h4]

/-! ## What is held stays usable -/

/-- Everything held may be used. -/
def HeldOk (T : Tags) (held : List Held) (σ : State) : Prop :=
  ∀ h ∈ held, (∀ x ∈ h.slices, OnTop T σ h.arch x) ∧ ∀ x, h.ents = some x → EntHeld T σ h.arch x

theorem access_top {w : Bool} {t : Nat} {s : Stack} : access w t (⟨t, .unique⟩ :: s) = some (⟨t, .unique⟩ :: s) := by
  unfold access
  rw [split_here (unique_grants w t)]
  cases w <;> rfl

/-- Using something held changes nothing, except in the stacks of entity columns. -/
theorem use_ok {held : List Held} {σ : State} (h : HeldOk T held σ) (hE : EntsOk T σ) (u : Use) :
    ∃ σ', u.run held σ = .ok σ' ∧ HeldOk T held σ' ∧ EntsOk T σ' ∧
      (∀ l, (∀ i k, l ≠ .entity i k) → σ'.stacks l = σ.stacks l) := by
  have triv : ∃ σ', (Except.ok σ : BM State) = .ok σ' ∧ HeldOk T held σ' ∧ EntsOk T σ' ∧
      (∀ l, (∀ i k, l ≠ .entity i k) → σ'.stacks l = σ.stacks l) := ⟨σ, rfl, h, hE, fun _ _ => rfl⟩
  cases u with
  | elem n j k w =>
    simp only [Use.run]
    cases hn : held[n]? with
    | none => exact triv
    | some y =>
      simp only []
      cases hj : y.slices[j]? with
      | none => exact triv
      | some x =>
        obtain ⟨s, t⟩ := x
        simp only []
        by_cases hk : k < s.len
        · rw [if_pos hk]
          have htop := (h y (List.mem_of_getElem? hn)).1 _ (List.mem_of_getElem? hj)
          obtain ⟨σ1, e1, _, o1, f1⟩ := access_ok (σ := σ) (w := w) (t := t) (ls := bytesAt y.arch s k 1)
            (fun l st => st = σ.stacks l) (fun l hl => by
              obtain ⟨rest, hr, _⟩ := htop l (bytesAt_sub hk hl)
              exact ⟨_, by rw [hr, access_top], hr.symm⟩)
          have hsame : ∀ l, σ1.stacks l = σ.stacks l := by
            intro l
            by_cases hl : l ∈ bytesAt y.arch s k 1
            · exact o1 l hl
            · exact f1 l hl
          refine ⟨σ1, e1, ?_, fun i k => by rw [hsame]; exact hE i k, fun l _ => hsame l⟩
          intro z hz
          obtain ⟨q1, q2⟩ := h z hz
          refine ⟨fun x hx l hl => ?_, fun x hx k hk => ?_⟩
          · rw [hsame]; exact q1 x hx l hl
          · rw [hsame]; exact q2 x hx k hk
        · rw [if_neg hk]
          exact triv
  | entity n k =>
    simp only [Use.run]
    cases hn : held[n]? with
    | none => exact triv
    | some y =>
      simp only []
      cases he : y.ents with
      | none => exact triv
      | some x =>
        obtain ⟨len, t⟩ := x
        simp only []
        by_cases hk : k < len
        · rw [if_pos hk]
          have hy := List.mem_of_getElem? hn
          obtain ⟨s1, q1, q2, q3⟩ := read_ref ((h y hy).2 _ he k hk)
          obtain ⟨σ1, e1, _, o1, f1⟩ := access_ok (σ := σ) (w := false) (t := t) (ls := [.entity y.arch k])
            (fun _ st => st = s1) (fun l hl => by rw [List.mem_singleton.mp hl]; exact ⟨_, q1, rfl⟩)
          have o1 := o1 _ List.mem_cons_self
          refine ⟨σ1, e1, ?_, ?_, fun l hl => f1 l (notMem_one (hl _ k))⟩
          · intro z hz
            obtain ⟨p1, p2⟩ := h z hz
            refine ⟨fun x hx l hl => ?_, fun x hx k' hk' => ?_⟩
            · rw [f1 l (by
                obtain ⟨o, rfl⟩ := mem_bytesAt hl
                exact notMem_one (by intro h; cases h))]
              exact p1 x hx l hl
            · by_cases hl : Loc.entity z.arch k' = .entity y.arch k
              · rw [hl, o1]
                have := p2 x hx k' hk'
                rw [hl] at this
                injection hl with hl1 _
                rw [hl1] at this ⊢
                exact q3 _ this
              · rw [f1 _ (notMem_one hl)]
                exact p2 x hx k' hk'
          · intro i' k'
            by_cases hl : Loc.entity i' k' = .entity y.arch k
            · rw [hl, o1]
              injection hl with hl1 _
              rw [hl1]
              exact q2
            · rw [f1 _ (notMem_one hl)]
              exact hE i' k'
        · rw [if_neg hk]
          exact triv

theorem runUses_ok {held : List Held} : ∀ (us : List Use) {σ : State}, HeldOk T held σ → EntsOk T σ →
    ∃ σ', runUses held us σ = .ok σ' ∧ HeldOk T held σ' ∧ EntsOk T σ' ∧
      (∀ l, (∀ i k, l ≠ .entity i k) → σ'.stacks l = σ.stacks l)
  | [], σ, h, hE => ⟨σ, rfl, h, hE, fun _ _ => rfl⟩
  | u :: us, σ, h, hE => by
    obtain ⟨σ1, e1, h1, hE1, f1⟩ := use_ok h hE u
    obtain ⟨σ2, e2, h2, hE2, f2⟩ := runUses_ok us h1 hE1
    refine ⟨σ2, ?_, h2, hE2, fun l hl => by rw [f2 l hl, f1 l hl]⟩
    unfold runUses
    rw [e1]
    exact e2

end Shard.Borrow
