import Verif.Proofs.Towers
/-!
# Stacked Borrows: the calls that change the registry
-/

set_option autoImplicit false

namespace Shard.Borrow

/-- Which references to archetypes may be used. -/
abbrev Refs := Nat → List (Bool × Nat)

/-- These references to archetypes, and the pointers to the columns. -/
def towers (T : Tags) (S : Refs) : Towers
  | .struct i => S i
  | .byte i c _ => [(true, T.col i c)]
  | .entity i _ => [(true, T.ent i)]

/-- They may all be used. -/
def Good (S : Refs) (T : Tags) (σ : State) : Prop := Holds (towers T S) σ

/-- A new reference to some archetypes. -/
def Refs.push (S : Refs) (I : List Nat) (x : Bool × Nat) : Refs := fun i => if i ∈ I then x :: S i else S i

/-- The first reference to the archetype. -/
def Refs.Top (S : Refs) (w : Bool) (t i : Nat) : Prop := ∃ w' xs, S i = (w', t) :: xs ∧ (w = true → w' = true)

theorem Refs.Top.read {S : Refs} {w : Bool} {t i : Nat} (h : S.Top w t i) : S.Top false t i := by
  obtain ⟨w', xs, h1, _⟩ := h
  exact ⟨w', xs, h1, fun h => by cases h⟩

theorem Refs.top_push {S : Refs} {I : List Nat} {w : Bool} {t i : Nat} (h : i ∈ I) : (S.push I (w, t)).Top w t i :=
  ⟨w, S i, by unfold Refs.push; rw [if_pos h], fun h => h⟩

theorem Refs.top_one {S : Refs} {w : Bool} {t i : Nat} : (S.push [i] (w, t)).Top w t i := Refs.top_push (List.mem_singleton.mpr rfl)

theorem Refs.Top.push {S : Refs} {I : List Nat} {x : Bool × Nat} {w : Bool} {t i : Nat} (h : S.Top w t i) (hi : i ∉ I) :
    (S.push I x).Top w t i := by
  obtain ⟨w', xs, h1, h2⟩ := h
  exact ⟨w', xs, by unfold Refs.push; rw [if_neg hi, h1], h2⟩

theorem towers_push (T : Tags) (S : Refs) (I : List Nat) (x : Bool × Nat) :
    (towers T S).push (I.map .struct) x = towers T (S.push I x) := by
  funext l
  unfold Towers.push
  cases l with
  | struct i =>
    simp only [towers, Refs.push, List.mem_map, Loc.struct.injEq, exists_eq_right]
  | byte i c o =>
    rw [if_neg (by simp)]
    rfl
  | entity i k =>
    rw [if_neg (by simp)]
    rfl

theorem top_struct {T : Tags} {S : Refs} {w : Bool} {t : Nat} {I : List Nat} (h : ∀ i ∈ I, S.Top w t i) :
    ∀ l ∈ I.map Loc.struct, (towers T S).Top w t l := by
  intro l hl
  obtain ⟨i, hi, rfl⟩ := List.mem_map.mp hl
  exact h i hi

section
variable {S : Refs} {T : Tags} {σ : State}

theorem Good.weaken {S' : Refs} (h : Good S T σ) (hw : ∀ i, ∃ a, S i = a ++ S' i) : Good S' T σ := by
  refine Holds.weaken h fun l => ?_
  cases l with
  | struct i => exact hw i
  | byte i c o => exact ⟨[], rfl⟩
  | entity i k => exact ⟨[], rfl⟩

theorem Good.pop {I : List Nat} {x : Bool × Nat} (h : Good (S.push I x) T σ) : Good S T σ := by
  refine h.weaken fun i => ?_
  unfold Refs.push
  by_cases hi : i ∈ I
  · exact ⟨[x], by rw [if_pos hi]; rfl⟩
  · exact ⟨[], by rw [if_neg hi]; rfl⟩

theorem Good.access {w : Bool} {t : Nat} (h : Good S T σ) (I : List Nat) (ht : ∀ i ∈ I, S.Top w t i) :
    ∃ σ', σ.access w t (I.map .struct) = .ok σ' ∧ Good S T σ' := Holds.access h (top_struct ht)

theorem Good.access1 {w : Bool} {t i : Nat} (h : Good S T σ) (ht : S.Top w t i) :
    ∃ σ', σ.access w t [.struct i] = .ok σ' ∧ Good S T σ' :=
  h.access [i] (fun j hj => by rw [List.mem_singleton.mp hj]; exact ht)

theorem Good.retag {k : Kind} {t : Nat} (h : Good S T σ) (I : List Nat) (ht : ∀ i ∈ I, S.Top k.writes t i) :
    ∃ u σ', σ.retag t k (I.map .struct) = .ok (u, σ') ∧ Good (S.push I (k.writes, u)) T σ' := by
  obtain ⟨u, σ', e, h1⟩ := Holds.retag h (top_struct ht)
  rw [towers_push] at h1
  exact ⟨u, σ', e, h1⟩

theorem Good.retag1 {k : Kind} {t i : Nat} (h : Good S T σ) (ht : S.Top k.writes t i) :
    ∃ u σ', σ.retag t k [.struct i] = .ok (u, σ') ∧ Good (S.push [i] (k.writes, u)) T σ' :=
  h.retag [i] (fun j hj => by rw [List.mem_singleton.mp hj]; exact ht)

theorem Good.peek {t i : Nat} (h : Good S T σ) (ht : S.Top false t i) : ∃ σ', peek σ t i = .ok σ' ∧ Good S T σ' :=
  Holds.peek h ht

theorem Good.poke {t i : Nat} (h : Good S T σ) (ht : S.Top true t i) : ∃ σ', poke σ t i = .ok σ' ∧ Good S T σ' := by
  obtain ⟨u, σ1, e1, h1⟩ := h.retag1 (k := .mutRef) ht
  obtain ⟨σ2, e2, h2⟩ := h1.access1 (w := true) Refs.top_one
  refine ⟨σ2, ?_, h2.pop⟩
  unfold Borrow.poke
  rw [e1]
  exact e2

theorem top_rows {i c size k n : Nat} : ∀ l ∈ rows i c size k n, (towers T S).Top true (T.col i c) l := by
  intro l hl
  obtain ⟨b, _, rfl⟩ := List.mem_map.mp hl
  exact ⟨true, [], rfl, fun h => h⟩

theorem top_ents {i n : Nat} : ∀ l ∈ ents i n, (towers T S).Top true (T.ent i) l := by
  intro l hl
  obtain ⟨b, _, rfl⟩ := List.mem_map.mp hl
  exact ⟨true, [], rfl, fun h => h⟩

theorem Good.col {w : Bool} {i c size k n : Nat} (h : Good S T σ) :
    ∃ σ', σ.access w (T.col i c) (rows i c size k n) = .ok σ' ∧ Good S T σ' :=
  Holds.access h (fun l hl => by
    cases w with
    | true => exact top_rows l hl
    | false => exact (top_rows l hl).read)

theorem Good.ent {w : Bool} {i n : Nat} (h : Good S T σ) :
    ∃ σ', σ.access w (T.ent i) (ents i n) = .ok σ' ∧ Good S T σ' :=
  Holds.access h (fun l hl => by
    cases w with
    | true => exact top_ents l hl
    | false => exact (top_ents l hl).read)

theorem Good.dropRows {i c size k n : Nat} (h : Good S T σ) : ∃ σ', dropRows T i c size k n σ = .ok σ' ∧ Good S T σ' := by
  obtain ⟨u, σ1, e1, h1⟩ := Holds.retag h (k := .mutRef) (t := T.col i c) (ls := rows i c size k n) top_rows
  obtain ⟨σ2, e2, h2⟩ := h1.access (w := false) (t := u) (ls := rows i c size k n) (fun l hl => (Towers.top_push hl).read)
  obtain ⟨σ3, e3, h3⟩ := h2.access (w := true) (t := u) (ls := rows i c size k n) (fun l hl => Towers.top_push hl)
  refine ⟨σ3, ?_, h3.pop⟩
  unfold Borrow.dropRows
  rw [e1]
  simp only [Except.bind, bind]
  rw [e2]
  exact e3

theorem Good.readEnts {t i count : Nat} {ls : List Loc} (h : Good S T σ) (ht : S.Top false t i) (hls : ∀ l ∈ ls, l ∈ ents i count) :
    ∃ σ', readEnts T i count t ls σ = .ok σ' ∧ Good S T σ' := by
  obtain ⟨σ1, e1, h1⟩ := h.peek ht
  obtain ⟨u, σ2, e2, h2⟩ := Holds.retag h1 (k := .ref) (t := T.ent i) (ls := ents i count) (fun l hl => (top_ents l hl).read)
  obtain ⟨σ3, e3, h3⟩ := h2.access (w := false) (t := u) (ls := ls) (fun l hl => Towers.top_push (hls l hl))
  refine ⟨σ3, ?_, h3.pop⟩
  unfold Borrow.readEnts
  rw [e1]
  simp only [Except.bind, bind]
  rw [e2]
  exact e3

theorem Good.writeEnts {t i count : Nat} {ls : List Loc} (h : Good S T σ) (ht : S.Top true t i) (hls : ∀ l ∈ ls, l ∈ ents i count) :
    ∃ σ', writeEnts T i count t ls σ = .ok σ' ∧ Good S T σ' := by
  obtain ⟨u0, σ0, e0, h0⟩ := h.retag1 (k := .mutRef) ht
  obtain ⟨σ1, e1, h1⟩ := h0.peek (Refs.top_one (w := true)).read
  obtain ⟨u, σ2, e2, h2⟩ := Holds.retag h1.pop (k := .mutRef) (t := T.ent i) (ls := ents i count) top_ents
  obtain ⟨σ3, e3, h3⟩ := h2.access (w := true) (t := u) (ls := ls) (fun l hl => Towers.top_push (hls l hl))
  refine ⟨σ3, ?_, h3.pop⟩
  unfold Borrow.writeEnts
  rw [e0]
  simp only [Except.bind, bind]
  rw [e1]
  simp only []
  rw [e2]
  exact e3

theorem Good.allocCol (h : Good S T σ) (i c : Nat) :
    Good S (T.setCol i c (σ.alloc (Loc.inCol i c)).1) (σ.alloc (Loc.inCol i c)).2 := by
  have := Holds.alloc h (Loc.inCol i c)
  unfold Good
  rw [show towers (T.setCol i c (σ.alloc (Loc.inCol i c)).1) S = _ from funext fun l => ?_]
  · exact this
  · cases l with
    | struct j => rfl
    | entity j k => rfl
    | byte j d o =>
      simp only [towers, Tags.setCol, Loc.inCol, Bool.and_eq_true, beq_iff_eq]
      split <;> rfl

theorem Good.allocEnt (h : Good S T σ) (i : Nat) :
    Good S (T.setEnt i (σ.alloc (Loc.inEnts i)).1) (σ.alloc (Loc.inEnts i)).2 := by
  have := Holds.alloc h (Loc.inEnts i)
  unfold Good
  rw [show towers (T.setEnt i (σ.alloc (Loc.inEnts i)).1) S = _ from funext fun l => ?_]
  · exact this
  · cases l with
    | struct j => rfl
    | entity j k =>
      simp only [towers, Tags.setEnt, Loc.inEnts, beq_iff_eq]
      split <;> rfl
    | byte j d o => rfl

end

theorem forCols_ok {α : Type} {f : Nat → ComponentDescriptor → α → BM α} {P : α → Prop}
    (h : ∀ c d x, P x → ∃ x', f c d x = .ok x' ∧ P x') : ∀ (ds : List ComponentDescriptor) (c : Nat) (x : α), P x →
    ∃ x', forCols f c ds x = .ok x' ∧ P x'
  | [], _, x, hx => ⟨x, rfl, hx⟩
  | d :: ds, c, x, hx => by
    obtain ⟨x1, e1, h1⟩ := h c d x hx
    obtain ⟨x2, e2, h2⟩ := forCols_ok h ds (c + 1) x1 h1
    refine ⟨x2, ?_, h2⟩
    unfold forCols
    rw [e1]
    exact e2

section
variable {S : Refs} {T : Tags} {σ : State} {t i : Nat}

theorem Good.resize {a : Archetype} (h : Good S T σ) (ht : S.Top true t i) :
    ∃ T' σ', resize T i a t σ = .ok (T', σ') ∧ Good S T' σ' ∧ T'.registry = T.registry := by
  obtain ⟨u, σ1, e1, h1⟩ := h.retag1 (k := .mutRef) ht
  obtain ⟨σ2, e2, h2⟩ := h1.peek (Refs.top_one (w := true)).read
  obtain ⟨σ3, e3, h3⟩ := h2.ent (w := true) (i := i) (n := a.capacity)
  have h4 := h3.allocEnt i
  obtain ⟨σ5, e5, h5⟩ := h4.access1 (w := true) (t := u) (i := i) Refs.top_one
  obtain ⟨⟨T6, σ6⟩, e6, h6, hr⟩ := forCols_ok (f := reallocCol i a.capacity u)
    (P := fun x => Good (S.push [i] (true, u)) x.1 x.2 ∧ x.1.registry = T.registry) (fun c d x ⟨hx, hr⟩ => by
      obtain ⟨τ1, q1, k1⟩ := hx.access1 (w := false) (t := u) (i := i) (Refs.top_one (w := true)).read
      obtain ⟨τ2, q2, k2⟩ := k1.col (w := true) (i := i) (c := c) (size := d.size) (k := 0) (n := a.capacity)
      have k3 := k2.allocCol i c
      obtain ⟨τ4, q4, k4⟩ := k3.access1 (w := true) (t := u) (i := i) Refs.top_one
      refine ⟨(x.1.setCol i c (τ2.alloc (Loc.inCol i c)).1, τ4), ?_, k4, hr⟩
      unfold reallocCol
      rw [q1]
      simp only [Except.bind, bind]
      rw [q2]
      simp only []
      rw [q4]
      rfl) a.descriptor.components 0 (T.setEnt i (σ3.alloc (Loc.inEnts i)).1, σ5) ⟨h5, rfl⟩
  obtain ⟨σ7, e7, h7⟩ := h6.access1 (w := true) (t := u) (i := i) Refs.top_one
  refine ⟨T6, σ7, ?_, h7.pop, hr⟩
  unfold Borrow.resize
  rw [e1]
  simp only [Except.bind, bind]
  rw [e2]
  simp only []
  rw [e3]
  simp only []
  rw [e5]
  simp only []
  rw [e6]
  simp only []
  rw [e7]
  rfl

theorem Good.resizeIfNecessary {a : Archetype} (h : Good S T σ) (ht : S.Top true t i) :
    ∃ T' σ', resizeIfNecessary T i a t σ = .ok (T', σ') ∧ Good S T' σ' ∧ T'.registry = T.registry := by
  obtain ⟨u, σ1, e1, h1⟩ := h.retag1 (k := .mutRef) ht
  obtain ⟨σ2, e2, h2⟩ := h1.peek (Refs.top_one (w := true)).read
  unfold Borrow.resizeIfNecessary
  rw [e1]
  simp only [Except.bind, bind]
  rw [e2]
  simp only []
  split
  · obtain ⟨T', σ', e, h3, h4⟩ := h2.resize (a := a) Refs.top_one
    exact ⟨T', σ', e, h3.pop, h4⟩
  · exact ⟨T, σ2, rfl, h2.pop, rfl⟩

theorem mem_ents {i k n : Nat} (h : k < n) : Loc.entity i k ∈ ents i n := List.mem_map.mpr ⟨k, List.mem_range.mpr h, rfl⟩

theorem Good.writeEntity {d : ArchetypeDescriptor} {count idx : Nat} (h : Good S T σ) (ht : S.Top true t i) (hi : idx < count) :
    ∃ σ', writeEntity T i d count idx t σ = .ok σ' ∧ Good S T σ' := by
  obtain ⟨u, σ1, e1, h1⟩ := h.retag1 (k := .mutRef) ht
  obtain ⟨σ2, e2, h2⟩ := h1.peek (Refs.top_one (w := true)).read
  obtain ⟨σ3, e3, h3⟩ := forCols_ok (f := fun c d σ => do
      let σ ← State.access σ false u [.struct i]
      σ.access true (T.col i c) (rows i c d.size idx 1))
    (P := Good (S.push [i] (true, u)) T) (fun c d τ hτ => by
      obtain ⟨τ1, q1, k1⟩ := hτ.access1 (w := false) (t := u) (i := i) (Refs.top_one (w := true)).read
      obtain ⟨τ2, q2, k2⟩ := k1.col (w := true) (i := i) (c := c) (size := d.size) (k := idx) (n := 1)
      refine ⟨τ2, ?_, k2⟩
      rw [q1]
      exact q2) d.components 0 _ h2
  obtain ⟨σ4, e4, h4⟩ := h3.writeEnts (t := u) (i := i) (count := count) (ls := [.entity i idx]) Refs.top_one
    (fun l hl => by rw [List.mem_singleton.mp hl]; exact mem_ents hi)
  refine ⟨σ4, ?_, h4.pop⟩
  unfold Borrow.writeEntity
  rw [e1]
  simp only [Except.bind, bind]
  rw [e2]
  simp only [Except.bind, bind] at e3 ⊢
  rw [e3]
  exact e4

theorem Good.pushUninitialized {a : Archetype} (h : Good S T σ) (ht : S.Top true t i) :
    ∃ T' σ', pushUninitialized T i a t σ = .ok (T', σ') ∧ Good S T' σ' ∧ T'.registry = T.registry := by
  obtain ⟨u, σ1, e1, h1⟩ := h.retag1 (k := .mutRef) ht
  obtain ⟨T2, σ2, e2, h2, hr⟩ := h1.resizeIfNecessary (a := a) Refs.top_one
  obtain ⟨σ3, e3, h3⟩ := h2.peek (t := u) (i := i) (Refs.top_one (w := true)).read
  obtain ⟨σ4, e4, h4⟩ := h3.access1 (w := true) (t := u) (i := i) Refs.top_one
  refine ⟨T2, σ4, ?_, h4.pop, hr⟩
  unfold Borrow.pushUninitialized
  rw [e1]
  simp only [Except.bind, bind]
  rw [e2]
  simp only []
  rw [e3]
  simp only []
  rw [e4]
  rfl

theorem Good.pushEntity {a : Archetype} (h : Good S T σ) (ht : S.Top true t i) :
    ∃ T' σ', pushEntity T i a t σ = .ok (T', σ') ∧ Good S T' σ' ∧ T'.registry = T.registry := by
  obtain ⟨u, σ1, e1, h1⟩ := h.retag1 (k := .mutRef) ht
  obtain ⟨σ0, e0, h0⟩ := h1.access1 (w := false) (t := u) (i := i) (Refs.top_one (w := true)).read
  obtain ⟨T2, σ2, e2, h2, hr⟩ := h0.resizeIfNecessary (a := a) Refs.top_one
  obtain ⟨σ3, e3, h3⟩ := h2.peek (t := u) (i := i) (Refs.top_one (w := true)).read
  obtain ⟨σ4, e4, h4⟩ := h3.access1 (w := true) (t := u) (i := i) Refs.top_one
  obtain ⟨σ5, e5, h5⟩ := h4.writeEntity (d := a.descriptor) (count := a.entityCount + 1) (idx := a.entityCount)
    Refs.top_one (Nat.lt_succ_self _)
  refine ⟨T2, σ5, ?_, h5.pop, hr⟩
  unfold Borrow.pushEntity
  rw [e1]
  simp only [Except.bind, bind]
  rw [e0]
  simp only []
  rw [e2]
  simp only []
  rw [e3]
  simp only []
  rw [e4]
  simp only []
  rw [e5]
  rfl

theorem Good.swapEntities {a : Archetype} {first second : Nat} (h : Good S T σ) (ht : S.Top true t i)
    (h1 : first < a.entityCount) (h2 : second < a.entityCount) :
    ∃ σ', swapEntities T i a first second t σ = .ok σ' ∧ Good S T σ' := by
  obtain ⟨u, σ1, e1, k1⟩ := h.retag1 (k := .mutRef) ht
  obtain ⟨σ3, e3, h3⟩ := forCols_ok (f := fun c d σ => do
      let σ ← State.access σ false u [.struct i]
      let σ ← σ.access true (T.col i c) (rows i c d.size first 1)
      σ.access true (T.col i c) (rows i c d.size second 1))
    (P := Good (S.push [i] (true, u)) T) (fun c d τ hτ => by
      obtain ⟨τ1, q1, k1⟩ := hτ.access1 (w := false) (t := u) (i := i) (Refs.top_one (w := true)).read
      obtain ⟨τ2, q2, k2⟩ := k1.col (w := true) (i := i) (c := c) (size := d.size) (k := first) (n := 1)
      obtain ⟨τ3, q3, k3⟩ := k2.col (w := true) (i := i) (c := c) (size := d.size) (k := second) (n := 1)
      refine ⟨τ3, ?_, k3⟩
      rw [q1]
      simp only [Except.bind, bind]
      rw [q2]
      exact q3) a.descriptor.components 0 _ k1
  obtain ⟨σ4, e4, h4⟩ := h3.writeEnts (t := u) (i := i) (count := a.entityCount) (ls := [.entity i first, .entity i second])
    Refs.top_one (fun l hl => by
      simp only [List.mem_cons, List.not_mem_nil, or_false] at hl
      rcases hl with rfl | rfl
      · exact mem_ents h1
      · exact mem_ents h2)
  refine ⟨σ4, ?_, h4.pop⟩
  unfold Borrow.swapEntities
  rw [e1]
  simp only [Except.bind, bind] at e3 ⊢
  rw [e3]
  exact e4

theorem Good.dropEntities {d : ArchetypeDescriptor} {k n : Nat} (h : Good S T σ) (ht : S.Top true t i) :
    ∃ σ', dropEntities T i d k n t σ = .ok σ' ∧ Good S T σ' := by
  obtain ⟨u, σ1, e1, k1⟩ := h.retag1 (k := .mutRef) ht
  obtain ⟨σ3, e3, h3⟩ := forCols_ok (f := fun c d σ => do
      let σ ← State.access σ false u [.struct i]
      Borrow.dropRows T i c d.size k n σ)
    (P := Good (S.push [i] (true, u)) T) (fun c d τ hτ => by
      obtain ⟨τ1, q1, k1⟩ := hτ.access1 (w := false) (t := u) (i := i) (Refs.top_one (w := true)).read
      obtain ⟨τ2, q2, k2⟩ := k1.dropRows (i := i) (c := c) (size := d.size) (k := k) (n := n)
      refine ⟨τ2, ?_, k2⟩
      rw [q1]
      exact q2) d.components 0 _ k1
  refine ⟨σ3, ?_, h3.pop⟩
  unfold Borrow.dropEntities
  rw [e1]
  exact e3

theorem Good.swapToLast {a : Archetype} {idx : Nat} (h : Good S T σ) (ht : S.Top true t i) (hi : idx < a.entityCount) :
    ∃ σ', swapToLast T i a idx t σ = .ok σ' ∧ Good S T σ' := by
  obtain ⟨u, σ1, e1, h1⟩ := h.retag1 (k := .mutRef) ht
  obtain ⟨σ2, e2, h2⟩ := h1.peek (Refs.top_one (w := true)).read
  unfold Borrow.swapToLast
  rw [e1]
  simp only [Except.bind, bind]
  rw [e2]
  simp only []
  split
  · exact ⟨σ2, rfl, h2.pop⟩
  · obtain ⟨σ3, e3, h3⟩ := h2.swapEntities (a := a) (first := idx) (second := a.entityCount - 1) Refs.top_one hi (by omega)
    exact ⟨σ3, e3, h3.pop⟩

theorem Good.swapDrop {a : Archetype} {idx : Nat} (h : Good S T σ) (ht : S.Top true t i) (hi : idx < a.entityCount) :
    ∃ σ', swapDrop T i a idx t σ = .ok σ' ∧ Good S T σ' := by
  obtain ⟨u, σ1, e1, h1⟩ := h.retag1 (k := .mutRef) ht
  obtain ⟨σ2, e2, h2⟩ := h1.swapToLast (a := a) (idx := idx) Refs.top_one hi
  obtain ⟨σ3, e3, h3⟩ := h2.peek (t := u) (i := i) (Refs.top_one (w := true)).read
  obtain ⟨σ4, e4, h4⟩ := h3.dropEntities (d := a.descriptor) (k := a.entityCount - 1) (n := 1) Refs.top_one
  obtain ⟨σ5, e5, h5⟩ := h4.access1 (w := true) (t := u) (i := i) Refs.top_one
  refine ⟨σ5, ?_, h5.pop⟩
  unfold Borrow.swapDrop
  rw [e1]
  simp only [Except.bind, bind]
  rw [e2]
  simp only []
  rw [e3]
  simp only []
  rw [e4]
  exact e5

theorem Good.swapRemove {a : Archetype} {idx : Nat} (h : Good S T σ) (ht : S.Top true t i) (hi : idx < a.entityCount) :
    ∃ σ', swapRemove T i a idx t σ = .ok σ' ∧ Good S T σ' := by
  obtain ⟨u, σ1, e1, h1⟩ := h.retag1 (k := .mutRef) ht
  obtain ⟨σ2, e2, h2⟩ := h1.swapToLast (a := a) (idx := idx) Refs.top_one hi
  obtain ⟨σ3, e3, h3⟩ := h2.peek (t := u) (i := i) (Refs.top_one (w := true)).read
  obtain ⟨v, σ4, e4, h4⟩ := h3.retag1 (k := .ref) (t := u) (i := i) (Refs.top_one (w := true)).read
  obtain ⟨σ5, e5, h5⟩ := forCols_ok (f := fun c d σ => do
      let σ ← State.access σ false v [.struct i]
      σ.access false (T.col i c) (rows i c d.size (a.entityCount - 1) 1))
    (P := Good ((S.push [i] (true, u)).push [i] (false, v)) T) (fun c d τ hτ => by
      obtain ⟨τ1, q1, k1⟩ := hτ.access1 (w := false) (t := v) (i := i) Refs.top_one
      obtain ⟨τ2, q2, k2⟩ := k1.col (w := false) (i := i) (c := c) (size := d.size) (k := a.entityCount - 1) (n := 1)
      refine ⟨τ2, ?_, k2⟩
      rw [q1]
      exact q2) a.descriptor.components 0 _ h4
  obtain ⟨σ6, e6, h6⟩ := h5.pop.access1 (w := true) (t := u) (i := i) Refs.top_one
  refine ⟨σ6, ?_, h6.pop⟩
  unfold Borrow.swapRemove
  rw [e1]
  simp only [Except.bind, bind]
  rw [e2]
  simp only []
  rw [e3]
  simp only []
  rw [e4]
  simp only [Except.bind, bind] at e5 ⊢
  rw [e5]
  exact e6

theorem Good.single {w : Bool} {d : ArchetypeDescriptor} {id : UInt16} {idx : Nat} (h : Good S T σ) (ht : S.Top true t i) :
    ∃ σ', single w T i d id idx t σ = .ok σ' ∧ Good S T σ' := by
  obtain ⟨u, σ1, e1, h1⟩ := h.retag1 (k := if w then .mutRef else .ref) (t := t) (i := i) (by
    cases w with
    | true => exact ht
    | false => exact ht.read)
  obtain ⟨σ2, e2, h2⟩ := h1.peek Refs.top_one.read
  obtain ⟨σ3, e3, h3⟩ := forCols_ok
    (f := fun c x σ => if x.id = id then State.access σ w (T.col i c) (rows i c x.size idx 1) else .ok σ)
    (P := Good (S.push [i] ((if w then Kind.mutRef else .ref).writes, u)) T) (fun c d τ hτ => by
      split
      · exact hτ.col
      · exact ⟨τ, rfl, hτ⟩) d.components 0 _ h2
  refine ⟨σ3, ?_, h3.pop⟩
  unfold Borrow.single
  rw [e1]
  simp only [Except.bind, bind]
  rw [e2]
  exact e3

theorem Good.copyCommon {a b : Archetype} {j k l u : Nat} (h : Good S T σ) (ht : S.Top true t i) (hu : S.Top true u j) (hij : i ≠ j) :
    ∃ σ', copyCommon T i a k t j b l u σ = .ok σ' ∧ Good S T σ' := by
  obtain ⟨t1, σ1, e1, h1⟩ := h.retag1 (k := .ref) ht.read
  obtain ⟨u1, σ2, e2, h2⟩ := h1.retag1 (k := .mutRef) (t := u) (i := j) (hu.push (by simpa using Ne.symm hij))
  have hti : ((S.push [i] (false, t1)).push [j] (true, u1)).Top false t1 i := Refs.Top.push Refs.top_one (by simpa using hij)
  have hui : ((S.push [i] (false, t1)).push [j] (true, u1)).Top true u1 j := Refs.top_one
  obtain ⟨σ3, e3, h3⟩ := forCols_ok (f := fun c x σ => forCols (fun d y σ => do
      let σ ← State.access σ false t1 [.struct i]
      let σ ← σ.access false u1 [.struct j]
      if x.id = y.id then
        let σ ← σ.access false (T.col i c) (rows i c x.size k 1)
        σ.access true (T.col j d) (rows j d y.size l 1)
      else .ok σ) 0 b.descriptor.components σ)
    (P := Good ((S.push [i] (false, t1)).push [j] (true, u1)) T) (fun c x τ hτ =>
      forCols_ok (fun d y τ hτ => by
        obtain ⟨τ1, q1, k1⟩ := hτ.access1 (w := false) hti
        obtain ⟨τ2, q2, k2⟩ := k1.access1 (w := false) hui.read
        rw [q1]
        simp only [Except.bind, bind]
        rw [q2]
        simp only []
        split
        · obtain ⟨τ3, q3, k3⟩ := k2.col (w := false) (i := i) (c := c) (size := x.size) (k := k) (n := 1)
          obtain ⟨τ4, q4, k4⟩ := k3.col (w := true) (i := j) (c := d) (size := y.size) (k := l) (n := 1)
          refine ⟨τ4, ?_, k4⟩
          rw [q3]
          exact q4
        · exact ⟨τ2, rfl, k2⟩) b.descriptor.components 0 τ hτ) a.descriptor.components 0 _ h2
  refine ⟨σ3, ?_, h3.pop.pop⟩
  unfold Borrow.copyCommon
  rw [e1]
  simp only [Except.bind, bind]
  rw [e2]
  exact e3

theorem Good.move {w : Bool} {a b : Archetype} {idx j u : Nat} {id : UInt16} (h : Good S T σ) (ht : S.Top true t i)
    (hu : S.Top true u j) (hij : i ≠ j) (hi : idx < a.entityCount) :
    ∃ T' σ', move w T i a idx t j b u id σ = .ok (T', σ') ∧ Good S T' σ' ∧ T'.registry = T.registry := by
  obtain ⟨σ1, e1, h1⟩ := h.swapToLast (a := a) (idx := idx) ht hi
  obtain ⟨σ2, e2, h2⟩ : ∃ σ2, (if idx = a.entityCount - 1 then .ok σ1 else Borrow.readEnts T i a.entityCount t [.entity i idx] σ1) =
      .ok σ2 ∧ Good S T σ2 := by
    split
    · exact ⟨σ1, rfl, h1⟩
    · exact h1.readEnts ht.read (fun l hl => by rw [List.mem_singleton.mp hl]; exact mem_ents hi)
  obtain ⟨T3, σ3, e3, h3, hr⟩ := h2.pushUninitialized (a := b) hu
  obtain ⟨σ4, e4, h4⟩ := h3.peek ht.read
  obtain ⟨σ5, e5, h5⟩ := h4.peek hu.read
  obtain ⟨σ6, e6, h6⟩ := h5.copyCommon (a := a) (b := b) (k := a.entityCount - 1) (l := b.entityCount) ht hu hij
  obtain ⟨σ7, e7, h7⟩ : ∃ σ7, (if w then Borrow.single true T3 j b.descriptor id b.entityCount u σ6
      else Borrow.single false T3 i a.descriptor id (a.entityCount - 1) t σ6) = .ok σ7 ∧ Good S T3 σ7 := by
    split
    · exact h6.single hu
    · exact h6.single ht
  obtain ⟨σ8, e8, h8⟩ := h7.readEnts (count := a.entityCount) (ls := [.entity i (a.entityCount - 1)]) ht.read
    (fun l hl => by rw [List.mem_singleton.mp hl]; exact mem_ents (by omega))
  obtain ⟨σ9, e9, h9⟩ := h8.writeEnts (count := b.entityCount + 1) (ls := [.entity j b.entityCount]) hu
    (fun l hl => by rw [List.mem_singleton.mp hl]; exact mem_ents (Nat.lt_succ_self _))
  obtain ⟨σ10, e10, h10⟩ := h9.poke ht
  refine ⟨T3, σ10, ?_, h10, hr⟩
  unfold Borrow.move
  rw [e1]
  simp only [Except.bind, bind]
  rw [e2]
  simp only []
  rw [e3]
  simp only []
  rw [e4]
  simp only []
  rw [e5]
  simp only []
  rw [e6]
  simp only []
  rw [e7]
  simp only []
  rw [e8]
  simp only []
  rw [e9]
  simp only []
  rw [e10]
  rfl

end

end Shard.Borrow
