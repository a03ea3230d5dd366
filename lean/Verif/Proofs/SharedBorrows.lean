import Verif.Model.SharedBorrows
import Verif.Proofs.BorrowTags
/-!
# Stacked Borrows: what the shared calls do to the stacks

They only read and make `&` references: whatever `&` could be used before can be used afterwards, and so can what all of
them were made from.
-/

set_option autoImplicit false

namespace Shard.Borrow

variable {env : Env} {T : Tags} {n : Nat}

/-- What the references to a location are made from. -/
def Tags.base (T : Tags) : Loc → Nat
  | .struct _ => T.registry
  | .byte i c _ => T.col i c
  | .entity i _ => T.ent i

/-- The location exists: there are `n` archetypes. -/
def Loc.In (n : Nat) : Loc → Prop
  | .struct i => i < n
  | .byte _ _ _ => True
  | .entity _ _ => True

theorem ready_iff {σ : State} : Ready T n σ ↔ ∀ l, l.In n → Granted true (T.base l) (σ.stacks l) := by
  constructor
  · rintro ⟨h1, h2, h3⟩ l hl
    cases l with
    | struct i => exact h1 i hl
    | byte i c o => exact h2 i c o
    | entity i k => exact h3 i k
  · intro h
    exact ⟨fun i hi => h (.struct i) hi, fun i c o => h (.byte i c o) trivial, fun i k => h (.entity i k) trivial⟩

/-- The `&` with tag `v` may be used at these locations. -/
def Usable (T : Tags) (v : Nat) (ls : List Loc) (σ : State) : Prop := ∀ l ∈ ls, Above (T.base l) v (σ.stacks l)

/-- Only reads and new `&` references happened between `σ` and `σ'`. -/
structure Reads (T : Tags) (n : Nat) (σ σ' : State) : Prop where
  ready : Ready T n σ'
  keeps : ∀ v ls, Usable T v ls σ → Usable T v ls σ'
  fresh : Fresh σ → Fresh σ'

theorem Reads.refl {σ : State} (h : Ready T n σ) : Reads T n σ σ := ⟨h, fun _ _ h => h, fun h => h⟩

theorem Reads.trans {σ σ' σ'' : State} (h : Reads T n σ σ') (h' : Reads T n σ' σ'') : Reads T n σ σ'' :=
  ⟨h'.ready, fun v ls hu => h'.keeps v ls (h.keeps v ls hu), fun hf => h'.fresh (h.fresh hf)⟩

theorem Reads.of {σ σ' : State} (h : Ready T n σ) (hfr : Fresh σ → Fresh σ') (hl : ∀ l, σ'.stacks l = σ.stacks l ∨
    (Granted true (T.base l) (σ'.stacks l) ∧ ∀ v, Above (T.base l) v (σ.stacks l) → Above (T.base l) v (σ'.stacks l))) :
    Reads T n σ σ' := by
  refine ⟨?_, ?_, hfr⟩
  · rw [ready_iff] at h ⊢
    intro l hin
    rcases hl l with h1 | ⟨h1, _⟩
    · rw [h1]; exact h l hin
    · exact h1
  · intro v ls hu l hm
    rcases hl l with h1 | ⟨_, h1⟩
    · rw [h1]; exact hu l hm
    · exact h1 v (hu l hm)

/-- A read through a `&`. -/
theorem access_ref {σ : State} (h : Ready T n σ) {v : Nat} {ls : List Loc} (hv : Usable T v ls σ) :
    ∃ σ', σ.access false v ls = .ok σ' ∧ Reads T n σ σ' := by
  obtain ⟨σ', e, _, h1, h2⟩ := access_ok (σ := σ) (w := false) (t := v) (ls := ls)
    (fun l s => Granted true (T.base l) s ∧ ∀ u, Above (T.base l) u (σ.stacks l) → Above (T.base l) u s) (fun l hl => by
      obtain ⟨s, q1, q2, q3⟩ := read_ref (hv l hl)
      exact ⟨s, q1, q2, q3⟩)
  refine ⟨σ', e, Reads.of h (fun hf => hf.access e) fun l => ?_⟩
  by_cases hl : l ∈ ls
  · exact .inr (h1 l hl)
  · exact .inl (h2 l hl)

theorem retag_reads {σ : State} (h : Ready T n σ) {t : Nat} {ls : List Loc}
    (hr : ∀ l ∈ ls, ∃ s, access false t (σ.stacks l) = some s ∧ Granted true (T.base l) s ∧
      ∀ v, Above (T.base l) v (σ.stacks l) → Above (T.base l) v s) :
    ∃ σ', σ.retag t .ref ls = .ok (σ.next, σ') ∧ Reads T n σ σ' ∧ Usable T σ.next ls σ' := by
  obtain ⟨σ', e, h1, h2⟩ := retag_ok (σ := σ) (t := t) (k := .ref) (ls := ls)
    (fun l s => Above (T.base l) σ.next s ∧ ∀ u, Above (T.base l) u (σ.stacks l) → Above (T.base l) u s) (fun l hl => by
      obtain ⟨s, q1, q2, q3⟩ := hr l hl
      exact ⟨_, by simp only [reborrow]; rw [q1]; rfl, Above.push _ q2, fun u hu => (q3 u hu).below (a := [_])⟩)
  refine ⟨σ', e, Reads.of h (fun hf => hf.retag e) fun l => ?_, fun l hl => (h1 l hl).1⟩
  by_cases hl : l ∈ ls
  · exact .inr ⟨(h1 l hl).1.granted, (h1 l hl).2⟩
  · exact .inl (h2 l hl)

/-- A `&` made from a `&`. -/
theorem retag_ref {σ : State} (h : Ready T n σ) {v : Nat} {ls : List Loc} (hv : Usable T v ls σ) :
    ∃ σ', σ.retag v .ref ls = .ok (σ.next, σ') ∧ Reads T n σ σ' ∧ Usable T σ.next ls σ' :=
  retag_reads h (fun l hl => read_ref (hv l hl))

/-- A `&` made from what all are made from. -/
theorem retag_base {σ : State} (h : Ready T n σ) {t : Nat} {ls : List Loc} (ht : ∀ l ∈ ls, l.In n ∧ T.base l = t) :
    ∃ σ', σ.retag t .ref ls = .ok (σ.next, σ') ∧ Reads T n σ σ' ∧ Usable T σ.next ls σ' :=
  retag_reads h (fun l hl => by
    obtain ⟨h1, h2⟩ := ht l hl
    have := ready_iff.mp h l h1
    rw [h2] at this ⊢
    exact read_base this)

theorem peek_ref {σ : State} (h : Ready T n σ) {t i : Nat} (ht : Usable T t [.struct i] σ) :
    ∃ σ', peek σ t i = .ok σ' ∧ Reads T n σ σ' := by
  obtain ⟨σ1, e1, r1, u1⟩ := retag_ref h ht
  obtain ⟨σ2, e2, r2⟩ := access_ref r1.ready u1
  refine ⟨σ2, ?_, r1.trans r2⟩
  unfold peek
  rw [e1]
  exact e2

theorem Usable.sub {v : Nat} {ls ls' : List Loc} {σ : State} (h : Usable T v ls σ) (hs : ∀ l ∈ ls', l ∈ ls) : Usable T v ls' σ :=
  fun l hl => h l (hs l hl)

theorem struct_mem {ar : ArchetypeRegistry} {i : Nat} (hi : i < ar.archetypes.length) : ∀ l ∈ [Loc.struct i], l ∈ structs ar := by
  intro l hl
  rw [List.mem_singleton.mp hl]
  exact List.mem_map.mpr ⟨i, List.mem_range.mpr hi, rfl⟩

theorem visitRef_ok {S : Nat} {gd : ArchetypeDescriptor} {filter : Option (ArchetypeDescriptor → Bool)} {ar : ArchetypeRegistry}
    {i : Nat} {a : Archetype} {σ : State} (h : Ready T n σ) (hS : Usable T S (structs ar) σ) (hi : i < ar.archetypes.length) :
    ∃ o σ', visitRef S gd filter ar i a σ = .ok (o, σ') ∧
      o.isSome = (a.descriptor.containsSubset gd && passes filter a.descriptor) ∧ Reads T n σ σ' ∧
      ∀ t, o = some t → Usable T t [.struct i] σ' := by
  obtain ⟨σ1, e1, r1, u1⟩ := retag_ref h hS
  obtain ⟨σ2, e2, r2, u2⟩ := retag_ref r1.ready (u1.sub (struct_mem hi))
  obtain ⟨σ3, e3, r3⟩ := peek_ref r2.ready u2
  have u3 := r3.keeps _ _ u2
  have r3 := (r1.trans r2).trans r3
  have start : visitRef S gd filter ar i a σ =
      (if a.descriptor.containsSubset gd then
        match filter with
        | none => do
          let (t3, σ) ← σ3.retag σ1.next .ref [.struct i]
          return (some t3, σ)
        | some f => do
          let σ ← peek σ3 σ1.next i
          if f a.descriptor then
            let (t3, σ) ← σ.retag σ1.next .ref [.struct i]
            return (some t3, σ)
          else return (none, σ)
      else return (none, σ3)) := by
    unfold visitRef
    rw [e1]
    simp only [Except.bind, bind]
    rw [e2]
    simp only []
    rw [e3]
    rfl
  rw [start]
  by_cases hs : a.descriptor.containsSubset gd = true
  · rw [if_pos hs, hs]
    cases filter with
    | none =>
      obtain ⟨σ4, e4, r4, u4⟩ := retag_ref r3.ready u3
      refine ⟨some σ3.next, σ4, ?_, rfl, r3.trans r4, ?_⟩
      · simp only []
        rw [e4]
        rfl
      · intro t ht
        cases ht
        exact u4
    | some f =>
      obtain ⟨σ4, e4, r4⟩ := peek_ref r3.ready u3
      have u4 := r4.keeps _ _ u3
      have r4 := r3.trans r4
      by_cases hf : f a.descriptor = true
      · obtain ⟨σ5, e5, r5, u5⟩ := retag_ref r4.ready u4
        refine ⟨some σ4.next, σ5, ?_, by simp [passes, hf], r4.trans r5, ?_⟩
        · simp only []
          rw [e4]
          simp only [Except.bind, bind]
          rw [if_pos hf, e5]
          rfl
        · intro t ht
          cases ht
          exact u5
      · refine ⟨none, σ4, ?_, by simp [passes, hf], r4, fun t ht => by cases ht⟩
        simp only []
        rw [e4]
        simp only [Except.bind, bind]
        rw [if_neg hf]
        rfl
  · rw [if_neg hs]
    exact ⟨none, σ3, rfl, by simp [hs], r3, fun t ht => by cases ht⟩

theorem archNextRef_ok {W : World env} {cs : List Content} {ar : ArchetypeRegistry} (har : ARInv W ar cs) {g : Group}
    {filter : Option (ArchetypeDescriptor → Bool)} (it : ArchIter) {S : Nat} {σ : State} (h : Ready T n σ)
    (hS : Usable T S (structs ar) σ) :
    ∃ o it' σ', archNextRef env S g filter ar it σ = .ok (o, it', σ') ∧
      ArchIter.next env g (passes filter) ar it = .ok (o.map Prod.fst, it') ∧ Reads T n σ σ' ∧
      ∀ i t, o = some (i, t) → Usable T t [.struct i] σ' := by
  unfold archNextRef ArchIter.next
  split
  · exact ⟨none, it, σ, rfl, rfl, Reads.refl h, fun _ _ h => by cases h⟩
  · obtain ⟨o, it', σ', q1, q2, _, q4, q5⟩ := nextLoop_ok har (gd := (g.descriptor env).archetype) (f := passes filter)
      (P := fun σ => Ready T n σ ∧ Usable T S (structs ar) σ) (Q := fun σ σ' => Ready T n σ → Reads T n σ σ')
      (R := fun i t σ => Usable T t [.struct i] σ)
      (visit := visitRef S (g.descriptor env).archetype filter ar)
      (fun _ h => Reads.refl h) (fun _ _ _ h1 h2 h => (h1 h).trans (h2 (h1 h).ready))
      (fun i a σ h hi => by
        obtain ⟨o, σ', e, k1, k2, k3⟩ := visitRef_ok (gd := (g.descriptor env).archetype) (filter := filter) (a := a) h.1 h.2 hi
        exact ⟨o, σ', e, k1, ⟨k2.ready, k2.keeps _ _ h.2⟩, fun _ => k2, k3⟩)
      (MAX_COMPONENTS_PER_ENTITY - it.level) it σ ⟨h, hS⟩
    exact ⟨o, it', σ', q1, q2, q4 h, q5⟩

/-- Everything held may be read. -/
def RefHeld (T : Tags) (σ : State) (h : Held) : Prop :=
  (∀ x ∈ h.slices, Usable T x.2 (bytesAt h.arch x.1 0 x.1.len) σ) ∧
  ∀ x, h.ents = some x → Usable T x.2 ((List.range x.1).map (.entity h.arch)) σ

theorem RefHeld.reads {σ σ' : State} {h : Held} (hh : RefHeld T σ h) (hr : Reads T n σ σ') : RefHeld T σ' h :=
  ⟨fun x hx => hr.keeps _ _ (hh.1 x hx), fun x hx => hr.keeps _ _ (hh.2 x hx)⟩

theorem slicesRef_ok {i : Nat} : ∀ (ss : List SliceRef) (σ : State), Ready T n σ →
    ∃ xs σ', slicesRef T i ss σ = .ok (xs, σ') ∧ xs.map Prod.fst = ss ∧ Reads T n σ σ' ∧
      ∀ x ∈ xs, Usable T x.2 (bytesAt i x.1 0 x.1.len) σ'
  | [], σ, h => ⟨[], σ, rfl, rfl, Reads.refl h, fun _ h => by cases h⟩
  | s :: ss, σ, h => by
    obtain ⟨σ1, e1, r1, u1⟩ := retag_base h (t := T.col i s.base.col) (ls := bytesAt i s 0 s.len) (fun l hl => by
      obtain ⟨o, rfl⟩ := mem_bytesAt hl
      exact ⟨trivial, rfl⟩)
    obtain ⟨xs, σ2, e2, h1, r2, u2⟩ := slicesRef_ok (i := i) ss σ1 r1.ready
    refine ⟨(s, σ.next) :: xs, σ2, ?_, by rw [List.map_cons, h1], r1.trans r2, ?_⟩
    · unfold slicesRef
      rw [e1]
      simp only [Except.bind, bind]
      rw [e2]
      rfl
    · intro x hx
      rcases List.mem_cons.mp hx with rfl | hx
      · exact r2.keeps _ _ u1
      · exact u2 x hx

theorem entitiesRef_reads {i t : Nat} {a : Archetype} {σ : State} (h : Ready T n σ) (ht : Usable T t [.struct i] σ) :
    ∃ tag σ', entitiesRef T i a t σ = .ok ((a.entityCount, tag), σ') ∧ Reads T n σ σ' ∧
      Usable T tag ((List.range a.entityCount).map (.entity i)) σ' := by
  obtain ⟨σ1, e1, r1⟩ := peek_ref h ht
  obtain ⟨σ2, e2, r2, u2⟩ := retag_base r1.ready (t := T.ent i) (ls := (List.range a.entityCount).map (.entity i)) (fun l hl => by
    obtain ⟨k, _, rfl⟩ := List.mem_map.mp hl
    exact ⟨trivial, rfl⟩)
  refine ⟨σ1.next, σ2, ?_, r1.trans r2, u2⟩
  unfold entitiesRef
  rw [e1]
  simp only [Except.bind, bind]
  rw [e2]
  rfl

theorem entitiesIf_ok {i t : Nat} {a : Archetype} {σ : State} (ents : Bool) (h : Ready T n σ) (ht : Usable T t [.struct i] σ) :
    ∃ o σ', entitiesIf T ents i a t σ = .ok (o, σ') ∧ Reads T n σ σ' ∧
      o.map Prod.fst = (if ents then some a.entityCount else none) ∧
      ∀ x, o = some x → Usable T x.2 ((List.range x.1).map (.entity i)) σ' := by
  unfold entitiesIf
  cases ents with
  | false => exact ⟨none, σ, rfl, Reads.refl h, rfl, fun x hx => by cases hx⟩
  | true =>
    obtain ⟨tag, σ', e, r, u⟩ := entitiesRef_reads (a := a) h ht
    refine ⟨some (a.entityCount, tag), σ', ?_, r, rfl, ?_⟩
    · rw [if_pos rfl, e]
      rfl
    · intro x hx
      cases hx
      exact u

/-- A use of something held that only reads. -/
theorem use_ref {held : List Held} {σ : State} (h : Ready T n σ) (hh : ∀ y ∈ held, RefHeld T σ y) (u : Use)
    (hu : ∀ n j k, u ≠ .elem n j k true) : ∃ σ', u.run held σ = .ok σ' ∧ Reads T n σ σ' := by
  have triv : ∃ σ', (Except.ok σ : BM State) = .ok σ' ∧ Reads T n σ σ' := ⟨σ, rfl, Reads.refl h⟩
  cases u with
  | elem m j k w =>
    have hw : w = false := by
      cases w with
      | false => rfl
      | true => exact absurd rfl (hu m j k)
    subst hw
    simp only [Use.run]
    cases hn : held[m]? with
    | none => exact triv
    | some y =>
      simp only []
      cases hj : y.slices[j]? with
      | none => exact triv
      | some x =>
        obtain ⟨s, t⟩ := x
        simp only []
        by_cases hk : k < s.len
        · rw [if_pos hk]
          exact access_ref h (((hh y (List.mem_of_getElem? hn)).1 _ (List.mem_of_getElem? hj)).sub
            (fun l hl => bytesAt_sub hk hl))
        · rw [if_neg hk]
          exact triv
  | entity m k =>
    simp only [Use.run]
    cases hn : held[m]? with
    | none => exact triv
    | some y =>
      simp only []
      cases he : y.ents with
      | none => exact triv
      | some x =>
        obtain ⟨len, t⟩ := x
        simp only []
        by_cases hk : k < len
        · rw [if_pos hk]
          refine access_ref h (((hh y (List.mem_of_getElem? hn)).2 _ he).sub (fun l hl => ?_))
          rw [List.mem_singleton.mp hl]
          exact List.mem_map.mpr ⟨k, List.mem_range.mpr hk, rfl⟩
        · rw [if_neg hk]
          exact triv

end Shard.Borrow
