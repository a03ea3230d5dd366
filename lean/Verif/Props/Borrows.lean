import Verif.Proofs.BorrowTags
import Verif.Props.Example
/-!
# C90: the references the registry hands out obey Stacked Borrows
-/

set_option autoImplicit false

namespace Shard.Borrow

variable {env : Env} {W : World env} {r : Registry} {T : Tags} {cs : List Content}

/-- The mutable iterator with this filter, with or without the entity slices. -/
def mutIter : (filter : Option (ArchetypeDescriptor → Bool)) → (ents : Bool) → MutIter
  | none, false => .matching
  | none, true => .entityMatching
  | some f, false => .filtered f
  | some f, true => .entityFiltered f

/-- What a program holds, without the tags. -/
def Held.item (h : Held) : Nat × List SliceRef := (h.arch, h.slices.map Prod.fst)

/-- The invariant of a program that uses a mutable iterator. -/
structure Inv (T : Tags) (n : Nat) (held : List Held) (σ : State) : Prop where
  reg : RegOk T n σ
  cols : ColsOk T σ
  ents : EntsOk T σ
  ok : HeldOk T held σ

theorem Ready.inv {n : Nat} {σ : State} (h : Ready T n σ) : Inv T n [] σ :=
  ⟨h.1, h.2.1, h.2.2, fun _ h => by cases h⟩

theorem Inv.ready {n : Nat} {held : List Held} {σ : State} (h : Inv T n held σ) : Ready T n σ := ⟨h.reg, h.cols, h.ents⟩

theorem sliceRefs_cols {ct : Content} {g : Group} (gs : GroupSpec env g) (hsub : ∀ c ∈ g, c ∈ ct.cts) (n : Nat) :
    ((sliceRefs ct.cts g n).map (fun s => s.base.col)).Nodup := by
  unfold sliceRefs
  rw [List.map_map]
  have hnd : g.Nodup := by
    have := gs.wf.nodup
    unfold List.Nodup at this
    rw [List.pairwise_map] at this
    exact this.imp (fun h he => h (by rw [he]))
  unfold List.Nodup
  rw [List.pairwise_map]
  refine List.Pairwise.imp_of_mem ?_ hnd
  intro c c' hc hc' hne he
  apply hne
  have h1 := List.idxOf_lt_length_of_mem (hsub c hc)
  have h2 := List.getElem_idxOf h1
  have h3 := List.idxOf_lt_length_of_mem (hsub c' hc')
  have h4 := List.getElem_idxOf h3
  simp only [Function.comp] at he
  rw [← h2, ← h4]
  congr 1

theorem Inv.hold {n : Nat} {held : List Held} {σ σ' : State} (h : Inv T n held σ) {y : Held} (hy : y.arch ∉ held.map Held.arch)
    (hreg : RegOk T n σ') (hcols : ColsOk T σ') (hents : EntsOk T σ')
    (hnew : (∀ x ∈ y.slices, OnTop T σ' y.arch x) ∧ ∀ x, y.ents = some x → EntHeld T σ' y.arch x)
    (hf : ∀ l, (∀ j, l ≠ .struct j) → (∀ c o, l ≠ .byte y.arch c o) → (∀ k, l ≠ .entity y.arch k) →
      σ'.stacks l = σ.stacks l) : Inv T n (held ++ [y]) σ' := by
  refine ⟨hreg, hcols, hents, ?_⟩
  intro z hz
  rcases List.mem_append.mp hz with hz | hz
  · have hne : z.arch ≠ y.arch := by
      intro he
      exact hy (he ▸ List.mem_map.mpr ⟨z, hz, rfl⟩)
    obtain ⟨h1, h2⟩ := h.ok z hz
    refine ⟨fun x hx l hl => ?_, fun x hx k hk => ?_⟩
    · rw [hf l]
      · exact h1 x hx l hl
      · intro j he; obtain ⟨o, rfl⟩ := mem_bytesAt hl; cases he
      · intro c o he; obtain ⟨o', rfl⟩ := mem_bytesAt hl; injection he with he; exact hne he
      · intro k he; obtain ⟨o, rfl⟩ := mem_bytesAt hl; cases he
    · rw [hf _ (fun j h => by cases h) (fun c' o' h => by cases h) (fun k h => by injection h with h; exact hne h)]
      exact h2 x hx k hk
  · rw [List.mem_singleton.mp hz]
    exact hnew

/-- One call of `next`. -/
theorem next_ok (h : RInv W r cs) {g : Group} (hg : ∀ c ∈ g, W.Has c) (hv : (g.descriptor env).isValid = true)
    (filter : Option (ArchetypeDescriptor → Bool)) (ents : Bool) {held : List Held} {it : ArchIter} {σ : State}
    (hi : Inv T r.archetypes.archetypes.length held σ) (hnd : (held.map Held.arch ++
      selected (g.descriptor env).archetype (passes filter) r.archetypes (it.ahead r.archetypes)).Nodup) :
    ∃ o it' σ', next env T g filter ents r.archetypes it σ = .ok (o, it', σ') ∧ Inv T r.archetypes.archetypes.length (held ++ o.toList) σ' ∧
      (∀ y, o = some y → y.ents.map Prod.fst = (if ents then some (contentAt cs y.arch).ents.length else none) ∧
        y.item = (y.arch, sliceRefs (contentAt cs y.arch).cts g (contentAt cs y.arch).ents.length)) ∧
      selected (g.descriptor env).archetype (passes filter) r.archetypes (it.ahead r.archetypes) =
        o.toList.map Held.arch ++
          selected (g.descriptor env).archetype (passes filter) r.archetypes (it'.ahead r.archetypes) ∧
      (o = none →
        selected (g.descriptor env).archetype (passes filter) r.archetypes (it.ahead r.archetypes) = []) := by
  have gs := Group.spec hv
  obtain ⟨o, it', σ1, e1, e2, k1, k2, k3⟩ := archNext_ok (env := env) h.arch (g := g) (filter := filter) it hi.reg
  obtain ⟨o2, it2, e3, hsel⟩ := ArchIter.next_spec h.arch hv (filter := passes filter) it
  rw [e2] at e3
  simp only [Except.ok.injEq, Prod.mk.injEq] at e3
  obtain ⟨rfl, rfl⟩ := e3
  have hi1 : Inv T r.archetypes.archetypes.length held σ1 := by
    refine ⟨k1, fun i c o => ?_, fun i k => ?_, fun y hy => ?_⟩
    · rw [k3 _ (fun j h => by cases h)]; exact hi.cols i c o
    · rw [k3 _ (fun j h => by cases h)]; exact hi.ents i k
    · obtain ⟨h1, h2⟩ := hi.ok y hy
      refine ⟨fun x hx l hl => ?_, fun x hx k hk => ?_⟩
      · rw [k3 l (fun j he => by obtain ⟨o, rfl⟩ := mem_bytesAt hl; cases he)]
        exact h1 x hx l hl
      · rw [k3 _ (fun j h => by cases h)]; exact h2 x hx k hk
  cases o with
  | none =>
    rcases hsel with ⟨_, hs, hdone⟩ | ⟨i, hc, _⟩
    · refine ⟨none, it', σ1, ?_, by simpa using hi1, (fun y hy => by cases hy), ?_, fun _ => hs⟩
      · unfold next
        rw [e1]
        rfl
      · obtain ⟨o3, it3, e4, hsel3⟩ := ArchIter.next_spec h.arch hv (filter := passes filter) it'
        rw [hdone] at e4
        simp only [Except.ok.injEq, Prod.mk.injEq] at e4
        obtain ⟨rfl, rfl⟩ := e4
        rcases hsel3 with ⟨_, hs3, _⟩ | ⟨i, hc, _⟩
        · rw [hs, hs3]; rfl
        · cases hc
    · cases hc
  | some x =>
    obtain ⟨i, t⟩ := x
    rcases hsel with ⟨hc, _⟩ | ⟨j, hc, hs⟩
    · cases hc
    · simp only [Option.map_some, Option.some.injEq] at hc
      subst hc
      have hacc : accepts (g.descriptor env).archetype (passes filter) r.archetypes i = true := by
        have : i ∈ selected (g.descriptor env).archetype (passes filter) r.archetypes (it.ahead r.archetypes) := by
          rw [hs]; exact List.mem_cons_self
        exact (List.mem_filter.mp this).2
      obtain ⟨a, ha, hcs, _⟩ := accepts_iff.mp hacc
      obtain ⟨ct, hct, hrep⟩ := h.arch.content ha
      have hsub := hrep.subset_of_contains hg hv hcs
      have hnot : i ∉ held.map Held.arch := by
        rw [hs] at hnd
        intro hm
        exact (List.nodup_append.mp hnd).2.2 _ hm _ List.mem_cons_self rfl
      have hover := k2 i t rfl
      obtain ⟨σ2, e5, _, o2, f2⟩ := struct_mut hover.granted.1
      have o2 := (o2 _ hover).1
      obtain ⟨σ3, e6, _, o3, f3⟩ := peek_ok o2.granted.1
      have o3 := o3 _ o2
      have hidx : indexUnchecked r.archetypes.archetypes i = .ok a := by unfold indexUnchecked; rw [ha]
      have hcols := sliceRefs_cols gs hsub ct.ents.length
      have hcts : contentAt cs i = ct := contentAt_of hct
      cases ents with
      | false =>
        obtain ⟨xs, σ4, e7, m1, m2, m4, m3⟩ := slicesMut_ok (T := T) (i := i) (sliceRefs ct.cts g ct.ents.length) σ3 hcols (by
          intro i' c o
          rw [f3 _ (by intro h; cases h), f2 _ (by intro h; cases h)]
          exact hi1.cols i' c o)
        refine ⟨some ⟨i, xs, none⟩, it', σ4, ?_, ?_, ?_, ?_, fun h => by cases h⟩
        · unfold next
          rw [e1]
          simp only [Except.bind, bind]
          rw [lift_ok hidx]
          simp only [Bool.false_eq_true, if_false]
          unfold fuzzySlicesMut
          rw [e5]
          simp only [Except.bind, bind]
          rw [e6]
          simp only []
          rw [lift_ok (hrep.getFuzzySlicesMut_ok gs hsub)]
          simp only []
          rw [e7]
          rfl
        · refine hi1.hold (y := ⟨i, xs, none⟩) hnot ?_ m4 ?_ ⟨m2, fun x hx => by cases hx⟩ ?_
          · intro j hlt
            rw [m3 _ (fun c o _ h => by cases h)]
            exact ((hi1.reg.one f2 o2.granted.2).one f3 o3.granted.2) j hlt
          · intro j k
            rw [m3 _ (fun c o _ h => by cases h), f3 _ (by intro h; cases h), f2 _ (by intro h; cases h)]
            exact hi1.ents j k
          · intro l h1 h2 h3
            rw [m3 l (fun c o _ => h2 c o), f3 l (h1 i), f2 l (h1 i)]
        · intro y hy
          cases hy
          refine ⟨rfl, ?_⟩
          simp only [Held.item, m1, hcts]
        · rw [hs]; rfl
      | true =>
        obtain ⟨tag, σ4, e7, g4, o4, m4, m5, f4⟩ := entitiesRef_ok (T := T) (a := a) (i := i) o3.granted.1 (by
          intro i' k
          rw [f3 _ (by intro h; cases h), f2 _ (by intro h; cases h)]
          exact hi1.ents i' k)
        have o4 := o4 _ o3
        obtain ⟨σ5, e8, _, o5, f5⟩ := peek_ok o4.granted.1
        have o5 := o5 _ o4
        obtain ⟨xs, σ6, e9, m1, m2, m6, m3⟩ := slicesMut_ok (T := T) (i := i) (sliceRefs ct.cts g ct.ents.length) σ5 hcols (by
          intro i' c o
          rw [f5 _ (by intro h; cases h), f4 _ (by intro h; cases h) (by intro k h; cases h),
            f3 _ (by intro h; cases h), f2 _ (by intro h; cases h)]
          exact hi1.cols i' c o)
        refine ⟨some ⟨i, xs, some (a.entityCount, tag)⟩, it', σ6, ?_, ?_, ?_, ?_, fun h => by cases h⟩
        · unfold next
          rw [e1]
          simp only [Except.bind, bind]
          rw [lift_ok hidx]
          simp only [if_true]
          unfold entityFuzzySlicesMut
          rw [e5]
          simp only [Except.bind, bind]
          rw [e6]
          simp only []
          rw [e7]
          simp only []
          rw [lift_ok (hrep.getEntityFuzzySlicesMut_ok gs hsub)]
          simp only []
          rw [e8]
          simp only []
          rw [e9]
          rfl
        · refine hi1.hold (y := ⟨i, xs, some (a.entityCount, tag)⟩) hnot ?_ m6 ?_ ⟨m2, fun x hx => ?_⟩ ?_
          · intro j hlt
            rw [m3 _ (fun c o _ h => by cases h)]
            by_cases hj : j = i
            · rw [hj]; exact o5.granted.2
            · rw [f5 _ (by intro h; cases h; exact hj rfl), f4 _ (by intro h; cases h; exact hj rfl) (by intro k h; cases h),
                f3 _ (by intro h; cases h; exact hj rfl), f2 _ (by intro h; cases h; exact hj rfl)]
              exact hi1.reg j hlt
          · intro j k
            rw [m3 _ (fun c o _ h => by cases h), f5 _ (by intro h; cases h)]
            exact m5 j k
          · cases hx
            intro k hk
            rw [m3 _ (fun c o _ h => by cases h), f5 _ (by intro h; cases h)]
            exact m4 k hk
          · intro l h1 h2 h3
            rw [m3 l (fun c o _ => h2 c o), f5 l (h1 i), f4 l (h1 i) h3, f3 l (h1 i), f2 l (h1 i)]
        · intro y hy
          cases hy
          refine ⟨by simp only [hcts, Option.map_some, if_true, hrep.count], ?_⟩
          simp only [Held.item, m1, hcts]
        · rw [hs]; rfl

theorem Inv.use {n : Nat} {held : List Held} {σ : State} (h : Inv T n held σ) (u : Use) :
    ∃ σ', u.run held σ = .ok σ' ∧ Inv T n held σ' := by
  obtain ⟨σ', e, h1, hE, h2⟩ := use_ok h.ok h.ents u
  refine ⟨σ', e, ?_, ?_, hE, h1⟩
  · intro j hlt
    rw [h2 _ (fun i k h => by cases h)]
    exact h.reg j hlt
  · intro i c o
    rw [h2 _ (fun i k h => by cases h)]
    exact h.cols i c o

/-- The number of calls of `next`. -/
def nexts (acts : List Act) : Nat := acts.countP (fun x => match x with | .next => true | .use _ => false)

/-- The length of the entity slice agrees with that of the other slices. -/
def Held.EntsOk (ents : Bool) (h : Held) : Prop :=
  h.ents.isSome = ents ∧ ∀ x, h.ents = some x → ∀ s ∈ h.slices, s.1.len = x.1

theorem run_ok (h : RInv W r cs) {g : Group} (hg : ∀ c ∈ g, W.Has c) (hv : (g.descriptor env).isValid = true)
    (filter : Option (ArchetypeDescriptor → Bool)) (ents : Bool) (items : List (Nat × List SliceRef)) :
    ∀ (acts : List Act) (held : List Held) (it : ArchIter) (σ : State), Inv T r.archetypes.archetypes.length held σ → (∀ y ∈ held, y.EntsOk ents) →
    (held.map Held.arch ++
      selected (g.descriptor env).archetype (passes filter) r.archetypes (it.ahead r.archetypes)).Nodup →
    items = held.map Held.item ++
      (selected (g.descriptor env).archetype (passes filter) r.archetypes (it.ahead r.archetypes)).map
        (fun i => (i, sliceRefs (contentAt cs i).cts g (contentAt cs i).ents.length)) →
    ∃ held' it' σ', run env T g filter ents r.archetypes acts held it σ = .ok (held', it', σ') ∧ Inv T r.archetypes.archetypes.length held' σ' ∧
      (∀ y ∈ held', y.EntsOk ents) ∧ held'.map Held.item = items.take (held.length + nexts acts)
  | [], held, it, σ, hi, he, hnd, hit => by
    refine ⟨held, it, σ, rfl, hi, he, ?_⟩
    rw [hit, List.take_left' (by simp [nexts])]
  | .next :: acts, held, it, σ, hi, he, hnd, hit => by
    obtain ⟨o, it1, σ1, e1, hi1, hy, hs, hnone⟩ := next_ok h hg hv filter ents hi hnd
    have hn : nexts (.next :: acts) = nexts acts + 1 := by simp [nexts]
    have he1 : ∀ y ∈ held ++ o.toList, y.EntsOk ents := by
      intro y hm
      rcases List.mem_append.mp hm with hm | hm
      · exact he y hm
      · obtain ⟨q1, q2⟩ := hy y (by simpa using hm)
        constructor
        · have := congrArg Option.isSome q1
          rw [Option.isSome_map] at this
          rw [this]
          cases ents <;> rfl
        · intro x hx s hsx
          rw [hx] at q1
          cases ents with
          | false => simp at q1
          | true =>
            simp only [Option.map_some, if_true, Option.some.injEq] at q1
            have q3 : s.1 ∈ y.slices.map Prod.fst := List.mem_map.mpr ⟨s, hsx, rfl⟩
            simp only [Held.item, Prod.mk.injEq, true_and] at q2
            rw [q2] at q3
            obtain ⟨c, _, hc⟩ := List.mem_map.mp q3
            rw [← hc, q1]
    have hitems : items = (held ++ o.toList).map Held.item ++
      (selected (g.descriptor env).archetype (passes filter) r.archetypes (it1.ahead r.archetypes)).map
        (fun i => (i, sliceRefs (contentAt cs i).cts g (contentAt cs i).ents.length)) := by
      rw [hit, hs, List.map_append, List.map_append, List.append_assoc]
      congr 2
      cases o with
      | none => rfl
      | some y =>
        simp only [Option.toList_some, List.map_cons, List.map_nil]
        rw [(hy y rfl).2]
    obtain ⟨held', it', σ', e2, hi2, he2, ht⟩ := run_ok h hg hv filter ents items acts (held ++ o.toList) it1 σ1 hi1 he1
      (by rw [List.map_append, List.append_assoc, ← hs]; exact hnd) hitems
    refine ⟨held', it', σ', ?_, hi2, he2, ?_⟩
    · unfold run
      rw [e1]
      exact e2
    · rw [ht, hn]
      cases o with
      | some y =>
        congr 1
        simp only [Option.toList_some, List.length_append, List.length_cons, List.length_nil]
        omega
      | none =>
        -- `next` returned `none`: there is nothing more
        have hl : items.length = held.length := by rw [hit, hnone rfl]; simp
        rw [List.take_of_length_le (by simp; omega), List.take_of_length_le (by omega)]
  | .use u :: acts, held, it, σ, hi, he, hnd, hit => by
    obtain ⟨σ1, e1, hi1⟩ := hi.use u
    obtain ⟨held', it', σ', e2, hi2, he2, ht⟩ := run_ok h hg hv filter ents items acts held it σ1 hi1 he hnd hit
    refine ⟨held', it', σ', ?_, hi2, he2, ?_⟩
    · unfold run
      rw [e1]
      exact e2
    · rw [ht]
      congr 1

theorem archIter_new {g : Group} (hv : (g.descriptor env).isValid = true) :
    ArchIter.new env g = .ok ⟨(g.descriptor env).len - 1, 0⟩ := by
  have gs := Group.spec hv
  have hpos : 1 ≤ (g.descriptor env).len := by
    have := gs.len; have := gs.wf.pos
    show 1 ≤ (g.descriptor env).archetype.len
    omega
  unfold ArchIter.new subU8
  rw [if_pos hpos]
  rfl

theorem mutIter_items (h : RInv W r cs) {g : Group} (hg : ∀ c ∈ g, W.Has c) (hv : (g.descriptor env).isValid = true)
    (filter : Option (ArchetypeDescriptor → Bool)) (ents : Bool) :
    (mutIter filter ents).items env r g = .ok ((yielded env r.archetypes g (passes filter)).map
      (fun i => (i, sliceRefs (contentAt cs i).cts g (contentAt cs i).ents.length))) := by
  cases filter with
  | none =>
    cases ents with
    | false => exact h.iterFilteredComponentsMatchingMut_eq hg hv _
    | true =>
      simp only [mutIter, MutIter.items]
      rw [iterEntityComponentsMatchingMut_filtered, h.iterFilteredEntityComponentsMatchingMut_eq hg hv]
      simp only [ok_bind, pure_eq_ok, List.map_map]
      rfl
  | some f =>
    cases ents with
    | false => exact h.iterFilteredComponentsMatchingMut_eq hg hv _
    | true =>
      simp only [mutIter, MutIter.items]
      rw [h.iterFilteredEntityComponentsMatchingMut_eq hg hv]
      simp only [ok_bind, pure_eq_ok, List.map_map]
      rfl

/-- Nothing held has lost its permission: the item of every slice is in the stacks of its bytes, that of the entity slice
in the stacks of the entities. -/
def Live (h : Held) (σ : State) : Prop :=
  (∀ x ∈ h.slices, ∀ l ∈ bytesAt h.arch x.1 0 x.1.len, ⟨x.2, .unique⟩ ∈ σ.stacks l) ∧
  ∀ x, h.ents = some x → ∀ k, k < x.1 → ⟨x.2, .sharedRO⟩ ∈ σ.stacks (.entity h.arch k)

theorem HeldOk.live {held : List Held} {σ : State} (h : HeldOk T held σ) : ∀ y ∈ held, Live y σ := by
  intro y hy
  obtain ⟨h1, h2⟩ := h y hy
  refine ⟨fun x hx l hl => ?_, fun x hx k hk => (h2 x hx k hk).mem⟩
  obtain ⟨rest, hr, _⟩ := h1 x hx l hl
  rw [hr]
  exact List.mem_cons_self

/-- **C90 for the four matching iterators.** A program calls `next` of a mutable iterator and reads and writes what it got
from this and earlier calls, in any order: neither the code nor the program ever uses a reference that Stacked Borrows
does not allow to be used. What it got are the items of the iterator, and none has lost its permission; afterwards the
next call can begin. -/
theorem C90_iterators (hr : Reachable W r) {g : Group} (hg : ∀ c ∈ g, W.Has c) (hv : (g.descriptor env).isValid = true)
    (filter : Option (ArchetypeDescriptor → Bool)) (ents : Bool) {σ : State} (hσ : Ready T r.archetypes.archetypes.length σ) (acts : List Act) :
    ∃ items it0 held it σ', (mutIter filter ents).items env r g = .ok items ∧ ArchIter.new env g = .ok it0 ∧
      run env T g filter ents r.archetypes acts [] it0 σ = .ok (held, it, σ') ∧
      held.map Held.item = items.take (nexts acts) ∧ (∀ h ∈ held, h.EntsOk ents ∧ Live h σ') ∧ Ready T r.archetypes.archetypes.length σ' := by
  obtain ⟨cs, h⟩ := hr.inv
  obtain ⟨held, it, σ', e, hi, he, ht⟩ := run_ok (T := T) h hg hv filter ents
    ((yielded env r.archetypes g (passes filter)).map
      (fun i => (i, sliceRefs (contentAt cs i).cts g (contentAt cs i).ents.length))) acts []
    ⟨(g.descriptor env).len - 1, 0⟩ σ hσ.inv (fun _ h => by cases h)
    (by rw [ArchIter.ahead_start]; exact h.arch.yielded_nodup (env := env) g (passes filter))
    (by rw [ArchIter.ahead_start]; rfl)
  refine ⟨_, _, held, it, σ', mutIter_items h hg hv filter ents, archIter_new hv, e, ?_, ?_, hi.ready⟩
  · rw [ht]
    simp
  · exact fun y hy => ⟨he y hy, hi.ok.live y hy⟩

theorem exact_cols (h : RInv W r cs) {g : Group} (hg : W.OkGroup g) (hv : (g.descriptor env).isValid = true) {ct : Content}
    (hcts : ct.cts = g.cts env) (n : Nat) : ((sliceRefs ct.cts g n).map (fun s => s.base.col)).Nodup :=
  sliceRefs_cols (Group.spec hv) (fun c hc => by rw [hcts]; exact ((Group.spec hv).mem_cts hg).mpr hc) n

theorem runUses_one {n : Nat} {o : Option Held} (us : List Use) {σ : State} (h : Inv T n o.toList σ) :
    ∃ σ', runUses o.toList us σ = .ok σ' ∧ (∀ y ∈ o, Live y σ') ∧ Ready T n σ' := by
  obtain ⟨σ', e, h', hE, hf⟩ := runUses_ok us h.ok h.ents
  refine ⟨σ', e, fun y hy => h'.live y (by simpa using hy), fun i hlt => ?_, fun i c o => ?_, hE⟩
  · rw [hf _ (fun i k h => by cases h)]; exact h.reg i hlt
  · rw [hf _ (fun i k h => by cases h)]; exact h.cols i c o

theorem entsOk_exact {i : Nat} {xs : List (SliceRef × Nat)} {ct : Content} {g : Group} {n t : Nat}
    (hx : xs.map Prod.fst = sliceRefs ct.cts g n) : (Held.mk i xs (some (n, t))).EntsOk true := by
  refine ⟨rfl, fun x hx' s hs => ?_⟩
  cases hx'
  have : s.1 ∈ xs.map Prod.fst := List.mem_map.mpr ⟨s, hs, rfl⟩
  rw [hx] at this
  obtain ⟨c, _, hc⟩ := List.mem_map.mp this
  rw [← hc]

theorem find_id (h : RInv W r cs) {g : Group} (hg : W.OkGroup g) (hv : (g.descriptor env).isValid = true) {i : Nat}
    {a : Archetype} (q1 : r.archetypes.findArchetype env (g.descriptor env).archetype = .ok (some i))
    (q2 : r.archetypes.archetypes[i]? = some a) : (g.descriptor env).archetype.archetypeId = a.descriptor.archetypeId := by
  rcases h.find_group hg hv with ⟨i', a', ct', p1, p2, p3, p4, p5, p6⟩ | ⟨p1, _⟩
  · rw [q1] at p1
    cases p1
    rw [q2] at p2
    cases p2
    exact p6
  · rw [q1] at p1; cases p1

/-- **C90 for `iter_components_exact_mut`.** -/
theorem C90_exact (hr : Reachable W r) {g : Group} (hg : W.OkGroup g) (hv : (g.descriptor env).isValid = true) {σ : State}
    (hσ : Ready T r.archetypes.archetypes.length σ) (us : List Use) :
    ∃ o σ' σ'', exactMut env T r g σ = .ok (o, σ') ∧ MutIter.exact.items env r g = .ok (o.map Held.item).toList ∧
      (∀ h ∈ o, h.EntsOk false) ∧ runUses o.toList us σ' = .ok σ'' ∧ (∀ h ∈ o, Live h σ'') ∧ Ready T r.archetypes.archetypes.length σ'' := by
  obtain ⟨cs, h⟩ := hr.inv
  have gs := Group.spec hv
  rcases h.iterExact_eq hg hv with ⟨i, a, ct, q1, q2, q3, q4, q5, q6, q7, q8, q9⟩ | ⟨q1, q2, q3, q4, q5⟩
  · obtain ⟨σ2, e5, o2, _, f2⟩ := struct_mut (hσ.1 i (List.getElem?_eq_some_iff.mp q2).1)
    obtain ⟨σ3, e6, _, o3, f3⟩ := peek_ok o2.granted.1
    obtain ⟨xs, σ4, e7, m1, m2, m4, m3⟩ := slicesMut_ok (T := T) (i := i) (sliceRefs ct.cts g ct.ents.length) σ3
      (exact_cols h hg hv q5 _) (by
        intro i' c o
        rw [f3 _ (by intro h; cases h), f2 _ (by intro h; cases h)]
        exact hσ.2.1 i' c o)
    have hk : Inv T r.archetypes.archetypes.length (some (⟨i, xs, none⟩ : Held)).toList σ4 := by
      refine ⟨fun j hlt => ?_, m4, fun j k => ?_, fun y hy => ?_⟩
      · rw [m3 _ (fun c o _ h => by cases h)]
        exact ((hσ.inv.reg.one f2 o2.granted.2).one f3 (o3 _ o2).granted.2) j hlt
      · rw [m3 _ (fun c o _ h => by cases h), f3 _ (by intro h; cases h), f2 _ (by intro h; cases h)]
        exact hσ.2.2 j k
      · rw [List.mem_singleton.mp hy]
        exact ⟨m2, fun x hx => by cases hx⟩
    obtain ⟨σ5, e8, hl⟩ := runUses_one us hk
    refine ⟨_, σ4, σ5, ?_, ?_, ?_, e8, hl⟩
    · unfold exactMut
      rw [lift_ok q1]
      simp only [Except.bind, bind]
      rw [e5]
      simp only []
      rw [e6]
      simp only []
      rw [lift_ok (index_of_getElem? q2)]
      simp only []
      rw [lift_ok (q4.getSlicesExactMut_ok hg gs q5 (find_id h hg hv q1 q2))]
      simp only []
      rw [e7]
      rfl
    · simp only [MutIter.items]
      rw [q7]
      simp only [ok_bind, pure_eq_ok, Held.item, Option.map_some, Option.toList_some, m1]
    · intro y hy
      cases hy
      exact ⟨rfl, fun x hx => by cases hx⟩
  · obtain ⟨σ5, e8, hl⟩ := runUses_one (o := none) (σ := σ) us hσ.inv
    refine ⟨none, σ, σ5, ?_, ?_, (fun y hy => by cases hy), e8, hl⟩
    · unfold exactMut
      rw [lift_ok q1]
      rfl
    · simp only [MutIter.items]
      rw [q3]
      rfl

/-- **C90 for `iter_entity_components_exact_mut`.** -/
theorem C90_entity_exact (hr : Reachable W r) {g : Group} (hg : W.OkGroup g) (hv : (g.descriptor env).isValid = true)
    {σ : State} (hσ : Ready T r.archetypes.archetypes.length σ) (us : List Use) :
    ∃ o σ' σ'', entityExactMut env T r g σ = .ok (o, σ') ∧
      MutIter.entityExact.items env r g = .ok (o.map Held.item).toList ∧
      (∀ h ∈ o, h.EntsOk true) ∧ runUses o.toList us σ' = .ok σ'' ∧ (∀ h ∈ o, Live h σ'') ∧ Ready T r.archetypes.archetypes.length σ'' := by
  obtain ⟨cs, h⟩ := hr.inv
  have gs := Group.spec hv
  rcases h.iterExact_eq hg hv with ⟨i, a, ct, q1, q2, q3, q4, q5, q6, q7, q8, q9⟩ | ⟨q1, q2, q3, q4, q5⟩
  · obtain ⟨σ1, e1, o1, _, f1⟩ := struct_mut (hσ.1 i (List.getElem?_eq_some_iff.mp q2).1)
    obtain ⟨σ2, e2, o2, f2⟩ := retag_ok (σ := σ1) (t := σ.next) (k := .raw) (ls := [.struct i])
      (fun _ s => Over σ1.next T.registry s) (fun l hl => by
        rw [List.mem_singleton.mp hl]; exact reborrow_raw σ1.next o1)
    have o2 := o2 _ List.mem_cons_self
    obtain ⟨tag, σ3, e3, g3, o3, m4, m5, f3⟩ := entitiesRef_ok (T := T) (a := a) (i := i) o2.granted.1 (by
      intro i' k
      rw [f2 _ (notMem_one (by intro h; cases h)), f1 _ (by intro h; cases h)]
      exact hσ.2.2 i' k)
    have o3 := o3 _ o2
    obtain ⟨σ4, e4, o4, _, f4⟩ := struct_mut o3.granted.2
    obtain ⟨σ5, e5, _, o5, f5⟩ := peek_ok o4.granted.1
    obtain ⟨xs, σ6, e6, m1, m2, m6, m3⟩ := slicesMut_ok (T := T) (i := i) (sliceRefs ct.cts g ct.ents.length) σ5
      (exact_cols h hg hv q5 _) (by
        intro i' c o
        rw [f5 _ (by intro h; cases h), f4 _ (by intro h; cases h), f3 _ (by intro h; cases h) (by intro k h; cases h),
          f2 _ (notMem_one (by intro h; cases h)), f1 _ (by intro h; cases h)]
        exact hσ.2.1 i' c o)
    have hk : Inv T r.archetypes.archetypes.length (some (⟨i, xs, some (a.entityCount, tag)⟩ : Held)).toList σ6 := by
      refine ⟨fun j hlt => ?_, m6, fun j k => ?_, fun y hy => ?_⟩
      · rw [m3 _ (fun c o _ h => by cases h)]
        by_cases hj : j = i
        · rw [hj]; exact (o5 _ o4).granted.2
        · rw [f5 _ (by intro h; cases h; exact hj rfl), f4 _ (by intro h; cases h; exact hj rfl),
            f3 _ (by intro h; cases h; exact hj rfl) (by intro k h; cases h),
            f2 _ (notMem_one (by intro h; cases h; exact hj rfl)), f1 _ (by intro h; cases h; exact hj rfl)]
          exact hσ.1 j hlt
      · rw [m3 _ (fun c o _ h => by cases h), f5 _ (by intro h; cases h), f4 _ (by intro h; cases h)]
        exact m5 j k
      · rw [List.mem_singleton.mp hy]
        refine ⟨m2, fun x hx k hk => ?_⟩
        cases hx
        rw [m3 _ (fun c o _ h => by cases h), f5 _ (by intro h; cases h), f4 _ (by intro h; cases h)]
        exact m4 k hk
    obtain ⟨σ7, e8, hl⟩ := runUses_one us hk
    refine ⟨_, σ6, σ7, ?_, ?_, ?_, e8, hl⟩
    · unfold entityExactMut
      rw [lift_ok q1]
      simp only [Except.bind, bind]
      rw [lift_ok (index_of_getElem? q2)]
      simp only []
      rw [e1]
      simp only []
      rw [e2]
      simp only []
      rw [e3]
      simp only []
      rw [e4]
      simp only []
      rw [e5]
      simp only []
      rw [lift_ok (q4.getSlicesExactMut_ok hg gs q5 (find_id h hg hv q1 q2))]
      simp only []
      rw [e6]
      rfl
    · simp only [MutIter.items]
      rw [q9]
      simp only [ok_bind, pure_eq_ok, Held.item, Option.map_some, Option.toList_some, m1, List.map_cons, List.map_nil]
    · intro y hy
      cases hy
      rw [q4.count]
      exact entsOk_exact m1
  · obtain ⟨σ5, e8, hl⟩ := runUses_one (o := none) (σ := σ) us hσ.inv
    refine ⟨none, σ, σ5, ?_, ?_, (fun y hy => by cases hy), e8, hl⟩
    · unfold entityExactMut
      rw [lift_ok q1]
      rfl
    · simp only [MutIter.items]
      rw [q5]
      rfl

/-- **C90 for `get_components_mut`.** -/
theorem C90_components (hr : Reachable W r) {g : Group} (hg : ∀ c ∈ g, W.Has c) (hv : (g.descriptor env).isValid = true)
    (e : Entity) {σ : State} (hσ : Ready T r.archetypes.archetypes.length σ) (us : List Use) :
    ∃ o σ' σ'', componentsMut env T r g e σ = .ok (o, σ') ∧
      r.getComponentsMut env g e = .ok (o.map (fun h => (h.arch, h.slices.map (fun x => (x.1.cty, some x.1.base))))) ∧
      (∀ h ∈ o, ∀ x ∈ h.slices, x.1.len = 1) ∧ runUses o.toList us σ' = .ok σ'' ∧ (∀ h ∈ o, Live h σ'') ∧ Ready T r.archetypes.archetypes.length σ'' := by
  obtain ⟨cs, h⟩ := hr.inv
  have gs := Group.spec hv
  rcases h.getComponentsMut_eq hg hv e with ⟨h1, h2⟩ | ⟨f, ai, ref, h1, h2, h3, h4⟩
  · obtain ⟨σ5, e8, hl⟩ := runUses_one (o := none) (σ := σ) us hσ.inv
    refine ⟨none, σ, σ5, ?_, h2, (fun y hy => by cases hy), e8, hl⟩
    unfold componentsMut
    rw [lift_ok h2]
    rfl
  · have hai : ai < r.archetypes.archetypes.length := by
      obtain ⟨c, hc⟩ := List.exists_mem_of_length_pos (show 0 < g.length by have := gs.wf.pos; omega)
      obtain ⟨_, _, _, _, p2, _⟩ := h4 c hc
      rw [← h.arch.len]
      exact (List.getElem?_eq_some_iff.mp p2).1
    obtain ⟨σ1, e1, g1, _, f1⟩ := peek_ok (hσ.1 ai hai)
    obtain ⟨σ2, e2, o2, _, f2⟩ := struct_mut g1
    obtain ⟨σ3, e3, _, o3, f3⟩ := peek_ok o2.granted.1
    have hone : oneElem (g.map (fun c => (c, some (ref c)))) = g.map (fun c => ⟨c, ref c, 1⟩) := by
      unfold oneElem
      rw [List.filterMap_map, ← List.filterMap_eq_map]
      rfl
    have hcols : ((g.map (fun c => (⟨c, ref c, 1⟩ : SliceRef))).map (fun s => s.base.col)).Nodup := by
      have hnd : g.Nodup := nodup_of_map gs.wf.nodup
      rw [List.map_map]
      unfold List.Nodup
      rw [List.pairwise_map]
      refine List.Pairwise.imp_of_mem ?_ hnd
      intro c c' hc hc' hne he
      obtain ⟨k, i, ct, p1, p2, p3, p4⟩ := h4 c hc
      obtain ⟨k', i', ct', p1', p2', p3', p4'⟩ := h4 c' hc'
      rw [p2] at p2'
      cases p2'
      simp only [Function.comp, p4, p4'] at he
      subst he
      rw [p3] at p3'
      exact hne (Option.some.inj p3')
    obtain ⟨xs, σ4, e7, m1, m2, m4, m3⟩ := slicesMut_ok (T := T) (i := ai) (g.map (fun c => ⟨c, ref c, 1⟩)) σ3 hcols (by
        intro i' c o
        rw [f3 _ (by intro h; cases h), f2 _ (by intro h; cases h), f1 _ (by intro h; cases h)]
        exact hσ.2.1 i' c o)
    have hk : Inv T r.archetypes.archetypes.length (some (⟨ai, xs, none⟩ : Held)).toList σ4 := by
      refine ⟨fun j hlt => ?_, m4, fun j k => ?_, fun y hy => ?_⟩
      · rw [m3 _ (fun c o _ h => by cases h)]
        exact (((hσ.inv.reg.one f1 g1).one f2 o2.granted.2).one f3 (o3 _ o2).granted.2) j hlt
      · rw [m3 _ (fun c o _ h => by cases h), f3 _ (by intro h; cases h), f2 _ (by intro h; cases h),
          f1 _ (by intro h; cases h)]
        exact hσ.2.2 j k
      · rw [List.mem_singleton.mp hy]
        exact ⟨m2, fun x hx => by cases hx⟩
    obtain ⟨σ5, e8, hl⟩ := runUses_one us hk
    refine ⟨_, σ4, σ5, ?_, ?_, ?_, e8, hl⟩
    · unfold componentsMut
      rw [lift_ok h3]
      simp only [Except.bind, bind]
      rw [e1]
      simp only []
      rw [e2]
      simp only []
      rw [e3]
      simp only []
      rw [hone, e7]
      rfl
    · rw [h3]
      simp only [Option.map_some]
      have : xs.map (fun x => (x.1.cty, some x.1.base)) = (xs.map Prod.fst).map (fun s => (s.cty, some s.base)) := by
        rw [List.map_map]; rfl
      rw [this, m1, List.map_map]
      rfl
    · intro y hy x hx
      cases hy
      have : x.1 ∈ xs.map Prod.fst := List.mem_map.mpr ⟨x, hx, rfl⟩
      rw [m1] at this
      obtain ⟨c, _, hc⟩ := List.mem_map.mp this
      rw [← hc]

/-! ## What would not be allowed -/

/-- `visit`: its first step, and its last if it returns a reference. -/
theorem visit_inv {P : State → Prop} (hP : Kept P) {gd : ArchetypeDescriptor} {filter : Option (ArchetypeDescriptor → Bool)}
    {ar : ArchetypeRegistry} {i : Nat} {a : Archetype} {σ σ' : State} {o : Option Nat}
    (he : visit T gd filter ar i a σ = .ok (o, σ')) :
    (∃ t1 σ1, σ.retag T.registry .mutRef (structs ar) = .ok (t1, σ1) ∧ (P σ1 → P σ')) ∧
    ∀ t, o = some t → ∃ τ u, (P σ → P τ) ∧ τ.retag u .mutRef [.struct i] = .ok (t, σ') := by
  unfold visit at he
  obtain ⟨⟨t1, σ1⟩, h1, he⟩ := bind_inv he
  obtain ⟨⟨t2, σ2⟩, h2, he⟩ := bind_inv he
  obtain ⟨⟨t3, σ3⟩, h3, he⟩ := bind_inv he
  obtain ⟨σ4, h4, he⟩ := bind_inv he
  have k4 : P σ1 → P σ4 := fun h => hP.peek (hP.retag (hP.retag h h2) h3) h4
  simp only [] at he
  split at he
  · cases filter with
    | none =>
      simp only [] at he
      obtain ⟨⟨t4, σ5⟩, h5, he⟩ := bind_inv he
      cases he
      refine ⟨⟨t1, σ1, h1, fun h => hP.retag (k4 h) h5⟩, fun t ht => ?_⟩
      cases ht
      exact ⟨σ4, t3, fun h => k4 (hP.retag h h1), h5⟩
    | some f =>
      simp only [] at he
      obtain ⟨σ5, h5, he⟩ := bind_inv he
      split at he
      · obtain ⟨⟨t4, σ6⟩, h6, he⟩ := bind_inv he
        cases he
        refine ⟨⟨t1, σ1, h1, fun h => hP.retag (hP.peek (k4 h) h5) h6⟩, fun t ht => ?_⟩
        cases ht
        exact ⟨σ5, t3, fun h => hP.peek (k4 (hP.retag h h1)) h5, h6⟩
      · cases he
        exact ⟨⟨t1, σ1, h1, fun h => hP.peek (k4 h) h5⟩, fun t ht => by cases ht⟩
  · cases he
    exact ⟨⟨t1, σ1, h1, k4⟩, fun t ht => by cases ht⟩

theorem kept_fresh : Kept (fun σ => Fresh σ ∧ T.registry < σ.next) where
  retag h he := ⟨h.1.retag he, by have := (retag_inv he).2.1; have := h.2; omega⟩
  access h he := ⟨h.1.access he, by have := (update_inv he).1; have := h.2; omega⟩

theorem kept_gone (v : Nat) (l : Loc) : Kept (Gone v l) where
  retag h he := h.retag he
  access h he := h.access he

/-- A write through what was there before removes the item of a fresh `&mut`. -/
theorem write_removes {t u : Nat} {s s' : Stack} (h : access true u (⟨t, .unique⟩ :: s) = some s') (hu : u ≠ t)
    (hs : ¬ Tagged t s) : ¬ Tagged t s' := by
  unfold access at h
  cases hy : split (Item.grants true u) (⟨t, .unique⟩ :: s) with
  | none => rw [hy] at h; cases h
  | some y =>
    rw [hy] at h
    simp only [Option.map_some, if_true, Option.some.injEq] at h
    obtain ⟨h1, h2⟩ := split_mem hy
    rintro ⟨x, hx, hxt⟩
    rw [← h] at hx
    obtain ⟨a, z, b⟩ := y
    cases a with
    | nil =>
      simp only [List.nil_append, List.cons.injEq] at h1
      rw [← h1.1] at h2
      simp only [Item.grants, Bool.and_eq_true, beq_iff_eq] at h2
      exact hu h2.1.symm
    | cons w a =>
      simp only [List.cons_append, List.cons.injEq] at h1
      rcases List.mem_append.mp hx with hx | hx
      · obtain ⟨q1, q2⟩ := mem_compatible hx
        rcases List.mem_cons.mp q1 with q1 | q1
        · rw [q1, ← h1.1] at q2; cases q2
        · exact hs ⟨x, by rw [h1.2]; exact List.mem_append_left _ q1, hxt⟩
      · exact hs ⟨x, by rw [h1.2]; exact List.mem_append_right _ hx, hxt⟩

/-- **Why the archetype iterators are not for the user.** A `&mut Archetype` that the archetype iterator returned must not
be used once the iterator has gone on: any read or write through it is undefined behaviour. (The iterators of C90 keep only
the slices, which are not made from it.) -/
theorem C90_archetype_not_kept {gd gd' : ArchetypeDescriptor} {filter filter' : Option (ArchetypeDescriptor → Bool)}
    {ar : ArchetypeRegistry} {i j t : Nat} {a b : Archetype} {σ σ1 σ2 : State} {o : Option Nat}
    (hf : Fresh σ) (hT : T.registry < σ.next) (hi : i < ar.archetypes.length)
    (h1 : visit T gd filter ar i a σ = .ok (some t, σ1)) (h2 : visit T gd' filter' ar j b σ1 = .ok (o, σ2)) (w : Bool) :
    σ2.access w t [.struct i] = .error .aliasing := by
  obtain ⟨_, hlast⟩ := visit_inv (kept_fresh (T := T)) h1
  obtain ⟨τ, u, hτ, e1⟩ := hlast t rfl
  obtain ⟨hτ, hT'⟩ := hτ ⟨hf, hT⟩
  obtain ⟨rfl, hn, hst⟩ := retag_inv e1
  obtain ⟨⟨t1, σ1', e2, hgone⟩, _⟩ := visit_inv (kept_gone τ.next (.struct i)) h2
  have : Gone τ.next (.struct i) σ1' := by
    obtain ⟨_, hn2, hst2⟩ := retag_inv e2
    refine ⟨by omega, ?_⟩
    rcases hst (.struct i) with ⟨_, q1⟩ | ⟨q1, _⟩
    · rcases hst2 (.struct i) with ⟨_, q2⟩ | ⟨q2, _⟩
      · simp only [reborrow] at q1 q2
        cases hs : Borrow.access true u (τ.stacks (.struct i)) with
        | none => rw [hs] at q1; cases q1
        | some s =>
          rw [hs] at q1
          simp only [Option.map_some, Option.some.injEq] at q1
          rw [← q1] at q2
          cases hs2 : Borrow.access true T.registry (⟨τ.next, .unique⟩ :: s) with
          | none => rw [hs2] at q2; cases q2
          | some s2 =>
            rw [hs2] at q2
            simp only [Option.map_some, Option.some.injEq] at q2
            have hrm := write_removes hs2 (by omega) (fun hu => by
              have := hτ _ _ (access_tags hs hu)
              omega)
            rw [← q2]
            rintro ⟨x, hx, hxt⟩
            rcases List.mem_cons.mp hx with hx | hx
            · rw [hx] at hxt
              simp only [] at hxt
              omega
            · exact hrm ⟨x, hx, hxt⟩
      · exact absurd (List.mem_map.mpr ⟨i, List.mem_range.mpr hi, rfl⟩) q2
    · exact absurd List.mem_cons_self q1
  have hg2 := hgone this
  unfold State.access State.update
  rw [if_neg]
  intro hall
  have := hall _ List.mem_cons_self
  unfold Borrow.access at this
  rw [split_none] at this
  · cases this
  · intro x hx
    have hne : x.tag ≠ τ.next := fun h => hg2.2 ⟨x, hx, h⟩
    simp [Item.grants, hne]

/-! ## Concrete instances -/

/-- The registry has a `&mut`, the columns raw pointers. -/
def exTags : Tags := ⟨0, fun _ _ => 1, fun _ => 2⟩

/-- The stacks when the call is made. -/
def exState : State where
  stacks
    | .struct _ => [⟨0, .unique⟩]
    | .byte _ _ _ => [⟨1, .sharedRW⟩]
    | .entity _ _ => [⟨2, .sharedRW⟩]
  next := 3

theorem exReady (n : Nat) : Ready exTags n exState :=
  ⟨fun _ _ => ⟨_, List.mem_cons_self, rfl⟩, fun _ _ _ => ⟨_, List.mem_cons_self, rfl⟩, fun _ _ => ⟨_, List.mem_cons_self, rfl⟩⟩

/-- C90 on `exR`: the iterator over `[exA]` goes twice, then both slices are written and the entities of the first are read. -/
example : ∃ items it0 held it σ', (mutIter none true).items exEnv exR [exA] = .ok items ∧ ArchIter.new exEnv [exA] = .ok it0 ∧
    run exEnv exTags [exA] none true exR.archetypes
      [.next, .use (.elem 0 0 0 true), .next, .use (.elem 1 0 0 true), .use (.elem 0 0 0 true), .use (.entity 0 0)] []
      it0 exState = .ok (held, it, σ') ∧
    held.map Held.item = items.take 2 ∧ (∀ h ∈ held, h.EntsOk true ∧ Live h σ') ∧
    Ready exTags exR.archetypes.archetypes.length σ' :=
  C90_iterators exReachable (g := [exA]) (by simp [exWorld, World.ofLists]) (by decide +kernel) none true (exReady _) _

/-- There are three items. -/
example : ((mutIter none true).items exEnv exR [exA]).toOption.map List.length = some 3 := by decide +kernel

/-- The hypotheses of the other theorems hold for `exR`. -/
example : Reachable exWorld exR ∧ exWorld.OkGroup [exA] ∧ (Group.descriptor exEnv [exA]).isValid = true ∧ Ready exTags exR.archetypes.archetypes.length exState ∧
    (MutIter.exact.items exEnv exR [exA]).toOption.map List.length = some 1 ∧
    (exR.getComponentsMut exEnv [exA] exE1).toOption.map Option.isSome = some true :=
  ⟨exReachable, ⟨by simp [exWorld, World.ofLists], by simp [exWorld, World.ofLists, Group.idSet]; decide +kernel⟩,
    by decide +kernel, exReady _, by decide +kernel, by decide +kernel⟩

/-- The hypotheses of `C90_archetype_not_kept`: the archetype iterator visits archetypes 0 and 1 of `exR`. -/
example : Fresh exState ∧ exTags.registry < exState.next ∧ 0 < exR.archetypes.archetypes.length ∧
    (do let a ← lift (index exR.archetypes.archetypes 0)
        let b ← lift (index exR.archetypes.archetypes 1)
        let (t, σ) ← visit exTags a.descriptor none exR.archetypes 0 a exState
        let (u, σ) ← visit exTags b.descriptor none exR.archetypes 1 b σ
        return ((t, u), σ) : BM ((Option Nat × Option Nat) × State)).toOption.map Prod.fst = some (some 7, some 12) := by
  refine ⟨?_, by decide, by decide +kernel, by decide +kernel⟩
  intro l t ht
  obtain ⟨x, hx, rfl⟩ := ht
  cases l <;> (simp only [exState, List.mem_singleton] at hx; rw [hx]; decide)

end Shard.Borrow
