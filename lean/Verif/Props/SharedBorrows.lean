import Verif.Proofs.SharedBorrows
import Verif.Props.Borrows
/-!
# C91: whole programs that borrow the registry obey Stacked Borrows
-/

set_option autoImplicit false

namespace Shard.Borrow

variable {env : Env} {W : World env} {r : Registry} {T : Tags} {cs : List Content}

/-- One call of `next` of a shared iterator. -/
theorem nextRef_ok (h : RInv W r cs) {g : Group} (hg : ∀ c ∈ g, W.Has c) (hv : (g.descriptor env).isValid = true)
    (filter : Option (ArchetypeDescriptor → Bool)) (ents : Bool) {it : ArchIter} {σ : State} {S n : Nat}
    (hσ : Ready T n σ) (hS : Usable T S (structs r.archetypes) σ) :
    ∃ o it' σ', nextRef env T S g filter ents r.archetypes it σ = .ok (o, it', σ') ∧ Reads T n σ σ' ∧
      (∀ y, o = some y → RefHeld T σ' y ∧
        y.ents.map Prod.fst = (if ents then some (contentAt cs y.arch).ents.length else none) ∧
        y.item = (y.arch, sliceRefs (contentAt cs y.arch).cts g (contentAt cs y.arch).ents.length)) ∧
      selected (g.descriptor env).archetype (passes filter) r.archetypes (it.ahead r.archetypes) =
        o.toList.map Held.arch ++
          selected (g.descriptor env).archetype (passes filter) r.archetypes (it'.ahead r.archetypes) := by
  have gs := Group.spec hv
  obtain ⟨o, it', σ1, e1, e2, r1, k2⟩ := archNextRef_ok (env := env) h.arch (g := g) (filter := filter) it hσ hS
  obtain ⟨o2, it2, e3, hsel⟩ := ArchIter.next_spec h.arch hv (filter := passes filter) it
  rw [e2] at e3
  simp only [Except.ok.injEq, Prod.mk.injEq] at e3
  obtain ⟨rfl, rfl⟩ := e3
  cases o with
  | none =>
    rcases hsel with ⟨_, hs, hdone⟩ | ⟨i, hc, _⟩
    · refine ⟨none, it', σ1, ?_, r1, (fun y hy => by cases hy), ?_⟩
      · unfold nextRef
        rw [e1]
        rfl
      · obtain ⟨o3, it3, e4, hsel3⟩ := ArchIter.next_spec h.arch hv (filter := passes filter) it'
        rw [hdone] at e4
        simp only [Except.ok.injEq, Prod.mk.injEq] at e4
        obtain ⟨rfl, rfl⟩ := e4
        rcases hsel3 with ⟨_, hs3, _⟩ | ⟨i, hc, _⟩
        · rw [hs, hs3]; rfl
        · cases hc
    · cases hc
  | some x =>
    obtain ⟨i, t⟩ := x
    rcases hsel with ⟨hc, _⟩ | ⟨j, hc, hs⟩
    · cases hc
    · simp only [Option.map_some, Option.some.injEq] at hc
      subst hc
      have hacc : accepts (g.descriptor env).archetype (passes filter) r.archetypes i = true := by
        have : i ∈ selected (g.descriptor env).archetype (passes filter) r.archetypes (it.ahead r.archetypes) := by
          rw [hs]; exact List.mem_cons_self
        exact (List.mem_filter.mp this).2
      obtain ⟨a, ha, hcs, _⟩ := accepts_iff.mp hacc
      obtain ⟨ct, hct, hrep⟩ := h.arch.content ha
      have hsub := hrep.subset_of_contains hg hv hcs
      have hidx : indexUnchecked r.archetypes.archetypes i = .ok a := by unfold indexUnchecked; rw [ha]
      have hcts : contentAt cs i = ct := contentAt_of hct
      obtain ⟨σ2, e5, r2, u2⟩ := retag_ref r1.ready (k2 i t rfl)
      obtain ⟨σ3, e6, r3⟩ := peek_ref r2.ready u2
      have u3 := r3.keeps _ _ u2
      obtain ⟨es, σ4, e7, r4, h4, u4⟩ := entitiesIf_ok (a := a) ents r3.ready u3
      obtain ⟨σ5, e8, r5⟩ := peek_ref r4.ready (r4.keeps _ _ u3)
      obtain ⟨xs, σ6, e9, m1, r6, u6⟩ := slicesRef_ok (i := i) (sliceRefs ct.cts g ct.ents.length) σ5 r5.ready
      refine ⟨some ⟨i, xs, es⟩, it', σ6, ?_, ((((r1.trans r2).trans r3).trans r4).trans r5).trans r6, ?_, ?_⟩
      · unfold nextRef
        rw [e1]
        simp only [Except.bind, bind]
        rw [lift_ok hidx]
        simp only []
        unfold fuzzySlicesRef
        rw [e5]
        simp only [Except.bind, bind]
        rw [e6]
        simp only []
        rw [e7]
        simp only []
        rw [lift_ok (hrep.getFuzzySlicesMut_ok gs hsub)]
        simp only []
        rw [e8]
        simp only []
        rw [e9]
        rfl
      · intro y hy
        cases hy
        refine ⟨⟨u6, fun x hx => (r5.trans r6).keeps _ _ (u4 x hx)⟩, ?_, ?_⟩
        · simp only [hcts, h4, hrep.count]
        · simp only [Held.item, m1, hcts]
      · rw [hs]; rfl

theorem exactRef_ok (h : RInv W r cs) {g : Group} (hg : W.OkGroup g) (hv : (g.descriptor env).isValid = true) (ents : Bool)
    {σ : State} {S n : Nat} (hσ : Ready T n σ) (hS : Usable T S (structs r.archetypes) σ) :
    ∃ o σ', exactRef env T S r g ents σ = .ok (o, σ') ∧ Reads T n σ σ' ∧
      (∀ y ∈ o.toList, RefHeld T σ' y) ∧ MutIter.exact.items env r g = .ok (o.map Held.item).toList := by
  have gs := Group.spec hv
  rcases h.iterExact_eq hg hv with ⟨i, a, ct, q1, q2, q3, q4, q5, q6, q7, q8, q9⟩ | ⟨q1, q2, q3, q4, q5⟩
  · obtain ⟨σ1, e1, r1, u1⟩ := retag_ref hσ (hS.sub (struct_mem (List.getElem?_eq_some_iff.mp q2).1))
    obtain ⟨es, σ2, e2, r2, _, u2⟩ := entitiesIf_ok (a := a) ents r1.ready u1
    obtain ⟨σ3, e3, r3, u3⟩ := retag_ref r2.ready (r2.keeps _ _ u1)
    obtain ⟨σ4, e4, r4⟩ := peek_ref r3.ready u3
    obtain ⟨xs, σ5, e5, m1, r5, u5⟩ := slicesRef_ok (i := i) (sliceRefs ct.cts g ct.ents.length) σ4 r4.ready
    refine ⟨some ⟨i, xs, es⟩, σ5, ?_, (((r1.trans r2).trans r3).trans r4).trans r5, ?_, ?_⟩
    · unfold exactRef
      rw [lift_ok q1]
      simp only [Except.bind, bind]
      rw [lift_ok (index_of_getElem? q2)]
      simp only []
      rw [e1]
      simp only []
      rw [e2]
      simp only []
      rw [e3]
      simp only []
      rw [e4]
      simp only []
      rw [lift_ok (q4.getSlicesExactMut_ok hg gs q5 (find_id h hg hv q1 q2))]
      simp only []
      rw [e5]
      rfl
    · intro y hy
      rw [List.mem_singleton.mp hy]
      exact ⟨u5, fun x hx => ((r3.trans r4).trans r5).keeps _ _ (u2 x hx)⟩
    · simp only [MutIter.items]
      rw [q7]
      simp only [ok_bind, pure_eq_ok, Held.item, Option.map_some, Option.toList_some, m1]
  · refine ⟨none, σ, ?_, Reads.refl hσ, (fun y hy => by cases hy), ?_⟩
    · unfold exactRef
      rw [lift_ok q1]
      rfl
    · simp only [MutIter.items]
      rw [q3]
      rfl

theorem componentsRef_ok (h : RInv W r cs) {g : Group} (hg : ∀ c ∈ g, W.Has c) (hv : (g.descriptor env).isValid = true)
    (e : Entity) {σ : State} {S n : Nat} (hσ : Ready T n σ) (hS : Usable T S (structs r.archetypes) σ) :
    ∃ o σ', componentsRef env T S r g e σ = .ok (o, σ') ∧ Reads T n σ σ' ∧ (∀ y ∈ o.toList, RefHeld T σ' y) ∧
      r.getComponentsMut env g e = .ok (o.map (fun h => (h.arch, h.slices.map (fun x => (x.1.cty, some x.1.base))))) := by
  have gs := Group.spec hv
  rcases h.getComponentsMut_eq hg hv e with ⟨h1, h2⟩ | ⟨f, ai, ref, h1, h2, h3, h4⟩
  · refine ⟨none, σ, ?_, Reads.refl hσ, (fun y hy => by cases hy), h2⟩
    unfold componentsRef
    rw [lift_ok h2]
    rfl
  · have hai : ai < r.archetypes.archetypes.length := by
      obtain ⟨c, hc⟩ := List.exists_mem_of_length_pos (show 0 < g.length by have := gs.wf.pos; omega)
      obtain ⟨_, _, _, _, p2, _⟩ := h4 c hc
      rw [← h.arch.len]
      exact (List.getElem?_eq_some_iff.mp p2).1
    obtain ⟨σ1, e1, r1, u1⟩ := retag_ref hσ (hS.sub (struct_mem hai))
    obtain ⟨σ2, e2, r2⟩ := peek_ref r1.ready u1
    obtain ⟨σ3, e3, r3, u3⟩ := retag_ref r2.ready (r2.keeps _ _ u1)
    obtain ⟨σ4, e4, r4⟩ := peek_ref r3.ready u3
    obtain ⟨xs, σ5, e5, m1, r5, u5⟩ := slicesRef_ok (i := ai) (g.map (fun c => (⟨c, ref c, 1⟩ : SliceRef))) σ4 r4.ready
    have hone : oneElem (g.map (fun c => (c, some (ref c)))) = g.map (fun c => ⟨c, ref c, 1⟩) := by
      unfold oneElem
      rw [List.filterMap_map, ← List.filterMap_eq_map]
      rfl
    refine ⟨some ⟨ai, xs, none⟩, σ5, ?_, (((r1.trans r2).trans r3).trans r4).trans r5, ?_, ?_⟩
    · unfold componentsRef
      rw [lift_ok h3]
      simp only [Except.bind, bind]
      rw [e1]
      simp only []
      rw [e2]
      simp only []
      rw [e3]
      simp only []
      rw [e4]
      simp only []
      rw [hone, e5]
      rfl
    · intro y hy
      rw [List.mem_singleton.mp hy]
      exact ⟨u5, fun x hx => by cases hx⟩
    · rw [h3]
      simp only [Option.map_some]
      have : xs.map (fun x => (x.1.cty, some x.1.base)) = (xs.map Prod.fst).map (fun s => (s.cty, some s.base)) := by
        rw [List.map_map]; rfl
      rw [this, m1, List.map_map]
      rfl

/-! ## Programs with a shared reference -/

/-- The groups have valid descriptors. -/
def SharedAct.Ok (W : World env) : SharedAct → Prop
  | .iter g _ _ => (∀ c ∈ g, W.Has c) ∧ (g.descriptor env).isValid = true
  | .exact g _ => W.OkGroup g ∧ (g.descriptor env).isValid = true
  | .components g _ => (∀ c ∈ g, W.Has c) ∧ (g.descriptor env).isValid = true
  | .next _ => True
  | .read _ _ _ => True
  | .readEntity _ _ => True

/-- What the iterator has yielded is what it has to yield, as far as it goes. -/
def SharedIter.Good (env : Env) (r : Registry) (x : SharedIter) : Prop :=
  ∃ items, (mutIter x.filter x.ents).items env r x.group = .ok items ∧ x.got <+: items

/-- The invariant of a shared iterator. -/
def SharedIter.Inv (W : World env) (r : Registry) (cs : List Content) (x : SharedIter) : Prop :=
  (∀ c ∈ x.group, W.Has c) ∧ (x.group.descriptor env).isValid = true ∧
  (yielded env r.archetypes x.group (passes x.filter)).map
      (fun i => (i, sliceRefs (contentAt cs i).cts x.group (contentAt cs i).ents.length)) =
    x.got ++ (selected (x.group.descriptor env).archetype (passes x.filter) r.archetypes (x.it.ahead r.archetypes)).map
      (fun i => (i, sliceRefs (contentAt cs i).cts x.group (contentAt cs i).ents.length))

theorem SharedIter.Inv.good (h : RInv W r cs) {x : SharedIter} (hx : x.Inv W r cs) : x.Good env r :=
  ⟨_, mutIter_items h hx.1 hx.2.1 x.filter x.ents, _, hx.2.2.symm⟩

/-- The invariant of a program with a `&Registry`. -/
structure SharedInv (W : World env) (T : Tags) (S n : Nat) (r : Registry) (cs : List Content) (s : SharedState) : Prop where
  ready : Ready T n s.borrows
  reg : Usable T S (structs r.archetypes) s.borrows
  held : ∀ y ∈ s.held, RefHeld T s.borrows y
  iters : ∀ x ∈ s.iters, x.Inv W r cs

theorem SharedInv.step (h : RInv W r cs) {S n : Nat} {s : SharedState} (hs : SharedInv W T S n r cs s) {a : SharedAct} (ha : a.Ok W) :
    ∃ s', a.run env T S r s = .ok s' ∧ SharedInv W T S n r cs s' ∧ (Fresh s.borrows → Fresh s'.borrows) := by
  cases a with
  | iter g filter ents =>
    refine ⟨⟨s.iters ++ [⟨g, filter, ents, _, []⟩], s.held, s.borrows⟩,
      by simp only [SharedAct.run]; rw [lift_ok (archIter_new ha.2)]; rfl, ⟨hs.ready, hs.reg, hs.held, ?_⟩, fun h => h⟩
    intro x hx
    rcases List.mem_append.mp hx with hx | hx
    · exact hs.iters x hx
    · rw [List.mem_singleton.mp hx]
      refine ⟨ha.1, ha.2, ?_⟩
      simp only []
      rw [ArchIter.ahead_start]
      rfl
  | next m =>
    simp only [SharedAct.run]
    cases hm : s.iters[m]? with
    | none => exact ⟨s, rfl, hs, fun h => h⟩
    | some x =>
      obtain ⟨x1, x2, x3⟩ := hs.iters x (List.mem_of_getElem? hm)
      obtain ⟨o, it', σ', e, hr, hy, hsel⟩ := nextRef_ok (it := x.it) h x1 x2 x.filter x.ents hs.ready hs.reg
      refine ⟨⟨s.iters.set m { x with it := it', got := x.got ++ o.toList.map Held.item }, s.held ++ o.toList, σ'⟩,
        by simp only []; rw [e]; rfl, ⟨hr.ready, hr.keeps _ _ hs.reg, ?_, ?_⟩, hr.fresh⟩
      · intro y hm
        rcases List.mem_append.mp hm with hm | hm
        · exact (hs.held y hm).reads hr
        · exact (hy y (by simpa using hm)).1
      · intro z hz
        rcases List.mem_or_eq_of_mem_set hz with hz | hz
        · exact hs.iters z hz
        · rw [hz]
          refine ⟨x1, x2, ?_⟩
          simp only []
          rw [x3, hsel, List.map_append, List.append_assoc]
          congr 2
          cases o with
          | none => rfl
          | some y =>
            have := (hy y rfl).2.2
            simp only [Option.toList_some, List.map_cons, List.map_nil, ← this, Held.item]
  | exact g ents =>
    obtain ⟨o, σ', e, hr, hy, _⟩ := exactRef_ok h ha.1 ha.2 ents hs.ready hs.reg
    refine ⟨{ s with held := s.held ++ o.toList, borrows := σ' }, by simp only [SharedAct.run]; rw [e]; rfl,
      ⟨hr.ready, hr.keeps _ _ hs.reg, ?_, hs.iters⟩, hr.fresh⟩
    intro y hm
    rcases List.mem_append.mp hm with hm | hm
    · exact (hs.held y hm).reads hr
    · exact hy y hm
  | components g en =>
    obtain ⟨o, σ', e, hr, hy, _⟩ := componentsRef_ok h ha.1 ha.2 en hs.ready hs.reg
    refine ⟨{ s with held := s.held ++ o.toList, borrows := σ' }, by simp only [SharedAct.run]; rw [e]; rfl,
      ⟨hr.ready, hr.keeps _ _ hs.reg, ?_, hs.iters⟩, hr.fresh⟩
    intro y hm
    rcases List.mem_append.mp hm with hm | hm
    · exact (hs.held y hm).reads hr
    · exact hy y hm
  | read m j k =>
    obtain ⟨σ', e, hr⟩ := use_ref hs.ready hs.held (.elem m j k false) (fun _ _ _ h => by cases h)
    exact ⟨{ s with borrows := σ' }, by simp only [SharedAct.run]; rw [e]; rfl,
      ⟨hr.ready, hr.keeps _ _ hs.reg, fun y hy => (hs.held y hy).reads hr, hs.iters⟩, hr.fresh⟩
  | readEntity m k =>
    obtain ⟨σ', e, hr⟩ := use_ref hs.ready hs.held (.entity m k) (fun _ _ _ h => by cases h)
    exact ⟨{ s with borrows := σ' }, by simp only [SharedAct.run]; rw [e]; rfl,
      ⟨hr.ready, hr.keeps _ _ hs.reg, fun y hy => (hs.held y hy).reads hr, hs.iters⟩, hr.fresh⟩

theorem SharedInv.run (h : RInv W r cs) {S n : Nat} : ∀ (acts : List SharedAct) {s : SharedState}, SharedInv W T S n r cs s →
    (∀ a ∈ acts, a.Ok W) →
    ∃ s', runShared env T S r acts s = .ok s' ∧ SharedInv W T S n r cs s' ∧ (Fresh s.borrows → Fresh s'.borrows)
  | [], s, hs, _ => ⟨s, rfl, hs, fun h => h⟩
  | a :: acts, s, hs, hok => by
    obtain ⟨s1, e1, h1, f1⟩ := hs.step h (hok a List.mem_cons_self)
    obtain ⟨s2, e2, h2, f2⟩ := SharedInv.run h acts h1 (fun b hb => hok b (List.mem_cons_of_mem _ hb))
    refine ⟨s2, ?_, h2, fun h => f2 (f1 h)⟩
    unfold runShared
    rw [e1]
    exact e2

/-- Nothing held through a `&` has lost its permission. -/
def LiveRef (h : Held) (σ : State) : Prop :=
  (∀ x ∈ h.slices, ∀ l ∈ bytesAt h.arch x.1 0 x.1.len, ⟨x.2, .sharedRO⟩ ∈ σ.stacks l) ∧
  ∀ x, h.ents = some x → ∀ k, k < x.1 → ⟨x.2, .sharedRO⟩ ∈ σ.stacks (.entity h.arch k)

theorem shared_ok (h : RInv W r cs) {σ : State} {n : Nat} (hn : r.archetypes.archetypes.length ≤ n) (hσ : Ready T n σ) {acts : List SharedAct}
    (hok : ∀ a ∈ acts, a.Ok W) :
    ∃ s S, shared env T r acts σ = .ok s ∧ SharedInv W T S n r cs s ∧ (Fresh σ → Fresh s.borrows) := by
  obtain ⟨σ1, e1, r1, u1⟩ := retag_base hσ (t := T.registry) (ls := structs r.archetypes) (fun l hl => by
    obtain ⟨j, hj, rfl⟩ := List.mem_map.mp hl
    exact ⟨Nat.lt_of_lt_of_le (List.mem_range.mp hj) hn, rfl⟩)
  obtain ⟨s, e2, hs, hf⟩ := SharedInv.run h acts (s := ⟨[], [], σ1⟩)
    ⟨r1.ready, u1, (fun _ h => by cases h), fun _ h => by cases h⟩ hok
  refine ⟨s, _, ?_, hs, fun h => hf (r1.fresh h)⟩
  unfold shared
  rw [e1]
  exact e2

/-- **C91 for shared borrows.** A program with a `&Registry` makes any number of shared iterators, lets them go on in any
order, calls the exact iterators and `get_components`, keeps everything and reads it at any time: no use of a reference
that Stacked Borrows does not allow, the iterators yield what they have to, nothing loses its permission, and afterwards
the registry can be borrowed again. -/
theorem C91_shared (hr : Reachable W r) {σ : State} (hσ : Ready T r.archetypes.archetypes.length σ) {acts : List SharedAct}
    (hok : ∀ a ∈ acts, a.Ok W) :
    ∃ s, shared env T r acts σ = .ok s ∧ (∀ h ∈ s.held, LiveRef h s.borrows) ∧ (∀ x ∈ s.iters, x.Good env r) ∧
      Ready T r.archetypes.archetypes.length s.borrows := by
  obtain ⟨cs, h⟩ := hr.inv
  obtain ⟨s, S, e, hs, _⟩ := shared_ok h (Nat.le_refl _) hσ hok
  refine ⟨s, e, fun y hy => ?_, fun x hx => (hs.iters x hx).good h, hs.ready⟩
  obtain ⟨h1, h2⟩ := hs.held y hy
  exact ⟨fun x hx l hl => (h1 x hx l hl).mem,
    fun x hx k hk => (h2 x hx _ (List.mem_map.mpr ⟨k, List.mem_range.mpr hk, rfl⟩)).mem⟩

theorem runShared_append {S : Nat} (b : SharedAct) : ∀ (acts : List SharedAct) (s : SharedState),
    runShared env T S r (acts ++ [b]) s = (do b.run env T S r (← runShared env T S r acts s))
  | [], s => by
    simp only [List.nil_append, runShared, Except.bind, bind]
    cases b.run env T S r s <;> rfl
  | a :: acts, s => by
    simp only [List.cons_append, runShared]
    cases a.run env T S r s with
    | error f => rfl
    | ok s1 => exact runShared_append b acts s1

/-- **C91, the results of the other shared calls.** Whatever the program did before, a call of an exact iterator or of
`get_components` adds to what is held exactly what it has to return. -/
theorem C91_results (hr : Reachable W r) {σ : State} (hσ : Ready T r.archetypes.archetypes.length σ) {acts : List SharedAct}
    (hok : ∀ a ∈ acts, a.Ok W) :
    ∃ s, shared env T r acts σ = .ok s ∧
      (∀ g ents, W.OkGroup g → (g.descriptor env).isValid = true →
        ∃ (o : Option Held) (s' : SharedState),
          shared env T r (acts ++ [.exact g ents]) σ = .ok s' ∧ s'.held = s.held ++ o.toList ∧
          MutIter.exact.items env r g = .ok (o.map Held.item).toList) ∧
      (∀ g e, (∀ c ∈ g, W.Has c) → (g.descriptor env).isValid = true →
        ∃ (o : Option Held) (s' : SharedState),
          shared env T r (acts ++ [.components g e]) σ = .ok s' ∧ s'.held = s.held ++ o.toList ∧
          r.getComponentsMut env g e =
            .ok (o.map (fun h => (h.arch, h.slices.map (fun x => (x.1.cty, some x.1.base)))))) := by
  obtain ⟨cs, h⟩ := hr.inv
  obtain ⟨σ1, e1, r1, u1⟩ := retag_base hσ (t := T.registry) (ls := structs r.archetypes) (fun l hl => by
    obtain ⟨j, hj, rfl⟩ := List.mem_map.mp hl
    exact ⟨List.mem_range.mp hj, rfl⟩)
  obtain ⟨s, e2, hs, _⟩ := SharedInv.run h acts (s := ⟨[], [], σ1⟩)
    ⟨r1.ready, u1, (fun _ h => by cases h), fun _ h => by cases h⟩ hok
  have hsh : ∀ acts, shared env T r acts σ = runShared env T σ.next r acts ⟨[], [], σ1⟩ := by
    intro acts
    unfold shared
    rw [e1]
    rfl
  refine ⟨s, by rw [hsh]; exact e2, fun g ents hg hv => ?_, fun g e hg hv => ?_⟩
  · obtain ⟨o, σ2, e3, _, _, h5⟩ := exactRef_ok h hg hv ents hs.ready hs.reg
    refine ⟨o, { s with held := s.held ++ o.toList, borrows := σ2 }, ?_, rfl, h5⟩
    rw [hsh, runShared_append, e2]
    simp only [Except.bind, bind, SharedAct.run]
    rw [e3]
    rfl
  · obtain ⟨o, σ2, e3, _, _, h5⟩ := componentsRef_ok h hg hv e hs.ready hs.reg
    refine ⟨o, { s with held := s.held ++ o.toList, borrows := σ2 }, ?_, rfl, h5⟩
    rw [hsh, runShared_append, e2]
    simp only [Except.bind, bind, SharedAct.run]
    rw [e3]
    rfl

/-! ## One session after the other -/

/-- The groups have valid descriptors. -/
def Session.Ok (W : World env) : Session → Prop
  | .iterMut g _ _ _ => (∀ c ∈ g, W.Has c) ∧ (g.descriptor env).isValid = true
  | .exactMut g _ => W.OkGroup g ∧ (g.descriptor env).isValid = true
  | .entityExactMut g _ => W.OkGroup g ∧ (g.descriptor env).isValid = true
  | .componentsMut g _ _ => (∀ c ∈ g, W.Has c) ∧ (g.descriptor env).isValid = true
  | .shared acts => ∀ a ∈ acts, a.Ok W

/-- The beginning of a mutable session: the registry's reference stays at the bottom of the stacks. -/
theorem begin_mut {ar : ArchetypeRegistry} {σ : State} {n : Nat} (hn : ar.archetypes.length ≤ n) (hσ : Ready T n σ) (hf : Fresh σ) :
    ∃ σ1 K, σ.retag T.registry .mutRef (structs ar) = .ok (σ.next, σ1) ∧
      Ready { T with registry := σ.next } ar.archetypes.length σ1 ∧ Based σ.next K σ1 ∧
      (∀ i, ∀ x ∈ K i, x.tag < σ.next) ∧ ∀ i, i < n → Granted true T.registry (K i) := by
  obtain ⟨σ1, e1, o1, f1⟩ := retag_ok (σ := σ) (t := T.registry) (k := .mutRef) (ls := structs ar)
    (fun l s => ∃ s', s = ⟨σ.next, .unique⟩ :: s' ∧ Granted true T.registry s' ∧
      reborrow T.registry σ.next .mutRef (σ.stacks l) = some s) (fun l hl => by
      obtain ⟨j, hj, rfl⟩ := List.mem_map.mp hl
      obtain ⟨s, h1, h2, _⟩ := reborrow_mut σ.next (hσ.1 j (Nat.lt_of_lt_of_le (List.mem_range.mp hj) hn))
      exact ⟨_, h1, s, rfl, h2, h1⟩)
  have hmem : ∀ i, i < ar.archetypes.length → Loc.struct i ∈ structs ar := fun i hi =>
    List.mem_map.mpr ⟨i, List.mem_range.mpr hi, rfl⟩
  have hout : ∀ i, ¬ i < ar.archetypes.length → Loc.struct i ∉ structs ar := by
    intro i hi hm
    obtain ⟨j, hj, h⟩ := List.mem_map.mp hm
    injection h with h
    exact hi (h ▸ List.mem_range.mp hj)
  have hns : ∀ {l : Loc}, (∀ j, l ≠ .struct j) → l ∉ structs ar := by
    intro l hl hm
    obtain ⟨j, _, rfl⟩ := List.mem_map.mp hm
    exact hl j rfl
  have hnx : σ1.next = σ.next + 1 := (retag_inv e1).2.1
  refine ⟨σ1, fun i => if i < ar.archetypes.length then (σ1.stacks (.struct i)).tail else σ.stacks (.struct i), e1,
    ⟨fun i hi => ?_, fun i c o => ?_, fun i k => ?_⟩, ⟨hf.retag e1, by omega, fun i => ?_⟩, fun i x hx => ?_, fun i hi => ?_⟩
  · obtain ⟨s', h1, _⟩ := o1 _ (hmem i hi)
    exact ⟨_, by rw [h1]; exact List.mem_cons_self, unique_grants _ _⟩
  · rw [f1 _ (hns (fun j h => by cases h))]; exact hσ.2.1 i c o
  · rw [f1 _ (hns (fun j h => by cases h))]; exact hσ.2.2 i k
  · by_cases hi : i < ar.archetypes.length
    · rw [if_pos hi]
      obtain ⟨s', h1, _⟩ := o1 _ (hmem i hi)
      exact ⟨[⟨σ.next, .unique⟩], by rw [h1]; rfl⟩
    · rw [if_neg hi]
      exact ⟨[], f1 _ (hout i hi)⟩
  · by_cases hi : i < ar.archetypes.length
    · simp only [if_pos hi] at hx
      obtain ⟨s', h1, h2, h3⟩ := o1 _ (hmem i hi)
      rw [h1] at hx h3
      simp only [reborrow] at h3
      cases hs : Borrow.access true T.registry (σ.stacks (.struct i)) with
      | none => rw [hs] at h3; cases h3
      | some s =>
        rw [hs] at h3
        simp only [Option.map_some, Option.some.injEq, List.cons.injEq, true_and] at h3
        subst h3
        exact hf _ _ (access_tags hs ⟨x, hx, rfl⟩)
    · simp only [if_neg hi] at hx
      exact hf _ _ ⟨x, hx, rfl⟩
  · by_cases hl : i < ar.archetypes.length
    · simp only [if_pos hl]
      obtain ⟨s', h1, h2, _⟩ := o1 _ (hmem i hl)
      rw [h1]
      exact h2
    · simp only [if_neg hl]
      exact hσ.1 i hi

/-- The end of a mutable session. -/
theorem end_mut {m n n0 t : Nat} {K : Nat → Stack} {σ : State} (h : Ready { T with registry := t } m σ) (hb : Based n0 K σ)
    (hg : ∀ i, i < n → Granted true T.registry (K i)) : Ready T n σ := by
  refine ⟨fun i hi => ?_, h.2.1, h.2.2⟩
  obtain ⟨a, ha⟩ := hb.base i
  obtain ⟨x, hx, hgx⟩ := hg i hi
  exact ⟨x, by rw [ha]; exact List.mem_append_right _ hx, hgx⟩

theorem session_ok (hr : Reachable W r) {x : Session} (hok : x.Ok W) {σ : State} {n : Nat}
    (hn : r.archetypes.archetypes.length ≤ n) (hσ : Ready T n σ) (hf : Fresh σ) :
    ∃ σ', x.run env T r σ = .ok σ' ∧ Ready T n σ' ∧ Fresh σ' := by
  cases x with
  | iterMut g filter ents acts =>
    obtain ⟨σ1, K, e1, h1, b1, hK, hg⟩ := begin_mut hn hσ hf
    obtain ⟨items, it0, held, it, σ2, _, e2, e3, _, _, h2⟩ := C90_iterators hr hok.1 hok.2 filter ents h1 acts
    have b2 := Based.run hK (T := { T with registry := σ.next }) (Nat.le_refl _) acts [] it0 σ1 b1 e3
    refine ⟨σ2, ?_, end_mut h2 b2 hg, b2.fresh⟩
    simp only [Session.run]
    rw [e1]
    simp only [Except.bind, bind]
    rw [lift_ok e2]
    simp only []
    rw [e3]
    rfl
  | exactMut g uses =>
    obtain ⟨σ1, K, e1, h1, b1, hK, hg⟩ := begin_mut hn hσ hf
    obtain ⟨o, σ2, σ3, e2, _, _, e3, _, h3⟩ := C90_exact hr hok.1 hok.2 h1 uses
    have b3 := Based.runUses hK uses (Based.exactMut hK (T := { T with registry := σ.next }) b1 (Nat.le_refl _) e2) e3
    refine ⟨σ3, ?_, end_mut h3 b3 hg, b3.fresh⟩
    simp only [Session.run]
    rw [e1]
    simp only [Except.bind, bind]
    rw [e2]
    exact e3
  | entityExactMut g uses =>
    obtain ⟨σ1, K, e1, h1, b1, hK, hg⟩ := begin_mut hn hσ hf
    obtain ⟨o, σ2, σ3, e2, _, _, e3, _, h3⟩ := C90_entity_exact hr hok.1 hok.2 h1 uses
    have b3 := Based.runUses hK uses (Based.entityExactMut hK (T := { T with registry := σ.next }) b1 (Nat.le_refl _) e2) e3
    refine ⟨σ3, ?_, end_mut h3 b3 hg, b3.fresh⟩
    simp only [Session.run]
    rw [e1]
    simp only [Except.bind, bind]
    rw [e2]
    exact e3
  | componentsMut g en uses =>
    obtain ⟨σ1, K, e1, h1, b1, hK, hg⟩ := begin_mut hn hσ hf
    obtain ⟨o, σ2, σ3, e2, _, _, e3, _, h3⟩ := C90_components hr hok.1 hok.2 en h1 uses
    have b3 := Based.runUses hK uses (Based.componentsMut hK (T := { T with registry := σ.next }) b1 (Nat.le_refl _) e2) e3
    refine ⟨σ3, ?_, end_mut h3 b3 hg, b3.fresh⟩
    simp only [Session.run]
    rw [e1]
    simp only [Except.bind, bind]
    rw [e2]
    exact e3
  | shared acts =>
    obtain ⟨cs, h⟩ := hr.inv
    obtain ⟨s, S, e, hs, hfr⟩ := shared_ok h hn hσ hok
    refine ⟨s.borrows, ?_, hs.ready, hfr hf⟩
    simp only [Session.run]
    rw [e]
    rfl

/-- **C91.** A program borrows the registry any number of times, one after the other, mutably or shared, and uses what it
is handed as long as the borrow lasts: no use of a reference that Stacked Borrows does not allow. -/
theorem C91_sessions (hr : Reachable W r) : ∀ (xs : List Session), (∀ x ∈ xs, x.Ok W) → ∀ (σ : State),
    Ready T r.archetypes.archetypes.length σ → Fresh σ →
    ∃ σ', runSessions env T r xs σ = .ok σ' ∧ Ready T r.archetypes.archetypes.length σ'
  | [], _, σ, hσ, _ => ⟨σ, rfl, hσ⟩
  | x :: xs, hok, σ, hσ, hf => by
    obtain ⟨σ1, e1, h1, f1⟩ := session_ok hr (hok x List.mem_cons_self) (Nat.le_refl _) hσ hf
    obtain ⟨σ2, e2, h2⟩ := C91_sessions hr xs (fun y hy => hok y (List.mem_cons_of_mem _ hy)) σ1 h1 f1
    refine ⟨σ2, ?_, h2⟩
    unfold runSessions
    rw [e1]
    exact e2

/-! ## Concrete instances -/

theorem exFresh : Fresh exState := by
  intro l t ht
  obtain ⟨x, hx, rfl⟩ := ht
  cases l <;> (simp only [exState, List.mem_singleton] at hx; rw [hx]; decide)

theorem exHas {c : CompTy} (h : c = exA ∨ c = exB ∨ c = exC) : exWorld.Has c := by simp [exWorld, World.ofLists, h]

/-- C91 on `exR`: two shared iterators in turn, with reads of what both yielded. -/
example : ∃ s, shared exEnv exTags exR [.iter [exA] none true, .iter [exB] none false, .next 0, .next 1, .read 0 0 0, .next 0,
      .read 1 0 0, .readEntity 0 0, .components [exA] exE1, .read 0 0 0] exState = .ok s ∧
    (∀ h ∈ s.held, LiveRef h s.borrows) ∧ (∀ x ∈ s.iters, x.Good exEnv exR) ∧
    Ready exTags exR.archetypes.archetypes.length s.borrows :=
  C91_shared exReachable (exReady _) (by
    intro a ha
    simp only [List.mem_cons, List.not_mem_nil, or_false] at ha
    rcases ha with rfl | rfl | rfl | rfl | rfl | rfl | rfl | rfl | rfl | rfl
    · exact ⟨fun c hc => exHas (by simp at hc; simp [hc]), by decide +kernel⟩
    · exact ⟨fun c hc => exHas (by simp at hc; simp [hc]), by decide +kernel⟩
    · trivial
    · trivial
    · trivial
    · trivial
    · trivial
    · trivial
    · exact ⟨fun c hc => exHas (by simp at hc; simp [hc]), by decide +kernel⟩
    · trivial)

/-- Four things are held at the end. -/
example : ((shared exEnv exTags exR [.iter [exA] none true, .iter [exB] none false, .next 0, .next 1, .read 0 0 0, .next 0,
      .read 1 0 0, .readEntity 0 0, .components [exA] exE1, .read 0 0 0] exState).toOption.map (fun s => s.held.length)) =
    some 4 := by decide +kernel

/-- A write through something handed out by a shared iterator would be undefined behaviour. -/
example : (match shared exEnv exTags exR [.iter [exA] none true, .next 0] exState with
    | .ok s => (Use.elem 0 0 0 true).run s.held s.borrows
    | .error f => .error f).toOption.isNone = true := by decide +kernel

/-- C91 on `exR`: a mutable iterator, then a shared one, then a mutable tuple. -/
example : ∃ σ', runSessions exEnv exTags exR [.iterMut [exA] none true [.next, .use (.elem 0 0 0 true), .next],
      .shared [.iter [exA] none false, .next 0, .read 0 0 0], .componentsMut [exA] exE1 [.elem 0 0 0 true]] exState = .ok σ' ∧
    Ready exTags exR.archetypes.archetypes.length σ' :=
  C91_sessions exReachable _ (by
    intro x hx
    simp only [List.mem_cons, List.not_mem_nil, or_false] at hx
    rcases hx with rfl | rfl | rfl
    · exact ⟨fun c hc => exHas (by simp at hc; simp [hc]), by decide +kernel⟩
    · intro a ha
      simp only [List.mem_cons, List.not_mem_nil, or_false] at ha
      rcases ha with rfl | rfl | rfl
      · exact ⟨fun c hc => exHas (by simp at hc; simp [hc]), by decide +kernel⟩
      · trivial
      · trivial
    · exact ⟨fun c hc => exHas (by simp at hc; simp [hc]), by decide +kernel⟩) _ (exReady _) exFresh

end Shard.Borrow
