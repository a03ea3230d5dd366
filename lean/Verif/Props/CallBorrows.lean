import Verif.Proofs.CallBorrowsRegistry
import Verif.Props.SharedBorrows
import Verif.Proofs.Observe
/-!
# C92: the calls that change the registry obey Stacked Borrows, and so do whole programs
-/

set_option autoImplicit false

namespace Shard.Borrow

variable {env : Env} {W : World env} {r : Registry} {T : Tags} {σ : State}

/-- The vector of archetypes and the columns can be read and written through the pointers to them, and no tag is used
twice. -/
def Whole (T : Tags) (σ : State) : Prop := (∀ n, Ready T n σ) ∧ Fresh σ

theorem tower_one {t : Nat} {s : Stack} : Tower [(true, t)] s ↔ ∃ x ∈ s, x.grants true t = true := by
  constructor
  · rintro ⟨a, y, b, rfl, h, _⟩
    exact ⟨y, by simp, h⟩
  · rintro ⟨x, hx, h⟩
    obtain ⟨a, b, rfl⟩ := List.append_of_mem hx
    exact ⟨a, x, b, rfl, h, trivial⟩

theorem whole_iff : Whole T σ ↔ Good (vec T.registry) T σ := by
  constructor
  · rintro ⟨h, hf⟩
    refine ⟨fun l => ?_, hf⟩
    cases l with
    | struct i => exact tower_one.mpr ((h (i + 1)).1 i (Nat.lt_succ_self _))
    | byte i c o => exact tower_one.mpr ((h 0).2.1 i c o)
    | entity i k => exact tower_one.mpr ((h 0).2.2 i k)
  · rintro ⟨h, hf⟩
    exact ⟨fun n => ⟨fun i _ => tower_one.mp (h (.struct i)), fun i c o => tower_one.mp (h (.byte i c o)),
      fun i k => tower_one.mp (h (.entity i k))⟩, hf⟩

theorem session_whole (hr : Reachable W r) {x : Session} (hok : x.Ok W) (h : Whole T σ) :
    ∃ σ', x.run env T r σ = .ok σ' ∧ Whole T σ' := by
  obtain ⟨σ1, e1, _, f1⟩ := session_ok hr hok (Nat.le_refl _) (h.1 _) h.2
  refine ⟨σ1, e1, fun n => ?_, f1⟩
  obtain ⟨σ2, e2, h2, _⟩ := session_ok hr hok (Nat.le_max_left _ n) (h.1 _) h.2
  rw [e1] at e2
  injection e2 with e2
  subst e2
  exact ⟨fun i hi => h2.1 i (Nat.lt_of_lt_of_le hi (Nat.le_max_right _ _)), h2.2⟩

theorem single_valid (c : CompTy) : (Group.descriptor env [c]).isValid = true :=
  Group.isValid_iff.mpr ⟨(validate_iff [c]).mp rfl, single_archetypeId_valid env c⟩

/-- The session of a store. -/
theorem store_ok (hr : Reachable W r) {x : Session} (hok : x.Ok W) (h : Whole T σ) {y : Registry × Outcome} {m : M (Registry × Outcome)}
    (hm : m = .ok y) : ∃ T' σ', (do
      let z ← lift m
      let σ ← x.run env T r σ
      return (z.1, T, σ) : BM (Registry × Tags × State)) = .ok (y.1, T', σ') ∧ Whole T' σ' := by
  obtain ⟨σ1, e1, h1⟩ := session_whole hr hok h
  refine ⟨T, σ1, ?_, h1⟩
  rw [lift_ok hm]
  simp only [Except.bind, bind]
  rw [e1]
  rfl

/-- **C92 for one call.** Whether a call creates, destroys or removes an entity, adds or removes a component (and for that
makes a new archetype, moves the vector of archetypes or enlarges an archetype) or stores a value through a reference that
the registry handed out: all uses of references on the way are allowed, and afterwards the registry can be used as before. -/
theorem C92_call (hr : Reachable W r) {c : Call} (hadm : c.Admissible W r) {r' : Registry} {out : Outcome}
    (hrun : c.run env r = .ok (r', out)) (moved : Bool) (h : Whole T σ) :
    ∃ T' σ', call env T r moved σ c = .ok (r', T', σ') ∧ Whole T' σ' := by
  obtain ⟨cs, hI⟩ := hr.inv
  cases c with
  | create g vals =>
    obtain ⟨x, hx, hrun⟩ := ebind_inv hrun
    obtain ⟨T1, σ1, e1, h1⟩ := (whole_iff.mp h).create (moved := moved) hx
    refine ⟨T1, σ1, ?_, whole_iff.mpr h1⟩
    rw [show r' = x.1 by split at hrun <;> (injection hrun with hrun; exact (congrArg Prod.fst hrun).symm)]
    exact e1
  | destroy e =>
    obtain ⟨x, hx, hrun⟩ := ebind_inv hrun
    obtain ⟨σ1, e1, h1⟩ := (whole_iff.mp h).destroy hI hx
    refine ⟨T, σ1, ?_, whole_iff.mpr h1⟩
    rw [show r' = x.1 by injection hrun with hrun; exact (congrArg Prod.fst hrun).symm]
    exact e1
  | removeEntity g e =>
    obtain ⟨x, hx, hrun⟩ := ebind_inv hrun
    obtain ⟨σ1, e1, h1⟩ := (whole_iff.mp h).remove hI hx
    refine ⟨T, σ1, ?_, whole_iff.mpr h1⟩
    rw [show r' = x.1 by split at hrun <;> (injection hrun with hrun; exact (congrArg Prod.fst hrun).symm)]
    exact e1
  | add e c v =>
    obtain ⟨x, hx, hrun⟩ := ebind_inv hrun
    obtain ⟨T1, σ1, e1, h1⟩ := (whole_iff.mp h).add (moved := moved) hI hx
    refine ⟨T1, σ1, ?_, whole_iff.mpr h1⟩
    rw [show r' = x.1 by split at hrun <;> (injection hrun with hrun; exact (congrArg Prod.fst hrun).symm)]
    exact e1
  | remove e c =>
    obtain ⟨x, hx, hrun⟩ := ebind_inv hrun
    obtain ⟨T1, σ1, e1, h1⟩ := (whole_iff.mp h).removeComp (moved := moved) hI hx
    refine ⟨T1, σ1, ?_, whole_iff.mpr h1⟩
    rw [show r' = x.1 by split at hrun <;> (injection hrun with hrun; exact (congrArg Prod.fst hrun).symm)]
    exact e1
  | write e c v =>
    exact store_ok hr (x := .componentsMut [c] e (stores 0 0 0))
      ⟨fun c' hc' => by rw [List.mem_singleton.mp hc']; exact hadm.1, single_valid c⟩ h hrun
  | writeIn g e j v => exact store_ok hr (x := .componentsMut g e (stores 0 j 0)) ⟨hadm.1, hadm.2.1⟩ h hrun
  | writeIter it g n j k v =>
    cases it with
    | matching => exact store_ok hr (x := .iterMut g none false (iterStores n j k)) ⟨hadm.1, hadm.2.1⟩ h hrun
    | entityMatching => exact store_ok hr (x := .iterMut g none true (iterStores n j k)) ⟨hadm.1, hadm.2.1⟩ h hrun
    | filtered f => exact store_ok hr (x := .iterMut g (some f) false (iterStores n j k)) ⟨hadm.1, hadm.2.1⟩ h hrun
    | entityFiltered f => exact store_ok hr (x := .iterMut g (some f) true (iterStores n j k)) ⟨hadm.1, hadm.2.1⟩ h hrun
    | exact => exact store_ok hr (x := .exactMut g (stores n j k)) ⟨⟨hadm.1, hadm.2.2.2⟩, hadm.2.1⟩ h hrun
    | entityExact => exact store_ok hr (x := .entityExactMut g (stores n j k)) ⟨⟨hadm.1, hadm.2.2.2⟩, hadm.2.1⟩ h hrun

/-- A call that panics (C50) does so without a use of a reference that is not allowed, as far as it is followed. -/
theorem call_fault {c : Call} {f : Shard.Fault} (hrun : c.run env r = .error f) (moved : Bool) :
    call env T r moved σ c = .error (.code f) := by
  cases c with
  | create g vals =>
    simp only [Call.run] at hrun
    cases hx : r.createEntity env g vals with
    | error f' => rw [hx] at hrun; cases hrun; simp only [call, create, hx]; rfl
    | ok x => rw [hx] at hrun; simp only [Except.bind, bind] at hrun; split at hrun <;> cases hrun
  | destroy e =>
    simp only [Call.run] at hrun
    cases hx : r.destroyEntity env e with
    | error f' => rw [hx] at hrun; cases hrun; simp only [call, destroy, hx]; rfl
    | ok x => rw [hx] at hrun; cases hrun
  | removeEntity g e =>
    simp only [Call.run] at hrun
    cases hx : r.removeEntity env g e with
    | error f' => rw [hx] at hrun; cases hrun; simp only [call, remove, hx]; rfl
    | ok x => rw [hx] at hrun; simp only [Except.bind, bind] at hrun; split at hrun <;> cases hrun
  | add e c v =>
    simp only [Call.run] at hrun
    cases hx : r.addComponent env e c v with
    | error f' => rw [hx] at hrun; cases hrun; simp only [call, add, hx]; rfl
    | ok x => rw [hx] at hrun; simp only [Except.bind, bind] at hrun; split at hrun <;> cases hrun
  | remove e c =>
    simp only [Call.run] at hrun
    cases hx : r.removeComponent env e c with
    | error f' => rw [hx] at hrun; cases hrun; simp only [call, removeComp, hx]; rfl
    | ok x => rw [hx] at hrun; simp only [Except.bind, bind] at hrun; split at hrun <;> cases hrun
  | write e c v => simp only [call, hrun]; rfl
  | writeIn g e j v => simp only [call, hrun]; rfl
  | writeIter it g n j k v => simp only [call, hrun]; rfl

/-- The assumptions on a program: those on its calls and sessions. -/
def ProgramOk (W : World env) : Registry → List Action → Prop
  | _, [] => True
  | r, .call c _ :: as => c.Admissible W r ∧ ∀ r' out, c.run env r = .ok (r', out) → ProgramOk W r' as
  | r, .borrow x :: as => x.Ok W ∧ ProgramOk W r as

/-- What the calls of a program do to the registry. -/
def effect (env : Env) : Registry → List Action → M Registry
  | r, [] => .ok r
  | r, .call c _ :: as => do
    let x ← c.run env r
    effect env x.1 as
  | r, .borrow _ :: as => effect env r as

/-- **C92.** A program makes any calls, in any order, and between them borrows the registry mutably or shared and uses what
it is handed: no use of a reference that Stacked Borrows does not allow — it runs to its end, or until a call panics — and
after it the registry can be dropped, with no such use either. -/
theorem C92_programs : ∀ (as : List Action) {r : Registry} {T : Tags} {σ : State}, Reachable W r → ProgramOk W r as → Whole T σ →
    (∃ f, effect env r as = .error f ∧ runActions env as (r, T, σ) = .error (.code f)) ∨
    ∃ r' T' σ' σ'', effect env r as = .ok r' ∧ runActions env as (r, T, σ) = .ok (r', T', σ') ∧ Whole T' σ' ∧
      dropArchs T' 0 r'.archetypes.archetypes σ' = .ok σ''
  | [], r, T, σ, _, _, h => by
    obtain ⟨σ', e⟩ := Good.dropArchs r.archetypes.archetypes 0 (whole_iff.mp h)
    exact .inr ⟨r, T, σ, σ', rfl, rfl, h, e⟩
  | .call c moved :: as, r, T, σ, hr, hok, h => by
    cases hrun : c.run env r with
    | error f =>
      refine .inl ⟨f, by unfold effect; rw [hrun]; rfl, ?_⟩
      unfold runActions
      simp only [Action.run]
      rw [call_fault hrun]
      rfl
    | ok x =>
      obtain ⟨r1, out⟩ := x
      obtain ⟨T1, σ1, e1, h1⟩ := C92_call hr hok.1 hrun moved h
      have := C92_programs as (hr.snoc hok.1 hrun) (hok.2 _ _ hrun) h1
      have he : effect env r (.call c moved :: as) = effect env r1 as := by
        conv => lhs; unfold effect
        rw [hrun]
        rfl
      have hru : runActions env (.call c moved :: as) (r, T, σ) = runActions env as (r1, T1, σ1) := by
        conv => lhs; unfold runActions
        simp only [Action.run]
        rw [e1]
        rfl
      rw [he, hru]
      exact this
  | .borrow x :: as, r, T, σ, hr, hok, h => by
    obtain ⟨σ1, e1, h1⟩ := session_whole hr hok.1 h
    have := C92_programs as hr hok.2 h1
    have hru : runActions env (.borrow x :: as) (r, T, σ) = runActions env as (r, T, σ1) := by
      conv => lhs; unfold runActions
      simp only [Action.run]
      rw [e1]
      rfl
    rw [show effect env r (.borrow x :: as) = effect env r as by conv => lhs; unfold effect, hru]
    exact this

/-- At the beginning. -/
theorem C92_initial : Whole initial.1 initial.2 := by
  refine ⟨fun n => ⟨fun i _ => ⟨_, List.mem_cons_self, rfl⟩, fun i c o => ⟨_, List.mem_cons_self, rfl⟩,
    fun i k => ⟨_, List.mem_cons_self, rfl⟩⟩, fun l t ht => ?_⟩
  obtain ⟨x, hx, rfl⟩ := ht
  simp only [initial, List.mem_singleton] at hx
  rw [hx]
  exact Nat.lt_succ_self _

/-! ## Concrete instances -/

/-- A program that starts with `exCalls`, with borrows in between; the vector of archetypes is moved once. -/
def exProgram : List Action :=
  exCalls.map (fun c => .call c false) ++
  [.borrow (.iterMut [exA] none true [.next, .next, .use (.elem 0 0 0 true), .use (.elem 1 0 0 true)]),
    .call (.write exE1 exA exValA') true, .call (.remove exE1 exB) true,
    .borrow (.shared [.iter [exA] none false, .next 0, .components [exC] exE4, .read 0 0 0]),
    .call (.removeEntity [exC] exE4) true, .call (.destroy exE2) true]

theorem programOk_calls {as : List Action} : ∀ (cs : List Call) {r : Registry}, (∀ c ∈ cs, exCheck c = true) →
    (∀ r', ProgramOk exWorld r' as) → ProgramOk exWorld r (cs.map (fun c => .call c false) ++ as)
  | [], _, _, h => h _
  | c :: cs, _, hc, h => ⟨exCheck_ok (hc c List.mem_cons_self) _, fun _ _ _ =>
      programOk_calls cs (fun c' hc' => hc c' (List.mem_cons_of_mem _ hc')) h⟩

theorem exProgramOk : ProgramOk exWorld Registry.default exProgram := by
  refine programOk_calls exCalls (List.all_eq_true.mp (by decide +kernel)) fun r => ?_
  refine ⟨⟨fun c hc => exHas (by simp at hc; simp [hc]), by decide +kernel⟩, exCheck_ok (by decide +kernel) _, fun _ _ _ =>
    ⟨exCheck_ok (by decide +kernel) _, fun _ _ _ => ⟨?_, exCheck_ok rfl _, fun _ _ _ => ⟨exCheck_ok rfl _, fun _ _ _ => trivial⟩⟩⟩⟩
  intro a ha
  simp only [List.mem_cons, List.not_mem_nil, or_false] at ha
  rcases ha with rfl | rfl | rfl | rfl
  · exact ⟨fun c hc => exHas (by simp at hc; simp [hc]), by decide +kernel⟩
  · trivial
  · exact ⟨fun c hc => exHas (by simp at hc; simp [hc]), by decide +kernel⟩
  · trivial

/-- C92 on it. -/
example : (∃ f, effect exEnv Registry.default exProgram = .error f ∧
      runActions exEnv exProgram (Registry.default, initial.1, initial.2) = .error (.code f)) ∨
    ∃ r' T' σ' σ'', effect exEnv Registry.default exProgram = .ok r' ∧
      runActions exEnv exProgram (Registry.default, initial.1, initial.2) = .ok (r', T', σ') ∧ Whole T' σ' ∧
      dropArchs T' 0 r'.archetypes.archetypes σ' = .ok σ'' :=
  C92_programs exProgram ⟨[], .nil⟩ exProgramOk C92_initial

set_option maxRecDepth 100000 in
/-- It does not panic: it runs to its end, with one entity left and five archetypes. -/
example : (effect exEnv Registry.default exProgram).toOption.map (fun r => (r.iterEntities exEnv, r.archetypes.archetypes.length)) =
    some ([exE1], 5) := by
  decide +kernel

/-- A reference that the registry handed out must not be used after a call that moves the value. -/
example : ((do
    let (o, σ) ← componentsMut exEnv exTags exR [exA] exE1 exState
    let x ← destroy exEnv exTags exR exE1 σ
    (Use.elem 0 0 0 false).run o.toList x.2.2 : BM State)).toOption.isNone = true := by
  decide +kernel

/-- `disjoint_mut` could not be replaced by two calls of `get_unchecked_mut`: the second takes the permission of the first
reference away. -/
example : ((do
    let (t, σ) ← getMut exTags 4 0 exState
    let (_, σ) ← getMut exTags 4 1 σ
    poke σ t 0 : BM State)).toOption.isNone = true := by
  decide +kernel

end Shard.Borrow
