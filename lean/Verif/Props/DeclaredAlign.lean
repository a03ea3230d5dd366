import Verif.Spec.Declared
import Verif.Proofs.DeclaredAlignReg
import Verif.Props.OverrideExact
/-!
# C81, later calls: what a declared `DESCRIPTOR` does to the rest of the program
-/

set_option autoImplicit false

namespace Shard

open Align

variable {env : Env}

theorem Align.Sim.get {α : Type} {x y : M α} (h : Sim (fun a b => b = a) x y) {a : α} (hx : x = .ok a) : y = .ok a := by
  subst hx
  obtain ⟨b, h1, h2⟩ := h
  rw [h1, h2]

theorem IgnoresAlign.blind {q : Bool} {f : ArchetypeDescriptor → Bool} (h : IgnoresAlign f) : Blind q f := fun d d' hd =>
  h d d' hd.id hd.len (hd.comps.map (fun _ x y hxy => by rw [hxy.id, hxy.size]))

theorem powerOfTwo_of {n : Nat} (h : ∃ k, k < 16 ∧ n = 2 ^ k) : powerOfTwo n = true := by
  obtain ⟨k, hk, rfl⟩ := h
  unfold powerOfTwo
  rw [List.any_eq_true]
  exact ⟨k, List.mem_range.mpr hk, by simp⟩

/-- The outcomes of related calls. -/
abbrev OutLike (q : Bool) (o o' : Outcome) : Prop := o.SameButLeaks o' ∧ (q = false → o' = o)

theorem OutLike.refl {q : Bool} (o : Outcome) : OutLike q o o := ⟨⟨rfl, List.Sublist.refl _⟩, fun _ => rfl⟩

theorem Call.sim {q : Bool} {decl : CompTy → ComponentDescriptor} {call : Call} (hc : call.Harmless decl)
    (hq : q = false → call.KeepsHandler decl) {r s : Registry} (h : Reg q r s) :
    Sim (fun x y => Reg q x.1 y.1 ∧ OutLike q x.2 y.2) (call.run env r) (call.runWith decl env s) := by
  match call, hc, hq with
  | .create g vals, _, _ =>
    refine Sim.bind (h.createEntity g vals) (fun x y hxy => ?_)
    rw [hxy.2]
    split <;> exact .pure ⟨hxy.1, .refl _⟩
  | .destroy e, _, _ =>
    refine Sim.bind (h.destroyEntity e) (fun x y hxy => ?_)
    rw [hxy.2.1]
    exact .pure ⟨hxy.1, ⟨rfl, hxy.2.2.1⟩, fun hq => by simp only [hxy.2.2.2 hq]⟩
  | .removeEntity g e, _, _ =>
    refine Sim.bind (h.removeEntity g e) (fun x y hxy => ?_)
    rw [hxy.2]
    split <;> exact .pure ⟨hxy.1, .refl _⟩
  | .add e c v, hc, hq =>
    have hl : Like q c.descriptor (decl c) := by
      obtain ⟨h1, h2, h3, h4, h5⟩ := (hc : HarmlessFor c (decl c))
      refine ⟨h1, h2, ?_, h4, fun _ => powerOfTwo_of h3⟩
      rcases h5 with h5 | h5
      · exact Or.inl h5
      · cases q with
        | false => exact Or.inl (hq rfl)
        | true => exact Or.inr ⟨rfl, h5⟩
    unfold Call.run Call.runWith
    simp only []
    rw [← Registry.addComponentWith_default]
    refine Sim.bind (h.addComponentWith e c hl v) (fun x y hxy => ?_)
    rw [hxy.2]
    cases x.2 <;> exact .pure ⟨hxy.1, .refl _⟩
  | .remove e c, hc, _ =>
    unfold Call.run Call.runWith
    simp only []
    rw [← Registry.removeComponentWith_default]
    refine Sim.bind (h.removeComponentWith e c (d := c.descriptor) (d' := decl c) hc) (fun x y hxy => ?_)
    rw [hxy.2]
    cases x.2 <;> exact .pure ⟨hxy.1, .refl _⟩
  | .write e c v, _, _ =>
    refine Sim.bind (h.replaceComponent c e v) (fun x y hxy => ?_)
    rw [hxy.2]
    split <;> exact .pure ⟨hxy.1, .refl _⟩
  | .writeIn g e j v, _, _ =>
    refine Sim.bind (h.getComponentsMut g e) (fun x y hxy => ?_)
    subst hxy
    split
    · exact .pure ⟨h, .refl _⟩
    · split
      · refine Sim.bind (h.replaceAt _ _ _ v) (fun x y hxy => ?_)
        rw [hxy.2]
        exact .pure ⟨hxy.1, .refl _⟩
      · exact .pure ⟨h, .refl _⟩
  | .writeIter it g n j k v, hc, _ =>
    have hb : BlindIter q it := by
      cases it with
      | filtered f => exact (show IgnoresAlign f from hc).blind
      | entityFiltered f => exact (show IgnoresAlign f from hc).blind
      | _ => trivial
    refine Sim.bind (h.items g it hb) (fun x y hxy => ?_)
    subst hxy
    split
    · exact .pure ⟨h, .refl _⟩
    · split
      · exact .pure ⟨h, .refl _⟩
      · split
        · refine Sim.bind (h.replaceAt _ _ _ v) (fun x y hxy => ?_)
          rw [hxy.2]
          exact .pure ⟨hxy.1, .refl _⟩
        · exact .pure ⟨h, .refl _⟩

theorem Align.Reg.answers {q : Bool} {r s : Registry} (h : Reg q r s) : AnswersLike env r s where
  entities := by unfold Registry.iterEntities; rw [h.ents]
  has := fun c e _ hx => (h.hasComponent c e).get hx
  hasAll := fun g e _ hx => (h.hasComponents g e).get hx
  get := fun c e _ hx => (h.getComponent c e).get hx
  getAll := fun g e _ hx => (h.getComponents g e).get hx
  getMut := fun c e _ hx => (h.getComponentMut c e).get hx
  getAllMut := fun g e _ hx => (h.getComponentsMut g e).get hx
  matching := fun g _ hx => (iterate g blindTrue h.archs (fun _ _ hab => hab.getFuzzySlicesUnchecked g)).get hx
  entityMatching := fun g _ hx => (iterate g blindTrue h.archs (fun _ _ hab => hab.getEntityFuzzySlicesUnchecked g)).get hx
  filtered := fun g _ _ hf hx => (iterate g hf.blind h.archs (fun _ _ hab => hab.getFuzzySlicesUnchecked g)).get hx
  entityFiltered := fun g _ _ hf hx => (iterate g hf.blind h.archs (fun _ _ hab => hab.getEntityFuzzySlicesUnchecked g)).get hx
  exact := fun g _ hx => (h.iterComponentsExact g).get hx
  entityExact := fun g _ hx => (h.iterEntityComponentsExact g).get hx
  items := fun it hf g _ hx => (h.items g it (by
    cases it with
    | filtered f => exact (hf f (Or.inl rfl)).blind
    | entityFiltered f => exact (hf f (Or.inr rfl)).blind
    | _ => trivial)).get hx

/-- Two runs of a program: the same number of calls with the same outcomes (but for what is dropped), and related ends. -/
structure RunsLike (env : Env) (q : Bool) (x y : List Outcome × M Registry) : Prop where
  length : y.1.length = x.1.length
  outs : ∀ (i : Nat) o o', x.1[i]? = some o → y.1[i]? = some o' → OutLike q o o'
  ends : ∀ r, x.2 = .ok r → ∃ s, y.2 = .ok s ∧ AnswersLike env r s ∧
    ∀ vs as, r.drop = .ok (vs, as) → ∃ vs' as', s.drop = .ok (vs', as') ∧ vs'.Sublist vs ∧ (q = false → vs' = vs)
  panics : ∀ k, x.2 = .error (.panic k) → y.2 = .error (.panic k)

theorem runsLike {q : Bool} {decl : CompTy → ComponentDescriptor} : ∀ (calls : List Call) {r s : Registry}, Reg q r s →
    (∀ call ∈ calls, call.Harmless decl ∧ (q = false → call.KeepsHandler decl)) →
    (∀ u, (runAll env r calls).2 ≠ .error (.ub u)) → RunsLike env q (runAll env r calls) (runAllWith decl env s calls)
  | [], r, s, h, _, _ => {
      length := rfl
      outs := fun i o o' ho => by rw [show (runAll env r []).1 = [] from rfl] at ho; simp at ho
      ends := fun r' hr' => by
        cases hr'
        refine ⟨s, rfl, h.answers, fun vs as hd => ?_⟩
        have := h.archs.drop
        have hd : r.archetypes.drop = .ok (vs, as) := hd
        rw [hd] at this
        obtain ⟨y, h1, h2⟩ := this
        exact ⟨y.1, y.2, h1, h2⟩
      panics := fun k hk => by cases hk }
  | call :: rest, r, s, h, hc, hu => by
    have hsim := Call.sim (env := env) (hc call List.mem_cons_self).1 (hc call List.mem_cons_self).2 h
    unfold runAll at hu ⊢
    unfold runAllWith
    match hx : call.run env r, hsim with
    | .ok (r', o), ⟨(s', o'), h1, h2⟩ =>
      rw [hx] at hu
      rw [h1]
      have ih := runsLike rest h2.1 (fun c hcc => hc c (List.mem_cons_of_mem _ hcc)) hu
      refine ⟨by simp only [List.length_cons]; rw [ih.length], fun i a b ha hb => ?_, ih.ends, ih.panics⟩
      cases i with
      | zero => cases ha; cases hb; exact h2.2
      | succ i => exact ih.outs i a b ha hb
    | .error (.panic k), h1 =>
      have h1 : call.runWith decl env s = .error (.panic k) := h1
      rw [h1]
      exact ⟨rfl, fun i a b (ha : ([] : List Outcome)[i]? = some a) _ => by simp at ha, fun _ hr => (by cases hr), fun k' hk => hk⟩
    | .error (.ub u), _ =>
      rw [hx] at hu
      exact absurd rfl (hu u)

/-- **C81 (partial: the rest of the program)** If the declared descriptors have the id and the size of their type, an
alignment at least as strict, and the drop handler of the type or one that does nothing, then a whole program that has no
undefined behaviour with the default descriptors has none with the declared ones: every call has the same outcome and ends in
the same panic if any, and all queries give the same answers in the end. Only, values may be leaked instead of dropped if a
declared handler does nothing. Missing: other sizes, for which the claim is false (`C81_later_violated`). -/
theorem C81_program_partial (env : Env) (decl : CompTy → ComponentDescriptor) (calls : List Call)
    (hc : ∀ call ∈ calls, call.Harmless decl) (hu : ∀ u, (runAll env Registry.default calls).2 ≠ .error (.ub u)) :
    (∀ u, (runAllWith decl env Registry.default calls).2 ≠ .error (.ub u)) ∧
    RunsLike env true (runAll env Registry.default calls) (runAllWith decl env Registry.default calls) ∧
    ((∀ call ∈ calls, call.KeepsHandler decl) →
      RunsLike env false (runAll env Registry.default calls) (runAllWith decl env Registry.default calls)) := by
  have h0 : ∀ q, Reg q Registry.default Registry.default := fun q => ⟨rfl, rfl, rfl, fun i x y hx => by
    rw [show Registry.default.archetypes.archetypes = [] from rfl] at hx; simp at hx⟩
  have h1 : RunsLike env true (runAll env Registry.default calls) (runAllWith decl env Registry.default calls) :=
    runsLike calls (h0 true) (fun c hcc => ⟨hc c hcc, fun h => by cases h⟩) hu
  refine ⟨fun u hu' => ?_, h1, fun hk => runsLike calls (h0 false) (fun c hcc => ⟨hc c hcc, fun _ => hk c hcc⟩) hu⟩
  cases hx : (runAll env Registry.default calls).2 with
  | ok r =>
    obtain ⟨s, h2, _⟩ := h1.ends r hx
    rw [h2] at hu'; cases hu'
  | error e =>
    cases e with
    | panic k => rw [h1.panics k hx] at hu'; cases hu'
    | ub k => exact hu k hx

/-! ## Other sizes -/

/-- The claim for all declarations with which the calls of `add_component` themselves work (`declaredFault`). -/
def C81_later_statement : Prop :=
  ∀ (env : Env) (decl : CompTy → ComponentDescriptor) (calls : List Call),
    (∀ e c v, Call.add e c v ∈ calls → (decl c).id = c.id ∧ (decl c).drop = c.descriptor.drop ∧ declaredFault env c (decl c) = none) →
    ∀ r s : Registry, (runAll env Registry.default calls).2 = .ok r →
      (runAllWith decl env Registry.default calls).2 = .ok s → ∀ c e x, r.getComponent env c e = .ok x → s.getComponent env c e = .ok x

/-- The default descriptors, but twice the size for one type of 8 bytes. -/
def exDeclLarge (c : CompTy) : ComponentDescriptor := if c = exB then { c.descriptor with size := 16 } else c.descriptor

/-- Two entities get the component, and the first one is destroyed. -/
def exTwo : List Call :=
  [.create [exA] [exValA], .create [exA] [exValA'], .add exE1 exB exValB, .add exE2 exB exValB, .destroy exE1]

/-- The outcomes are those of the default descriptors, but the component of the second entity cannot be read any more. -/
theorem exDeclLarge_run :
    (runAllWith exDeclLarge exEnv Registry.default exTwo).1 = (runAll exEnv Registry.default exTwo).1 ∧
    (runAll exEnv Registry.default exTwo).2.bind (fun r => r.getComponent exEnv exB exE2) = .ok (some exValB) ∧
    (runAllWith exDeclLarge exEnv Registry.default exTwo).2.bind (fun r => r.getComponent exEnv exB exE2) = .error (.ub .uninit) := by
  decide +kernel

/-- **C81 (later calls, violated)** A component of 8 bytes that declares `size: 16`: all calls that add it to entities work,
but once one of two entities with it has been destroyed, the component of the other one is uninitialised memory. -/
theorem C81_later_violated : ¬ C81_later_statement := by
  intro h
  obtain ⟨_, h2, h3⟩ := exDeclLarge_run
  cases hr : (runAll exEnv Registry.default exTwo).2 with
  | error f => rw [hr] at h2; cases h2
  | ok r =>
    cases hs : (runAllWith exDeclLarge exEnv Registry.default exTwo).2 with
    | error f =>
      rw [hs] at h3
      have hok : (runAllWith exDeclLarge exEnv Registry.default exTwo).2.toOption.isSome = true := by decide +kernel
      rw [hs] at hok
      cases hok
    | ok s =>
      rw [hr] at h2
      rw [hs] at h3
      have := h exEnv exDeclLarge exTwo (fun e c v hm => by
        simp only [exTwo, List.mem_cons, List.not_mem_nil, or_false, reduceCtorEq, false_or, Call.add.injEq] at hm
        have hc : c = exB := by rcases hm with ⟨_, rfl, _⟩ | ⟨_, rfl, _⟩ <;> rfl
        subst hc
        exact ⟨rfl, rfl, by decide +kernel⟩) r s hr hs exB exE2 _ h2
      have h3 : s.getComponent exEnv exB exE2 = .error (.ub .uninit) := h3
      rw [this] at h3
      cases h3

/-- Too small a size or the drop handler of another type do not work either: here the first entity's destruction is undefined
behaviour. -/
example :
    (runAllWith (fun c => if c = exB then { c.descriptor with size := 4 } else c.descriptor) exEnv Registry.default exTwo).2 =
      .error (.ub .misaligned) ∧
    (runAllWith (fun c => if c = exB then { c.descriptor with drop := exC.descriptor.drop } else c.descriptor) exEnv
      Registry.default exTwo).2 = .error (.ub .typeConfusion) := by decide +kernel

/-! ## The hypotheses of the positive part can be satisfied -/

/-- The default descriptors, but alignment 64 instead of 8 and a handler that does nothing for one type. -/
def exStrict (c : CompTy) : ComponentDescriptor := if c = exB then { c.descriptor with align := 64, drop := none } else c.descriptor

/-- All outcomes are the same, except that the 8 bytes of the destroyed entity are not dropped. -/
example : (∀ u, (runAllWith exStrict exEnv Registry.default exTwo).2 ≠ .error (.ub u)) ∧
    RunsLike exEnv true (runAll exEnv Registry.default exTwo) (runAllWith exStrict exEnv Registry.default exTwo) ∧
    (runAll exEnv Registry.default exTwo).1.map (fun o => o.dropped) = [[], [], [], [], [exValA, exValB]] ∧
    (runAllWith exStrict exEnv Registry.default exTwo).1.map (fun o => o.dropped) = [[], [], [], [], [exValA]] := by
  have hu : (runAll exEnv Registry.default exTwo).2.toOption.isSome = true := by decide +kernel
  have h := C81_program_partial exEnv exStrict exTwo (by
    intro call hcall
    simp only [exTwo, List.mem_cons, List.not_mem_nil, or_false] at hcall
    rcases hcall with rfl | rfl | rfl | rfl | rfl <;> first
      | trivial
      | exact ⟨rfl, rfl, ⟨6, by decide, rfl⟩, by decide, Or.inr rfl⟩) (fun u hx => by rw [hx] at hu; cases hu)
  exact ⟨h.1, h.2.1, by decide +kernel, by decide +kernel⟩

end Shard
