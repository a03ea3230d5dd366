import Verif.Proofs.Observe
import Verif.Props.Example
/-!
# C13–C17, C19, C21, C22: components of entities
-/

set_option autoImplicit false

namespace Shard

variable {env : Env} {W : World env} {r r' : Registry}

/-- **C13** `add_component` semantics: when it returns `Ok`, the entity was live without that component; it keeps its
handle and its other components, and has the new one with the given value; every other entity is unchanged. -/
theorem C13_add_component (hr : Reachable W r) {e : Entity} {c : CompTy} {v : Val} (hadm : (Call.add e c v).Admissible W r)
    (h : r.addComponent env e c v = .ok (r', .ok ())) :
    Live env r e ∧ r.hasComponent env c e = .ok false ∧ Live env r' e ∧
    r'.hasComponent env c e = .ok true ∧ r'.getComponent env c e = .ok (some v) ∧
    SameOthers W r r' e c ∧ ∀ x, x ≠ e → SameEntity W r r' x := by
  obtain ⟨cs, hi⟩ := hr.inv
  obtain ⟨cs', f, hs, h1, h2, h3⟩ := hi.add_ok hadm h
  have hf' : r'.look env cs' e = some (setComp f c (some v)) := by rw [h3, AMap.set_self]
  have hcc : setComp f c (some v) c = some v := if_pos rfl
  refine ⟨hi.live_iff.mpr ⟨f, h1⟩, ?_, hs.inv.live_iff.mpr ⟨_, hf'⟩, ?_, ?_, hi.sameOthers hs.inv h1 hf', fun x hx => ?_⟩
  · rw [hi.hasComponent_eq hadm.1, h1]; simp [h2]
  · rw [hs.inv.hasComponent_eq hadm.1, hf']; simp [hcc]
  · rw [hs.inv.getComponent_eq hadm.1, hf']; simp [hcc]
  · exact hi.sameEntity hs.inv (by rw [h3, AMap.set_ne hx])

set_option maxRecDepth 100000 in
/-- C13 on `exR`. -/
example : Reachable exWorld exR ∧ (Call.add exE2 exB exValB).Admissible exWorld exR ∧
    ∃ r', exR.addComponent exEnv exE2 exB exValB = .ok (r', .ok ()) :=
  ⟨exReachable, exCheck_ok (by decide +kernel) _, exists_ok (by decide +kernel)⟩

/-- **C14** `add_component` failure is clean: on a handle that is not live, or has the component already, the call
returns `Err` with the given component and the registry is unchanged; and so it is whenever the call returns `Err`. -/
theorem C14_add_failure (hr : Reachable W r) {e : Entity} {c : CompTy} {v : Val} (hadm : (Call.add e c v).Admissible W r) :
    ((¬ Live env r e ∨ r.hasComponent env c e = .ok true) → r.addComponent env e c v = .ok (r, .err v)) ∧
    ∀ w, r.addComponent env e c v = .ok (r', .err w) → r' = r ∧ w = v := by
  obtain ⟨cs, hi⟩ := hr.inv
  refine ⟨?_, fun w hw => hi.add_err hadm hw⟩
  rintro (hd | hh)
  · exact (dead_ops (hi.entry_none hd)).2.2.2.2.2.2.1 c v
  · cases hx : r.addComponent env e c v with
    | ok x =>
      obtain ⟨r1, res⟩ := x
      cases res with
      | ok u =>
        have := (C13_add_component hr hadm hx).2.1
        rw [hh] at this; cases this
      | err w =>
        obtain ⟨h1, h2⟩ := hi.add_err hadm hx
        rw [h1, h2]
    | error flt =>
      rcases hi.add_step hadm with ⟨r1, out, cs1, q1, _, _⟩ | ⟨flt', _, f, s, q2, q3, _⟩
      · simp only [Call.run, hx] at q1; cases q1
      · rw [hi.hasComponent_eq hadm.1, q2] at hh
        simp [q3] at hh

set_option maxRecDepth 100000 in
/-- C14 on `exR`: `exE3` is dead, `exE1` has `A` already. -/
example : Reachable exWorld exR ∧ ¬ Live exEnv exR exE3 ∧ exR.hasComponent exEnv exA exE1 = .ok true ∧
    ∀ e ∈ [exE1, exE3], (Call.add e exA exValA).Admissible exWorld exR := by
  refine ⟨exReachable, ?_, by decide +kernel, fun e _ => exCheck_ok (rfl : exCheck (.add e exA exValA) = true) _⟩
  unfold Live; rw [exR_live.1]; decide +kernel

/-- **C15** `remove_component` semantics: when it returns `Ok(v)`, `v` is what `get_component` showed before; the entity
keeps its handle and its other components, of which there is at least one, and loses this one; every other entity is
unchanged. It returns `Err` and changes nothing if the entity is not live, lacks the component, or has no other; and
whenever it returns `Err` the registry is unchanged. -/
theorem C15_remove_component (hr : Reachable W r) {e : Entity} {c : CompTy} (hadm : (Call.remove e c).Admissible W r) :
    (∀ v, r.removeComponent env e c = .ok (r', .ok v) →
      r.getComponent env c e = .ok (some v) ∧ Live env r e ∧ Live env r' e ∧
      r'.hasComponent env c e = .ok false ∧ r'.getComponent env c e = .ok none ∧
      SameOthers W r r' e c ∧ (∃ c', c' ≠ c ∧ W.Has c' ∧ r'.hasComponent env c' e = .ok true) ∧
      ∀ x, x ≠ e → SameEntity W r r' x) ∧
    ((¬ Live env r e ∨ r.hasComponent env c e = .ok false ∨
        (∀ c', W.Has c' → r.hasComponent env c' e = .ok true → c' = c)) →
      r.removeComponent env e c = .ok (r, .err ())) ∧
    (r.removeComponent env e c = .ok (r', .err ()) → r' = r) := by
  obtain ⟨cs, hi⟩ := hr.inv
  have hmain : ∀ (r' : Registry) v, r.removeComponent env e c = .ok (r', .ok v) →
      r.getComponent env c e = .ok (some v) ∧ Live env r e ∧ Live env r' e ∧
      r'.hasComponent env c e = .ok false ∧ r'.getComponent env c e = .ok none ∧
      SameOthers W r r' e c ∧ (∃ c', c' ≠ c ∧ W.Has c' ∧ r'.hasComponent env c' e = .ok true) ∧
      ∀ x, x ≠ e → SameEntity W r r' x := by
    intro r' v h
    obtain ⟨cs', f, hs, h1, h2, ⟨c', h3, h4⟩, h5⟩ := hi.remove_ok hadm h
    have hf' : r'.look env cs' e = some (setComp f c none) := by rw [h5, AMap.set_self]
    have hcc : setComp f c none c = none := if_pos rfl
    have hso := hi.sameOthers hs.inv h1 hf'
    have hW := hi.has_of_look h1 h4
    refine ⟨?_, hi.live_iff.mpr ⟨f, h1⟩, hs.inv.live_iff.mpr ⟨_, hf'⟩, ?_, ?_, hso, ⟨c', h3, hW, ?_⟩, fun x hx => ?_⟩
    · rw [hi.getComponent_eq hadm.1, h1]; exact congrArg _ h2
    · rw [hs.inv.hasComponent_eq hadm.1, hf']; simp [hcc]
    · rw [hs.inv.getComponent_eq hadm.1, hf']; simp [hcc]
    · rw [(hso c' hW h3).1]
      exact (hi.has_iff h1 hW).mpr h4
    · exact hi.sameEntity hs.inv (by rw [h5, AMap.set_ne hx])
  refine ⟨hmain r', ?_, hi.remove_err hadm⟩
  intro hcond
  by_cases hd : ¬ Live env r e
  · exact (dead_ops (hi.entry_none hd)).2.2.2.2.2.2.2.1 c
  have hlive := Classical.byContradiction hd
  have hcond : r.hasComponent env c e = .ok false ∨ (∀ c', W.Has c' → r.hasComponent env c' e = .ok true → c' = c) := by
    rcases hcond with h | h
    · exact absurd hlive h
    · exact h
  cases hx : r.removeComponent env e c with
  | ok x =>
    obtain ⟨r1, res⟩ := x
    cases res with
    | ok v =>
      obtain ⟨m1, _, _, _, _, m6, ⟨c', m7, m8, m9⟩, _⟩ := hmain r1 v hx
      rcases hcond with h | h
      · rw [hi.getComponent_eq hadm.1] at m1
        rw [hi.hasComponent_eq hadm.1] at h
        simp only [Except.ok.injEq] at m1 h
        rw [m1] at h; cases h
      · exact absurd (h c' m8 ((m6 c' m8 m7).1 ▸ m9)) m7
    | err u => rw [hi.remove_err hadm hx]
  | error flt =>
    rcases hi.remove_step hadm with ⟨r1, out, cs1, q1, _, _⟩ | ⟨flt', _, f, s, q2, q3, q4, q5⟩
    · simp only [Call.run, hx] at q1; cases q1
    · have hhas := (hi.has_iff q2 hadm.1).mpr q3
      rcases hcond with h | h
      · rw [hhas] at h; cases h
      · exfalso
        have honly : ∀ c', (f c').isSome → c' = c := fun c' hc' =>
          h c' (hi.has_of_look q2 hc') ((hi.has_iff q2 (hi.has_of_look q2 hc')).mpr hc')
        rcases q5 with ⟨_, q6⟩ | ⟨_, _, _, ai, ct, w1, w2, _⟩
        · have hall : ∀ i ∈ s, i = c.id := by
            intro i hi'
            obtain ⟨c', _, rfl, hc''⟩ := (q4.2 i).mp hi'
            rw [h c' ‹_› hc'']
          match s, q4, q6, hall with
          | a :: b :: t, q4, _, hall =>
            have ha := hall a (by simp)
            have hb := hall b (by simp)
            have := (List.pairwise_cons.mp q4.1).1 b (by simp)
            rw [ha, hb] at this
            exact absurd this (UInt16.lt_irrefl _)
        · obtain ⟨a, _, hrep⟩ := hi.arch.arch w1
          have hl1 := hrep.desc.length
          have hl2 := hrep.desc.wf.len_pos
          have hm : ct.cts[0]'(by omega) ∈ ct.cts := List.getElem_mem _
          obtain ⟨n1, n2⟩ := (w2 _).mp hm
          exact n1 (honly _ n2)

set_option maxRecDepth 100000 in
/-- C15 on `exR`: `exE1` has three components and can lose one; `exE2` has only `A`. -/
example : Reachable exWorld exR ∧ (∀ e ∈ [exE1, exE2], (Call.remove e exA).Admissible exWorld exR) ∧
    (∃ r', exR.removeComponent exEnv exE1 exA = .ok (r', .ok exValA)) ∧
    ∀ c', exWorld.Has c' → exR.hasComponent exEnv c' exE2 = .ok true → c' = exA := by
  refine ⟨exReachable, fun e _ => exCheck_ok (rfl : exCheck (.remove e exA) = true) _,
    exists_ok (by decide +kernel), ?_⟩
  have : ∀ c' ∈ [exA, exB, exC], exR.hasComponent exEnv c' exE2 = .ok true → c' = exA := by decide +kernel
  exact this

/-- **C17** `remove_entity` with the exact group returns the values in tuple order; the entity is dead afterwards and all
others are unchanged. -/
theorem C17_remove_entity_exact (hr : Reachable W r) {e : Entity} {g : Group} (hg : ∀ c ∈ g, W.Has c)
    (hv : (g.descriptor env).isValid = true) (hx : HasExactly W r e g) :
    ∃ r' vs, r.removeEntity env g e = .ok (r', some vs) ∧ vs.length = g.length ∧
      (∀ (i : Nat) (c : CompTy), g[i]? = some c → r.getComponent env c e = .ok vs[i]?) ∧
      ¬ Live env r' e ∧ ∀ x, x ≠ e → SameEntity W r r' x := by
  obtain ⟨cs, hi⟩ := hr.inv
  obtain ⟨f, hf⟩ := hi.live_iff.mp hx.1
  have hex := (hi.hasExactly_iff hf hg).mp hx
  obtain ⟨r', out, hrun⟩ := hi.removeEntity_safe (g := g) (e := e) (fun _ => ⟨hg, hv, hx⟩)
  obtain ⟨cs', hs⟩ := hi.step (call := .removeEntity g e) trivial hrun
  have habs := hs.abs
  simp only [AMap.Step] at habs
  rw [hf] at habs
  obtain ⟨h1, h2, h3⟩ := habs
  have h3 := h3 hv hex
  cases hc : r.removeEntity env g e with
  | error flt => simp only [Call.run, hc] at hrun; cases hrun
  | ok x =>
    obtain ⟨r1, o⟩ := x
    cases o with
    | none =>
      simp only [Call.run, hc, ok_bind] at hrun
      cases hrun
      cases h1
    | some vs =>
      rw [run_removeEntity_some hc] at hrun
      cases hrun
      simp only [] at h3
      have hlen : vs.length = g.length := by simpa using congrArg List.length h3
      refine ⟨_, vs, rfl, hlen, ?_, ?_, fun x hx => hi.sameEntity hs.inv (by rw [h2, AMap.set_ne hx])⟩
      · intro i c hgi
        rw [hi.getComponent_eq (hg c (List.mem_of_getElem? hgi)), hf]
        have h4 := congrArg (fun l => l[i]?) h3
        simp only [List.getElem?_map, hgi, Option.map_some] at h4
        congr 1
        show f c = _
        cases hvi : vs[i]? with
        | none => rw [hvi] at h4; cases h4
        | some v => rw [hvi] at h4; exact (Option.some.inj h4).symm
      · rw [hs.inv.dead_iff, h2, AMap.set_self]

set_option maxRecDepth 100000 in
/-- C17 on `exR`: `exE1` has exactly (C, A, B). -/
example : Reachable exWorld exR ∧ HasExactly exWorld exR exE1 [exC, exA, exB] ∧
    (Group.descriptor exEnv [exC, exA, exB]).isValid = true ∧
    ∃ r', exR.removeEntity exEnv [exC, exA, exB] exE1 = .ok (r', some [exValC, exValA, exValB]) := by
  refine ⟨exReachable, ⟨by unfold Live; rw [exR_live.1]; decide +kernel, ?_⟩, by decide +kernel, exists_ok (by decide +kernel)⟩
  have : ∀ c ∈ [exA, exB, exC], (exR.hasComponent exEnv c exE1 = .ok true ↔ c ∈ [exC, exA, exB]) := by decide +kernel
  exact this

/-- **C19** Multi-component reads agree with single reads, for every valid group, in every tuple order. -/
theorem C19_multi_reads (hr : Reachable W r) {g : Group} (hg : ∀ c ∈ g, W.Has c) (hv : (g.descriptor env).isValid = true)
    (e : Entity) :
    ∃ b, r.hasComponents env g e = .ok b ∧ (b = true ↔ ∀ c ∈ g, r.hasComponent env c e = .ok true) ∧
      (b = true → ∃ vs, r.getComponents env g e = .ok (some vs) ∧ vs.length = g.length ∧
        ∀ (i : Nat) (c : CompTy), g[i]? = some c → r.getComponent env c e = .ok vs[i]?) ∧
      (b = false → r.getComponents env g e = .ok none) := by
  obtain ⟨cs, hi⟩ := hr.inv
  have hpos := (Group.spec hv).wf.pos
  refine ⟨_, hi.hasComponents_eq hg hv e, ?_, ?_, ?_⟩
  · cases hf : r.look env cs e with
    | none =>
      simp only [Option.any_none, Bool.false_eq_true, false_iff]
      intro h
      have := h g[0] (List.getElem_mem _)
      rw [hi.hasComponent_eq (hg _ (List.getElem_mem _)), hf] at this
      cases this
    | some f =>
      simp only [Option.any_some, hasAll, List.all_eq_true]
      exact ⟨fun h c hc => (hi.has_iff hf (hg c hc)).mpr (h c hc), fun h c hc => (hi.has_iff hf (hg c hc)).mp (h c hc)⟩
  · intro hb
    rw [hi.getComponents_eq hg hv e]
    cases hf : r.look env cs e with
    | none => rw [hf] at hb; cases hb
    | some f =>
      rw [hf] at hb
      simp only [Option.any_some] at hb
      refine ⟨g.map (fun c => (f c).getD default), by simp [hb], by simp, ?_⟩
      intro i c hgi
      have hc := List.mem_of_getElem? hgi
      rw [hi.getComponent_eq (hg c hc), hf, List.getElem?_map, hgi]
      have := (List.all_eq_true.mp hb) c hc
      cases hfc : f c with
      | none => rw [hfc] at this; cases this
      | some v => simp [hfc]
  · intro hb
    rw [hi.getComponents_eq hg hv e]
    cases hf : r.look env cs e with
    | none => rfl
    | some f =>
      rw [hf] at hb
      simp only [Option.any_some] at hb
      simp [hb]

set_option maxRecDepth 100000 in
/-- C19 on `exR`, with a group in descending id order. -/
example : Reachable exWorld exR ∧ (∀ c ∈ [exC, exB], exWorld.Has c) ∧ (Group.descriptor exEnv [exC, exB]).isValid = true ∧
    exR.getComponents exEnv [exC, exB] exE1 = .ok (some [exValC, exValB]) ∧
    exR.getComponents exEnv [exC, exB] exE2 = .ok none := by
  refine ⟨exReachable, ?_, by decide +kernel⟩
  show ∀ c ∈ [exC, exB], c ∈ [exA, exB, exC]
  decide +kernel

/-- **C21** Mutable access changes exactly one component. `get_component_mut` returns a reference exactly if the entity
has the component; replacing the value behind it returns the old value and changes exactly that component of that
entity. The references returned by `get_components_mut` are in tuple order, refer to pairwise different storage, and
replacing the value behind any of them changes exactly that component. -/
theorem C21_mutable_access (hr : Reachable W r) (e : Entity) :
    (∀ (c : CompTy) (v : Val), W.Has c → v.HasTy c →
      (r.hasComponent env c e ≠ .ok true → r.getComponentMut env c e = .ok none ∧
        r.replaceComponent env c e v = .ok (r, none)) ∧
      (r.hasComponent env c e = .ok true → ∃ r' ai p old, r.getComponentMut env c e = .ok (some (ai, p)) ∧
        r.replaceComponent env c e v = .ok (r', some old) ∧ OnlyWritten W r r' e c old v)) ∧
    (∀ g : Group, (∀ c ∈ g, W.Has c) → (g.descriptor env).isValid = true →
      (r.hasComponents env g e ≠ .ok true → r.getComponentsMut env g e = .ok none) ∧
      (r.hasComponents env g e = .ok true → ∃ (ai : Nat) (ref : CompTy → Ref),
        r.getComponentsMut env g e = .ok (some (ai, g.map (fun c => (c, some (ref c))))) ∧
        (∀ c ∈ g, ∀ c' ∈ g, c ≠ c' → NoOverlap ai c (ref c) ai c' (ref c')) ∧
        ∀ c ∈ g, ∀ v, v.HasTy c → ∃ r' old, r.replaceAt ai c (ref c) v = .ok (r', old) ∧ OnlyWritten W r r' e c old v)) := by
  obtain ⟨cs, hi⟩ := hr.inv
  refine ⟨?_, ?_⟩
  · intro c v hc hv
    constructor
    · intro hn
      have hno : ∀ f, r.look env cs e = some f → f c = none := by
        intro f hf
        cases hfc : f c with
        | none => rfl
        | some w => exact absurd ((hi.has_iff hf hc).mpr (by rw [hfc]; rfl)) hn
      constructor
      · rcases hi.getComponentMut_eq hc e with ⟨_, h⟩ | ⟨f, w, ai, p, h1, h2, _⟩
        · exact h
        · rw [hno f h1] at h2; cases h2
      · rcases hi.replaceComponent_spec hc e hv with ⟨_, h⟩ | ⟨r', cs', f, old, _, _, h1, h2, _⟩
        · exact h
        · rw [hno f h1] at h2; cases h2
    · intro hh
      rcases hi.getComponentMut_eq hc e with ⟨hno, _⟩ | ⟨f, w, ai, p, h1, h2, h3, _⟩
      · rw [hi.hasComponent_eq hc] at hh
        cases hf : r.look env cs e with
        | none => rw [hf] at hh; cases hh
        | some f => rw [hf] at hh; simp [hno f hf] at hh
      · rcases hi.replaceComponent_spec hc e hv with ⟨hno, _⟩ | ⟨r', cs', f', old, q1, q2, q3, q4, q5, _⟩
        · rw [hno f h1] at h2; cases h2
        · exact ⟨r', ai, p, old, h3, q1, hi.onlyWritten q2 hc ⟨f', q3, q4, funext q5⟩⟩
  · intro g hg hv
    have hh := hi.hasComponents_eq hg hv e
    constructor
    · intro hn
      rcases hi.getComponentsMut_eq hg hv e with ⟨_, h⟩ | ⟨f, ai, ref, h1, h2, _⟩
      · exact h
      · rw [hh, h1] at hn
        exact absurd (by simp [h2]) hn
    · intro hb
      rcases hi.getComponentsMut_eq hg hv e with ⟨hno, _⟩ | ⟨f, ai, ref, h1, h2, h3, h4⟩
      · rw [hh] at hb
        cases hf : r.look env cs e with
        | none => rw [hf] at hb; cases hb
        | some f => rw [hf] at hb; simp [hno f hf] at hb
      · refine ⟨ai, ref, h3, ?_, ?_⟩
        · intro c hc c' hc' hne
          exact RefTo.disjoint hi (h4 c hc) (h4 c' hc') (Or.inr hne)
        · intro c hc v hv
          obtain ⟨r', cs', old, q1, q2, q3, _⟩ := hi.replaceAt_spec (h4 c hc) hv
          exact ⟨r', old, q1, hi.onlyWritten q2 (hg c hc) q3⟩

set_option maxRecDepth 100000 in
/-- C21 on `exR`. -/
example : Reachable exWorld exR ∧ exR.hasComponents exEnv [exC, exA] exE1 = .ok true ∧
    (∃ r', exR.replaceComponent exEnv exA exE1 exValA' = .ok (r', some exValA)) ∧
    exR.getComponentsMut exEnv [exC, exA] exE1 = .ok (some (2, [(exC, some ⟨2, 0⟩), (exA, some ⟨0, 0⟩)])) :=
  ⟨exReachable, by decide +kernel, exists_ok (by decide +kernel), by decide +kernel⟩

/-- **C22** Tuple order is irrelevant: two tuples that contain the same components with the same values, in different
order, have the same archetype, and creating an entity from either produces literally the same registry and the same
handle (or hands the respective tuple back, or faults in the same way). -/
theorem C22_tuple_order (r : Registry) {g g' : Group} {vals vals' : List Val}
    (hl : vals.length = g.length) (hl' : vals'.length = g'.length) (hp : (g.zip vals).Perm (g'.zip vals')) :
    (g'.descriptor env).archetype = (g.descriptor env).archetype ∧
    r.createEntity env g' vals' = (r.createEntity env g vals).map (fun x =>
      (x.1, match x.2 with
        | .ok e => .ok e
        | .err _ => .err vals')) := by
  refine ⟨?_, createEntity_perm r hl hl' hp⟩
  have := hp.map Prod.fst
  rw [List.map_fst_zip (by omega), List.map_fst_zip (by omega)] at this
  exact Group.archetype_perm env this

/-- C22 on (B, A) and (A, B). -/
example : ([exB, exA].zip [exValB, exValA]).Perm ([exA, exB].zip [exValA, exValB]) := List.Perm.swap _ _ _

end Shard
