import Verif.Proofs.Observe
import Verif.Props.Example
/-!
# C03–C07, C09–C12, C23, C45: creation and destruction of entities

`Reachable W r` says that `r` results from a history of API calls in the world `W`; `Live env r e` that entity
iteration yields `e`. `W` fixes the component types of the program and the component sets it forms; what it assumes is
spelled out in `Verif/Spec/World.lean`.
-/

namespace Shard

variable {env : Env} {W : World env} {r r' : Registry}

/-- **C03** A created entity gets a fresh handle. -/
theorem C03_created_handle_fresh (hr : Reachable W r) {g : Group} {vals : List Val}
    (hadm : (Call.create g vals).Admissible W r) {e : Entity} (h : r.createEntity env g vals = .ok (r', .ok e)) :
    ¬ Live env r e ∧ Live env r' e ∧ e ≠ Entity.INVALID ∧ e.isValid = true ∧
      ∀ x, Live env r x → Live env r' x ∧ x ≠ e := by
  obtain ⟨cs, hi⟩ := hr.inv
  obtain ⟨cs', hs, _⟩ := hi.create_ok hadm h
  obtain ⟨h1, h2⟩ := hs.created_dead hi rfl
  have hl := hs.live hi
  refine ⟨h1, (hl e).mpr (Or.inl rfl), h2, ?_, fun x hx => ⟨(hl x).mpr (Or.inr hx), ?_⟩⟩
  · unfold Entity.isValid
    rw [bne_iff_ne]
    intro hh
    exact h2 (by cases e; simp_all [Entity.INVALID])
  · rintro rfl
    exact h1 hx

set_option maxRecDepth 100000 in
/-- C03 on `exR`: the next creation takes slot 3. -/
example : Reachable exWorld exR ∧ (Call.create [exA, exC] [exValA, exValC]).Admissible exWorld exR ∧
    ∃ r', exR.createEntity exEnv [exA, exC] [exValA, exValC] = .ok (r', .ok (Entity.newUnchecked 3 0)) :=
  ⟨exReachable, exCheck_ok (by decide +kernel) _, exists_ok (by decide +kernel)⟩

/-- Nothing can be done with the handle `e` in `r`, and trying it changes nothing. -/
def Inert (env : Env) (r : Registry) (e : Entity) : Prop :=
  (∀ c, r.hasComponent env c e = .ok false) ∧ (∀ g, r.hasComponents env g e = .ok false) ∧
  (∀ c, r.getComponent env c e = .ok none) ∧ (∀ g, r.getComponents env g e = .ok none) ∧
  (∀ c, r.getComponentMut env c e = .ok none) ∧ (∀ g, r.getComponentsMut env g e = .ok none) ∧
  (∀ c v, r.addComponent env e c v = .ok (r, .err v)) ∧ (∀ c, r.removeComponent env e c = .ok (r, .err ())) ∧
  (∀ g, r.removeEntity env g e = .ok (r, none)) ∧ r.destroyEntity env e = .ok (r, false, [])

/-- **C04** Destroyed handles are dead: destruction succeeds exactly on live handles; afterwards the handle is not live;
and every operation on a handle that is not live fails without changing the registry. -/
theorem C04_destroyed_dead (hr : Reachable W r) (e : Entity) :
    (∃ r' b d, r.destroyEntity env e = .ok (r', b, d) ∧ (b = true ↔ Live env r e) ∧ ¬ Live env r' e ∧ Inert env r' e) ∧
    (¬ Live env r e → Inert env r e) := by
  obtain ⟨cs, hi⟩ := hr.inv
  refine ⟨?_, fun hd => dead_ops (hi.entry_none hd)⟩
  obtain ⟨r', out, cs', h1, h2⟩ := hi.destroy_step e
  cases hx : r.destroyEntity env e with
  | error f => simp only [Call.run, hx] at h1; cases h1
  | ok x =>
    obtain ⟨r1, b, d⟩ := x
    obtain ⟨cs1, hs, hb, hl⟩ := hi.destroy_ok hx
    have hd : ¬ Live env r1 e := by
      rw [hs.inv.dead_iff, hl]
      simp [AMap.set]
    exact ⟨r1, b, d, rfl, hb, hd, dead_ops (hs.inv.entry_none hd)⟩

set_option maxRecDepth 100000 in
/-- C04 on `exR`: the live entity `exE1` and the destroyed `exE3`. -/
example : Reachable exWorld exR ∧ Live exEnv exR exE1 ∧ ¬ Live exEnv exR exE3 := by
  refine ⟨exReachable, ?_, ?_⟩ <;> unfold Live <;> rw [exR_live.1] <;> decide +kernel

/-- **C05** Stale handles stay dead: after a call that retires the handle `e` (`destroy_entity` or `remove_entity`), and
any history in which the slot of `e` is vacated less than 255 more times, `e` is not live and nothing can be done with
it. After exactly 255 more vacations, a creation that takes the slot of `e` hands out `e` itself again. -/
theorem C05_stale_handles {r0 r1 : Registry} (hr : Reachable W r0) {call : Call} {out : Outcome}
    (hadm : call.Admissible W r0) (hrun : call.run env r0 = .ok (r1, out)) {e : Entity} (hv : out.vacated = some e)
    {hist : List (Call × Outcome)} (hs : Steps env (Call.Admissible W) r1 hist r) :
    (vacations hist e.index < 255 → ¬ Live env r e ∧ Inert env r e) ∧
    (vacations hist e.index = 255 → ∀ (g : Group) (vals : List Val) (e' : Entity),
      (Call.create g vals).Admissible W r → r.createEntity env g vals = .ok (r', .ok e') → e'.index = e.index → e' = e) := by
  obtain ⟨cs0, hi0⟩ := hr.inv
  obtain ⟨en, h1, h2⟩ := hs.stale hi0 hadm hrun hv
  obtain ⟨cs1, hi1⟩ := hi0.step hadm hrun
  obtain ⟨cs, hi⟩ := hs.inv (fun _ _ h => h) hi1.inv
  constructor
  · intro hlt
    have hd : ¬ Live env r e := by
      intro hl
      obtain ⟨en', e1, e2, _⟩ := hi.live_version hl
      rw [h1] at e1; cases e1
      rw [h2] at e2
      have := u8_ofNat_eq e2
      omega
    exact ⟨hd, dead_ops (hi.entry_none hd)⟩
  · intro heq g vals e' hadm' hc hidx
    rw [heq, u8_wrap] at h2
    obtain ⟨cs', hs', _⟩ := hi.create_ok hadm' hc
    have ht := hs'.table
    obtain ⟨iia, ai, hcr⟩ : ∃ iia ai, EntityRegistry.Created env r.entities r'.entities e' iia ai := ht
    rcases hcr.old with ⟨o, _⟩ | ⟨en1, o, _, o3⟩
    · rw [hidx, h1] at o; cases o
    · rw [hidx, h1] at o; cases o
      exact Entity.ext_iff.mpr ⟨hidx, by rw [← o3, h2]⟩

/-- `n` rounds of creating an entity in slot 3 of `exR` and destroying it, starting with version `v`. -/
def exChurn : Nat → Nat → List Call
  | 0, _ => []
  | n + 1, v => .create [exA] [exValA] :: .destroy (Entity.newUnchecked 3 (UInt8.ofNat v)) :: exChurn n (v + 1)

theorem exChurn_check : ∀ n v, ∀ call ∈ exChurn n v, exCheck call = true
  | 0, _, call, h => by cases h
  | n + 1, v, call, h => by
    simp only [exChurn, List.mem_cons] at h
    rcases h with rfl | rfl | h
    · decide +kernel
    · rfl
    · exact exChurn_check n _ call h

set_option maxRecDepth 100000 in
/-- Both halves of C05 occur: after retiring handle (3, 0) and 255 more vacations of slot 3, the next creation returns the
handle (3, 0) again. -/
example : ∃ r1 out1 outs r r', Reachable exWorld exR ∧
    runCalls exEnv exR [.create [exA] [exValA]] = .ok (out1, r1) ∧
    runCalls exEnv r1 (.destroy (Entity.newUnchecked 3 0) :: exChurn 255 1) = .ok (outs, r) ∧
    vacations ((exChurn 255 1).zip outs.tail) 3 = 255 ∧
    r.createEntity exEnv [exB] [exValB] = .ok (r', .ok (Entity.newUnchecked 3 0)) := by
  have h : ((runCalls exEnv exR [.create [exA] [exValA]]).bind (fun x =>
      (runCalls exEnv x.2 (.destroy (Entity.newUnchecked 3 0) :: exChurn 255 1)).bind (fun y =>
        if vacations ((exChurn 255 1).zip y.1.tail) 3 = 255 then
          (y.2.createEntity exEnv [exB] [exValB]).map Prod.snd
        else .error (.panic .unwrapNone)))) = .ok (.ok (Entity.newUnchecked 3 0)) := by decide +kernel
  cases h1 : runCalls exEnv exR [.create [exA] [exValA]] with
  | error f => rw [h1] at h; cases h
  | ok x =>
    rw [h1] at h
    simp only [Except.bind] at h
    cases h2 : runCalls exEnv x.2 (.destroy (Entity.newUnchecked 3 0) :: exChurn 255 1) with
    | error f => rw [h2] at h; cases h
    | ok y =>
      rw [h2] at h
      simp only [] at h
      split at h
      · next hv =>
        obtain ⟨r', hr'⟩ := exists_ok h
        exact ⟨x.2, x.1, y.1, y.2, r', exReachable, rfl, h2, hv, hr'⟩
      · cases h

/-- **C06** The invalid entity is never live: `Entity::INVALID` (which is also `Entity::default()`) is never returned by
`create_entity`, never yielded by iteration, and every operation on it fails without changing anything. -/
theorem C06_invalid_never_live (hr : Reachable W r) :
    Entity.default = Entity.INVALID ∧ ¬ Live env r Entity.INVALID ∧ Inert env r Entity.INVALID ∧
    ∀ (g : Group) (vals : List Val), (Call.create g vals).Admissible W r →
      r.createEntity env g vals ≠ .ok (r', .ok Entity.INVALID) := by
  obtain ⟨cs, hi⟩ := hr.inv
  refine ⟨rfl, hi.invalid_dead, dead_ops (hi.entry_none hi.invalid_dead), ?_⟩
  intro g vals hadm h
  obtain ⟨cs', hs, _⟩ := hi.create_ok hadm h
  exact (hs.created_dead hi rfl).2 rfl

/-- C06 applies to `exR`. -/
example : Reachable exWorld exR ∧ exR.iterEntities exEnv ≠ [] := ⟨exReachable, by rw [exR_live.1]; simp⟩

/-- **C07** Free slots are recycled before the table grows. `slotState` is a stack allocator run on the outcomes of the
history (`Verif/Spec/History.lean`). The free list of the registry is its stack; the list visits every dead slot
exactly once and no live one (`FreeList`); the next creation takes the most recently vacated slot, and a new slot only if
there is none; the number of slots is exactly the largest number of entities live at the same time in the history. -/
theorem C07_slot_recycling {hist : List (Call × Outcome)} (hs : Steps env (Call.Admissible W) Registry.default hist r) :
    FreeList env r.entities ((slotState hist).1.map UInt32.toNat) ∧
    r.entities.entities.length = (slotState hist).2 ∧
    (r.iterEntities env).length = (liveCount hist).1 ∧
    r.entities.entities.length = (liveCount hist).2 ∧
    ∀ (g : Group) (vals : List Val) (e : Entity), (Call.create g vals).Admissible W r →
      r.createEntity env g vals = .ok (r', .ok e) → e.index.toNat = nextSlot (slotState hist) := by
  have hsl := hs.slots (fun _ _ h => h)
  refine ⟨hsl.free, hsl.len, ?_, ?_, ?_⟩
  · have h1 := count_free hsl.free
    have h2 := hsl.count
    have h3 := hsl.len
    rw [List.length_map] at h1
    unfold Registry.iterEntities
    omega
  · rw [hsl.len]; exact hsl.peak
  · intro g vals e hadm hc
    obtain ⟨cs, hi⟩ := hs.inv (fun _ _ h => h) (RInv.empty W)
    obtain ⟨cs', hs', _⟩ := hi.create_ok hadm hc
    exact (hsl.step (call := .create g vals) hi.ents.len_le hs'.table).2 e rfl

set_option maxRecDepth 100000 in
/-- C07 on the example history: three slots for a peak of three entities, and slot 2 is recycled. -/
example : Steps exEnv (Call.Admissible exWorld) Registry.default (exCalls.zip exOuts) exR ∧
    slotState (exCalls.zip exOuts) = ([], 3) ∧ liveCount (exCalls.zip exOuts) = (3, 3) ∧
    slotState ((exCalls.zip exOuts).take 5) = ([2], 3) :=
  ⟨exSteps, by decide +kernel⟩

/-- **C09** Entity iteration is exact: it yields the handles that have been created and not retired since, each once, in
increasing slot order. A handle is yielded exactly if `destroy_entity` would succeed on it, and exactly if it has a
component. -/
theorem C09_entity_iteration {hist : List (Call × Outcome)} (hs : Steps env (Call.Admissible W) Registry.default hist r) :
    (r.iterEntities env).Perm (liveHandles hist) ∧ (liveHandles hist).Nodup ∧
    (r.iterEntities env).Pairwise (fun a b => a.index < b.index) ∧
    ∀ e, (e ∈ r.iterEntities env ↔ ∃ r' d, r.destroyEntity env e = .ok (r', true, d)) ∧
      (e ∈ r.iterEntities env ↔ ∃ c, W.Has c ∧ r.hasComponent env c e = .ok true) := by
  obtain ⟨cs, hi⟩ := hs.inv (fun _ _ h => h) (RInv.empty W)
  obtain ⟨h1, h2⟩ := hs.liveHandles (fun _ _ h => h)
  refine ⟨(List.perm_ext_iff_of_nodup hi.iterEntities_nodup h1).mpr h2, h1, ?_, fun e => ⟨?_, ?_⟩⟩
  · exact hi.iterEntities_sorted
  · obtain ⟨⟨r1, b, d, q1, q2, _⟩, _⟩ := C04_destroyed_dead ⟨hist, hs⟩ e
    rw [q1]
    constructor
    · intro h
      exact ⟨r1, d, by rw [q2.mpr h]⟩
    · rintro ⟨_, _, h⟩
      cases h
      exact q2.mp rfl
  · show Live env r e ↔ _
    rw [hi.live_iff]
    constructor
    · rintro ⟨f, hf⟩
      obtain ⟨c, hc⟩ := hi.some_component hf
      exact ⟨c, hi.has_of_look hf hc, (hi.has_iff hf (hi.has_of_look hf hc)).mpr hc⟩
    · rintro ⟨c, hc, h⟩
      cases hl : r.look env cs e with
      | none => rw [hi.hasComponent_eq hc, hl] at h; cases h
      | some f => exact ⟨f, rfl⟩

set_option maxRecDepth 100000 in
/-- C09 on the example history. -/
example : Steps exEnv (Call.Admissible exWorld) Registry.default (exCalls.zip exOuts) exR ∧
    exR.iterEntities exEnv = [exE1, exE2, exE4] ∧ liveHandles (exCalls.zip exOuts) = [exE4, exE2, exE1] :=
  ⟨exSteps, exR_live.1, by decide +kernel⟩

/-- **C10** Create then read: every supplied value is read back, nothing else is there. -/
theorem C10_create_then_read (hr : Reachable W r) {g : Group} {vals : List Val}
    (hadm : (Call.create g vals).Admissible W r) {e : Entity} (h : r.createEntity env g vals = .ok (r', .ok e)) :
    (∀ (i : Nat) (c : CompTy) (v : Val), g[i]? = some c → vals[i]? = some v → r'.getComponent env c e = .ok (some v)) ∧
    (∀ c, W.Has c → c ∉ g → r'.getComponent env c e = .ok none) ∧
    (∀ c, W.Has c → r'.hasComponent env c e = .ok (decide (c ∈ g))) := by
  obtain ⟨cs, hi⟩ := hr.inv
  obtain ⟨cs', hs, _, hl⟩ := hi.create_ok hadm h
  have hv : (g.descriptor env).isValid = true := by
    cases hv : (g.descriptor env).isValid with
    | true => rfl
    | false => rw [createEntity_invalid hv] at h; cases h
  have gs := Group.spec hv
  have hg := gs.wf.nodup'
  have hw := hadm.2 gs.wf.nodup
  have hle : r'.look env cs' e = some (lookupTy g vals) := by rw [hl]; simp [AMap.set]
  refine ⟨?_, ?_, ?_⟩
  · intro i c v hc hvi
    have hj := (List.getElem?_eq_some_iff.mp hc)
    obtain ⟨v', q1, q2, _⟩ := hadm.1.lookup hg hj.1
    rw [hj.2] at q2
    rw [hvi] at q1; cases q1
    rw [hs.inv.getComponent_eq (hw.has c (List.mem_of_getElem? hc)), hle]
    exact congrArg _ q2
  · intro c hc hn
    rw [hs.inv.getComponent_eq hc, hle]
    exact congrArg _ (lookupTy_none hn)
  · intro c hc
    rw [hs.inv.hasComponent_eq hc, hle]
    show Except.ok (lookupTy g vals c).isSome = _
    congr 1
    by_cases hm : c ∈ g
    · obtain ⟨v, hx, _⟩ := lookupTy_isSome hadm.1 hg hm
      simp [hx, hm]
    · simp [lookupTy_none hm, hm]

set_option maxRecDepth 100000 in
/-- C10 on `exR`: a group in descending id order, of which the registry has no archetype yet. -/
example : (Call.create [exC, exA] [exValC, exValA]).Admissible exWorld exR ∧
    ∃ r', exR.createEntity exEnv [exC, exA] [exValC, exValA] = .ok (r', .ok (Entity.newUnchecked 3 0)) :=
  ⟨exCheck_ok (by decide +kernel) _, exists_ok (by decide +kernel)⟩

/-- **C11** Creation does not disturb other entities, whether it succeeds or not. -/
theorem C11_create_frame (hr : Reachable W r) {g : Group} {vals : List Val}
    (hadm : (Call.create g vals).Admissible W r) {res : Registry.Res Entity (List Val)}
    (h : r.createEntity env g vals = .ok (r', res)) :
    ∀ x, res ≠ .ok x → SameEntity W r r' x := by
  obtain ⟨cs, hi⟩ := hr.inv
  intro x hx
  cases res with
  | ok e =>
    obtain ⟨cs', hs, _, hl⟩ := hi.create_ok hadm h
    apply hi.sameEntity hs.inv
    rw [hl]
    exact if_neg (fun hh => hx (by rw [hh]))
  | err vs =>
    obtain ⟨cs', hs, _, hl⟩ := hi.create_err hadm h
    exact hi.sameEntity hs.inv (by rw [hl])

set_option maxRecDepth 100000 in
/-- C11 on `exR`, where creation adds a row to the archetype of another entity. -/
example : (Call.create [exA] [exValA]).Admissible exWorld exR ∧ Live exEnv exR exE2 ∧
    ∃ r', exR.createEntity exEnv [exA] [exValA] = .ok (r', .ok (Entity.newUnchecked 3 0)) :=
  ⟨exCheck_ok (by decide +kernel) _, by unfold Live; rw [exR_live.1]; decide +kernel, exists_ok (by decide +kernel)⟩

/-- **C12** Destruction does not disturb other entities. -/
theorem C12_destroy_frame (hr : Reachable W r) {e : Entity} {b : Bool} {d : List Val}
    (h : r.destroyEntity env e = .ok (r', b, d)) : ∀ x, x ≠ e → SameEntity W r r' x := by
  obtain ⟨cs, hi⟩ := hr.inv
  obtain ⟨cs', hs, _, hl⟩ := hi.destroy_ok h
  intro x hx
  apply hi.sameEntity hs.inv
  rw [hl]
  exact if_neg hx

set_option maxRecDepth 100000 in
/-- C12 on `exR` with two more entities in the archetype of `exE2`: destroying `exE2` moves the last one into its row. -/
example : ∃ outs r, runCalls exEnv exR [.create [exA] [exValA], .create [exA] [exValA']] = .ok (outs, r) ∧ Reachable exWorld r ∧
    ∃ r', r.destroyEntity exEnv exE2 = .ok (r', true, [exValA']) := by
  have h : ((runCalls exEnv exR [.create [exA] [exValA], .create [exA] [exValA']]).bind (fun x =>
      (x.2.destroyEntity exEnv exE2).map Prod.snd)) = .ok (true, [exValA']) := by decide +kernel
  cases h1 : runCalls exEnv exR [.create [exA] [exValA], .create [exA] [exValA']] with
  | error f => rw [h1] at h; cases h
  | ok x =>
    rw [h1] at h
    obtain ⟨r', hr'⟩ := exists_ok h
    refine ⟨x.1, x.2, rfl, ⟨_, Steps.of_run (fun r call hc => ?_) exSteps h1⟩, r', hr'⟩
    exact exCheck_ok (List.all_eq_true.mp (show [Call.create [exA] [exValA], .create [exA] [exValA']].all exCheck = true
      by decide +kernel) call hc) r

/-- **C23** Invalid groups are rejected: for every registry, a group that names a component type twice is refused, the
components are handed back and the registry is unchanged. -/
theorem C23_duplicate_rejected (r : Registry) {g : Group} {vals : List Val} (hd : ¬ g.Nodup) :
    r.createEntity env g vals = .ok (r, .err vals) := by
  apply createEntity_invalid
  cases hv : (g.descriptor env).isValid with
  | false => rfl
  | true => exact absurd (Group.spec hv).wf.nodup' hd

/-- C23 on the group (A, B, A). -/
example : ¬ [exA, exB, exA].Nodup := by decide

/-- **C45** Failed creation is clean: the components are handed back, and every query about every handle answers as
before. -/
theorem C45_failed_create (hr : Reachable W r) {g : Group} {vals vs : List Val}
    (hadm : (Call.create g vals).Admissible W r) (h : r.createEntity env g vals = .ok (r', .err vs)) :
    vs = vals ∧ r'.iterEntities env = r.iterEntities env ∧ ∀ x, SameEntity W r r' x := by
  obtain ⟨cs, hi⟩ := hr.inv
  obtain ⟨cs', hs, hv, hl⟩ := hi.create_err hadm h
  refine ⟨hv, ?_, fun x => hi.sameEntity hs.inv (by rw [hl])⟩
  apply hs.inv.iterEntities_ext hi
  intro x
  rw [hs.inv.live_iff, hi.live_iff, hl]

set_option maxRecDepth 100000 in
/-- C45 on `exR`: the group (A, A) is refused. -/
example : Reachable exWorld exR ∧ (Call.create [exA, exA] [exValA, exValA']).Admissible exWorld exR ∧
    ∃ r', exR.createEntity exEnv [exA, exA] [exValA, exValA'] = .ok (r', .err [exValA, exValA']) :=
  ⟨exReachable, exCheck_ok (by decide +kernel) _, exists_ok (by decide +kernel)⟩

end Shard
