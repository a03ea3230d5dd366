import Verif.Proofs.Ledger
import Verif.Props.Limits
import Verif.Props.Check
/-!
# C35, C36, C49, C55, C56: ownership, memory safety, refinement of an abstract map
-/

set_option autoImplicit false

namespace Shard

variable {env : Env} {W : World env} {r r' : Registry}

/-! ## C35 -/

/-- **C35** At every point of every history, the values moved into the registry are — as a multiset — those that have
been handed back, those that have been dropped and those that dropping the registry would drop now. The latter are
exactly the values visible through `get_component`, one for each entity and component type. (`remove_entity` must be
called with the component types of the entity, see `C18`.) -/
theorem C35_ownership {hist : List (Call × Outcome)} (hs : Steps env (Call.Disciplined W) Registry.default hist r) :
    ∃ stored : List (Entity × CompTy × Val),
      (∃ left, r.drop = .ok (stored.map (fun x => x.2.2), left)) ∧
      stored.Nodup ∧ (∀ e c v, (e, c, v) ∈ stored ↔ W.Has c ∧ r.getComponent env c e = .ok (some v)) ∧
      (stored.map (fun x => x.2.2) ++ hist.flatMap (fun x => x.2.returned) ++ hist.flatMap (fun x => x.2.dropped)).Perm
        (hist.flatMap (fun x => x.2.given)) := by
  obtain ⟨cs, h, hp⟩ := hs.ledger (fun _ _ h => h)
  obtain ⟨h1, h2, h3⟩ := h.allItems_spec
  refine ⟨allItems cs, ?_, h1, h3, ?_⟩
  · obtain ⟨left, hd, _⟩ := h.drop_eq
    exact ⟨left, by rw [h2]; exact hd⟩
  · rw [h2]; exact hp

/-- The calls of `exCalls` are disciplined: none is a `remove_entity`. -/
theorem exSteps_disciplined : Steps exEnv (Call.Disciplined exWorld) Registry.default (exCalls.zip exOuts) exR := by
  have := Steps.of_run (calls := exCalls) (ok := Call.Disciplined exWorld)
    (fun r call hc => ⟨exCheck_ok (List.all_eq_true.mp (show exCalls.all exCheck = true by decide +kernel) call hc) r, by
      unfold exCalls at hc
      simp only [List.mem_cons, List.not_mem_nil, or_false] at hc
      rcases hc with rfl | rfl | rfl | rfl | rfl | rfl <;> trivial⟩)
    Steps.nil exRun
  simpa using this

set_option maxRecDepth 100000 in
/-- C35 on `exR`: seven values are moved in, two of them are dropped with the destroyed entity, none is returned. -/
example : Steps exEnv (Call.Disciplined exWorld) Registry.default (exCalls.zip exOuts) exR ∧
    ((exCalls.zip exOuts).flatMap (fun x => x.2.given)).length = 7 ∧
    (exCalls.zip exOuts).flatMap (fun x => x.2.dropped) = [exValA, exValB] ∧
    exR.drop.map (fun x => x.1.length) = .ok 5 :=
  ⟨exSteps_disciplined, by decide +kernel, by decide +kernel, by decide +kernel⟩

/-! ## C36 -/

/-- **C36** (partial: within the limits that `Call.WithinLimits` and `Call.Matched` state, which the code does not check;
`C18`, `C25`, `C26` and `C37` show what happens beyond them) In every reachable registry every call, every query, every
iteration and the final drop runs without a fault: no access outside an allocation, through a null pointer, to
uninitialised memory or at another type, no misuse of the allocator and no panic. -/
theorem C36_memory_safety_partial (hr : Reachable W r) :
    (∀ call : Call, call.Disciplined W r → call.WithinLimits W r → ∃ r' out, call.run env r = .ok (r', out)) ∧
    (∀ (c : CompTy) (e : Entity), W.Has c → (∃ b, r.hasComponent env c e = .ok b) ∧ (∃ v, r.getComponent env c e = .ok v) ∧
      ∃ p, r.getComponentMut env c e = .ok p) ∧
    (∀ (g : Group) (e : Entity), (∀ c ∈ g, W.Has c) → (g.descriptor env).isValid = true →
      (∃ b, r.hasComponents env g e = .ok b) ∧ (∃ v, r.getComponents env g e = .ok v) ∧
      ∃ p, r.getComponentsMut env g e = .ok p) ∧
    (∀ (g : Group), (∀ c ∈ g, W.Has c) → (g.descriptor env).isValid = true →
      (∃ l, r.iterComponentsMatching env g = .ok l) ∧ (∃ l, r.iterEntityComponentsMatching env g = .ok l) ∧
      (∀ f, ∃ l, r.iterFilteredComponentsMatching env g f = .ok l) ∧
      (∀ f, ∃ l, r.iterFilteredEntityComponentsMatching env g f = .ok l) ∧
      (∀ it : MutIter, it.Ok W g → ∃ l, it.items env r g = .ok l) ∧
      (W.Used g.idSet → (∃ l, r.iterComponentsExact env g = .ok l) ∧ ∃ l, r.iterEntityComponentsExact env g = .ok l)) ∧
    (∃ x, r.drop = .ok x) := by
  obtain ⟨cs, h⟩ := hr.inv
  obtain ⟨left, hdrop, _⟩ := h.drop_eq
  refine ⟨fun call h1 h2 => h.call_safe h1 h2, fun c e hc => ⟨?_, ?_, ?_⟩, fun g e hg hv => ⟨?_, ?_, ?_⟩,
    fun g hg hv => ⟨?_, ?_, fun f => ?_, fun f => ?_, fun it hit => ?_, fun hu => ?_⟩, _, hdrop⟩
  · exact ⟨_, h.hasComponent_eq hc e⟩
  · exact ⟨_, h.getComponent_eq hc e⟩
  · rcases h.getComponentMut_eq hc e with ⟨_, h1⟩ | ⟨_, _, _, _, _, _, h1, _⟩ <;> exact ⟨_, h1⟩
  · exact ⟨_, h.hasComponents_eq hg hv e⟩
  · exact ⟨_, h.getComponents_eq hg hv e⟩
  · rcases h.getComponentsMut_eq hg hv e with ⟨_, h1⟩ | ⟨_, _, _, _, _, h1, _⟩ <;> exact ⟨_, h1⟩
  · exact ⟨_, h.iterFilteredComponentsMatching_eq hg hv _⟩
  · exact ⟨_, h.iterFilteredEntityComponentsMatching_eq hg hv _⟩
  · exact ⟨_, h.iterFilteredComponentsMatching_eq hg hv f⟩
  · exact ⟨_, h.iterFilteredEntityComponentsMatching_eq hg hv f⟩
  · obtain ⟨items, h1, _⟩ := h.items_spec hg hv it (by cases it <;> exact hit)
    exact ⟨items, h1⟩
  · rcases h.iterExact_eq ⟨hg, hu⟩ hv with ⟨_, _, _, _, _, _, _, _, h1, _, h2, _⟩ | ⟨_, h1, _, h2, _⟩
    · exact ⟨⟨_, h1⟩, _, h2⟩
    · exact ⟨⟨_, h1⟩, _, h2⟩

set_option maxRecDepth 100000 in
/-- C36 on `exR`: a disciplined call within the limits. -/
example : Reachable exWorld exR ∧ (Call.create [exC, exB] [exValC, exValB]).Disciplined exWorld exR ∧
    (Call.create [exC, exB] [exValC, exValB]).WithinLimits exWorld exR ∧ exWorld.Has exA ∧
    (Group.descriptor exEnv [exC, exB]).isValid = true :=
  ⟨exReachable, ⟨exCheck_ok (by decide +kernel) _, trivial⟩, exFew (fun _ h => h.1), List.mem_cons_self,
    by decide +kernel⟩

/-- The same for whole histories: a program whose calls are disciplined and within the limits never faults, whatever it
has done before. -/
theorem C36_histories_partial {hist : List (Call × Outcome)}
    (hs : Steps env (fun r call => call.Disciplined W r ∧ call.WithinLimits W r) Registry.default hist r)
    {call : Call} (hd : call.Disciplined W r) (hl : call.WithinLimits W r) :
    ∃ r' out, Steps env (fun r call => call.Disciplined W r ∧ call.WithinLimits W r) Registry.default
      (hist ++ [(call, out)]) r' := by
  obtain ⟨cs, h⟩ := hs.inv (W := W) (fun _ _ h => h.1.1) (RInv.empty W)
  obtain ⟨r', out, h1⟩ := h.call_safe hd hl
  exact ⟨r', out, hs.snoc ⟨hd, hl⟩ h1⟩

/-! ## C49 -/

/-- Every query about the registry is answered as the abstract map says. -/
def Agrees {env : Env} (W : World env) (r : Registry) (a : AMap) : Prop :=
  (∀ e, Live env r e ↔ (a e).isSome) ∧
  (∀ e c, W.Has c → r.hasComponent env c e = .ok ((a e).any (fun f => (f c).isSome)) ∧
    r.getComponent env c e = .ok ((a e).bind (fun f => f c))) ∧
  (∀ e g, (∀ c ∈ g, W.Has c) → (g.descriptor env).isValid = true →
    r.hasComponents env g e = .ok ((a e).any (fun f => g.all (fun c => (f c).isSome))) ∧
    r.getComponents env g e = .ok ((a e).bind (fun f => g.mapM f))) ∧
  (∀ e c f, a e = some f → (f c).isSome → W.Has c)

theorem mapM_of_all {f : CompTy → Option Val} {g : Group} : g.mapM f =
    if g.all (fun c => (f c).isSome) then some (g.map (fun c => (f c).getD default)) else none := by
  induction g with
  | nil => rfl
  | cons c g ih =>
    rw [List.mapM_cons, ih]
    cases hc : f c with
    | none => simp [hc]
    | some v =>
      simp only [List.all_cons, hc, Option.isSome_some, Bool.true_and, List.map_cons, Option.getD_some]
      split <;> simp

theorem RInv.agrees {cs : List Content} (h : RInv W r cs) : Agrees W r (r.look env cs) := by
  refine ⟨fun e => ?_, fun e c hc => ⟨(h.hasComponent_eq hc e).trans (by cases r.look env cs e <;> rfl), h.getComponent_eq hc e⟩, fun e g hg hv => ⟨h.hasComponents_eq hg hv e, ?_⟩,
    fun e c f hf hc => h.has_of_look hf hc⟩
  · rw [h.live_iff, Option.isSome_iff_exists]
  · rw [h.getComponents_eq hg hv]
    simp only [mapM_of_all]
    rfl

theorem Steps.snoc_inv {ok : Registry → Call → Prop} {r0 : Registry} {hist : List (Call × Outcome)} {x : Call × Outcome}
    (hs : Steps env ok r0 (hist ++ [x]) r) : ∃ r1, Steps env ok r0 hist r1 ∧ ok r1 x.1 ∧ x.1.run env r1 = .ok (r, x.2) := by
  generalize hl : hist ++ [x] = l at hs
  cases hs with
  | nil => simp at hl
  | snoc h1 h2 h3 =>
    obtain ⟨rfl, h5⟩ := List.append_inj' hl rfl
    simp only [List.cons.injEq, and_true] at h5
    subst h5
    exact ⟨_, h1, h2, h3⟩

/-- The registry is determined by the history. -/
theorem Steps.det {ok ok' : Registry → Call → Prop} {r0 : Registry} {hist : List (Call × Outcome)}
    (hs : Steps env ok r0 hist r) (hs' : Steps env ok' r0 hist r') : r = r' := by
  induction hs generalizing r' with
  | nil =>
    generalize hl : ([] : List (Call × Outcome)) = l at hs'
    cases hs' with
    | nil => rfl
    | snoc => simp at hl
  | snoc h1 h2 h3 ih =>
    obtain ⟨r1, k1, _, k3⟩ := hs'.snoc_inv
    rw [← ih k1, h3] at k3
    cases k3
    rfl

set_option maxRecDepth 100000 in
/-- C36 for histories: one entity has been created, within the limits, and a second one is created. -/
example : ∃ hist r, hist.length = 1 ∧
    Steps exEnv (fun r call => call.Disciplined exWorld r ∧ call.WithinLimits exWorld r) Registry.default hist r ∧
    (Call.create [exC, exB] [exValC, exValB]).Disciplined exWorld r ∧
    (Call.create [exC, exB] [exValC, exValB]).WithinLimits exWorld r := by
  have hl : ∀ {P : Entity → Prop}, (∀ e, P e → Live exEnv Registry.default e) → FewerThan STORAGE_LIMIT P :=
    fun h => few_of_live (l := []) (by decide +kernel) (by decide) h
  obtain ⟨r, out, hs⟩ := C36_histories_partial (W := exWorld) Steps.nil (call := .create [exA, exB] [exValA, exValB])
    ⟨exCheck_ok (by decide +kernel) _, trivial⟩ (hl fun _ h => h.1)
  refine ⟨_, r, rfl, hs, ⟨exCheck_ok (by decide +kernel) _, trivial⟩, ?_⟩
  obtain ⟨r1, h1, _, h3⟩ := hs.snoc_inv
  have : (do let x ← (Call.create [exA, exB] [exValA, exValB]).run exEnv Registry.default
             pure (x.1.iterEntities exEnv) : M (List Entity)) = .ok [Entity.newUnchecked 0 0] := by decide +kernel
  cases h1.det (Steps.nil (ok := fun _ _ => True))
  rw [h3] at this
  exact few_of_live (l := [Entity.newUnchecked 0 0]) (Except.ok.inj this) (by decide) (fun _ h => h.1)

/-- **C49** Every history behaves like a plain map from handles to maps from component types to values: there is a
sequence of abstract maps, starting with the empty one, in which each call makes exactly the step that `AMap.Step` says
(with the outcome the program observed) and drops exactly what `AMap.Drops` says, and after every prefix of the history
every query agrees with the abstract map of that point. -/
theorem C49_refinement {hist : List (Call × Outcome)} (hs : Steps env (Call.Admissible W) Registry.default hist r) :
    ∃ a : Nat → AMap, a 0 = AMap.empty ∧
      (∀ n x, hist[n]? = some x → (a n).Step env x.1 x.2 (a (n + 1)) ∧ (a n).Drops x.1 x.2) ∧
      ∀ n rn, n ≤ hist.length → Steps env (Call.Admissible W) Registry.default (hist.take n) rn → Agrees W rn (a n) := by
  suffices hsuff : ∃ (a : Nat → AMap) (cs : List Content), RInv W r cs ∧ a hist.length = r.look env cs ∧ a 0 = AMap.empty ∧
      (∀ n x, hist[n]? = some x → (a n).Step env x.1 x.2 (a (n + 1)) ∧ (a n).Drops x.1 x.2) ∧
      ∀ n rn, n ≤ hist.length → Steps env (Call.Admissible W) Registry.default (hist.take n) rn → Agrees W rn (a n) by
    obtain ⟨a, _, _, _, h⟩ := hsuff
    exact ⟨a, h⟩
  induction hs with
  | nil =>
    have h0 := RInv.empty W
    have he : Registry.default.look env [] = AMap.empty := by
      funext e
      cases hx : Registry.default.look env [] e with
      | none => rfl
      | some f =>
        obtain ⟨en, hen⟩ := h0.look_some hx
        obtain ⟨_, _, _, hc, _⟩ := h0.entry hen
        simp at hc
    refine ⟨fun _ => AMap.empty, [], h0, he.symm, rfl, by simp, fun n rn _ hn => ?_⟩
    rw [List.take_nil] at hn
    rw [hn.det (Steps.nil (ok := Call.Admissible W)), ← he]
    exact h0.agrees
  | snoc h1 h2 h3 ih =>
    rename_i hist r1 r2 call out
    obtain ⟨a, cs, hcs, hal, ha0, hst, hag⟩ := ih
    obtain ⟨cs', h4⟩ := hcs.step h2 h3
    refine ⟨fun n => if n ≤ hist.length then a n else r2.look env cs', cs', h4.inv, ?_, ?_, ?_, ?_⟩
    · simp only [List.length_append, List.length_singleton]
      exact if_neg (by omega)
    · simp only []
      rw [if_pos (Nat.zero_le _)]; exact ha0
    · intro n x hx
      rw [List.getElem?_append] at hx
      split at hx
      · rename_i hlt
        simp only []
        rw [if_pos (by omega), if_pos (by omega)]
        exact hst n x hx
      · rename_i hge
        rw [List.getElem?_singleton] at hx
        split at hx
        · cases hx
          have : n = hist.length := by omega
          subst this
          simp only []
          rw [if_pos (Nat.le_refl _), if_neg (by omega), hal]
          exact ⟨h4.abs, hcs.drops h3⟩
        · cases hx
    · intro n rn hn hrn
      simp only []
      by_cases hle : n ≤ hist.length
      · rw [if_pos hle]
        rw [List.take_append_of_le_length hle] at hrn
        exact hag n rn hle hrn
      · rw [if_neg hle]
        rw [List.take_of_length_le (by simp; omega)] at hrn
        rw [← (h1.snoc h2 h3).det hrn]
        exact h4.inv.agrees

/-- C49 on `exR`: a history of six calls. -/
example : Steps exEnv (Call.Admissible exWorld) Registry.default (exCalls.zip exOuts) exR ∧
    (exCalls.zip exOuts).length = 6 := ⟨exSteps, by decide +kernel⟩

/-! ## C55, C56 -/

/-- **C55** A call of `destroy_entity` on a live handle drops exactly the components of this entity, each once, and on any
other handle nothing; no other call drops a component. -/
theorem C55_destroy_drops (hr : Reachable W r) :
    (∀ (e : Entity) (b : Bool) (d : List Val), r.destroyEntity env e = .ok (r', b, d) →
      (¬ Live env r e → d = []) ∧
      (Live env r e → ∃ cts : List CompTy, cts.Nodup ∧
        (∀ c, c ∈ cts ↔ W.Has c ∧ r.hasComponent env c e = .ok true) ∧ d.length = cts.length ∧
        ∀ (i : Nat) (c : CompTy), cts[i]? = some c → r.getComponent env c e = .ok d[i]?)) ∧
    ∀ (call : Call) (out : Outcome), (∀ e, call ≠ .destroy e) → call.run env r = .ok (r', out) → out.dropped = [] := by
  obtain ⟨cs, h⟩ := hr.inv
  constructor
  · intro e b d hd
    have hdr := h.drops (run_destroy hd)
    simp only [AMap.Drops] at hdr
    refine ⟨fun hn => ?_, fun hl => ?_⟩
    · rw [h.dead_iff.mp hn] at hdr
      exact hdr
    · obtain ⟨f, hf⟩ := h.live_iff.mp hl
      rw [hf] at hdr
      obtain ⟨cts, h1, h2, h3⟩ := hdr
      refine ⟨cts, h1, fun c => ?_, by simpa using congrArg List.length h3, fun i c hc => ?_⟩
      · rw [h2]
        constructor
        · intro hc
          have hw := h.has_of_look hf hc
          exact ⟨hw, (h.has_iff hf hw).mpr hc⟩
        · rintro ⟨hw, hc⟩
          exact (h.has_iff hf hw).mp hc
      · have hs := (h2 c).mp (List.mem_of_getElem? hc)
        rw [h.getComponent_eq (h.has_of_look hf hs), hf]
        have h4 := congrArg (fun l => l[i]?) h3
        simp only [List.getElem?_map, hc, Option.map_some] at h4
        obtain ⟨v, hv⟩ := Option.isSome_iff_exists.mp hs
        simp only [Option.bind_some]
        rw [hv] at h4 ⊢
        cases hx : d[i]? with
        | none => rw [hx] at h4; cases h4
        | some w => rw [hx] at h4; cases h4; rfl
  · intro call out hne hrun
    have hdr := h.drops hrun
    cases call with
    | destroy e => exact absurd rfl (hne e)
    | _ => exact hdr

set_option maxRecDepth 100000 in
/-- C55 on `exR`: destroying `exE1` drops its three components. -/
example : Reachable exWorld exR ∧ Live exEnv exR exE1 ∧
    (exR.destroyEntity exEnv exE1).map (fun x => x.2) = .ok (true, [exValA, exValB, exValC]) := by
  refine ⟨exReachable, ?_, by decide +kernel⟩
  unfold Live
  rw [exR_live.1]
  decide +kernel

/-- **C56** Dropping the registry frees all its storage: afterwards no archetype holds a component array or an entity
array. -/
theorem C56_drop_frees (hr : Reachable W r) : ∃ vals left, r.drop = .ok (vals, left) ∧
    left.length = r.archetypes.archetypes.length ∧ ∀ a ∈ left, a.NoMemory := by
  obtain ⟨cs, h⟩ := hr.inv
  obtain ⟨left, h1, h2, h3⟩ := h.drop_eq
  exact ⟨_, left, h1, h2, h3⟩

set_option maxRecDepth 100000 in
/-- C56 on `exR`: four archetypes, each with memory. -/
example : Reachable exWorld exR ∧ exR.archetypes.archetypes.length = 4 ∧
    (exR.archetypes.archetypes.all fun a => a.pointers.any Option.isSome && a.entityAssociations.isSome) = true ∧
    (exR.drop.map fun x => x.2.all fun a => a.pointers.all Option.isNone && a.entityAssociations.isNone) = .ok true :=
  ⟨exReachable, by decide +kernel, by decide +kernel, by decide +kernel⟩

end Shard
