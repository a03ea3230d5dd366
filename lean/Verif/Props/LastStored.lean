import Verif.Spec.LastStored
import Verif.Props.Reference
import Verif.Props.Safety

/-!
# C82: a query returns what was last stored
-/

set_option autoImplicit false

namespace Shard

variable {env : Env} {W : World env}

/-- The abstract map says what the record says. -/
def AMap.Tells (a : AMap) (rec : List (Call × Outcome)) : Prop :=
  ∀ e, (a e).isSome = lastAlive rec e ∧ ∀ c, (a e).bind (fun f => f c) = lastStored rec e c

theorem AMap.Tells.step {a a' : AMap} {rec : List (Call × Outcome)} {call : Call} {out : Outcome}
    (ha : a.Tells rec) (hn : call.NamesEntity) (hs : a.Step env call out a') : a'.Tells ((call, out) :: rec) := by
  intro e
  have h1 := (ha e).1
  have h2 := (ha e).2
  cases call with
  | create g vals =>
    simp only [AMap.Step] at hs
    rcases hs with ⟨ho, e', he, hno, rfl⟩ | ⟨ho, _, rfl⟩
    · simp only [lastAlive, lastStored, ho, he, AMap.set]
      by_cases hee : e = e'
      · subst hee; simp
      · have : ¬ e' = e := fun h => hee h.symm
        simp [hee, this, h1, h2]
    · simp [lastAlive, lastStored, ho, h1, h2]
  | destroy e' =>
    simp only [AMap.Step] at hs
    cases hx : a e' with
    | none =>
      rw [hx] at hs
      obtain ⟨ho, rfl⟩ := hs
      simp [lastAlive, lastStored, ho, h1, h2]
    | some f =>
      rw [hx] at hs
      obtain ⟨ho, rfl⟩ := hs
      simp only [lastAlive, lastStored, ho, AMap.set]
      by_cases hee : e = e'
      · subst hee; simp
      · have : ¬ e' = e := fun h => hee h.symm
        simp [hee, this, h1, h2]
  | removeEntity g e' =>
    simp only [AMap.Step] at hs
    cases hx : a e' with
    | none =>
      rw [hx] at hs
      obtain ⟨ho, rfl⟩ := hs
      simp [lastAlive, lastStored, ho, h1, h2]
    | some f =>
      rw [hx] at hs
      obtain ⟨ho, rfl, _⟩ := hs
      simp only [lastAlive, lastStored, ho, AMap.set]
      by_cases hee : e = e'
      · subst hee; simp
      · have : ¬ e' = e := fun h => hee h.symm
        simp [hee, this, h1, h2]
  | add e' c' v =>
    simp only [AMap.Step] at hs
    cases hx : a e' with
    | none =>
      rw [hx] at hs
      obtain ⟨ho, _, rfl⟩ := hs
      simp [lastAlive, lastStored, ho, h1, h2]
    | some f =>
      rw [hx] at hs
      rcases hs with ⟨ho, _, rfl⟩ | ⟨ho, _, rfl⟩
      · simp only [lastAlive, lastStored, ho, AMap.set]
        by_cases hee : e = e'
        · subst hee
          rw [hx] at h1 h2
          simp only [Option.bind_some] at h2
          refine ⟨by simp [← h1], fun c => ?_⟩
          by_cases hc : c = c'
          · subst hc; simp [setComp]
          · have : ¬ c' = c := fun h => hc h.symm
            simp [setComp, hc, this, h2]
        · have : ¬ e' = e := fun h => hee h.symm
          simp [hee, this, h1, h2]
      · simp [lastAlive, lastStored, ho, h1, h2]
  | remove e' c' =>
    simp only [AMap.Step] at hs
    cases hx : a e' with
    | none =>
      rw [hx] at hs
      obtain ⟨ho, rfl⟩ := hs
      simp [lastAlive, lastStored, ho, h1, h2]
    | some f =>
      rw [hx] at hs
      rcases hs with ⟨ho, _, _, _, _, rfl⟩ | ⟨ho, rfl⟩
      · simp only [lastAlive, lastStored, ho, AMap.set]
        by_cases hee : e = e'
        · subst hee
          rw [hx] at h1 h2
          simp only [Option.bind_some] at h2
          refine ⟨by simp [← h1], fun c => ?_⟩
          by_cases hc : c = c'
          · subst hc; simp [setComp]
          · have : ¬ c' = c := fun h => hc h.symm
            simp [setComp, hc, this, h2]
        · have : ¬ e' = e := fun h => hee h.symm
          simp [hee, this, h1, h2]
      · simp [lastAlive, lastStored, ho, h1, h2]
  | write e' c' v =>
    simp only [AMap.Step] at hs
    rcases hs with ⟨ho, old, _, f, hx, _, rfl⟩ | ⟨ho, _, _, rfl⟩
    · simp only [lastAlive, lastStored, ho, AMap.set]
      by_cases hee : e = e'
      · subst hee
        rw [hx] at h1 h2
        simp only [Option.bind_some] at h2
        refine ⟨by simp [← h1], fun c => ?_⟩
        by_cases hc : c = c'
        · subst hc; simp [setComp]
        · have : ¬ c' = c := fun h => hc h.symm
          simp [setComp, hc, this, h2]
      · have : ¬ e' = e := fun h => hee h.symm
        simp [hee, this, h1, h2]
    · simp [lastAlive, lastStored, ho, h1, h2]
  | writeIn g e' j v =>
    simp only [AMap.Step] at hs
    rcases hs with ⟨ho, _, c', old, hj, _, f, hx, _, rfl⟩ | ⟨ho, _, _, rfl⟩
    · simp only [lastAlive, lastStored, ho, AMap.set, hj]
      by_cases hee : e = e'
      · subst hee
        rw [hx] at h1 h2
        simp only [Option.bind_some] at h2
        refine ⟨by simp [← h1], fun c => ?_⟩
        by_cases hc : c = c'
        · subst hc; simp [setComp]
        · have : ¬ c' = c := fun h => hc h.symm
          simp [setComp, hc, this, h2]
      · have : ¬ e' = e := fun h => hee h.symm
        simp [hee, this, h1, h2]
    · simp [lastAlive, lastStored, ho, h1, h2]
  | writeIter it g n j k v => exact hn.elim

theorem tells_all {a : Nat → AMap} {hist : List (Call × Outcome)} (h0 : a 0 = AMap.empty)
    (hst : ∀ n x, hist[n]? = some x → (a n).Step env x.1 x.2 (a (n + 1)))
    (hn : ∀ x ∈ hist, x.1.NamesEntity) (n : Nat) (hle : n ≤ hist.length) : (a n).Tells (hist.take n).reverse := by
  induction n with
  | zero =>
    intro e
    rw [h0]
    simp [AMap.empty, lastAlive, lastStored]
  | succ n ih =>
    have hx : hist[n]? = some hist[n] := List.getElem?_eq_getElem (by omega)
    have := (ih (by omega)).step (hn _ (List.getElem_mem (by omega))) (hst n _ hx)
    rwa [List.take_succ_eq_append_getElem (by omega), List.reverse_append, List.reverse_singleton]

/-- **C82**. After any history of calls (with any results) that names the entities it writes to, a handle is alive, has
a component, and holds a value exactly as the most recent successful call about it says; and every call that hands a
value back — `remove_component`, a replacement through a mutable reference, `remove_entity` with the entity's own group
— or drops values hands back or drops what was last stored. -/
theorem C82_last_stored {r : Registry} {hist : List (Call × Outcome)}
    (hs : Steps env (Call.Admissible W) Registry.default hist r) (hn : ∀ x ∈ hist, x.1.NamesEntity) :
    (∀ e, Live env r e ↔ lastAlive hist.reverse e = true) ∧
    (∀ e c, W.Has c → r.getComponent env c e = .ok (lastStored hist.reverse e c) ∧
      r.hasComponent env c e = .ok (lastStored hist.reverse e c).isSome) ∧
    (∀ e g, (∀ c ∈ g, W.Has c) → (g.descriptor env).isValid = true → lastAlive hist.reverse e = true →
      r.getComponents env g e = .ok (g.mapM (lastStored hist.reverse e))) ∧
    ∀ n (call : Call) (out : Outcome), hist[n]? = some (call, out) → out.success = true →
      match call with
      | .remove e c | .write e c _ => out.returned.map some = [lastStored (hist.take n).reverse e c]
      | .writeIn g e j _ => ∃ c, g[j]? = some c ∧ out.returned.map some = [lastStored (hist.take n).reverse e c]
      | .removeEntity g e =>
        (g.descriptor env).isValid = true → (∀ c, (lastStored (hist.take n).reverse e c).isSome ↔ c ∈ g) →
          out.returned.map some = g.map (lastStored (hist.take n).reverse e)
      | .destroy e => RowOf (lastStored (hist.take n).reverse e) out.dropped
      | .add e c _ => lastStored (hist.take n).reverse e c = none
      | .create _ _ => ∃ e, out.created = some e ∧ lastAlive (hist.take n).reverse e = false
      | .writeIter .. => True := by
  obtain ⟨a, h0, hst, hag⟩ := C49_refinement hs
  have htell := fun n hle => tells_all h0 (fun n x hx => (hst n x hx).1) hn n hle
  have hA := hag hist.length r (Nat.le_refl _) (by rw [List.take_length]; exact hs)
  have hT := htell hist.length (Nat.le_refl _)
  rw [List.take_length] at hT
  refine ⟨fun e => ?_, fun e c hc => ?_, fun e g hg hv hal => ?_, fun n call out hx ho => ?_⟩
  · rw [hA.1 e, (hT e).1]
  · have h := hA.2.1 e c hc
    rw [(hT e).2 c] at h
    refine ⟨h.2, ?_⟩
    rw [h.1, ← (hT e).2 c]
    cases a hist.length e <;> rfl
  · rw [(hA.2.2.1 e g hg hv).2]
    have h1 := (hT e).1
    have h2 := (hT e).2
    cases hx : a hist.length e with
    | none => rw [hx, hal] at h1; cases h1
    | some f =>
      rw [hx] at h2
      have : f = lastStored hist.reverse e := funext h2
      rw [this]; rfl
  · have hlt : n < hist.length := (List.getElem?_eq_some_iff.1 hx).1
    have hT := htell n (by omega)
    obtain ⟨hstep, hdrop⟩ := hst n _ hx
    simp only at hstep hdrop
    cases call with
    | create g vals =>
      rcases hstep with ⟨_, e, he, hno, _⟩ | ⟨hf, _⟩
      · exact ⟨e, he, by rw [← (hT e).1, hno]; rfl⟩
      · rw [ho] at hf; cases hf
    | destroy e =>
      simp only [AMap.Step, AMap.Drops] at hstep hdrop
      have h2 := (hT e).2
      cases hae : a n e with
      | none => rw [hae] at hstep; rw [ho] at hstep; cases hstep.1
      | some f =>
        rw [hae] at hdrop h2
        have : f = lastStored (hist.take n).reverse e := funext h2
        rw [this] at hdrop
        exact hdrop
    | removeEntity g e =>
      simp only [AMap.Step] at hstep
      have h2 := (hT e).2
      cases hae : a n e with
      | none => rw [hae] at hstep; rw [ho] at hstep; cases hstep.1
      | some f =>
        rw [hae] at hstep h2
        have : f = lastStored (hist.take n).reverse e := funext h2
        rw [this] at hstep
        exact hstep.2.2
    | add e c v =>
      simp only [AMap.Step] at hstep
      have h2 := (hT e).2
      show lastStored _ e c = none
      cases hae : a n e with
      | none => rw [hae] at hstep; rw [ho] at hstep; cases hstep.1
      | some f =>
        rw [hae] at hstep h2
        rcases hstep with ⟨_, hc, _⟩ | ⟨hf, _⟩
        · rw [← h2 c]; exact hc
        · rw [ho] at hf; cases hf
    | remove e c =>
      simp only [AMap.Step] at hstep
      have h2 := (hT e).2
      show out.returned.map some = [lastStored _ e c]
      cases hae : a n e with
      | none => rw [hae] at hstep; rw [ho] at hstep; cases hstep.1
      | some f =>
        rw [hae] at hstep h2
        rcases hstep with ⟨_, v, hc, _, hr, _⟩ | ⟨hf, _⟩
        · rw [← h2 c, hr]
          show [some v] = [f c]
          rw [hc]
        · rw [ho] at hf; cases hf
    | write e c v =>
      have h2 := (hT e).2
      show out.returned.map some = [lastStored _ e c]
      rcases hstep with ⟨_, old, hr, f, hae, hc, _⟩ | ⟨hf, _⟩
      · rw [hae] at h2
        rw [← h2 c, hr]
        show [some old] = [f c]
        rw [hc]
      · rw [ho] at hf; cases hf
    | writeIn g e j v =>
      have h2 := (hT e).2
      show ∃ c, g[j]? = some c ∧ out.returned.map some = [lastStored _ e c]
      rcases hstep with ⟨_, _, c, old, hj, hr, f, hae, hc, _⟩ | ⟨hf, _⟩
      · refine ⟨c, hj, ?_⟩
        rw [hae] at h2
        rw [← h2 c, hr]
        show [some old] = [f c]
        rw [hc]
      · rw [ho] at hf; cases hf
    | writeIter it g m j k v => trivial

/-- The history of the example: `exCalls2` with its results. -/
def exHist2 : List (Call × Outcome) := exCalls2.zip (okOr ([], Registry.default) (runCalls exEnv Registry.default exCalls2)).1
def exR2 : Registry := (okOr ([], Registry.default) (runCalls exEnv Registry.default exCalls2)).2

set_option maxRecDepth 100000 in
theorem exRun2 : runCalls exEnv Registry.default exCalls2 =
    .ok ((okOr ([], Registry.default) (runCalls exEnv Registry.default exCalls2)).1, exR2) := by
  decide +kernel

theorem exSteps2 : Steps exEnv (Call.Admissible exWorld) Registry.default exHist2 exR2 := by
  have := Steps.of_run (calls := exCalls2) (ok := Call.Admissible exWorld)
    (fun r call hc => exCheck_ok (List.all_eq_true.mp (show exCalls2.all exCheck = true by decide +kernel) call hc) r)
    Steps.nil exRun2
  rwa [List.nil_append] at this

set_option maxRecDepth 100000 in
/-- The hypotheses hold for the example, in which entities are destroyed, slots recycled, components added, replaced and
removed, and some calls fail. The record and the registry, evaluated separately: the second entity's `A` holds the value
it was replaced by, its `B` the value added, and of the handles only three are alive. -/
example : (∀ x ∈ exHist2, x.1.NamesEntity) ∧
    [exE1, exE2, exE3, exE4, Entity.newUnchecked 3 0].map (lastAlive exHist2.reverse) = [false, true, false, true, true] ∧
    [exA, exB, exC].map (lastStored exHist2.reverse exE2) = [some exValA, some exValB, none] ∧
    [exA, exB, exC].map (fun c => exR2.getComponent exEnv c exE2) = [.ok (some exValA), .ok (some exValB), .ok none] ∧
    [exA, exB, exC].map (lastStored (exHist2.take 6).reverse exE2) = [some exValA', none, none] ∧
    [exA, exB, exC].map (lastStored exHist2.reverse exE1) = [none, none, none] := by
  refine ⟨fun x hx => ?_, by decide +kernel⟩
  have h1 : x.1 ∈ exCalls2 := (List.of_mem_zip hx).1
  have h2 : exCheck x.1 = true := List.all_eq_true.mp (show exCalls2.all exCheck = true by decide +kernel) _ h1
  revert h2
  cases x.1 <;> simp [Call.NamesEntity, exCheck]

end Shard
