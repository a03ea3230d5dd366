import Verif.Spec.Links
import Verif.Props.LastStored
import Verif.Props.Lifecycle
/-!
# C132: handles kept in components lead to the entities they were taken from
-/

set_option autoImplicit false

namespace Shard

variable {env : Env} {W : World env} {r r' : Registry} {c l : CompTy}

/-- **C132** A handle can be stored as a component and is the same when it is read again. -/
theorem C132_link (env : Env) (l : CompTy) (hl : l.size = 4) (e : Entity) :
    (linkTo env l e).HasTy l ∧ linkOf env (linkTo env l e) = e := by
  have hlt : e.handle.toNat < 4294967296 := e.handle.toNat_lt
  constructor
  · refine ⟨rfl, ?_⟩
    unfold linkTo
    cases env.bigEndian <;> simp [hl]
  · have key : UInt32.ofNat (([e.handle.toNat % 256, e.handle.toNat / 256 % 256, e.handle.toNat / 65536 % 256,
        e.handle.toNat / 16777216 % 256].map UInt8.ofNat).foldr (fun b n => b.toNat + 256 * n) 0) = e.handle := by
      have : (([e.handle.toNat % 256, e.handle.toNat / 256 % 256, e.handle.toNat / 65536 % 256,
        e.handle.toNat / 16777216 % 256].map UInt8.ofNat).foldr (fun b n => b.toNat + 256 * n) 0) = e.handle.toNat := by
        simp only [List.map_cons, List.map_nil, List.foldr_cons, List.foldr_nil, UInt8.toNat_ofNat']
        omega
      rw [this]
      exact UInt32.ofNat_toNat
    unfold linkOf linkTo
    cases env.bigEndian
    · simp only [Bool.false_eq_true, if_false]
      rw [key]
    · simp only [if_true, List.reverse_reverse]
      rw [key]

/-- **C132** Following links through any number of entities leads where the links last stored lead, whatever else happened
in the registry. -/
theorem C132_chase {hist : List (Call × Outcome)} (hs : Steps env (Call.Admissible W) Registry.default hist r)
    (hn : ∀ x ∈ hist, x.1.NamesEntity) (hl : W.Has l) : ∀ (n : Nat) (a : Entity),
    chase env l r n a = .ok (chaseRecord env l hist n a)
  | 0, _ => rfl
  | n + 1, a => by
    unfold chase chaseRecord
    rw [((C82_last_stored hs hn).2.1 a l hl).1]
    cases lastStored hist.reverse a l with
    | none => rfl
    | some v => exact C132_chase hs hn hl n _

/-- **C132** The component of the entity a link leads to is the one last stored there. -/
theorem C132_follow {hist : List (Call × Outcome)} (hs : Steps env (Call.Admissible W) Registry.default hist r)
    (hn : ∀ x ∈ hist, x.1.NamesEntity) (hl : W.Has l) (hl4 : l.size = 4) (hc : W.Has c) {a b : Entity}
    (h : lastStored hist.reverse a l = some (linkTo env l b)) :
    follow env l c r a = .ok (lastStored hist.reverse b c) := by
  unfold follow
  rw [((C82_last_stored hs hn).2.1 a l hl).1, h]
  simp only [ok_bind]
  rw [(C132_link env l hl4 b).2]
  exact ((C82_last_stored hs hn).2.1 b c hc).1

/-- **C132** A link to an entity that has ended leads nowhere, as long as the slot of that entity has been vacated less than
255 further times, whatever happened since and whether or not the slot is in use again. -/
theorem C132_dangling {r0 r1 : Registry} (hr : Reachable W r0) {call : Call} {out : Outcome} (hadm : call.Admissible W r0)
    (hrun : call.run env r0 = .ok (r1, out)) {b : Entity} (hv : out.vacated = some b) {hist : List (Call × Outcome)}
    (hs : Steps env (Call.Admissible W) r1 hist r) (hk : vacations hist b.index < 255) (hl4 : l.size = 4)
    {a : Entity} (h : r.getComponent env l a = .ok (some (linkTo env l b))) :
    follow env l c r a = .ok none ∧ ¬ Live env r b := by
  obtain ⟨h1, _⟩ := C05_stale_handles (r' := r) hr hadm hrun hv hs
  obtain ⟨h2, h3⟩ := h1 hk
  refine ⟨?_, h2⟩
  unfold follow
  rw [h]
  simp only [ok_bind]
  rw [(C132_link env l hl4 b).2]
  exact h3.2.2.1 c

/-- An entity with a `C`, one with an `A` that is a link to it, one with an `A` that is a link to the second. -/
def linkCalls : List Call := [.create [exC] [exValC], .create [exA, exB] [linkTo exEnv exA (Entity.newUnchecked 0 0), exValB],
  .create [exA] [linkTo exEnv exA (Entity.newUnchecked 1 0)]]

def linkHist : List (Call × Outcome) := linkCalls.zip (okOr ([], Registry.default) (runCalls exEnv Registry.default linkCalls)).1
def linkR : Registry := (okOr ([], Registry.default) (runCalls exEnv Registry.default linkCalls)).2

set_option maxRecDepth 100000 in
theorem linkSteps : Steps exEnv (Call.Admissible exWorld) Registry.default linkHist linkR := by
  have hrun : runCalls exEnv Registry.default linkCalls =
      .ok ((okOr ([], Registry.default) (runCalls exEnv Registry.default linkCalls)).1, linkR) := by decide +kernel
  have := Steps.of_run (calls := linkCalls) (ok := Call.Admissible exWorld)
    (fun r call hc => exCheck_ok (List.all_eq_true.mp (show linkCalls.all exCheck = true by decide +kernel) call hc) r)
    Steps.nil hrun
  rwa [List.nil_append] at this

set_option maxRecDepth 100000 in
/-- C132: the hypotheses of `C132_chase` and `C132_follow` hold, and where the links lead. -/
example : Steps exEnv (Call.Admissible exWorld) Registry.default linkHist linkR ∧ (∀ x ∈ linkHist, x.1.NamesEntity) ∧
    exWorld.Has exA ∧ exA.size = 4 ∧ exWorld.Has exC ∧
    lastStored linkHist.reverse (Entity.newUnchecked 1 0) exA = some (linkTo exEnv exA (Entity.newUnchecked 0 0)) ∧
    chaseRecord exEnv exA linkHist 2 (Entity.newUnchecked 2 0) = some (Entity.newUnchecked 0 0) ∧
    chaseRecord exEnv exA linkHist 3 (Entity.newUnchecked 2 0) = none ∧
    okOr none (follow exEnv exA exC linkR (Entity.newUnchecked 1 0)) = some exValC := by
  refine ⟨linkSteps, fun x hx => ?_, show exA ∈ [exA, exB, exC] by decide, rfl, show exC ∈ [exA, exB, exC] by decide,
    by decide +kernel, by decide +kernel, by decide +kernel, by decide +kernel⟩
  have h1 : x.1 ∈ linkCalls := (List.of_mem_zip hx).1
  have h2 : exCheck x.1 = true := List.all_eq_true.mp (show linkCalls.all exCheck = true by decide +kernel) _ h1
  revert h2
  cases x.1 <;> simp [Call.NamesEntity, exCheck]

/-- The first entity ends. -/
def linkEnd : Registry × Outcome :=
  okOr (Registry.default, { success := false }) ((Call.destroy (Entity.newUnchecked 0 0)).run exEnv linkR)
/-- Its slot is used again. -/
def linkNext : Registry × Outcome :=
  okOr (Registry.default, { success := false }) ((Call.create [exC] [exValC]).run exEnv linkEnd.1)

set_option maxRecDepth 100000 in
/-- C132: the hypotheses of `C132_dangling` hold after the first entity has ended and its slot is in use again. -/
example : Reachable exWorld linkR ∧ (Call.destroy (Entity.newUnchecked 0 0)).Admissible exWorld linkR ∧
    (Call.destroy (Entity.newUnchecked 0 0)).run exEnv linkR = .ok linkEnd ∧
    linkEnd.2.vacated = some (Entity.newUnchecked 0 0) ∧
    Steps exEnv (Call.Admissible exWorld) linkEnd.1 [(.create [exC] [exValC], linkNext.2)] linkNext.1 ∧
    vacations [(.create [exC] [exValC], linkNext.2)] (Entity.newUnchecked 0 0).index < 255 ∧
    linkNext.2.created = some (Entity.newUnchecked 0 1) ∧
    linkNext.1.getComponent exEnv exA (Entity.newUnchecked 1 0) = .ok (some (linkTo exEnv exA (Entity.newUnchecked 0 0))) := by
  refine ⟨⟨_, linkSteps⟩, exCheck_ok (by decide +kernel) _, by decide +kernel, by decide +kernel, ?_, by decide +kernel,
    by decide +kernel, by decide +kernel⟩
  have h : (Call.create [exC] [exValC]).run exEnv linkEnd.1 = .ok (linkNext.1, linkNext.2) := by decide +kernel
  exact Steps.nil.snoc (call := .create [exC] [exValC]) (exCheck_ok (by decide +kernel) _) h

end Shard
