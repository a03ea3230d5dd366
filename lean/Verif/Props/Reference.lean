import Verif.Proofs.RefRun
import Verif.Props.Example
/-!
# C66: the registry is equivalent to a reference registry

The reference (`Verif/Spec/Reference.lean`) is executable and has no bytes, pointers, capacities, sorted indices, back
references or hash lookups: rows are found by searching. The theorems say that outcomes, faults, handles, values, and the
order of everything that is enumerated are the same.
-/

set_option autoImplicit false

namespace Shard

variable {env : Env} {W : World env}

/-- Every sequence of calls on an empty registry has the outcomes of the reference and ends as the reference does: with the
same fault, or in a registry that answers every query as the reference does. -/
theorem C66_run {calls : List Call} (h : OkRun W Registry.default calls) :
    (runAll env Registry.default calls).1 = (RReg.empty.run env calls).1 ∧
      SameEnd W (runAll env Registry.default calls).2 (RReg.empty.run env calls).2 :=
  (RRel.empty W).run h

/-- The same from every reachable registry on: some state of the reference answers alike, and keeps doing so. -/
theorem C66_from {r : Registry} (hr : Reachable W r) : ∃ R : RReg, SameAnswers W r R ∧
    ∀ calls, OkRun W r calls →
      (runAll env r calls).1 = (R.run env calls).1 ∧ SameEnd W (runAll env r calls).2 (R.run env calls).2 := by
  obtain ⟨cs, hi⟩ := hr.inv
  obtain ⟨fl, hfl⟩ := hi.ents.free
  have h : RRel W r cs ⟨r.entities.entities.map (fun en => en.version), fl, tablesOf r.archetypes.idsOf cs⟩ :=
    ⟨hi, rfl, rfl, hfl⟩
  exact ⟨_, h.answers, fun calls hc => h.run hc⟩

/-- Two registries that answer as the same reference answer alike. -/
theorem C66_determined {calls : List Call} (h : OkRun W Registry.default calls) {r : Registry} {R : RReg}
    (h1 : (runAll env Registry.default calls).2 = .ok r) (h2 : (RReg.empty.run env calls).2 = .ok R) : SameAnswers W r R := by
  have := (C66_run h).2
  rw [h1, h2] at this
  exact this

/-! ## Example -/

theorem exOkRun {calls : List Call} : ∀ (r : Registry),
    calls.all (fun c => exCheck c && (match c with | .removeEntity _ _ => false | _ => true)) = true → OkRun exWorld r calls := by
  induction calls with
  | nil => intro _ _; trivial
  | cons c rest ih =>
    intro r h
    simp only [List.all_cons, Bool.and_eq_true] at h
    refine ⟨⟨exCheck_ok h.1.1 r, ?_⟩, ?_, fun r' _ _ => ih r' h.2⟩
    · cases c <;> first | trivial | (exact absurd h.1.2 (by simp))
    · cases c <;> first | trivial | (exact absurd h.1.1 (by simp [exCheck]))

/-- The calls of `exCalls`, then some that move, fail, overwrite and recycle. -/
def exCalls2 : List Call := exCalls ++
  [.remove exE1 exB, .add exE2 exA exValA, .write exE2 exA exValA, .add exE2 exB exValB, .destroy exE3,
    .create [exA, exA] [exValA, exValA], .create [exA, exB] [exValA', exValB], .remove exE4 exC, .destroy exE1]

/-- `exCalls2` satisfies the hypothesis; the two runs, computed independently of the theorem. -/
example : OkRun exWorld Registry.default exCalls2 := exOkRun _ (by decide +kernel)

set_option maxRecDepth 100000 in
theorem exReferenceRun : (runAll exEnv Registry.default exCalls2).1 = (RReg.empty.run exEnv exCalls2).1 ∧
    (RReg.empty.run exEnv exCalls2).1.map (fun o => o.success) =
      [true, true, true, true, true, true, true, false, true, true, false, false, true, false, true] ∧
    (RReg.empty.run exEnv exCalls2).2.map (fun R => (R.entities, R.all.length, R.tables.map (fun t => t.rows.length))) =
      .ok ([exE2, exE4, Entity.newUnchecked 3 0], 5, [1, 0, 0, 1, 0, 1]) ∧
    (runAll exEnv Registry.default exCalls2).2.map (fun r => r.iterEntities exEnv) =
      .ok [exE2, exE4, Entity.newUnchecked 3 0] := by
  decide +kernel

end Shard
