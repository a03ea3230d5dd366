import Verif.Proofs.RowsStore
import Verif.Props.Example
/-!
# C71: archetypes, used on their own, are tables of rows

The registry uses the `unsafe` functions of `Archetype` in a few fixed patterns. They are public, and their doc comments say
what a caller has to guarantee. Here any number of archetypes is created, used and dropped by a program that keeps to these
contracts and to nothing else: the functions answer like tables of rows (`Spec/Rows.lean`), and nothing faults.
-/

set_option autoImplicit false

namespace Shard

variable {env : Env}

/-- C71: for every history of calls that keep the documented contracts, the archetypes give the answers of the tables, and
have their sizes. -/
theorem C71_rows_refine (W : World env) (ops : List StoreOp) (xs : List RowAns) (ts : List Rows)
    (h : StoreOp.Steps W [] ops xs ts) :
    ∃ as, StoreOp.runAll env [] ops = .ok (as, xs) ∧ as.length = ts.length ∧
      ∀ (i : Nat) (a : Archetype) (t : Rows), as[i]? = some a → ts[i]? = some t →
        a.entityCount = t.rows.length ∧ a.capacity = t.cap ∧ a.descriptor.components = t.types.map CompTy.descriptor := by
  obtain ⟨as, h1, h2⟩ := StoreOp.steps_spec h (as := []) ⟨rfl, fun i a t ha _ => by cases ha⟩
  refine ⟨as, h1, h2.1, fun i a t ha ht => ?_⟩
  have hr := h2.2 i a t ha ht
  refine ⟨hr.count, hr.cap, ?_⟩
  apply List.ext_getElem?
  intro j
  rw [List.getElem?_map]
  by_cases hj : j < t.types.length
  · have hc := List.getElem?_eq_getElem hj
    rw [hc]
    have := hr.desc.index_comp hc
    unfold index at this
    cases hx : a.descriptor.components[j]? with
    | none => rw [hx] at this; cases this
    | some y => rw [hx] at this; cases this; rfl
  · rw [List.getElem?_eq_none (by rw [hr.desc.clen]; omega), List.getElem?_eq_none (by omega)]
    rfl

/-! ## A concrete history

Contracts are checked by computation (`stepCheck`). -/

/-- All components of the types `cs` are present in row `k`. -/
def fullRowCheck (t : Rows) (cs : List CompTy) (k : Nat) : Bool :=
  match t.rows[k]? with
  | some r => cs.all (fun c => (r.val c).isSome)
  | none => false

/-- Row `k` has a handle. -/
def hasEntCheck (t : Rows) (k : Nat) : Bool :=
  match t.rows[k]? with
  | some r => r.ent.isSome
  | none => false

/-- A valid group of the types of `exWorld`. -/
def exGroupCheck (g : Group) : Bool :=
  g.all (fun c => decide (c ∈ [exA, exB, exC])) && decide (g ≠ []) && (g.descriptor exEnv).isValid

def exExactCheck (cs : List CompTy) (g : Group) : Bool := exGroupCheck g && cs.isPerm g

def legalCheck (t : Rows) : RowOp → Bool
  | .push _ g vals => exExactCheck t.types g && typedCheck g vals && decide (t.rows.length < t.cap ∨ 2 * t.cap < MAX_ENTITIES_PER_ARCHETYPE)
  | .pushUninit => decide (t.rows.length < t.cap ∨ 2 * t.cap < MAX_ENTITIES_PER_ARCHETYPE)
  | .write c k v => decide (c ∈ t.types) && decide (k < t.rows.length) && decide (v.ty = c.ty) && decide (v.bytes.length = c.size)
  | .setEntity k _ => decide (k < t.rows.length)
  | .swapDrop k => fullRowCheck t t.types k && hasEntCheck t k && hasEntCheck t (t.rows.length - 1)
  | .swapToLast k => hasEntCheck t k && hasEntCheck t (t.rows.length - 1)
  | .decrement => decide (0 < t.rows.length)
  | .get c k => decide (c ∈ t.types) && fullRowCheck t [c] k
  | .moveOut c k => decide (c ∈ t.types) && fullRowCheck t [c] k
  | .size => true
  | _ => false

theorem fullRowCheck_ok {t : Rows} {cs : List CompTy} {k : Nat} (h : fullRowCheck t cs k = true) : t.FullRow cs k := by
  unfold fullRowCheck at h
  cases hr : t.rows[k]? with
  | none => rw [hr] at h; cases h
  | some r =>
    rw [hr] at h
    simp only [List.all_eq_true] at h
    exact ⟨r, hr, fun c hc => Option.isSome_iff_exists.mp (h c hc)⟩

theorem hasEntCheck_ok {t : Rows} {k : Nat} (h : hasEntCheck t k = true) : t.HasEnt k := by
  unfold hasEntCheck at h
  cases hr : t.rows[k]? with
  | none => rw [hr] at h; cases h
  | some r =>
    rw [hr] at h
    obtain ⟨e, he⟩ := Option.isSome_iff_exists.mp h
    exact ⟨r, e, hr, he⟩

theorem exGroupCheck_ok {g : Group} (h : exGroupCheck g = true) :
    exWorld.OkGroup g ∧ (g.descriptor exEnv).isValid = true := by
  simp only [exGroupCheck, Bool.and_eq_true, List.all_eq_true, decide_eq_true_eq] at h
  obtain ⟨⟨h2, h3⟩, h4⟩ := h
  refine ⟨⟨h2, ?_⟩, h4⟩
  have hn := (Group.spec h4).wf.nodup
  apply exUsed
  · have hnd : g.idSet.Nodup := g.idSet_perm.nodup_iff.mpr hn
    exact (g.idSet_sorted.and hnd).imp (fun ⟨a, b⟩ => UInt16.lt_of_le_of_ne a b)
  · intro hc
    have := g.idSet_perm.length_eq
    rw [hc] at this
    simp at this
    exact h3 (List.length_eq_zero_iff.mp this.symm)
  · intro i hi
    obtain ⟨c, hc, rfl⟩ := List.mem_map.mp (g.idSet_perm.mem_iff.mp hi)
    exact exHas_id (h2 c hc)

theorem legalCheck_ok {t : Rows} {op : RowOp} (h : legalCheck t op = true) : op.Legal exWorld t := by
  cases op <;> simp only [legalCheck, Bool.and_eq_true, decide_eq_true_eq, exExactCheck, Bool.false_eq_true] at h
  case push e g vals =>
    obtain ⟨⟨⟨h1, h2⟩, h3⟩, h4⟩ := h
    have hp := List.isPerm_iff.mp h2
    exact ⟨⟨(exGroupCheck_ok h1).1, (exGroupCheck_ok h1).2, fun c => hp.mem_iff.symm⟩, typedCheck_ok h3, h4⟩
  case pushUninit => exact h
  case decrement => exact h
  case write c k v => exact ⟨h.1.1.1, h.1.1.2, h.1.2, h.2⟩
  case setEntity k e => exact h
  case swapToLast k => exact ⟨hasEntCheck_ok h.1, hasEntCheck_ok h.2⟩
  case swapDrop k => exact ⟨fullRowCheck_ok h.1.1, hasEntCheck_ok h.1.2, hasEntCheck_ok h.2⟩
  case moveOut c k => exact ⟨h.1, fullRowCheck_ok h.2⟩
  case size => trivial
  case get c k => exact ⟨h.1, fullRowCheck_ok h.2⟩

/-- The types of a group in ascending order of their ids, for the types of `exWorld`. -/
def exSorted (g : Group) : List CompTy := [exA, exB, exC].filter (fun c => decide (c ∈ g))

/-- Run the tables, checking the contracts. -/
def tablesRun (ts : List Rows) : StoreOp → Option (RowAns × List Rows)
  | .create g n =>
    if exGroupCheck g && decide (0 < n) && decide (n ≤ MAX_ENTITIES_PER_ARCHETYPE) && (exSorted g).isPerm g &&
        decide ((exSorted g).Pairwise (fun a b => a.id < b.id)) then
      some (.unit, ts ++ [⟨exSorted g, n, []⟩])
    else none
  | .on i op =>
    match ts[i]? with
    | some t => if legalCheck t op then some ((op.apply t).2, ts.set i (op.apply t).1) else none
    | none => none
  | .copy i k j l =>
    match ts[i]?, ts[j]? with
    | some s, some d =>
      if decide (i ≠ j) && decide (k < s.rows.length) && decide (l < d.rows.length) then
        some (.unit, (ts.set i (s.edit k (StoreOp.given s d))).set j (d.edit l (StoreOp.received s k d)))
      else none
    | _, _ => none
  | .drop i =>
    match ts[i]? with
    | some t =>
      if t.rows.all (fun r => t.types.all (fun c => (r.val c).isSome)) then
        some (.gone (t.types.map t.column).flatten true, ts.eraseIdx i)
      else none
    | none => none

def tablesRunAll : List Rows → List StoreOp → Option (List RowAns × List Rows)
  | ts, [] => some ([], ts)
  | ts, op :: ops =>
    match tablesRun ts op with
    | some (x, ts') => (tablesRunAll ts' ops).map (fun y => (x :: y.1, y.2))
    | none => none

theorem tablesRun_ok {ts ts' : List Rows} {op : StoreOp} {x : RowAns} (h : tablesRun ts op = some (x, ts')) :
    StoreOp.Step exWorld ts op x ts' := by
  cases op with
  | create g n =>
    simp only [tablesRun, Bool.and_eq_true, decide_eq_true_eq] at h
    split at h
    · next hc =>
      cases h
      obtain ⟨⟨⟨⟨h1, h2⟩, h3⟩, h4⟩, h5⟩ := hc
      exact .create ts g n _ (exGroupCheck_ok h1).1 (exGroupCheck_ok h1).2 h2 h3
        ⟨rfl, rfl, List.isPerm_iff.mp h4, h5⟩
    · cases h
  | on i op =>
    simp only [tablesRun] at h
    split at h
    · next t ht =>
      split at h
      · next hc => cases h; exact .on ts i t op ht (legalCheck_ok hc)
      · cases h
    · cases h
  | copy i k j l =>
    simp only [tablesRun, Bool.and_eq_true, decide_eq_true_eq] at h
    split at h
    · next s d hs hd =>
      split at h
      · next hc => cases h; exact .copy ts i k j l s d hc.1.1 hs hd hc.1.2 hc.2
      · cases h
    · cases h
  | drop i =>
    simp only [tablesRun] at h
    split at h
    · next t ht =>
      split at h
      · next hc =>
        cases h
        simp only [List.all_eq_true] at hc
        exact .drop ts i t ht (fun r hr c hcm => Option.isSome_iff_exists.mp (hc r hr c hcm))
      · cases h
    · cases h

theorem tablesRunAll_ok : ∀ {ops : List StoreOp} {ts ts' : List Rows} {xs : List RowAns},
    tablesRunAll ts ops = some (xs, ts') → StoreOp.Steps exWorld ts ops xs ts'
  | [], ts, ts', xs, h => by cases h; exact .nil _
  | op :: ops, ts, ts', xs, h => by
    unfold tablesRunAll at h
    split at h
    · next x ts1 h1 =>
      cases h2 : tablesRunAll ts1 ops with
      | none => rw [h2] at h; cases h
      | some y =>
        rw [h2] at h
        cases h
        exact .cons (tablesRun_ok h1) (tablesRunAll_ok h2)
    · cases h

def exEnt0 : Entity := Entity.newUnchecked 0 0
def exEnt1 : Entity := Entity.newUnchecked 1 0

/-- Two archetypes: rows are pushed (one archetype has to grow), a row moves from one to the other like in `add_component`,
a value is moved out and written again, a row is dropped by swapping, and both archetypes are dropped. -/
def exStore : List StoreOp :=
  [.create [exB, exA] 1, .on 0 (.push exEnt0 [exA, exB] [exValA, exValB]), .on 0 (.push exEnt1 [exB, exA] [exValB, exValA']),
   .on 0 .size, .create [exC, exA, exB] 5, .on 1 .pushUninit, .copy 0 0 1 0, .on 1 (.write exC 0 exValC),
   .on 1 (.setEntity 0 exEnt0), .on 0 (.swapToLast 0), .on 0 .decrement, .on 0 (.get exA 0), .on 0 (.moveOut exA 0),
   .on 0 (.write exA 0 exValA), .on 0 (.swapDrop 0), .drop 0, .on 0 (.get exB 0), .drop 0]

def exStoreAnswers : List RowAns :=
  [.unit, .index 0, .index 1, .sizes 2 2 true, .unit, .index 0, .unit, .unit, .unit, .swapped true, .unit, .values [exValA'],
   .values [exValA'], .unit, .swappedDropped false [exValA, exValB], .gone [] true, .values [exValB],
   .gone [exValA, exValB, exValC] true]

theorem exStore_tables : (tablesRunAll [] exStore).map (fun y => (y.1, y.2.length)) = some (exStoreAnswers, 0) := by
  decide +kernel

/-- The history keeps the contracts. -/
theorem exStore_steps : StoreOp.Steps exWorld [] exStore exStoreAnswers [] := by
  have h := exStore_tables
  cases hy : tablesRunAll [] exStore with
  | none => rw [hy] at h; cases h
  | some y =>
    rw [hy] at h
    simp only [Option.map_some, Option.some.injEq, Prod.mk.injEq] at h
    obtain ⟨h1, h2⟩ := h
    have hs := tablesRunAll_ok hy
    rwa [h1, List.length_eq_zero_iff.mp h2] at hs

example : ∃ as, StoreOp.runAll exEnv [] exStore = .ok (as, exStoreAnswers) ∧ as.length = 0 := by
  obtain ⟨as, h1, h2, _⟩ := C71_rows_refine exWorld exStore exStoreAnswers [] exStore_steps
  exact ⟨as, h1, h2⟩

/-- Archetypes in use. -/
def exStoreHalf : List StoreOp := exStore.take 10

theorem exStoreHalf_sizes : (tablesRunAll [] exStoreHalf).map (fun y => (y.1, y.2.map (fun t => (t.rows.length, t.cap)))) =
    some (exStoreAnswers.take 10, [(2, 2), (1, 5)]) := by decide +kernel

example : ∃ ts as, StoreOp.Steps exWorld [] exStoreHalf (exStoreAnswers.take 10) ts ∧
    StoreOp.runAll exEnv [] exStoreHalf = .ok (as, exStoreAnswers.take 10) ∧ as.length = 2 := by
  have h := exStoreHalf_sizes
  cases hy : tablesRunAll [] exStoreHalf with
  | none => rw [hy] at h; cases h
  | some y =>
    rw [hy] at h
    simp only [Option.map_some, Option.some.injEq, Prod.mk.injEq] at h
    obtain ⟨h1, h2⟩ := h
    have hs := tablesRunAll_ok hy
    rw [h1] at hs
    obtain ⟨as, h3, h4, _⟩ := C71_rows_refine exWorld _ _ _ hs
    refine ⟨_, as, hs, h3, ?_⟩
    have := congrArg List.length h2
    rw [h4]
    simpa using this

end Shard
