import Verif.Props.Limits
/-!
# Checking by computation what the examples need about their calls
-/

set_option autoImplicit false

namespace Shard

variable {env : Env} {types : List CompTy} {sets : List (List UInt16)} {hw : worldCheck env types sets = true}
  {r : Registry}

/-- The component ids of an entity. -/
def idsOf (env : Env) (types : List CompTy) (r : Registry) (e : Entity) : List UInt16 :=
  (types.filter (fun c => r.hasComponent env c e = .ok true)).map (fun c => c.id)

theorem hasId_ofLists {e : Entity} {i : UInt16} :
    HasId (World.ofLists env types sets hw) r e i ↔ i ∈ idsOf env types r e := by
  unfold idsOf
  rw [List.mem_map]
  constructor
  · rintro ⟨c, h1, h2, h3⟩
    exact ⟨c, List.mem_filter.mpr ⟨h1, by simpa using h3⟩, h2⟩
  · rintro ⟨c, h1, h2⟩
    obtain ⟨h3, h4⟩ := List.mem_filter.mp h1
    exact ⟨c, h3, h2, by simpa using h4⟩

/-- `t` is the ascending list of the ids in `l`. -/
def ascCheck (t l : List UInt16) : Bool := decide (t.Pairwise (fun a b => a < b)) && t.isPerm l

theorem ascCheck_ok {t l : List UInt16} (h : ascCheck t l = true) {P : UInt16 → Prop} (hp : ∀ i, P i ↔ i ∈ l) : AscSet t P := by
  simp only [ascCheck, Bool.and_eq_true, decide_eq_true_eq, List.isPerm_iff] at h
  exact ⟨h.1, fun i => by rw [h.2.mem_iff, hp]⟩

theorem ids_check {e : Entity} {t : List UInt16} (h : ascCheck t (idsOf env types r e) = true) :
    AscSet t (HasId (World.ofLists env types sets hw) r e) := ascCheck_ok h (fun _ => hasId_ofLists)

theorem withId_check {e : Entity} {c : CompTy} {t : List UInt16} (h : ascCheck t (c.id :: idsOf env types r e) = true) :
    AscSet t (WithId (World.ofLists env types sets hw) r e c) :=
  ascCheck_ok h (fun i => by unfold WithId; rw [hasId_ofLists, List.mem_cons])

theorem withoutId_check {e : Entity} {c : CompTy} {t : List UInt16}
    (h : ascCheck t ((idsOf env types r e).filter (fun i => decide (i ≠ c.id))) = true) :
    AscSet t (WithoutId (World.ofLists env types sets hw) r e c) :=
  ascCheck_ok h (fun i => by unfold WithoutId; rw [hasId_ofLists, List.mem_filter]; simp [and_comm])

/-- An `add_component` is admissible, checked by computation; `t` is the resulting set. -/
def addCheck (env : Env) (types : List CompTy) (sets : List (List UInt16)) (r : Registry) (e : Entity) (c : CompTy) (v : Val)
    (t : List UInt16) : Bool :=
  decide (c ∈ types) && decide (v.ty = c.ty) && decide (v.bytes.length = c.size) &&
    ascCheck t (c.id :: idsOf env types r e) && decide (t ∈ sets)

theorem addCheck_ok {e : Entity} {c : CompTy} {v : Val} {t : List UInt16} (h : addCheck env types sets r e c v t = true) :
    (Call.add e c v).Admissible (World.ofLists env types sets hw) r := by
  simp only [addCheck, Bool.and_eq_true, decide_eq_true_eq] at h
  obtain ⟨⟨⟨⟨h1, h2⟩, h3⟩, h4⟩, h5⟩ := h
  refine ⟨h1, ⟨h2, h3⟩, fun _ s hs => ?_⟩
  rw [AscSet.unique hs (withId_check (hw := hw) h4)]
  exact h5

/-- A `remove_component` is admissible, checked by computation; `t` is the resulting set. -/
def removeCheck (env : Env) (types : List CompTy) (sets : List (List UInt16)) (r : Registry) (e : Entity) (c : CompTy)
    (t : List UInt16) : Bool :=
  decide (c ∈ types) && ascCheck t ((idsOf env types r e).filter (fun i => decide (i ≠ c.id))) && decide (t ∈ sets)

theorem removeCheck_ok {e : Entity} {c : CompTy} {t : List UInt16} (h : removeCheck env types sets r e c t = true) :
    (Call.remove e c).Admissible (World.ofLists env types sets hw) r := by
  simp only [removeCheck, Bool.and_eq_true, decide_eq_true_eq] at h
  obtain ⟨⟨h1, h4⟩, h5⟩ := h
  refine ⟨h1, fun _ s _ hs => ?_⟩
  rw [AscSet.unique hs (withoutId_check (hw := hw) h4)]
  exact h5

/-- The structural calls are admissible, checked by computation. -/
def callCheck (env : Env) (types : List CompTy) (sets : List (List UInt16)) (r : Registry) : Call → Bool
  | .create g vals => createCheck types sets g vals
  | .destroy _ => true
  | .removeEntity _ _ => true
  | .add e c v => sets.any (addCheck env types sets r e c v)
  | .remove e c => sets.any (removeCheck env types sets r e c)
  | .write _ c v => decide (c ∈ types) && decide (v.ty = c.ty) && decide (v.bytes.length = c.size)
  | _ => false

theorem callCheck_ok {call : Call} (h : callCheck env types sets r call = true) :
    call.Admissible (World.ofLists env types sets hw) r := by
  cases call with
  | create g vals => exact (createCheck_ok h r).1
  | destroy e => exact trivial
  | removeEntity g e => exact trivial
  | add e c v =>
    obtain ⟨t, _, ht⟩ := List.any_eq_true.mp h
    exact addCheck_ok ht
  | remove e c =>
    obtain ⟨t, _, ht⟩ := List.any_eq_true.mp h
    exact removeCheck_ok ht
  | write e c v =>
    simp only [callCheck, Bool.and_eq_true, decide_eq_true_eq] at h
    exact ⟨h.1.1, h.1.2, h.2⟩
  | writeIn g e j v => cases h
  | writeIter it g p j k v => cases h

/-- Runs calls, checking that they are admissible. -/
def runChecked (env : Env) (types : List CompTy) (sets : List (List UInt16)) : Registry → List Call →
    Option (List Outcome × Registry)
  | r, [] => some ([], r)
  | r, call :: calls =>
    if callCheck env types sets r call then
      match call.run env r with
      | .ok (r1, out) => (runChecked env types sets r1 calls).map (fun x => (out :: x.1, x.2))
      | .error _ => none
    else none

theorem Steps.cons {ok : Registry → Call → Prop} {r1 r' : Registry} {call : Call} {out : Outcome} (h1 : ok r call)
    (h2 : call.run env r = .ok (r1, out)) {hist : List (Call × Outcome)} (h : Steps env ok r1 hist r') :
    Steps env ok r ((call, out) :: hist) r' := by
  induction h with
  | nil => exact Steps.snoc Steps.nil h1 h2
  | snoc h3 h4 h5 ih => exact Steps.snoc ih h4 h5

theorem runChecked_steps : ∀ {calls : List Call} {r r' : Registry} {outs : List Outcome},
    runChecked env types sets r calls = some (outs, r') →
    Steps env (Call.Admissible (World.ofLists env types sets hw)) r (calls.zip outs) r'
  | [], r, r', outs, h => by
    cases h
    exact Steps.nil
  | call :: calls, r, r', outs, h => by
    unfold runChecked at h
    split at h
    · rename_i hc
      split at h
      · rename_i r1 out hrun
        obtain ⟨x, hx, hy⟩ := Option.map_eq_some_iff.mp h
        cases hy
        exact Steps.cons (callCheck_ok hc) hrun (runChecked_steps (outs := x.1) hx)
      · cases h
    · cases h

/-- The registry after some calls. -/
def runTo (env : Env) (types : List CompTy) (sets : List (List UInt16)) (calls : List Call) : Registry :=
  ((runChecked env types sets Registry.default calls).getD ([], Registry.default)).2

theorem runTo_reachable {calls : List Call} (h : (runChecked env types sets Registry.default calls).isSome = true) :
    Reachable (World.ofLists env types sets hw) (runTo env types sets calls) := by
  obtain ⟨⟨outs, r'⟩, hx⟩ := Option.isSome_iff_exists.mp h
  refine ⟨calls.zip outs, ?_⟩
  unfold runTo
  rw [hx]
  exact runChecked_steps hx

theorem few_of_live {P : Entity → Prop} {l : List Entity} {n : Nat} (hl : r.iterEntities env = l) (hn : l.length < n)
    (h : ∀ e, P e → Live env r e) : FewerThan n P := by
  intro m hm hp
  have := hm.length_le_of_subset (l₂ := l) (fun e he => by
    have := h e (hp e he)
    unfold Live at this
    rwa [hl] at this)
  exact Nat.lt_of_le_of_lt this hn

end Shard
