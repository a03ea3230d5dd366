import Verif.Props.Check
/-!
# C16: `add_component` followed by `remove_component`
-/

set_option autoImplicit false

namespace Shard

variable {env : Env} {W : World env} {r r' : Registry}

/-- C16 as intended: after a successful `add_component`, `remove_component` returns the component and everything is as it
was before. -/
def C16_statement : Prop :=
  ∀ {env : Env} (W : World env) (r r' : Registry), Reachable W r → ∀ (e : Entity) (c : CompTy) (v : Val),
    (Call.add e c v).Admissible W r → r.addComponent env e c v = .ok (r', .ok ()) →
    ∃ r'', r'.removeComponent env e c = .ok (r'', .ok v) ∧ ∀ x, SameEntity W r r'' x

/-- **C16** (partial: the code refuses the removal if it cannot get the archetype) After a successful `add_component`,
`remove_component` of the same type

* never returns another value: if it returns `Ok`, then the value that was added, and every entity is as it was before both
  calls;
* does return `Ok` exactly if the archetype that `remove_component` asks for is there or can be created, given that
  fewer than 8,388,608 entities have the original component set;
* otherwise returns `Err` and changes nothing: the component stays. -/
theorem C16_add_remove_partial (hr : Reachable W r) {e : Entity} {c : CompTy} {v : Val}
    (hadm : (Call.add e c v).Admissible W r) (hadd : r.addComponent env e c v = .ok (r', .ok ()))
    {s : List UInt16} (hs : AscSet s (HasId W r e)) :
    (∀ r'' w, r'.removeComponent env e c = .ok (r'', .ok w) → w = v ∧ ∀ x, SameEntity W r r'' x) ∧
    (FewerThan STORAGE_LIMIT (fun x => HasSet W r' x s) →
      ((∃ r'', r'.removeComponent env e c = .ok (r'', .ok v)) ↔ Room r'.archetypes s.length (plainId env s))) ∧
    (¬ Room r'.archetypes s.length (plainId env s) → r'.removeComponent env e c = .ok (r', .err ())) := by
  obtain ⟨cs, h⟩ := hr.inv
  obtain ⟨cs', f, hst, hf, hnone, hlook⟩ := h.add_ok hadm hadd
  have h' := hst.inv
  have hf' : r'.look env cs' e = some (setComp f c (some v)) := by rw [hlook, AMap.set_self]
  have hback : setComp (setComp f c (some v)) c none = f := by
    funext y
    unfold setComp
    by_cases hy : y = c
    · rw [if_pos hy, hy, hnone]
    · rw [if_neg hy, if_neg hy]
  obtain ⟨en, a, ct, _, _, _, hrep, _, hm⟩ := h.stored_at hf
  obtain ⟨q1, q2⟩ := h.ids_of hf hrep hm
  have hsd := q1.unique hs
  have ht : AscSet s (WithoutId W r' e c) := by
    refine ⟨hs.1, fun i => ?_⟩
    rw [hs.2, h.hasId_iff hf]
    unfold WithoutId
    rw [h'.hasId_iff hf']
    constructor
    · rintro ⟨c', rfl, h2⟩
      have hne : c' ≠ c := by rintro rfl; rw [hnone] at h2; cases h2
      refine ⟨fun hid => hne (W.id_inj (h.has_of_look hf h2) hadm.1 hid), c', rfl, ?_⟩
      unfold setComp
      rw [if_neg hne]; exact h2
    · rintro ⟨h1, c', rfl, h2⟩
      unfold setComp at h2
      rw [if_neg (fun hx => h1 (by rw [hx]))] at h2
      exact ⟨c', rfl, h2⟩
  have hsome : setComp f c (some v) c = some v := if_pos rfl
  have hy : r'.hasComponent env c e = .ok true := (h'.has_iff hf' hadm.1).mpr (by rw [hsome]; rfl)
  obtain ⟨s', hs', _⟩ := h'.ascSet (h'.live_iff.mpr ⟨_, hf'⟩)
  obtain ⟨t', ht', hlen⟩ := withoutId hadm.1 hy hs'
  rw [← ht.unique ht'] at hlen
  have hrm : (Call.remove e c).Admissible W r' := by
    refine ⟨hadm.1, fun _ s1 _ hs1 => ?_⟩
    rw [AscSet.unique (P := WithoutId W r' e c) hs1 ht, ← hsd]
    exact hrep.desc.used
  have hpos : 1 ≤ s.length := by
    have := hrep.desc.pos
    rw [← hsd]; omega
  have hle : s.length ≤ 12 := by
    rcases h.add_step hadm with ⟨r2, out, cs1, p1, _, _, p3⟩ | ⟨f, p1, _⟩
    · rw [run_add_ok hadd] at p1; cases p1
      obtain ⟨s1, t1, p4, p5, _⟩ := p3 rfl
      rwa [p4.unique hs] at p5
    · rw [run_add_ok hadd] at p1; cases p1
  have hback' : ∀ r'' w, r'.removeComponent env e c = .ok (r'', .ok w) → w = v ∧ ∀ x, SameEntity W r r'' x := by
    intro r'' w hw
    obtain ⟨cs'', f'', hst'', p1, p2, _, p3⟩ := h'.remove_ok hrm hw
    rw [hf'] at p1; cases p1
    rw [hsome] at p2; cases p2
    refine ⟨rfl, fun x => h.sameEntity hst''.inv ?_⟩
    rw [p3, hback]
    by_cases hx : x = e
    · rw [hx, AMap.set_self, hf]
    · rw [AMap.set_ne hx, hlook, AMap.set_ne hx]
  refine ⟨hback', ?_, ?_⟩
  · intro hfew
    rcases h'.remove_cases hrm hf' hsome hs' ht with ⟨p1, _⟩ | ⟨p1, _⟩ | ⟨_, _, p2, p3⟩ | ⟨_, _, p2, p3 | ⟨p3, _⟩⟩
    · omega
    · omega
    · refine ⟨?_, fun hx => absurd hx p2⟩
      rintro ⟨r'', p4⟩
      rw [p3] at p4; cases p4
    · exact ⟨fun _ => p2, fun _ => p3⟩
    · exact absurd p3 (h'.not_full_without hf' hadm.1 ht hfew)
  · intro hno
    rcases h'.remove_cases hrm hf' hsome hs' ht with ⟨p1, _⟩ | ⟨p1, _⟩ | ⟨_, _, p2, p3⟩ | ⟨_, _, p2, _⟩
    · omega
    · omega
    · exact p3
    · exact absurd p2 hno

set_option maxRecDepth 100000 in
/-- C16 on `exR`: `exE2` has only `A`; adding `B` works and there is room to go back. -/
example : Reachable exWorld exR ∧ (Call.add exE2 exB exValB).Admissible exWorld exR ∧ AscSet [10] (HasId exWorld exR exE2) ∧
    ∃ r', exR.addComponent exEnv exE2 exB exValB = .ok (r', .ok ()) ∧ r'.iterEntities exEnv = [exE1, exE2, exE4] ∧
      FewerThan STORAGE_LIMIT (fun x => HasSet exWorld r' x [10]) ∧ Room r'.archetypes 1 (plainId exEnv [10]) := by
  refine ⟨exReachable, exCheck_ok (by decide +kernel) _, ids_check (by decide +kernel), ?_⟩
  have h : (match exR.addComponent exEnv exE2 exB exValB with
    | .ok (r', .ok ()) => decide (r'.iterEntities exEnv = [exE1, exE2, exE4] ∧ r'.archetypes.archetypes.length < 65534)
    | _ => false) = true := by decide +kernel
  split at h
  · rename_i r' hx
    obtain ⟨h1, h2⟩ := of_decide_eq_true h
    exact ⟨r', hx, h1, few_of_live h1 (by decide) (fun _ h => h.1), by decide +kernel, Or.inr h2⟩
  · cases h

/-! ## The archetype id may be the reserved one -/

/-- Four one-byte component types; the archetype id `remove_component` computes for the last three is the reserved
`u32::MAX`. -/
def exM : List CompTy := [⟨1, 1, 1, 1⟩, ⟨2, 5821, 1, 1⟩, ⟨3, 11926, 1, 1⟩, ⟨4, 60003, 1, 1⟩]

def exSetsM : List (List UInt16) := [[5821, 11926, 60003], [1, 5821, 11926, 60003]]

def exWorldM : World exEnv := World.ofLists exEnv exM exSetsM (by decide +kernel)

def exCallsM : List Call := [.create exM.tail [⟨2, [2]⟩, ⟨3, [3]⟩, ⟨4, [4]⟩]]

/-- One entity with the last three components. -/
def exRM : Registry := runTo exEnv exM exSetsM exCallsM

set_option maxRecDepth 100000 in
/-- **C16** is false: the component is added but cannot be removed again. -/
theorem C16_violated : ¬ C16_statement := by
  intro h
  have h1 : (match exRM.addComponent exEnv (Entity.newUnchecked 0 0) ⟨1, 1, 1, 1⟩ ⟨1, [9]⟩ with
    | .ok (r', .ok ()) => (r'.removeComponent exEnv (Entity.newUnchecked 0 0) ⟨1, 1, 1, 1⟩).map Prod.snd == .ok (.err ())
    | _ => false) = true := by decide +kernel
  split at h1
  · rename_i r' hx
    obtain ⟨r'', h2, _⟩ := h exWorldM exRM r' (runTo_reachable (by decide +kernel)) _ _ _
      (addCheck_ok (t := [1, 5821, 11926, 60003]) (by decide +kernel)) hx
    rw [h2] at h1
    cases h1
  · cases h1

end Shard
