import Verif.Spec.Growth
import Verif.Props.Limits
/-!
# C79: the storage of an archetype is determined by the largest number of entities it has had
-/

set_option autoImplicit false

namespace Shard

variable {env : Env} {W : World env} {r : Registry}

theorem peakRows_append (i : Nat) (l : List Registry) (r : Registry) : peakRows i (l ++ [r]) = max (peakRows i l) (rowsIn i r) := by
  unfold peakRows
  induction l with
  | nil => simp
  | cons x l ih =>
    simp only [List.cons_append, List.map_cons, List.foldr_cons, ih]
    omega

theorem resizes_append (i : Nat) (l : List Registry) (r r' : Registry) :
    resizes i (l ++ [r, r']) = resizes i (l ++ [r]) + (if resized i r r' then 1 else 0) := by
  induction l with
  | nil => simp [resizes]
  | cons x l ih =>
    cases l with
    | nil => simp [resizes]
    | cons y l =>
      simp only [List.cons_append, resizes] at ih ⊢
      omega

theorem movedRows_append (i : Nat) (l : List Registry) (r r' : Registry) :
    movedRows i (l ++ [r, r']) = movedRows i (l ++ [r]) + (if resized i r r' then rowsIn i r else 0) := by
  induction l with
  | nil => simp [movedRows]
  | cons x l ih =>
    cases l with
    | nil => simp [movedRows]
    | cons y l =>
      simp only [List.cons_append, movedRows] at ih ⊢
      omega

theorem Steps.states {ok : Registry → Call → Prop} {r0 : Registry} {hist : List (Call × Outcome)}
    (hs : Steps env ok r0 hist r) :
    ∃ pre, ∀ rest, statesOf env r0 (hist.map Prod.fst ++ rest) = pre ++ statesOf env r rest := by
  induction hs with
  | nil => exact ⟨[], fun _ => rfl⟩
  | snoc h1 h2 h3 ih =>
    next hist r1 r2 call out =>
    obtain ⟨pre, hp⟩ := ih
    refine ⟨pre ++ [r1], fun rest => ?_⟩
    rw [List.map_append, List.append_assoc, hp]
    simp only [List.map_cons, List.map_nil, List.cons_append, List.nil_append, statesOf, h3, List.append_assoc]

theorem CapFor.start {p : Nat} (h : p ≤ 128) : CapFor 128 p :=
  ⟨⟨0, rfl⟩, h, fun k _ => Nat.le_mul_of_pos_right _ (Nat.pow_pos (by omega))⟩

theorem CapFor.same {cap p q : Nat} (h : CapFor cap p) (hq : q ≤ cap) : CapFor cap (max p q) :=
  ⟨h.1, by have := h.2.1; omega, fun k hk => h.2.2 k (by omega)⟩

theorem CapFor.double {cap p q : Nat} (h : CapFor cap p) (hq : q = cap + 1) : CapFor (2 * cap) (max p q) := by
  obtain ⟨⟨k, rfl⟩, h2, h3⟩ := h
  have hpos : 0 < 2 ^ k := Nat.pow_pos (by omega)
  refine ⟨⟨k + 1, by rw [Nat.pow_succ]; omega⟩, by omega, fun j hj => ?_⟩
  have hlt : 128 * 2 ^ k < 128 * 2 ^ j := by omega
  have hkj : k < j := by
    rcases Nat.lt_or_ge k j with h | h
    · exact h
    · exact absurd (Nat.pow_le_pow_right (show 0 < 2 by omega) h) (by omega)
  have := Nat.pow_le_pow_right (show 0 < 2 by omega) (show k + 1 ≤ j by omega)
  rw [Nat.pow_succ] at this
  omega

/-- What the proof maintains for the `i`-th archetype: `l` are the states so far, the last one is `r`. -/
def GrowthInv (i : Nat) (l : List Registry) (r : Registry) : Prop :=
  match r.archetypes.archetypes[i]? with
  | some a => CapFor a.capacity (peakRows i l) ∧ a.capacity = 128 * 2 ^ resizes i l ∧ movedRows i l + 128 = a.capacity
  | none => peakRows i l = 0 ∧ resizes i l = 0 ∧ movedRows i l = 0

theorem Steps.growth {hist : List (Call × Outcome)} (hs : Steps env (Call.Admissible W) Registry.default hist r) (i : Nat) :
    GrowthInv i (statesOf env Registry.default (hist.map Prod.fst)) r := by
  induction hs with
  | nil => exact ⟨rfl, rfl, rfl⟩
  | snoc h1 h2 h3 ih =>
    next hist r1 r2 call out =>
    obtain ⟨pre, hp⟩ := h1.states
    have e1 : statesOf env Registry.default (hist.map Prod.fst) = pre ++ [r1] := by
      have := hp []
      rw [List.append_nil] at this
      exact this
    have e2 : statesOf env Registry.default ((hist ++ [(call, out)]).map Prod.fst) = pre ++ [r1] ++ [r2] := by
      rw [List.map_append, hp]
      simp only [List.map_cons, List.map_nil, statesOf, h3, List.append_assoc, List.cons_append, List.nil_append]
    rw [e2]
    rw [e1] at ih
    have hr1 : Reachable W r1 := ⟨_, h1⟩
    obtain ⟨q1, q2⟩ := C38_capacity (r' := r2) hr1
    obtain ⟨q3, q4, _⟩ := q2 call out h2 h3
    have q5 := (C38_capacity (r' := r2) (W := W) (r := r2) ⟨_, h1.snoc h2 h3⟩).1
    have hres : resizes i (pre ++ [r1] ++ [r2]) = resizes i (pre ++ [r1]) + (if resized i r1 r2 then 1 else 0) := by
      rw [List.append_assoc]
      exact resizes_append i pre r1 r2
    have hmov : movedRows i (pre ++ [r1] ++ [r2]) = movedRows i (pre ++ [r1]) + (if resized i r1 r2 then rowsIn i r1 else 0) := by
      rw [List.append_assoc]
      exact movedRows_append i pre r1 r2
    unfold GrowthInv at ih ⊢
    rw [peakRows_append i (pre ++ [r1]), hres, hmov]
    cases hx : r1.archetypes.archetypes[i]? with
    | some a =>
      rw [hx] at ih
      obtain ⟨a', ha', hcap⟩ := q3 i a hx
      have hrow : rowsIn i r2 = a'.entityCount := by unfold rowsIn; rw [ha']; rfl
      have hle := (q5 a' (List.mem_of_getElem? ha')).2
      have hrs : resized i r1 r2 = decide (a.capacity ≠ a'.capacity) := by unfold resized; rw [hx, ha']
      rw [ha', hrs, hrow]
      have hpos : 0 < a.capacity := by
        obtain ⟨⟨k, hk⟩, _⟩ := ih.1
        rw [hk]
        exact Nat.mul_pos (by omega) (Nat.pow_pos (by omega))
      rcases hcap with hc | ⟨hc, hf, hn⟩
      · refine ⟨by rw [hc]; exact ih.1.same (by omega), ?_⟩
        rw [if_neg (by simp [hc]), if_neg (by simp [hc]), hc, Nat.add_zero]
        exact ih.2
      · refine ⟨by rw [hc]; exact ih.1.double (by omega), ?_⟩
        have hrow1 : rowsIn i r1 = a.entityCount := by unfold rowsIn; rw [hx]; rfl
        rw [if_pos (by simp only [decide_eq_true_eq]; omega), if_pos (by simp only [decide_eq_true_eq]; omega), Nat.pow_succ, hc,
          hrow1]
        have := ih.2
        omega
    | none =>
      rw [hx] at ih
      have hrs : resized i r1 r2 = false := by unfold resized; rw [hx]
      rw [hrs]
      cases hy : r2.archetypes.archetypes[i]? with
      | none =>
        have hrow : rowsIn i r2 = 0 := by unfold rowsIn; rw [hy]; rfl
        refine ⟨by rw [ih.1, hrow]; rfl, by rw [ih.2.1]; rfl, by rw [ih.2.2]; rfl⟩
      | some a' =>
        have hrow : rowsIn i r2 = a'.entityCount := by unfold rowsIn; rw [hy]; rfl
        have hle := (q5 a' (List.mem_of_getElem? hy)).2
        have hcap := q4 i a' hx hy
        rw [hcap] at hle
        refine ⟨?_, ?_, ?_⟩
        · rw [ih.1, hrow, hcap, Nat.zero_max]
          exact CapFor.start hle
        · rw [ih.2.1, hcap]; rfl
        · rw [ih.2.2, hcap]; rfl

/-- **C79** After any history, the capacity of an archetype is the smallest of 128, 256, 512, … that is not below the
largest number of entities the archetype has had; its arrays have been reallocated once for each doubling on the way,
not more than 16 times however many calls were made, and all reallocations together have copied fewer than twice as many
entities as the archetype has had at its peak (or none at all). -/
theorem C79_capacity_of_peak {hist : List (Call × Outcome)} (hs : Steps env (Call.Admissible W) Registry.default hist r)
    {i : Nat} {a : Archetype} (ha : r.archetypes.archetypes[i]? = some a) :
    CapFor a.capacity (peakRows i (statesOf env Registry.default (hist.map Prod.fst))) ∧
    a.capacity = 128 * 2 ^ resizes i (statesOf env Registry.default (hist.map Prod.fst)) ∧
    resizes i (statesOf env Registry.default (hist.map Prod.fst)) ≤ 16 ∧
    (movedRows i (statesOf env Registry.default (hist.map Prod.fst)) = 0 ∨
      movedRows i (statesOf env Registry.default (hist.map Prod.fst)) <
        2 * peakRows i (statesOf env Registry.default (hist.map Prod.fst))) := by
  have h := hs.growth i
  unfold GrowthInv at h
  rw [ha] at h
  refine ⟨h.1, h.2.1, ?_, ?_⟩
  rotate_left
  · obtain ⟨⟨k, hk⟩, _, h3⟩ := h.1
    have hm := h.2.2
    cases k with
    | zero => left; omega
    | succ k =>
      right
      rw [Nat.pow_succ] at hk
      rcases Nat.lt_or_ge (128 * 2 ^ k) (peakRows i (statesOf env Registry.default (hist.map Prod.fst))) with hlt | hge
      · omega
      · have := h3 k hge
        have : 0 < 2 ^ k := Nat.pow_pos (by omega)
        omega
  obtain ⟨cs, hi⟩ := (show Reachable W r from ⟨_, hs⟩).inv
  obtain ⟨ct, _, hrep⟩ := hi.arch.content ha
  have hle := hrep.cap.le
  rw [h.2.1] at hle
  rcases Nat.lt_or_ge 16 (resizes i (statesOf env Registry.default (hist.map Prod.fst))) with hlt | hge
  · have := Nat.pow_le_pow_right (show 0 < 2 by omega) (show 17 ≤ _ from hlt)
    omega
  · exact hge

/-- 129 creations of the same kind, then the destruction of two of the entities. -/
def exWave : List Call := exMany ++ [.destroy (Entity.newUnchecked 0 0), .destroy (Entity.newUnchecked 5 0)]

set_option maxRecDepth 100000 in
/-- C79 at work: 129 entities are created, two are destroyed; the archetype has had 129 entities and was reallocated once,
when it had 128. -/
example : (let l := statesOf exEnv Registry.default exWave
     (l.getLast?.map (fun r => r.archetypes.archetypes.map (fun a => (a.capacity, a.entityCount))),
       l.length, peakRows 0 l, resizes 0 l, movedRows 0 l) = (some [(256, 127)], 132, 129, 1, 128)) ∧
    ∀ call ∈ exWave, ∀ r, call.Admissible exWorld r := by
  refine ⟨by decide +kernel, fun call hc r => exCheck_ok ?_ r⟩
  rcases List.mem_append.mp hc with hc | hc
  · rw [List.eq_of_mem_replicate hc]
    decide
  · rcases List.mem_cons.mp hc with rfl | hc
    · rfl
    · rw [List.mem_singleton.mp hc]; rfl

end Shard
