import Verif.Spec.Interleave
import Verif.Props.Script
/-!
# C110: independent pieces of code can take turns in any way
-/

set_option autoImplicit false

namespace Shard.Script

open Shard

variable {env : Env} {W : World env} {r r' : Registry}

theorem ofScript_self {α : Type} (k : Nat) (x : α) (l : List (Nat × α)) : ofScript k ((k, x) :: l) = x :: ofScript k l := by
  simp [ofScript]

theorem ofScript_other {α : Type} {k l : Nat} (h : k ≠ l) (x : α) (xs : List (Nat × α)) :
    ofScript l ((k, x) :: xs) = ofScript l xs := by
  simp [ofScript, h]

theorem ofScript_length {α : Type} (k : Nat) (l : List (Nat × α)) : (ofScript k l).length ≤ l.length := by
  unfold ofScript
  rw [List.length_map]
  exact List.length_filter_le _ _

/-- The state of the scripts running by turns, compared with the states of the scripts running alone. -/
structure Turns (W : World env) (r : Registry) (hs : Nat → Handles) (R : Nat → Registry) (G : Nat → Handles)
    (H : Nat → List (Call × Outcome)) (ops : List (Nat × Op)) : Prop where
  own : ∀ k, Own env r (hs k)
  apart : ∀ k l, k ≠ l → ∀ (n m : Nat) (e : Entity), (hs k)[n]? = some (some e) → (hs l)[m]? ≠ some (some e)
  alone : ∀ k, Own env (R k) (G k)
  view : ∀ k, SameView W (R k) (G k) r (hs k)
  steps : ∀ k, Steps env (Call.Admissible W) Registry.default (H k) (R k)
  room : ∀ k, Roomy W (H k) (ofScript k ops).length
  ok : ∀ k, Disciplined W (R k) (G k) (ofScript k ops)

/-- What running by turns has to do with running alone. -/
def Explained (W : World env) (R : Nat → Registry) (G : Nat → Handles) (ops : List (Nat × Op)) :
    M (List (Nat × Outcome) × Registry × (Nat → Handles)) → Prop
  | .ok (os, r', hs') => ∀ k, RunsAlike W (run env (R k) (G k) (ofScript k ops)) (.ok (ofScript k os, r', hs' k))
  | .error f => ∃ k, run env (R k) (G k) (ofScript k ops) = .error f

theorem runsAlike_cons {r₁ x : Registry} {op : Op} {hs : Handles} {c : Call} {o p : Outcome} {ops : List Op}
    (hc : op.call? hs = some c) (hrun : c.run env r₁ = .ok (x, o)) (hs' : SameReport o p) {os : List Outcome}
    {z : Registry × Handles} (h : RunsAlike W (run env x (op.handles hs o) ops) (.ok (os, z))) :
    RunsAlike W (run env r₁ hs (op :: ops)) (.ok (p :: os, z)) := by
  unfold run
  simp only [hc, hrun]
  cases hu : run env x (op.handles hs o) ops with
  | error f => rw [hu] at h; exact h.elim
  | ok w =>
    rw [hu] at h
    obtain ⟨t1, t2, t3⟩ := h
    refine ⟨by simp [t1], fun q hq => ?_, t3⟩
    rw [List.zip_cons_cons, List.mem_cons] at hq
    rcases hq with rfl | hq
    · exact hs'
    · exact t2 q hq

theorem turns_run {hist : List (Call × Outcome)} (ops : List (Nat × Op)) {hs : Nat → Handles} {R : Nat → Registry}
    {G : Nat → Handles} {H : Nat → List (Call × Outcome)} (h : Turns W r hs R G H ops)
    (hst : Steps env (Call.Admissible W) Registry.default hist r) (hm : Roomy W hist ops.length) :
    Explained W R G ops (runMany env r hs ops) := by
  induction ops generalizing hist r hs R G H with
  | nil => exact fun k => ⟨rfl, (fun p hp => by cases hp), h.view k⟩
  | cons x ops ih =>
    obtain ⟨k, op⟩ := x
    have hroom := h.room k
    have hok := h.ok k
    rw [ofScript_self] at hroom hok
    unfold Disciplined at hok
    unfold runMany
    cases hc : op.call? (G k) with
    | none =>
      rw [hc] at hok
      rw [call?_none (h.view k) hc]
      have hskip : ∀ l, run env (R l) (G l) (ofScript l ((k, op) :: ops)) = run env (R l) (G l) (ofScript l ops) := by
        intro l
        by_cases hl : k = l
        · subst hl
          rw [ofScript_self]
          conv => lhs; unfold run
          simp only [hc]
        · rw [ofScript_other hl]
      have ht : Turns W r hs R G H ops := by
        refine ⟨h.own, h.apart, h.alone, h.view, h.steps, fun l => ?_, fun l => ?_⟩
        · by_cases hl : k = l
          · subst hl; exact hroom.weaken
          · have := h.room l; rw [ofScript_other hl] at this; exact this
        · by_cases hl : k = l
          · subst hl; exact hok
          · have := h.ok l; rw [ofScript_other hl] at this; exact this
      have := ih ht hst hm.weaken
      show Explained W R G ((k, op) :: ops) (runMany env r hs ops)
      cases hx : runMany env r hs ops with
      | error f =>
        rw [hx] at this
        obtain ⟨l, hl⟩ := this
        exact ⟨l, by rw [hskip, hl]⟩
      | ok z =>
        rw [hx] at this
        exact fun l => by rw [hskip]; exact this l
    | some c₁ =>
      rw [hc] at hok
      obtain ⟨c₂, hc₂, hd₂, hx⟩ := op_alike (hroom.ordinary (h.steps k)) (hm.ordinary hst) (h.alone k) (h.own k) (h.view k) hc
        hok.1
      rw [hc₂]
      rcases hx with ⟨f, q1, q2⟩ | ⟨x, o, y, p, q1, q2, q3, q4⟩
      · simp only [q2]
        refine ⟨k, ?_⟩
        rw [ofScript_self]
        unfold run
        simp only [hc, q1]
      · simp only [q2]
        obtain ⟨w1, w2⟩ := op_own ⟨_, hst⟩ hc₂ hd₂ (h.own k) q2
        have others : ∀ l, l ≠ k → ∀ (n : Nat) (e : Entity), (hs l)[n]? = some (some e) →
            SameEntity W r y e ∧ ∀ m : Nat, (op.handles (hs k) p)[m]? ≠ some (some e) :=
          fun l hl n e hn => w2 e ((h.own l).1 n e hn) (fun m hmm => h.apart k l (Ne.symm hl) m n e hmm hn)
        have ht : Turns W y (put hs k (op.handles (hs k) p)) (fun l => if l = k then x else R l)
            (put G k (op.handles (G k) o)) (fun l => if l = k then H k ++ [(c₁, o)] else H l) ops := by
          refine ⟨fun l => ?_, fun l m hlm => ?_, fun l => ?_, fun l => ?_, fun l => ?_, fun l => ?_, fun l => ?_⟩
          · unfold put
            by_cases hl : l = k
            · rw [if_pos hl]; exact w1
            · rw [if_neg hl]
              exact ⟨fun n e hn => (others l hl n e hn).1.1.mpr ((h.own l).1 n e hn), (h.own l).2⟩
          · unfold put
            by_cases hl : l = k
            · rw [if_pos hl]
              have hmk : m ≠ k := fun hx => hlm (hl.trans hx.symm)
              rw [if_neg hmk]
              exact fun n j e hn hj => (others m hmk j e hj).2 n hn
            · rw [if_neg hl]
              by_cases hmk : m = k
              · rw [if_pos hmk]
                exact fun n j e hn => (others l hl n e hn).2 j
              · rw [if_neg hmk]; exact h.apart l m hlm
          · unfold put
            by_cases hl : l = k
            · simp only [if_pos hl]; exact (op_own ⟨_, h.steps k⟩ hc hok.1 (h.alone k) q1).1
            · simp only [if_neg hl]; exact h.alone l
          · unfold put
            by_cases hl : l = k
            · simp only [if_pos hl]; exact q4
            · simp only [if_neg hl]
              refine ⟨(h.view l).1, fun n => ⟨fun e hn => ?_, ((h.view l).2 n).2⟩⟩
              obtain ⟨e', k1, k2⟩ := ((h.view l).2 n).1 e hn
              have s := (others l hl n e' k1).1
              exact ⟨e', k1, s.1.trans k2.1, fun c hcc => ⟨(s.2 c hcc).1.trans (k2.2 c hcc).1, (s.2 c hcc).2.trans (k2.2 c hcc).2⟩⟩
          · by_cases hl : l = k
            · simp only [if_pos hl]; exact (h.steps k).snoc hok.1.1 q1
            · simp only [if_neg hl]; exact h.steps l
          · by_cases hl : l = k
            · subst hl; simp only [if_pos]; exact hroom.snoc _
            · simp only [if_neg hl]
              have := h.room l; rw [ofScript_other (Ne.symm hl)] at this; exact this
          · unfold put
            by_cases hl : l = k
            · subst hl; simp only [if_pos]; exact hok.2 _ _ q1
            · simp only [if_neg hl]
              have := h.ok l; rw [ofScript_other (Ne.symm hl)] at this; exact this
        have := ih ht (hst.snoc hd₂.1 q2) (hm.snoc _)
        cases hu : runMany env y (put hs k (op.handles (hs k) p)) ops with
        | error f =>
          rw [hu] at this
          obtain ⟨l, hl⟩ := this
          refine ⟨l, ?_⟩
          by_cases hlk : l = k
          · subst hlk
            simp only [put, if_pos] at hl
            rw [ofScript_self]
            unfold run
            simp only [hc, q1, hl]
          · simp only [put, if_neg hlk] at hl
            rw [ofScript_other (Ne.symm hlk), hl]
        | ok z =>
          rw [hu] at this
          intro l
          have hl := this l
          by_cases hlk : l = k
          · subst hlk
            simp only [put, if_pos] at hl
            rw [ofScript_self, ofScript_self]
            exact runsAlike_cons hc q1 q3 hl
          · simp only [put, if_neg hlk] at hl
            rw [ofScript_other (Ne.symm hlk), ofScript_other (Ne.symm hlk)]
            exact hl

/-- **C110** Any number of scripts that each keep to their own entities take turns in one registry in any order. If the
whole run succeeds, every script has got the reports, and sees the answers, that it gets when it runs alone in a new
registry; if it stops with a fault, one of the scripts stops with this fault when it runs alone. -/
theorem C110_take_turns {hist : List (Call × Outcome)} (hst : Steps env (Call.Admissible W) Registry.default hist r)
    (ops : List (Nat × Op)) (hm : Roomy W hist ops.length)
    (hd : ∀ k, Disciplined W Registry.default [] (ofScript k ops)) :
    match runMany env r (fun _ => []) ops with
    | .ok (os, r', hs') => ∀ k, RunsAlike W (run env Registry.default [] (ofScript k ops)) (.ok (ofScript k os, r', hs' k))
    | .error f => ∃ k, run env Registry.default [] (ofScript k ops) = .error f := by
  have own : ∀ r, Own env r [] := fun r => ⟨fun n e h => by simp at h, fun n m e h => by simp at h⟩
  have room : ∀ k, Roomy W [] (ofScript k ops).length := by
    intro k
    have hlen := ofScript_length k ops
    refine ⟨?_, by have := hm.2; simp only [liveCount, List.foldl_nil]; omega⟩
    rcases hm.1 with h | h
    · exact .inl (by simp only [List.filter_nil, List.length_nil]; omega)
    · exact .inr h
  have := turns_run (W := W) (R := fun _ => Registry.default) (G := fun _ => []) (H := fun _ => []) ops
    ⟨fun _ => own _, fun k l _ n m e h => by simp at h, fun _ => own _,
      fun _ => ⟨rfl, fun n => ⟨fun e h => by simp at h, fun e h => by simp at h⟩⟩, fun _ => Steps.nil, room, hd⟩ hst hm
  cases hx : runMany env r (fun _ => []) ops with
  | error f => rw [hx] at this; exact this
  | ok z => rw [hx] at this; exact this

/-- **C110** (no new faults) If every script succeeds alone in a new registry, then they succeed together, in every order
of turns. -/
theorem C110_no_new_faults {hist : List (Call × Outcome)} (hst : Steps env (Call.Admissible W) Registry.default hist r)
    (ops : List (Nat × Op)) (hm : Roomy W hist ops.length)
    (hd : ∀ k, Disciplined W Registry.default [] (ofScript k ops))
    (hok : ∀ k, ∃ x, run env Registry.default [] (ofScript k ops) = .ok x) :
    ∃ x, runMany env r (fun _ => []) ops = .ok x := by
  have := C110_take_turns hst ops hm hd
  cases hx : runMany env r (fun _ => []) ops with
  | ok z => exact ⟨z, rfl⟩
  | error f =>
    rw [hx] at this
    obtain ⟨k, hk⟩ := this
    obtain ⟨z, hz⟩ := hok k
    rw [hz] at hk; cases hk

theorem SameReport.symm {o p : Outcome} (h : SameReport o p) : SameReport p o :=
  ⟨h.1.symm, h.2.1.symm, h.2.2.1.symm, h.2.2.2.1.symm, h.2.2.2.2.1.symm, h.2.2.2.2.2.symm⟩

theorem SameReport.trans {o p q : Outcome} (h : SameReport o p) (h' : SameReport p q) : SameReport o q :=
  ⟨h.1.trans h'.1, h.2.1.trans h'.2.1, h.2.2.1.trans h'.2.2.1, h.2.2.2.1.trans h'.2.2.2.1,
    h.2.2.2.2.1.trans h'.2.2.2.2.1, h.2.2.2.2.2.trans h'.2.2.2.2.2⟩

theorem SameAs.trans {r₁ r₂ r₃ : Registry} {e₁ e₂ e₃ : Entity} (h : SameAs W r₁ e₁ r₂ e₂) (h' : SameAs W r₂ e₂ r₃ e₃) :
    SameAs W r₁ e₁ r₃ e₃ :=
  ⟨h'.1.trans h.1, fun c hc => ⟨(h'.2 c hc).1.trans (h.2 c hc).1, (h'.2 c hc).2.trans (h.2 c hc).2⟩⟩

/-- Two runs that are like a third one are alike. -/
theorem RunsAlike.both {x y z : M (List Outcome × Registry × Handles)} (h : RunsAlike W x y) (h' : RunsAlike W x z) :
    RunsAlike W y z := by
  cases x with
  | error f =>
    cases y with
    | ok b => exact h.elim
    | error f' =>
      cases z with
      | ok b => exact h'.elim
      | error f'' => exact (Eq.symm h).trans h'
  | ok a =>
    cases y with
    | error f' => exact h.elim
    | ok b =>
      cases z with
      | error f' => exact h'.elim
      | ok c =>
        obtain ⟨as, ra, ha⟩ := a
        obtain ⟨bs, rb, hb⟩ := b
        obtain ⟨cs, rc, hc⟩ := c
        obtain ⟨t1, t2, t3, t4⟩ := h
        obtain ⟨u1, u2, u3, u4⟩ := h'
        refine ⟨t1.symm.trans u1, fun p hp => ?_, t3.symm.trans u3, fun n => ⟨fun e' he' => ?_, fun e'' he'' => ?_⟩⟩
        · obtain ⟨n, hn, hpn⟩ := List.getElem_of_mem hp
          rw [List.length_zip] at hn
          rw [List.getElem_zip] at hpn
          have k1 := t2 (as[n]'(by omega), bs[n]'(by omega))
            (by rw [← List.getElem_zip (h := by rw [List.length_zip]; omega)]; exact List.getElem_mem _)
          have k2 := u2 (as[n]'(by omega), cs[n]'(by omega))
            (by rw [← List.getElem_zip (h := by rw [List.length_zip]; omega)]; exact List.getElem_mem _)
          rw [← hpn]
          exact k1.symm.trans k2
        · obtain ⟨e, he⟩ := (t4 n).2 e' he'
          obtain ⟨d, hd, hsd⟩ := (t4 n).1 e he
          rw [he'] at hd; cases hd
          obtain ⟨d', hd', hsd'⟩ := (u4 n).1 e he
          exact ⟨d', hd', hsd.symm.trans hsd'⟩
        · obtain ⟨e, he⟩ := (u4 n).2 e'' he''
          obtain ⟨d, hd, _⟩ := (t4 n).1 e he
          exact ⟨d, hd⟩

/-- **C110** (any order) How the scripts take turns makes no difference to any of them: two runs of the same scripts with
different turns, in different registries, that both succeed give every script the same reports and the same answers. -/
theorem C110_any_order {r₁ r₂ : Registry} {hist₁ hist₂ : List (Call × Outcome)}
    (h₁ : Steps env (Call.Admissible W) Registry.default hist₁ r₁) (h₂ : Steps env (Call.Admissible W) Registry.default hist₂ r₂)
    (ops₁ ops₂ : List (Nat × Op)) (hm₁ : Roomy W hist₁ ops₁.length) (hm₂ : Roomy W hist₂ ops₂.length)
    (hsame : ∀ k, ofScript k ops₁ = ofScript k ops₂) (hd : ∀ k, Disciplined W Registry.default [] (ofScript k ops₁))
    {os₁ os₂ : List (Nat × Outcome)} {x₁ x₂ : Registry} {hs₁ hs₂ : Nat → Handles}
    (hr₁ : runMany env r₁ (fun _ => []) ops₁ = .ok (os₁, x₁, hs₁))
    (hr₂ : runMany env r₂ (fun _ => []) ops₂ = .ok (os₂, x₂, hs₂)) (k : Nat) :
    RunsAlike W (.ok (ofScript k os₁, x₁, hs₁ k)) (.ok (ofScript k os₂, x₂, hs₂ k)) := by
  have a := C110_take_turns h₁ ops₁ hm₁ hd
  have b := C110_take_turns h₂ ops₂ hm₂ (fun k => by rw [← hsame]; exact hd k)
  rw [hr₁] at a
  rw [hr₂] at b
  have b := b k
  rw [← hsame] at b
  exact (a k).both b

/-! ## Examples -/

/-- Two scripts by turns: `exScript` and one that churns through entities with the same component sets. -/
def exTurns : List (Nat × Op) :=
  [(0, .create [exA, exB] [exValA, exValB]), (1, .create [exA, exB] [exValA', exValB]), (0, .on 0 (.add exC exValC)),
   (1, .on 0 (.remove exB)), (0, .create [exB] [exValB]), (0, .on 1 (.remove exB)), (1, .on 0 .destroy),
   (0, .on 0 (.remove exA)), (0, .on 0 (.write exB exValB)), (1, .create [exB] [exValB]), (0, .on 1 .destroy),
   (0, .on 1 (.add exA exValA)), (1, .on 1 (.add exC exValC)), (0, .create [exA, exA] [exValA, exValA]),
   (0, .create [exA] [exValA'])]

theorem exTurns_ok (k : Nat) : Disciplined exWorld Registry.default [] (ofScript k exTurns) := by
  refine exDisciplined _ (List.all_eq_true.mpr (fun op hop => ?_)) _ _
  simp only [ofScript, List.mem_map, List.mem_filter] at hop
  obtain ⟨x, ⟨hx, _⟩, rfl⟩ := hop
  exact List.all_eq_true.mp (show exTurns.all (fun x => exOpCheck x.2) = true by decide +kernel) x hx

set_option maxRecDepth 100000 in
/-- C110: the hypotheses hold for the example. -/
example : Steps exEnv (Call.Admissible exWorld) Registry.default (exCalls.zip exOuts) exR ∧
    Roomy exWorld (exCalls.zip exOuts) exTurns.length ∧ ∀ k, Disciplined exWorld Registry.default [] (ofScript k exTurns) :=
  ⟨exSteps, ⟨.inl (by decide +kernel), by decide +kernel⟩, exTurns_ok⟩

set_option maxRecDepth 100000 in
/-- C110: the runs, computed: script 0 gets the reports of `C109`'s example, under yet other handles. -/
example : ofScript 0 exTurns = exScript ∧
    (runMany exEnv exR (fun _ => []) exTurns).map (fun x => (ofScript 0 x.1).map (fun o => (o.success, o.returned))) =
      (run exEnv Registry.default [] exScript).map (fun x => x.1.map (fun o => (o.success, o.returned))) ∧
    (runMany exEnv exR (fun _ => []) exTurns).map (fun x => x.2.2 0) ≠ (run exEnv exR [] exScript).map (fun x => x.2.2) := by
  refine ⟨rfl, ?_, ?_⟩ <;> decide +kernel

end Shard.Script
