import Verif.Spec.Journal
import Verif.Props.System
/-!
# C125: writes can be undone and redone
-/

set_option autoImplicit false

namespace Shard

variable {env : Env} {W : World env} {r : Registry} {cs : List Content}

/-- What the entities of a registry have. -/
abbrev Contents := Entity → Option (CompTy → Option Val)

/-- A write, on the contents. -/
def writeOne (A : Contents) (w : Write) : Contents × List Write :=
  match A w.1 with
  | none => (A, [])
  | some f =>
    match f w.2.1 with
    | none => (A, [])
    | some old => (fun x => if x = w.1 then some (fun c => if c = w.2.1 then some w.2.2 else f c) else A x, [(w.1, w.2.1, old)])

/-- Many writes, on the contents. -/
def writeMany : Contents → List Write → Contents × List Write
  | A, [] => (A, [])
  | A, w :: l => ((writeMany (writeOne A w).1 l).1, (writeMany (writeOne A w).1 l).2 ++ (writeOne A w).2)

theorem writeMany_append : ∀ (l l' : List Write) (A : Contents), (writeMany A (l ++ l')).1 = (writeMany (writeMany A l).1 l').1
  | [], _, _ => rfl
  | w :: l, l', A => by
    show (writeMany (writeOne A w).1 (l ++ l')).1 = (writeMany (writeMany (writeOne A w).1 l).1 l').1
    exact writeMany_append l l' _

theorem writeOne_undo (A : Contents) (w : Write) : (writeMany (writeOne A w).1 (writeOne A w).2).1 = A := by
  unfold writeOne
  cases hA : A w.1 with
  | none => rfl
  | some f =>
    cases hf : f w.2.1 with
    | none => simp only [hf]; rfl
    | some old =>
      simp only [hf, writeMany, writeOne, if_pos]
      funext x
      by_cases hx : x = w.1
      · rw [if_pos hx, hx, hA]
        congr 1
        funext c
        by_cases hc : c = w.2.1
        · rw [if_pos hc, hc, hf]
        · rw [if_neg hc, if_neg hc]
      · rw [if_neg hx, if_neg hx]

theorem writeMany_undo : ∀ (l : List Write) (A : Contents), (writeMany (writeMany A l).1 (writeMany A l).2).1 = A
  | [], _ => rfl
  | w :: l, A => by
    show (writeMany (writeMany (writeOne A w).1 l).1 ((writeMany (writeOne A w).1 l).2 ++ (writeOne A w).2)).1 = A
    rw [writeMany_append, writeMany_undo l, writeOne_undo]

theorem writeOne_at (A : Contents) (w : Write) (e : Entity) (c : CompTy) :
    ((writeOne A w).1 e).bind (fun f => f c) = ((A e).bind (fun f => f c)).map (fun old =>
      if w.1 = e ∧ w.2.1 = c then w.2.2 else old) := by
  unfold writeOne
  cases hA : A w.1 with
  | none =>
    by_cases he : w.1 = e
    · subst he
      simp [hA]
    · simp [he]
  | some f =>
    cases hf : f w.2.1 with
    | none =>
      simp only [hf]
      by_cases hw : w.1 = e ∧ w.2.1 = c
      · rw [← hw.1, hA, ← hw.2]
        simp [hf]
      · simp [hw]
    | some old =>
      simp only [hf]
      by_cases he : e = w.1
      · subst he
        rw [if_pos rfl, hA]
        simp only [Option.bind_some, true_and]
        by_cases hc : c = w.2.1
        · subst hc
          simp [hf]
        · have hc' : ¬ w.2.1 = c := fun h => hc h.symm
          simp only [if_neg hc, if_neg hc']
          simp
      · have he' : ¬ (w.1 = e ∧ w.2.1 = c) := fun h => he h.1.symm
        rw [if_neg he]
        simp only [if_neg he']
        simp

theorem writeMany_at (e : Entity) (c : CompTy) : ∀ (l : List Write) (A : Contents),
    ((writeMany A l).1 e).bind (fun f => f c) = ((A e).bind (fun f => f c)).map (fun old => (lastWrite e c l).getD old)
  | [], A => by simp [writeMany, lastWrite]
  | w :: l, A => by
    show ((writeMany (writeOne A w).1 l).1 e).bind (fun f => f c) = _
    rw [writeMany_at e c l, writeOne_at, Option.map_map]
    congr 1
    funext old
    simp only [Function.comp, lastWrite]
    cases lastWrite e c l with
    | some v => rfl
    | none =>
      simp only [Option.getD_none]
      split <;> rfl

/-- The writes of a list fit the types of their components. -/
def TypedWrites (W : World env) (l : List Write) : Prop := ∀ w ∈ l, W.Has w.2.1 ∧ w.2.2.HasTy w.2.1

theorem RInv.writeAll_eq : ∀ (l : List Write) {r : Registry} {cs : List Content}, RInv W r cs → Reachable W r → TypedWrites W l →
    ∃ r' cs', writeAll env r l = .ok (r', (writeMany (r.look env cs) l).2) ∧ RInv W r' cs' ∧ Reachable W r' ∧
      r'.look env cs' = (writeMany (r.look env cs) l).1 ∧ TypedWrites W (writeMany (r.look env cs) l).2
  | [], r, cs, h, hR, _ => ⟨r, cs, rfl, h, hR, rfl, fun w hw => by simp [writeMany] at hw⟩
  | (e, c, v) :: l, r, cs, h, hR, ht => by
    obtain ⟨hW, hv⟩ := ht (e, c, v) List.mem_cons_self
    have ht' : TypedWrites W l := fun w hw => ht w (List.mem_cons_of_mem _ hw)
    rcases h.replaceComponent_spec hW e hv with ⟨h1, h2⟩ | ⟨r1, cs1, f, old, h1, h2, h3, h4, h5, _⟩
    · have hone : writeOne (r.look env cs) (e, c, v) = (r.look env cs, []) := by
        unfold writeOne
        simp only
        cases hf : r.look env cs e with
        | none => rfl
        | some f => simp only [h1 f hf]
      obtain ⟨r', cs', p1, p2, p3, p4, p5⟩ := RInv.writeAll_eq l h hR ht'
      unfold writeMany
      rw [hone]
      refine ⟨r', cs', ?_, p2, p3, p4, by rw [List.append_nil]; exact p5⟩
      unfold writeAll
      rw [h2]
      simp only [ok_bind]
      rw [p1, List.append_nil]
      rfl
    · have hl1 : r1.look env cs1 = (writeOne (r.look env cs) (e, c, v)).1 := by
        unfold writeOne
        simp only [h3, h4]
        funext x
        exact h5 x
      have hj : (writeOne (r.look env cs) (e, c, v)).2 = [(e, c, old)] := by
        unfold writeOne
        simp only [h3, h4]
      have hR1 : Reachable W r1 := by
        obtain ⟨hist, hs⟩ := hR
        have hrun : ∃ out, (Call.write e c v).run env r = .ok (r1, out) := ⟨_, by simp only [Call.run, h1]; rfl⟩
        obtain ⟨out, hrun⟩ := hrun
        exact ⟨_, hs.snoc (call := .write e c v) ⟨hW, hv⟩ hrun⟩
      obtain ⟨r', cs', p1, p2, p3, p4, p5⟩ := RInv.writeAll_eq l h2 hR1 ht'
      unfold writeMany
      rw [hl1] at p1 p4 p5
      rw [hj]
      refine ⟨r', cs', ?_, p2, p3, p4, fun w hw => ?_⟩
      · unfold writeAll
        rw [h1]
        simp only [ok_bind]
        rw [p1]
        rfl
      · rcases List.mem_append.mp hw with hw | hw
        · exact p5 w hw
        · rw [List.mem_singleton.mp hw]
          exact ⟨hW, h.look_typed h3 h4⟩

/-- **C125** Any writes, to the same components or to different ones, to entities that may be dead or lack the component,
leave the last value written in each component that exists. They are undone by writing back the journal, the latest entry
first; and writing back the journal of that redoes them. -/
theorem C125_undo_redo (hr : Reachable W r) {l : List Write} (hl : TypedWrites W l) :
    ∃ r₁ j₁ r₂ j₂ r₃ j₃, writeAll env r l = .ok (r₁, j₁) ∧ writeAll env r₁ j₁ = .ok (r₂, j₂) ∧
      writeAll env r₂ j₂ = .ok (r₃, j₃) ∧ Reachable W r₁ ∧ Reachable W r₂ ∧ Reachable W r₃ ∧
      (∀ e c, W.Has c → ∃ o, r.getComponent env c e = .ok o ∧
        r₁.getComponent env c e = .ok (o.map (fun old => (lastWrite e c l).getD old))) ∧
      (∀ e, SameEntity W r r₂ e) ∧ ∀ e, SameEntity W r₁ r₃ e := by
  obtain ⟨cs, h⟩ := hr.inv
  obtain ⟨r₁, c₁, a1, a2, a3, a4, a5⟩ := RInv.writeAll_eq l h hr hl
  obtain ⟨r₂, c₂, b1, b2, b3, b4, b5⟩ := RInv.writeAll_eq _ a2 a3 a5
  obtain ⟨r₃, c₃, d1, d2, d3, d4, _⟩ := RInv.writeAll_eq _ b2 b3 b5
  refine ⟨r₁, _, r₂, _, r₃, _, a1, b1, d1, a3, b3, d3, fun e c hc => ?_, fun e => h.sameEntity_of_look b2 ?_, fun e => a2.sameEntity_of_look d2 ?_⟩
  · refine ⟨_, h.getComponent_eq hc e, ?_⟩
    rw [a2.getComponent_eq hc, a4, writeMany_at]
  · rw [b4, a4, writeMany_undo]
  · rw [d4, b4, writeMany_undo]

/-! ## Examples -/

/-- Two writes to one component, one to another entity, one to an entity that lacks the component, one to a dead entity. -/
def exWrites : List Write := [(exE1, exA, exValA'), (exE2, exA, exValA), (exE1, exA, ⟨1, [9, 9, 9, 9]⟩), (exE2, exB, exValB),
  (exE3, exC, exValC)]

set_option maxRecDepth 100000 in
/-- C125 on the example registry. -/
example : Reachable exWorld exR ∧ TypedWrites exWorld exWrites ∧
    okOr none ((writeAll exEnv exR exWrites).bind (fun x => (writeAll exEnv x.1 x.2).map (fun y => some (x.2,
      [exE1, exE2].map (fun e => okOr none (x.1.getComponent exEnv exA e)),
      [exE1, exE2].map (fun e => okOr none (y.1.getComponent exEnv exA e)))))) =
    some ([(exE1, exA, exValA'), (exE2, exA, exValA'), (exE1, exA, exValA)],
      [some ⟨1, [9, 9, 9, 9]⟩, some exValA], [some exValA, some exValA']) := by
  refine ⟨exReachable, ?_, by decide +kernel⟩
  have h : ∀ w ∈ exWrites, w.2.1 ∈ [exA, exB, exC] ∧ w.2.2.ty = w.2.1.ty ∧ w.2.2.bytes.length = w.2.1.size := by decide +kernel
  exact h

end Shard
