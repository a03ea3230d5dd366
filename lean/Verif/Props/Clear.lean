import Verif.Spec.Clear
import Verif.Props.ScriptIter
import Verif.Proofs.Ledger
/-!
# C113: destroying many entities, and clearing a registry
-/

set_option autoImplicit false

namespace Shard

open Script

variable {env : Env} {W : World env} {r r' : Registry}

/-- One destruction, with what dropping the registry would drop before and after. -/
theorem destroy_ledger (hr : Reachable W r) (e : Entity) :
    ∃ r' b d, r.destroyEntity env e = .ok (r', b, d) ∧ (b = true ↔ Live env r e) ∧ ¬ Live env r' e ∧ Reachable W r' ∧
      (∀ x, x ≠ e → SameEntity W r r' x) ∧
      ∃ before left after left', r.drop = .ok (before, left) ∧ r'.drop = .ok (after, left') ∧ before.Perm (d ++ after) := by
  obtain ⟨⟨r', b, d, h1, h2, h3, _⟩, _⟩ := C04_destroyed_dead hr e
  obtain ⟨cs, i⟩ := hr.inv
  obtain ⟨cs', st⟩ := i.step (call := .destroy e) trivial (run_destroy h1)
  obtain ⟨left, d1, _⟩ := i.drop_eq
  obtain ⟨left', d2, _⟩ := st.inv.drop_eq
  refine ⟨r', b, d, h1, h2, h3, ?_, C12_destroy_frame hr h1, _, left, _, left', d1, d2, ?_⟩
  · obtain ⟨hist, hh⟩ := hr
    exact ⟨_, hh.snoc (call := .destroy e) trivial (run_destroy h1)⟩
  · have := st.ledger trivial
    simp only [List.append_nil] at this
    exact this.symm.trans List.perm_append_comm

/-- **C113** Destroying the entities of a list, one after the other, never faults, whatever handles are in the list. Each
call succeeds exactly if its handle is live and has not come earlier in the list. Afterwards none of the listed handles
is live and all other entities are as before. The dropped values are, together with those dropping the registry would
drop then, those dropping the registry would have dropped before. -/
theorem C113_destroy_all : ∀ (l : List Entity) {r : Registry}, Reachable W r →
    ∃ r' bs d, destroyAll env r l = .ok (r', bs, d) ∧ bs.length = l.length ∧ Reachable W r' ∧
      (∀ (n : Nat) (e : Entity) (b : Bool), l[n]? = some e → bs[n]? = some b → (b = true ↔ Live env r e ∧ e ∉ l.take n)) ∧
      (∀ e ∈ l, ¬ Live env r' e) ∧ (∀ x, x ∉ l → SameEntity W r r' x) ∧
      ∃ before left after left', r.drop = .ok (before, left) ∧ r'.drop = .ok (after, left') ∧ before.Perm (d ++ after)
  | [], r, hr => by
    obtain ⟨cs, i⟩ := hr.inv
    obtain ⟨left, d1, _⟩ := i.drop_eq
    exact ⟨r, [], [], rfl, rfl, hr, fun n e b h => by simp at h, fun e h => by simp at h,
      fun x _ => ⟨Iff.rfl, fun _ _ => ⟨rfl, rfl⟩⟩, _, left, _, left, d1, d1, List.Perm.refl _⟩
  | e :: l, r, hr => by
    obtain ⟨r₁, b, d, a1, a2, a3, a4, a5, before, left, mid, left', a6, a7, a8⟩ := destroy_ledger hr e
    obtain ⟨r', bs, d', b1, b2, b3, b4, b5, b6, mid', left'', after, left''', b7, b8, b9⟩ := C113_destroy_all l a4
    rw [a7] at b7
    cases b7
    have hdead : ¬ Live env r' e := by
      by_cases hm : e ∈ l
      · exact b5 e hm
      · exact fun hl => a3 ((b6 e hm).1.mp hl)
    refine ⟨r', b :: bs, d ++ d', ?_, by simp [b2], b3, ?_, ?_, ?_, before, left, after, left''', a6, b8, ?_⟩
    · unfold destroyAll
      rw [a1]
      simp only [ok_bind, b1]
      rfl
    · intro n x c hx hc
      cases n with
      | zero =>
        simp only [List.getElem?_cons_zero, Option.some.injEq] at hx hc
        subst hx hc
        simp [a2]
      | succ n =>
        simp only [List.getElem?_cons_succ] at hx hc
        rw [b4 n x c hx hc, List.take_succ_cons, List.mem_cons, not_or]
        constructor
        · rintro ⟨h1, h2⟩
          have hne : x ≠ e := fun hh => a3 (by rw [← hh]; exact h1)
          exact ⟨(a5 x hne).1.mp h1, hne, h2⟩
        · rintro ⟨h1, h2, h3⟩
          exact ⟨(a5 x h2).1.mpr h1, h3⟩
    · intro x hx
      rcases List.mem_cons.mp hx with rfl | hx
      · exact hdead
      · exact b5 x hx
    · intro x hx
      rw [List.mem_cons, not_or] at hx
      exact (a5 x hx.1).trans (b6 x hx.2)
    · rw [List.append_assoc]
      exact a8.trans (b9.append_left d)

/-- **C113** Clearing a registry: destroying what `iter_entities` has listed, in any order. Every call succeeds, the
values dropped are exactly those dropping the registry would have dropped, no entity is left, no iteration passes a tuple
(`iter_components_matching`), and dropping the registry drops nothing more. -/
theorem C113_clear (hr : Reachable W r) {l : List Entity} (hl : l.Perm (r.iterEntities env)) :
    ∃ r' bs d, destroyAll env r l = .ok (r', bs, d) ∧ (∀ b ∈ bs, b = true) ∧ Reachable W r' ∧ r'.iterEntities env = [] ∧
      (∃ before left, r.drop = .ok (before, left) ∧ d.Perm before) ∧ (∃ left, r'.drop = .ok ([], left)) ∧
      ∀ g : Group, (∀ c ∈ g, W.Has c) → (g.descriptor env).isValid = true → seen env r' g = .ok [] := by
  obtain ⟨r', bs, d, a1, a2, a3, a4, a5, a6, before, left, after, left', a7, a8, a9⟩ := C113_destroy_all l hr
  have hnd : l.Nodup := by
    obtain ⟨hist, hh⟩ := hr
    obtain ⟨q1, q2, _⟩ := C09_entity_iteration hh
    exact hl.nodup_iff.mpr (q1.nodup_iff.mpr q2)
  have hnone : ∀ e, ¬ Live env r' e := by
    intro e he
    by_cases hm : e ∈ l
    · exact a5 e hm he
    · exact hm (hl.mem_iff.mpr ((a6 e hm).1.mp he))
  have hafter : after = [] := by
    obtain ⟨cs, i⟩ := a3.inv
    obtain ⟨q1, q2, q3⟩ := i.allItems_spec
    obtain ⟨lf, hd, _⟩ := i.drop_eq
    rw [a8] at hd
    cases hd
    rw [← q2]
    cases hx : allItems cs with
    | nil => rfl
    | cons x xs =>
      obtain ⟨e, c, v⟩ := x
      have := (q3 e c v).mp (by rw [hx]; exact List.mem_cons_self)
      rw [i.getComponent_eq this.1, i.dead_iff.mp (hnone e)] at this
      cases this.2
  subst hafter
  rw [List.append_nil] at a9
  refine ⟨r', bs, d, a1, fun b hb => ?_, a3, ?_, ⟨before, left, a7, a9.symm⟩, ⟨left', a8⟩, fun g hg hv => ?_⟩
  · obtain ⟨n, hn⟩ := List.getElem?_of_mem hb
    have hlt : n < l.length := by rw [← a2]; exact (List.getElem?_eq_some_iff.mp hn).1
    refine (a4 n l[n] b (List.getElem?_eq_getElem hlt) hn).mpr ⟨hl.mem_iff.mp (List.getElem_mem hlt), fun hm => ?_⟩
    obtain ⟨k, hk, hke⟩ := List.mem_take_iff_getElem.mp hm
    have := (List.getElem_inj hnd).mp hke
    omega
  · cases hx : r'.iterEntities env with
    | nil => rfl
    | cons e l => exact absurd (show e ∈ r'.iterEntities env by rw [hx]; exact List.mem_cons_self) (hnone e)
  · obtain ⟨es, e1, e2, e3⟩ := seen_eq a3 hg hv
    cases es with
    | nil => exact e3
    | cons e es => exact absurd ((e2 e).mp List.mem_cons_self).1 (hnone e)

/-! ## Examples -/

set_option maxRecDepth 100000 in
/-- C113 on the example registry, with a dead handle and a repeated one in the list: the results and the dropped values. -/
example : Reachable exWorld exR ∧
    okOr none ((destroyAll exEnv exR [exE1, exE3, exE4, exE1]).map (fun x => some (x.1.iterEntities exEnv, x.2))) =
      some ([exE2], [true, false, true, false], [exValA, exValB, exValC, exValC]) :=
  ⟨exReachable, by decide +kernel⟩

set_option maxRecDepth 100000 in
/-- C113: clearing the example registry, computed. -/
example : [exE4, exE1, exE2].Perm (exR.iterEntities exEnv) ∧
    okOr none ((destroyAll exEnv exR [exE4, exE1, exE2]).map (fun x => some (x.1.iterEntities exEnv, x.2.1))) =
      some ([], [true, true, true]) := by
  decide +kernel

end Shard
