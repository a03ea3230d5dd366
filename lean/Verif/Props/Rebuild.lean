import Verif.Spec.Rebuild
import Verif.Props.Duplicate
import Verif.Props.TwoHomes
/-!
# C122: a registry can be rebuilt from what its queries return
-/

set_option autoImplicit false

namespace Shard

open Script

variable {env : Env} {W : World env} {src dst : Registry} {g : Group} {e : Entity}

/-- **C122** One entity is copied into another registry. -/
theorem C122_one (hsrc : Reachable W src) {hist : List (Call × Outcome)} (h : OrdinaryRun W hist dst) (hg : W.OkGroup g)
    (hv : (g.descriptor env).isValid = true) (hm : Matches env src g e) :
    ∃ vals dst' e', copyInto env src dst e g = .ok (some (dst', e')) ∧ (Call.create g vals).Admissible W dst ∧
      dst.createEntity env g vals = .ok (dst', .ok e') ∧ CopyOf W src e g dst' e' ∧ ¬ Live env dst e' ∧
      ∀ x, x ≠ e' → SameEntity W dst dst' x := by
  have hr : Reachable W dst := ⟨_, h.1⟩
  obtain ⟨cs, i⟩ := hsrc.inv
  obtain ⟨vals, k1, k2, k3⟩ := i.typed_tuple hg.has hv hm
  have hadm : (Call.create g vals).Admissible W dst := ⟨k2, fun _ => hg⟩
  obtain ⟨dst', e', hc⟩ := (C75_ordinary_programs h.1 h.2.1 h.2.2).1 g vals hadm hv
  obtain ⟨c1, c2, c3⟩ := C10_create_then_read hr hadm hc
  obtain ⟨d1, d2, _⟩ := C03_created_handle_fresh hr hadm hc
  have hframe := C11_create_frame hr hadm hc
  refine ⟨vals, dst', e', ?_, hadm, hc, ⟨⟨d2, fun c hW => ?_⟩, fun c hcg => ?_, c2⟩, d1,
    fun x hx' => hframe x (fun hh => hx' (Registry.Res.ok.inj hh).symm)⟩
  · unfold copyInto
    rw [k1]
    simp only [ok_bind, hc]
    rfl
  · rw [c3 c hW]
    constructor
    · intro hh
      injection hh with hh
      exact of_decide_eq_true hh
    · intro hh
      rw [decide_eq_true hh]
  · obtain ⟨j, hj⟩ := List.getElem?_of_mem hcg
    have hjl : j < vals.length := by rw [k2.1]; exact (List.getElem?_eq_some_iff.mp hj).1
    rw [k3 j c hj, c1 j c vals[j] hj (List.getElem?_eq_getElem hjl), List.getElem?_eq_getElem hjl]

/-- **C122** Any entities of one registry can be copied into another that has room for them: all of them are created, under
handles that are all different and were not live there; each is a copy of its original; and no entity that was there
changes. -/
theorem C122_copy (hsrc : Reachable W src) : ∀ (l : List (Entity × Group)) {dst : Registry} {hist : List (Call × Outcome)},
    Steps env (Call.Admissible W) Registry.default hist dst → Roomy W hist l.length →
    (∀ x ∈ l, W.OkGroup x.2 ∧ (x.2.descriptor env).isValid = true ∧ Matches env src x.2 x.1) →
    ∃ dst' es more, copyAll env src dst l = .ok (some (dst', es)) ∧
      Steps env (Call.Admissible W) Registry.default (hist ++ more) dst' ∧
      (∀ x ∈ more, ∃ g vals, x.1 = Call.create g vals) ∧ es.length = l.length ∧ es.Nodup ∧
      (∀ (n : Nat) (x : Entity × Group) (e' : Entity), l[n]? = some x → es[n]? = some e' → CopyOf W src x.1 x.2 dst' e') ∧
      (∀ e' ∈ es, ¬ Live env dst e') ∧ ∀ x, x ∉ es → SameEntity W dst dst' x
  | [], dst, hist, h, _, _ =>
    ⟨dst, [], [], rfl, by rw [List.append_nil]; exact h, fun x h => by simp at h, rfl, List.nodup_nil,
      fun n x e' h => by simp at h, fun x h => by simp at h, fun _ _ => ⟨Iff.rfl, fun _ _ => ⟨rfl, rfl⟩⟩⟩
  | (e, g) :: l, dst, hist, h, hroom, hall => by
    obtain ⟨a1, a2, a3⟩ := hall (e, g) List.mem_cons_self
    have hroom' : Roomy W hist (l.length + 1) := hroom
    obtain ⟨vals, s, e', t0, t1, t2, t3, t4, t5⟩ := C122_one hsrc (hroom'.ordinary h) a1 a2 a3
    have hs := h.snoc t1 (run_create_ok t2)
    obtain ⟨dst'', es, more, p0, p1, pm, p2, p3, p4, p5, p6⟩ := C122_copy hsrc l hs (hroom'.snoc _)
      (fun x hx => hall x (List.mem_cons_of_mem _ hx))
    have hfresh : e' ∉ es := fun hm => p5 e' hm t3.1.1
    rw [List.append_assoc] at p1
    refine ⟨dst'', e' :: es, _, ?_, p1, ?_, by simp [p2], List.nodup_cons.mpr ⟨hfresh, p3⟩, ?_, ?_, ?_⟩
    · unfold copyAll
      rw [t0]
      simp only [ok_bind, p0]
      rfl
    · intro x hx
      rcases List.mem_cons.mp (by simpa using hx) with rfl | hx
      · exact ⟨g, vals, rfl⟩
      · exact pm x hx
    · intro n x y hx hy
      cases n with
      | zero =>
        simp only [List.getElem?_cons_zero, Option.some.injEq] at hx hy
        subst hx hy
        exact t3.after a1.has (p6 e' hfresh)
      | succ n =>
        simp only [List.getElem?_cons_succ] at hx hy
        exact p4 n x y hx hy
    · intro y hy
      rcases List.mem_cons.mp hy with rfl | hy
      · exact t4
      · exact fun hl => p5 y hy ((t5 y (fun hh => hfresh (by rw [← hh]; exact hy))).1.mpr hl)
    · intro x hx
      rw [List.mem_cons, not_or] at hx
      exact (t5 x hx.1).trans (p6 x hx.2)

theorem movedLast_creates (e : Entity) : ∀ (more : List (Call × Outcome)), (∀ x ∈ more, ∃ g vals, x.1 = Call.create g vals) →
    movedLast more e = false := by
  suffices H : ∀ (more : List (Call × Outcome)) (b : Bool), b = false → (∀ x ∈ more, ∃ g vals, x.1 = Call.create g vals) →
      more.foldl (fun b x =>
        if x.2.created = some e then false else
        match x.1 with
        | .add e' _ _ => if e' = e ∧ x.2.success = true then true else b
        | .remove e' _ => if e' = e ∧ x.2.success = true then true else b
        | _ => b) b = false from fun more hm => H more false rfl hm
  intro more
  induction more with
  | nil => intro b hb _; exact hb
  | cons x more ih =>
    intro b hb hm
    rw [List.foldl_cons]
    refine ih _ ?_ (fun y hy => hm y (List.mem_cons_of_mem _ hy))
    obtain ⟨g, vals, hx⟩ := hm x List.mem_cons_self
    rw [hx]
    split
    · rfl
    · exact hb

theorem CopyOf.sameAs (hsrc : Reachable W src) (hdst : Reachable W dst) {e' : Entity} (h : CopyOf W src e g dst e')
    (hx : HasExactly W src e g) : SameAs W src e dst e' := by
  obtain ⟨cs, i⟩ := hsrc.inv
  obtain ⟨cs', i'⟩ := hdst.inv
  refine ⟨⟨fun _ => hx.1, fun _ => h.1.1⟩, fun c hc => ?_⟩
  by_cases hcg : c ∈ g
  · exact ⟨((h.1.2 c hc).mpr hcg).trans ((hx.2 c hc).mpr hcg).symm, h.2.1 c hcg⟩
  · have n1 : src.hasComponent env c e ≠ .ok true := fun hh => hcg ((hx.2 c hc).mp hh)
    have n2 : dst.hasComponent env c e' ≠ .ok true := fun hh => hcg ((h.1.2 c hc).mp hh)
    rw [i.hasComponent_eq hc] at n1 ⊢
    rw [i'.hasComponent_eq hc] at n2 ⊢
    have m1 : ((src.look env cs e).bind (fun f => f c)) = none := by
      cases hh : (src.look env cs e).bind (fun f => f c) with
      | none => rfl
      | some v => rw [hh] at n1; exact absurd rfl n1
    have m2 : ((dst.look env cs' e').bind (fun f => f c)) = none := by
      cases hh : (dst.look env cs' e').bind (fun f => f c) with
      | none => rfl
      | some v => rw [hh] at n2; exact absurd rfl n2
    rw [i.getComponent_eq hc, i'.getComponent_eq hc, m1, m2]
    exact ⟨rfl, rfl⟩

/-- **C122** Copying every live entity, with all its components, into an empty registry rebuilds the registry: there is one
live entity for each of the original, under its handle in `es`, every query about it is answered as about the original, and
there are no others. In the rebuilt registry exact iteration is complete, which it need not be in the original
(`C34_violated`). -/
theorem C122_rebuild (hsrc : Reachable W src) {l : List (Entity × Group)} (hl : Inventory W src l)
    (hok : ∀ x ∈ l, W.OkGroup x.2 ∧ (x.2.descriptor env).isValid = true) (hroom : Roomy W [] l.length) :
    ∃ dst es, copyAll env src Registry.default l = .ok (some (dst, es)) ∧ Reachable W dst ∧ es.length = l.length ∧ es.Nodup ∧
      (∀ e, Live env dst e ↔ e ∈ es) ∧
      (∀ (n : Nat) (x : Entity × Group) (e' : Entity), l[n]? = some x → es[n]? = some e' → SameAs W src x.1 dst e') ∧
      ∀ g, W.OkGroup g → (g.descriptor env).isValid = true →
        ∃ ents cols, dst.iterEntityComponentsExact env g = .ok (ents, cols) ∧ Aligned env dst g ents cols ∧ ents.Nodup ∧
          ∀ e, e ∈ ents ↔ HasExactly W dst e g := by
  obtain ⟨dst, es, more, p0, p1, pm, p2, p3, p4, p5, p6⟩ := C122_copy hsrc l (dst := Registry.default) .nil hroom (fun x hx =>
    ⟨(hok x hx).1, (hok x hx).2, (hl.2.2 x hx).1, fun c hc => ((hl.2.2 x hx).2 c ((hok x hx).1.has c hc)).mpr hc⟩)
  rw [List.nil_append] at p1
  have hdst : Reachable W dst := ⟨_, p1⟩
  refine ⟨dst, es, p0, hdst, p2, p3, fun e => ⟨fun he => ?_, fun he => ?_⟩, fun n x e' h1 h2 => ?_, fun g hg hv => ?_⟩
  · refine Classical.byContradiction fun hn => ?_
    have hlive := (p6 e hn).1.mp he
    obtain ⟨f, hf⟩ := (RInv.empty W).live_iff.mp hlive
    rw [show Registry.default.look env [] e = none from rfl] at hf
    cases hf
  · obtain ⟨n, hn⟩ := List.getElem?_of_mem he
    have hlt : n < l.length := by rw [← p2]; exact (List.getElem?_eq_some_iff.mp hn).1
    exact (p4 n _ e (List.getElem?_eq_getElem hlt) hn).1.1
  · exact (p4 n x e' h1 h2).sameAs hsrc hdst (hl.2.2 x (List.mem_of_getElem? h1))
  · obtain ⟨ents, cols, o, q1, _, _, _, _, _, q2, q3, q4⟩ := C104_exact p1 hg hv
    refine ⟨ents, cols, q1, q2, q3, fun e => ?_⟩
    rw [q4 e, movedLast_creates e more pm]
    exact and_iff_left rfl

/-! ## Examples -/

/-- The inventory of the example registry. -/
def exInventory : List (Entity × Group) := [(exE1, [exC, exA, exB]), (exE2, [exA]), (exE4, [exC])]

set_option maxRecDepth 100000 in
/-- C122: the hypotheses hold for the example registry. -/
example : Reachable exWorld exR ∧ Inventory exWorld exR exInventory ∧
    (∀ x ∈ exInventory, exWorld.OkGroup x.2 ∧ (x.2.descriptor exEnv).isValid = true) ∧
    Roomy exWorld [] exInventory.length := by
  have hl : exR.iterEntities exEnv = exInventory.map Prod.fst := by decide +kernel
  have h : ∀ x ∈ exInventory, (x.2.descriptor exEnv).isValid = true ∧
      x.1 ∈ exR.iterEntities exEnv ∧ (∀ c ∈ [exA, exB, exC], exR.hasComponent exEnv c x.1 = .ok true ↔ c ∈ x.2) ∧
      createCheck [exA, exB, exC] [[10], [20], [30], [10, 20], [10, 30], [20, 30], [10, 20, 30]] x.2
        ((okOr none (exR.getComponents exEnv x.2 x.1)).getD []) = true := by
    decide +kernel
  refine ⟨exReachable, ⟨by decide +kernel, fun e => ?_, fun x hx => ⟨(h x hx).2.1, (h x hx).2.2.1⟩⟩,
    fun x hx => ⟨(createCheck_ok (h x hx).2.2.2 exR).2, (h x hx).1⟩, ⟨.inl (by decide +kernel), by decide +kernel⟩⟩
  unfold Live
  rw [hl]

set_option maxRecDepth 100000 in
/-- C122: the rebuilt registry, computed. Exact iteration over the three components misses the first entity in the original
and finds it in the rebuilt registry. -/
example : okOr none ((copyAll exEnv exR Registry.default exInventory).map (fun x => x.map (fun y => (y.2,
      y.2.map (fun e => [exA, exB, exC].map (fun c => okOr none (y.1.getComponent exEnv c e))),
      okOr [] ((y.1.iterEntityComponentsExact exEnv [exC, exA, exB]).map Prod.fst))))) =
    some ([Entity.newUnchecked 0 0, Entity.newUnchecked 1 0, Entity.newUnchecked 2 0],
      [[some exValA, some exValB, some exValC], [some ⟨1, [5, 6, 7, 8]⟩, none, none], [none, none, some exValC]],
      [Entity.newUnchecked 0 0]) ∧
    okOr [exE1] ((exR.iterEntityComponentsExact exEnv [exC, exA, exB]).map Prod.fst) = [] := by decide +kernel

end Shard
