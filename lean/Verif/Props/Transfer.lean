import Verif.Spec.Transfer
import Verif.Props.Script
import Verif.Props.Components
/-!
# C112: entities can be moved from one registry to another
-/

set_option autoImplicit false

namespace Shard

open Script

variable {env : Env} {W : World env} {r r' r₁ r₂ : Registry} {cs cs₁ cs₂ : List Content} {e : Entity}

/-- A value that is read has the type it is read at. -/
theorem RInv.look_typed (h : RInv W r cs) {f : CompTy → Option Val} (hf : r.look env cs e = some f) {c : CompTy} {v : Val}
    (hv : f c = some v) : v.HasTy c := by
  obtain ⟨en, a, ct, he, ha, hct, hr, hfe, hm⟩ := h.stored_at hf
  rw [hfe] at hv
  exact (hr.mem_of_get hv).2.1

/-- The component set of a live entity is one of the component sets of the program. -/
theorem RInv.okGroup (h : RInv W r cs) {g : Group} (hg : ∀ c ∈ g, W.Has c) (hn : (g.map (fun c => c.id)).Nodup)
    (hx : HasExactly W r e g) : W.OkGroup g := by
  obtain ⟨f, hf⟩ := h.live_iff.mp hx.1
  obtain ⟨en, a, ct, he, ha, hct, hr, hfe, hm⟩ := h.stored_at hf
  have hu := hr.desc.used
  obtain ⟨h1, _⟩ := h.ids_of hf hr hm
  have hs : AscSet g.idSet (HasId W r e) := by
    refine ⟨(g.idSet_sorted.and (g.idSet_perm.nodup_iff.mpr hn)).imp (fun ⟨a, b⟩ => UInt16.lt_of_le_of_ne a b), fun i => ?_⟩
    rw [g.idSet_perm.mem_iff, List.mem_map]
    constructor
    · rintro ⟨c, hc, rfl⟩
      exact ⟨c, hg c hc, rfl, (hx.2 c (hg c hc)).mpr hc⟩
    · rintro ⟨c, hc, rfl, hy⟩
      exact ⟨c, (hx.2 c hc).mp hy, rfl⟩
  rw [h1.unique hs] at hu
  exact ⟨hg, hu⟩

/-- **C112** An entity can be moved from any registry to any registry that is not at its limits: the two calls succeed,
the new entity has the components and values of the old one, the old one is gone, and no other entity of either registry
changes. -/
theorem C112_transfer {hist : List (Call × Outcome)} (h₁ : Reachable W r₁) (h₂ : OrdinaryRun W hist r₂) {g : Group}
    (hg : ∀ c ∈ g, W.Has c) (hv : (g.descriptor env).isValid = true) (hx : HasExactly W r₁ e g) :
    ∃ r₁' vals r₂' e', transfer env r₁ r₂ e g = .ok (some (r₁', r₂', e')) ∧
      r₁.removeEntity env g e = .ok (r₁', some vals) ∧ r₂.createEntity env g vals = .ok (r₂', .ok e') ∧
      (Call.create g vals).Admissible W r₂ ∧
      SameAs W r₁ e r₂' e' ∧ HasExactly W r₂' e' g ∧ ¬ Live env r₁' e ∧ ¬ Live env r₂ e' ∧
      (∀ x, x ≠ e → SameEntity W r₁ r₁' x) ∧ ∀ x, x ≠ e' → SameEntity W r₂ r₂' x := by
  have hr₂ : Reachable W r₂ := ⟨_, h₂.1⟩
  obtain ⟨r₁', vals, k1, k2, k3, k4, k5⟩ := C17_remove_entity_exact h₁ hg hv hx
  obtain ⟨cs, i⟩ := h₁.inv
  obtain ⟨f, hf⟩ := i.live_iff.mp hx.1
  have hwf := (Group.isValid_iff.mp hv).1
  have hadm : (Call.create g vals).Admissible W r₂ := by
    refine ⟨⟨k2, fun j c v hc hvj => ?_⟩, fun hn => i.okGroup hg hn hx⟩
    have := k3 j c hc
    rw [i.getComponent_eq (hg c (List.mem_of_getElem? hc)), hf, hvj] at this
    exact i.look_typed hf (Except.ok.inj this)
  obtain ⟨r₂', e', hc⟩ := (C75_ordinary_programs h₂.1 h₂.2.1 h₂.2.2).1 g vals hadm hv
  obtain ⟨c1, c2, c3⟩ := C10_create_then_read hr₂ hadm hc
  obtain ⟨d1, d2, _⟩ := C03_created_handle_fresh hr₂ hadm hc
  have hframe := C11_create_frame hr₂ hadm hc
  have hsame : ∀ c, W.Has c → r₂'.hasComponent env c e' = r₁.hasComponent env c e ∧
      r₂'.getComponent env c e' = r₁.getComponent env c e := by
    intro c hW
    have hh : r₁.hasComponent env c e = .ok (decide (c ∈ g)) := by
      have hy := hx.2 c hW
      rw [i.hasComponent_eq hW] at hy ⊢
      by_cases hm : c ∈ g
      · rw [hy.mpr hm, decide_eq_true hm]
      · rw [decide_eq_false hm]
        rw [hf] at hy ⊢
        simp only [Except.ok.injEq] at hy ⊢
        exact Bool.eq_false_iff.mpr (fun ht => hm (hy.mp ht))
    refine ⟨by rw [hh, c3 c hW], ?_⟩
    by_cases hm : c ∈ g
    · obtain ⟨j, hj⟩ := List.getElem?_of_mem hm
      have hjl : j < vals.length := by rw [k2]; exact (List.getElem?_eq_some_iff.mp hj).1
      rw [k3 j c hj, c1 j c vals[j] hj (List.getElem?_eq_getElem hjl), List.getElem?_eq_getElem hjl]
    · rw [c2 c hW hm]
      rw [i.hasComponent_eq hW, hf] at hh
      rw [i.getComponent_eq hW, hf]
      simp only [Except.ok.injEq, decide_eq_false hm] at hh
      cases hfc : f c with
      | none => simp [hfc]
      | some v => simp [hfc] at hh
  refine ⟨r₁', vals, r₂', e', ?_, k1, hc, hadm, ⟨⟨fun _ => hx.1, fun _ => d2⟩, hsame⟩, ⟨d2, fun c hW => ?_⟩, k4, d1, k5,
    fun x hx' => hframe x (fun hh => hx' (Registry.Res.ok.inj hh).symm)⟩
  · unfold transfer
    rw [k1]
    simp only [ok_bind, hc]
    rfl
  · rw [(hsame c hW).1]; exact hx.2 c hW

/-- **C112** Any number of entities: all of them arrive, under new handles that are all different, with their components
and values; no other entity of either registry changes. -/
theorem C112_all : ∀ (l : List (Entity × Group)) {r₁ r₂ : Registry} {hist : List (Call × Outcome)},
    Reachable W r₁ → Steps env (Call.Admissible W) Registry.default hist r₂ → Roomy W hist l.length →
    (l.map (fun x => x.1)).Nodup →
    (∀ x ∈ l, (∀ c ∈ x.2, W.Has c) ∧ (x.2.descriptor env).isValid = true ∧ HasExactly W r₁ x.1 x.2) →
    ∃ r₁' r₂' es, transferAll env r₁ r₂ l = .ok (some (r₁', r₂', es)) ∧ es.length = l.length ∧ es.Nodup ∧
      Reachable W r₁' ∧ Reachable W r₂' ∧
      (∀ (n : Nat) (x : Entity × Group) (e' : Entity), l[n]? = some x → es[n]? = some e' → SameAs W r₁ x.1 r₂' e') ∧
      (∀ x ∈ l, ¬ Live env r₁' x.1) ∧ (∀ e' ∈ es, ¬ Live env r₂ e' ∧ Live env r₂' e') ∧
      (∀ x, x ∉ l.map (fun x => x.1) → SameEntity W r₁ r₁' x) ∧ ∀ x, x ∉ es → SameEntity W r₂ r₂' x
  | [], r₁, r₂, hist, h₁, h₂, _, _, _ =>
    ⟨r₁, r₂, [], rfl, rfl, List.nodup_nil, h₁, ⟨_, h₂⟩, fun n x e' h => by simp at h, fun x h => by simp at h,
      fun x h => by simp at h, fun _ _ => ⟨Iff.rfl, fun _ _ => ⟨rfl, rfl⟩⟩,
      fun _ _ => ⟨Iff.rfl, fun _ _ => ⟨rfl, rfl⟩⟩⟩
  | (e, g) :: l, r₁, r₂, hist, h₁, h₂, hroom, hn, hall => by
    rw [List.map_cons, List.nodup_cons] at hn
    obtain ⟨a1, a2, a3⟩ := hall (e, g) List.mem_cons_self
    have hroom' : Roomy W hist (l.length + 1) := hroom
    obtain ⟨s₁, vals, s₂, e', t0, t1, t2, t3, t4, t5, t6, t7, t8, t9⟩ := C112_transfer h₁ (hroom'.ordinary h₂) a1 a2 a3
    have hs₁ : Reachable W s₁ := by
      obtain ⟨hist₁, hh⟩ := h₁
      exact ⟨_, hh.snoc (call := .removeEntity g e) trivial (run_removeEntity_some t1)⟩
    have hs₂ := h₂.snoc t3 (run_create_ok t2)
    have hall' : ∀ x ∈ l, (∀ c ∈ x.2, W.Has c) ∧ (x.2.descriptor env).isValid = true ∧ HasExactly W s₁ x.1 x.2 := by
      intro x hx
      obtain ⟨b1, b2, b3, b4⟩ := hall x (List.mem_cons_of_mem _ hx)
      have hne : x.1 ≠ e := fun hh => hn.1 (List.mem_map.mpr ⟨x, hx, hh⟩)
      exact ⟨b1, b2, (t8 _ hne).1.mpr b3, fun c hc => by rw [((t8 _ hne).2 c hc).1]; exact b4 c hc⟩
    obtain ⟨u₁, u₂, es, p0, p1, p2, p3, p4, p5, p6, p7, p8, p9⟩ := C112_all l hs₁ hs₂ (hroom'.snoc _) hn.2 hall'
    have hfresh : e' ∉ es := fun hm => (p7 e' hm).1 t5.1
    refine ⟨u₁, u₂, e' :: es, ?_, by simp [p1], List.nodup_cons.mpr ⟨hfresh, p2⟩, p3, p4, ?_, ?_, ?_, ?_, ?_⟩
    · unfold transferAll
      rw [t0]
      simp only [ok_bind, p0]
      rfl
    · intro n x y hx hy
      cases n with
      | zero =>
        simp only [List.getElem?_cons_zero, Option.some.injEq] at hx hy
        subst hx hy
        have := p9 e' hfresh
        exact ⟨this.1.trans t4.1, fun c hc => ⟨(this.2 c hc).1.trans (t4.2 c hc).1, (this.2 c hc).2.trans (t4.2 c hc).2⟩⟩
      | succ n =>
        simp only [List.getElem?_cons_succ] at hx hy
        have h5 := p5 n x y hx hy
        have hne : x.1 ≠ e := fun hh => hn.1 (List.mem_map.mpr ⟨x, List.mem_of_getElem? hx, hh⟩)
        have h8 := t8 _ hne
        exact ⟨h5.1.trans h8.1, fun c hc => ⟨(h5.2 c hc).1.trans (h8.2 c hc).1, (h5.2 c hc).2.trans (h8.2 c hc).2⟩⟩
    · intro x hx
      rcases List.mem_cons.mp hx with rfl | hx
      · exact fun hl => t6 ((p8 e hn.1).1.mp hl)
      · exact p6 x hx
    · intro y hy
      rcases List.mem_cons.mp hy with rfl | hy
      · exact ⟨t7, (p9 y hfresh).1.mpr t5.1⟩
      · obtain ⟨q1, q2⟩ := p7 y hy
        exact ⟨fun hl => q1 ((t9 y (fun hh => hfresh (by rw [← hh]; exact hy))).1.mpr hl), q2⟩
    · intro x hx
      rw [List.map_cons, List.mem_cons, not_or] at hx
      exact (t8 x hx.1).trans (p8 x hx.2)
    · intro x hx
      rw [List.mem_cons, not_or] at hx
      exact (t9 x hx.1).trans (p9 x hx.2)

/-! ## Examples -/

/-- The three live entities of the example registry, with their component types. -/
def exAll : List (Entity × Group) := [(exE4, [exC]), (exE1, [exC, exA, exB]), (exE2, [exA])]

set_option maxRecDepth 100000 in
/-- C112: the hypotheses hold for all the entities of the example registry and another registry with live entities. -/
example : Reachable exWorld exR ∧ Steps exEnv (Call.Admissible exWorld) Registry.default (exOther'.zip exOtherOuts) exOtherR ∧
    Roomy exWorld (exOther'.zip exOtherOuts) exAll.length ∧ (exAll.map (fun x => x.1)).Nodup ∧
    (∀ x ∈ exAll, (∀ c ∈ x.2, exWorld.Has c) ∧ (x.2.descriptor exEnv).isValid = true ∧ HasExactly exWorld exR x.1 x.2) ∧
    exR.iterEntities exEnv = [exE1, exE2, exE4] := by
  refine ⟨exReachable, exOtherSteps, ⟨.inl (by decide +kernel), by decide +kernel⟩, by decide +kernel, ?_, by decide +kernel⟩
  have h : ∀ x ∈ exAll, (∀ c ∈ x.2, c ∈ [exA, exB, exC]) ∧ (x.2.descriptor exEnv).isValid = true ∧
      x.1 ∈ exR.iterEntities exEnv ∧ ∀ c ∈ [exA, exB, exC], exR.hasComponent exEnv c x.1 = .ok true ↔ c ∈ x.2 := by
    decide +kernel
  exact fun x hx => h x hx

set_option maxRecDepth 100000 in
/-- C112: the transfer, computed: the entities arrive under other handles, and the example registry is empty. -/
example : okOr none ((transferAll exEnv exR exOtherR exAll).map (fun x => x.map (fun y => (y.1.iterEntities exEnv, y.2.2,
      y.2.2.map (fun e => (okOr none (y.2.1.getComponent exEnv exA e), okOr none (y.2.1.getComponent exEnv exC e))))))) =
    some ([], [Entity.newUnchecked 1 0, Entity.newUnchecked 2 0, Entity.newUnchecked 3 0],
      [(none, some exValC), (some exValA, some exValC), (some exValA', none)]) := by decide +kernel

end Shard
