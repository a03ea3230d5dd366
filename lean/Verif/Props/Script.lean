import Verif.Spec.Script
import Verif.Props.Locality
/-!
# C109: code that keeps to its own entities behaves the same in every registry
-/

set_option autoImplicit false

namespace Shard.Script

open Shard

variable {env : Env} {W : World env} {r r' r₁ r₂ : Registry} {cs cs₁ cs₂ : List Content} {e₁ e₂ : Entity}

theorem Action.about (a : Action) (e : Entity) : (a.call e).about = some e := by cases a <;> rfl

theorem SameAs.symm (h : SameAs W r₁ e₁ r₂ e₂) : SameAs W r₂ e₂ r₁ e₁ :=
  ⟨h.1.symm, fun c hc => ⟨(h.2 c hc).1.symm, (h.2 c hc).2.symm⟩⟩

theorem SameAs.look (h₁ : RInv W r₁ cs₁) (h₂ : RInv W r₂ cs₂) (h : SameAs W r₁ e₁ r₂ e₂) :
    r₂.look env cs₂ e₂ = r₁.look env cs₁ e₁ := by
  have hl := h.1
  rw [h₁.live_iff, h₂.live_iff] at hl
  cases hx : r₁.look env cs₁ e₁ with
  | none =>
    cases hy : r₂.look env cs₂ e₂ with
    | none => rfl
    | some f =>
      obtain ⟨g, hg⟩ := hl.mp ⟨f, hy⟩
      rw [hx] at hg; cases hg
  | some f =>
    obtain ⟨g, hy⟩ := hl.mpr ⟨f, hx⟩
    rw [hy]
    congr 1
    funext c
    by_cases hc : W.Has c
    · have := (h.2 c hc).2
      rw [h₁.getComponent_eq hc, h₂.getComponent_eq hc, hx, hy] at this
      injection this
    · cases hf : f c with
      | some v => exact absurd (h₁.has_of_look hx (by rw [hf]; rfl)) hc
      | none =>
        cases hg : g c with
        | some v => exact absurd (h₂.has_of_look hy (by rw [hg]; rfl)) hc
        | none => rfl

theorem sameAs_of_look (h₁ : RInv W r₁ cs₁) (h₂ : RInv W r₂ cs₂)
    (h : r₂.look env cs₂ e₂ = r₁.look env cs₁ e₁) : SameAs W r₁ e₁ r₂ e₂ := by
  refine ⟨by rw [h₁.live_iff, h₂.live_iff, h], fun c hc => ⟨?_, ?_⟩⟩
  · rw [h₁.hasComponent_eq hc, h₂.hasComponent_eq hc, h]
  · rw [h₁.getComponent_eq hc, h₂.getComponent_eq hc, h]

theorem SameAs.hasId (h : SameAs W r₁ e₁ r₂ e₂) (i : UInt16) : HasId W r₂ e₂ i ↔ HasId W r₁ e₁ i := by
  constructor <;> rintro ⟨c, h1, h2, h3⟩
  · exact ⟨c, h1, h2, by rw [← (h.2 c h1).1]; exact h3⟩
  · exact ⟨c, h1, h2, by rw [(h.2 c h1).1]; exact h3⟩

/-- Whether an action is disciplined depends on the answers about its entity alone. -/
theorem disciplined_same {a : Action} (hd : (a.call e₁).Disciplined W r₁) (h : SameAs W r₁ e₁ r₂ e₂) :
    (a.call e₂).Disciplined W r₂ := by
  obtain ⟨h1, h2⟩ := hd
  cases a with
  | destroy => exact ⟨trivial, trivial⟩
  | removeEntity g =>
    refine ⟨trivial, fun hl => ?_⟩
    obtain ⟨q1, q2, q3, q4⟩ := h2 (h.1.mp hl)
    exact ⟨q1, q2, hl, fun c hc => by rw [(h.2 c hc).1]; exact q4 c hc⟩
  | add c v =>
    refine ⟨⟨h1.1, h1.2.1, fun hl s hs => h1.2.2 (h.1.mp hl) s (hs.congr (fun i => ?_))⟩, trivial⟩
    rw [h.hasId]
  | remove c =>
    refine ⟨⟨h1.1, fun hl s hne hs => h1.2 (h.1.mp hl) s hne (hs.congr (fun i => ?_))⟩, trivial⟩
    rw [h.hasId]
  | write c v => exact ⟨h1, trivial⟩
  | writeIn g j v => exact ⟨h1, trivial⟩

/-- The abstract effect of an action is a function of what its entity has. -/
theorem step_same {a a' b b' : AMap} {act : Action} {o p : Outcome} (hab : b e₂ = a e₁)
    (h : AMap.Step env a (act.call e₁) o a') (h' : AMap.Step env b (act.call e₂) p b')
    (hs : Shape (act.call e₁) o) (hs' : Shape (act.call e₂) p)
    (hd : AMap.Drops a (act.call e₁) o) (hd' : AMap.Drops b (act.call e₂) p)
    (hm : ∀ g, act = .removeEntity g → ∀ f, a e₁ = some f → (g.descriptor env).isValid = true ∧ ∀ c, (f c).isSome ↔ c ∈ g)
    (hk : (∃ c v, act = .add c v) ∨ (∃ c, act = .remove c) → o.success = p.success) :
    SameReport o p ∧ b' e₂ = a' e₁ := by
  have hself : ∀ (m : AMap) e x, AMap.set m e x e = x := fun m e x => if_pos rfl
  cases act with
  | destroy =>
    simp only [Action.call, AMap.Step, AMap.Drops, Shape] at h h' hs hs' hd hd'
    rw [hab] at h' hd'
    obtain ⟨s1, s2, s3, s4⟩ := hs
    obtain ⟨t1, t2, t3, t4⟩ := hs'
    cases hx : a e₁ with
    | none =>
      rw [hx] at h h' hd hd'
      refine ⟨⟨h.1.trans h'.1.symm, by rw [s1, t1], ?_, s3.trans t3.symm, s4.trans t4.symm, ?_⟩, ?_⟩
      · rw [s2, t2, h.1, h'.1]; rfl
      · rw [hd, hd']
      · rw [h.2, h'.2, hab]
    | some f =>
      rw [hx] at h h' hd hd'
      refine ⟨⟨h.1.trans h'.1.symm, by rw [s1, t1], ?_, s3.trans t3.symm, s4.trans t4.symm, hd.perm hd'⟩, ?_⟩
      · rw [s2, t2, h.1, h'.1]; rfl
      · rw [h.2, h'.2, hself, hself]
  | removeEntity g =>
    simp only [Action.call, AMap.Step, AMap.Drops, Shape] at h h' hs hs' hd hd'
    rw [hab] at h'
    obtain ⟨s1, s2, s3, s4⟩ := hs
    obtain ⟨t1, t2, t3, t4⟩ := hs'
    cases hx : a e₁ with
    | none =>
      rw [hx] at h h'
      refine ⟨⟨h.1.trans h'.1.symm, by rw [s1, t1], ?_, s3.trans t3.symm, ?_, ?_⟩, ?_⟩
      · rw [s2, t2, h.1, h'.1]; rfl
      · rw [s4 h.1, t4 h'.1]
      · rw [hd, hd']
      · rw [h.2, h'.2, hab]
    | some f =>
      rw [hx] at h h'
      obtain ⟨m1, m2⟩ := hm g rfl f hx
      refine ⟨⟨h.1.trans h'.1.symm, by rw [s1, t1], ?_, s3.trans t3.symm, ?_, ?_⟩, ?_⟩
      · rw [s2, t2, h.1, h'.1]; rfl
      · have := (h.2.2 m1 m2).trans (h'.2.2 m1 m2).symm
        exact (List.map_inj_right (fun x y hxy => Option.some.inj hxy)).mp this
      · rw [hd, hd']
      · rw [h.2.1, h'.2.1, hself, hself]
  | add c v =>
    have hk := hk (.inl ⟨c, v, rfl⟩)
    simp only [Action.call, AMap.Step, AMap.Drops, Shape] at h h' hs hs' hd hd'
    rw [hab] at h'
    obtain ⟨s1, s2, s3, s4⟩ := hs
    obtain ⟨t1, t2, t3, t4⟩ := hs'
    have key : o.returned = p.returned → b' e₂ = a' e₁ → SameReport o p ∧ b' e₂ = a' e₁ := fun k1 k2 =>
      ⟨⟨hk, by rw [s1, t1], by rw [s2, t2], s3.trans t3.symm, k1, by rw [hd, hd']⟩, k2⟩
    cases hx : a e₁ with
    | none =>
      rw [hx] at h h'
      exact key (h.2.1.trans h'.2.1.symm) (by rw [h.2.2, h'.2.2, hab])
    | some f =>
      rw [hx] at h h'
      rcases h with ⟨q1, q2, q3⟩ | ⟨q1, q2, q3⟩ <;> rcases h' with ⟨u1, u2, u3⟩ | ⟨u1, u2, u3⟩
      · exact key (by rw [s4 q1, t4 u1]) (by rw [q3, u3, hself, hself])
      · rw [hk, u1] at q1; cases q1
      · rw [hk, u1] at q1; cases q1
      · exact key (q2.trans u2.symm) (by rw [q3, u3, hab])
  | remove c =>
    have hk := hk (.inr ⟨c, rfl⟩)
    simp only [Action.call, AMap.Step, AMap.Drops, Shape] at h h' hs hs' hd hd'
    rw [hab] at h'
    obtain ⟨s1, s2, s3, s4⟩ := hs
    obtain ⟨t1, t2, t3, t4⟩ := hs'
    have key : o.returned = p.returned → b' e₂ = a' e₁ → SameReport o p ∧ b' e₂ = a' e₁ := fun k1 k2 =>
      ⟨⟨hk, by rw [s1, t1], by rw [s2, t2], s3.trans t3.symm, k1, by rw [hd, hd']⟩, k2⟩
    cases hx : a e₁ with
    | none =>
      rw [hx] at h h'
      exact key (by rw [s4 h.1, t4 h'.1]) (by rw [h.2, h'.2, hab])
    | some f =>
      rw [hx] at h h'
      rcases h with ⟨q1, v, q2, _, q4, q5⟩ | ⟨q1, q3⟩ <;> rcases h' with ⟨u1, w, u2, _, u4, u5⟩ | ⟨u1, u3⟩
      · rw [q2] at u2; cases u2
        exact key (q4.trans u4.symm) (by rw [q5, u5, hself, hself])
      · rw [hk, u1] at q1; cases q1
      · rw [hk, u1] at q1; cases q1
      · exact key (by rw [s4 q1, t4 u1]) (by rw [q3, u3, hab])
  | write c v =>
    simp only [Action.call, AMap.Step, AMap.Drops, Shape, AMap.Replaced] at h h' hs hs' hd hd'
    rw [hab] at h'
    obtain ⟨s1, s2, s3⟩ := hs
    obtain ⟨t1, t2, t3⟩ := hs'
    have key : o.success = p.success → o.returned = p.returned → b' e₂ = a' e₁ → SameReport o p ∧ b' e₂ = a' e₁ :=
      fun k0 k1 k2 => ⟨⟨k0, by rw [s1, t1], by rw [s2, t2], s3.trans t3.symm, k1, by rw [hd, hd']⟩, k2⟩
    rcases h with ⟨q1, old, q2, f, q3, q4, q5⟩ | ⟨q1, q2, q3, q4⟩ <;>
      rcases h' with ⟨u1, old', u2, f', u3, u4, u5⟩ | ⟨u1, u2, u3, u4⟩
    · rw [q3] at u3; cases u3
      rw [q4] at u4; cases u4
      exact key (q1.trans u1.symm) (q2.trans u2.symm) (by rw [q5, u5, hself, hself])
    · rw [q3] at u3
      simp only [Option.bind_some] at u3
      rw [q4] at u3; cases u3
    · rw [u3] at q3
      simp only [Option.bind_some] at q3
      rw [u4] at q3; cases q3
    · exact key (q1.trans u1.symm) (q2.trans u2.symm) (by rw [q4, u4, hab])
  | writeIn g j v =>
    simp only [Action.call, AMap.Step, AMap.Drops, Shape, AMap.Replaced, AMap.HasAll] at h h' hs hs' hd hd'
    rw [hab] at h'
    obtain ⟨s1, s2, s3⟩ := hs
    obtain ⟨t1, t2, t3⟩ := hs'
    have key : o.success = p.success → o.returned = p.returned → b' e₂ = a' e₁ → SameReport o p ∧ b' e₂ = a' e₁ :=
      fun k0 k1 k2 => ⟨⟨k0, by rw [s1, t1], by rw [s2, t2], s3.trans t3.symm, k1, by rw [hd, hd']⟩, k2⟩
    rcases h with ⟨q1, q0, c, old, qc, q2, f, q3, q4, q5⟩ | ⟨q1, q2, q3, q4⟩ <;>
      rcases h' with ⟨u1, u0, c', old', uc, u2, f', u3, u4, u5⟩ | ⟨u1, u2, u3, u4⟩
    · rw [q3] at u3; cases u3
      rw [qc] at uc; cases uc
      rw [q4] at u4; cases u4
      exact key (q1.trans u1.symm) (q2.trans u2.symm) (by rw [q5, u5, hself, hself])
    · rw [u3 q0] at qc; cases qc
    · rw [q3 u0] at uc; cases uc
    · exact key (q1.trans u1.symm) (q2.trans u2.symm) (by rw [q4, u4, hab])

/-- `add_component` ends the same way for entities that have the same components. -/
theorem add_alike {hist₁ hist₂ : List (Call × Outcome)} (h₁ : OrdinaryRun W hist₁ r₁) (h₂ : OrdinaryRun W hist₂ r₂)
    {c : CompTy} {v : Val} (h : SameAs W r₁ e₁ r₂ e₂) (hd : (Call.add e₁ c v).Disciplined W r₁) :
    (∃ f, (Call.add e₁ c v).run env r₁ = .error f ∧ (Call.add e₂ c v).run env r₂ = .error f) ∨
    ∃ r₁' o₁ r₂' o₂, (Call.add e₁ c v).run env r₁ = .ok (r₁', o₁) ∧ (Call.add e₂ c v).run env r₂ = .ok (r₂', o₂) ∧
      o₁.success = o₂.success := by
  have hd₂ : (Call.add e₂ c v).Disciplined W r₂ := disciplined_same (a := .add c v) hd h
  obtain ⟨cs₁, i₁⟩ := h₁.1.inv (fun _ _ h => h) (RInv.empty W)
  obtain ⟨cs₂, i₂⟩ := h₂.1.inv (fun _ _ h => h) (RInv.empty W)
  have hlook := h.look i₁ i₂
  have hc : W.Has c := hd.1.1
  have fails : ∀ {r : Registry} {cs : List Content} {e : Entity} (i : RInv W r cs), (Call.add e c v).Disciplined W r →
      (∀ f, r.look env cs e = some f → (f c).isSome) →
      ∃ r' o, (Call.add e c v).run env r = .ok (r', o) ∧ o.success = false := by
    intro r cs e i hd hf
    rcases i.add_step hd.1 with ⟨r', o, cs', q1, q2, _, _⟩ | ⟨flt, q1, f, s, q2, q3, _⟩
    · refine ⟨r', o, q1, ?_⟩
      have hst := q2.abs
      simp only [AMap.Step] at hst
      cases hx : r.look env cs e with
      | none => rw [hx] at hst; exact hst.1
      | some f =>
        rw [hx] at hst
        rcases hst with ⟨_, u, _⟩ | ⟨u, _⟩
        · have := hf f hx; rw [u] at this; cases this
        · exact u
    · have := hf f q2; rw [q3] at this; cases this
  by_cases hp : ∀ f, r₁.look env cs₁ e₁ = some f → (f c).isSome
  · obtain ⟨a1, o1, q1, q2⟩ := fails i₁ hd hp
    obtain ⟨a2, o2, u1, u2⟩ := fails i₂ hd₂ (by rw [hlook]; exact hp)
    exact .inr ⟨a1, o1, a2, o2, q1, u1, by rw [q2, u2]⟩
  · have hp : ∃ f, r₁.look env cs₁ e₁ = some f ∧ f c = none := by
      cases hx : r₁.look env cs₁ e₁ with
      | none => exact absurd (fun f hf => by rw [hx] at hf; cases hf) hp
      | some f =>
        refine ⟨f, rfl, ?_⟩
        cases hfc : f c with
        | none => rfl
        | some w => exact absurd (fun f' hf => by rw [hx] at hf; cases hf; rw [hfc]; rfl) hp
    obtain ⟨f, hf, hfc⟩ := hp
    have hl : Live env r₁ e₁ := i₁.live_iff.mpr ⟨f, hf⟩
    have hn : r₁.hasComponent env c e₁ = .ok false := by
      rw [i₁.hasComponent_eq hc, hf]; simp [hfc]
    obtain ⟨s, hs, _⟩ := i₁.ascSet hl
    obtain ⟨t, ht, _⟩ := withId hc hn hs
    have ht₂ : AscSet t (WithId W r₂ e₂ c) := ht.congr (fun i => by unfold WithId; rw [h.hasId])
    obtain ⟨a1, a2, a3, a4⟩ := (C75_ordinary_programs h₁.1 h₁.2.1 h₁.2.2).2.1 e₁ c v t hd.1 hl hn ht
    obtain ⟨b1, b2, b3, b4⟩ := (C75_ordinary_programs h₂.1 h₂.2.1 h₂.2.2).2.1 e₂ c v t hd₂.1 (h.1.mpr hl)
      ((h.2 c hc).1.trans hn) ht₂
    by_cases k1 : t.length ≤ 13
    · by_cases k2 : plainId env t = ARCHETYPE_ID_INVALID
      · exact .inr ⟨_, _, _, _, run_add_err (a2 k1 k2), run_add_err (b2 k1 k2), rfl⟩
      · obtain ⟨x, hx⟩ := a1 k1 k2
        obtain ⟨y, hy⟩ := b1 k1 k2
        exact .inr ⟨_, _, _, _, run_add_ok hx, run_add_ok hy, rfl⟩
    · by_cases k2 : t.length = 14
      · refine .inl ⟨.panic .indexOutOfBounds, ?_, ?_⟩
        · simp only [Call.run, a3 k2]; rfl
        · simp only [Call.run, b3 k2]; rfl
      · exact .inr ⟨_, _, _, _, run_add_err (a4 (by omega)), run_add_err (b4 (by omega)), rfl⟩

/-- `remove_component` ends the same way for entities that have the same components. -/
theorem remove_alike {hist₁ hist₂ : List (Call × Outcome)} (h₁ : OrdinaryRun W hist₁ r₁) (h₂ : OrdinaryRun W hist₂ r₂)
    {c : CompTy} (h : SameAs W r₁ e₁ r₂ e₂) (hd : (Call.remove e₁ c).Disciplined W r₁) :
    (∃ f, (Call.remove e₁ c).run env r₁ = .error f ∧ (Call.remove e₂ c).run env r₂ = .error f) ∨
    ∃ r₁' o₁ r₂' o₂, (Call.remove e₁ c).run env r₁ = .ok (r₁', o₁) ∧ (Call.remove e₂ c).run env r₂ = .ok (r₂', o₂) ∧
      o₁.success = o₂.success := by
  have hd₂ : (Call.remove e₂ c).Disciplined W r₂ := disciplined_same (a := .remove c) hd h
  obtain ⟨cs₁, i₁⟩ := h₁.1.inv (fun _ _ h => h) (RInv.empty W)
  obtain ⟨cs₂, i₂⟩ := h₂.1.inv (fun _ _ h => h) (RInv.empty W)
  have hlook := h.look i₁ i₂
  have hc : W.Has c := hd.1.1
  have fails : ∀ {r : Registry} {cs : List Content} {e : Entity} (i : RInv W r cs), (Call.remove e c).Disciplined W r →
      (∀ f, r.look env cs e = some f → f c = none) →
      ∃ r' o, (Call.remove e c).run env r = .ok (r', o) ∧ o.success = false := by
    intro r cs e i hd hf
    rcases i.remove_step hd.1 with ⟨r', o, cs', q1, q2, _, _⟩ | ⟨flt, q1, f, s, q2, q3, _⟩
    · refine ⟨r', o, q1, ?_⟩
      have hst := q2.abs
      simp only [AMap.Step] at hst
      cases hx : r.look env cs e with
      | none => rw [hx] at hst; exact hst.1
      | some f =>
        rw [hx] at hst
        rcases hst with ⟨_, v, u, _⟩ | ⟨u, _⟩
        · have := hf f hx; rw [u] at this; cases this
        · exact u
    · have := hf f q2; rw [this] at q3; cases q3
  by_cases hp : ∀ f, r₁.look env cs₁ e₁ = some f → f c = none
  · obtain ⟨a1, o1, q1, q2⟩ := fails i₁ hd hp
    obtain ⟨a2, o2, u1, u2⟩ := fails i₂ hd₂ (by rw [hlook]; exact hp)
    exact .inr ⟨a1, o1, a2, o2, q1, u1, by rw [q2, u2]⟩
  · have hp : ∃ f, r₁.look env cs₁ e₁ = some f ∧ (f c).isSome := by
      cases hx : r₁.look env cs₁ e₁ with
      | none => exact absurd (fun f hf => by rw [hx] at hf; cases hf) hp
      | some f =>
        refine ⟨f, rfl, ?_⟩
        cases hfc : f c with
        | some w => rfl
        | none => exact absurd (fun f' hf => by rw [hx] at hf; cases hf; exact hfc) hp
    obtain ⟨f, hf, hfc⟩ := hp
    have hl : Live env r₁ e₁ := i₁.live_iff.mpr ⟨f, hf⟩
    have hy : r₁.hasComponent env c e₁ = .ok true := (i₁.has_iff hf hc).mpr hfc
    obtain ⟨s, hs, _⟩ := i₁.ascSet hl
    obtain ⟨t, ht, _⟩ := withoutId hc hy hs
    have ht₂ : AscSet t (WithoutId W r₂ e₂ c) := ht.congr (fun i => by unfold WithoutId; rw [h.hasId])
    obtain ⟨a1, a2, a3, a4⟩ := (C75_ordinary_programs h₁.1 h₁.2.1 h₁.2.2).2.2.1 e₁ c t hd.1 hy ht
    obtain ⟨b1, b2, b3, b4⟩ := (C75_ordinary_programs h₂.1 h₂.2.1 h₂.2.2).2.2.1 e₂ c t hd₂.1 ((h.2 c hc).1.trans hy) ht₂
    by_cases k0 : t.length = 0
    · exact .inr ⟨_, _, _, _, run_remove_err (a1 k0), run_remove_err (b1 k0), rfl⟩
    by_cases k1 : t.length ≤ 12
    · by_cases k2 : plainId env t = ARCHETYPE_ID_INVALID
      · exact .inr ⟨_, _, _, _, run_remove_err (a3 (by omega) k1 k2), run_remove_err (b3 (by omega) k1 k2), rfl⟩
      · obtain ⟨x, w, hx⟩ := a2 (by omega) k1 k2
        obtain ⟨y, w', hy⟩ := b2 (by omega) k1 k2
        exact .inr ⟨_, _, _, _, run_remove_ok hx, run_remove_ok hy, rfl⟩
    · refine .inl ⟨.panic .indexOutOfBounds, ?_, ?_⟩
      · simp only [Call.run, a4 (by omega)]; rfl
      · simp only [Call.run, b4 (by omega)]; rfl

/-- **C109** (handles are opaque) Take two entities in two ordinary programs, under whatever handles, about which the
registries give the same answers. The same action on them ends the same way: with the same fault, or with the same
report, and then the registries again give the same answers about them. -/
theorem C109_opaque {hist₁ hist₂ : List (Call × Outcome)} (h₁ : OrdinaryRun W hist₁ r₁) (h₂ : OrdinaryRun W hist₂ r₂)
    {a : Action} (h : SameAs W r₁ e₁ r₂ e₂) (hd : (a.call e₁).Disciplined W r₁) :
    (∃ f, (a.call e₁).run env r₁ = .error f ∧ (a.call e₂).run env r₂ = .error f) ∨
    ∃ r₁' o₁ r₂' o₂, (a.call e₁).run env r₁ = .ok (r₁', o₁) ∧ (a.call e₂).run env r₂ = .ok (r₂', o₂) ∧
      SameReport o₁ o₂ ∧ SameAs W r₁' e₁ r₂' e₂ := by
  have hd₂ := disciplined_same hd h
  obtain ⟨cs₁, i₁⟩ := h₁.1.inv (fun _ _ h => h) (RInv.empty W)
  obtain ⟨cs₂, i₂⟩ := h₂.1.inv (fun _ _ h => h) (RInv.empty W)
  have hlook := h.look i₁ i₂
  have runs : (∃ f, (a.call e₁).run env r₁ = .error f ∧ (a.call e₂).run env r₂ = .error f) ∨
      ∃ r₁' o₁ r₂' o₂, (a.call e₁).run env r₁ = .ok (r₁', o₁) ∧ (a.call e₂).run env r₂ = .ok (r₂', o₂) ∧
        ((∃ c v, a = .add c v) ∨ (∃ c, a = .remove c) → o₁.success = o₂.success) := by
    have easy : (∀ e r, (a.call e).WithinLimits W r) → (¬ ∃ c v, a = .add c v) → (¬ ∃ c, a = .remove c) →
        ∃ r₁' o₁ r₂' o₂, (a.call e₁).run env r₁ = .ok (r₁', o₁) ∧ (a.call e₂).run env r₂ = .ok (r₂', o₂) ∧
        ((∃ c v, a = .add c v) ∨ (∃ c, a = .remove c) → o₁.success = o₂.success) := by
      intro hl n1 n2
      obtain ⟨x, o, q⟩ := i₁.call_safe hd (hl _ _)
      obtain ⟨y, p, u⟩ := i₂.call_safe hd₂ (hl _ _)
      exact ⟨x, o, y, p, q, u, fun hx => (hx.elim n1 n2).elim⟩
    cases a with
    | destroy => exact .inr (easy (fun _ _ => trivial) (by rintro ⟨_, _, h⟩; cases h) (by rintro ⟨_, h⟩; cases h))
    | removeEntity g => exact .inr (easy (fun _ _ => trivial) (by rintro ⟨_, _, h⟩; cases h) (by rintro ⟨_, h⟩; cases h))
    | write c v => exact .inr (easy (fun _ _ => trivial) (by rintro ⟨_, _, h⟩; cases h) (by rintro ⟨_, h⟩; cases h))
    | writeIn g j v => exact .inr (easy (fun _ _ => trivial) (by rintro ⟨_, _, h⟩; cases h) (by rintro ⟨_, h⟩; cases h))
    | add c v =>
      rcases add_alike h₁ h₂ h hd with hx | ⟨a, o, b, p, q1, q2, q3⟩
      · exact .inl hx
      · exact .inr ⟨a, o, b, p, q1, q2, fun _ => q3⟩
    | remove c =>
      rcases remove_alike h₁ h₂ h hd with hx | ⟨a, o, b, p, q1, q2, q3⟩
      · exact .inl hx
      · exact .inr ⟨a, o, b, p, q1, q2, fun _ => q3⟩
  rcases runs with hx | ⟨x, o, y, p, q1, q2, q3⟩
  · exact .inl hx
  · obtain ⟨cs₁', st₁⟩ := i₁.step hd.1 q1
    obtain ⟨cs₂', st₂⟩ := i₂.step hd₂.1 q2
    have := step_same hlook st₁.abs st₂.abs (run_shape (a.about e₁) q1) (run_shape (a.about e₂) q2) (i₁.drops q1)
      (i₂.drops q2) (by
        intro g hg f hf
        subst hg
        obtain ⟨m1, m2, m3⟩ := hd.2 (i₁.live_iff.mpr ⟨f, hf⟩)
        exact ⟨m2, (i₁.hasExactly_iff hf m1).mp m3⟩) q3
    exact .inr ⟨x, o, y, p, q1, q2, this.1, sameAs_of_look st₁.inv st₂.inv this.2⟩

/-- A new entity looks the same in both registries. -/
theorem create_alike {hist₁ hist₂ : List (Call × Outcome)} (h₁ : OrdinaryRun W hist₁ r₁) (h₂ : OrdinaryRun W hist₂ r₂)
    {g : Group} {vals : List Val} (hd : (Call.create g vals).Disciplined W r₁) :
    ∃ r₁' o₁ r₂' o₂, (Call.create g vals).run env r₁ = .ok (r₁', o₁) ∧ (Call.create g vals).run env r₂ = .ok (r₂', o₂) ∧
      SameReport o₁ o₂ ∧ ∀ e₁ e₂, o₁.created = some e₁ → o₂.created = some e₂ → SameAs W r₁' e₁ r₂' e₂ := by
  have hadm₂ : (Call.create g vals).Admissible W r₂ := hd.1
  cases hv : (g.descriptor env).isValid with
  | false =>
    exact ⟨_, _, _, _, run_create_err (createEntity_invalid hv), run_create_err (createEntity_invalid hv),
      ⟨rfl, rfl, rfl, rfl, rfl, .nil⟩, fun e₁ e₂ h => by cases h⟩
  | true =>
    obtain ⟨x, a, hx⟩ := (C75_ordinary_programs h₁.1 h₁.2.1 h₁.2.2).1 g vals hd.1 hv
    obtain ⟨y, b, hy⟩ := (C75_ordinary_programs h₂.1 h₂.2.1 h₂.2.2).1 g vals hadm₂ hv
    refine ⟨_, _, _, _, run_create_ok hx, run_create_ok hy, ⟨rfl, rfl, rfl, rfl, rfl, .nil⟩, fun e₁ e₂ k₁ k₂ => ?_⟩
    cases k₁; cases k₂
    obtain ⟨cs₁, i₁⟩ := h₁.1.inv (fun _ _ h => h) (RInv.empty W)
    obtain ⟨cs₂, i₂⟩ := h₂.1.inv (fun _ _ h => h) (RInv.empty W)
    obtain ⟨cs₁', st₁⟩ := i₁.step hd.1 (run_create_ok hx)
    obtain ⟨cs₂', st₂⟩ := i₂.step hadm₂ (run_create_ok hy)
    have key : ∀ {m m' : AMap} {e : Entity},
        AMap.Step env m (.create g vals) { success := true, created := some e, given := vals } m' →
        m' e = some (lookupTy g vals) := by
      intro m m' e h
      rcases h with ⟨_, e', he, _, h⟩ | ⟨h, _⟩
      · cases he; rw [h]; exact if_pos rfl
      · cases h
    exact sameAs_of_look st₁.inv st₂.inv (by rw [key st₁.abs, key st₂.abs])

/-- What `create_entity` does to the entities: the new handle was not live, and every other entity stays as it was. -/
theorem create_frame (hr : Reachable W r) {g : Group} {vals : List Val} (hd : (Call.create g vals).Disciplined W r)
    {o : Outcome} (hrun : (Call.create g vals).run env r = .ok (r', o)) :
    (∀ x, o.created ≠ some x → SameEntity W r r' x) ∧
    ∀ e, o.created = some e → ¬ Live env r e ∧ Live env r' e := by
  obtain ⟨cs, i⟩ := hr.inv
  obtain ⟨cs', st⟩ := i.step hd.1 hrun
  rcases st.abs with ⟨_, e, he, hn, h⟩ | ⟨hs, _, h⟩
  · refine ⟨fun x hx => same_of_look i st.inv ?_, fun e' he' => ?_⟩
    · rw [h]; exact if_neg (fun hxe => hx (by rw [he, hxe]))
    · rw [he] at he'; cases he'
      refine ⟨fun hl => ?_, st.inv.live_iff.mpr ⟨lookupTy g vals, by rw [h]; exact if_pos rfl⟩⟩
      obtain ⟨f, hf⟩ := i.live_iff.mp hl
      rw [hn] at hf; cases hf
  · refine ⟨fun x _ => same_of_look i st.inv (by rw [h]), fun e he => ?_⟩
    exfalso
    simp only [Call.run] at hrun
    cases hx : r.createEntity env g vals with
    | error f => rw [hx] at hrun; cases hrun
    | ok y =>
      obtain ⟨y1, y2⟩ := y
      rw [hx] at hrun
      cases y2 with
      | ok a => cases hrun; cases hs
      | err a => cases hrun; cases he

/-- An action that does not report its entity as ended leaves it alive. -/
theorem action_keeps (hr : Reachable W r) {a : Action} {e : Entity} (hd : (a.call e).Disciplined W r) (hl : Live env r e)
    {o : Outcome} (hrun : (a.call e).run env r = .ok (r', o)) (hv : o.vacated = none) : Live env r' e := by
  obtain ⟨cs, i⟩ := hr.inv
  obtain ⟨cs', st⟩ := i.step hd.1 hrun
  obtain ⟨f, hf⟩ := i.live_iff.mp hl
  have hself : ∀ (m : AMap) e x, AMap.set m e x e = x := fun m e x => if_pos rfl
  have hs := run_shape (a.about e) hrun
  have h := st.abs
  refine st.inv.live_iff.mpr ?_
  cases a with
  | destroy =>
    simp only [Action.call, AMap.Step, Shape, hf] at h hs
    rw [hs.2.1, h.1] at hv; cases hv
  | removeEntity g =>
    simp only [Action.call, AMap.Step, Shape, hf] at h hs
    rw [hs.2.1, h.1] at hv; cases hv
  | add c v =>
    simp only [Action.call, AMap.Step, hf] at h
    rcases h with ⟨_, _, h⟩ | ⟨_, _, h⟩
    · exact ⟨_, by rw [h, hself]⟩
    · exact ⟨f, by rw [h, hf]⟩
  | remove c =>
    simp only [Action.call, AMap.Step, hf] at h
    rcases h with ⟨_, _, _, _, _, h⟩ | ⟨_, h⟩
    · exact ⟨_, by rw [h, hself]⟩
    · exact ⟨f, by rw [h, hf]⟩
  | write c v =>
    simp only [Action.call, AMap.Step, AMap.Replaced] at h
    rcases h with ⟨_, _, _, _, _, _, h⟩ | ⟨_, _, _, h⟩
    · exact ⟨_, by rw [h, hself]⟩
    · exact ⟨f, by rw [h, hf]⟩
  | writeIn g j v =>
    simp only [Action.call, AMap.Step, AMap.Replaced] at h
    rcases h with ⟨_, _, _, _, _, _, _, _, _, h⟩ | ⟨_, _, _, h⟩
    · exact ⟨_, by rw [h, hself]⟩
    · exact ⟨f, by rw [h, hf]⟩

theorem liveCount_le (h : List (Call × Outcome)) : (liveCount h).1 ≤ (liveCount h).2 := by
  unfold liveCount
  suffices hx : ∀ (l : List (Call × Outcome)) (s : Nat × Nat), s.1 ≤ s.2 →
      (l.foldl (fun s x =>
        match x.2.created, x.2.vacated with
        | some _, _ => (s.1 + 1, max s.2 (s.1 + 1))
        | none, some _ => (s.1 - 1, s.2)
        | none, none => s) s).1 ≤ (l.foldl (fun s x =>
        match x.2.created, x.2.vacated with
        | some _, _ => (s.1 + 1, max s.2 (s.1 + 1))
        | none, some _ => (s.1 - 1, s.2)
        | none, none => s) s).2 from hx h (0, 0) (Nat.le_refl _)
  intro l
  induction l with
  | nil => intro s hs; exact hs
  | cons x l ih =>
    intro s hs
    simp only [List.foldl_cons]
    refine ih _ ?_
    split <;> (try simp only) <;> omega

theorem Roomy.ordinary {hist : List (Call × Outcome)} {n : Nat} (h : Roomy W hist n)
    (hs : Steps env (Call.Admissible W) Registry.default hist r) : OrdinaryRun W hist r := by
  refine ⟨hs, ?_, by have := h.2; omega⟩
  rcases h.1 with h | h
  · exact .inl (by omega)
  · exact .inr h

theorem Roomy.snoc {hist : List (Call × Outcome)} {n : Nat} (h : Roomy W hist (n + 1)) (x : Call × Outcome) :
    Roomy W (hist ++ [x]) n := by
  refine ⟨?_, ?_⟩
  · rcases h.1 with h | h
    · refine .inl ?_
      rw [List.filter_append, List.length_append]
      have : ([x].filter (fun x => x.1.reshapes)).length ≤ 1 := List.length_filter_le _ _
      omega
    · exact .inr h
  · have h2 := h.2
    have h3 := liveCount_le hist
    rw [liveCount_snoc]
    split <;> (try simp only) <;> omega

theorem Roomy.weaken {hist : List (Call × Outcome)} {n : Nat} (h : Roomy W hist (n + 1)) : Roomy W hist n := by
  refine ⟨?_, by have := h.2; omega⟩
  rcases h.1 with h | h
  · exact .inl (by omega)
  · exact .inr h

theorem call?_on {hs : Handles} {n : Nat} {a : Action} {call : Call} (h : (Op.on n a).call? hs = some call) :
    ∃ e, hs[n]? = some (some e) ∧ call = a.call e := by
  simp only [Op.call?] at h
  split at h
  · next e he => exact ⟨e, he, (Option.some.inj h).symm⟩
  · cases h

/-- One operation: the script still owns its handles, and the live entities that are not its own stay as they were and
do not become its own. -/
theorem op_own (hr : Reachable W r) {op : Op} {hs : Handles} {call : Call} (hc : op.call? hs = some call)
    (hd : call.Disciplined W r) (ho : Own env r hs) {o : Outcome} (hrun : call.run env r = .ok (r', o)) :
    Own env r' (op.handles hs o) ∧
    ∀ x, Live env r x → (∀ n : Nat, hs[n]? ≠ some (some x)) →
      SameEntity W r r' x ∧ ∀ n : Nat, (op.handles hs o)[n]? ≠ some (some x) := by
  cases op with
  | create g vals =>
    cases hc
    obtain ⟨f1, f2⟩ := create_frame hr hd hrun
    simp only [Op.handles]
    cases he : o.created with
    | none =>
      have same : ∀ x, SameEntity W r r' x := fun x => f1 x (by rw [he]; exact fun h => by cases h)
      exact ⟨⟨fun n e hn => (same e).1.mpr (ho.1 n e hn), ho.2⟩, fun x _ hx => ⟨same x, hx⟩⟩
    | some e =>
      obtain ⟨n1, n2⟩ := f2 e he
      have same : ∀ x, x ≠ e → SameEntity W r r' x := fun x hx => f1 x (by rw [he]; exact fun h => hx (Option.some.inj h).symm)
      have get : ∀ (n : Nat) (x : Entity), (hs ++ [some e])[n]? = some (some x) →
          hs[n]? = some (some x) ∨ (n = hs.length ∧ x = e) := by
        intro n x hx
        rw [List.getElem?_append] at hx
        split at hx
        · exact .inl hx
        · next hlt =>
          have : n - hs.length = 0 := by
            cases hk : n - hs.length with
            | zero => rfl
            | succ k => rw [hk] at hx; simp at hx
          rw [this] at hx
          simp at hx
          exact .inr ⟨by omega, hx.symm⟩
      refine ⟨⟨fun n x hx => ?_, fun n m x hn hm => ?_⟩, fun x hl hx => ⟨same x (fun h => n1 (h ▸ hl)), fun n hn => ?_⟩⟩
      · rcases get n x hx with hx | ⟨_, rfl⟩
        · have hl := ho.1 n x hx
          exact (same x (fun h => n1 (h ▸ hl))).1.mpr hl
        · exact n2
      · rcases get n x hn with hn' | ⟨hn', hx⟩
        · rcases get m x hm with hm' | ⟨hm', hx⟩
          · exact ho.2 n m x hn' hm'
          · exact absurd (hx ▸ ho.1 n x hn') n1
        · rcases get m x hm with hm' | ⟨hm', _⟩
          · exact absurd (hx ▸ ho.1 m x hm') n1
          · rw [hn', hm']
      · rcases get n x hn with hn | ⟨_, rfl⟩
        · exact hx n hn
        · exact n1 hl
  | on n a =>
    obtain ⟨e, he, rfl⟩ := call?_on hc
    have hl := ho.1 n e he
    have same : ∀ x, x ≠ e → SameEntity W r r' x := fun x hx => C86_frame hr (a.about e) hx hd.1 hrun
    simp only [Op.handles]
    cases hv : o.vacated with
    | none =>
      rw [if_neg (by simp)]
      refine ⟨⟨fun m x hx => ?_, ho.2⟩, fun x _ hx => ⟨same x (fun h => hx n (h ▸ he)), hx⟩⟩
      by_cases hxe : x = e
      · rw [hxe]; exact action_keeps hr hd hl hrun hv
      · exact (same x hxe).1.mpr (ho.1 m x hx)
    | some e' =>
      rw [if_pos (by simp)]
      have get : ∀ (m : Nat) (x : Entity), (hs.set n none)[m]? = some (some x) → m ≠ n ∧ hs[m]? = some (some x) := by
        intro m x hx
        rw [List.getElem?_set] at hx
        split at hx
        · split at hx <;> cases hx
        · next hne => exact ⟨fun h => hne h.symm, hx⟩
      refine ⟨⟨fun m x hx => ?_, fun m k x hm hk => ho.2 m k x (get m x hm).2 (get k x hk).2⟩,
        fun x _ hx => ⟨same x (fun h => hx n (h ▸ he)), fun m hm => hx m (get m x hm).2⟩⟩
      obtain ⟨g1, g2⟩ := get m x hx
      exact (same x (fun h => g1 (ho.2 m n x g2 (h ▸ he)))).1.mpr (ho.1 m x g2)

/-- One operation in two registries. -/
theorem op_alike {hist₁ hist₂ : List (Call × Outcome)} (h₁ : OrdinaryRun W hist₁ r₁) (h₂ : OrdinaryRun W hist₂ r₂)
    {op : Op} {hs₁ hs₂ : Handles} (ho₁ : Own env r₁ hs₁) (ho₂ : Own env r₂ hs₂) (h : SameView W r₁ hs₁ r₂ hs₂)
    {c₁ : Call} (hc : op.call? hs₁ = some c₁) (hd : c₁.Disciplined W r₁) :
    ∃ c₂, op.call? hs₂ = some c₂ ∧ c₂.Disciplined W r₂ ∧
      ((∃ f, c₁.run env r₁ = .error f ∧ c₂.run env r₂ = .error f) ∨
       ∃ r₁' o₁ r₂' o₂, c₁.run env r₁ = .ok (r₁', o₁) ∧ c₂.run env r₂ = .ok (r₂', o₂) ∧ SameReport o₁ o₂ ∧
        SameView W r₁' (op.handles hs₁ o₁) r₂' (op.handles hs₂ o₂)) := by
  have hr₁ : Reachable W r₁ := ⟨_, h₁.1⟩
  have hr₂ : Reachable W r₂ := ⟨_, h₂.1⟩
  have trans : ∀ {r₁' r₂' : Registry} {x y : Entity}, SameEntity W r₁ r₁' x → SameEntity W r₂ r₂' y → SameAs W r₁ x r₂ y →
      SameAs W r₁' x r₂' y := fun p q s =>
    ⟨q.1.trans (s.1.trans p.1.symm), fun c hc => ⟨(q.2 c hc).1.trans ((s.2 c hc).1.trans (p.2 c hc).1.symm),
      (q.2 c hc).2.trans ((s.2 c hc).2.trans (p.2 c hc).2.symm)⟩⟩
  cases op with
  | create g vals =>
    cases hc
    refine ⟨_, rfl, ⟨hd.1, trivial⟩, .inr ?_⟩
    obtain ⟨x, o, y, p, q1, q2, q3, q4⟩ := create_alike h₁ h₂ hd
    refine ⟨x, o, y, p, q1, q2, q3, ?_⟩
    obtain ⟨f1, f2⟩ := create_frame hr₁ hd q1
    obtain ⟨g1, g2⟩ := create_frame hr₂ (r := r₂) ⟨hd.1, trivial⟩ q2
    have hcr := q3.2.1
    simp only [Op.handles]
    cases he₁ : o.created with
    | none =>
      cases he₂ : p.created with
      | some e => rw [he₁, he₂] at hcr; cases hcr
      | none =>
        refine ⟨h.1, fun n => ⟨fun e hn => ?_, (h.2 n).2⟩⟩
        obtain ⟨e', k1, k2⟩ := (h.2 n).1 e hn
        exact ⟨e', k1, trans (f1 e (by rw [he₁]; exact fun h => by cases h)) (g1 e' (by rw [he₂]; exact fun h => by cases h)) k2⟩
    | some a =>
      cases he₂ : p.created with
      | none => rw [he₁, he₂] at hcr; cases hcr
      | some b =>
        have hab := q4 a b he₁ he₂
        refine ⟨by simp [h.1], fun n => ?_⟩
        simp only [List.getElem?_append, ← h.1]
        split
        · refine ⟨fun e hn => ?_, (h.2 n).2⟩
          obtain ⟨e', k1, k2⟩ := (h.2 n).1 e hn
          refine ⟨e', k1, trans (f1 e ?_) (g1 e' ?_) k2⟩
          · intro hx; exact (f2 e hx).1 (ho₁.1 n e hn)
          · intro hx; exact (g2 e' hx).1 (ho₂.1 n e' k1)
        · cases hk : n - hs₁.length with
          | zero =>
            simp only [List.getElem?_cons_zero, Option.some.injEq]
            exact ⟨fun e hn => ⟨b, rfl, by rw [← hn]; exact hab⟩, fun e hn => ⟨a, rfl⟩⟩
          | succ k => simp
  | on n a =>
    obtain ⟨e, he, rfl⟩ := call?_on hc
    obtain ⟨e', he', hse⟩ := (h.2 n).1 e he
    refine ⟨a.call e', by simp only [Op.call?, he'], disciplined_same hd hse, ?_⟩
    rcases C109_opaque h₁ h₂ hse hd with hx | ⟨x, o, y, p, q1, q2, q3, q4⟩
    · exact .inl hx
    refine .inr ⟨x, o, y, p, q1, q2, q3, ?_⟩
    have fr : ∀ (m : Nat), m ≠ n → ∀ u, hs₁[m]? = some (some u) → ∃ u', hs₂[m]? = some (some u') ∧ SameAs W x u y u' := by
      intro m hm u hu
      obtain ⟨u', k1, k2⟩ := (h.2 m).1 u hu
      exact ⟨u', k1, trans (C86_frame hr₁ (a.about e) (x := u) (fun hh => hm (ho₁.2 m n u hu (by rw [hh]; exact he))) hd.1 q1)
        (C86_frame hr₂ (a.about e') (x := u') (fun hh => hm (ho₂.2 m n u' k1 (by rw [hh]; exact he'))) (disciplined_same hd hse).1 q2) k2⟩
    simp only [Op.handles, ← q3.2.2.1]
    split
    · refine ⟨by simp [h.1], fun m => ?_⟩
      by_cases hm : n = m
      · subst hm
        simp only [List.getElem?_set_self']
        constructor
        · intro u hu; rw [he] at hu; cases hu
        · intro u hu; rw [he'] at hu; cases hu
      · rw [List.getElem?_set_ne hm, List.getElem?_set_ne hm]
        exact ⟨fr m (fun h => hm h.symm), (h.2 m).2⟩
    · refine ⟨h.1, fun m => ⟨fun u hu => ?_, (h.2 m).2⟩⟩
      by_cases hm : m = n
      · subst hm
        rw [he] at hu; cases hu
        exact ⟨e', he', q4⟩
      · exact fr m hm u hu

theorem call?_none {op : Op} {hs₁ hs₂ : Handles} (h : SameView W r₁ hs₁ r₂ hs₂) (hc : op.call? hs₁ = none) :
    op.call? hs₂ = none := by
  cases op with
  | create g vals => cases hc
  | on n a =>
    simp only [Op.call?] at hc ⊢
    split
    · next e' he' =>
      obtain ⟨e, he⟩ := (h.2 n).2 e' he'
      rw [he] at hc; cases hc
    · rfl

/-- **C109** A script that keeps to its own entities does the same in every two ordinary programs in which it sees the
same: it ends with the same fault or with the same reports, and then sees the same again. -/
theorem C109_same_everywhere {hist₁ hist₂ : List (Call × Outcome)}
    (h₁ : Steps env (Call.Admissible W) Registry.default hist₁ r₁) (h₂ : Steps env (Call.Admissible W) Registry.default hist₂ r₂)
    (ops : List Op) (hm₁ : Roomy W hist₁ ops.length) (hm₂ : Roomy W hist₂ ops.length) {hs₁ hs₂ : Handles}
    (ho₁ : Own env r₁ hs₁) (ho₂ : Own env r₂ hs₂) (h : SameView W r₁ hs₁ r₂ hs₂) (hd : Disciplined W r₁ hs₁ ops) :
    RunsAlike W (run env r₁ hs₁ ops) (run env r₂ hs₂ ops) := by
  induction ops generalizing hist₁ hist₂ r₁ r₂ hs₁ hs₂ with
  | nil => exact ⟨rfl, (fun p hp => by cases hp), h⟩
  | cons op ops ih =>
    unfold Disciplined at hd
    unfold run
    cases hc : op.call? hs₁ with
    | none =>
      rw [hc] at hd
      rw [call?_none h hc]
      exact ih h₁ h₂ hm₁.weaken hm₂.weaken ho₁ ho₂ h hd
    | some c₁ =>
      rw [hc] at hd
      obtain ⟨c₂, hc₂, hd₂, hx⟩ := op_alike (hm₁.ordinary h₁) (hm₂.ordinary h₂) ho₁ ho₂ h hc hd.1
      rw [hc₂]
      rcases hx with ⟨f, q1, q2⟩ | ⟨x, o, y, p, q1, q2, q3, q4⟩
      · simp only [q1, q2]; exact rfl
      · simp only [q1, q2]
        have := ih (h₁.snoc hd.1.1 q1) (h₂.snoc hd₂.1 q2) (hm₁.snoc _) (hm₂.snoc _)
          (op_own ⟨_, h₁⟩ hc hd.1 ho₁ q1).1 (op_own ⟨_, h₂⟩ hc₂ hd₂ ho₂ q2).1 q4 (hd.2 _ _ q1)
        cases hu : run env x (op.handles hs₁ o) ops with
        | error f =>
          rw [hu] at this
          cases hw : run env y (op.handles hs₂ p) ops with
          | error f' => rw [hw] at this; exact this
          | ok z => rw [hw] at this; exact this.elim
        | ok z =>
          rw [hu] at this
          cases hw : run env y (op.handles hs₂ p) ops with
          | error f' => rw [hw] at this; exact this.elim
          | ok z' =>
            rw [hw] at this
            obtain ⟨t1, t2, t3⟩ := this
            refine ⟨by simp [t1], fun q hq => ?_, t3⟩
            rw [List.zip_cons_cons, List.mem_cons] at hq
            rcases hq with rfl | hq
            · exact q3
            · exact t2 q hq

/-- **C109** (anywhere) In particular a script does in every ordinary registry, whatever has happened to it and whatever
entities it holds, what it does in a new registry. -/
theorem C109_as_in_a_new_registry {hist : List (Call × Outcome)} (hs : Steps env (Call.Admissible W) Registry.default hist r)
    (ops : List Op) (hm : Roomy W hist ops.length) (hd : Disciplined W Registry.default [] ops) :
    RunsAlike W (run env Registry.default [] ops) (run env r [] ops) := by
  have hm₁ : Roomy W [] ops.length := by
    refine ⟨?_, by have := hm.2; simp only [liveCount, List.foldl_nil]; omega⟩
    rcases hm.1 with h | h
    · exact .inl (by simp only [List.filter_nil, List.length_nil]; omega)
    · exact .inr h
  have own : ∀ r, Own env r [] := fun r => ⟨fun n e h => by simp at h, fun n m e h => by simp at h⟩
  exact C109_same_everywhere Steps.nil hs ops hm₁ hm (own _) (own _)
    ⟨rfl, fun n => ⟨fun e h => by simp at h, fun e h => by simp at h⟩⟩ hd

/-- **C109** (others) A script that keeps to its own entities leaves every other entity as it was, and its own handles
stay live and distinct until it ends them. -/
theorem C109_others (hr : Reachable W r) (ops : List Op) {hs : Handles} (ho : Own env r hs) (hd : Disciplined W r hs ops)
    {os : List Outcome} {hs' : Handles} (hrun : run env r hs ops = .ok (os, r', hs')) :
    Own env r' hs' ∧ ∀ x, Live env r x → (∀ n : Nat, hs[n]? ≠ some (some x)) →
      SameEntity W r r' x ∧ ∀ n : Nat, hs'[n]? ≠ some (some x) := by
  induction ops generalizing r hs os with
  | nil =>
    cases hrun
    exact ⟨ho, fun x _ hx => ⟨⟨Iff.rfl, fun _ _ => ⟨rfl, rfl⟩⟩, hx⟩⟩
  | cons op ops ih =>
    unfold Disciplined at hd
    unfold run at hrun
    cases hc : op.call? hs with
    | none =>
      rw [hc] at hd hrun
      exact ih hr ho hd hrun
    | some call =>
      rw [hc] at hd hrun
      simp only [] at hrun
      split at hrun
      · cases hrun
      · next r1 o hcall =>
        split at hrun
        · cases hrun
        · next os' z hz =>
          cases hrun
          obtain ⟨a1, a2⟩ := op_own hr hc hd.1 ho hcall
          obtain ⟨h, hst⟩ := hr
          obtain ⟨b1, b2⟩ := ih ⟨_, hst.snoc hd.1.1 hcall⟩ a1 (hd.2 _ _ hcall) hz
          refine ⟨b1, fun x hl hx => ?_⟩
          obtain ⟨k1, k2⟩ := a2 x hl hx
          obtain ⟨m1, m2⟩ := b2 x (k1.1.mpr hl) k2
          exact ⟨k1.trans m1, m2⟩

/-! ## Examples -/

/-- A script with successes and failures; it ends its second entity and once names it afterwards. -/
def exScript : List Op :=
  [.create [exA, exB] [exValA, exValB], .on 0 (.add exC exValC), .create [exB] [exValB], .on 1 (.remove exB),
   .on 0 (.remove exA), .on 0 (.write exB exValB), .on 1 .destroy, .on 1 (.add exA exValA), .create [exA, exA] [exValA, exValA],
   .create [exA] [exValA']]

/-- A check of operations that does not look at the registry. -/
def exOpCheck : Op → Bool
  | .create g vals => exCheck (.create g vals)
  | .on _ (.removeEntity _) => false
  | .on _ a => exCheck (a.call exE1)

theorem exOp_ok {op : Op} (h : exOpCheck op = true) (r : Registry) {hs : Handles} {call : Call} (hc : op.call? hs = some call) :
    call.Disciplined exWorld r := by
  cases op with
  | create g vals => cases hc; exact ⟨exCheck_ok (call := .create g vals) h r, trivial⟩
  | on n a =>
    obtain ⟨e, _, rfl⟩ := call?_on hc
    cases a with
    | removeEntity g => cases h
    | writeIn g j v => cases h
    | destroy => exact ⟨exCheck_ok (call := .destroy e) h r, trivial⟩
    | add c v => exact ⟨exCheck_ok (call := .add e c v) h r, trivial⟩
    | remove c => exact ⟨exCheck_ok (call := .remove e c) h r, trivial⟩
    | write c v => exact ⟨exCheck_ok (call := .write e c v) h r, trivial⟩

theorem exDisciplined : ∀ (ops : List Op), ops.all exOpCheck = true → ∀ r hs, Disciplined exWorld r hs ops
  | [], _, _, _ => trivial
  | op :: ops, h, r, hs => by
    rw [List.all_cons, Bool.and_eq_true] at h
    unfold Disciplined
    split
    · exact exDisciplined ops h.2 r hs
    · next call hc => exact ⟨exOp_ok h.1 r hc, fun r' o _ => exDisciplined ops h.2 r' _⟩

set_option maxRecDepth 100000 in
/-- C109: the hypotheses hold for the script in the example registry, which has live entities and has had others. -/
example : Steps exEnv (Call.Admissible exWorld) Registry.default (exCalls.zip exOuts) exR ∧
    Roomy exWorld (exCalls.zip exOuts) exScript.length ∧ Disciplined exWorld Registry.default [] exScript ∧
    Live exEnv exR exE1 ∧ Live exEnv exR exE2 :=
  ⟨exSteps, ⟨.inl (by decide +kernel), by decide +kernel⟩,
    exDisciplined _ (by decide +kernel) _ _, by unfold Live; decide +kernel, by unfold Live; decide +kernel⟩

set_option maxRecDepth 100000 in
/-- C109: the two runs, computed: the same reports under different handles. -/
example : (run exEnv Registry.default [] exScript).map (fun x => (x.1.map (fun o => (o.success, o.returned)), x.2.2)) =
      .ok ([(true, []), (true, []), (true, []), (false, []), (true, [exValA]), (true, [exValB]), (true, []),
        (false, [exValA, exValA]), (true, [])],
        [some (Entity.newUnchecked 0 0), none, some (Entity.newUnchecked 1 1)]) ∧
    (run exEnv exR [] exScript).map (fun x => x.1.map (fun o => (o.success, o.returned))) =
      (run exEnv Registry.default [] exScript).map (fun x => x.1.map (fun o => (o.success, o.returned))) ∧
    (run exEnv exR [] exScript).map (fun x => x.2.2) ≠ (run exEnv Registry.default [] exScript).map (fun x => x.2.2) := by
  decide +kernel

/-- Another program: an entity like `exE1` of `exOtherR`, under another handle. -/
def exShifted : List Call := [.create [exB] [exValB], .create [exC] [exValC], .create [exA, exB, exC] [exValA, exValB, exValC]]
def exShiftedR : Registry := (okOr ([], Registry.default) (runCalls exEnv Registry.default exShifted)).2
def exShiftedOuts : List Outcome := (okOr ([], Registry.default) (runCalls exEnv Registry.default exShifted)).1

set_option maxRecDepth 100000 in
theorem exShiftedSteps :
    Steps exEnv (Call.Admissible exWorld) Registry.default (exShifted.zip exShiftedOuts) exShiftedR := by
  have := Steps.of_run (calls := exShifted) (ok := Call.Admissible exWorld)
    (fun r call hc => exCheck_ok (List.all_eq_true.mp (show exShifted.all exCheck = true by decide +kernel) call hc) r)
    Steps.nil (show runCalls exEnv Registry.default exShifted = .ok (exShiftedOuts, exShiftedR) by decide +kernel)
  simpa using this

set_option maxRecDepth 100000 in
/-- C109 (opaque): two programs with an entity of the same components under different handles. -/
example : OrdinaryRun exWorld (exOther'.zip exOtherOuts) exOtherR ∧ OrdinaryRun exWorld (exShifted.zip exShiftedOuts) exShiftedR ∧
    SameAs exWorld exOtherR exE1 exShiftedR (Entity.newUnchecked 2 0) ∧ exE1 ≠ Entity.newUnchecked 2 0 ∧
    Live exEnv exOtherR exE1 ∧ ((Action.remove exB).call exE1).Disciplined exWorld exOtherR := by
  refine ⟨⟨exOtherSteps, exBudget _, by decide +kernel⟩, ⟨exShiftedSteps, exBudget _, by decide +kernel⟩, ⟨?_, ?_⟩,
    by decide +kernel, by unfold Live; decide +kernel, exCheck_ok (call := .remove exE1 exB) (by decide +kernel) _, trivial⟩
  · exact ⟨fun _ => by unfold Live; decide +kernel, fun _ => by unfold Live; decide +kernel⟩
  · have : ∀ c ∈ [exA, exB, exC],
        exShiftedR.hasComponent exEnv c (Entity.newUnchecked 2 0) = exOtherR.hasComponent exEnv c exE1 ∧
        exShiftedR.getComponent exEnv c (Entity.newUnchecked 2 0) = exOtherR.getComponent exEnv c exE1 := by decide +kernel
    exact fun c hc => this c hc

end Shard.Script
