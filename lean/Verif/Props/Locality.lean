import Verif.Spec.Locality
import Verif.Props.Ordinary
/-!
# C86: entities do not interfere
-/

set_option autoImplicit false

namespace Shard

variable {env : Env} {W : World env} {r r₁ r₂ : Registry} {cs cs₁ cs₂ : List Content}

/-- Equal answers about an entity mean equal abstract components. -/
theorem look_of_same (h₁ : RInv W r₁ cs₁) (h₂ : RInv W r₂ cs₂) {e : Entity} (h : SameEntity W r₁ r₂ e) :
    r₂.look env cs₂ e = r₁.look env cs₁ e := by
  have hl := h.1
  rw [h₁.live_iff, h₂.live_iff] at hl
  cases hx : r₁.look env cs₁ e with
  | none =>
    cases hy : r₂.look env cs₂ e with
    | none => rfl
    | some f =>
      obtain ⟨g, hg⟩ := hl.mp ⟨f, hy⟩
      rw [hx] at hg; cases hg
  | some f =>
    obtain ⟨g, hy⟩ := hl.mpr ⟨f, hx⟩
    rw [hy]
    congr 1
    funext c
    by_cases hc : W.Has c
    · have := (h.2 c hc).2
      rw [h₁.getComponent_eq hc, h₂.getComponent_eq hc, hx, hy] at this
      injection this
    · cases hf : f c with
      | some v => exact absurd (h₁.has_of_look hx (by rw [hf]; rfl)) hc
      | none =>
        cases hg : g c with
        | some v => exact absurd (h₂.has_of_look hy (by rw [hg]; rfl)) hc
        | none => rfl

theorem same_of_look (h₁ : RInv W r₁ cs₁) (h₂ : RInv W r₂ cs₂) {e : Entity}
    (h : r₂.look env cs₂ e = r₁.look env cs₁ e) : SameEntity W r₁ r₂ e := by
  refine ⟨by rw [h₁.live_iff, h₂.live_iff, h], fun c hc => ⟨?_, ?_⟩⟩
  · rw [h₁.hasComponent_eq hc, h₂.hasComponent_eq hc, h]
  · rw [h₁.getComponent_eq hc, h₂.getComponent_eq hc, h]

theorem SameEntity.symm {e : Entity} (h : SameEntity W r₁ r₂ e) : SameEntity W r₂ r₁ e :=
  ⟨h.1.symm, fun c hc => ⟨(h.2 c hc).1.symm, (h.2 c hc).2.symm⟩⟩

theorem SameEntity.trans {r₃ : Registry} {e : Entity} (h : SameEntity W r₁ r₂ e) (h' : SameEntity W r₂ r₃ e) :
    SameEntity W r₁ r₃ e :=
  ⟨h'.1.trans h.1, fun c hc => ⟨(h'.2 c hc).1.trans (h.2 c hc).1, (h'.2 c hc).2.trans (h.2 c hc).2⟩⟩

theorem SameEntity.hasId {e : Entity} (h : SameEntity W r₁ r₂ e) (i : UInt16) : HasId W r₂ e i ↔ HasId W r₁ e i := by
  constructor <;> rintro ⟨c, h1, h2, h3⟩
  · exact ⟨c, h1, h2, by rw [← (h.2 c h1).1]; exact h3⟩
  · exact ⟨c, h1, h2, by rw [(h.2 c h1).1]; exact h3⟩

/-- Whether a call about an entity is disciplined depends on that entity alone. -/
theorem Call.Disciplined.same {call : Call} {e : Entity} (hd : call.Disciplined W r₁) (ha : call.about = some e)
    (h : SameEntity W r₁ r₂ e) : call.Disciplined W r₂ := by
  obtain ⟨h1, h2⟩ := hd
  cases call with
  | create g vals => cases ha
  | destroy e' => exact ⟨trivial, trivial⟩
  | removeEntity g e' =>
    cases ha
    refine ⟨trivial, fun hl => ?_⟩
    obtain ⟨q1, q2, q3, q4⟩ := h2 (h.1.mp hl)
    exact ⟨q1, q2, hl, fun c hc => by rw [(h.2 c hc).1]; exact q4 c hc⟩
  | add e' c v =>
    cases ha
    refine ⟨⟨h1.1, h1.2.1, fun hl s hs => h1.2.2 (h.1.mp hl) s (hs.congr (fun i => ?_))⟩, trivial⟩
    rw [h.hasId]
  | remove e' c =>
    cases ha
    refine ⟨⟨h1.1, fun hl s hne hs => h1.2 (h.1.mp hl) s hne (hs.congr (fun i => ?_))⟩, trivial⟩
    rw [h.hasId]
  | write e' c v => exact ⟨h1, trivial⟩
  | writeIn g e' j v => exact ⟨h1, trivial⟩
  | writeIter it g n j k v => cases ha

/-- The parts of an outcome that the call and its success determine. -/
def Shape (call : Call) (o : Outcome) : Prop :=
  o.created = none ∧
  match call with
  | .destroy e => o.vacated = (if o.success then some e else none) ∧ o.given = [] ∧ o.returned = []
  | .removeEntity _ e => o.vacated = (if o.success then some e else none) ∧ o.given = [] ∧ (o.success = false → o.returned = [])
  | .add _ _ v => o.vacated = none ∧ o.given = [v] ∧ (o.success = true → o.returned = [])
  | .remove _ _ => o.vacated = none ∧ o.given = [] ∧ (o.success = false → o.returned = [])
  | .write _ _ v => o.vacated = none ∧ o.given = [v]
  | .writeIn _ _ _ v => o.vacated = none ∧ o.given = [v]
  | _ => True

theorem run_shape {call : Call} {e : Entity} {r' : Registry} {o : Outcome} (ha : call.about = some e)
    (h : call.run env r = .ok (r', o)) : Shape call o := by
  cases call with
  | create g vals => cases ha
  | writeIter it g n j k v => cases ha
  | destroy e' =>
    simp only [Call.run] at h
    cases hx : r.destroyEntity env e' with
    | error f => rw [hx] at h; cases h
    | ok x => rw [hx] at h; cases h; exact ⟨rfl, rfl, rfl, rfl⟩
  | removeEntity g e' =>
    simp only [Call.run] at h
    cases hx : r.removeEntity env g e' with
    | error f => rw [hx] at h; cases h
    | ok x =>
      obtain ⟨x1, x2⟩ := x
      rw [hx] at h
      cases x2 <;> cases h
      · exact ⟨rfl, rfl, rfl, fun _ => rfl⟩
      · exact ⟨rfl, rfl, rfl, fun h => by cases h⟩
  | add e' c v =>
    simp only [Call.run] at h
    cases hx : r.addComponent env e' c v with
    | error f => rw [hx] at h; cases h
    | ok x =>
      obtain ⟨x1, x2⟩ := x
      rw [hx] at h
      cases x2 <;> cases h
      · exact ⟨rfl, rfl, rfl, fun _ => rfl⟩
      · exact ⟨rfl, rfl, rfl, fun h => by cases h⟩
  | remove e' c =>
    simp only [Call.run] at h
    cases hx : r.removeComponent env e' c with
    | error f => rw [hx] at h; cases h
    | ok x =>
      obtain ⟨x1, x2⟩ := x
      rw [hx] at h
      cases x2 <;> cases h
      · exact ⟨rfl, rfl, rfl, fun h => by cases h⟩
      · exact ⟨rfl, rfl, rfl, fun _ => rfl⟩
  | write e' c v =>
    simp only [Call.run] at h
    cases hx : r.replaceComponent env c e' v with
    | error f => rw [hx] at h; cases h
    | ok x =>
      obtain ⟨x1, x2⟩ := x
      rw [hx] at h
      cases x2 <;> cases h <;> exact ⟨rfl, rfl, rfl⟩
  | writeIn g e' j v =>
    simp only [Call.run] at h
    cases hx : r.getComponentsMut env g e' with
    | error f => rw [hx] at h; cases h
    | ok x =>
      rw [hx] at h
      simp only [ok_bind] at h
      split at h
      · cases h; exact ⟨rfl, rfl, rfl⟩
      · split at h
        · next ai ps _ c p _ =>
          cases hy : r.replaceAt ai c p v with
          | error f => rw [hy] at h; cases h
          | ok y => rw [hy] at h; cases h; exact ⟨rfl, rfl, rfl⟩
        · cases h; exact ⟨rfl, rfl, rfl⟩

theorem RowOf.perm {f : CompTy → Option Val} {vs ws : List Val} (h : RowOf f vs) (h' : RowOf f ws) : vs.Perm ws := by
  obtain ⟨cts, h1, h2, h3⟩ := h
  obtain ⟨cts', h1', h2', h3'⟩ := h'
  have hp : cts.Perm cts' := by
    rw [List.perm_ext_iff_of_nodup h1 h1']
    intro c; rw [h2, h2']
  have hm := hp.map f
  rw [← h3, ← h3'] at hm
  have := hm.filterMap id
  simpa using this

/-- The abstract effect of a call about one entity is a function of that entity. -/
theorem AMap.Step.local {a a' b b' : AMap} {call : Call} {o p : Outcome} {e : Entity} (hab : b e = a e)
    (ha : call.about = some e) (h : AMap.Step env a call o a') (h' : AMap.Step env b call p b')
    (hs : Shape call o) (hs' : Shape call p) (hd : AMap.Drops a call o) (hd' : AMap.Drops b call p)
    (hm : ∀ g, call = .removeEntity g e → ∀ f, a e = some f → (g.descriptor env).isValid = true ∧ ∀ c, (f c).isSome ↔ c ∈ g)
    (hk : (∃ c v, call = .add e c v) ∨ (∃ c, call = .remove e c) → o.success = p.success) :
    SameOutcome o p ∧ b' e = a' e := by
  have hself : ∀ (m : AMap) x, AMap.set m e x e = x := fun m x => if_pos rfl
  have mk : ∀ {o p : Outcome}, o.success = p.success → o.created = p.created → o.vacated = p.vacated → o.given = p.given →
      o.returned = p.returned → o.dropped.Perm p.dropped → SameOutcome o p := by
    intro o p h1 h2 h3 h4 h5 h6
    obtain ⟨a1, a2, a3, a4, a5, a6⟩ := o
    obtain ⟨b1, b2, b3, b4, b5, b6⟩ := p
    simp only [] at h1 h2 h3 h4 h5 h6
    subst h1 h2 h3 h4 h5
    exact ⟨rfl, h6⟩
  cases call with
  | create g vals => cases ha
  | writeIter it g n j k v => cases ha
  | destroy e' =>
    cases ha
    simp only [AMap.Step, AMap.Drops, Shape] at h h' hs hs' hd hd'
    rw [hab] at h' hd'
    obtain ⟨s1, s2, s3, s4⟩ := hs
    obtain ⟨t1, t2, t3, t4⟩ := hs'
    cases hx : a e with
    | none =>
      rw [hx] at h h' hd hd'
      refine ⟨mk (h.1.trans h'.1.symm) (s1.trans t1.symm) ?_ (s3.trans t3.symm) (s4.trans t4.symm) ?_, ?_⟩
      · rw [s2, t2, h.1, h'.1]
      · rw [hd, hd']
      · rw [h.2, h'.2, hab]
    | some f =>
      rw [hx] at h h' hd hd'
      refine ⟨mk (h.1.trans h'.1.symm) (s1.trans t1.symm) ?_ (s3.trans t3.symm) (s4.trans t4.symm) (hd.perm hd'), ?_⟩
      · rw [s2, t2, h.1, h'.1]
      · rw [h.2, h'.2, hself, hself]
  | removeEntity g e' =>
    cases ha
    simp only [AMap.Step, AMap.Drops, Shape] at h h' hs hs' hd hd'
    rw [hab] at h'
    obtain ⟨s1, s2, s3, s4⟩ := hs
    obtain ⟨t1, t2, t3, t4⟩ := hs'
    cases hx : a e with
    | none =>
      rw [hx] at h h'
      refine ⟨mk (h.1.trans h'.1.symm) (s1.trans t1.symm) ?_ (s3.trans t3.symm) ?_ ?_, ?_⟩
      · rw [s2, t2, h.1, h'.1]
      · rw [s4 h.1, t4 h'.1]
      · rw [hd, hd']
      · rw [h.2, h'.2, hab]
    | some f =>
      rw [hx] at h h'
      obtain ⟨m1, m2⟩ := hm g rfl f hx
      refine ⟨mk (h.1.trans h'.1.symm) (s1.trans t1.symm) ?_ (s3.trans t3.symm) ?_ ?_, ?_⟩
      · rw [s2, t2, h.1, h'.1]
      · have := (h.2.2 m1 m2).trans (h'.2.2 m1 m2).symm
        exact (List.map_inj_right (fun x y hxy => Option.some.inj hxy)).mp this
      · rw [hd, hd']
      · rw [h.2.1, h'.2.1, hself, hself]
  | add e' c v =>
    cases ha
    have hk := hk (.inl ⟨c, v, rfl⟩)
    simp only [AMap.Step, AMap.Drops, Shape] at h h' hs hs' hd hd'
    rw [hab] at h'
    obtain ⟨s1, s2, s3, s4⟩ := hs
    obtain ⟨t1, t2, t3, t4⟩ := hs'
    have key : o.returned = p.returned → b' e = a' e → SameOutcome o p ∧ b' e = a' e := fun k1 k2 =>
      ⟨mk hk (s1.trans t1.symm) (s2.trans t2.symm) (s3.trans t3.symm) k1 (by rw [hd, hd']), k2⟩
    cases hx : a e with
    | none =>
      rw [hx] at h h'
      exact key (h.2.1.trans h'.2.1.symm) (by rw [h.2.2, h'.2.2, hab])
    | some f =>
      rw [hx] at h h'
      rcases h with ⟨q1, q2, q3⟩ | ⟨q1, q2, q3⟩ <;> rcases h' with ⟨u1, u2, u3⟩ | ⟨u1, u2, u3⟩
      · exact key (by rw [s4 q1, t4 u1]) (by rw [q3, u3, hself, hself])
      · rw [hk, u1] at q1; cases q1
      · rw [hk, u1] at q1; cases q1
      · exact key (q2.trans u2.symm) (by rw [q3, u3, hab])
  | remove e' c =>
    cases ha
    have hk := hk (.inr ⟨c, rfl⟩)
    simp only [AMap.Step, AMap.Drops, Shape] at h h' hs hs' hd hd'
    rw [hab] at h'
    obtain ⟨s1, s2, s3, s4⟩ := hs
    obtain ⟨t1, t2, t3, t4⟩ := hs'
    have key : o.returned = p.returned → b' e = a' e → SameOutcome o p ∧ b' e = a' e := fun k1 k2 =>
      ⟨mk hk (s1.trans t1.symm) (s2.trans t2.symm) (s3.trans t3.symm) k1 (by rw [hd, hd']), k2⟩
    cases hx : a e with
    | none =>
      rw [hx] at h h'
      exact key (by rw [s4 h.1, t4 h'.1]) (by rw [h.2, h'.2, hab])
    | some f =>
      rw [hx] at h h'
      rcases h with ⟨q1, v, q2, _, q4, q5⟩ | ⟨q1, q3⟩ <;> rcases h' with ⟨u1, w, u2, _, u4, u5⟩ | ⟨u1, u3⟩
      · rw [q2] at u2; cases u2
        exact key (q4.trans u4.symm) (by rw [q5, u5, hself, hself])
      · rw [hk, u1] at q1; cases q1
      · rw [hk, u1] at q1; cases q1
      · exact key (by rw [s4 q1, t4 u1]) (by rw [q3, u3, hab])
  | write e' c v =>
    cases ha
    simp only [AMap.Step, AMap.Drops, Shape, AMap.Replaced] at h h' hs hs' hd hd'
    rw [hab] at h'
    obtain ⟨s1, s2, s3⟩ := hs
    obtain ⟨t1, t2, t3⟩ := hs'
    have key : o.success = p.success → o.returned = p.returned → b' e = a' e → SameOutcome o p ∧ b' e = a' e := fun k0 k1 k2 =>
      ⟨mk k0 (s1.trans t1.symm) (s2.trans t2.symm) (s3.trans t3.symm) k1 (by rw [hd, hd']), k2⟩
    rcases h with ⟨q1, old, q2, f, q3, q4, q5⟩ | ⟨q1, q2, q3, q4⟩ <;>
      rcases h' with ⟨u1, old', u2, f', u3, u4, u5⟩ | ⟨u1, u2, u3, u4⟩
    · rw [q3] at u3; cases u3
      rw [q4] at u4; cases u4
      exact key (q1.trans u1.symm) (q2.trans u2.symm) (by rw [q5, u5, hself, hself])
    · rw [q3] at u3
      simp only [Option.bind_some] at u3
      rw [q4] at u3; cases u3
    · rw [u3] at q3
      simp only [Option.bind_some] at q3
      rw [u4] at q3; cases q3
    · exact key (q1.trans u1.symm) (q2.trans u2.symm) (by rw [q4, u4, hab])
  | writeIn g e' j v =>
    cases ha
    simp only [AMap.Step, AMap.Drops, Shape, AMap.Replaced, AMap.HasAll] at h h' hs hs' hd hd'
    rw [hab] at h'
    obtain ⟨s1, s2, s3⟩ := hs
    obtain ⟨t1, t2, t3⟩ := hs'
    have key : o.success = p.success → o.returned = p.returned → b' e = a' e → SameOutcome o p ∧ b' e = a' e := fun k0 k1 k2 =>
      ⟨mk k0 (s1.trans t1.symm) (s2.trans t2.symm) (s3.trans t3.symm) k1 (by rw [hd, hd']), k2⟩
    rcases h with ⟨q1, q0, c, old, qc, q2, f, q3, q4, q5⟩ | ⟨q1, q2, q3, q4⟩ <;>
      rcases h' with ⟨u1, u0, c', old', uc, u2, f', u3, u4, u5⟩ | ⟨u1, u2, u3, u4⟩
    · rw [q3] at u3; cases u3
      rw [qc] at uc; cases uc
      rw [q4] at u4; cases u4
      exact key (q1.trans u1.symm) (q2.trans u2.symm) (by rw [q5, u5, hself, hself])
    · rw [u3 q0] at qc; cases qc
    · rw [q3 u0] at uc; cases uc
    · exact key (q1.trans u1.symm) (q2.trans u2.symm) (by rw [q4, u4, hab])

/-- `add_component` ends the same way for the same entity. -/
theorem add_same {hist₁ hist₂ : List (Call × Outcome)} (h₁ : OrdinaryRun W hist₁ r₁) (h₂ : OrdinaryRun W hist₂ r₂)
    {e : Entity} {c : CompTy} {v : Val} (h : SameEntity W r₁ r₂ e) (hd : (Call.add e c v).Disciplined W r₁) :
    (∃ f, (Call.add e c v).run env r₁ = .error f ∧ (Call.add e c v).run env r₂ = .error f) ∨
    ∃ r₁' o₁ r₂' o₂, (Call.add e c v).run env r₁ = .ok (r₁', o₁) ∧ (Call.add e c v).run env r₂ = .ok (r₂', o₂) ∧
      o₁.success = o₂.success := by
  have hd₂ := hd.same (e := e) rfl h
  obtain ⟨cs₁, i₁⟩ := h₁.1.inv (fun _ _ h => h) (RInv.empty W)
  obtain ⟨cs₂, i₂⟩ := h₂.1.inv (fun _ _ h => h) (RInv.empty W)
  have hlook := look_of_same i₁ i₂ h
  have hc : W.Has c := hd.1.1
  have fails : ∀ {r : Registry} {cs : List Content} (i : RInv W r cs), (Call.add e c v).Disciplined W r →
      (∀ f, r.look env cs e = some f → (f c).isSome) →
      ∃ r' o, (Call.add e c v).run env r = .ok (r', o) ∧ o.success = false := by
    intro r cs i hd hf
    rcases i.add_step hd.1 with ⟨r', o, cs', q1, q2, _, _⟩ | ⟨flt, q1, f, s, q2, q3, _⟩
    · refine ⟨r', o, q1, ?_⟩
      have hst := q2.abs
      simp only [AMap.Step] at hst
      cases hx : r.look env cs e with
      | none => rw [hx] at hst; exact hst.1
      | some f =>
        rw [hx] at hst
        rcases hst with ⟨_, u, _⟩ | ⟨u, _⟩
        · have := hf f hx; rw [u] at this; cases this
        · exact u
    · have := hf f q2; rw [q3] at this; cases this
  by_cases hp : ∀ f, r₁.look env cs₁ e = some f → (f c).isSome
  · obtain ⟨a1, o1, q1, q2⟩ := fails i₁ hd hp
    obtain ⟨a2, o2, u1, u2⟩ := fails i₂ hd₂ (by rw [hlook]; exact hp)
    exact .inr ⟨a1, o1, a2, o2, q1, u1, by rw [q2, u2]⟩
  · have hp : ∃ f, r₁.look env cs₁ e = some f ∧ f c = none := by
      cases hx : r₁.look env cs₁ e with
      | none => exact absurd (fun f hf => by rw [hx] at hf; cases hf) hp
      | some f =>
        refine ⟨f, rfl, ?_⟩
        cases hfc : f c with
        | none => rfl
        | some w => exact absurd (fun f' hf => by rw [hx] at hf; cases hf; rw [hfc]; rfl) hp
    obtain ⟨f, hf, hfc⟩ := hp
    have hl : Live env r₁ e := i₁.live_iff.mpr ⟨f, hf⟩
    have hn : r₁.hasComponent env c e = .ok false := by
      rw [i₁.hasComponent_eq hc, hf]; simp [hfc]
    obtain ⟨s, hs, _⟩ := i₁.ascSet hl
    obtain ⟨t, ht, _⟩ := withId hc hn hs
    have ht₂ : AscSet t (WithId W r₂ e c) := ht.congr (fun i => by unfold WithId; rw [h.hasId])
    obtain ⟨a1, a2, a3, a4⟩ := (C75_ordinary_programs h₁.1 h₁.2.1 h₁.2.2).2.1 e c v t hd.1 hl hn ht
    obtain ⟨b1, b2, b3, b4⟩ := (C75_ordinary_programs h₂.1 h₂.2.1 h₂.2.2).2.1 e c v t hd₂.1 (h.1.mpr hl)
      ((h.2 c hc).1.trans hn) ht₂
    by_cases k1 : t.length ≤ 13
    · by_cases k2 : plainId env t = ARCHETYPE_ID_INVALID
      · exact .inr ⟨_, _, _, _, run_add_err (a2 k1 k2), run_add_err (b2 k1 k2), rfl⟩
      · obtain ⟨x, hx⟩ := a1 k1 k2
        obtain ⟨y, hy⟩ := b1 k1 k2
        exact .inr ⟨_, _, _, _, run_add_ok hx, run_add_ok hy, rfl⟩
    · by_cases k2 : t.length = 14
      · refine .inl ⟨.panic .indexOutOfBounds, ?_, ?_⟩
        · simp only [Call.run, a3 k2]; rfl
        · simp only [Call.run, b3 k2]; rfl
      · exact .inr ⟨_, _, _, _, run_add_err (a4 (by omega)), run_add_err (b4 (by omega)), rfl⟩

/-- `remove_component` ends the same way for the same entity. -/
theorem remove_same {hist₁ hist₂ : List (Call × Outcome)} (h₁ : OrdinaryRun W hist₁ r₁) (h₂ : OrdinaryRun W hist₂ r₂)
    {e : Entity} {c : CompTy} (h : SameEntity W r₁ r₂ e) (hd : (Call.remove e c).Disciplined W r₁) :
    (∃ f, (Call.remove e c).run env r₁ = .error f ∧ (Call.remove e c).run env r₂ = .error f) ∨
    ∃ r₁' o₁ r₂' o₂, (Call.remove e c).run env r₁ = .ok (r₁', o₁) ∧ (Call.remove e c).run env r₂ = .ok (r₂', o₂) ∧
      o₁.success = o₂.success := by
  have hd₂ := hd.same (e := e) rfl h
  obtain ⟨cs₁, i₁⟩ := h₁.1.inv (fun _ _ h => h) (RInv.empty W)
  obtain ⟨cs₂, i₂⟩ := h₂.1.inv (fun _ _ h => h) (RInv.empty W)
  have hlook := look_of_same i₁ i₂ h
  have hc : W.Has c := hd.1.1
  have fails : ∀ {r : Registry} {cs : List Content} (i : RInv W r cs), (Call.remove e c).Disciplined W r →
      (∀ f, r.look env cs e = some f → f c = none) →
      ∃ r' o, (Call.remove e c).run env r = .ok (r', o) ∧ o.success = false := by
    intro r cs i hd hf
    rcases i.remove_step hd.1 with ⟨r', o, cs', q1, q2, _, _⟩ | ⟨flt, q1, f, s, q2, q3, _⟩
    · refine ⟨r', o, q1, ?_⟩
      have hst := q2.abs
      simp only [AMap.Step] at hst
      cases hx : r.look env cs e with
      | none => rw [hx] at hst; exact hst.1
      | some f =>
        rw [hx] at hst
        rcases hst with ⟨_, v, u, _⟩ | ⟨u, _⟩
        · have := hf f hx; rw [u] at this; cases this
        · exact u
    · have := hf f q2; rw [this] at q3; cases q3
  by_cases hp : ∀ f, r₁.look env cs₁ e = some f → f c = none
  · obtain ⟨a1, o1, q1, q2⟩ := fails i₁ hd hp
    obtain ⟨a2, o2, u1, u2⟩ := fails i₂ hd₂ (by rw [hlook]; exact hp)
    exact .inr ⟨a1, o1, a2, o2, q1, u1, by rw [q2, u2]⟩
  · have hp : ∃ f, r₁.look env cs₁ e = some f ∧ (f c).isSome := by
      cases hx : r₁.look env cs₁ e with
      | none => exact absurd (fun f hf => by rw [hx] at hf; cases hf) hp
      | some f =>
        refine ⟨f, rfl, ?_⟩
        cases hfc : f c with
        | some w => rfl
        | none => exact absurd (fun f' hf => by rw [hx] at hf; cases hf; exact hfc) hp
    obtain ⟨f, hf, hfc⟩ := hp
    have hl : Live env r₁ e := i₁.live_iff.mpr ⟨f, hf⟩
    have hy : r₁.hasComponent env c e = .ok true := (i₁.has_iff hf hc).mpr hfc
    obtain ⟨s, hs, _⟩ := i₁.ascSet hl
    obtain ⟨t, ht, _⟩ := withoutId hc hy hs
    have ht₂ : AscSet t (WithoutId W r₂ e c) := ht.congr (fun i => by unfold WithoutId; rw [h.hasId])
    obtain ⟨a1, a2, a3, a4⟩ := (C75_ordinary_programs h₁.1 h₁.2.1 h₁.2.2).2.2.1 e c t hd.1 hy ht
    obtain ⟨b1, b2, b3, b4⟩ := (C75_ordinary_programs h₂.1 h₂.2.1 h₂.2.2).2.2.1 e c t hd₂.1 ((h.2 c hc).1.trans hy) ht₂
    by_cases k0 : t.length = 0
    · exact .inr ⟨_, _, _, _, run_remove_err (a1 k0), run_remove_err (b1 k0), rfl⟩
    by_cases k1 : t.length ≤ 12
    · by_cases k2 : plainId env t = ARCHETYPE_ID_INVALID
      · exact .inr ⟨_, _, _, _, run_remove_err (a3 (by omega) k1 k2), run_remove_err (b3 (by omega) k1 k2), rfl⟩
      · obtain ⟨x, w, hx⟩ := a2 (by omega) k1 k2
        obtain ⟨y, w', hy⟩ := b2 (by omega) k1 k2
        exact .inr ⟨_, _, _, _, run_remove_ok hx, run_remove_ok hy, rfl⟩
    · refine .inl ⟨.panic .indexOutOfBounds, ?_, ?_⟩
      · simp only [Call.run, a4 (by omega)]; rfl
      · simp only [Call.run, b4 (by omega)]; rfl

/-- **C86** (locality) What a call about an entity does is a function of that entity: in two ordinary programs, however
different, that agree about one entity, the same call about it ends the same way (the same fault, or the same result),
and the programs agree about the entity afterwards. -/
theorem C86_locality {hist₁ hist₂ : List (Call × Outcome)} (h₁ : OrdinaryRun W hist₁ r₁) (h₂ : OrdinaryRun W hist₂ r₂)
    {call : Call} {e : Entity} (ha : call.about = some e) (h : SameEntity W r₁ r₂ e) (hd : call.Disciplined W r₁) :
    CallsAlike (fun r₁' r₂' => SameEntity W r₁' r₂' e) (call.run env r₁) (call.run env r₂) := by
  have hd₂ := hd.same ha h
  obtain ⟨cs₁, i₁⟩ := h₁.1.inv (fun _ _ h => h) (RInv.empty W)
  obtain ⟨cs₂, i₂⟩ := h₂.1.inv (fun _ _ h => h) (RInv.empty W)
  have hlook := look_of_same i₁ i₂ h
  have runs : (∃ f, call.run env r₁ = .error f ∧ call.run env r₂ = .error f) ∨
      ∃ r₁' o₁ r₂' o₂, call.run env r₁ = .ok (r₁', o₁) ∧ call.run env r₂ = .ok (r₂', o₂) ∧
        ((∃ c v, call = .add e c v) ∨ (∃ c, call = .remove e c) → o₁.success = o₂.success) := by
    have easy : (∀ r, call.WithinLimits W r) → (¬ ∃ c v, call = .add e c v) → (¬ ∃ c, call = .remove e c) →
        ∃ r₁' o₁ r₂' o₂, call.run env r₁ = .ok (r₁', o₁) ∧ call.run env r₂ = .ok (r₂', o₂) ∧
        ((∃ c v, call = .add e c v) ∨ (∃ c, call = .remove e c) → o₁.success = o₂.success) := by
      intro hl n1 n2
      obtain ⟨a, o, q⟩ := i₁.call_safe hd (hl _)
      obtain ⟨b, p, u⟩ := i₂.call_safe hd₂ (hl _)
      exact ⟨a, o, b, p, q, u, fun hx => (hx.elim n1 n2).elim⟩
    cases call with
    | create g vals => cases ha
    | writeIter it g n j k v => cases ha
    | destroy e' => exact .inr (easy (fun _ => trivial) (by rintro ⟨_, _, h⟩; cases h) (by rintro ⟨_, h⟩; cases h))
    | removeEntity g e' => exact .inr (easy (fun _ => trivial) (by rintro ⟨_, _, h⟩; cases h) (by rintro ⟨_, h⟩; cases h))
    | write e' c v => exact .inr (easy (fun _ => trivial) (by rintro ⟨_, _, h⟩; cases h) (by rintro ⟨_, h⟩; cases h))
    | writeIn g e' j v => exact .inr (easy (fun _ => trivial) (by rintro ⟨_, _, h⟩; cases h) (by rintro ⟨_, h⟩; cases h))
    | add e' c v =>
      cases ha
      rcases add_same h₁ h₂ h hd with hx | ⟨a, o, b, p, q1, q2, q3⟩
      · exact .inl hx
      · exact .inr ⟨a, o, b, p, q1, q2, fun _ => q3⟩
    | remove e' c =>
      cases ha
      rcases remove_same h₁ h₂ h hd with hx | ⟨a, o, b, p, q1, q2, q3⟩
      · exact .inl hx
      · exact .inr ⟨a, o, b, p, q1, q2, fun _ => q3⟩
  rcases runs with ⟨f, q1, q2⟩ | ⟨a, o, b, p, q1, q2, q3⟩
  · rw [q1, q2]; exact rfl
  · rw [q1, q2]
    obtain ⟨cs₁', st₁⟩ := i₁.step hd.1 q1
    obtain ⟨cs₂', st₂⟩ := i₂.step hd₂.1 q2
    have := AMap.Step.local hlook ha st₁.abs st₂.abs (run_shape ha q1) (run_shape ha q2) (i₁.drops q1) (i₂.drops q2) (by
      intro g hg f hf
      subst hg
      obtain ⟨m1, m2, m3⟩ := hd.2 (i₁.live_iff.mpr ⟨f, hf⟩)
      exact ⟨m2, (i₁.hasExactly_iff hf m1).mp m3⟩) q3
    exact ⟨this.1, same_of_look st₁.inv st₂.inv this.2⟩

/-- **C86** (frame) A call about an entity leaves the answers about every other handle as they were. -/
theorem C86_frame (hr : Reachable W r) {call : Call} {e x : Entity} (ha : call.about = some e) (hx : x ≠ e)
    (hadm : call.Admissible W r) {r' : Registry} {o : Outcome} (hrun : call.run env r = .ok (r', o)) : SameEntity W r r' x := by
  obtain ⟨cs, i⟩ := hr.inv
  obtain ⟨cs', st⟩ := i.step hadm hrun
  have hset : ∀ (m : AMap) y, AMap.set m e y x = m x := fun m y => if_neg hx
  refine same_of_look i st.inv ?_
  have h := st.abs
  cases call with
  | create g vals => cases ha
  | writeIter it g n j k v => cases ha
  | destroy e' =>
    cases ha
    simp only [AMap.Step] at h
    split at h
    · rw [h.2]
    · rw [h.2, hset]
  | removeEntity g e' =>
    cases ha
    simp only [AMap.Step] at h
    split at h
    · rw [h.2]
    · rw [h.2.1, hset]
  | add e' c v =>
    cases ha
    simp only [AMap.Step] at h
    split at h
    · rw [h.2.2]
    · rcases h with ⟨_, _, h⟩ | ⟨_, _, h⟩
      · rw [h, hset]
      · rw [h]
  | remove e' c =>
    cases ha
    simp only [AMap.Step] at h
    split at h
    · rw [h.2]
    · rcases h with ⟨_, _, _, _, _, h⟩ | ⟨_, h⟩
      · rw [h, hset]
      · rw [h]
  | write e' c v =>
    cases ha
    simp only [AMap.Step, AMap.Replaced] at h
    rcases h with ⟨_, _, _, _, _, _, h⟩ | ⟨_, _, _, h⟩
    · rw [h, hset]
    · rw [h]
  | writeIn g e' j v =>
    cases ha
    simp only [AMap.Step, AMap.Replaced] at h
    rcases h with ⟨_, _, _, _, _, _, _, _, _, h⟩ | ⟨_, _, _, h⟩
    · rw [h, hset]
    · rw [h]

theorem CallsAlike.ok {R : Registry → Registry → Prop} {x y : M (Registry × Outcome)} (h : CallsAlike R x y) {r' : Registry}
    {o : Outcome} (hy : y = .ok (r', o)) : ∃ a p, x = .ok (a, p) ∧ SameOutcome p o ∧ R a r' := by
  subst hy
  cases x with
  | error f => exact h.elim
  | ok z => exact ⟨z.1, z.2, rfl, h⟩

theorem CallsAlike.ok' {R : Registry → Registry → Prop} {x y : M (Registry × Outcome)} (h : CallsAlike R x y) {r' : Registry}
    {o : Outcome} (hx : x = .ok (r', o)) : ∃ a p, y = .ok (a, p) ∧ SameOutcome o p ∧ R r' a := by
  subst hx
  cases y with
  | error f => exact h.elim
  | ok z => exact ⟨z.1, z.2, rfl, h⟩

theorem liveCount_about {hist : List (Call × Outcome)} {call : Call} {e : Entity} {o : Outcome} (ha : call.about = some e)
    {r' : Registry} (hrun : call.run env r = .ok (r', o)) : (liveCount (hist ++ [(call, o)])).2 = (liveCount hist).2 := by
  have hc := (run_shape ha hrun).1
  rw [liveCount_snoc]
  simp only [hc]
  split <;> simp_all

/-- **C86** (order) Two calls about different entities can be made in either order: both orders succeed, with the same
results, and lead to registries that give the same answers about every handle. -/
theorem C86_order {hist : List (Call × Outcome)} (h : OrdinaryRun W hist r)
    (hb : ∀ x, ArchetypeBudget W (hist ++ [x]))
    {c₁ c₂ : Call} {e₁ e₂ : Entity} (ha₁ : c₁.about = some e₁) (ha₂ : c₂.about = some e₂) (hne : e₁ ≠ e₂)
    (hd₁ : c₁.Disciplined W r) (hd₂ : c₂.Disciplined W r)
    {r₁ r₁₂ : Registry} {o₁ o₂ : Outcome} (h1 : c₁.run env r = .ok (r₁, o₁)) (h2 : c₂.run env r₁ = .ok (r₁₂, o₂)) :
    ∃ r₂ r₂₁ p₁ p₂, c₂.run env r = .ok (r₂, p₂) ∧ c₁.run env r₂ = .ok (r₂₁, p₁) ∧
      SameOutcome p₁ o₁ ∧ SameOutcome p₂ o₂ ∧ ∀ x, SameEntity W r₂₁ r₁₂ x := by
  have hr : Reachable W r := ⟨_, h.1⟩
  have s₁ : OrdinaryRun W (hist ++ [(c₁, o₁)]) r₁ := ⟨h.1.snoc hd₁.1 h1, hb _, by rw [liveCount_about ha₁ h1]; exact h.2.2⟩
  have f₁ := C86_frame hr ha₁ hne.symm hd₁.1 h1
  obtain ⟨r₂, p₂, q1, q2, q3⟩ := (C86_locality h s₁ ha₂ f₁ hd₂).ok h2
  have s₂ : OrdinaryRun W (hist ++ [(c₂, p₂)]) r₂ := ⟨h.1.snoc hd₂.1 q1, hb _, by rw [liveCount_about ha₂ q1]; exact h.2.2⟩
  have f₂ := C86_frame hr ha₂ hne hd₂.1 q1
  obtain ⟨r₂₁, p₁, u1, u2, u3⟩ := (C86_locality s₂ h ha₁ f₂.symm (hd₁.same ha₁ f₂)).ok h1
  refine ⟨r₂, r₂₁, p₁, p₂, q1, u1, u2, q2, fun x => ?_⟩
  have hr₁ : Reachable W r₁ := ⟨_, s₁.1⟩
  have hr₂ : Reachable W r₂ := ⟨_, s₂.1⟩
  have hd₂' := hd₂.same ha₂ f₁
  have hd₁' := hd₁.same ha₁ f₂
  by_cases x1 : x = e₁
  · subst x1
    exact u3.trans (C86_frame hr₁ ha₂ hne hd₂'.1 h2)
  · by_cases x2 : x = e₂
    · subst x2
      exact (C86_frame hr₂ ha₁ x1 hd₁'.1 u1).symm.trans q3
    · exact (C86_frame hr₂ ha₁ x1 hd₁'.1 u1).symm.trans ((C86_frame hr ha₂ x2 hd₂.1 q1).symm.trans
        ((C86_frame hr ha₁ x1 hd₁.1 h1).trans (C86_frame hr₁ ha₂ x2 hd₂'.1 h2)))

/-! ## Examples -/

/-- Another program with the entity `exE1` in the same state. -/
def exOther' : List Call := [.create [exA, exB] [exValA, exValB], .add exE1 exC exValC]
def exOtherR : Registry := (okOr ([], Registry.default) (runCalls exEnv Registry.default exOther')).2
def exOtherOuts : List Outcome := (okOr ([], Registry.default) (runCalls exEnv Registry.default exOther')).1

set_option maxRecDepth 100000 in
theorem exOtherSteps : Steps exEnv (Call.Admissible exWorld) Registry.default (exOther'.zip exOtherOuts) exOtherR := by
  have := Steps.of_run (calls := exOther') (ok := Call.Admissible exWorld)
    (fun r call hc => exCheck_ok (List.all_eq_true.mp (show exOther'.all exCheck = true by decide +kernel) call hc) r)
    Steps.nil (show runCalls exEnv Registry.default exOther' = .ok (exOtherOuts, exOtherR) by decide +kernel)
  simpa using this

theorem exBudget (hist : List (Call × Outcome)) : ArchetypeBudget exWorld hist :=
  .inr ⟨[[10], [20], [30], [10, 20], [10, 30], [20, 30], [10, 20, 30]], fun _ hs => hs, by decide⟩

set_option maxRecDepth 100000 in
/-- C86 (locality): two different programs that agree about `exE1` but not about `exE2`, and a call about `exE1`. -/
example : OrdinaryRun exWorld (exCalls.zip exOuts) exR ∧ OrdinaryRun exWorld (exOther'.zip exOtherOuts) exOtherR ∧
    SameEntity exWorld exR exOtherR exE1 ∧ ¬ Live exEnv exOtherR exE2 ∧ Live exEnv exR exE2 ∧
    (Call.remove exE1 exC).about = some exE1 ∧ (Call.remove exE1 exC).Disciplined exWorld exR := by
  refine ⟨⟨exSteps, exBudget _, by decide +kernel⟩, ⟨exOtherSteps, exBudget _, by decide +kernel⟩, ⟨?_, ?_⟩, ?_, ?_, rfl,
    exCheck_ok (by decide +kernel) _, trivial⟩
  · exact ⟨fun _ => by unfold Live; decide +kernel, fun _ => by unfold Live; decide +kernel⟩
  · have : ∀ c ∈ [exA, exB, exC], exOtherR.hasComponent exEnv c exE1 = exR.hasComponent exEnv c exE1 ∧
        exOtherR.getComponent exEnv c exE1 = exR.getComponent exEnv c exE1 := by decide +kernel
    exact fun c hc => this c hc
  · unfold Live; decide +kernel
  · unfold Live; decide +kernel

set_option maxRecDepth 100000 in
/-- C86 (order): two calls about different entities of the example. -/
example : OrdinaryRun exWorld (exCalls.zip exOuts) exR ∧ (∀ x, ArchetypeBudget exWorld (exCalls.zip exOuts ++ [x])) ∧
    exE1 ≠ exE2 ∧ (Call.remove exE1 exC).Disciplined exWorld exR ∧ (Call.add exE2 exC exValC).Disciplined exWorld exR ∧
    ∃ r₁ r₁₂ o₁ o₂, (Call.remove exE1 exC).run exEnv exR = .ok (r₁, o₁) ∧
      (Call.add exE2 exC exValC).run exEnv r₁ = .ok (r₁₂, o₂) ∧ o₁.success = true ∧ o₂.success = true := by
  refine ⟨⟨exSteps, exBudget _, by decide +kernel⟩, fun _ => exBudget _, by decide +kernel,
    ⟨exCheck_ok (by decide +kernel) _, trivial⟩, ⟨exCheck_ok (by decide +kernel) _, trivial⟩,
    (okOr (Registry.default, ⟨false, none, none, [], [], []⟩) ((Call.remove exE1 exC).run exEnv exR)).1,
    (okOr (Registry.default, ⟨false, none, none, [], [], []⟩) ((Call.add exE2 exC exValC).run exEnv
      (okOr (Registry.default, ⟨false, none, none, [], [], []⟩) ((Call.remove exE1 exC).run exEnv exR)).1)).1,
    ⟨true, none, none, [], [exValC], []⟩, ⟨true, none, none, [exValC], [], []⟩, ?_, ?_, rfl, rfl⟩
  · decide +kernel
  · decide +kernel

end Shard
