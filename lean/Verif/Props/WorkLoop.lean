import Verif.Spec.WorkLoop
import Verif.Props.Select
import Verif.Props.Exchange
/-!
# C124: loops that search again after every change
-/

set_option autoImplicit false

namespace Shard

open Script

variable {env : Env} {W : World env} {r r' : Registry} {g : Group} {p : Entity → List Val → Bool}

theorem SameEntity.getComponents {e : Entity} (hr : Reachable W r) (hr' : Reachable W r') (hs : SameEntity W r r' e)
    (hg : ∀ c ∈ g, W.Has c) (hv : (g.descriptor env).isValid = true) :
    r'.getComponents env g e = r.getComponents env g e := by
  obtain ⟨cs, h⟩ := hr.inv
  obtain ⟨cs', h'⟩ := hr'.inv
  rw [h.getComponents_eq hg hv, h'.getComponents_eq hg hv]
  have hl := hs.1
  rw [h.live_iff, h'.live_iff] at hl
  cases hf : r.look env cs e with
  | none =>
    cases hf' : r'.look env cs' e with
    | none => rfl
    | some f' =>
      obtain ⟨f, hh⟩ := hl.mp ⟨f', hf'⟩
      rw [hf] at hh
      cases hh
  | some f =>
    obtain ⟨f', hf'⟩ := hl.mpr ⟨f, hf⟩
    rw [hf']
    have hcomp : ∀ c ∈ g, f' c = f c := by
      intro c hc
      have := (hs.2 c (hg c hc)).2
      rw [h.getComponent_eq (hg c hc), h'.getComponent_eq (hg c hc), hf, hf'] at this
      injection this
    have hall : hasAll f' g = hasAll f g := by
      rw [Bool.eq_iff_iff]
      unfold hasAll
      rw [List.all_eq_true, List.all_eq_true]
      exact ⟨fun k c hc => by rw [← hcomp c hc]; exact k c hc, fun k c hc => by rw [hcomp c hc]; exact k c hc⟩
    simp only [Option.bind_some]
    rw [hall, List.map_congr_left (fun c hc => by rw [hcomp c hc])]

/-- `e` is found by the loop. -/
def Found (env : Env) (g : Group) (p : Entity → List Val → Bool) (r : Registry) (e : Entity) : Prop :=
  Live env r e ∧ ∃ vals, r.getComponents env g e = .ok (some vals) ∧ p e vals = true

theorem Found.same {e : Entity} (hr : Reachable W r) (hr' : Reachable W r') (hs : SameEntity W r r' e)
    (hg : ∀ c ∈ g, W.Has c) (hv : (g.descriptor env).isValid = true) : Found env g p r' e ↔ Found env g p r e := by
  unfold Found
  rw [hs.1, hs.getComponents hr hr' hg hv]

/-- If every round makes the entity found unsuitable and leaves the others alone, the loop ends. -/
theorem workLoop_ends {act : Registry → Entity → M Registry} (hg : ∀ c ∈ g, W.Has c) (hv : (g.descriptor env).isValid = true)
    (Inv : Nat → Registry → Prop) (Q : Registry → Registry → Entity → Prop)
    (hinv : ∀ {n r}, Inv n r → Reachable W r)
    (hstep : ∀ {n r e}, Inv (n + 1) r → Found env g p r e →
      ∃ r', act r e = .ok r' ∧ Inv n r' ∧ Q r r' e ∧ (∀ x, x ≠ e → SameEntity W r r' x) ∧ ¬ Found env g p r' e)
    (hafter : ∀ {r₀ r₁ r₂ e}, Q r₀ r₁ e → SameEntity W r₁ r₂ e → Q r₀ r₂ e)
    (hbefore : ∀ {r₀ r₁ r₂ e}, SameEntity W r₀ r₁ e → Q r₁ r₂ e → Q r₀ r₂ e) :
    ∀ (n : Nat) {r : Registry} {l : List Entity}, Inv n r → selectBy env g p r = .ok l → l.length = n →
      ∃ r' es, (∀ m, n < m → workLoop env g p act m r = .ok (some (r', es))) ∧
        (∀ m, m ≤ n → workLoop env g p act m r = .ok none) ∧ es.Perm l ∧ Reachable W r' ∧
        selectBy env g p r' = .ok [] ∧ (∀ e ∈ l, Q r r' e) ∧ ∀ e, e ∉ l → SameEntity W r r' e := by
  intro n
  induction n with
  | zero =>
    intro r l hi hl hn
    have hnil : l = [] := List.length_eq_zero_iff.mp hn
    subst hnil
    refine ⟨r, [], fun m hm => ?_, fun m hm => ?_, .nil, hinv hi, hl, fun e he => by simp at he,
      fun _ _ => ⟨Iff.rfl, fun _ _ => ⟨rfl, rfl⟩⟩⟩
    · cases m with
      | zero => omega
      | succ m => unfold workLoop; rw [hl]; rfl
    · cases m with
      | zero => rfl
      | succ m => omega
  | succ n ih =>
    intro r l hi hl hn
    have hr := hinv hi
    obtain ⟨l0, s1, s2, s3⟩ := C116_select hr hg hv p
    rw [hl] at s1
    cases s1
    cases l with
    | nil => simp at hn
    | cons e l =>
      have hmem := (s3 e).mp List.mem_cons_self
      rw [List.nodup_cons] at s2
      obtain ⟨r1, a1, a2, a3, a4, a5⟩ := hstep hi hmem
      have hr1 := hinv a2
      obtain ⟨l1, t1, t2, t3⟩ := C116_select hr1 hg hv p
      have hset : ∀ x, x ∈ l1 ↔ x ∈ l := by
        intro x
        by_cases hx : x = e
        · subst hx
          exact ⟨fun h => absurd ((t3 x).mp h) a5, fun h => absurd h s2.1⟩
        · have h1 := (a4 x hx)
          have h2 := Found.same (p := p) hr hr1 h1 hg hv
          have h3 := s3 x
          rw [List.mem_cons] at h3
          exact ⟨fun h => (h3.mpr (h2.mp ((t3 x).mp h))).resolve_left hx, fun h => (t3 x).mpr (h2.mpr (h3.mp (.inr h)))⟩
      have hperm : l1.Perm l := (List.perm_ext_iff_of_nodup t2 s2.2).mpr hset
      simp only [List.length_cons, Nat.add_right_cancel_iff] at hn
      obtain ⟨r2, es, b1, b2, b3, b4, b5, b6, b7⟩ := ih a2 t1 (hperm.length_eq.trans hn)
      refine ⟨r2, e :: es, fun m hm => ?_, fun m hm => ?_, (b3.trans hperm).cons e, b4, b5, fun x hx => ?_, fun x hx => ?_⟩
      · cases m with
        | zero => omega
        | succ m =>
          unfold workLoop
          rw [hl]
          simp only [ok_bind]
          rw [a1]
          simp only [ok_bind]
          rw [b1 m (by omega)]
          rfl
      · cases m with
        | zero => rfl
        | succ m =>
          unfold workLoop
          rw [hl]
          simp only [ok_bind]
          rw [a1]
          simp only [ok_bind]
          rw [b2 m (by omega)]
          rfl
      · by_cases hxe : x = e
        · subst hxe
          exact hafter a3 (b7 x (fun h => s2.1 ((hset x).mp h)))
        · exact hbefore (a4 x hxe) (b6 x ((hset x).mpr ((List.mem_cons.mp hx).resolve_left hxe)))
      · rw [List.mem_cons, not_or] at hx
        exact (a4 x hx.1).trans (b7 x (fun h => hx.2 ((hset x).mp h)))

/-- **C124** The loop that destroys the first entity found and looks again ends after as many rounds as entities were found at
the beginning, plus one that finds none. It has destroyed exactly these, each once, and left all others alone. -/
theorem C124_destroy (hr : Reachable W r) (hg : ∀ c ∈ g, W.Has c) (hv : (g.descriptor env).isValid = true)
    (p : Entity → List Val → Bool) :
    ∃ l r' es, selectBy env g p r = .ok l ∧
      (∀ m, l.length < m → workLoop env g p (actDestroy env) m r = .ok (some (r', es))) ∧
      (∀ m, m ≤ l.length → workLoop env g p (actDestroy env) m r = .ok none) ∧ es.Perm l ∧ Reachable W r' ∧
      selectBy env g p r' = .ok [] ∧ (∀ e ∈ l, ¬ Live env r' e) ∧ ∀ e, e ∉ l → SameEntity W r r' e := by
  obtain ⟨l, s1, _⟩ := C116_select hr hg hv p
  obtain ⟨r', es, h⟩ := workLoop_ends (act := actDestroy env) (p := p) hg hv (fun _ r => Reachable W r)
    (fun _ r' e => ¬ Live env r' e) (fun h => h) (fun {n r e} hi _ => by
      obtain ⟨r', b, d, q1, q2, q3, q4, q5, _⟩ := destroy_ledger hi e
      exact ⟨r', by unfold actDestroy; rw [q1]; rfl, q4, q3, q5, fun hf => q3 hf.1⟩)
    (fun hq hs hl => hq (hs.1.mp hl)) (fun _ hq => hq) l.length hr s1 rfl
  exact ⟨l, r', es, s1, h⟩

/-- **C124** The loop that takes a component away from the first entity found and looks again ends after as many rounds, if
the component is one of those looked for and every entity found can do without it. -/
theorem C124_remove {hist : List (Call × Outcome)} (hs : Steps env (Call.Admissible W) Registry.default hist r)
    (hg : ∀ c ∈ g, W.Has c) (hv : (g.descriptor env).isValid = true) (p : Entity → List Val → Bool) {c : CompTy} (hc : c ∈ g)
    {l : List Entity} (hl : selectBy env g p r = .ok l) (hroom : Roomy W hist l.length) (hlose : ∀ e ∈ l, CanLose W r e c) :
    ∃ r' es, (∀ m, l.length < m → workLoop env g p (actRemove env c) m r = .ok (some (r', es))) ∧
      (∀ m, m ≤ l.length → workLoop env g p (actRemove env c) m r = .ok none) ∧ es.Perm l ∧ Reachable W r' ∧
      selectBy env g p r' = .ok [] ∧
      (∀ e ∈ l, Live env r' e ∧ r'.hasComponent env c e = .ok false ∧ SameOthers W r r' e c) ∧
      ∀ e, e ∉ l → SameEntity W r r' e := by
  have hr : Reachable W r := ⟨_, hs⟩
  obtain ⟨l0, s1, _, s3⟩ := C116_select hr hg hv p
  rw [hl] at s1
  cases s1
  exact workLoop_ends (act := actRemove env c) (p := p) hg hv
    (fun n r => ∃ hist, Steps env (Call.Admissible W) Registry.default hist r ∧ Roomy W hist n ∧
      ∀ e, Found env g p r e → CanLose W r e c)
    (fun r r' e => Live env r' e ∧ r'.hasComponent env c e = .ok false ∧ SameOthers W r r' e c)
    (fun ⟨hist, h, _⟩ => ⟨hist, h⟩) (fun {n r e} ⟨hist, h, hroom, hall⟩ hf => by
      obtain ⟨r1, hist1, w, q1, q2, q3, q4, q5, q6, q7, q8, q9⟩ := lose_one (hg c hc) h hroom (hall e hf)
      have hnot : ¬ Found env g p r1 e := by
        rintro ⟨_, vals, hget, _⟩
        have hr1 : Reachable W r1 := ⟨_, q2⟩
        obtain ⟨cs, i⟩ := hr1.inv
        obtain ⟨f, hff⟩ := i.live_iff.mp q5
        rw [i.getComponents_eq hg hv, hff] at hget
        simp only [Option.bind_some] at hget
        split at hget
        · next hh =>
          have := (i.has_iff hff (hg c hc)).mpr (List.all_eq_true.mp hh c hc)
          rw [q6] at this
          cases this
        · cases hget
      refine ⟨r1, by unfold actRemove; rw [q1]; rfl, ⟨hist1, q2, q3, fun x hx => ?_⟩, ⟨q5, q6, q8⟩, q9, hnot⟩
      by_cases hxe : x = e
      · subst hxe
        exact absurd hx hnot
      · exact (hall x ((Found.same ⟨_, h⟩ ⟨_, q2⟩ (q9 x hxe) hg hv).mp hx)).same (hg c hc) (q9 x hxe))
    (fun {r₀ r₁ r₂ e} hq hs => ⟨hs.1.mpr hq.1, by rw [(hs.2 c (hg c hc)).1]; exact hq.2.1, fun c' h1 h2 =>
      ⟨(hs.2 c' h1).1.trans (hq.2.2 c' h1 h2).1, (hs.2 c' h1).2.trans (hq.2.2 c' h1 h2).2⟩⟩)
    (fun {r₀ r₁ r₂ e} hs hq => ⟨hq.1, hq.2.1, fun c' h1 h2 =>
      ⟨(hq.2.2 c' h1 h2).1.trans (hs.2 c' h1).1, (hq.2.2 c' h1 h2).2.trans (hs.2 c' h1).2⟩⟩)
    l.length ⟨hist, hs, hroom, fun e he => hlose e ((s3 e).mpr he)⟩ hl rfl

/-- **C124** If the component is the only one of the first entity found, it cannot be removed, and the loop never ends. -/
theorem C124_stuck (hr : Reachable W r) {c : CompTy} {e : Entity} {l : List Entity}
    (hl : selectBy env g p r = .ok (e :: l)) (hadm : (Call.remove e c).Admissible W r)
    (honly : ∀ c', W.Has c' → r.hasComponent env c' e = .ok true → c' = c) (n : Nat) :
    workLoop env g p (actRemove env c) n r = .ok none := by
  have hrem := (C15_remove_component (r' := r) hr hadm).2.1 (.inr (.inr honly))
  induction n with
  | zero => rfl
  | succ n ih =>
    unfold workLoop
    rw [hl]
    simp only [ok_bind]
    unfold actRemove at ih ⊢
    rw [hrem]
    simp only [ok_bind, pure_eq_ok]
    simp only [pure_eq_ok] at ih
    rw [ih]
    rfl

/-! ## Examples -/

set_option maxRecDepth 100000 in
/-- C124 on the example registry: two entities have `A`; the loop needs three rounds and destroys both. -/
example : Reachable exWorld exR ∧ okOr [] (selectBy exEnv [exA] (fun _ _ => true) exR) = [exE2, exE1] ∧
    (workLoop exEnv [exA] (fun _ _ => true) (actDestroy exEnv) 2 exR).toOption = some none ∧
    okOr none ((workLoop exEnv [exA] (fun _ _ => true) (actDestroy exEnv) 3 exR).map (fun x => x.map (fun y =>
      (y.2, y.1.iterEntities exEnv)))) = some ([exE2, exE1], [exE4]) :=
  ⟨exReachable, by decide +kernel, by decide +kernel, by decide +kernel⟩

set_option maxRecDepth 100000 in
/-- C124: taking `A` away from the entities that have `A` and `B`; one entity has them and can do without. -/
example : Steps exEnv (Call.Admissible exWorld) Registry.default (exCalls.zip exOuts) exR ∧
    selectBy exEnv [exA, exB] (fun _ _ => true) exR = .ok [exE1] ∧ Roomy exWorld (exCalls.zip exOuts) [exE1].length ∧
    (∀ e ∈ [exE1], CanLose exWorld exR e exA) ∧
    okOr none ((workLoop exEnv [exA, exB] (fun _ _ => true) (actRemove exEnv exA) 2 exR).map (fun x => x.map (fun y =>
      (y.2, [exA, exB, exC].map (fun c => okOr none (y.1.getComponent exEnv c exE1)))))) =
        some ([exE1], [none, some exValB, some exValC]) := by
  refine ⟨exSteps, by decide +kernel, ⟨.inl (by decide +kernel), by decide +kernel⟩, fun e he => ?_, by decide +kernel⟩
  rw [List.mem_singleton.mp he]
  exact ⟨by decide +kernel, [20, 30], withoutId_check (by decide +kernel), by decide, by decide,
    exUsed (by decide) (by decide) (by decide), by decide +kernel⟩

set_option maxRecDepth 100000 in
/-- C124: the first entity found with `A` has nothing else, so the loop that removes `A` does not get past it. -/
example : selectBy exEnv [exA] (fun _ _ => true) exR = .ok (exE2 :: [exE1]) ∧ (Call.remove exE2 exA).Admissible exWorld exR ∧
    ∀ c', exWorld.Has c' → exR.hasComponent exEnv c' exE2 = .ok true → c' = exA := by
  have h : ∀ c' ∈ [exA, exB, exC], exR.hasComponent exEnv c' exE2 = .ok true → c' = exA := by decide +kernel
  refine ⟨by decide +kernel, ⟨show exA ∈ [exA, exB, exC] by decide, fun _ s hs1 hs2 => ?_⟩, h⟩
  exact absurd (AscSet.unique hs2 (withoutId_check (by decide +kernel) : AscSet [] (WithoutId exWorld exR exE2 exA))) hs1

end Shard
