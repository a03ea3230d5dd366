import Verif.Spec.Migrate
import Verif.Props.Exchange
import Verif.Props.HandOver
import Verif.Props.Select
/-!
# C131: a component type can be replaced by another on all entities
-/

set_option autoImplicit false

namespace Shard

open Script

variable {env : Env} {W : World env} {r r' : Registry} {c d : CompTy}

theorem Convertible.same {e : Entity} (hc : W.Has c) (hd : W.Has d) (h : Convertible W r c d e) (hs : SameEntity W r r' e) :
    Convertible W r' c d e := by
  obtain ⟨h1, h2, s, h3, h4⟩ := h
  refine ⟨by rw [(hs.2 d hd).1]; exact h1, h2.same hc hs, s, h3.congr (fun i => ?_), h4⟩
  rw [hs.hasId]

theorem convert_one {e : Entity} {v : Val} {n : Nat} {hist : List (Call × Outcome)} (hc : W.Has c) (hd : W.Has d)
    (hs : Steps env (Call.Admissible W) Registry.default hist r) (hroom : Roomy W hist (n + 2)) (h : Convertible W r c d e)
    (hv : v.HasTy c) :
    ∃ r' w hist', gainThenLose env r e c v d = .ok (some (r', w)) ∧ Steps env (Call.Admissible W) Registry.default hist' r' ∧
      Roomy W hist' n ∧ Exchanged W r r' e c v d := by
  obtain ⟨hy, hg, hx⟩ := h
  obtain ⟨s, s1, s2, s3⟩ := hx
  obtain ⟨l1, l2⟩ := exchange_len ⟨_, hs⟩ hc hd hg hy s1
  have hne : d ≠ c := fun hh => by rw [hh, hg.2.1] at hy; cases hy
  obtain ⟨r1, hist1, a1, a2, a3, a4, a5, a6, a7, a8⟩ := gain_one (n := n + 1) hc hs hroom hg hv
  have hlose : CanLose W r1 e d := by
    refine ⟨by rw [(a7 d hd hne).1]; exact hy, s, s1.congr (fun i => ?_), l1, l2, s2, s3⟩
    unfold WithoutId
    rw [hasId_gained hc a5 a7]
    constructor
    · rintro (q | ⟨q1, q2⟩)
      · exact ⟨fun hh => hne (W.id_inj hd hc (hh.symm.trans q)), Or.inl q⟩
      · exact ⟨q1, Or.inr q2⟩
    · rintro ⟨q1, q2 | q2⟩
      · exact Or.inl q2
      · exact Or.inr ⟨q1, q2⟩
  obtain ⟨r2, hist2, w, b1, b2, b3, b4, b5, b6, b7, b8, b9⟩ := lose_one (n := n) hd a2 a3 hlose
  refine ⟨r2, w, hist2, ?_, b2, b3, b5, ?_, ?_, b6, b7, fun c' h1 h2 h3 => ?_, fun x hx => ?_⟩
  · unfold gainThenLose
    rw [a1]
    simp only [ok_bind]
    rw [b1]
    rfl
  · rw [(b8 c hc (fun hh => hne hh.symm)).1]; exact a5
  · rw [(b8 c hc (fun hh => hne hh.symm)).2]; exact a6
  · exact ⟨(b8 c' h1 h3).1.trans (a7 c' h1 h2).1, (b8 c' h1 h3).2.trans (a7 c' h1 h2).2⟩
  · exact (a8 x hx).trans (b9 x hx)

theorem get_of_has (hr : Reachable W r) (hd : W.Has d) {e : Entity} (h : r.hasComponent env d e = .ok true) :
    ∃ w, r.getComponent env d e = .ok (some w) ∧ w.HasTy d := by
  obtain ⟨cs, i⟩ := hr.inv
  have hg := i.getComponent_eq hd (e := e)
  rw [i.hasComponent_eq hd] at h
  injection h with h
  obtain ⟨w, hw⟩ := Option.isSome_iff_exists.mp h
  rw [hw] at hg
  exact ⟨w, hg, typed_of_get hr hd hg⟩

/-- **C131** Any number of entities can be converted: all calls succeed, every one of them has the new component, computed from
the old, in place of it, and nothing else changes. -/
theorem C131_convert (hc : W.Has c) (hd : W.Has d) {f : Val → Val} (hf : ∀ w, w.HasTy d → (f w).HasTy c) :
    ∀ (l : List Entity) {r : Registry} {hist : List (Call × Outcome)} {n : Nat},
    Steps env (Call.Admissible W) Registry.default hist r → Roomy W hist (n + 2 * l.length) → l.Nodup →
    (∀ e ∈ l, Convertible W r c d e) →
    ∃ r' hist', convertAll env c d f r l = .ok (some r') ∧ Steps env (Call.Admissible W) Registry.default hist' r' ∧
      Roomy W hist' n ∧ (∀ e ∈ l, Converted W r r' c d f e) ∧ ∀ e, e ∉ l → SameEntity W r r' e
  | [], r, hist, n, hs, hroom, _, _ =>
    ⟨r, hist, rfl, hs, hroom, fun x hx => by simp at hx, fun _ _ => ⟨Iff.rfl, fun _ _ => ⟨rfl, rfl⟩⟩⟩
  | e :: l, r, hist, n, hs, hroom, hn, hall => by
    obtain ⟨hn1, hn2⟩ := List.nodup_cons.mp hn
    have hroom' : Roomy W hist (n + 2 * l.length + 2) := hroom
    have he := hall e List.mem_cons_self
    obtain ⟨w, hw, hwt⟩ := get_of_has ⟨_, hs⟩ hd he.1
    obtain ⟨r1, w', hist1, a1, a2, a3, b1, b2, b3, b4, b5, b6, b7⟩ := convert_one hc hd hs hroom' he (hf w hwt)
    have hne : ∀ x ∈ l, x ≠ e := fun x hx hh => hn1 (hh ▸ hx)
    obtain ⟨r2, hist2, p1, p2, p3, p4, p5⟩ := C131_convert hc hd hf l a2 a3 hn2 (fun x hx =>
      (hall x (List.mem_cons_of_mem _ hx)).same hc hd (b7 x (hne x hx)))
    refine ⟨r2, hist2, ?_, p2, p3, fun x hx => ?_, fun x hx => ?_⟩
    · unfold convertAll
      rw [hw]
      simp only [ok_bind]
      rw [a1]
      exact p1
    · rcases List.mem_cons.mp hx with rfl | hx
      · have hsame := p5 x hn1
        exact ⟨hsame.1.mpr b1, by rw [(hsame.2 c hc).1]; exact b2, ⟨w, hw, by rw [(hsame.2 c hc).2]; exact b3⟩,
          by rw [(hsame.2 d hd).1]; exact b4, by rw [(hsame.2 d hd).2]; exact b5,
          fun c' h1 h2 h3 => ⟨(hsame.2 c' h1).1.trans (b6 c' h1 h2 h3).1, (hsame.2 c' h1).2.trans (b6 c' h1 h2 h3).2⟩⟩
      · obtain ⟨q1, q2, ⟨u, q3, q4⟩, q5, q6, q7⟩ := p4 x hx
        have hsame := b7 x (hne x hx)
        exact ⟨q1, q2, ⟨u, by rw [← (hsame.2 d hd).2]; exact q3, q4⟩, q5, q6,
          fun c' h1 h2 h3 => ⟨(q7 c' h1 h2 h3).1.trans (hsame.2 c' h1).1, (q7 c' h1 h2 h3).2.trans (hsame.2 c' h1).2⟩⟩
    · rw [List.mem_cons, not_or] at hx
      exact (b7 x hx.1).trans (p5 x hx.2)

theorem select_has (hr : Reachable W r) (hd : W.Has d) (hv : (Group.descriptor env [d]).isValid = true) :
    ∃ l, selectBy env [d] (fun _ _ => true) r = .ok l ∧ l.Nodup ∧ ∀ e, e ∈ l ↔ r.hasComponent env d e = .ok true := by
  have hg : ∀ c ∈ ([d] : Group), W.Has c := fun c hc => by rw [List.mem_singleton.mp hc]; exact hd
  obtain ⟨l, h1, h2, h3⟩ := C116_select hr hg hv (fun _ _ => true)
  refine ⟨l, h1, h2, fun e => ⟨fun he => ?_, fun he => (h3 e).mpr ?_⟩⟩
  · obtain ⟨hl, vals, q1, _⟩ := (h3 e).mp he
    obtain ⟨cs, i⟩ := hr.inv
    obtain ⟨f, hf⟩ := i.live_iff.mp hl
    rw [i.getComponents_eq hg hv, hf] at q1
    simp only [Option.bind_some] at q1
    refine (i.has_iff hf hd).mpr ?_
    by_cases hh : hasAll f [d] = true
    · exact List.all_eq_true.mp hh d List.mem_cons_self
    · rw [if_neg hh] at q1
      exact absurd (Except.ok.inj q1) (by simp)
  · have hl := live_of_has hr hd he
    exact ⟨hl, _, hr.valsOf_eq hg hv ⟨hl, fun c hc => by rw [List.mem_singleton.mp hc]; exact he⟩, rfl⟩

/-- **C131** All entities with a `D` get a `C` in place of it, computed from it; afterwards no entity has a `D`, and no other
entity has changed. -/
theorem C131_migrate (hc : W.Has c) (hd : W.Has d) (hv : (Group.descriptor env [d]).isValid = true) {f : Val → Val}
    (hf : ∀ w, w.HasTy d → (f w).HasTy c) {hist : List (Call × Outcome)}
    (hs : Steps env (Call.Admissible W) Registry.default hist r) (hroom : Roomy W hist (2 * (r.iterEntities env).length))
    (hall : ∀ e, r.hasComponent env d e = .ok true → Convertible W r c d e) :
    ∃ r', migrate env c d f r = .ok (some r') ∧ Reachable W r' ∧ (∀ e, r'.hasComponent env d e = .ok false) ∧
      selectBy env [d] (fun _ _ => true) r' = .ok [] ∧
      ∀ e, (r.hasComponent env d e = .ok true → Converted W r r' c d f e) ∧
        (r.hasComponent env d e ≠ .ok true → SameEntity W r r' e) := by
  have hr : Reachable W r := ⟨_, hs⟩
  obtain ⟨l, h1, h2, h3⟩ := select_has hr hd hv
  have hlen : l.length ≤ (r.iterEntities env).length :=
    h2.length_le_of_subset (fun e he => live_of_has hr hd ((h3 e).mp he))
  obtain ⟨r', hist', p1, p2, p3, p4, p5⟩ := C131_convert hc hd hf l (n := 2 * (r.iterEntities env).length - 2 * l.length) hs
    (by rw [Nat.sub_add_cancel (by omega)]; exact hroom) h2 (fun e he => hall e ((h3 e).mp he))
  have hr' : Reachable W r' := ⟨_, p2⟩
  have hno : ∀ e, r'.hasComponent env d e = .ok false := fun e => by
    by_cases he : e ∈ l
    · exact (p4 e he).2.2.2.1
    · rw [((p5 e he).2 d hd).1]
      obtain ⟨cs, i⟩ := hr.inv
      have := mt (h3 e).mpr he
      rw [i.hasComponent_eq hd] at this ⊢
      cases hb : ((r.look env cs e).bind (fun f => f d)).isSome with
      | false => rfl
      | true => rw [hb] at this; exact absurd rfl this
  refine ⟨r', ?_, hr', hno, ?_, fun e => ⟨fun he => p4 e ((h3 e).mpr he), fun he => p5 e (mt (h3 e).mp he)⟩⟩
  · unfold migrate
    rw [h1]
    exact p1
  · obtain ⟨l', q1, q2, q3⟩ := select_has hr' hd hv
    cases l' with
    | nil => exact q1
    | cons e l' =>
      have := (q3 e).mp List.mem_cons_self
      rw [hno e] at this
      cases this

theorem hasId_converted {f : Val → Val} {e : Entity} (hc : W.Has c) (hdd : W.Has d) (h : Converted W r r' c d f e) (i : UInt16) :
    HasId W r' e i ↔ i = c.id ∨ (i ≠ d.id ∧ HasId W r e i) := by
  obtain ⟨_, h2, _, h4, _, h6⟩ := h
  constructor
  · rintro ⟨c', q1, q2, q3⟩
    by_cases h1 : c' = c
    · exact Or.inl (by rw [← q2, h1])
    · have hd' : c' ≠ d := fun hh => by rw [hh, h4] at q3; cases q3
      refine Or.inr ⟨fun hi => ?_, c', q1, q2, by rw [← (h6 c' q1 h1 hd').1]; exact q3⟩
      exact hd' (W.id_inj q1 hdd (q2.trans hi))
  · rintro (rfl | ⟨hi, c', q1, q2, q3⟩)
    · exact ⟨c, hc, rfl, h2⟩
    · by_cases h1 : c' = c
      · exact ⟨c, hc, by rw [← h1]; exact q2, h2⟩
      · have hd' : c' ≠ d := fun hh => hi (by rw [← q2, hh])
        exact ⟨c', q1, q2, by rw [(h6 c' q1 h1 hd').1]; exact q3⟩

theorem Converted.back {f : Val → Val} {e : Entity} (hc : W.Has c) (hd : W.Has d) (h0 : Convertible W r c d e)
    (hb : ∃ s, AscSet s (HasId W r e) ∧ W.Used s ∧ plainId env s ≠ ARCHETYPE_ID_INVALID) (h : Converted W r r' c d f e) :
    Convertible W r' d c e := by
  have hid := hasId_converted hc hd h
  obtain ⟨h1, h2, _, h4, _, h6⟩ := h
  obtain ⟨g1, ⟨g2, g3, t, t1, t2⟩, _⟩ := h0
  obtain ⟨s, s1, s2⟩ := hb
  have hdid : HasId W r e d.id := ⟨d, hd, rfl, g1⟩
  have hcid : ¬ HasId W r e c.id := by
    rintro ⟨c', q1, q2, q3⟩
    rw [W.id_inj q1 hc q2, g3] at q3
    cases q3
  refine ⟨h2, ⟨h1, h4, t, t1.congr (fun i => ?_), t2⟩, s, s1.congr (fun i => ?_), s2⟩
  · unfold WithId
    rw [hid i]
    constructor
    · rintro (q | q)
      · exact Or.inr (Or.inl q)
      · by_cases hi : i = d.id
        · exact Or.inl hi
        · exact Or.inr (Or.inr ⟨hi, q⟩)
    · rintro (q | q | q)
      · exact Or.inr (by rw [q]; exact hdid)
      · exact Or.inl q
      · exact Or.inr q.2
  · rw [hid i]
    constructor
    · intro q
      by_cases hi : i = d.id
      · exact Or.inl hi
      · exact Or.inr ⟨fun hh => hcid (by rw [← hh]; exact q), Or.inr ⟨hi, q⟩⟩
    · rintro (q | ⟨q1, q2 | q2⟩)
      · rw [q]; exact hdid
      · exact absurd q2 q1
      · exact q2.2

/-- **C131** Converting back with a function that undoes the first one, in any order of the entities, leaves every entity as it
was at the beginning. -/
theorem C131_back (hc : W.Has c) (hd : W.Has d) {f g : Val → Val} (hf : ∀ w, w.HasTy d → (f w).HasTy c)
    (hg : ∀ v, v.HasTy c → (g v).HasTy d) (hgf : ∀ w, w.HasTy d → g (f w) = w) {l l' : List Entity}
    {hist : List (Call × Outcome)} (hs : Steps env (Call.Admissible W) Registry.default hist r)
    (hroom : Roomy W hist (2 * l'.length + 2 * l.length)) (hn : l.Nodup) (hp : l'.Perm l)
    (hall : ∀ e ∈ l, Convertible W r c d e)
    (hb : ∀ e ∈ l, ∃ s, AscSet s (HasId W r e) ∧ W.Used s ∧ plainId env s ≠ ARCHETYPE_ID_INVALID) :
    ∃ r₁ r₂, convertAll env c d f r l = .ok (some r₁) ∧ convertAll env d c g r₁ l' = .ok (some r₂) ∧ Reachable W r₂ ∧
      ∀ e, SameEntity W r r₂ e := by
  have hr : Reachable W r := ⟨_, hs⟩
  obtain ⟨r1, hist1, a1, a2, a3, a4, a5⟩ := C131_convert hc hd hf l hs hroom hn hall
  obtain ⟨r2, hist2, b1, b2, b3, b4, b5⟩ := C131_convert (n := 0) hd hc hg l' a2 (by rw [Nat.zero_add]; exact a3)
    (hp.nodup_iff.mpr hn) (fun e he => (a4 e (hp.mem_iff.mp he)).back hc hd (hall e (hp.mem_iff.mp he)) (hb e (hp.mem_iff.mp he)))
  refine ⟨r1, r2, a1, b1, ⟨_, b2⟩, fun e => ?_⟩
  by_cases he : e ∈ l
  · obtain ⟨p1, p2, ⟨w, p3, p4⟩, p5, p6, p7⟩ := a4 e he
    obtain ⟨q1, q2, ⟨v, q3, q4⟩, q5, q6, q7⟩ := b4 e (hp.mem_iff.mpr he)
    obtain ⟨g1, ⟨g2, g3, _⟩, _⟩ := hall e he
    rw [p4] at q3
    cases q3
    refine ⟨⟨fun _ => g2, fun _ => q1⟩, fun c' hc' => ?_⟩
    by_cases h1 : c' = d
    · subst h1
      rw [hgf w (typed_of_get hr hd p3)] at q4
      exact ⟨by rw [q2, g1], by rw [q4, p3]⟩
    · by_cases h2 : c' = c
      · subst h2
        refine ⟨by rw [q5, g3], ?_⟩
        rw [q6]
        obtain ⟨cs, i⟩ := hr.inv
        rw [i.hasComponent_eq hc] at g3
        rw [i.getComponent_eq hc]
        injection g3 with g3
        rw [Option.isSome_eq_false_iff.mp g3 |> Option.isNone_iff_eq_none.mp]
      · exact ⟨(q7 c' hc' h1 h2).1.trans (p7 c' hc' h2 h1).1, (q7 c' hc' h1 h2).2.trans (p7 c' hc' h2 h1).2⟩
  · exact (a5 e he).trans (b5 e (mt hp.mem_iff.mp he))

/-- Three entities: with `A`, with `A` and `B`, with `B`. -/
def migCalls : List Call := [.create [exA] [exValA], .create [exA, exB] [exValA', exValB], .create [exB] [exValB]]

def migHist : List (Call × Outcome) := migCalls.zip (okOr ([], Registry.default) (runCalls exEnv Registry.default migCalls)).1
def migR : Registry := (okOr ([], Registry.default) (runCalls exEnv Registry.default migCalls)).2

set_option maxRecDepth 100000 in
theorem migSteps : Steps exEnv (Call.Admissible exWorld) Registry.default migHist migR := by
  have hrun : runCalls exEnv Registry.default migCalls =
      .ok ((okOr ([], Registry.default) (runCalls exEnv Registry.default migCalls)).1, migR) := by decide +kernel
  have := Steps.of_run (calls := migCalls) (ok := Call.Admissible exWorld)
    (fun r call hc => exCheck_ok (List.all_eq_true.mp (show migCalls.all exCheck = true by decide +kernel) call hc) r)
    Steps.nil hrun
  rwa [List.nil_append] at this

/-- The first bytes of an `A` become the `C`. -/
def migF (w : Val) : Val := ⟨exValC.ty, (w.bytes ++ exValC.bytes).take exC.size⟩

set_option maxRecDepth 100000 in
/-- C131: the hypotheses hold for the three entities when `A` is replaced by `C`. -/
example : exWorld.Has exC ∧ exWorld.Has exA ∧ (Group.descriptor exEnv [exA]).isValid = true ∧
    (∀ w, w.HasTy exA → (migF w).HasTy exC) ∧ Steps exEnv (Call.Admissible exWorld) Registry.default migHist migR ∧
    Roomy exWorld migHist (2 * (migR.iterEntities exEnv).length) ∧
    ∀ e, migR.hasComponent exEnv exA e = .ok true → Convertible exWorld migR exC exA e := by
  refine ⟨show exC ∈ [exA, exB, exC] by decide, show exA ∈ [exA, exB, exC] by decide, by decide +kernel, fun w hw => ⟨rfl, ?_⟩,
    migSteps, ⟨.inl (by decide +kernel), by decide +kernel⟩, fun e he => ?_⟩
  · simp [migF, hw.2, exC, exValC, exA]
  · have hl := live_of_has (W := exWorld) ⟨_, migSteps⟩ (show exA ∈ [exA, exB, exC] by decide) he
    have hit : migR.iterEntities exEnv = [Entity.newUnchecked 0 0, Entity.newUnchecked 1 0, Entity.newUnchecked 2 0] := by
      decide +kernel
    have hl' := hl
    unfold Live at hl'
    rw [hit] at hl'
    simp only [List.mem_cons, List.not_mem_nil, or_false] at hl'
    rcases hl' with rfl | rfl | rfl
    · exact ⟨he, ⟨hl, by decide +kernel, [10, 30], withId_check (by decide +kernel), by decide,
        exUsed (by decide) (by decide) (by decide), by decide +kernel⟩,
        [30], exchange_check (by decide +kernel), exUsed (by decide) (by decide) (by decide), by decide +kernel⟩
    · exact ⟨he, ⟨hl, by decide +kernel, [10, 20, 30], withId_check (by decide +kernel), by decide,
        exUsed (by decide) (by decide) (by decide), by decide +kernel⟩,
        [20, 30], exchange_check (by decide +kernel), exUsed (by decide) (by decide) (by decide), by decide +kernel⟩
    · exact absurd he (by decide +kernel)

set_option maxRecDepth 100000 in
/-- C131: the components of the three entities afterwards. -/
example : okOr none ((migrate exEnv exC exA migF migR).map (fun o => o.map (fun r => (r.iterEntities exEnv).map (fun e =>
      [exA, exB, exC].map (fun c => okOr none (r.getComponent exEnv c e)))))) =
    some [[none, none, some (migF exValA)], [none, some exValB, some (migF exValA')], [none, some exValB, none]] := by
  decide +kernel

/-- A `C` becomes an `A` with zeros at the end, and back. -/
def backF (w : Val) : Val := ⟨exValA.ty, w.bytes ++ [0, 0]⟩
def backG (v : Val) : Val := ⟨exValC.ty, v.bytes.take exC.size⟩

set_option maxRecDepth 100000 in
/-- C131: the hypotheses of `C131_back` hold for the last entity of `exR`, whose `C` is replaced by an `A` and back. -/
example : exWorld.Has exA ∧ exWorld.Has exC ∧ (∀ w, w.HasTy exC → (backF w).HasTy exA) ∧
    (∀ v, v.HasTy exA → (backG v).HasTy exC) ∧ (∀ w, w.HasTy exC → backG (backF w) = w) ∧
    Steps exEnv (Call.Admissible exWorld) Registry.default (exCalls.zip exOuts) exR ∧
    Roomy exWorld (exCalls.zip exOuts) (2 * [exE4].length + 2 * [exE4].length) ∧
    (∀ e ∈ [exE4], Convertible exWorld exR exA exC e) ∧
    ∀ e ∈ [exE4], ∃ s, AscSet s (HasId exWorld exR e) ∧ exWorld.Used s ∧ plainId exEnv s ≠ ARCHETYPE_ID_INVALID := by
  refine ⟨show exA ∈ [exA, exB, exC] by decide, show exC ∈ [exA, exB, exC] by decide, fun w hw => ⟨rfl, ?_⟩,
    fun v hv => ⟨rfl, ?_⟩, fun w hw => ?_, exSteps, ⟨.inl (by decide +kernel), by decide +kernel⟩, fun e he => ?_, fun e he => ?_⟩
  · simp [backF, hw.2, exA, exC]
  · simp [backG, hv.2, exA, exC]
  · obtain ⟨ty, bytes⟩ := w
    have h1 : ty = 3 := hw.1
    have h2 : bytes.length = 2 := hw.2
    simp [backG, backF, exValC, exC, h1, ← h2]
  · rw [List.mem_singleton.mp he]
    exact ⟨by decide +kernel, ⟨by unfold Live; rw [exR_live.1]; decide, by decide +kernel, [10, 30],
      withId_check (by decide +kernel), by decide, exUsed (by decide) (by decide) (by decide), by decide +kernel⟩,
      [10], exchange_check (by decide +kernel), exUsed (by decide) (by decide) (by decide), by decide +kernel⟩
  · rw [List.mem_singleton.mp he]
    exact ⟨[30], ids_check (by decide +kernel), exUsed (by decide) (by decide) (by decide), by decide +kernel⟩

end Shard
