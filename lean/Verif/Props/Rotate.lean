import Verif.Spec.Rotate
import Verif.Props.HandOver
/-!
# C130: values can be exchanged among entities, and none is lost
-/

set_option autoImplicit false

namespace Shard

variable {env : Env} {W : World env} {r : Registry} {c : CompTy}

/-- Swapping along a list of entities, on the values alone. -/
def swapValues : (Entity → Option Val) → Val → List Entity → (Entity → Option Val) × Val
  | A, x, [] => (A, x)
  | A, x, e :: es =>
    match A e with
    | none => swapValues A x es
    | some old => swapValues (fun y => if y = e then some x else A y) old es

theorem swapValues_append : ∀ (l l' : List Entity) (A : Entity → Option Val) (x : Val),
    swapValues A x (l ++ l') = swapValues (swapValues A x l).1 (swapValues A x l).2 l'
  | [], _, _, _ => rfl
  | e :: l, l', A, x => by
    rw [List.cons_append]
    cases hA : A e with
    | none => simp only [swapValues, hA]; exact swapValues_append l l' _ _
    | some old => simp only [swapValues, hA]; exact swapValues_append l l' _ _

theorem swapValues_out : ∀ (l : List Entity) (A : Entity → Option Val) (x : Val) (y : Entity), y ∉ l →
    (swapValues A x l).1 y = A y
  | [], _, _, _, _ => rfl
  | e :: l, A, x, y, hy => by
    have h1 : y ≠ e := fun h => hy (h ▸ List.mem_cons_self)
    have h2 : y ∉ l := fun h => hy (List.mem_cons_of_mem _ h)
    unfold swapValues
    cases A e with
    | none => exact swapValues_out l A x y h2
    | some old =>
      simp only
      rw [swapValues_out l _ old y h2, if_neg h1]

theorem swapValues_shift : ∀ (l : List Entity) (A : Entity → Option Val) (x : Val), l.Nodup → (∀ e ∈ l, (A e).isSome) →
    l.map (swapValues A x l).1 ++ [some (swapValues A x l).2] = some x :: l.map A
  | [], _, _, _, _ => rfl
  | e :: l, A, x, hn, hA => by
    obtain ⟨hn1, hn2⟩ := List.nodup_cons.mp hn
    obtain ⟨old, ho⟩ := Option.isSome_iff_exists.mp (hA e List.mem_cons_self)
    have hne : ∀ y ∈ l, y ≠ e := fun y hy h => hn1 (h ▸ hy)
    have hm : l.map (fun y => if y = e then some x else A y) = l.map A :=
      List.map_congr_left (fun y hy => if_neg (hne y hy))
    have ih := swapValues_shift l (fun y => if y = e then some x else A y) old hn2 (fun y hy => by
      rw [if_neg (hne y hy)]
      exact hA y (List.mem_cons_of_mem _ hy))
    rw [hm] at ih
    unfold swapValues
    simp only [ho]
    rw [List.map_cons, swapValues_out l _ old e hn1, if_pos rfl, List.cons_append, ih, List.map_cons, ho]

theorem filterMap_same {A B : Entity → Option Val} : ∀ (L : List Entity), (∀ y ∈ L, A y = B y) → L.filterMap A = L.filterMap B
  | [], _ => rfl
  | y :: L, h => by
    rw [List.filterMap_cons, List.filterMap_cons, h y List.mem_cons_self,
      filterMap_same L (fun z hz => h z (List.mem_cons_of_mem _ hz))]

theorem filterMap_update {x old : Val} {e : Entity} {A : Entity → Option Val} (ho : A e = some old) :
    ∀ (L : List Entity), L.Nodup → e ∈ L →
      (L.filterMap (fun y => if y = e then some x else A y) ++ [old]).Perm (L.filterMap A ++ [x])
  | [], _, h => by simp at h
  | y :: L, hn, h => by
    obtain ⟨hn1, hn2⟩ := List.nodup_cons.mp hn
    by_cases hy : y = e
    · subst hy
      have hm : L.filterMap (fun z => if z = y then some x else A z) = L.filterMap A :=
        filterMap_same L (fun z hz => if_neg (fun (hh : z = y) => hn1 (hh ▸ hz)))
      rw [List.filterMap_cons_some (b := x) (by simp), List.filterMap_cons_some ho, hm]
      have h1 : (x :: L.filterMap A ++ [old]).Perm (x :: (old :: L.filterMap A)) :=
        List.Perm.cons _ (List.perm_append_singleton _ _)
      have h2 : (old :: L.filterMap A ++ [x]).Perm (x :: (old :: L.filterMap A)) := List.perm_append_singleton _ _
      exact h1.trans h2.symm
    · have hmem : e ∈ L := by
        rcases List.mem_cons.mp h with h | h
        · exact absurd h.symm hy
        · exact h
      have ih := filterMap_update (x := x) ho L hn2 hmem
      cases hA : A y with
      | none =>
        rw [List.filterMap_cons_none (by rw [if_neg hy]; exact hA), List.filterMap_cons_none hA]
        exact ih
      | some w =>
        rw [List.filterMap_cons_some (b := w) (by rw [if_neg hy]; exact hA), List.filterMap_cons_some hA]
        exact ih.cons w

theorem swapValues_perm {L : List Entity} (hL : L.Nodup) : ∀ (l : List Entity) (A : Entity → Option Val) (x : Val),
    (∀ e, (A e).isSome → e ∈ L) →
    (L.filterMap (swapValues A x l).1 ++ [(swapValues A x l).2]).Perm (L.filterMap A ++ [x])
  | [], _, _, _ => List.Perm.refl _
  | e :: l, A, x, h => by
    unfold swapValues
    cases ho : A e with
    | none => exact swapValues_perm hL l A x h
    | some old =>
      have he : e ∈ L := h e (by rw [ho]; rfl)
      refine (swapValues_perm hL l _ old (fun y hy => ?_)).trans (filterMap_update ho L hL he)
      by_cases hye : y = e
      · exact hye ▸ he
      · exact h y (by simpa [hye] using hy)

theorem valueOf_eq (hr : Reachable W r) (hc : W.Has c) (e : Entity) : r.getComponent env c e = .ok (valueOf env c r e) := by
  obtain ⟨cs, i⟩ := hr.inv
  unfold valueOf
  rw [i.getComponent_eq hc]

theorem live_of_value (hr : Reachable W r) (hc : W.Has c) {e : Entity} (h : (valueOf env c r e).isSome) :
    e ∈ r.iterEntities env := by
  obtain ⟨cs, i⟩ := hr.inv
  unfold valueOf at h
  rw [i.getComponent_eq hc] at h
  cases hf : r.look env cs e with
  | none => rw [hf] at h; cases h
  | some f => exact i.live_iff.mpr ⟨f, hf⟩

theorem has_iff_value (hr : Reachable W r) (hc : W.Has c) {e : Entity} :
    r.hasComponent env c e = .ok true ↔ (valueOf env c r e).isSome = true := by
  obtain ⟨cs, i⟩ := hr.inv
  unfold valueOf
  rw [i.getComponent_eq hc, i.hasComponent_eq hc]
  exact ⟨fun h => by injection h, fun h => by rw [← h]⟩

theorem has_value (hr : Reachable W r) (hc : W.Has c) {e : Entity} (h : r.hasComponent env c e = .ok true) :
    (valueOf env c r e).isSome := (has_iff_value hr hc).mp h

theorem OnlyValues.refl (W : World env) (r : Registry) (c : CompTy) : OnlyValues W r r c :=
  ⟨rfl, fun _ => ⟨rfl, fun _ _ _ => ⟨rfl, rfl⟩⟩⟩

theorem swap_one (hr : Reachable W r) (hc : W.Has c) {x : Val} (hx : x.HasTy c) (e : Entity) :
    (valueOf env c r e = none ∧ r.replaceComponent env c e x = .ok (r, none)) ∨
    ∃ r' old, r.replaceComponent env c e x = .ok (r', some old) ∧ Reachable W r' ∧ valueOf env c r e = some old ∧
      old.HasTy c ∧ valueOf env c r' = (fun y => if y = e then some x else valueOf env c r y) ∧ OnlyValues W r r' c := by
  obtain ⟨cs, i⟩ := hr.inv
  rcases i.replaceComponent_spec hc e hx with ⟨h1, h2⟩ | ⟨r', cs', f, old, h1, h2, h3, h4, h5, _, h6, _⟩
  · refine .inl ⟨?_, h2⟩
    unfold valueOf
    rw [i.getComponent_eq hc]
    cases hf : r.look env cs e with
    | none => rfl
    | some f => exact h1 f hf
  · have hv : valueOf env c r e = some old := by
      unfold valueOf
      rw [i.getComponent_eq hc, h3]
      exact h4
    refine .inr ⟨r', old, h1, ?_, hv, i.look_typed h3 h4, ?_, ?_, fun y => ⟨?_, fun c' hc' hne => ⟨?_, ?_⟩⟩⟩
    · obtain ⟨hist, hs⟩ := hr
      have hrun : ∃ out, (Call.write e c x).run env r = .ok (r', out) := ⟨_, by simp only [Call.run, h1]; rfl⟩
      obtain ⟨out, hrun⟩ := hrun
      exact ⟨_, hs.snoc (call := .write e c x) ⟨hc, hx⟩ hrun⟩
    · funext y
      unfold valueOf
      rw [i.getComponent_eq hc, h2.getComponent_eq hc, h5 y]
      by_cases hy : y = e
      · subst hy
        simp
      · simp [hy]
    · unfold Registry.iterEntities
      rw [h6]
    · rw [i.hasComponent_eq hc, h2.hasComponent_eq hc, h5 y]
      by_cases hy : y = e
      · subst hy
        simp [h3, h4]
      · simp [hy]
    · rw [i.hasComponent_eq hc', h2.hasComponent_eq hc', h5 y]
      by_cases hy : y = e
      · subst hy
        simp [h3, hne]
      · simp [hy]
    · rw [i.getComponent_eq hc', h2.getComponent_eq hc', h5 y]
      by_cases hy : y = e
      · subst hy
        simp [h3, hne]
      · simp [hy]

theorem OnlyValues.trans {r' r'' : Registry} (h : OnlyValues W r r' c) (h' : OnlyValues W r' r'' c) : OnlyValues W r r'' c :=
  ⟨h'.1.trans h.1, fun e => ⟨(h'.2 e).1.trans (h.2 e).1, fun c' hc hne =>
    ⟨((h'.2 e).2 c' hc hne).1.trans ((h.2 e).2 c' hc hne).1, ((h'.2 e).2 c' hc hne).2.trans ((h.2 e).2 c' hc hne).2⟩⟩⟩

theorem swapAlong_eq (hc : W.Has c) : ∀ (l : List Entity) {r : Registry} {x : Val}, Reachable W r → x.HasTy c →
    ∃ r', swapAlong env c r x l = .ok (r', (swapValues (valueOf env c r) x l).2) ∧ Reachable W r' ∧
      (swapValues (valueOf env c r) x l).2.HasTy c ∧ valueOf env c r' = (swapValues (valueOf env c r) x l).1 ∧
      OnlyValues W r r' c
  | [], r, x, hr, hx => ⟨r, rfl, hr, hx, rfl, OnlyValues.refl W r c⟩
  | e :: l, r, x, hr, hx => by
    unfold swapAlong swapValues
    rcases swap_one hr hc hx e with ⟨h1, h2⟩ | ⟨r1, old, h1, h2, h3, h4, h5, h6⟩
    · rw [h2, h1]
      exact swapAlong_eq hc l hr hx
    · rw [h1, h3]
      simp only [ok_bind]
      rw [← h5]
      obtain ⟨r', p1, p2, p3, p4, p5⟩ := swapAlong_eq hc l h2 h4
      exact ⟨r', p1, p2, p3, p4, h6.trans p5⟩

/-- **C130** Swapping along any list of handles, repeated or dead ones among them, never faults, changes nothing but values of
the component, and neither loses nor duplicates a value: those in the registry and the one in hand are the same before and
after. -/
theorem C130_conserved (hr : Reachable W r) (hc : W.Has c) {x : Val} (hx : x.HasTy c) (l : List Entity) :
    ∃ r' x', swapAlong env c r x l = .ok (r', x') ∧ Reachable W r' ∧ x'.HasTy c ∧ OnlyValues W r r' c ∧
      (∀ e, r'.getComponent env c e = .ok (valueOf env c r' e)) ∧
      (∀ e, e ∉ l → valueOf env c r' e = valueOf env c r e) ∧
      ((r.iterEntities env).filterMap (valueOf env c r') ++ [x']).Perm
        ((r.iterEntities env).filterMap (valueOf env c r) ++ [x]) := by
  obtain ⟨r', p1, p2, p3, p4, p5⟩ := swapAlong_eq hc l hr hx
  refine ⟨r', _, p1, p2, p3, p5, fun e => valueOf_eq p2 hc e, fun e he => ?_, ?_⟩
  · rw [p4]
    exact swapValues_out l _ x e he
  · rw [p4]
    have hn : (r.iterEntities env).Nodup := by
      obtain ⟨hist, hs⟩ := hr
      have h := C09_entity_iteration hs
      exact h.1.nodup_iff.mpr h.2.1
    exact swapValues_perm hn l _ x (fun e he => live_of_value hr hc he)

/-- **C130** Swapping along distinct entities that have the component moves every value on to the next entity: the first gets
the value in hand, and the value of the last is in hand afterwards. -/
theorem C130_shift (hr : Reachable W r) (hc : W.Has c) {x : Val} (hx : x.HasTy c) {l : List Entity} (hl : l.Nodup)
    (hh : ∀ e ∈ l, r.hasComponent env c e = .ok true) :
    ∃ r' x', swapAlong env c r x l = .ok (r', x') ∧ Reachable W r' ∧ OnlyValues W r r' c ∧
      l.map (valueOf env c r') ++ [some x'] = some x :: l.map (valueOf env c r) ∧
      ∀ e, e ∉ l → valueOf env c r' e = valueOf env c r e := by
  obtain ⟨r', p1, p2, p3, p4, p5⟩ := swapAlong_eq hc l hr hx
  refine ⟨r', _, p1, p2, p5, ?_, fun e he => ?_⟩
  · rw [p4]
    exact swapValues_shift l _ x hl (fun e he => has_value hr hc (hh e he))
  · rw [p4]
    exact swapValues_out l _ x e he

/-- **C130** Coming back to the first entity at the end makes it a rotation: every entity gets the value of the one before it,
the first that of the last, and the value held in hand at first is there again. With two entities this exchanges their
values. -/
theorem C130_rotate (hr : Reachable W r) (hc : W.Has c) {x : Val} (hx : x.HasTy c) {a : Entity} {t : List Entity}
    (hl : (a :: t).Nodup) (hh : ∀ e ∈ a :: t, r.hasComponent env c e = .ok true) :
    ∃ r', swapAlong env c r x (a :: t ++ [a]) = .ok (r', x) ∧ Reachable W r' ∧ OnlyValues W r r' c ∧
      t.map (valueOf env c r') ++ [valueOf env c r' a] = (a :: t).map (valueOf env c r) ∧
      ∀ e, e ∉ a :: t → valueOf env c r' e = valueOf env c r e := by
  obtain ⟨r', p1, p2, p3, p4, p5⟩ := swapAlong_eq hc (a :: t ++ [a]) hr hx
  have hs := swapValues_shift (a :: t) (valueOf env c r) x hl (fun e he => has_value hr hc (hh e he))
  rw [List.map_cons, List.cons_append, List.cons.injEq] at hs
  obtain ⟨s1, s2⟩ := hs
  have ha := (List.nodup_cons.mp hl).1
  have hstep : swapValues (valueOf env c r) x (a :: t ++ [a]) =
      (fun y => if y = a then some (swapValues (valueOf env c r) x (a :: t)).2 else (swapValues (valueOf env c r) x (a :: t)).1 y,
        x) := by
    rw [swapValues_append]
    generalize swapValues (valueOf env c r) x (a :: t) = q at s1 s2 ⊢
    simp only [swapValues, s1]
  rw [hstep] at p1 p4
  refine ⟨r', p1, p2, p5, ?_, fun e he => ?_⟩
  · rw [p4]
    simp only [if_pos]
    rw [← s2]
    congr 1
    exact List.map_congr_left (fun y hy => if_neg (fun (h : y = a) => ha (h ▸ hy)))
  · rw [p4]
    simp only
    rw [if_neg (fun (h : e = a) => he (h ▸ List.mem_cons_self))]
    exact swapValues_out _ _ x e he

/-- **C130** Two entities exchange their values; every other query is answered as before. -/
theorem C130_exchange (hr : Reachable W r) (hc : W.Has c) {x : Val} (hx : x.HasTy c) {a b : Entity} (hne : a ≠ b)
    (ha : r.hasComponent env c a = .ok true) (hb : r.hasComponent env c b = .ok true) :
    ∃ r', swapAlong env c r x [a, b, a] = .ok (r', x) ∧ Reachable W r' ∧ OnlyValues W r r' c ∧
      r'.getComponent env c a = r.getComponent env c b ∧ r'.getComponent env c b = r.getComponent env c a ∧
      ∀ e, e ≠ a → e ≠ b → SameEntity W r r' e := by
  obtain ⟨r', p1, p2, p3, p4, p5⟩ := C130_rotate hr hc hx (a := a) (t := [b]) (by simp [hne]) (fun e he => by
    simp only [List.mem_cons, List.not_mem_nil, or_false] at he
    rcases he with rfl | rfl
    · exact ha
    · exact hb)
  simp only [List.map_cons, List.map_nil, List.cons_append, List.nil_append, List.cons.injEq, and_true] at p4
  refine ⟨r', p1, p2, p3, ?_, ?_, fun e h1 h2 => ⟨?_, fun c' hc' => ?_⟩⟩
  · rw [valueOf_eq hr hc, valueOf_eq p2 hc, p4.2]
  · rw [valueOf_eq hr hc, valueOf_eq p2 hc, p4.1]
  · unfold Live
    rw [p3.1]
  · by_cases h : c' = c
    · subst h
      exact ⟨(p3.2 e).1, by rw [valueOf_eq hr hc, valueOf_eq p2 hc, p5 e (by simp [h1, h2])]⟩
    · exact (p3.2 e).2 c' hc' h

/-- **C130** If the second of two entities lacks the component or is dead, nothing changes, and the value in hand is there
again. -/
theorem C130_absent (hr : Reachable W r) (hc : W.Has c) {x : Val} (hx : x.HasTy c) {a b : Entity}
    (ha : r.hasComponent env c a = .ok true) (hb : r.hasComponent env c b ≠ .ok true) :
    ∃ r', swapAlong env c r x [a, b, a] = .ok (r', x) ∧ Reachable W r' ∧ OnlyValues W r r' c ∧
      ∀ e, valueOf env c r' e = valueOf env c r e := by
  obtain ⟨r', p1, p2, p3, p4, p5⟩ := swapAlong_eq hc [a, b, a] hr hx
  obtain ⟨v, hv⟩ := Option.isSome_iff_exists.mp (has_value hr hc ha)
  have hb' : valueOf env c r b = none := by
    cases h : valueOf env c r b with
    | none => rfl
    | some w => exact absurd ((has_iff_value hr hc).mpr (by rw [h]; rfl)) hb
  have hne : b ≠ a := fun h => by rw [h, hv] at hb'; cases hb'
  have hstep : swapValues (valueOf env c r) x [a, b, a] = (valueOf env c r, x) := by
    simp only [swapValues, hv, if_neg hne, hb', if_pos]
    refine Prod.ext ?_ rfl
    funext y
    by_cases hy : y = a
    · simp [hy, hv]
    · simp [hy]
  rw [hstep] at p1 p4
  exact ⟨r', p1, p2, p5, fun e => by rw [p4]⟩

/-- **C130** The two entities must differ: an entity exchanged with itself keeps the value that was in hand, and its own is
in hand afterwards. -/
theorem C130_itself (hr : Reachable W r) (hc : W.Has c) {x : Val} (hx : x.HasTy c) {a : Entity}
    (ha : r.hasComponent env c a = .ok true) :
    ∃ r' v, swapAlong env c r x [a, a, a] = .ok (r', v) ∧ r.getComponent env c a = .ok (some v) ∧
      r'.getComponent env c a = .ok (some x) ∧ OnlyValues W r r' c := by
  obtain ⟨r', p1, p2, p3, p4, p5⟩ := swapAlong_eq hc [a, a, a] hr hx
  obtain ⟨v, hv⟩ := Option.isSome_iff_exists.mp (has_value hr hc ha)
  simp only [swapValues, hv, if_pos] at p1 p4
  exact ⟨r', v, p1, by rw [valueOf_eq hr hc, hv], by rw [valueOf_eq p2 hc, p4]; simp, p5⟩

set_option maxRecDepth 100000 in
/-- C130: the hypotheses hold for the example registry, whose first two entities have the component `exA`. -/
example : Reachable exWorld exR ∧ exWorld.Has exA ∧ Val.HasTy ⟨1, [9, 9, 9, 9]⟩ exA ∧ [exE1, exE2].Nodup ∧
    (∀ e ∈ [exE1, exE2], exR.hasComponent exEnv exA e = .ok true) ∧ exR.hasComponent exEnv exA exE4 ≠ .ok true :=
  ⟨exReachable, show exA ∈ [exA, exB, exC] by decide, ⟨rfl, rfl⟩, by decide, by decide +kernel, by decide +kernel⟩

set_option maxRecDepth 100000 in
/-- C130: the values of the two entities before, and after exchanging them. -/
example : [exE1, exE2].map (valueOf exEnv exA exR) = [some exValA, some ⟨1, [5, 6, 7, 8]⟩] ∧
    okOr none ((swapAlong exEnv exA exR ⟨1, [9, 9, 9, 9]⟩ [exE1, exE2, exE1]).map (fun y =>
      some (y.2, [exE1, exE2].map (valueOf exEnv exA y.1)))) =
      some (⟨1, [9, 9, 9, 9]⟩, [some ⟨1, [5, 6, 7, 8]⟩, some exValA]) := by decide +kernel

end Shard
