import Verif.Spec.Spawn
import Verif.Props.Temporary
import Verif.Props.Rebuild
/-!
# C127: entities created one after the other are iterated in that order
-/

set_option autoImplicit false

namespace Shard

open Script

variable {env : Env} {W : World env} {r r' : Registry} {g : Group}

theorem eq_of_nodup_of_all {α : Type} {l : List α} {a : α} (hn : l.Nodup) (ha : a ∈ l) (h : ∀ x ∈ l, x = a) : l = [a] := by
  match l, hn, ha, h with
  | [x], _, _, h => rw [h x (by simp)]
  | x :: y :: l, hn, _, h =>
    have h1 := h x (by simp)
    have h2 := h y (by simp)
    subst h1
    subst h2
    simp at hn

/-- **C127** One entity: exact iteration yields what it yielded before and then the new entity, with its values at the ends of
the slices. -/
theorem C127_one {hist : List (Call × Outcome)} (hs : Steps env (Call.Admissible W) Registry.default hist r)
    (hg : W.OkGroup g) (hv : (g.descriptor env).isValid = true) {vals : List Val} (ht : TypedVals g vals) {e : Entity}
    (hc : r.createEntity env g vals = .ok (r', .ok e)) :
    ∃ ents cols, r.iterEntityComponentsExact env g = .ok (ents, cols) ∧
      r'.iterEntityComponentsExact env g = .ok (ents ++ [e], addRow cols vals) := by
  have hr : Reachable W r := ⟨_, hs⟩
  have hadm : (Call.create g vals).Admissible W r := ⟨ht, fun _ => hg⟩
  have hrun := run_create_ok hc
  have hs' := hs.snoc hadm hrun
  obtain ⟨c1, c2, c3⟩ := C10_create_then_read hr hadm hc
  obtain ⟨d1, d2, _⟩ := C03_created_handle_fresh hr hadm hc
  have hframe := C11_create_frame hr hadm hc
  obtain ⟨ents, cols, new, cols', e1, e2, e3⟩ := C126_exact hr (Steps.nil.snoc ⟨hadm, fun _ h => by cases h⟩ hrun) hg hv
  obtain ⟨ents1, cols1, o1, p1, _, _, _, _, _, p2, p3, p4⟩ := C104_exact hs hg hv
  obtain ⟨ents2, cols2, o2, q1, _, _, _, _, _, q2, q3, q4⟩ := C104_exact hs' hg hv
  rw [e1] at p1; cases p1
  rw [e2] at q1; cases q1
  have hx : HasExactly W r' e g := ⟨d2, fun c hW => by
    rw [c3 c hW]
    constructor
    · intro hh
      injection hh with hh
      exact of_decide_eq_true hh
    · intro hh
      rw [decide_eq_true hh]⟩
  have hmem : e ∈ ents ++ new := (q4 e).mpr ⟨hx, by simp [movedLast, List.foldl_append]⟩
  have hnot : e ∉ ents := fun hh => d1 ((p4 e).mp hh).1.1
  have hnew : new = [e] := by
    refine eq_of_nodup_of_all (List.nodup_append.mp q3).2.1 ((List.mem_append.mp hmem).resolve_left hnot) (fun x hx => ?_)
    apply Classical.byContradiction
    intro hne
    exact (e3 x hx).1 ((hframe x (fun hh => hne (Registry.Res.ok.inj hh).symm)).1.mp (e3 x hx).2)
  subst hnew
  refine ⟨ents, cols, e1, ?_⟩
  rw [e2]
  suffices cols' = addRow cols vals by rw [this]
  apply List.ext_getElem?
  intro j
  unfold addRow
  rw [List.getElem?_zipWith]
  by_cases hj : j < g.length
  · have hgj : g[j]? = some g[j] := List.getElem?_eq_getElem hj
    obtain ⟨col, h1, h2, h3⟩ := p2.2 j g[j] hgj
    obtain ⟨col', h1', h2', h3'⟩ := q2.2 j g[j] hgj
    have hjv : j < vals.length := by rw [ht.1]; exact hj
    rw [h1, h1', List.getElem?_eq_getElem hjv]
    simp only [Option.some.injEq]
    apply List.ext_getElem?
    intro k
    rw [List.length_append] at h2'
    by_cases hk : k < ents.length
    · have hke : ents[k]? = some ents[k] := List.getElem?_eq_getElem hk
      have hne : ents[k] ≠ e := fun hh => hnot (by rw [← hh]; exact List.getElem_mem hk)
      have z1 := h3 k _ hke
      have z2 := h3' k _ (by rw [List.getElem?_append_left hk]; exact hke)
      have hW : W.Has g[j] := hg.has _ (List.getElem_mem hj)
      rw [((hframe ents[k] (fun hh => hne (Registry.Res.ok.inj hh).symm)).2 g[j] hW).2, z1] at z2
      rw [List.getElem?_append_left (by omega)]
      injection z2 with z2
      exact z2.symm
    · by_cases hk' : k = ents.length
      · subst hk'
        have z2 := h3' ents.length e (by simp)
        rw [c1 j g[j] vals[j] hgj (List.getElem?_eq_getElem hjv)] at z2
        injection z2 with z2
        rw [← z2, ← h2]
        simp
      · have hlen : [e].length = 1 := rfl
        rw [List.getElem?_eq_none (by omega), List.getElem?_eq_none (by simp; omega)]
  · have h1 : cols[j]? = none := List.getElem?_eq_none (by rw [p2.1]; omega)
    have h2 : cols'[j]? = none := List.getElem?_eq_none (by rw [q2.1]; omega)
    rw [h1, h2]

/-- **C127** Many entities: away from the limits all calls succeed; exact iteration yields what it yielded before and then the
new entities in the order of their creation, each with the values it was created with. -/
theorem C127_spawn (hg : W.OkGroup g) (hv : (g.descriptor env).isValid = true) :
    ∀ (l : List (List Val)) {r : Registry} {hist : List (Call × Outcome)},
    Steps env (Call.Admissible W) Registry.default hist r → Roomy W hist l.length → (∀ vals ∈ l, TypedVals g vals) →
    ∃ ents cols r' es, r.iterEntityComponentsExact env g = .ok (ents, cols) ∧ spawnAll env g r l = .ok (some (r', es)) ∧
      r'.iterEntityComponentsExact env g = .ok (ents ++ es, l.foldl addRow cols) ∧ Reachable W r' ∧ es.length = l.length ∧
      es.Nodup ∧ (∀ e ∈ es, ¬ Live env r e ∧ HasExactly W r' e g) ∧ ∀ e, e ∉ es → SameEntity W r r' e
  | [], r, hist, hs, _, _ => by
    obtain ⟨ents, cols, _, p1, _⟩ := C104_exact hs hg hv
    exact ⟨ents, cols, r, [], p1, rfl, by simpa using p1, ⟨_, hs⟩, rfl, List.nodup_nil, fun e h => by simp at h,
      fun _ _ => ⟨Iff.rfl, fun _ _ => ⟨rfl, rfl⟩⟩⟩
  | vals :: l, r, hist, hs, hroom, hall => by
    have hroom' : Roomy W hist (l.length + 1) := hroom
    have hr : Reachable W r := ⟨_, hs⟩
    have ht := hall vals List.mem_cons_self
    have hadm : (Call.create g vals).Admissible W r := ⟨ht, fun _ => hg⟩
    obtain ⟨h1, h2, h3⟩ := hroom'.ordinary hs
    obtain ⟨r1, e, hc⟩ := (C75_ordinary_programs h1 h2 h3).1 g vals hadm hv
    obtain ⟨c1, c2, c3⟩ := C10_create_then_read hr hadm hc
    obtain ⟨d1, d2, _⟩ := C03_created_handle_fresh hr hadm hc
    have hframe := C11_create_frame hr hadm hc
    obtain ⟨ents, cols, e1, e2⟩ := C127_one hs hg hv ht hc
    obtain ⟨ents', cols', r', es, p1, p2, p3, p4, p5, p6, p7, p8⟩ := C127_spawn hg hv l (hs.snoc hadm (run_create_ok hc))
      (hroom'.snoc _) (fun x hx => hall x (List.mem_cons_of_mem _ hx))
    rw [e2] at p1; cases p1
    have hfresh : e ∉ es := fun hh => (p7 e hh).1 d2
    refine ⟨ents, cols, r', e :: es, e1, ?_, ?_, p4, by simp [p5], List.nodup_cons.mpr ⟨hfresh, p6⟩, ?_, ?_⟩
    · unfold spawnAll
      rw [hc]
      simp only [ok_bind, p2]
      rfl
    · rw [p3, List.append_assoc]
      rfl
    · intro x hx
      rcases List.mem_cons.mp hx with rfl | hx
      · refine ⟨d1, (p8 x hfresh).1.mpr d2, fun c hW => ?_⟩
        rw [((p8 x hfresh).2 c hW).1, c3 c hW]
        constructor
        · intro hh
          injection hh with hh
          exact of_decide_eq_true hh
        · intro hh
          rw [decide_eq_true hh]
      · have hne : x ≠ e := fun hh => hfresh (by rw [← hh]; exact hx)
        exact ⟨fun hl => (p7 x hx).1 ((hframe x (fun hh => hne (Registry.Res.ok.inj hh).symm)).1.mpr hl), (p7 x hx).2⟩
    · intro x hx
      rw [List.mem_cons, not_or] at hx
      exact (hframe x (fun hh => hx.1 (Registry.Res.ok.inj hh).symm)).trans (p8 x hx.2)

set_option maxRecDepth 100000 in
/-- C127 on `exR`: two entities with `A` alone. -/
example : Steps exEnv (Call.Admissible exWorld) Registry.default (exCalls.zip exOuts) exR ∧ exWorld.OkGroup [exA] ∧
    (Group.descriptor exEnv [exA]).isValid = true ∧ Roomy exWorld (exCalls.zip exOuts) 2 ∧
    (∀ vals ∈ [[exValA], [exValA']], TypedVals [exA] vals) ∧
    exR.iterEntityComponentsExact exEnv [exA] = .ok ([exE2], [[exValA']]) ∧
    ((okOr none (spawnAll exEnv [exA] exR [[exValA], [exValA']])).map
      (fun x => (x.2, okOr ([], []) (x.1.iterEntityComponentsExact exEnv [exA])))) =
      some ([tempE 3, tempE 4], ([exE2, tempE 3, tempE 4], [[exValA', exValA, exValA']])) := by
  refine ⟨exSteps, (exCheck_ok (call := .create [exA] [exValA]) (by decide +kernel) exR).2 (by decide), by decide +kernel,
    ⟨.inl (by decide +kernel), by decide +kernel⟩, fun vals hm => ?_, by decide +kernel, by decide +kernel⟩
  simp only [List.mem_cons, List.not_mem_nil, or_false] at hm
  rcases hm with rfl | rfl
  · exact (exCheck_ok (call := .create [exA] [exValA]) (by decide +kernel) exR).1
  · exact (exCheck_ok (call := .create [exA] [exValA']) (by decide +kernel) exR).1

end Shard
