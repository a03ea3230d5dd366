import Verif.Proofs.Renaming
/-!
# The reference in a program with other component ids: calls and queries
-/

set_option autoImplicit false

namespace Shard

variable {env env' : Env} {ρ : Renaming} {W : World env} {W' : World env'}

theorem all_ren (g : Group) (cts : List CompTy) :
    (g.ren ρ).all (fun c => decide (c ∈ renTys ρ cts)) = g.all (fun c => decide (c ∈ cts)) := by
  unfold Group.ren
  rw [List.all_map]
  congr 1
  funext c
  simp only [Function.comp, mem_renTys]

/-- Writes through the exact iterators. -/
theorem exactIndex_ren (P : RenamedProgram ρ W W') {r : Registry} {cs : List Content} {R : RReg} (h : RRel W r cs R) {g : Group}
    (hok : W.OkGroup g) (hw : g.WF) :
    exactIndex env' (R.ren env env' ρ).tables (g.ren ρ) = exactIndex env R.tables g := by
  have hn : (tyIds g).Nodup := hw.nodup
  unfold exactIndex
  rw [Group.ren_length, ← (sortTys_perm g).length_eq, ← renTys_sort hn]
  exact tableIndex_ren P h.fullTables (hok.goodTys hw.pos hw.le hn) true

theorem RReg.step_ren (P : RenamedProgram ρ W W') {r : Registry} {cs : List Content} {R : RReg} (h : RRel W r cs R) {c : Call}
    (hd : c.Disciplined W r) (ho : c.OrderFree) :
    StepRen env env' ρ (R.step env c) ((R.ren env env' ρ).step env' (c.ren ρ)) := by
  have hfull := h.fullTables
  have hT : (R.ren env env' ρ).tables = R.tables.map (RTable.ren env env' ρ) := rfl
  obtain ⟨ha, hm⟩ := hd
  cases c with
  | create g vals =>
    simp only [Call.ren, RReg.step]
    by_cases hw : 1 ≤ g.length ∧ g.length ≤ 14 ∧ (tyIds g).Nodup
    · have hw' : 1 ≤ (g.ren ρ).length ∧ (g.ren ρ).length ≤ 14 ∧ (tyIds (g.ren ρ)).Nodup := by
        rw [Group.ren_length, nodup_ren]; exact hw
      rw [if_pos hw, if_pos hw']
      have hok := ha.2 hw.2.2
      have hgt := hok.goodTys hw.1 hw.2.1 hw.2.2
      have hI := internTable_ren P hfull hgt true (P.created_reserved hok.has hw.2.2)
      simp only [kindId] at hI
      rw [hT, ← renTys_sort hw.2.2, hI]
      cases hy : internTable R.tables (sortTys g) (createdId env (sortTys g)) with
      | mk ts o =>
        cases o with
        | none => exact StepRen.of_eq rfl rfl
        | some i =>
          obtain ⟨_, _, t, ht, htc⟩ := internTable_at (b := true) hfull hgt hy
          dsimp only
          have hV : (R.ren env env' ρ).versions = R.versions := rfl
          rw [hV, rowCount_ren]
          by_cases h1 : R.versions.length < 16777215
          · rw [if_pos h1, if_pos h1]
            by_cases h2 : rowCount ts i < 8388608
            · rw [if_pos h2, if_pos h2, RReg.ren_alloc,
                onRows_append (cts := sortTys g) (vals := (sortTys g).map (fun c => valOf g vals c)) ?_ _ ?_]
              · exact StepRen.of_eq rfl rfl
              · intro t' ht'; rw [ht] at ht'; cases ht'; exact htc
              · refine (renVals_congr (fun c hc => ?_)).symm
                rw [valOf_map _ hc, valOf_ren]
            · rw [if_neg h2, if_neg h2]
              cases env.debug <;> cases env'.debug <;> simp [StepRen, FaultLike]
          · rw [if_neg h1, if_neg h1]
            exact StepRen.of_eq rfl rfl
    · have hw' : ¬ (1 ≤ (g.ren ρ).length ∧ (g.ren ρ).length ≤ 14 ∧ (tyIds (g.ren ρ)).Nodup) := by
        rw [Group.ren_length, nodup_ren]; exact hw
      rw [if_neg hw, if_neg hw']
      exact StepRen.of_eq rfl rfl
  | destroy e =>
    simp only [Call.ren, RReg.step]
    rw [RReg.ren_find]
    cases hf : findEntity R.tables e with
    | none => exact StepRen.of_eq rfl rfl
    | some x =>
      obtain ⟨i, k, t, vals⟩ := x
      simp only [Option.map_some]
      rw [hT, onRows_swap]
      exact ⟨rfl, rfl, renVals_perm (nodup_of_tyIds (hfull t (findEntity_mem hf)).tys.nodup) (h.row_length hf)⟩
  | removeEntity g e =>
    simp only [Call.ren, RReg.step]
    rw [RReg.ren_find]
    cases hf : findEntity R.tables e with
    | none => exact StepRen.of_eq rfl rfl
    | some x =>
      obtain ⟨i, k, t, vals⟩ := x
      simp only [Option.map_some]
      rw [hT, onRows_swap]
      refine StepRen.of_eq rfl ?_
      have : (g.ren ρ).map (fun c => valOf (t.ren env env' ρ).cts (renVals ρ t.cts vals) c) =
          g.map (fun c => valOf t.cts vals c) := by
        unfold Group.ren
        rw [List.map_map]
        exact List.map_congr_left (fun c _ => renVals_valOf (h.row_length hf) c)
      simp only [this]
  | add e c v =>
    simp only [Call.ren, RReg.step]
    rw [RReg.ren_find]
    cases hf : findEntity R.tables e with
    | none => exact StepRen.of_eq rfl rfl
    | some x =>
      obtain ⟨i, k, t, vals⟩ := x
      simp only [Option.map_some]
      have hC : (t.ren env env' ρ).cts = renTys ρ t.cts := rfl
      rw [hC, renTys_length]
      have hor : (c.ren ρ ∈ renTys ρ t.cts ∨ t.cts.length = 14) ↔ (c ∈ t.cts ∨ t.cts.length = 14) := by rw [mem_renTys]
      by_cases h1 : c ∈ t.cts ∨ t.cts.length = 14
      · rw [if_pos h1, if_pos (hor.mpr h1)]; exact StepRen.of_eq rfl rfl
      · rw [if_neg h1, if_neg (fun hx => h1 (hor.mp hx))]
        by_cases h2 : t.cts.length = 13
        · rw [if_pos h2, if_pos h2]; exact Or.inl rfl
        · rw [if_neg h2, if_neg h2]
          have hle := (hfull t (findEntity_mem hf)).tys.good.le
          have hnc : c ∉ t.cts := fun hx => h1 (Or.inl hx)
          obtain ⟨hg, hnd⟩ := goodTys_insert h ha hf hnc (by omega)
          have hI := internTable_ren P hfull hg false (P.changed_reserved hg)
          simp only [kindId] at hI
          rw [hT, ← renTys_insert hnd, hI]
          cases hy : internTable R.tables (insertTy c t.cts) (changedId env (insertTy c t.cts)) with
          | mk ts o =>
            cases o with
            | none => exact StepRen.of_eq rfl rfl
            | some d =>
              obtain ⟨_, _, td, htd, htc⟩ := internTable_at (b := false) hfull hg hy
              dsimp only
              rw [rowCount_ren]
              by_cases h3 : rowCount ts d < 8388608
              · rw [if_pos h3, if_pos h3, onRows_swap,
                  onRows_append (cts := insertTy c t.cts)
                    (vals := (insertTy c t.cts).map (fun c' => if c' = c then v else valOf t.cts vals c')) ?_ _ ?_]
                · exact StepRen.of_eq rfl rfl
                · intro t' ht'
                  obtain ⟨t0, h0, h0'⟩ := onRows_get _ _ _ _ ht'
                  rw [htd] at h0
                  cases h0
                  rw [h0', htc]
                · refine (renVals_congr (fun c' hc' => ?_)).symm
                  rw [valOf_map _ hc', renVals_valOf (h.row_length hf)]
                  by_cases hcc : c' = c
                  · rw [if_pos hcc, if_pos (by rw [hcc])]
                  · rw [if_neg hcc, if_neg (fun hx => hcc (CompTy.ren_inj hx))]
              · rw [if_neg h3, if_neg h3]; exact Or.inl rfl
  | remove e c =>
    simp only [Call.ren, RReg.step]
    rw [RReg.ren_find]
    cases hf : findEntity R.tables e with
    | none => exact StepRen.of_eq rfl rfl
    | some x =>
      obtain ⟨i, k, t, vals⟩ := x
      simp only [Option.map_some]
      have hC : (t.ren env env' ρ).cts = renTys ρ t.cts := rfl
      rw [hC, renTys_length]
      have hor : (c.ren ρ ∉ renTys ρ t.cts ∨ t.cts.length = 1) ↔ (c ∉ t.cts ∨ t.cts.length = 1) := by rw [mem_renTys]
      by_cases h1 : c ∉ t.cts ∨ t.cts.length = 1
      · rw [if_pos h1, if_pos (hor.mpr h1)]; exact StepRen.of_eq rfl rfl
      · rw [if_neg h1, if_neg (fun hx => h1 (hor.mp hx))]
        by_cases h2 : t.cts.length = 14
        · rw [if_pos h2, if_pos h2]; exact Or.inl rfl
        · rw [if_neg h2, if_neg h2]
          have htt := (hfull t (findEntity_mem hf)).tys
          have hpos := htt.good.pos
          have hg := goodTys_erase h ha hf (Classical.byContradiction fun hx => h1 (Or.inl hx)) (by omega)
          have hI := internTable_ren P hfull hg false (P.changed_reserved hg)
          simp only [kindId] at hI
          rw [hT, ← renTys_erase htt.nodup, hI]
          cases hy : internTable R.tables (t.cts.erase c) (changedId env (t.cts.erase c)) with
          | mk ts o =>
            cases o with
            | none => exact StepRen.of_eq rfl rfl
            | some d =>
              obtain ⟨_, _, td, htd, htc⟩ := internTable_at (b := false) hfull hg hy
              dsimp only
              rw [rowCount_ren]
              by_cases h3 : rowCount ts d < 8388608
              · rw [if_pos h3, if_pos h3, onRows_swap,
                  onRows_append (cts := t.cts.erase c)
                    (vals := (t.cts.erase c).map (fun c' => valOf t.cts vals c')) ?_ _ ?_]
                · refine StepRen.of_eq rfl ?_
                  simp only [renVals_valOf (h.row_length hf)]
                · intro t' ht'
                  obtain ⟨t0, h0, h0'⟩ := onRows_get _ _ _ _ ht'
                  rw [htd] at h0
                  cases h0
                  rw [h0', htc]
                · refine (renVals_congr (fun c' hc' => ?_)).symm
                  rw [valOf_map _ hc', renVals_valOf (h.row_length hf)]
              · rw [if_neg h3, if_neg h3]; exact Or.inl rfl
  | write e c v =>
    simp only [Call.ren, RReg.step]
    rw [RReg.ren_find]
    cases hf : findEntity R.tables e with
    | none => exact StepRen.of_eq rfl rfl
    | some x =>
      obtain ⟨i, k, t, vals⟩ := x
      simp only [Option.map_some]
      have hC : (t.ren env env' ρ).cts = renTys ρ t.cts := rfl
      rw [hC, renVals_lookup (h.row_length hf)]
      cases lookupTy t.cts vals c with
      | none => exact StepRen.of_eq rfl rfl
      | some old => exact StepRen.of_eq (RReg.ren_store (x := (e, vals)) (findEntity_at hf).1 (h.row_length hf) c v) rfl
  | writeIn g e j v =>
    simp only [Call.ren, RReg.step]
    rw [RReg.ren_find]
    cases hf : findEntity R.tables e with
    | none => exact StepRen.of_eq rfl rfl
    | some x =>
      obtain ⟨i, k, t, vals⟩ := x
      simp only [Option.map_some]
      have hC : (t.ren env env' ρ).cts = renTys ρ t.cts := rfl
      rw [hC, all_ren, Group.ren_get]
      cases g.all (fun c => decide (c ∈ t.cts)) with
      | false => exact StepRen.of_eq rfl rfl
      | true =>
        cases g[j]? with
        | none => exact StepRen.of_eq rfl rfl
        | some c =>
          simp only [Option.map_some]
          rw [renVals_valOf (h.row_length hf)]
          exact StepRen.of_eq (RReg.ren_store (x := (e, vals)) (findEntity_at hf).1 (h.row_length hf) c v) rfl
  | writeIter it g n j k v =>
    obtain ⟨h1, h2, h3, h4⟩ := ha
    have hw := (Group.isValid_iff.mp h2).1
    have hit : iterTables env' (R.ren env env' ρ).tables (g.ren ρ) it = iterTables env R.tables g it := by
      cases it <;> simp only [Call.OrderFree] at ho <;> simp only [iterTables] <;> rw [exactIndex_ren P h ⟨h1, h4⟩ hw]
    simp only [Call.ren, RReg.step]
    rw [hit]
    cases (iterTables env R.tables g it)[n]? with
    | none => exact StepRen.of_eq rfl rfl
    | some i =>
      have hTi : (R.ren env env' ρ).tables[i]? = (R.tables[i]?).map (RTable.ren env env' ρ) := List.getElem?_map ..
      simp only [hTi, Group.ren_get]
      cases ht : R.tables[i]? with
      | none => exact StepRen.of_eq rfl rfl
      | some t =>
        cases g[j]? with
        | none => exact StepRen.of_eq rfl rfl
        | some c =>
          simp only [Option.map_some]
          have hr : (t.ren env env' ρ).rows[k]? = (t.rows[k]?).map (renRow ρ t.cts) := List.getElem?_map ..
          rw [hr]
          cases hx : t.rows[k]? with
          | none => exact StepRen.of_eq rfl rfl
          | some x =>
            have hl := (hfull t (List.mem_of_getElem? ht)).rows x (List.mem_of_getElem? hx)
            simp only [Option.map_some]
            refine StepRen.of_eq (RReg.ren_store ht hl c v) ?_
            have : valOf (t.ren env env' ρ).cts (renRow ρ t.cts x).2 (c.ren ρ) = valOf t.cts x.2 c := renVals_valOf hl c
            simp only [this]

/-! ## Queries -/

section

variable {r : Registry} {cs : List Content} {R : RReg}

theorem RReg.ren_get (h : RRel W r cs R) (c : CompTy) (e : Entity) : (R.ren env env' ρ).get (c.ren ρ) e = R.get c e := by
  unfold RReg.get
  rw [RReg.ren_find]
  cases hf : findEntity R.tables e with
  | none => rfl
  | some x =>
    obtain ⟨i, k, t, vals⟩ := x
    exact renVals_lookup (h.row_length hf) c

theorem map_valOf_ren {cts : List CompTy} {vals : List Val} (hl : vals.length = cts.length) (g : Group) :
    (g.ren ρ).map (fun c => valOf (renTys ρ cts) (renVals ρ cts vals) c) = g.map (fun c => valOf cts vals c) := by
  unfold Group.ren
  rw [List.map_map]
  exact List.map_congr_left (fun c _ => renVals_valOf hl c)

theorem RReg.ren_gets (h : RRel W r cs R) (g : Group) (e : Entity) : (R.ren env env' ρ).gets (g.ren ρ) e = R.gets g e := by
  unfold RReg.gets
  rw [RReg.ren_find]
  cases hf : findEntity R.tables e with
  | none => rfl
  | some x =>
    obtain ⟨i, k, t, vals⟩ := x
    simp only [Option.map_some]
    have hC : (t.ren env env' ρ).cts = renTys ρ t.cts := rfl
    rw [hC, all_ren, map_valOf_ren (h.row_length hf)]

theorem RTable.ren_column {t : RTable} (h : FullTable W t) (c : CompTy) : (t.ren env env' ρ).column (c.ren ρ) = t.column c := by
  unfold RTable.column RTable.ren
  dsimp only
  rw [List.map_map]
  exact List.map_congr_left (fun x hx => renVals_valOf (h.rows x hx) c)

theorem RTable.ren_columns {t : RTable} (h : FullTable W t) (g : Group) :
    (g.ren ρ).map (t.ren env env' ρ).column = g.map t.column := by
  unfold Group.ren
  rw [List.map_map]
  exact List.map_congr_left (fun c _ => RTable.ren_column h c)

theorem RTable.ren_ents (t : RTable) : (t.ren env env' ρ).rows.map Prod.fst = t.rows.map Prod.fst := by
  unfold RTable.ren
  dsimp only
  rw [List.map_map]
  rfl

theorem flatMap_perm {α β : Type} {f g : α → List β} : ∀ {l : List α}, (∀ x ∈ l, (f x).Perm (g x)) →
    (l.flatMap f).Perm (l.flatMap g)
  | [], _ => List.Perm.refl _
  | x :: l, h => by
    rw [List.flatMap_cons, List.flatMap_cons]
    exact (h x List.mem_cons_self).append (flatMap_perm (fun y hy => h y (List.mem_cons_of_mem _ hy)))

theorem RReg.ren_all (h : RRel W r cs R) : (R.ren env env' ρ).all.Perm R.all := by
  unfold RReg.all RReg.ren
  dsimp only
  rw [List.flatMap_map]
  refine flatMap_perm (fun t ht => ?_)
  have hf := h.fullTables t ht
  have hC : (t.ren env env' ρ).cts = renTys ρ t.cts := rfl
  rw [hC]
  refine ((renTys_perm t.cts).flatMap_right _).trans (List.Perm.of_eq ?_)
  unfold Group.ren
  rw [List.flatMap_map]
  congr 1
  funext c
  exact RTable.ren_column hf c

theorem RReg.ren_exactly (P : RenamedProgram ρ W W') (h : RRel W r cs R) {g : Group}
    (hok : W.OkGroup g) (hv : (g.descriptor env).isValid = true) :
    (R.ren env env' ρ).exactly env' (g.ren ρ) = R.exactly env g := by
  have hw := (Group.isValid_iff.mp hv).1
  unfold RReg.exactly
  rw [exactIndex_ren P h hok hw]
  have hempty : (g.ren ρ).map (fun _ => ([] : List Val)) = g.map (fun _ => []) := by
    unfold Group.ren
    rw [List.map_map]
    rfl
  cases exactIndex env R.tables g with
  | none => simp only [Option.bind_none, hempty]
  | some i =>
    have hT : (R.ren env env' ρ).tables[i]? = (R.tables[i]?).map (RTable.ren env env' ρ) := List.getElem?_map ..
    simp only [Option.bind_some, hT]
    cases ht : R.tables[i]? with
    | none => simp only [Option.map_none, hempty]
    | some t =>
      simp only [Option.map_some]
      rw [RTable.ren_ents, RTable.ren_columns (h.fullTables t (List.mem_of_getElem? ht))]

theorem RTable.ren_desc (t : RTable) : (t.ren env env' ρ).desc.len = t.desc.len ∧
    (t.ren env env' ρ).desc.components.Perm (t.desc.components.map (fun c => { c with id := ρ.to c.id })) := by
  have hl : (t.ren env env' ρ).desc.len = t.desc.len := renTys_length _
  refine ⟨hl, ?_⟩
  have h1 : (t.ren env env' ρ).desc.components = (renTys ρ t.cts).map CompTy.descriptor := by
    unfold ArchetypeDescriptor.components
    exact List.take_of_length_le (Nat.le_of_eq (List.length_map ..))
  have h2 : t.desc.components = t.cts.map CompTy.descriptor := by
    unfold ArchetypeDescriptor.components
    exact List.take_of_length_le (Nat.le_of_eq (List.length_map ..))
  rw [h1, h2]
  refine ((renTys_perm t.cts).map _).trans (List.Perm.of_eq ?_)
  unfold Group.ren
  rw [List.map_map, List.map_map]
  rfl

theorem RReg.ren_matching (h : RRel W r cs R) (g : Group) {f f' : ArchetypeDescriptor → Bool} (hf : FiltersAlike ρ f f') :
    ((R.ren env env' ρ).matching (g.ren ρ) f').Perm (R.matching g f) := by
  have hz : (R.tables.map (RTable.ren env env' ρ)).zipIdx = R.tables.zipIdx.map (fun x => (x.1.ren env env' ρ, x.2)) := by
    rw [List.zipIdx_map]
    rfl
  have h1 : (visitOrder (R.ren env env' ρ).tables).Perm ((visitOrder R.tables).map (fun x => (x.1.ren env env' ρ, x.2))) := by
    refine (visitOrder_spec _).1.trans ?_
    have : (R.ren env env' ρ).tables = R.tables.map (RTable.ren env env' ρ) := rfl
    rw [this, hz]
    exact ((visitOrder_spec R.tables).1.map _).symm
  have hmem : ∀ x ∈ visitOrder R.tables, FullTable W x.1 := by
    intro x hx
    have := (visitOrder_spec R.tables).1.mem_iff.mp hx
    exact h.fullTables x.1 (List.fst_mem_of_mem_zipIdx this)
  unfold RReg.matching visits
  refine ((h1.filter _).map _).trans ?_
  rw [List.filter_map, List.map_map]
  have hfil : ∀ x : RTable × Nat,
      ((fun x : RTable × Nat => (g.ren ρ).all (fun c => decide (c ∈ x.1.cts)) && f' x.1.desc) ∘
      (fun x => (x.1.ren env env' ρ, x.2))) x = (g.all (fun c => decide (c ∈ x.1.cts)) && f x.1.desc) := by
    intro x
    have hd := RTable.ren_desc (env := env) (env' := env') (ρ := ρ) x.1
    have : f' (x.1.ren env env' ρ).desc = f x.1.desc := hf _ _ hd.1 hd.2
    simp only [Function.comp]
    rw [this]
    have hC : (x.1.ren env env' ρ).cts = renTys ρ x.1.cts := rfl
    rw [hC, all_ren]
  rw [List.filter_congr (fun x _ => hfil x)]
  refine List.Perm.of_eq (List.map_congr_left (fun x hx => ?_))
  have hx := hmem x (List.mem_filter.mp hx).1
  simp only [Function.comp]
  rw [RTable.ren_ents, RTable.ren_columns hx]

end

theorem FiltersAlike.observing {f f' : ArchetypeDescriptor → Bool} (h : FiltersAlike ρ f f') : Observing f ∧ Observing f' := by
  constructor
  · intro d d' _ h2 h3
    let e : ArchetypeDescriptor := ⟨d.archetypeId, d.comps.map (fun c => { c with id := ρ.to c.id }), d.len⟩
    have he : e.components = d.components.map (fun c => { c with id := ρ.to c.id }) := by
      unfold ArchetypeDescriptor.components
      rw [List.map_take]
    rw [← h d e rfl (List.Perm.of_eq he), ← h d' e h2 (List.Perm.of_eq (by rw [he, h3]))]
  · intro d d' _ h2 h3
    let e : ArchetypeDescriptor := ⟨d.archetypeId, d.comps.map (fun c => { c with id := ρ.back c.id }), d.len⟩
    have he : e.components.map (fun c => { c with id := ρ.to c.id }) = d.components := by
      unfold ArchetypeDescriptor.components
      rw [← List.map_take, List.map_map]
      refine (List.map_congr_left (fun c _ => ?_)).trans (List.map_id _)
      simp only [Function.comp, ρ.to_back, id]
    rw [h e d rfl (List.Perm.of_eq he.symm), h e d' h2.symm (List.Perm.of_eq (by rw [he, h3]))]

theorem RenamedProgram.alike (P : RenamedProgram ρ W W') {r r' : Registry} {cs cs' : List Content} {R : RReg} (h : RRel W r cs R)
    (h' : RRel W' r' cs' (R.ren env env' ρ)) : RenamedAlike ρ W r r' (env' := env') := by
  have ha := h.answers
  have ha' := h'.answers
  refine ⟨?_, ?_, ?_, ?_, ?_, ?_, ?_⟩
  · rw [ha.entities, ha'.entities]; rfl
  · intro c e hc
    have x := ha'.get (c.ren ρ) e ((P.has c).mpr hc)
    rw [(ha.get c e hc).1, (ha.get c e hc).2, x.1, x.2, RReg.ren_get h]
    exact ⟨rfl, rfl⟩
  · intro g e hg hv
    have x := ha.gets g e hg hv
    have x' := ha'.gets (g.ren ρ) e (P.hasAll hg) ((P.isValid hg).mpr hv)
    rw [x.1, x.2, x'.1, x'.2, RReg.ren_gets h]
    exact ⟨rfl, rfl⟩
  · intro g hg hv
    exact ⟨_, _, (ha.matching g hg hv).1, (ha'.matching (g.ren ρ) (P.hasAll hg) ((P.isValid hg).mpr hv)).1,
      RReg.ren_matching h g (fun _ _ _ _ => rfl)⟩
  · intro g f f' hg hv hf
    exact ⟨_, _, (ha.filtered g f hg hv hf.observing.1).1,
      (ha'.filtered (g.ren ρ) f' (P.hasAll hg) ((P.isValid hg).mpr hv) hf.observing.2).1, RReg.ren_matching h g hf⟩
  · intro g hok hv
    have hn : (tyIds g).Nodup := (Group.isValid_iff.mp hv).1.nodup
    have hasc : g.idSet.Pairwise (fun a b => a < b) := by rw [← sortTys_ids hn]; exact sortTys_asc hn
    have x := ha.exactly g hok hv
    have x' := ha'.exactly (g.ren ρ) ⟨P.hasAll hok.has, by rw [idSet_ren hn]; exact (P.used _ hasc).mpr hok.used⟩
      ((P.isValid hok.has).mpr hv)
    rw [x.1, x.2.1, x'.1, x'.2.1, RReg.ren_exactly P h hok hv]
    exact ⟨rfl, rfl⟩
  · obtain ⟨left, hl⟩ := ha.drop
    obtain ⟨left', hl'⟩ := ha'.drop
    exact ⟨_, _, _, _, hl, hl', RReg.ren_all h⟩

/-! ## Calls -/

section

variable {r r' : Registry} (P : RenamedProgram ρ W W') (h : RenamedAlike ρ W r r' (env' := env'))
include P h

omit P in
theorem hasComponent_ren {c : CompTy} (hc : W.Has c) (e : Entity) :
    r'.hasComponent env' (c.ren ρ) e = .ok true ↔ r.hasComponent env c e = .ok true := by
  rw [(h.get c e hc).2]

omit P in
theorem live_ren (e : Entity) : Live env' r' e ↔ Live env r e := by
  unfold Live
  rw [h.entities]

theorem hasId_ren (e : Entity) (i : UInt16) : HasId W' r' e (ρ.to i) ↔ HasId W r e i := by
  constructor
  · rintro ⟨c', h1, h2, h3⟩
    obtain ⟨c, rfl⟩ := CompTy.ren_surj ρ c'
    have h1 := (P.has c).mp h1
    exact ⟨c, h1, ρ.inj h2, (hasComponent_ren h h1 e).mp h3⟩
  · rintro ⟨c, h1, h2, h3⟩
    exact ⟨c.ren ρ, (P.has c).mpr h1, congrArg ρ.to h2, (hasComponent_ren h h1 e).mpr h3⟩

omit P h in
/-- The set of the other ids. -/
theorem AscSet.ren {s : List UInt16} {Q Q' : UInt16 → Prop} (hs : AscSet s Q) (hq : ∀ i, Q' (ρ.to i) ↔ Q i) : AscSet (ρ.set s) Q' := by
  have hp : (ρ.set s).Perm (s.map ρ.to) := List.mergeSort_perm _ _
  have hnd : (ρ.set s).Nodup :=
    hp.nodup_iff.mpr (nodup_map_to.mpr (hs.1.imp (fun hlt he => by subst he; exact UInt16.lt_irrefl _ hlt)))
  have hsort : (ρ.set s).Pairwise (fun a b => decide (a ≤ b)) := by
    apply List.pairwise_mergeSort
    · intro a b c; simp only [decide_eq_true_eq]; exact UInt16.le_trans
    · intro a b; simp only [Bool.or_eq_true, decide_eq_true_eq]; exact UInt16.le_total a b
  refine ⟨((hsort.imp (fun hx => of_decide_eq_true hx)).and hnd).imp (fun ⟨a, b⟩ => UInt16.lt_of_le_of_ne a b), ?_⟩
  intro i
  rw [hp.mem_iff, List.mem_map]
  constructor
  · rintro ⟨j, hj, rfl⟩
    exact (hq j).mpr ((hs.2 j).mp hj)
  · intro hi
    refine ⟨ρ.back i, (hs.2 _).mpr ((hq _).mp ?_), ρ.to_back i⟩
    rw [ρ.to_back]
    exact hi

omit P h in
/-- Every set of the other ids is one. -/
theorem AscSet.of_ren {s' : List UInt16} {Q Q' : UInt16 → Prop} (hs : AscSet s' Q') (hq : ∀ i, Q' (ρ.to i) ↔ Q i) :
    ∃ s, AscSet s Q ∧ s' = ρ.set s := by
  let σ : Renaming := ⟨ρ.back, ρ.to, ρ.to_back, ρ.back_to⟩
  have h1 : AscSet (σ.set s') Q := hs.ren (ρ := σ) (fun i => by
    show Q (ρ.back i) ↔ Q' i
    rw [← hq, ρ.to_back])
  exact ⟨σ.set s', h1, hs.unique (h1.ren hq)⟩

omit P h in
theorem HasTy_ren {v : Val} {c : CompTy} (hv : v.HasTy c) : v.HasTy (c.ren ρ) := hv

omit P h in
theorem typedVals_ren {g : Group} {vals : List Val} (ht : TypedVals g vals) : TypedVals (g.ren ρ) vals := by
  refine ⟨by rw [Group.ren_length]; exact ht.1, ?_⟩
  intro i c v hc hv
  rw [Group.ren_get] at hc
  obtain ⟨d, hd, rfl⟩ := Option.map_eq_some_iff.mp hc
  exact ht.2 i d v hd hv

omit P h in
theorem hasTy_ren_get {g : Group} {j : Nat} {v : Val} (ht : ∀ c, g[j]? = some c → v.HasTy c) :
    ∀ c, (g.ren ρ)[j]? = some c → v.HasTy c := by
  intro c hc
  rw [Group.ren_get] at hc
  obtain ⟨d, hd, rfl⟩ := Option.map_eq_some_iff.mp hc
  exact ht d hd

omit h in
theorem okGroup_ren {g : Group} (hg : W.OkGroup g) (hn : (tyIds g).Nodup) : W'.OkGroup (g.ren ρ) := by
  have hasc : g.idSet.Pairwise (fun a b => a < b) := by rw [← sortTys_ids hn]; exact sortTys_asc hn
  exact ⟨P.hasAll hg.has, by rw [idSet_ren hn]; exact (P.used _ hasc).mpr hg.used⟩

/-- A call that is fine in one program is fine in the other. -/
theorem disciplined_ren {c : Call} (hd : c.Disciplined W r) : (c.ren ρ).Disciplined W' r' := by
  obtain ⟨ha, hm⟩ := hd
  cases c with
  | create g vals => exact ⟨⟨typedVals_ren ha.1, fun hn => okGroup_ren P (ha.2 (nodup_ren.mp hn)) (nodup_ren.mp hn)⟩, trivial⟩
  | destroy e => exact ⟨trivial, trivial⟩
  | removeEntity g e =>
    refine ⟨trivial, fun hl => ?_⟩
    obtain ⟨h1, h2, h3, h4⟩ := hm ((live_ren h e).mp hl)
    refine ⟨P.hasAll h1, (P.isValid h1).mpr h2, hl, fun c' hc' => ?_⟩
    obtain ⟨c, rfl⟩ := CompTy.ren_surj ρ c'
    have hc := (P.has c).mp hc'
    exact (hasComponent_ren h hc e).trans ((h4 c hc).trans mem_ren.symm)
  | add e c v =>
    obtain ⟨h1, h2, h3⟩ := ha
    refine ⟨⟨(P.has c).mpr h1, h2, fun hl s' hs' => ?_⟩, trivial⟩
    obtain ⟨s, hs, rfl⟩ := hs'.of_ren (Q := fun i => i = c.id ∨ HasId W r e i) (fun i => by
      rw [hasId_ren P h]
      exact or_congr_left ⟨fun hx => ρ.inj hx, fun hx => congrArg ρ.to hx⟩)
    exact (P.used s hs.1).mpr (h3 ((live_ren h e).mp hl) s hs)
  | remove e c =>
    obtain ⟨h1, h3⟩ := ha
    refine ⟨⟨(P.has c).mpr h1, fun hl s' hn hs' => ?_⟩, trivial⟩
    obtain ⟨s, hs, rfl⟩ := hs'.of_ren (Q := fun i => i ≠ c.id ∧ HasId W r e i) (fun i => by
      rw [hasId_ren P h]
      exact and_congr_left (fun _ => not_congr ⟨fun hx => ρ.inj hx, fun hx => congrArg ρ.to hx⟩))
    refine (P.used s hs.1).mpr (h3 ((live_ren h e).mp hl) s ?_ hs)
    rintro rfl
    exact hn (by simp [Renaming.set])
  | write e c v => exact ⟨⟨(P.has c).mpr ha.1, ha.2⟩, trivial⟩
  | writeIn g e j v => exact ⟨⟨P.hasAll ha.1, (P.isValid ha.1).mpr ha.2.1, hasTy_ren_get ha.2.2⟩, trivial⟩
  | writeIter it g n j k v =>
    obtain ⟨h1, h2, h3, h4⟩ := ha
    have hn : (tyIds g).Nodup := (Group.isValid_iff.mp h2).1.nodup
    refine ⟨⟨P.hasAll h1, (P.isValid h1).mpr h2, hasTy_ren_get h3, ?_⟩, trivial⟩
    cases it <;> first | trivial | exact (okGroup_ren P ⟨h1, h4⟩ hn).used

end

theorem Call.ren_observing {c : Call} (h : c.Observing) : (c.ren ρ).Observing := by
  cases c <;> first | trivial | exact h

theorem SameOutcomes.cons {o o' : Outcome} {os os' : List Outcome} (h : SameOutcome o o') (hs : SameOutcomes os os') :
    SameOutcomes (o :: os) (o' :: os') := by
  refine ⟨by rw [List.length_cons, List.length_cons, hs.1], ?_⟩
  intro i x x' hx hx'
  cases i with
  | zero => cases hx; cases hx'; exact h
  | succ i => exact hs.2 i x x' hx hx'

theorem ren_run (P : RenamedProgram ρ W W') : ∀ {calls : List Call} {r r' : Registry} {cs cs' : List Content} {R : RReg},
    RRel W r cs R → RRel W' r' cs' (R.ren env env' ρ) → OkRun W r calls → (∀ c ∈ calls, c.OrderFree) →
      OkRun W' r' (calls.map (Call.ren ρ)) ∧
        SameOutcomes (runAll env' r' (calls.map (Call.ren ρ))).1 (runAll env r calls).1 ∧
        RenamedEnd ρ W env' (runAll env r calls).2 (runAll env' r' (calls.map (Call.ren ρ))).2 := by
  intro calls
  induction calls with
  | nil =>
    intro r r' cs cs' R h h' _ _
    exact ⟨trivial, ⟨rfl, fun i x x' hx _ => by cases hx⟩, P.alike h h'⟩
  | cons c rest ih =>
    rintro r r' cs cs' R h h' ⟨h1, h2, h3⟩ hof
    have h1' := disciplined_ren P (P.alike h h') h1
    have h2' := Call.ren_observing (ρ := ρ) h2
    have hs := h.step h1 h2
    have hs' := h'.step h1' h2'
    have hp := RReg.step_ren P h h1 (hof c List.mem_cons_self)
    have hrest := fun c hc => hof c (List.mem_cons_of_mem _ hc)
    rw [List.map_cons]
    unfold Agree at hs hs'
    unfold StepRen at hp
    unfold runAll
    cases hx : R.step env c with
    | error f =>
      rw [hx] at hs hp
      cases hx' : (R.ren env env' ρ).step env' (c.ren ρ) with
      | ok p => rw [hx'] at hp; exact hp.elim
      | error f' =>
        rw [hx'] at hs' hp
        simp only [] at hs hs' hp
        refine ⟨⟨h1', h2', fun r1 out hr => ?_⟩, ?_⟩
        · rw [hs'] at hr; cases hr
        · rw [hs, hs']
          exact ⟨⟨rfl, fun i x x' hx _ => by cases hx⟩, hp⟩
    | ok p =>
      rw [hx] at hs hp
      cases hx' : (R.ren env env' ρ).step env' (c.ren ρ) with
      | error f => rw [hx'] at hp; exact hp.elim
      | ok p' =>
        rw [hx'] at hs' hp
        obtain ⟨R1, out⟩ := p
        obtain ⟨R1', out'⟩ := p'
        simp only [] at hp
        obtain ⟨rfl, ho⟩ := hp
        obtain ⟨r1, cs1, q1, q2⟩ := hs
        obtain ⟨r1', cs1', q1', q2'⟩ := hs'
        obtain ⟨k1, k2, k3⟩ := ih q2 q2' (h3 r1 out q1) hrest
        refine ⟨⟨h1', h2', fun r2 o hr => ?_⟩, ?_⟩
        · rw [q1'] at hr; cases hr; exact k1
        · rw [q1, q1']
          exact ⟨k2.cons ho, k3⟩

end Shard
