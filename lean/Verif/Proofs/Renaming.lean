import Verif.Spec.Renaming
import Verif.Proofs.ByteOrder
/-!
# The reference in a program with other component ids

The tables of the other program have the same rows, their columns and the tables themselves in another order.
-/

set_option autoImplicit false

namespace Shard

variable {env env' : Env} {ρ : Renaming}

/-! ## Types and ids -/

theorem Renaming.inj (ρ : Renaming) {i j : UInt16} (h : ρ.to i = ρ.to j) : i = j := by
  rw [← ρ.back_to i, h, ρ.back_to]

theorem CompTy.ren_inj {c d : CompTy} (h : c.ren ρ = d.ren ρ) : c = d := by
  cases c; cases d
  simp only [CompTy.ren, CompTy.mk.injEq] at h ⊢
  exact ⟨h.1, ρ.inj h.2.1, h.2.2⟩

theorem CompTy.ren_surj (ρ : Renaming) (c : CompTy) : ∃ d : CompTy, d.ren ρ = c :=
  ⟨{ c with id := ρ.back c.id }, by cases c; simp [CompTy.ren, ρ.to_back]⟩

theorem mem_ren {g : Group} {c : CompTy} : c.ren ρ ∈ g.ren ρ ↔ c ∈ g := by
  unfold Group.ren
  constructor
  · intro h
    obtain ⟨d, hd, he⟩ := List.mem_map.mp h
    rwa [← CompTy.ren_inj he]
  · exact fun h => List.mem_map.mpr ⟨c, h, rfl⟩

theorem Group.ren_length (g : Group) : (g.ren ρ).length = g.length := List.length_map ..

theorem Group.ren_get (g : Group) (j : Nat) : (g.ren ρ)[j]? = (g[j]?).map (CompTy.ren ρ) := List.getElem?_map ..

theorem tyIds_ren (g : Group) : tyIds (g.ren ρ) = (tyIds g).map ρ.to := by
  unfold tyIds Group.ren
  rw [List.map_map, List.map_map]
  rfl

theorem nodup_map_to {s : List UInt16} : (s.map ρ.to).Nodup ↔ s.Nodup := by
  unfold List.Nodup
  rw [List.pairwise_map]
  constructor
  · exact fun h => h.imp (fun hn he => hn (by rw [he]))
  · exact fun h => h.imp (fun hn he => hn (ρ.inj he))

theorem nodup_ren {g : Group} : (tyIds (g.ren ρ)).Nodup ↔ (tyIds g).Nodup := by rw [tyIds_ren, nodup_map_to]

theorem tyIds_nodup_of_asc {l : List CompTy} (h : (tyIds l).Pairwise (fun a b => a < b)) : (tyIds l).Nodup :=
  h.imp (fun hlt he => by subst he; exact UInt16.lt_irrefl _ hlt)

theorem nodup_of_tyIds {l : List CompTy} (h : (tyIds l).Nodup) : l.Nodup := by
  have h' : l.Pairwise (fun a b => a.id ≠ b.id) := List.pairwise_map.mp h
  exact h'.imp (fun hn he => hn (by rw [he]))

/-- Ascending lists with the same types are the same. -/
theorem asc_unique {l l' : List CompTy} (h : (tyIds l).Pairwise (fun a b => a < b))
    (h' : (tyIds l').Pairwise (fun a b => a < b)) (hp : l.Perm l') : l = l' := by
  have h1 : l.Pairwise (fun a b => a.id < b.id) := List.pairwise_map.mp h
  have h2 : l'.Pairwise (fun a b => a.id < b.id) := List.pairwise_map.mp h'
  exact List.Perm.eq_of_pairwise (fun a b _ _ x y => absurd (UInt16.lt_trans x y) (UInt16.lt_irrefl _)) h1 h2 hp

theorem sortTys_congr {g g' : Group} (hn : (tyIds g).Nodup) (hp : g.Perm g') : sortTys g = sortTys g' := by
  have hn' : (tyIds g').Nodup := (hp.map _).nodup_iff.mp hn
  exact asc_unique (sortTys_asc hn) (sortTys_asc hn') ((sortTys_perm g).trans (hp.trans (sortTys_perm g').symm))

theorem sortTys_of_asc {l : List CompTy} (h : (tyIds l).Pairwise (fun a b => a < b)) : sortTys l = l :=
  asc_unique (sortTys_asc (tyIds_nodup_of_asc h)) h (sortTys_perm l)

/-- The types of the table in the other program. -/
def renTys (ρ : Renaming) (cts : List CompTy) : List CompTy := sortTys (Group.ren ρ cts)

theorem renTys_perm (cts : List CompTy) : (renTys ρ cts).Perm (Group.ren ρ cts) := sortTys_perm _

theorem renTys_length (cts : List CompTy) : (renTys ρ cts).length = cts.length := by
  rw [(renTys_perm cts).length_eq, Group.ren_length]

theorem mem_renTys {cts : List CompTy} {c : CompTy} : c.ren ρ ∈ renTys ρ cts ↔ c ∈ cts :=
  (renTys_perm cts).mem_iff.trans mem_ren

theorem renTys_sort {g : Group} (hn : (tyIds g).Nodup) : renTys ρ (sortTys g) = sortTys (g.ren ρ) :=
  sortTys_congr (nodup_ren.mpr ((sortTys_perm g).map _ |>.nodup_iff.mpr hn)) ((sortTys_perm g).map _)

theorem renTys_insert {c : CompTy} {cts : List CompTy} (hn : (tyIds (c :: cts)).Nodup) :
    renTys ρ (insertTy c cts) = insertTy (c.ren ρ) (renTys ρ cts) := by
  have : insertTy (c.ren ρ) (renTys ρ cts) = sortTys (Group.ren ρ (c :: cts)) := rfl
  rw [this]
  exact sortTys_congr (nodup_ren.mpr ((insertTy_perm c cts).map _ |>.nodup_iff.mpr hn)) ((insertTy_perm c cts).map _)

theorem ren_erase (c : CompTy) : ∀ cts : List CompTy, Group.ren ρ (cts.erase c) = (Group.ren ρ cts).erase (c.ren ρ)
  | [] => rfl
  | d :: cts => by
    have ih := ren_erase c cts
    unfold Group.ren at ih ⊢
    rw [List.map_cons, List.erase_cons, List.erase_cons]
    by_cases h : d = c
    · subst h; simp
    · have h' : d.ren ρ ≠ c.ren ρ := fun hx => h (CompTy.ren_inj hx)
      rw [if_neg (by simpa using h), if_neg (by simpa using h'), List.map_cons, ih]

theorem renTys_erase {c : CompTy} {cts : List CompTy} (hn : (tyIds cts).Nodup) :
    renTys ρ (cts.erase c) = (renTys ρ cts).erase (c.ren ρ) := by
  have hsub : (tyIds (cts.erase c)).Nodup := hn.sublist (List.erase_sublist.map _)
  refine asc_unique (sortTys_asc (nodup_ren.mpr hsub)) ?_ ?_
  · exact (sortTys_asc (nodup_ren.mpr hn)).sublist (List.erase_sublist.map _)
  · refine (renTys_perm _).trans ?_
    rw [ren_erase]
    exact ((renTys_perm cts).erase _).symm

theorem renTys_ids {cts : List CompTy} (hn : (tyIds cts).Nodup) : tyIds (renTys ρ cts) = ρ.set (tyIds cts) := by
  have h1 : tyIds (renTys ρ cts) = (Group.ren ρ cts).idSet := sortTys_ids (nodup_ren.mpr hn)
  rw [h1]
  unfold Group.idSet Renaming.set
  have h2 : List.map (fun c : CompTy => c.id) (Group.ren ρ cts) = (tyIds cts).map ρ.to := tyIds_ren cts
  rw [h2]

theorem renTys_inj {l l' : List CompTy} (h : (tyIds l).Pairwise (fun a b => a < b))
    (h' : (tyIds l').Pairwise (fun a b => a < b)) (he : renTys ρ l = renTys ρ l') : l = l' := by
  have hn := nodup_of_tyIds (tyIds_nodup_of_asc h)
  have hn' := nodup_of_tyIds (tyIds_nodup_of_asc h')
  refine asc_unique h h' ((List.perm_ext_iff_of_nodup hn hn').mpr (fun c => ?_))
  rw [← mem_renTys (ρ := ρ), he, mem_renTys]

theorem idSet_ren {g : Group} (hn : (tyIds g).Nodup) : (g.ren ρ).idSet = ρ.set g.idSet := by
  rw [← sortTys_ids (nodup_ren.mpr hn), ← renTys_sort hn,
    renTys_ids ((sortTys_perm g).map _ |>.nodup_iff.mpr hn), sortTys_ids hn]

/-! ## Values -/

theorem lookupTy_ren {α : Type} : ∀ (cts : List CompTy) (vals : List α) (c : CompTy),
    lookupTy (Group.ren ρ cts) vals (c.ren ρ) = lookupTy cts vals c
  | [], _, _ => by simp [Group.ren, lookupTy]
  | _ :: _, [], _ => by simp [Group.ren, lookupTy]
  | d :: cts, v :: vals, c => by
    have ih := lookupTy_ren cts vals c
    unfold Group.ren at ih ⊢
    rw [List.map_cons]
    unfold lookupTy
    by_cases h : d = c
    · rw [if_pos h, if_pos (by rw [h])]
    · rw [if_neg h, if_neg (fun hx => h (CompTy.ren_inj hx)), ih]

theorem valOf_ren (cts : List CompTy) (vals : List Val) (c : CompTy) :
    valOf (Group.ren ρ cts) vals (c.ren ρ) = valOf cts vals c := by
  unfold valOf
  rw [lookupTy_ren]

/-- The values of a row in the other program. -/
def renVals (ρ : Renaming) (cts : List CompTy) (vals : List Val) : List Val :=
  (renTys ρ cts).map (fun c => valOf (Group.ren ρ cts) vals c)

/-- Two rows given by functions on the types. -/
theorem renVals_congr {cts : List CompTy} {vals : List Val} {f : CompTy → Val}
    (h : ∀ c ∈ cts, valOf cts vals c = f (c.ren ρ)) : renVals ρ cts vals = (renTys ρ cts).map f := by
  unfold renVals
  refine List.map_congr_left (fun c' hc' => ?_)
  obtain ⟨c, rfl⟩ := CompTy.ren_surj ρ c'
  rw [valOf_ren]
  exact h c (mem_renTys.mp hc')

theorem lookup_some {α : Type} : ∀ {cts : List CompTy} {vals : List α} {c : CompTy}, vals.length = cts.length → c ∈ cts →
    ∃ v, lookupTy cts vals c = some v
  | [], _, _, _, h => by cases h
  | _ :: _, [], _, h, _ => by cases h
  | d :: cts, v :: vals, c, hl, h => by
    unfold lookupTy
    by_cases hd : d = c
    · exact ⟨v, if_pos hd⟩
    · rw [if_neg hd]
      rcases List.mem_cons.mp h with rfl | h
      · exact absurd rfl hd
      · exact lookup_some (by simpa using hl) h

theorem valOf_map {cts : List CompTy} (f : CompTy → Val) {c : CompTy} (hc : c ∈ cts) : valOf cts (cts.map f) c = f c := by
  unfold valOf
  rw [lookupTy_mapFn, if_pos hc]
  rfl

theorem map_valOf {cts : List CompTy} {vals : List Val} (hn : cts.Nodup) (hl : vals.length = cts.length) :
    cts.map (fun c => valOf cts vals c) = vals := by
  apply List.ext_getElem?
  intro j
  rw [List.getElem?_map]
  by_cases hj : j < cts.length
  · have hv : vals[j]? = some vals[j] := List.getElem?_eq_getElem (by omega)
    have hc : cts[j]? = some cts[j] := List.getElem?_eq_getElem hj
    rw [hc, hv]
    simp only [Option.map_some, Option.some.injEq]
    unfold valOf
    rw [lookupTy_of_getElem? hn hc hv]
    rfl
  · rw [List.getElem?_eq_none (l := cts) (by omega), List.getElem?_eq_none (l := vals) (by omega)]
    rfl

theorem renVals_lookup {cts : List CompTy} {vals : List Val} (hl : vals.length = cts.length) (c : CompTy) :
    lookupTy (renTys ρ cts) (renVals ρ cts vals) (c.ren ρ) = lookupTy cts vals c := by
  unfold renVals
  rw [lookupTy_mapFn, valOf_ren]
  by_cases hc : c ∈ cts
  · rw [if_pos (mem_renTys.mpr hc)]
    obtain ⟨v, hv⟩ := lookup_some hl hc
    unfold valOf
    rw [hv]
    rfl
  · rw [if_neg (fun h => hc (mem_renTys.mp h)), lookupTy_none hc]

theorem renVals_valOf {cts : List CompTy} {vals : List Val} (hl : vals.length = cts.length) (c : CompTy) :
    valOf (renTys ρ cts) (renVals ρ cts vals) (c.ren ρ) = valOf cts vals c := by
  unfold valOf
  rw [renVals_lookup hl]

theorem renVals_length (cts : List CompTy) (vals : List Val) : (renVals ρ cts vals).length = cts.length := by
  unfold renVals
  rw [List.length_map, renTys_length]

theorem renVals_perm {cts : List CompTy} {vals : List Val} (hn : cts.Nodup) (hl : vals.length = cts.length) :
    (renVals ρ cts vals).Perm vals := by
  have h1 := (renTys_perm (ρ := ρ) cts).map (fun c => valOf (Group.ren ρ cts) vals c)
  refine h1.trans (List.Perm.of_eq ?_)
  unfold Group.ren
  rw [List.map_map]
  refine (List.map_congr_left (fun c _ => ?_)).trans (map_valOf hn hl)
  exact valOf_ren cts vals c

theorem setTy_map (cts : List CompTy) (f : CompTy → Val) (c : CompTy) (v : Val) :
    setTy cts (cts.map f) c v = cts.map (fun c' => if c' = c then v else f c') := by
  unfold setTy
  induction cts with
  | nil => rfl
  | cons d cts ih => rw [List.map_cons, List.zipWith_cons_cons, ih, List.map_cons]

theorem setTy_valOf : ∀ {cts : List CompTy} {vals : List Val} (c : CompTy) (v : Val) {c' : CompTy}, vals.length = cts.length →
    c' ∈ cts → valOf cts (setTy cts vals c v) c' = if c' = c then v else valOf cts vals c'
  | [], _, _, _, _, _, h => by cases h
  | _ :: _, [], _, _, _, h, _ => by cases h
  | d :: cts, w :: vals, c, v, c', hl, h => by
    unfold setTy valOf
    rw [List.zipWith_cons_cons]
    unfold lookupTy
    by_cases hd : d = c'
    · subst hd
      rw [if_pos rfl, if_pos rfl]
      by_cases hc : d = c <;> simp [hc]
    · rw [if_neg hd, if_neg hd]
      rcases List.mem_cons.mp h with rfl | h
      · exact absurd rfl hd
      · exact setTy_valOf c v (by simpa using hl) h

theorem setTy_length {cts : List CompTy} {vals : List Val} (hl : vals.length = cts.length) (c : CompTy) (v : Val) :
    (setTy cts vals c v).length = cts.length := by
  unfold setTy
  rw [List.length_zipWith]
  omega

theorem renVals_setTy {cts : List CompTy} {vals : List Val} (hl : vals.length = cts.length) (c : CompTy) (v : Val) :
    renVals ρ cts (setTy cts vals c v) = setTy (renTys ρ cts) (renVals ρ cts vals) (c.ren ρ) v := by
  have : setTy (renTys ρ cts) (renVals ρ cts vals) (c.ren ρ) v = _ := setTy_map _ _ _ _
  rw [this]
  refine renVals_congr (fun c' hc' => ?_)
  rw [setTy_valOf c v hl hc', valOf_ren]
  by_cases h : c' = c
  · rw [if_pos h, if_pos (by rw [h])]
  · rw [if_neg h, if_neg (fun hx => h (CompTy.ren_inj hx))]

/-! ## Tables -/

/-- A row of the table in the other program. -/
def renRow (ρ : Renaming) (cts : List CompTy) (x : Entity × List Val) : Entity × List Val := (x.1, renVals ρ cts x.2)

/-- The table in the other program. -/
def RTable.ren (env env' : Env) (ρ : Renaming) (t : RTable) : RTable :=
  ⟨renTys ρ t.cts, if t.id = createdId env t.cts then createdId env' (renTys ρ t.cts) else changedId env' (renTys ρ t.cts),
    t.rows.map (renRow ρ t.cts)⟩

/-- The registry in the other program. -/
def RReg.ren (env env' : Env) (ρ : Renaming) (R : RReg) : RReg := { R with tables := R.tables.map (RTable.ren env env' ρ) }

/-- The types of a table of the program. -/
structure GoodTys (W : World env) (cts : List CompTy) : Prop where
  good : GoodSet W cts
  has : ∀ c ∈ cts, W.Has c
  asc : (tyIds cts).Pairwise (fun a b => a < b)

theorem GoodTys.nodup {W : World env} {cts : List CompTy} (h : GoodTys W cts) : (tyIds cts).Nodup := tyIds_nodup_of_asc h.asc

/-- A table of the program. -/
structure FullTable (W : World env) (t : RTable) : Prop where
  tys : GoodTys W t.cts
  id : t.id = createdId env t.cts ∨ t.id = changedId env t.cts
  rows : ∀ x ∈ t.rows, x.2.length = t.cts.length

theorem RRel.fullTables {W : World env} {r : Registry} {cs : List Content} {R : RReg} (h : RRel W r cs R) :
    ∀ t ∈ R.tables, FullTable W t := by
  intro t ht
  have hg := h.goodTables t ht
  rw [h.tables] at ht
  obtain ⟨i, hi⟩ := List.mem_iff_getElem?.mp ht
  unfold tablesOf ArchetypeRegistry.idsOf at hi
  rw [List.getElem?_zipWith, List.getElem?_map] at hi
  cases ha : r.archetypes.archetypes[i]? with
  | none => rw [ha] at hi; cases hi
  | some a =>
    cases hc : cs[i]? with
    | none => rw [ha, hc] at hi; cases hi
    | some ct =>
      rw [ha, hc] at hi
      simp only [Option.map_some, Option.some.injEq] at hi
      subst hi
      have hr := h.inv.arch.rep i a ct ha hc
      have hids : tyIds ct.cts = a.descriptor.ids := hr.desc.ids_eq.symm
      refine ⟨⟨hg.good, hr.desc.has, by rw [hids]; exact hr.desc.wf.ids_sorted⟩, hg.id, ?_⟩
      intro x hx
      obtain ⟨p, _, rfl⟩ := List.mem_map.mp hx
      show (ct.rowVals p.2).length = ct.cts.length
      rw [← hr.cols.cols_len]
      simp [Content.rowVals]

section

variable {W : World env} {W' : World env'}

theorem FullTable.kind {t : RTable} (h : FullTable W t) : ∃ b, t.id = kindId env b t.cts := by
  rcases h.id with h | h
  · exact ⟨true, h⟩
  · exact ⟨false, h⟩

theorem RenamedProgram.goodSet (P : RenamedProgram ρ W W') {cts : List CompTy} (h : GoodTys W cts) :
    GoodSet W' (renTys ρ cts) := by
  refine ⟨by rw [renTys_length]; exact h.good.pos, by rw [renTys_length]; exact h.good.le, ?_⟩
  rw [renTys_ids h.nodup]
  exact (P.used _ h.asc).mpr h.good.used

theorem RenamedProgram.hasAll (P : RenamedProgram ρ W W') {g : Group} (h : ∀ c ∈ g, W.Has c) : ∀ c ∈ g.ren ρ, W'.Has c := by
  intro c hc
  obtain ⟨d, hd, rfl⟩ := List.mem_map.mp hc
  exact (P.has d).mpr (h d hd)

theorem RenamedProgram.hasTys (P : RenamedProgram ρ W W') {cts : List CompTy} (h : ∀ c ∈ cts, W.Has c) :
    ∀ c ∈ renTys ρ cts, W'.Has c :=
  fun c hc => P.hasAll h c ((renTys_perm cts).mem_iff.mp hc)

theorem RenamedProgram.kinds_iff (P : RenamedProgram ρ W W') {cts : List CompTy} (h : GoodTys W cts) :
    createdId env' (renTys ρ cts) = changedId env' (renTys ρ cts) ↔ createdId env cts = changedId env cts := by
  rw [createdId_changedId, createdId_changedId, renTys_ids h.nodup]
  exact P.kinds _ h.good.used

theorem RTable.ren_id (P : RenamedProgram ρ W W') {t : RTable} (ht : GoodTys W t.cts) {b : Bool}
    (h : t.id = kindId env b t.cts) : (t.ren env env' ρ).id = kindId env' b (renTys ρ t.cts) := by
  unfold RTable.ren
  dsimp only
  cases b with
  | true => rw [if_pos (show t.id = createdId env t.cts from h)]; rfl
  | false =>
    by_cases hc : t.id = createdId env t.cts
    · rw [if_pos hc]
      exact (P.kinds_iff ht).mpr (hc ▸ h)
    · rw [if_neg hc]; rfl

theorem tableIndex_ren (P : RenamedProgram ρ W W') {ts : List RTable} (hts : ∀ t ∈ ts, FullTable W t) {cts : List CompTy}
    (hc : GoodTys W cts) (b : Bool) :
    tableIndex (ts.map (RTable.ren env env' ρ)) cts.length (kindId env' b (renTys ρ cts)) =
      tableIndex ts cts.length (kindId env b cts) := by
  refine tableIndex_map (fun t ht => ?_)
  obtain ⟨b', hb'⟩ := (hts t ht).kind
  have hg := (hts t ht).tys
  rw [RTable.ren_id P hg hb']
  have hcts : (t.ren env env' ρ).cts.length = t.cts.length := renTys_length _
  rw [hcts]
  constructor
  · rintro ⟨h1, h2⟩
    refine ⟨h1, ?_⟩
    have hids := GoodSet.noClash (P.goodSet hg) (P.goodSet hc) (by rw [renTys_length, renTys_length]; exact h1) h2
    have heq := renTys_inj hg.asc hc.asc (tyIds_inj (P.hasTys hg.has) (P.hasTys hc.has) hids)
    rw [hb', heq]
    rw [heq] at h2
    cases b <;> cases b' <;> simp only [kindId] at h2 ⊢
    · exact (P.kinds_iff hc).mp h2
    · exact ((P.kinds_iff hc).mp h2.symm).symm
  · rintro ⟨h1, h2⟩
    refine ⟨h1, ?_⟩
    rw [hb'] at h2
    have heq := tyIds_inj hg.has hc.has (GoodSet.noClash hg.good hc.good h1 h2)
    rw [heq]
    rw [heq] at h2
    cases b <;> cases b' <;> simp only [kindId] at h2 ⊢
    · exact (P.kinds_iff hc).mpr h2
    · exact ((P.kinds_iff hc).mpr h2.symm).symm

theorem tableIndex_spec {n : Nat} {id : UInt32} : ∀ {ts : List RTable} {i : Nat}, tableIndex ts n id = some i →
    ∃ t, ts[i]? = some t ∧ t.cts.length = n ∧ t.id = id
  | [], _, h => by cases h
  | t :: ts, i, h => by
    unfold tableIndex at h
    by_cases hc : t.cts.length = n ∧ t.id = id
    · rw [if_pos hc] at h
      cases h
      exact ⟨t, rfl, hc⟩
    · rw [if_neg hc] at h
      cases hx : tableIndex ts n id with
      | none => rw [hx] at h; cases h
      | some j =>
        rw [hx] at h
        cases h
        exact tableIndex_spec (ts := ts) hx

/-- The table found or made has the given types. -/
theorem internTable_at {ts ts' : List RTable} (hts : ∀ t ∈ ts, FullTable W t) {cts : List CompTy} (hc : GoodTys W cts) {b : Bool}
    {i : Nat} (h : internTable ts cts (kindId env b cts) = (ts', some i)) :
    (∀ t ∈ ts', FullTable W t) ∧ (∀ (j : Nat) t, ts[j]? = some t → ts'[j]? = some t) ∧ ∃ t, ts'[i]? = some t ∧ t.cts = cts := by
  unfold internTable at h
  by_cases hr : kindId env b cts = 4294967295
  · rw [if_pos hr] at h; cases h
  · rw [if_neg hr] at h
    cases hx : tableIndex ts cts.length (kindId env b cts) with
    | some j =>
      rw [hx] at h
      cases h
      obtain ⟨t, h1, h2, h3⟩ := tableIndex_spec hx
      have hf := hts t (List.mem_of_getElem? h1)
      obtain ⟨b', hb'⟩ := hf.kind
      rw [hb'] at h3
      exact ⟨hts, fun _ _ h => h, t, h1, tyIds_inj hf.tys.has hc.has (GoodSet.noClash hf.tys.good hc.good h2 h3)⟩
    | none =>
      rw [hx] at h
      dsimp only at h
      by_cases hl : ts.length < 65534
      · rw [if_pos hl] at h
        cases h
        refine ⟨?_, ?_, ?_⟩
        · intro t ht
          rcases List.mem_append.mp ht with ht | ht
          · exact hts t ht
          · rw [List.mem_singleton] at ht
            subst ht
            refine ⟨hc, ?_, fun x hx => by cases hx⟩
            cases b
            · exact Or.inr rfl
            · exact Or.inl rfl
        · intro j t hj
          rw [List.getElem?_append_left (List.getElem?_eq_some_iff.mp hj).1]
          exact hj
        · exact ⟨_, List.getElem?_concat_length .., rfl⟩
      · rw [if_neg hl] at h; cases h

theorem internTable_ren (P : RenamedProgram ρ W W') {ts : List RTable} (hts : ∀ t ∈ ts, FullTable W t) {cts : List CompTy}
    (hc : GoodTys W cts) (b : Bool) (hres : kindId env' b (renTys ρ cts) = 4294967295 ↔ kindId env b cts = 4294967295) :
    internTable (ts.map (RTable.ren env env' ρ)) (renTys ρ cts) (kindId env' b (renTys ρ cts)) =
      ((internTable ts cts (kindId env b cts)).1.map (RTable.ren env env' ρ), (internTable ts cts (kindId env b cts)).2) := by
  unfold internTable
  rw [renTys_length, tableIndex_ren P hts hc]
  by_cases h : kindId env b cts = 4294967295
  · rw [if_pos h, if_pos (hres.mpr h)]
  · rw [if_neg h, if_neg (fun hx => h (hres.mp hx))]
    cases tableIndex ts cts.length (kindId env b cts) with
    | some i => rfl
    | none =>
      simp only [List.length_map]
      by_cases hl : ts.length < 65534
      · rw [if_pos hl, if_pos hl]
        simp only [List.map_append, List.map_cons, List.map_nil, Prod.mk.injEq, and_true]
        congr 2
        have := RTable.ren_id (env' := env') P (t := ⟨cts, kindId env b cts, []⟩) hc (b := b) rfl
        unfold RTable.ren at this ⊢
        dsimp only at this ⊢
        rw [this]
        rfl
      · rw [if_neg hl, if_neg hl]

theorem findRow_ren (cts : List CompTy) : ∀ (rows : List (Entity × List Val)) (e : Entity),
    findRow (rows.map (renRow ρ cts)) e = (findRow rows e).map (fun p => (p.1, renVals ρ cts p.2))
  | [], _ => rfl
  | x :: rows, e => by
    rw [List.map_cons]
    unfold findRow
    rw [findRow_ren cts rows e]
    by_cases h : x.1 = e
    · rw [if_pos h, if_pos (show (renRow ρ cts x).1 = e from h)]; rfl
    · rw [if_neg h, if_neg (show ¬ (renRow ρ cts x).1 = e from h)]
      simp only [Option.map_map]
      rfl

theorem findEntity_ren : ∀ (ts : List RTable) (e : Entity), findEntity (ts.map (RTable.ren env env' ρ)) e =
    (findEntity ts e).map (fun x => (x.1, x.2.1, x.2.2.1.ren env env' ρ, renVals ρ x.2.2.1.cts x.2.2.2))
  | [], _ => rfl
  | t :: ts, e => by
    rw [List.map_cons]
    unfold findEntity
    have hr : (t.ren env env' ρ).rows = t.rows.map (renRow ρ t.cts) := rfl
    rw [hr, findRow_ren, findEntity_ren ts e]
    cases findRow t.rows e with
    | some x => rfl
    | none =>
      simp only [Option.map_map]
      rfl

theorem findRow_at {e : Entity} : ∀ {rows : List (Entity × List Val)} {k : Nat} {vals : List Val},
    findRow rows e = some (k, vals) → rows[k]? = some (e, vals)
  | [], _, _, h => by cases h
  | x :: rows, k, vals, h => by
    unfold findRow at h
    by_cases hx : x.1 = e
    · rw [if_pos hx] at h
      cases h
      rw [← hx]
      rfl
    · rw [if_neg hx] at h
      cases hf : findRow rows e with
      | none => rw [hf] at h; cases h
      | some p =>
        rw [hf] at h
        cases h
        exact findRow_at (rows := rows) hf

theorem findEntity_at {e : Entity} : ∀ {ts : List RTable} {i k : Nat} {t : RTable} {vals : List Val},
    findEntity ts e = some (i, k, t, vals) → ts[i]? = some t ∧ t.rows[k]? = some (e, vals)
  | [], _, _, _, _, h => by cases h
  | t :: ts, i, k, t', vals, h => by
    unfold findEntity at h
    cases hr : findRow t.rows e with
    | some x =>
      obtain ⟨k', vals'⟩ := x
      rw [hr] at h
      cases h
      exact ⟨rfl, findRow_at hr⟩
    | none =>
      rw [hr] at h
      dsimp only at h
      cases hf : findEntity ts e with
      | none => rw [hf] at h; cases h
      | some y =>
        obtain ⟨i', k', t'', vals'⟩ := y
        rw [hf] at h
        cases h
        exact findEntity_at (ts := ts) hf

theorem onRows_ren {ts : List RTable} {i : Nat} {f f' : List (Entity × List Val) → List (Entity × List Val)}
    (h : ∀ t, ts[i]? = some t → f' (t.rows.map (renRow ρ t.cts)) = (f t.rows).map (renRow ρ t.cts)) :
    onRows (ts.map (RTable.ren env env' ρ)) i f' = (onRows ts i f).map (RTable.ren env env' ρ) := by
  unfold onRows
  apply List.ext_getElem?
  intro j
  rw [List.getElem?_modify, List.getElem?_map, List.getElem?_map, List.getElem?_modify]
  cases hj : ts[j]? with
  | none => rfl
  | some t =>
    by_cases hij : i = j
    · subst hij
      simp only [if_pos, Option.map_some]
      show some _ = some _
      simp only [RTable.ren]
      rw [h t hj]
    · simp only [if_neg hij, Option.map_some]
      rfl

theorem swapRemove_map {α β : Type} (f : α → β) (l : List α) (k : Nat) : swapRemove (l.map f) k = (swapRemove l k).map f := by
  unfold swapRemove
  rw [List.getLast?_map]
  cases l.getLast? with
  | none => rfl
  | some x =>
    simp only [Option.map_some]
    rw [← List.map_set, List.map_dropLast]

theorem rowCount_ren (ts : List RTable) (i : Nat) : rowCount (ts.map (RTable.ren env env' ρ)) i = rowCount ts i := by
  unfold rowCount
  rw [List.getElem?_map]
  cases ts[i]? with
  | none => rfl
  | some t => exact List.length_map ..

/-! ## Steps -/

theorem goodTys_insert {r : Registry} {cs : List Content} {R : RReg} (h : RRel W r cs R) {e : Entity} {c : CompTy} {v : Val}
    (hadm : (Call.add e c v).Admissible W r) {i k : Nat} {t : RTable} {vals : List Val}
    (hf : findEntity R.tables e = some (i, k, t, vals)) (hc : c ∉ t.cts) (hl : t.cts.length ≤ 13) :
    GoodTys W (insertTy c t.cts) ∧ (tyIds (c :: t.cts)).Nodup := by
  have ht := (h.fullTables t (findEntity_mem hf)).tys
  have hn : (tyIds (c :: t.cts)).Nodup := by
    refine List.nodup_cons.mpr ⟨?_, ht.nodup⟩
    intro hm
    obtain ⟨d, hd, he⟩ := List.mem_map.mp hm
    rw [W.id_inj (ht.has d hd) hadm.1 he] at hd
    exact hc hd
  have hs : sortTys (c :: t.cts) = insertTy c t.cts := by
    show insertTy c (sortTys t.cts) = _
    rw [sortTys_of_asc ht.asc]
  refine ⟨⟨h.add_good hadm hf hc hl, ?_, by rw [← hs]; exact sortTys_asc hn⟩, hn⟩
  intro d hd
  rcases List.mem_cons.mp ((insertTy_perm c t.cts).mem_iff.mp hd) with rfl | hd
  · exact hadm.1
  · exact ht.has d hd

theorem goodTys_erase {r : Registry} {cs : List Content} {R : RReg} (h : RRel W r cs R) {e : Entity} {c : CompTy}
    (hadm : (Call.remove e c).Admissible W r) {i k : Nat} {t : RTable} {vals : List Val}
    (hf : findEntity R.tables e = some (i, k, t, vals)) (hc : c ∈ t.cts) (hl : 2 ≤ t.cts.length) :
    GoodTys W (t.cts.erase c) := by
  have ht := (h.fullTables t (findEntity_mem hf)).tys
  exact ⟨h.remove_good hadm hf hc hl, fun d hd => ht.has d (List.mem_of_mem_erase hd),
    ht.asc.sublist (List.erase_sublist.map _)⟩

theorem World.OkGroup.goodTys {g : Group} (h : W.OkGroup g) (h1 : 1 ≤ g.length) (h2 : g.length ≤ 14) (hn : (tyIds g).Nodup) :
    GoodTys W (sortTys g) :=
  ⟨h.goodSet h1 h2 hn, fun c hc => h.has c ((sortTys_perm g).mem_iff.mp hc), sortTys_asc hn⟩

theorem RenamedProgram.created_reserved (P : RenamedProgram ρ W W') {g : Group} (hg : ∀ c ∈ g, W.Has c) (hn : (tyIds g).Nodup) :
    createdId env' (renTys ρ (sortTys g)) = 4294967295 ↔ createdId env (sortTys g) = 4294967295 := by
  rw [createdId_reserved, createdId_reserved, renTys_ids (tyIds_nodup_of_asc (sortTys_asc hn))]
  refine P.created _ (sortTys_asc hn) ?_
  intro i hi
  obtain ⟨c, hc, rfl⟩ := List.mem_map.mp hi
  exact ⟨c, hg c ((sortTys_perm g).mem_iff.mp hc), rfl⟩

theorem RenamedProgram.changed_reserved (P : RenamedProgram ρ W W') {cts : List CompTy} (hg : GoodTys W cts) :
    changedId env' (renTys ρ cts) = 4294967295 ↔ changedId env cts = 4294967295 := by
  rw [changedId_reserved, changedId_reserved, renTys_ids hg.nodup]
  exact P.changed _ hg.good.used

theorem RenamedProgram.isValid (P : RenamedProgram ρ W W') {g : Group} (hg : ∀ c ∈ g, W.Has c) :
    ((g.ren ρ).descriptor env').isValid = true ↔ (g.descriptor env).isValid = true := by
  have hwf : (g.ren ρ).WF ↔ g.WF := by
    constructor
    · rintro ⟨h1, h2, h3⟩
      rw [Group.ren_length] at h1 h2
      exact ⟨h1, h2, nodup_ren.mp h3⟩
    · rintro ⟨h1, h2, h3⟩
      exact ⟨by rw [Group.ren_length]; exact h1, by rw [Group.ren_length]; exact h2, nodup_ren.mpr h3⟩
  have key : g.WF → ((g.ren ρ).archetypeId env' = ARCHETYPE_ID_INVALID ↔ g.archetypeId env = ARCHETYPE_ID_INVALID) := by
    intro hw
    have hn : (tyIds g).Nodup := hw.nodup
    have hle : (sortTys g).length ≤ 14 := by rw [(sortTys_perm g).length_eq]; exact hw.le
    have hle' : (sortTys (g.ren ρ)).length ≤ 14 := by
      rw [(sortTys_perm _).length_eq, Group.ren_length]; exact hw.le
    rw [Group.archetypeId_idSet (hwf.mpr hw), Group.archetypeId_idSet hw, ← sortTys_ids hn, ← sortTys_ids (nodup_ren.mpr hn),
      ← createdId_eq env' hle', ← createdId_eq env hle, ← renTys_sort hn]
    exact P.created_reserved hg hn
  rw [Group.isValid_iff, Group.isValid_iff]
  constructor
  · rintro ⟨h1, h2⟩
    exact ⟨hwf.mp h1, fun hx => h2 ((key (hwf.mp h1)).mpr hx)⟩
  · rintro ⟨h1, h2⟩
    exact ⟨hwf.mpr h1, fun hx => h2 ((key h1).mp hx)⟩

theorem RReg.ren_alloc (R : RReg) : (R.ren env env' ρ).alloc = R.alloc.ren env env' ρ := by
  unfold RReg.alloc RReg.ren
  dsimp only
  cases R.free <;> rfl

/-- Two steps, in the two programs. -/
def StepRen (env env' : Env) (ρ : Renaming) (x x' : Except Fault (RReg × Outcome)) : Prop :=
  match x, x' with
  | .error f, .error f' => FaultLike f f'
  | .ok x, .ok x' => x'.1 = x.1.ren env env' ρ ∧ SameOutcome x'.2 x.2
  | _, _ => False

theorem SameOutcome.refl (o : Outcome) : SameOutcome o o := ⟨rfl, List.Perm.refl _⟩

theorem StepRen.of_eq {x x' : RReg × Outcome} (h1 : x'.1 = x.1.ren env env' ρ) (h2 : x'.2 = x.2) :
    StepRen env env' ρ (.ok x) (.ok x') := by
  refine ⟨h1, ?_⟩
  rw [h2]
  exact SameOutcome.refl _

theorem RReg.ren_find (R : RReg) (e : Entity) : findEntity (R.ren env env' ρ).tables e =
    (findEntity R.tables e).map (fun x => (x.1, x.2.1, x.2.2.1.ren env env' ρ, renVals ρ x.2.2.1.cts x.2.2.2)) :=
  findEntity_ren _ _

theorem onRows_swap (ts : List RTable) (i k : Nat) :
    onRows (ts.map (RTable.ren env env' ρ)) i (swapRemove · k) = (onRows ts i (swapRemove · k)).map (RTable.ren env env' ρ) :=
  onRows_ren (fun _ _ => swapRemove_map _ _ _)

theorem onRows_append {ts : List RTable} {i : Nat} {cts : List CompTy} (h : ∀ t, ts[i]? = some t → t.cts = cts)
    (e : Entity) {vals vals' : List Val} (hv : vals' = renVals ρ cts vals) :
    onRows (ts.map (RTable.ren env env' ρ)) i (· ++ [(e, vals')]) =
      (onRows ts i (· ++ [(e, vals)])).map (RTable.ren env env' ρ) := by
  refine onRows_ren (fun t ht => ?_)
  rw [List.map_append, h t ht, hv]
  rfl

theorem RReg.ren_store {R : RReg} {i k : Nat} {t : RTable} {x : Entity × List Val} (ht : R.tables[i]? = some t)
    (hl : x.2.length = t.cts.length) (c : CompTy) (v : Val) :
    (R.ren env env' ρ).store i k (t.ren env env' ρ) (x.1, renVals ρ t.cts x.2) (c.ren ρ) v =
      (R.store i k t x c v).ren env env' ρ := by
  unfold RReg.store
  unfold RReg.ren
  dsimp only
  congr 1
  refine onRows_ren (fun t' ht' => ?_)
  rw [ht] at ht'
  cases ht'
  rw [List.map_set]
  congr 2
  exact (renVals_setTy hl c v).symm

theorem onRows_get (ts : List RTable) (i j : Nat) (f : List (Entity × List Val) → List (Entity × List Val)) {t : RTable}
    (h : (onRows ts i f)[j]? = some t) : ∃ t0, ts[j]? = some t0 ∧ t.cts = t0.cts := by
  unfold onRows at h
  rw [List.getElem?_modify] at h
  cases hj : ts[j]? with
  | none => rw [hj] at h; cases h
  | some t0 =>
    rw [hj] at h
    refine ⟨t0, rfl, ?_⟩
    by_cases hij : i = j
    · simp only [if_pos hij] at h; cases h; rfl
    · simp only [if_neg hij] at h; cases h; rfl

theorem RRel.row_length {r : Registry} {cs : List Content} {R : RReg} (h : RRel W r cs R) {e : Entity} {i k : Nat} {t : RTable}
    {vals : List Val} (hf : findEntity R.tables e = some (i, k, t, vals)) : vals.length = t.cts.length :=
  (h.fullTables t (findEntity_mem hf)).rows (e, vals) (List.mem_of_getElem? (findEntity_at hf).2)

end

end Shard
