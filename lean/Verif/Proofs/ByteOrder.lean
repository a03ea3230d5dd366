import Verif.Spec.ByteOrder
import Verif.Proofs.RefRun
import Verif.Props.Profile
/-!
# The reference on another machine

The tables of the other machine are the same with other ids.
-/

set_option autoImplicit false

namespace Shard

variable {env env' : Env}

/-! ## Ids -/

theorem fnv1a32_lt (bs : List UInt8) : Spec.fnv1a32 bs < 2 ^ 32 := by
  unfold Spec.fnv1a32
  have : ∀ (bs : List UInt8) (h : Nat), h < 2 ^ 32 →
      bs.foldl (fun h b => (h ^^^ b.toNat) * 16777619 % 2 ^ 32) h < 2 ^ 32 := by
    intro bs
    induction bs with
    | nil => intro h hh; exact hh
    | cons b bs ih => intro h _; exact ih _ (Nat.mod_lt _ (by decide))
  exact this bs _ (by decide)

theorem fnv_lt (be : Bool) (s : List UInt16) : Spec.groupId be s < 2 ^ 32 ∧ Spec.movedId be s < 2 ^ 32 := by
  refine ⟨fnv1a32_lt _, ?_⟩
  unfold Spec.movedId
  split
  · rename_i i
    have := i.toNat_lt
    omega
  · exact fnv1a32_lt _

theorem ofNat32_inj {a b : Nat} (ha : a < 2 ^ 32) (hb : b < 2 ^ 32) : UInt32.ofNat a = UInt32.ofNat b ↔ a = b := by
  constructor
  · intro h
    have := congrArg UInt32.toNat h
    rwa [UInt32.toNat_ofNat_of_lt' ha, UInt32.toNat_ofNat_of_lt' hb] at this
  · intro h; rw [h]

theorem createdId_reserved (env : Env) (cts : List CompTy) :
    createdId env cts = 4294967295 ↔ Spec.groupId env.bigEndian (tyIds cts) = 2 ^ 32 - 1 := by
  have := ofNat32_inj (fnv_lt env.bigEndian (tyIds cts)).1 (show 4294967295 < 2 ^ 32 by decide)
  exact this

theorem changedId_reserved (env : Env) (cts : List CompTy) :
    changedId env cts = 4294967295 ↔ Spec.movedId env.bigEndian (tyIds cts) = 2 ^ 32 - 1 := by
  have := ofNat32_inj (fnv_lt env.bigEndian (tyIds cts)).2 (show 4294967295 < 2 ^ 32 by decide)
  exact this

theorem createdId_changedId (env : Env) (cts : List CompTy) : createdId env cts = changedId env cts ↔
    Spec.groupId env.bigEndian (tyIds cts) = Spec.movedId env.bigEndian (tyIds cts) :=
  ofNat32_inj (fnv_lt env.bigEndian (tyIds cts)).1 (fnv_lt env.bigEndian (tyIds cts)).2

/-- The two ids of a component set. -/
def kindId (env : Env) : Bool → List CompTy → UInt32
  | true, cts => createdId env cts
  | false, cts => changedId env cts

theorem kindId_congr {cts cts' : List CompTy} (h : tyIds cts = tyIds cts') (b : Bool) : kindId env b cts = kindId env b cts' := by
  cases b <;> simp only [kindId, createdId, changedId, h]

/-- A component set in use. -/
structure GoodSet (W : World env) (cts : List CompTy) : Prop where
  pos : 1 ≤ cts.length
  le : cts.length ≤ 14
  used : W.Used (tyIds cts)

theorem GoodSet.noClash {W : World env} {cts cts' : List CompTy} (h : GoodSet W cts) (h' : GoodSet W cts')
    (hl : cts.length = cts'.length) {b b' : Bool} (hid : kindId env b cts = kindId env b' cts') : tyIds cts = tyIds cts' := by
  have hl' : (tyIds cts).length = (tyIds cts').length := by simpa [tyIds] using hl
  cases b <;> cases b' <;> simp only [kindId] at hid
  · rw [changedId_eq env h.pos h.le, changedId_eq env h'.pos h'.le] at hid
    exact W.noClash h.used h'.used hl' (Or.inl hid)
  · rw [changedId_eq env h.pos h.le, createdId_eq env h'.le] at hid
    exact W.noClash h.used h'.used hl' (Or.inr (Or.inl hid))
  · rw [createdId_eq env h.le, changedId_eq env h'.pos h'.le] at hid
    exact (W.noClash h'.used h.used hl'.symm (Or.inr (Or.inl hid.symm))).symm
  · rw [createdId_eq env h.le, createdId_eq env h'.le] at hid
    exact W.noClash h.used h'.used hl' (Or.inr (Or.inr hid))

/-! ## Tables -/

/-- The table on the other machine. -/
def RTable.other (env env' : Env) (t : RTable) : RTable :=
  { t with id := if t.id = createdId env t.cts then createdId env' t.cts else changedId env' t.cts }

/-- The registry on the other machine. -/
def RReg.other (env env' : Env) (R : RReg) : RReg := { R with tables := R.tables.map (RTable.other env env') }

/-- A table of the program. -/
structure GoodTable (W : World env) (t : RTable) : Prop where
  good : GoodSet W t.cts
  id : t.id = createdId env t.cts ∨ t.id = changedId env t.cts

theorem RRel.goodTables {W : World env} {r : Registry} {cs : List Content} {R : RReg} (h : RRel W r cs R) :
    ∀ t ∈ R.tables, GoodTable W t := by
  intro t ht
  rw [h.tables] at ht
  obtain ⟨i, hi⟩ := List.mem_iff_getElem?.mp ht
  unfold tablesOf ArchetypeRegistry.idsOf at hi
  rw [List.getElem?_zipWith, List.getElem?_map] at hi
  cases ha : r.archetypes.archetypes[i]? with
  | none => rw [ha] at hi; cases hi
  | some a =>
    cases hc : cs[i]? with
    | none => rw [ha, hc] at hi; cases hi
    | some ct =>
      rw [ha, hc] at hi
      simp only [Option.map_some, Option.some.injEq] at hi
      subst hi
      have hr := h.inv.arch.rep i a ct ha hc
      have hids : tyIds ct.cts = a.descriptor.ids := hr.desc.ids_eq.symm
      refine ⟨⟨hr.desc.pos, hr.desc.le, by rw [hids]; exact hr.desc.used⟩, ?_⟩
      rw [createdId_eq env hr.desc.le, changedId_eq env hr.desc.pos hr.desc.le, hids]
      exact hr.desc.id.symm

section

variable {W : World env} {W' : World env'}

theorem SameProgram.goodSet (P : SameProgram W W') {cts : List CompTy} (h : GoodSet W cts) : GoodSet W' cts :=
  ⟨h.pos, h.le, (P.used _).mpr h.used⟩

theorem RTable.other_id (P : SameProgram W W') {t : RTable} (ht : GoodSet W t.cts) {b : Bool} (h : t.id = kindId env b t.cts) :
    (t.other env env').id = kindId env' b t.cts := by
  unfold RTable.other
  dsimp only
  cases b with
  | true => rw [if_pos (show t.id = createdId env t.cts from h)]; rfl
  | false =>
    by_cases hc : t.id = createdId env t.cts
    · rw [if_pos hc]
      have := (createdId_changedId env t.cts).mp (hc ▸ h)
      exact (createdId_changedId env' t.cts).mpr ((P.kinds _ ht.used).mpr this)
    · rw [if_neg hc]; rfl

theorem GoodTable.kind {t : RTable} (h : GoodTable W t) : ∃ b, t.id = kindId env b t.cts := by
  rcases h.id with h | h
  · exact ⟨true, h⟩
  · exact ⟨false, h⟩

theorem tableIndex_map {f : RTable → RTable} {n : Nat} {id id' : UInt32} : ∀ {ts : List RTable},
    (∀ t ∈ ts, ((f t).cts.length = n ∧ (f t).id = id') ↔ (t.cts.length = n ∧ t.id = id)) →
    tableIndex (ts.map f) n id' = tableIndex ts n id
  | [], _ => rfl
  | t :: ts, h => by
    rw [List.map_cons]
    unfold tableIndex
    rw [tableIndex_map (fun t ht => h t (List.mem_cons_of_mem _ ht))]
    by_cases hc : t.cts.length = n ∧ t.id = id
    · rw [if_pos hc, if_pos ((h t List.mem_cons_self).mpr hc)]
    · rw [if_neg hc, if_neg (fun hx => hc ((h t List.mem_cons_self).mp hx))]

theorem tableIndex_other (P : SameProgram W W') {ts : List RTable} (hts : ∀ t ∈ ts, GoodTable W t) {cts : List CompTy}
    (hc : GoodSet W cts) (b : Bool) :
    tableIndex (ts.map (RTable.other env env')) cts.length (kindId env' b cts) = tableIndex ts cts.length (kindId env b cts) := by
  refine tableIndex_map (fun t ht => ?_)
  obtain ⟨b', hb'⟩ := (hts t ht).kind
  have hg := (hts t ht).good
  rw [RTable.other_id P hg hb']
  have hcts : (t.other env env').cts = t.cts := rfl
  rw [hcts]
  constructor
  · rintro ⟨h1, h2⟩
    refine ⟨h1, ?_⟩
    have hids := GoodSet.noClash (P.goodSet hg) (P.goodSet hc) h1 h2
    rw [hb', kindId_congr hids]
    rw [kindId_congr hids] at h2
    cases b <;> cases b' <;> simp only [kindId] at h2 ⊢
    · exact (createdId_changedId env cts).mpr ((P.kinds _ hc.used).mp ((createdId_changedId env' cts).mp h2))
    · exact ((createdId_changedId env cts).mpr ((P.kinds _ hc.used).mp ((createdId_changedId env' cts).mp h2.symm))).symm
  · rintro ⟨h1, h2⟩
    refine ⟨h1, ?_⟩
    rw [hb'] at h2
    have hids := GoodSet.noClash hg hc h1 h2
    rw [kindId_congr hids]
    rw [kindId_congr hids] at h2
    cases b <;> cases b' <;> simp only [kindId] at h2 ⊢
    · exact (createdId_changedId env' cts).mpr ((P.kinds _ hc.used).mpr ((createdId_changedId env cts).mp h2))
    · exact ((createdId_changedId env' cts).mpr ((P.kinds _ hc.used).mpr ((createdId_changedId env cts).mp h2.symm))).symm

theorem internTable_other (P : SameProgram W W') {ts : List RTable} (hts : ∀ t ∈ ts, GoodTable W t) {cts : List CompTy}
    (hc : GoodSet W cts) (b : Bool) (hres : kindId env' b cts = 4294967295 ↔ kindId env b cts = 4294967295) :
    internTable (ts.map (RTable.other env env')) cts (kindId env' b cts) =
      ((internTable ts cts (kindId env b cts)).1.map (RTable.other env env'), (internTable ts cts (kindId env b cts)).2) := by
  unfold internTable
  rw [tableIndex_other P hts hc]
  by_cases h : kindId env b cts = 4294967295
  · rw [if_pos h, if_pos (hres.mpr h)]
  · rw [if_neg h, if_neg (fun hx => h (hres.mp hx))]
    cases tableIndex ts cts.length (kindId env b cts) with
    | some i => rfl
    | none =>
      simp only [List.length_map]
      by_cases hl : ts.length < 65534
      · rw [if_pos hl, if_pos hl]
        simp only [List.map_append, List.map_cons, List.map_nil, Prod.mk.injEq, and_true]
        congr 2
        have := RTable.other_id (env' := env') P (t := ⟨cts, kindId env b cts, []⟩) hc (b := b) rfl
        unfold RTable.other at this ⊢
        dsimp only at this ⊢
        rw [this]
      · rw [if_neg hl, if_neg hl]

theorem findEntity_map {f : RTable → RTable} (hf : ∀ t, (f t).rows = t.rows) : ∀ (ts : List RTable) (e : Entity),
    findEntity (ts.map f) e = (findEntity ts e).map (fun x => (x.1, x.2.1, f x.2.2.1, x.2.2.2))
  | [], _ => rfl
  | t :: ts, e => by
    rw [List.map_cons]
    unfold findEntity
    rw [hf, findEntity_map hf ts e]
    cases findRow t.rows e with
    | some x => rfl
    | none =>
      simp only [Option.map_map]
      rfl

theorem findEntity_mem {e : Entity} : ∀ {ts : List RTable} {i k : Nat} {t : RTable} {vals : List Val},
    findEntity ts e = some (i, k, t, vals) → t ∈ ts
  | [], _, _, _, _, h => by cases h
  | t :: ts, i, k, t', vals, h => by
    unfold findEntity at h
    cases hr : findRow t.rows e with
    | some x =>
      rw [hr] at h
      simp only [Option.some.injEq, Prod.mk.injEq] at h
      rw [← h.2.2.1]
      exact List.mem_cons_self
    | none =>
      rw [hr] at h
      simp only [] at h
      cases hf : findEntity ts e with
      | none => rw [hf] at h; cases h
      | some y =>
        obtain ⟨i', k', t'', vals'⟩ := y
        rw [hf] at h
        simp only [Option.map_some, Option.some.injEq, Prod.mk.injEq] at h
        rw [← h.2.2.1]
        exact List.mem_cons_of_mem _ (findEntity_mem hf)

theorem onRows_other (ts : List RTable) (i : Nat) (f : List (Entity × List Val) → List (Entity × List Val)) :
    onRows (ts.map (RTable.other env env')) i f = (onRows ts i f).map (RTable.other env env') := by
  unfold onRows
  apply List.ext_getElem?
  intro j
  rw [List.getElem?_modify, List.getElem?_map, List.getElem?_map, List.getElem?_modify]
  cases ts[j]? with
  | none => rfl
  | some t =>
    by_cases hij : i = j
    · simp only [if_pos hij, Option.map_some]; rfl
    · simp only [if_neg hij, Option.map_some]; rfl

theorem rowCount_other (ts : List RTable) (i : Nat) : rowCount (ts.map (RTable.other env env')) i = rowCount ts i := by
  unfold rowCount
  rw [List.getElem?_map]
  cases ts[i]? <;> rfl

/-! ## Sets in use -/

theorem RRel.add_good {r : Registry} {cs : List Content} {R : RReg} (h : RRel W r cs R) {e : Entity} {c : CompTy} {v : Val}
    (hadm : (Call.add e c v).Admissible W r) {i k : Nat} {t : RTable} {vals : List Val}
    (hf : findEntity R.tables e = some (i, k, t, vals)) (hc : c ∉ t.cts) (hl : t.cts.length ≤ 13) :
    GoodSet W (insertTy c t.cts) := by
  obtain ⟨hW, hv, hu⟩ := hadm
  cases hx : r.entities.entityEntry env e with
  | none => rw [h.find_dead hx] at hf; cases hf
  | some en =>
    obtain ⟨a, ct, ha, hct, hr, hk, hloc, hlook⟩ := h.inv.entry hx
    rw [h.find_live hloc hct ha] at hf
    simp only [Option.some.injEq, Prod.mk.injEq] at hf
    obtain ⟨_, _, rfl, _⟩ := hf
    dsimp only at hc hl ⊢
    have hkl := (List.getElem?_eq_some_iff.mp hk).1
    have hlen := (insertTy_perm c ct.cts).length_eq
    rw [List.length_cons] at hlen
    refine ⟨by omega, by omega, hu (h.inv.live_iff.mpr ⟨_, hlook⟩) _ ?_⟩
    have hid : c.id ∈ a.descriptor.ids ↔ c ∈ ct.cts := hr.desc.id_mem hW
    rw [insertTy_ids, show tyIds ct.cts = a.descriptor.ids from hr.desc.ids_eq.symm]
    refine (insertId_asc hr.desc.wf.ids_sorted (fun hx => hc (hid.mp hx))).congr ?_
    intro i
    rw [h.inv.hasId_iff hlook, hr.desc.ids_eq, List.mem_map]
    constructor
    · rintro (rfl | ⟨c', hm, rfl⟩)
      · exact Or.inl rfl
      · obtain ⟨w, hw, _⟩ := hr.get_some hm hkl
        exact Or.inr ⟨c', rfl, by simp only [hw, Option.isSome_some]⟩
    · rintro (rfl | ⟨c', rfl, hs⟩)
      · exact Or.inl rfl
      · obtain ⟨w, hw⟩ := Option.isSome_iff_exists.mp hs
        exact Or.inr ⟨c', (hr.mem_of_get hw).1, rfl⟩

theorem RRel.remove_good {r : Registry} {cs : List Content} {R : RReg} (h : RRel W r cs R) {e : Entity} {c : CompTy}
    (hadm : (Call.remove e c).Admissible W r) {i k : Nat} {t : RTable} {vals : List Val}
    (hf : findEntity R.tables e = some (i, k, t, vals)) (hc : c ∈ t.cts) (hl : 2 ≤ t.cts.length) :
    GoodSet W (t.cts.erase c) := by
  obtain ⟨hW, hu⟩ := hadm
  cases hx : r.entities.entityEntry env e with
  | none => rw [h.find_dead hx] at hf; cases hf
  | some en =>
    obtain ⟨a, ct, ha, hct, hr, hk, hloc, hlook⟩ := h.inv.entry hx
    rw [h.find_live hloc hct ha] at hf
    simp only [Option.some.injEq, Prod.mk.injEq] at hf
    obtain ⟨_, _, rfl, _⟩ := hf
    dsimp only at hc hl ⊢
    have hkl := (List.getElem?_eq_some_iff.mp hk).1
    have hlen := List.length_erase_of_mem hc
    have hle := hr.desc.le
    refine ⟨by omega, by omega, hu (h.inv.live_iff.mpr ⟨_, hlook⟩) _ ?_ ?_⟩
    · intro hnil
      have : (tyIds (ct.cts.erase c)).length = ct.cts.length - 1 := by simpa [tyIds] using hlen
      rw [hnil, List.length_nil] at this
      omega
    · rw [erase_ids hW hr.desc.has, show tyIds ct.cts = a.descriptor.ids from hr.desc.ids_eq.symm]
      refine (erase_asc hr.desc.wf.ids_sorted).congr ?_
      intro i
      rw [h.inv.hasId_iff hlook, hr.desc.ids_eq, List.mem_map]
      refine and_congr_right (fun _ => ?_)
      constructor
      · rintro ⟨c', hm, rfl⟩
        obtain ⟨w, hw, _⟩ := hr.get_some hm hkl
        exact ⟨c', rfl, by simp only [hw, Option.isSome_some]⟩
      · rintro ⟨c', rfl, hs⟩
        obtain ⟨w, hw⟩ := Option.isSome_iff_exists.mp hs
        exact ⟨c', (hr.mem_of_get hw).1, rfl⟩

theorem SameProgram.isValid (P : SameProgram W W') {g : Group} (hg : ∀ c ∈ g, W.Has c) :
    (g.descriptor env').isValid = true ↔ (g.descriptor env).isValid = true := by
  have key : g.WF → (g.archetypeId env' = ARCHETYPE_ID_INVALID ↔ g.archetypeId env = ARCHETYPE_ID_INVALID) := by
    intro hw
    have hn : (tyIds g).Nodup := hw.nodup
    have h1 := sortTys_ids hn
    have hle : (sortTys g).length ≤ 14 := by rw [(sortTys_perm g).length_eq]; exact hw.le
    rw [Group.archetypeId_idSet hw, Group.archetypeId_idSet hw, ← h1, ← createdId_eq env' hle, ← createdId_eq env hle]
    refine (createdId_reserved env' _).trans ((P.created _ (sortTys_asc hn) ?_).trans (createdId_reserved env _).symm)
    intro i hi
    obtain ⟨c, hc, rfl⟩ := List.mem_map.mp hi
    exact ⟨c, hg c ((sortTys_perm g).mem_iff.mp hc), rfl⟩
  rw [Group.isValid_iff, Group.isValid_iff]
  exact and_congr_right (fun hw => not_congr (key hw))

theorem World.OkGroup.goodSet {g : Group} (h : W.OkGroup g) (h1 : 1 ≤ g.length) (h2 : g.length ≤ 14) (hn : (tyIds g).Nodup) :
    GoodSet W (sortTys g) := by
  have hl := (sortTys_perm g).length_eq
  exact ⟨by omega, by omega, by rw [sortTys_ids hn]; exact h.used⟩

theorem SameProgram.created_reserved (P : SameProgram W W') {g : Group} (hg : ∀ c ∈ g, W.Has c) (hn : (tyIds g).Nodup) :
    createdId env' (sortTys g) = 4294967295 ↔ createdId env (sortTys g) = 4294967295 := by
  refine (createdId_reserved env' _).trans ((P.created _ (sortTys_asc hn) ?_).trans (createdId_reserved env _).symm)
  intro i hi
  obtain ⟨c, hc, rfl⟩ := List.mem_map.mp hi
  exact ⟨c, hg c ((sortTys_perm g).mem_iff.mp hc), rfl⟩

theorem SameProgram.changed_reserved (P : SameProgram W W') {cts : List CompTy} (hg : GoodSet W cts) :
    changedId env' cts = 4294967295 ↔ changedId env cts = 4294967295 :=
  (changedId_reserved env' _).trans ((P.changed _ hg.used).trans (changedId_reserved env _).symm)

/-! ## Steps -/

theorem RReg.other_alloc (R : RReg) : (R.other env env').alloc = R.alloc.other env env' := by
  unfold RReg.alloc RReg.other
  dsimp only
  cases R.free <;> rfl

/-- Two steps, on the two machines. -/
def StepAlike (env env' : Env) (x x' : Except Fault (RReg × Outcome)) : Prop :=
  match x, x' with
  | .error f, .error f' => FaultLike f f'
  | .ok x, .ok x' => x' = (x.1.other env env', x.2)
  | _, _ => False

theorem RReg.other_find (R : RReg) (e : Entity) : findEntity (R.other env env').tables e =
    (findEntity R.tables e).map (fun x => (x.1, x.2.1, x.2.2.1.other env env', x.2.2.2)) :=
  findEntity_map (f := RTable.other env env') (fun _ => rfl) _ _

theorem RReg.other_store (R : RReg) (i k : Nat) (t : RTable) (x : Entity × List Val) (c : CompTy) (v : Val) :
    (R.other env env').store i k (t.other env env') x c v = (R.store i k t x c v).other env env' := by
  unfold RReg.store
  unfold RReg.other
  dsimp only
  rw [onRows_other]
  rfl

theorem RReg.step_other (P : SameProgram W W') {r : Registry} {cs : List Content} {R : RReg} (h : RRel W r cs R) {c : Call}
    (hd : c.Disciplined W r) (ho : c.OrderFree) : StepAlike env env' (R.step env c) ((R.other env env').step env' c) := by
  have hgood := h.goodTables
  obtain ⟨ha, hm⟩ := hd
  cases c with
  | create g vals =>
    simp only [RReg.step]
    by_cases hw : 1 ≤ g.length ∧ g.length ≤ 14 ∧ (tyIds g).Nodup
    · rw [if_pos hw, if_pos hw]
      have hok := ha.2 hw.2.2
      have hI := internTable_other P hgood (hok.goodSet hw.1 hw.2.1 hw.2.2) true (P.created_reserved hok.has hw.2.2)
      simp only [kindId] at hI
      have hT : (R.other env env').tables = R.tables.map (RTable.other env env') := rfl
      rw [hT, hI]
      generalize internTable R.tables (sortTys g) (createdId env (sortTys g)) = y
      obtain ⟨ts, o⟩ := y
      cases o with
      | none => rfl
      | some i =>
        dsimp only
        have hV : (R.other env env').versions = R.versions := rfl
        rw [hV, rowCount_other]
        by_cases h1 : R.versions.length < 16777215
        · rw [if_pos h1, if_pos h1]
          by_cases h2 : rowCount ts i < 8388608
          · rw [if_pos h2, if_pos h2, RReg.other_alloc, onRows_other]
            rfl
          · rw [if_neg h2, if_neg h2]
            cases env.debug <;> cases env'.debug <;> simp [StepAlike, FaultLike]
        · rw [if_neg h1, if_neg h1]
          rfl
    · rw [if_neg hw, if_neg hw]
      rfl
  | destroy e =>
    simp only [RReg.step]
    rw [RReg.other_find]
    cases findEntity R.tables e with
    | none => rfl
    | some x =>
      obtain ⟨i, k, t, vals⟩ := x
      simp only [Option.map_some]
      unfold StepAlike
      simp only []
      have hT : (R.other env env').tables = R.tables.map (RTable.other env env') := rfl
      rw [hT, onRows_other]
      rfl
  | removeEntity g e =>
    simp only [RReg.step]
    rw [RReg.other_find]
    cases findEntity R.tables e with
    | none => rfl
    | some x =>
      obtain ⟨i, k, t, vals⟩ := x
      simp only [Option.map_some]
      unfold StepAlike
      simp only []
      have hT : (R.other env env').tables = R.tables.map (RTable.other env env') := rfl
      rw [hT, onRows_other]
      rfl
  | add e c v =>
    simp only [RReg.step]
    rw [RReg.other_find]
    cases hf : findEntity R.tables e with
    | none => rfl
    | some x =>
      obtain ⟨i, k, t, vals⟩ := x
      simp only [Option.map_some]
      have hC : (t.other env env').cts = t.cts := rfl
      rw [hC]
      by_cases h1 : c ∈ t.cts ∨ t.cts.length = 14
      · rw [if_pos h1, if_pos h1]; rfl
      · rw [if_neg h1, if_neg h1]
        by_cases h2 : t.cts.length = 13
        · rw [if_pos h2, if_pos h2]; exact Or.inl rfl
        · rw [if_neg h2, if_neg h2]
          have hmem : t ∈ R.tables := findEntity_mem hf
          have hle := (hgood t hmem).good.le
          have hg := h.add_good ha hf (fun hx => h1 (Or.inl hx)) (by omega)
          have hI := internTable_other P hgood hg false (P.changed_reserved hg)
          simp only [kindId] at hI
          have hT : (R.other env env').tables = R.tables.map (RTable.other env env') := rfl
          rw [hT, hI]
          generalize internTable R.tables (insertTy c t.cts) (changedId env (insertTy c t.cts)) = y
          obtain ⟨ts, o⟩ := y
          cases o with
          | none => rfl
          | some d =>
            dsimp only
            rw [rowCount_other]
            by_cases h3 : rowCount ts d < 8388608
            · rw [if_pos h3, if_pos h3, onRows_other, onRows_other]; rfl
            · rw [if_neg h3, if_neg h3]; exact Or.inl rfl
  | remove e c =>
    simp only [RReg.step]
    rw [RReg.other_find]
    cases hf : findEntity R.tables e with
    | none => rfl
    | some x =>
      obtain ⟨i, k, t, vals⟩ := x
      simp only [Option.map_some]
      have hC : (t.other env env').cts = t.cts := rfl
      rw [hC]
      by_cases h1 : c ∉ t.cts ∨ t.cts.length = 1
      · rw [if_pos h1, if_pos h1]; rfl
      · rw [if_neg h1, if_neg h1]
        by_cases h2 : t.cts.length = 14
        · rw [if_pos h2, if_pos h2]; exact Or.inl rfl
        · rw [if_neg h2, if_neg h2]
          have hmem : t ∈ R.tables := findEntity_mem hf
          have hpos := (hgood t hmem).good.pos
          have hg := h.remove_good ha hf (Classical.byContradiction fun hx => h1 (Or.inl hx)) (by omega)
          have hI := internTable_other P hgood hg false (P.changed_reserved hg)
          simp only [kindId] at hI
          have hT : (R.other env env').tables = R.tables.map (RTable.other env env') := rfl
          rw [hT, hI]
          generalize internTable R.tables (t.cts.erase c) (changedId env (t.cts.erase c)) = y
          obtain ⟨ts, o⟩ := y
          cases o with
          | none => rfl
          | some d =>
            dsimp only
            rw [rowCount_other]
            by_cases h3 : rowCount ts d < 8388608
            · rw [if_pos h3, if_pos h3, onRows_other, onRows_other]; rfl
            · rw [if_neg h3, if_neg h3]; exact Or.inl rfl
  | write e c v =>
    simp only [RReg.step]
    rw [RReg.other_find]
    cases findEntity R.tables e with
    | none => rfl
    | some x =>
      obtain ⟨i, k, t, vals⟩ := x
      simp only [Option.map_some]
      have hC : (t.other env env').cts = t.cts := rfl
      rw [hC]
      cases lookupTy t.cts vals c with
      | none => rfl
      | some old => simp only [RReg.other_store]; rfl
  | writeIn g e j v =>
    simp only [RReg.step]
    rw [RReg.other_find]
    cases findEntity R.tables e with
    | none => rfl
    | some x =>
      obtain ⟨i, k, t, vals⟩ := x
      simp only [Option.map_some]
      have hC : (t.other env env').cts = t.cts := rfl
      rw [hC]
      cases g.all (fun c => decide (c ∈ t.cts)) with
      | false => rfl
      | true =>
        cases g[j]? with
        | none => rfl
        | some c => simp only [RReg.other_store]; rfl
  | writeIter it g n j k v =>
    obtain ⟨h1, h2, h3, h4⟩ := ha
    have hw := (Group.isValid_iff.mp h2).1
    have hn : (tyIds g).Nodup := hw.nodup
    have hE : W.Used g.idSet → exactIndex env' (R.other env env').tables g = exactIndex env R.tables g := by
      intro hu
      unfold exactIndex
      rw [← (sortTys_perm g).length_eq]
      exact tableIndex_other P hgood (World.OkGroup.goodSet ⟨h1, hu⟩ hw.pos hw.le hn) true
    have hit : iterTables env' (R.other env env').tables g it = iterTables env R.tables g it := by
      cases it <;> simp only [Call.OrderFree] at ho <;> simp only [iterTables] <;> rw [hE h4]
    simp only [RReg.step]
    rw [hit]
    cases (iterTables env R.tables g it)[n]? with
    | none => rfl
    | some i =>
      have hT : (R.other env env').tables[i]? = (R.tables[i]?).map (RTable.other env env') := List.getElem?_map ..
      simp only [hT]
      cases R.tables[i]? with
      | none => rfl
      | some t =>
        cases g[j]? with
        | none => rfl
        | some c =>
          simp only [Option.map_some]
          have hr : (t.other env env').rows = t.rows := rfl
          rw [hr]
          cases t.rows[k]? with
          | none => rfl
          | some x => simp only [RReg.other_store]; rfl

/-! ## Queries -/

theorem RReg.other_get (R : RReg) (c : CompTy) (e : Entity) : (R.other env env').get c e = R.get c e := by
  unfold RReg.get
  rw [RReg.other_find]
  cases findEntity R.tables e <;> rfl

theorem RReg.other_gets (R : RReg) (g : Group) (e : Entity) : (R.other env env').gets g e = R.gets g e := by
  unfold RReg.gets
  rw [RReg.other_find]
  cases findEntity R.tables e <;> rfl

theorem RReg.other_all (R : RReg) : (R.other env env').all = R.all := by
  unfold RReg.all RReg.other
  dsimp only
  rw [List.flatMap_map]
  rfl

theorem RReg.other_exactly (P : SameProgram W W') {r : Registry} {cs : List Content} {R : RReg} (h : RRel W r cs R) {g : Group}
    (hok : W.OkGroup g) (hv : (g.descriptor env).isValid = true) :
    (R.other env env').exactly env' g = R.exactly env g := by
  have hw := (Group.isValid_iff.mp hv).1
  have hE : exactIndex env' (R.other env env').tables g = exactIndex env R.tables g := by
    unfold exactIndex
    rw [← (sortTys_perm g).length_eq]
    exact tableIndex_other P h.goodTables (hok.goodSet hw.pos hw.le hw.nodup) true
  unfold RReg.exactly
  rw [hE]
  cases exactIndex env R.tables g with
  | none => rfl
  | some i =>
    have hT : (R.other env env').tables[i]? = (R.tables[i]?).map (RTable.other env env') := List.getElem?_map ..
    simp only [Option.bind_some, hT]
    cases R.tables[i]? <;> rfl

theorem RReg.other_matching (R : RReg) (g : Group) {f : ArchetypeDescriptor → Bool} (hf : IdBlind f) :
    ((R.other env env').matching g f).Perm (R.matching g f) := by
  have hz : (R.tables.map (RTable.other env env')).zipIdx = R.tables.zipIdx.map (fun x => (x.1.other env env', x.2)) := by
    rw [List.zipIdx_map]
    rfl
  have h1 : (visitOrder (R.other env env').tables).Perm ((visitOrder R.tables).map (fun x => (x.1.other env env', x.2))) := by
    refine (visitOrder_spec _).1.trans ?_
    have : (R.other env env').tables = R.tables.map (RTable.other env env') := rfl
    rw [this, hz]
    exact ((visitOrder_spec R.tables).1.map _).symm
  unfold RReg.matching visits
  refine ((h1.filter _).map _).trans ?_
  rw [List.filter_map, List.map_map]
  have hfil : ∀ x : RTable × Nat, ((fun x : RTable × Nat => g.all (fun c => decide (c ∈ x.1.cts)) && f x.1.desc) ∘
      (fun x => (x.1.other env env', x.2))) x = (g.all (fun c => decide (c ∈ x.1.cts)) && f x.1.desc) := by
    intro x
    have : f (x.1.other env env').desc = f x.1.desc := hf _ _ rfl rfl
    simp only [Function.comp]
    rw [this]
    rfl
  rw [List.filter_congr (fun x _ => hfil x)]
  exact List.Perm.of_eq rfl

theorem SameProgram.alike (P : SameProgram W W') {r r' : Registry} {cs cs' : List Content} {R : RReg} (h : RRel W r cs R)
    (h' : RRel W' r' cs' (R.other env env')) : AnswerAlike W r r' (env' := env') := by
  have ha := h.answers
  have ha' := h'.answers
  refine ⟨?_, ?_, ?_, ?_, ?_, ?_, ?_⟩
  · rw [ha.entities, ha'.entities]; rfl
  · intro c e hc
    rw [(ha.get c e hc).1, (ha.get c e hc).2, (ha'.get c e ((P.has c).mpr hc)).1, (ha'.get c e ((P.has c).mpr hc)).2,
      RReg.other_get]
    exact ⟨rfl, rfl⟩
  · intro g e hg hv
    have x := ha.gets g e hg hv
    have x' := ha'.gets g e (fun c hc => (P.has c).mpr (hg c hc)) ((P.isValid hg).mpr hv)
    rw [x.1, x.2, x'.1, x'.2, RReg.other_gets]
    exact ⟨rfl, rfl⟩
  · intro g hg hv
    exact ⟨_, _, (ha.matching g hg hv).1, (ha'.matching g (fun c hc => (P.has c).mpr (hg c hc)) ((P.isValid hg).mpr hv)).1,
      R.other_matching g (fun _ _ _ _ => rfl)⟩
  · intro g f hg hv hf
    have hob : Observing f := fun d d' _ h2 h3 => hf d d' h2 h3
    exact ⟨_, _, (ha.filtered g f hg hv hob).1,
      (ha'.filtered g f (fun c hc => (P.has c).mpr (hg c hc)) ((P.isValid hg).mpr hv) hob).1, R.other_matching g hf⟩
  · intro g hok hv
    have x := ha.exactly g hok hv
    have x' := ha'.exactly g ⟨fun c hc => (P.has c).mpr (hok.has c hc), (P.used _).mpr hok.used⟩ ((P.isValid hok.has).mpr hv)
    rw [x.1, x.2.1, x'.1, x'.2.1, RReg.other_exactly P h hok hv]
    exact ⟨rfl, rfl⟩
  · obtain ⟨left, hl⟩ := ha.drop
    obtain ⟨left', hl'⟩ := ha'.drop
    rw [RReg.other_all] at hl'
    exact ⟨_, _, _, hl, hl'⟩

/-! ## Calls -/

section

variable {r r' : Registry} (P : SameProgram W W') (h : AnswerAlike W r r' (env' := env'))
include P h

omit P in
theorem hasComponent_other {c : CompTy} (hc : W.Has c) (e : Entity) :
    r'.hasComponent env' c e = .ok true ↔ r.hasComponent env c e = .ok true := by
  rw [(h.get c e hc).2]

omit P in
theorem live_other (e : Entity) : Live env' r' e ↔ Live env r e := by
  unfold Live
  rw [h.entities]

theorem hasId_other (e : Entity) (i : UInt16) : HasId W' r' e i ↔ HasId W r e i := by
  constructor
  · rintro ⟨c, h1, h2, h3⟩
    have h1 := (P.has c).mp h1
    exact ⟨c, h1, h2, (hasComponent_other h h1 e).mp h3⟩
  · rintro ⟨c, h1, h2, h3⟩
    exact ⟨c, (P.has c).mpr h1, h2, (hasComponent_other h h1 e).mpr h3⟩

/-- A call that is fine on one machine is fine on the other. -/
theorem disciplined_other {c : Call} (hd : c.Disciplined W r) : c.Disciplined W' r' := by
  obtain ⟨ha, hm⟩ := hd
  have hall : ∀ {g : Group}, (∀ c ∈ g, W.Has c) → ∀ c ∈ g, W'.Has c := fun hg c hc => (P.has c).mpr (hg c hc)
  cases c with
  | create g vals => exact ⟨⟨ha.1, fun hn => ⟨hall (ha.2 hn).has, (P.used _).mpr (ha.2 hn).used⟩⟩, trivial⟩
  | destroy e => exact ⟨trivial, trivial⟩
  | removeEntity g e =>
    refine ⟨trivial, fun hl => ?_⟩
    obtain ⟨h1, h2, h3, h4⟩ := hm ((live_other h e).mp hl)
    refine ⟨hall h1, (P.isValid h1).mpr h2, hl, fun c hc => ?_⟩
    have hc := (P.has c).mp hc
    exact (hasComponent_other h hc e).trans (h4 c hc)
  | add e c v =>
    obtain ⟨h1, h2, h3⟩ := ha
    refine ⟨⟨(P.has c).mpr h1, h2, fun hl s hs => (P.used s).mpr (h3 ((live_other h e).mp hl) s (hs.congr (fun i => ?_)))⟩, trivial⟩
    rw [hasId_other P h]
  | remove e c =>
    obtain ⟨h1, h3⟩ := ha
    refine ⟨⟨(P.has c).mpr h1, fun hl s hn hs => (P.used s).mpr (h3 ((live_other h e).mp hl) s hn (hs.congr (fun i => ?_)))⟩, trivial⟩
    rw [hasId_other P h]
  | write e c v => exact ⟨⟨(P.has c).mpr ha.1, ha.2⟩, trivial⟩
  | writeIn g e j v => exact ⟨⟨hall ha.1, (P.isValid ha.1).mpr ha.2.1, ha.2.2⟩, trivial⟩
  | writeIter it g n j k v =>
    obtain ⟨h1, h2, h3, h4⟩ := ha
    refine ⟨⟨hall h1, (P.isValid h1).mpr h2, h3, ?_⟩, trivial⟩
    cases it <;> first | trivial | exact (P.used _).mpr h4

end

theorem order_run (P : SameProgram W W') : ∀ {calls : List Call} {r r' : Registry} {cs cs' : List Content} {R : RReg},
    RRel W r cs R → RRel W' r' cs' (R.other env env') → OkRun W r calls → (∀ c ∈ calls, c.OrderFree) →
      OkRun W' r' calls ∧ (runAll env' r' calls).1 = (runAll env r calls).1 ∧
        EndAlike W env' (runAll env r calls).2 (runAll env' r' calls).2 := by
  intro calls
  induction calls with
  | nil => intro r r' cs cs' R h h' _ _; exact ⟨trivial, rfl, P.alike h h'⟩
  | cons c rest ih =>
    rintro r r' cs cs' R h h' ⟨h1, h2, h3⟩ hof
    have h1' := disciplined_other P (P.alike h h') h1
    have hs := h.step h1 h2
    have hs' := h'.step h1' h2
    have hp := RReg.step_other P h h1 (hof c List.mem_cons_self)
    have hrest := fun c hc => hof c (List.mem_cons_of_mem _ hc)
    unfold Agree at hs hs'
    unfold StepAlike at hp
    unfold runAll
    cases hx : R.step env c with
    | error f =>
      rw [hx] at hs hp
      cases hx' : (R.other env env').step env' c with
      | ok p => rw [hx'] at hp; exact hp.elim
      | error f' =>
        rw [hx'] at hs' hp
        simp only [] at hs hs' hp
        refine ⟨⟨h1', h2, fun r1 out hr => ?_⟩, ?_⟩
        · rw [hs'] at hr; cases hr
        · rw [hs, hs']
          exact ⟨rfl, hp⟩
    | ok p =>
      rw [hx] at hs hp
      cases hx' : (R.other env env').step env' c with
      | error f => rw [hx'] at hp; exact hp.elim
      | ok p' =>
        rw [hx'] at hs' hp
        simp only [] at hp
        subst hp
        obtain ⟨R1, out⟩ := p
        obtain ⟨r1, cs1, q1, q2⟩ := hs
        obtain ⟨r1', cs1', q1', q2'⟩ := hs'
        obtain ⟨k1, k2, k3⟩ := ih q2 q2' (h3 r1 out q1) hrest
        refine ⟨⟨h1', h2, fun r2 o hr => ?_⟩, ?_⟩
        · rw [q1'] at hr; cases hr; exact k1
        · rw [q1, q1']
          exact ⟨by simp only [k2], k3⟩

end

end Shard
