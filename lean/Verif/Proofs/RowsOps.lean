import Verif.Proofs.Rows
/-!
# An archetype refines a table of rows: the operations
-/

set_option autoImplicit false

namespace Shard

open Archetype

variable {env : Env} {W : World env} {a : Archetype} {t : Rows}

/-! ## Creation -/

theorem withCapacity_rows {d : ArchetypeDescriptor} {t : Rows} (h : DescOK W d t.types)
    (hid : d.archetypeId = groupId env d.ids) (hpos : 0 < t.cap) (hle : t.cap ≤ MAX_ENTITIES_PER_ARCHETYPE)
    (hr : t.rows = []) : ∃ a, withCapacity env d t.cap = .ok a ∧ RowsRep W a t := by
  have h14 : MAX_COMPONENTS_PER_ENTITY = 14 := rfl
  have hcell : ∀ c k, t.cell c k = none := by intro c k; simp [Rows.cell, hr]
  have hent : ∀ k, t.ent k = none := by intro k; simp [Rows.ent, hr]
  obtain ⟨ptrs, h1, h2, h3, h4⟩ := ptrLoop (n := t.types.length)
    (f := fun i ptrs => do
      let c ← index d.components i
      let b ← allocBlock env (c.size * t.cap) c.align
      setIndex ptrs i (some b))
    (ptrs := List.replicate MAX_COMPONENTS_PER_ENTITY none)
    (P := fun _ _ => True)
    (Q := fun i p => ∃ b c, p = some b ∧ t.types[i]? = some c ∧ CellsOK c t.cap b (t.cell c))
    (by have := h.le; rw [List.length_replicate, h14]; exact this)
    (by
      intro i hi
      have := h.le
      exact ⟨none, by rw [List.getElem?_replicate, if_pos (by omega)], trivial⟩)
    (by
      intro i hi ptrs' p hl _ _
      have hci := List.getElem?_eq_getElem hi
      have hW := h.world_of hci
      refine ⟨⟨t.types[i].align, List.replicate (t.types[i].size * t.cap) none⟩, ?_, _, _, rfl, hci,
        cellsOK_alloc (W.mult hW) (hcell _)⟩
      rw [h.index_comp hci]
      simp only [ok_bind, W.desc_size hW, W.desc_align hW]
      rw [allocBlock_ok (W.align_ok hW) ((W.zst hW).imp (fun h => Nat.mul_pos h hpos) id)]
      simp only [ok_bind]
      rw [setIndex_lt (by rw [hl, List.length_replicate, h14]; have := h.le; omega)])
  refine ⟨⟨d, ptrs, some (List.replicate t.cap none), 0, t.cap⟩, ?_, h, hid, ?_, ?_, by simp [hr], rfl, by simp [hr], hpos⟩
  · unfold withCapacity
    rw [ensure_true h.valid]
    simp only [ok_bind]
    rw [if_pos ⟨hpos, hle⟩]
    unfold allocColumns
    rw [h.clen, h1]
    rfl
  · refine ⟨by rw [h2, List.length_replicate, h14], h.le, ?_, fun i h5 h6 => by
      rw [h4 i h5, List.getElem?_replicate, if_pos (by omega)]⟩
    intro i c hci
    obtain ⟨p, hp, b, c', rfl, hc', hok⟩ := h3 i (List.getElem?_eq_some_iff.mp hci).1
    rw [hci] at hc'; cases hc'
    exact ⟨b, hp, hok⟩
  · exact ⟨_, rfl, by simp, by intro k e h; rw [hent] at h; cases h⟩

/-! ## Growing -/

theorem RowsRep.resizeIfNecessary_spec (h : RowsRep W a t) (hlt : t.CanPush) :
    ∃ a', a.resizeIfNecessary env = .ok a' ∧ a'.descriptor = a.descriptor ∧ a'.entityCount = a.entityCount ∧
      t.rows.length < a'.capacity ∧ a'.capacity = (if t.rows.length = t.cap then 2 * t.cap else t.cap) ∧
      Columns t.types a'.capacity a'.pointers t.cell ∧ EntArray a'.capacity a'.entityAssociations t.ent := by
  have hle := h.le
  have hpos := h.pos
  have hcnt := h.count
  have hcap := h.cap
  unfold Archetype.resizeIfNecessary Archetype.isFull
  by_cases hf : t.rows.length = t.cap
  · have hlt' : 2 * t.cap < MAX_ENTITIES_PER_ARCHETYPE := hlt.resolve_left (by omega)
    rw [if_pos (by rw [hcnt, hf, hcap]; simp), if_neg (by omega)]
    unfold Archetype.resizeCapacity
    simp only []
    rw [if_neg (by omega)]
    obtain ⟨l, hl, hll, hle2⟩ := h.ents
    have hents := h.ents
    rw [hl] at hents
    rw [hl]
    simp only []
    rw [if_neg (by simp [hll])]
    have htn : ((a.capacity : Int) + (a.capacity : Int)).toNat = 2 * a.capacity := by omega
    rw [htn]
    obtain ⟨ptrs, hp1, hp2⟩ := h.cols.loop (cap' := 2 * a.capacity) (f' := t.cell)
      (step := fun i ptrs => do
        let p ← index ptrs i
        let c ← index a.descriptor.components i
        let b ← reallocBlock env p (c.size * a.capacity) c.align (c.size * (2 * a.capacity))
        setIndex ptrs i (some b)) (by
        intro i c hc ptrs' b hpl hpb hok
        have hW := h.desc.world_of hc
        obtain ⟨b', hb', hok'⟩ := hok.grow (env := env) (newCap := 2 * a.capacity) (by omega) (by omega) (W.zst hW)
        refine ⟨b', ?_, hok'⟩
        rw [index_of_getElem? hpb, h.desc.index_comp hc]
        simp only [ok_bind, W.desc_size hW, W.desc_align hW]
        rw [hb']
        simp only [ok_bind]
        rw [setIndex_lt (List.getElem?_eq_some_iff.mp hpb).1])
    unfold reallocColumns
    rw [← h.desc.length, hp1]
    refine ⟨_, rfl, rfl, rfl, ?_, ?_, hp2, hents.grow (show a.capacity ≤ 2 * a.capacity by omega)⟩
    · show t.rows.length < 2 * a.capacity
      omega
    · show 2 * a.capacity = _
      rw [if_pos hf, hcap]
  · rw [if_neg (by rw [hcnt, hcap]; simpa using hf)]
    exact ⟨a, rfl, rfl, rfl, by omega, by rw [if_neg hf, hcap], h.cols, h.ents⟩

/-- The capacity after a push leaves room for the new row. -/
theorem Rows.add_le {t : Rows} (h : t.rows.length ≤ t.cap) (hp : 0 < t.cap) (r : Row) :
    (t.add r).rows.length ≤ (t.add r).cap ∧ 0 < (t.add r).cap := by
  unfold Rows.add
  simp only [List.length_append, List.length_singleton]
  split <;> omega

theorem RowsRep.pushUninit_spec (h : RowsRep W a t) (hlt : t.CanPush) :
    ∃ a', a.pushUninitializedEntity env = .ok (a', t.rows.length) ∧ RowsRep W a' (t.add ⟨none, fun _ => none⟩) := by
  obtain ⟨a1, h1, h2, h3, h4, h5, h6, h7⟩ := h.resizeIfNecessary_spec hlt
  refine ⟨{ a1 with entityCount := a1.entityCount + 1 }, ?_, ?_, ?_, ?_, ?_, ?_, h5, ?_, ?_⟩
  · unfold pushUninitializedEntity
    rw [h1]
    simp only [ok_bind, pure_eq_ok]
    rw [h3, h.count]
  · simp only [h2]; exact h.desc
  · simp only [h2]; exact h.gid
  · refine h6.weaken (fun c k v hv => ?_)
    rw [Rows.cell_add] at hv
    split at hv
    · cases hv
    · exact hv
  · refine h7.weaken (fun k e hv => ?_)
    rw [Rows.ent_add] at hv
    split at hv
    · cases hv
    · exact hv
  · simp [Rows.add, h3, h.count]
  · exact (Rows.add_le h.le h.pos _).1
  · exact (Rows.add_le h.le h.pos _).2

/-! ## Writing rows -/

/-- The copy loop of `write_entity_unchecked`. -/
theorem writeColumns_rows {cts : List CompTy} {cap : Nat} {ptrs : List (Option Block)} {f f' : CompTy → Nat → Option Val}
    (h : Columns cts cap ptrs f) {d : ArchetypeDescriptor} (hd : DescOK W d cts) {g : Group} (hg : W.OkGroup g)
    (gs : GroupSpec env g) (hcts : cts = g.cts env) {vals : List Val} (ht : TypedVals g vals) {k : Nat} (hk : k < cap)
    (hf : ∀ c j, f' c j = if j = k then lookupTy g vals c else f c j) :
    ∃ ptrs', writeColumns (g.descriptor env).archetype k (asSortedPointers env g vals) ptrs = .ok ptrs' ∧
      Columns cts cap ptrs' f' := by
  have hgl : cts.length = g.length := by rw [hcts]; exact (Group.cts_perm gs hg.has).1
  have hgd : (g.descriptor env).archetype.len = cts.length := by rw [gs.len, hgl]
  unfold writeColumns
  rw [hgd]
  refine h.loop ?_
  intro i c hc ptrs' b hpl hpb hok
  have hi := (List.getElem?_eq_some_iff.mp hc).1
  have hW := hd.world_of hc
  obtain ⟨j, hj, hje, hjc⟩ := gs.cts_slot hg (by rw [← hcts]; exact hc)
  obtain ⟨v, hv, hlv, hty⟩ := ht.lookup gs.wf.nodup' hj
  subst hje
  rw [hjc] at hty hlv
  obtain ⟨b', hb', hok'⟩ := hok.write (f' := f' c) hk hty (fun x => by rw [hf c x, hlv])
  refine ⟨b', ?_, hok'⟩
  have hci : (g.descriptor env).archetype.comps[g.slot env j]? = some c.descriptor := by
    rw [gs.desc.comps_getElem? (by omega), gs.slot j hj, hjc]
  rw [indexUnchecked_of_getElem? hci, indexUnchecked_of_getElem? hpb,
    indexUnchecked_of_getElem? (asSortedPointers_spec gs hj), hv]
  simp only [ok_bind, W.desc_size hW]
  have hrs : readStack (some v) c.size = .ok v.encode := by
    unfold readStack
    simp only []
    rw [if_pos (by rw [hty.2]; exact Nat.le_refl _), List.take_of_length_le (by rw [v.encode_length, hty.2]; exact Nat.le_refl _)]
  rw [hrs]
  simp only [ok_bind]
  rw [hb']
  simp only [ok_bind]
  rw [setIndex_lt (List.getElem?_eq_some_iff.mp hpb).1]

theorem RowsRep.writeRow_spec (h : RowsRep W a t) {g : Group} (hg : RowOp.Exact W t.types g) (e : Entity)
    {vals : List Val} (ht : TypedVals g vals) {k : Nat} (hk : k < t.rows.length) :
    ∃ a', a.writeEntityUnchecked env k e g vals = .ok a' ∧
      RowsRep W a' (t.edit k (fun _ => ⟨some e, lookupTy g vals⟩)) := by
  have gs := hg.spec
  have hle := h.le
  have hcap := h.cap
  obtain ⟨l, hl, hll, _⟩ := h.ents
  have hents := h.ents
  rw [hl] at hents
  obtain ⟨ptrs, hp1, hp2⟩ := writeColumns_rows (f' := (t.edit k (fun _ => ⟨some e, lookupTy g vals⟩)).cell)
    h.cols h.desc hg.1 gs (h.types_eq hg) ht (k := k) (by omega) (fun c j => Rows.cell_edit hk _ c j)
  refine ⟨{ a with pointers := ptrs, entityAssociations := some (l.set k (some e)) }, ?_, h.desc, h.gid, hp2, ?_, ?_,
    hcap, ?_, h.pos⟩
  · unfold writeEntityUnchecked
    have hv : (g.descriptor env).isValid = true := gs.valid
    rw [debugAssert_true (by simp; omega), debugAssert_true hv, debugAssert_true (by rw [h.id_eq hg]; simp), hp1]
    simp only [ok_bind]
    unfold setEntityAt
    simp only [hl]
    rw [if_pos (by rw [h.count]; omega), if_pos (by rw [h.count]; exact hk)]
  · exact hents.set (show k < a.capacity by omega) (fun j => Rows.ent_edit hk _ j)
  · simp [Rows.edit, h.count]
  · simp only [Rows.edit, List.length_modify]; exact hle

theorem RowsRep.push_spec (h : RowsRep W a t) {g : Group} (hg : RowOp.Exact W t.types g) (e : Entity)
    {vals : List Val} (ht : TypedVals g vals) (hlt : t.CanPush) :
    ∃ a', a.pushEntityUnchecked env e g vals = .ok (a', t.rows.length) ∧
      RowsRep W a' (t.add ⟨some e, lookupTy g vals⟩) := by
  obtain ⟨a1, h1, h2⟩ := h.pushUninit_spec (env := env) hlt
  have hg' : RowOp.Exact W (t.add ⟨none, fun _ => none⟩).types g := hg
  obtain ⟨a2, h3, h4⟩ := h2.writeRow_spec hg' e ht (k := t.rows.length) (by simp [Rows.add])
  have heq : (t.add ⟨none, fun _ => none⟩).edit t.rows.length (fun _ => ⟨some e, lookupTy g vals⟩) =
      t.add ⟨some e, lookupTy g vals⟩ := by
    unfold Rows.add Rows.edit
    simp only [Rows.mk.injEq, true_and]
    apply List.ext_getElem?
    intro i
    rw [List.getElem?_modify]
    rcases Nat.lt_trichotomy i t.rows.length with hi | hi | hi
    · rw [List.getElem?_append_left hi, List.getElem?_append_left hi]
      have : ¬ t.rows.length = i := by omega
      simp [this]
    · subst hi
      rw [List.getElem?_append_right (Nat.le_refl _), List.getElem?_append_right (Nat.le_refl _)]
      simp
    · rw [List.getElem?_eq_none (by simp; omega), List.getElem?_eq_none (by simp; omega)]
      rfl
  rw [heq] at h4
  refine ⟨a2, ?_, h4⟩
  unfold pushEntityUnchecked
  unfold pushUninitializedEntity at h1
  have hv : (g.descriptor env).isValid = true := hg.spec.valid
  rw [debugAssert_true hv, debugAssert_true (by rw [h.id_eq hg]; simp)]
  cases hr : a.resizeIfNecessary env with
  | error x => rw [hr] at h1; cases h1
  | ok b =>
    rw [hr] at h1
    simp only [ok_bind, pure_eq_ok, Except.ok.injEq, Prod.mk.injEq] at h1 ⊢
    obtain ⟨rfl, hb⟩ := h1
    rw [hb] at h3 ⊢
    rw [h3]
    rfl

theorem RowsRep.setEntity_spec (h : RowsRep W a t) {k : Nat} (hk : k < t.rows.length) (e : Entity) :
    ∃ a', a.setEntityAt k e = .ok a' ∧ RowsRep W a' (t.edit k (fun r => { r with ent := some e })) := by
  have hle := h.le
  have hcap := h.cap
  obtain ⟨l, hl, hll, _⟩ := h.ents
  have hents := h.ents
  rw [hl] at hents
  refine ⟨{ a with entityAssociations := some (l.set k (some e)) }, ?_, h.desc, h.gid, ?_, ?_, ?_, hcap, ?_, h.pos⟩
  · unfold setEntityAt
    simp only [hl]
    rw [if_pos (by rw [h.count]; omega), if_pos (by rw [h.count]; exact hk)]
  · refine h.cols.weaken (fun c j v hv => ?_)
    rw [Rows.cell_edit hk] at hv
    split at hv
    · next hj => subst hj; rw [Rows.cell_eq hk]; exact hv
    · exact hv
  · exact hents.set (show k < a.capacity by omega) (fun j => Rows.ent_edit hk _ j)
  · simp [Rows.edit, h.count]
  · simp only [Rows.edit, List.length_modify]; exact hle

/-! ## Single components -/

theorem RowsRep.componentRef_ok (h : RowsRep W a t) {i k : Nat} {c : CompTy} (hc : t.types[i]? = some c) :
    a.componentRef c k = .ok ⟨i, c.size * k⟩ := by
  unfold Archetype.componentRef
  rw [h.desc.search hc]

theorem RowsRep.readRef_ok (h : RowsRep W a t) {i k : Nat} {c : CompTy} {v : Val} (hc : t.types[i]? = some c)
    (hv : t.cell c k = some v) : a.readRef c ⟨i, c.size * k⟩ = .ok v := by
  obtain ⟨b, h1, h2⟩ := h.cols.col i c hc
  unfold Archetype.readRef
  rw [index_of_getElem? h1]
  exact h2.read hv

theorem RowsRep.writeRef_spec (h : RowsRep W a t) {i k : Nat} {c : CompTy} (hc : t.types[i]? = some c)
    (hk : k < t.rows.length) {v : Val} (hv : v.HasTy c) :
    ∃ a', a.writeRef c ⟨i, c.size * k⟩ v = .ok a' ∧ RowsRep W a' (t.edit k (fun r => r.put c v)) := by
  have hle := h.le
  have hcap := h.cap
  obtain ⟨b, h1, h2⟩ := h.cols.col i c hc
  obtain ⟨b', hb', hok'⟩ := h2.write (f' := (t.edit k (fun r => r.put c v)).cell c) (k := k) (by omega) hv (fun j => by
    rw [Rows.cell_edit hk]
    simp [Row.put])
  refine ⟨{ a with pointers := a.pointers.set i (some b') }, ?_, h.desc, h.gid, ?_, ?_, ?_, hcap, ?_, h.pos⟩
  · unfold Archetype.writeRef
    simp only []
    rw [index_of_getElem? h1]
    simp only [ok_bind]
    rw [h2.aligned k]
    simp only [ok_bind]
    rw [hb']
    rfl
  · refine h.cols.setCol h.nodup hc hok' (fun c' hne j x hx => ?_)
    rw [Rows.cell_edit hk] at hx
    split at hx
    · next hj =>
      subst hj
      rw [Rows.cell_eq hk]
      simpa [Row.put, hne] using hx
    · exact hx
  · refine h.ents.weaken (fun j x hx => ?_)
    rw [Rows.ent_edit hk] at hx
    split at hx
    · next hj => subst hj; rw [Rows.ent_eq hk]; exact hx
    · exact hx
  · simp [Rows.edit, h.count]
  · simp only [Rows.edit, List.length_modify]; exact hle

theorem RowsRep.write_spec (h : RowsRep W a t) {k : Nat} {c : CompTy} (hc : c ∈ t.types)
    (hk : k < t.rows.length) {v : Val} (hv : v.HasTy c) :
    ∃ a', a.writeSingleComponentUnchecked c k v = .ok a' ∧ RowsRep W a' (t.edit k (fun r => r.put c v)) := by
  obtain ⟨a', h1, h2⟩ := h.writeRef_spec (idxOf_getElem? hc) hk hv
  refine ⟨a', ?_, h2⟩
  unfold writeSingleComponentUnchecked
  rw [h.componentRef_ok (idxOf_getElem? hc)]
  exact h1

/-! ## Exchanging and removing rows -/

theorem RowsRep.swap_spec (h : RowsRep W a t) {i j : Nat} (hij : i ≠ j) (hi : i < t.rows.length) (hj : j < t.rows.length) :
    ∃ a', a.swapEntities i j = .ok a' ∧ RowsRep W a' (t.exchange i j) := by
  have hle := h.le
  have hcap := h.cap
  obtain ⟨ptrs, hp1, hp2⟩ := h.cols.loop (cap' := a.capacity) (f' := (t.exchange i j).cell)
    (step := fun k ptrs => do
      let c ← index a.descriptor.components k
      let p ← index ptrs k
      let b ← swapBytes p (i * c.size) (j * c.size) c.size
      setIndex ptrs k (some b)) (by
      intro k c hc ptrs' b hpl hpb hok
      have hW := h.desc.world_of hc
      obtain ⟨b', hb', hok'⟩ := hok.swap (f' := (t.exchange i j).cell c) hij (by omega) (by omega)
        (fun x => Rows.cell_exchange hi hj c x)
      refine ⟨b', ?_, hok'⟩
      rw [index_of_getElem? hpb, h.desc.index_comp hc]
      simp only [ok_bind, W.desc_size hW]
      rw [hb']
      simp only [ok_bind]
      rw [setIndex_lt (List.getElem?_eq_some_iff.mp hpb).1])
  obtain ⟨l, hl, hll, _⟩ := h.ents
  have hents := h.ents
  rw [hl] at hents
  have hcnt := h.count
  refine ⟨{ a with pointers := ptrs, entityAssociations := some ((l.set i (l.getD j none)).set j (l.getD i none)) },
    ?_, ?_, h.gid, ?_, ?_, ?_, ?_, ?_, ?_⟩
  · unfold Archetype.swapEntities swapColumns
    rw [h.desc.clen, hp1]
    simp only [ok_bind]
    unfold swapEntityAt
    simp only [hl]
    rw [if_pos (by omega), if_pos (by omega)]
  · rw [Rows.exchange_types]; exact h.desc
  · rw [Rows.exchange_types]; exact hp2
  · exact hents.swap (show i < a.capacity by omega) (show j < a.capacity by omega) (fun k => Rows.ent_exchange hi hj k)
  · rw [Rows.exchange_length]; exact hcnt
  · rw [Rows.exchange_cap]; exact hcap
  · rw [Rows.exchange_length, Rows.exchange_cap]; exact hle
  · rw [Rows.exchange_cap]; exact h.pos

theorem RowsRep.swapToLast_spec (h : RowsRep W a t) {k : Nat} (hk : k < t.rows.length) :
    ∃ a', a.swapToLastUnchecked env k = .ok (a', k != t.rows.length - 1) ∧
      RowsRep W a' (t.exchange k (t.rows.length - 1)) := by
  have hcnt := h.count
  unfold Archetype.swapToLastUnchecked
  rw [debugAssert_true (by simpa [hcnt] using hk), subU32_le (by omega), hcnt]
  simp only [ok_bind]
  by_cases hl : k = t.rows.length - 1
  · rw [if_pos hl]
    refine ⟨a, ?_, ?_⟩
    · have : (k != t.rows.length - 1) = false := by simp [hl]
      rw [this]; rfl
    · rw [← hl, t.exchange_self]; exact h
  · rw [if_neg hl]
    obtain ⟨a1, h1, h2⟩ := h.swap_spec hl hk (by omega)
    rw [h1]
    refine ⟨a1, ?_, h2⟩
    have : (k != t.rows.length - 1) = true := by simp [hl]
    rw [this]; rfl

theorem RowsRep.pop_spec (h : RowsRep W a t) : RowsRep W { a with entityCount := t.rows.length - 1 } t.pop := by
  have hle := h.le
  have hcap := h.cap
  refine ⟨h.desc, h.gid, ?_, ?_, ?_, hcap, ?_, h.pos⟩
  · refine h.cols.weaken (fun c k v hv => ?_)
    rw [Rows.cell_pop] at hv
    split at hv
    · exact hv
    · cases hv
  · refine h.ents.weaken (fun k v hv => ?_)
    rw [Rows.ent_pop] at hv
    split at hv
    · exact hv
    · cases hv
  · simp [Rows.pop]
  · simp only [Rows.pop, List.length_take]; omega

theorem RowsRep.decrement_spec (h : RowsRep W a t) (hpos : 0 < t.rows.length) :
    ∃ a', a.decrementLenUnchecked env = .ok a' ∧ RowsRep W a' t.pop := by
  have hcnt := h.count
  unfold Archetype.decrementLenUnchecked
  rw [subU32_le (by omega), hcnt]
  exact ⟨_, rfl, h.pop_spec⟩

/-- All cells of a row, as a list. -/
theorem Rows.tuple_full {t : Rows} {cs : List CompTy} {k : Nat} (h : ∀ c ∈ cs, ∃ v, t.cell c k = some v) :
    (t.tuple cs k).length = cs.length ∧ ∀ i : Nat, (t.tuple cs k)[i]? = (cs[i]?).bind (fun c => t.cell c k) :=
  filterMap_full h

theorem RowsRep.dropEntity_spec (h : RowsRep W a t) {k : Nat} (hk : t.FullRow t.types k) :
    a.dropEntity k = .ok (t.tuple t.types k) := by
  obtain ⟨q1, q2⟩ := Rows.tuple_full (t := t) (fun c hc => hk.cell hc)
  unfold Archetype.dropEntity
  obtain ⟨s, hs1, hs2⟩ := forRange_inv
    (f := fun i dropped => do
      let d ← index a.descriptor.components i
      let p ← index a.pointers i
      let vs ← runDropHandler d p (k * d.size) 1
      return dropped ++ vs)
    (fun i s => s = (t.tuple t.types k).take i) t.types.length 0 [] rfl (by
      intro i s _ hi hs
      have hi' : i < t.types.length := by omega
      have hc := List.getElem?_eq_getElem hi'
      have hW := h.desc.world_of hc
      obtain ⟨b, h1, h2⟩ := h.cols.col i _ hc
      obtain ⟨v, hv⟩ := hk.cell (List.getElem_mem hi')
      rw [h.desc.index_comp hc, index_of_getElem? h1]
      simp only [ok_bind, W.desc_size hW]
      simp only [runDropHandler, CompTy.descriptor]
      have hr := h2.readSlice_ok (off := k) (vs := [v]) (by
        intro j x hx
        cases j with
        | zero => cases hx; exact hv
        | succ j => cases hx)
      rw [Nat.mul_comm k]
      rw [List.length_singleton] at hr
      rw [hr]
      refine ⟨_, rfl, ?_⟩
      rw [List.take_add_one (i := i), q2 i, hc, hs]
      simp [hv])
  rw [h.desc.clen, hs1, hs2, Nat.zero_add, List.take_of_length_le (by omega)]

theorem Rows.tuple_exchange {t : Rows} {i j : Nat} (hi : i < t.rows.length) (hj : j < t.rows.length) (cs : List CompTy) :
    (t.exchange i j).tuple cs j = t.tuple cs i := by
  unfold Rows.tuple
  congr 1
  funext c
  rw [Rows.cell_exchange hi hj, if_pos rfl]

theorem Rows.fullRow_iff {t : Rows} {cs : List CompTy} {k : Nat} :
    t.FullRow cs k ↔ k < t.rows.length ∧ ∀ c ∈ cs, ∃ v, t.cell c k = some v := by
  constructor
  · intro h
    exact ⟨h.lt, fun c hc => h.cell hc⟩
  · rintro ⟨h1, h2⟩
    refine ⟨_, List.getElem?_eq_getElem h1, fun c hc => ?_⟩
    obtain ⟨v, hv⟩ := h2 c hc
    exact ⟨v, by rw [← Rows.cell_eq h1]; exact hv⟩

theorem RowsRep.swapDrop_spec (h : RowsRep W a t) {k : Nat} (hk : t.FullRow t.types k) :
    ∃ a', a.swapDropUnchecked env k = .ok (a', k != t.rows.length - 1, t.tuple t.types k) ∧
      RowsRep W a' (t.exchange k (t.rows.length - 1)).pop := by
  have hcnt := h.count
  have hk' := hk.lt
  unfold Archetype.swapDropUnchecked
  rw [debugAssert_true (by simpa [hcnt] using hk'), subU32_le (by omega), hcnt]
  simp only [ok_bind]
  by_cases hl : k = t.rows.length - 1
  · rw [if_pos hl, h.dropEntity_spec hk]
    refine ⟨{ a with entityCount := t.rows.length - 1 }, ?_, ?_⟩
    · have : (k != t.rows.length - 1) = false := by simp [hl]
      rw [this]; rfl
    · rw [← hl, t.exchange_self]
      rw [hl]; exact h.pop_spec
  · rw [if_neg hl]
    obtain ⟨a1, h1, h2⟩ := h.swap_spec hl hk' (by omega)
    have hc1 : a1.entityCount = t.rows.length := by rw [h2.count, Rows.exchange_length]
    rw [h1]
    simp only [ok_bind]
    rw [subU32_le (by omega)]
    simp only [ok_bind, hc1]
    have hfull : (t.exchange k (t.rows.length - 1)).FullRow (t.exchange k (t.rows.length - 1)).types (t.rows.length - 1) := by
      rw [Rows.fullRow_iff, Rows.exchange_length, Rows.exchange_types]
      refine ⟨by omega, fun c hc => ?_⟩
      rw [Rows.cell_exchange hk' (by omega), if_pos rfl]
      exact hk.cell hc
    rw [h2.dropEntity_spec hfull, Rows.exchange_types, Rows.tuple_exchange hk' (by omega)]
    refine ⟨{ a1 with entityCount := t.rows.length - 1 }, ?_, ?_⟩
    · have : (k != t.rows.length - 1) = true := by simp [hl]
      rw [this]; rfl
    · have := h2.pop_spec
      rwa [Rows.exchange_length] at this

/-! ## Reading tuples and slices -/

theorem RowsRep.derefTuple_ok (h : RowsRep W a t) {k : Nat} : ∀ (g : Group), (∀ c ∈ g, c ∈ t.types) →
    (∀ c ∈ g, ∃ v, t.cell c k = some v) →
    a.derefTuple (g.map (fun c => (c, some ⟨t.types.idxOf c, c.size * k⟩))) = .ok (t.tuple g k)
  | [], _, _ => rfl
  | c :: g, hs, hv => by
    obtain ⟨v, hv1⟩ := hv c List.mem_cons_self
    simp only [List.map_cons, derefTuple, derefPtr]
    rw [h.readRef_ok (idxOf_getElem? (hs c List.mem_cons_self)) hv1,
      h.derefTuple_ok g (fun x hx => hs x (List.mem_cons_of_mem _ hx)) (fun x hx => hv x (List.mem_cons_of_mem _ hx))]
    simp only [ok_bind, Rows.tuple, List.filterMap_cons_some (f := fun c => t.cell c k) hv1]
    rfl

theorem RowsRep.getFuzzy_ok (h : RowsRep W a t) {g : Group} (hg : RowOp.Fuzzy W t.types g) {k : Nat} (hk : t.FullRow g k) :
    a.getFuzzyComponentsUnchecked env g k = .ok (t.tuple g k) := by
  have hv : (g.descriptor env).isValid = true := hg.spec.valid
  unfold getFuzzyComponentsUnchecked
  rw [debugAssert_true hv, tuplePointers_eq (h.desc.fuzzyPointers hg.spec hg.2.2 k)]
  exact h.derefTuple_ok g hg.2.2 (fun c hc => hk.cell hc)

theorem RowsRep.pointers_some (h : RowsRep W a t) : ∀ i, i < t.types.length → ∃ b, a.pointers[i]? = some (some b) := by
  intro i hi
  obtain ⟨b, h1, _⟩ := h.cols.col i _ (List.getElem?_eq_getElem hi)
  exact ⟨b, h1⟩

theorem RowsRep.readExact_ok (h : RowsRep W a t) {g : Group} (hg : RowOp.Exact W t.types g) {k : Nat}
    (hk : t.FullRow t.types k) : a.readComponentsExactUnchecked env g k = .ok (t.tuple g k) := by
  unfold readComponentsExactUnchecked
  rw [tuplePointers_eq (h.desc.offsetPointers h.pointers_some hg.1.has hg.spec (h.types_eq hg) k)]
  exact h.derefTuple_ok g (fun c hc => (hg.2.2 c).mp hc) (fun c hc => hk.cell ((hg.2.2 c).mp hc))

theorem RowsRep.swapRemove_spec (h : RowsRep W a t) {g : Group} (hg : RowOp.Exact W t.types g) {k : Nat}
    (hk : t.FullRow t.types k) :
    ∃ a', a.swapRemoveUnchecked env g k = .ok (a', t.tuple g k, k != t.rows.length - 1) ∧
      RowsRep W a' (t.exchange k (t.rows.length - 1)).pop := by
  have hcnt := h.count
  have hk' := hk.lt
  unfold Archetype.swapRemoveUnchecked
  rw [debugAssert_true (by simpa [hcnt] using hk'), subU32_le (by omega), hcnt]
  simp only [ok_bind]
  by_cases hl : k = t.rows.length - 1
  · rw [if_pos hl, h.readExact_ok hg hk]
    refine ⟨{ a with entityCount := t.rows.length - 1 }, ?_, ?_⟩
    · have : (k != t.rows.length - 1) = false := by simp [hl]
      rw [this]; rfl
    · rw [← hl, t.exchange_self]
      rw [hl]; exact h.pop_spec
  · rw [if_neg hl]
    obtain ⟨a1, h1, h2⟩ := h.swap_spec hl hk' (by omega)
    have hc1 : a1.entityCount = t.rows.length := by rw [h2.count, Rows.exchange_length]
    rw [h1]
    simp only [ok_bind]
    rw [subU32_le (by omega)]
    simp only [ok_bind, hc1]
    have hfull : (t.exchange k (t.rows.length - 1)).FullRow (t.exchange k (t.rows.length - 1)).types (t.rows.length - 1) := by
      rw [Rows.fullRow_iff, Rows.exchange_length, Rows.exchange_types]
      refine ⟨by omega, fun c hc => ?_⟩
      rw [Rows.cell_exchange hk' (by omega), if_pos rfl]
      exact hk.cell hc
    have hg' : RowOp.Exact W (t.exchange k (t.rows.length - 1)).types g := by rw [Rows.exchange_types]; exact hg
    rw [h2.readExact_ok hg' hfull, Rows.tuple_exchange hk' (by omega)]
    refine ⟨{ a1 with entityCount := t.rows.length - 1 }, ?_, ?_⟩
    · have : (k != t.rows.length - 1) = true := by simp [hl]
      rw [this]; rfl
    · have := h2.pop_spec
      rwa [Rows.exchange_length] at this

/-- A complete column, as a list. -/
theorem Rows.column_full {t : Rows} {cs : List CompTy} (h : t.FullTable cs) {c : CompTy} (hc : c ∈ cs) :
    (t.column c).length = t.rows.length ∧ ∀ i : Nat, (t.column c)[i]? = t.cell c i :=
  filterMap_full (fun r hr => h r hr c hc)

theorem RowsRep.readColumn_ok (h : RowsRep W a t) {cs : List CompTy} (hf : t.FullTable cs) {c : CompTy} (hc : c ∈ cs)
    {b : Block} (hb : CellsOK c a.capacity b (t.cell c)) :
    readSlice (some b) c.ty c.size c.align 0 a.entityCount = .ok (t.column c) := by
  obtain ⟨q1, q2⟩ := Rows.column_full hf hc
  have := hb.readSlice_ok (off := 0) (vs := t.column c) (by
    intro i v hv
    rw [Nat.zero_add, ← q2 i, hv])
  rwa [q1, ← h.count, Nat.mul_zero] at this

theorem RowsRep.readSlices_ok (h : RowsRep W a t) {g : Group} (hsub : ∀ c ∈ g, c ∈ t.types) (hf : t.FullTable g) :
    (g.map (fun c => (⟨c, ⟨t.types.idxOf c, c.size * 0⟩, a.entityCount⟩ : SliceRef))).mapM a.readSliceRef =
      .ok (g.map t.column) := by
  rw [mapM_ok (g := fun s => t.column s.cty)]
  · rw [List.map_map]; rfl
  · intro s hs
    obtain ⟨c, hc, rfl⟩ := List.mem_map.mp hs
    obtain ⟨b, h1, h2⟩ := h.cols.col _ c (idxOf_getElem? (hsub c hc))
    unfold readSliceRef
    simp only []
    rw [index_of_getElem? h1]
    simp only [ok_bind]
    rw [Nat.mul_zero]
    exact h.readColumn_ok hf hc h2

theorem RowsRep.slicesFuzzy_ok (h : RowsRep W a t) {g : Group} (hg : RowOp.Fuzzy W t.types g) (hf : t.FullTable g) :
    a.getFuzzySlicesUnchecked env g = .ok (g.map t.column) := by
  have hv : (g.descriptor env).isValid = true := hg.spec.valid
  unfold getFuzzySlicesUnchecked
  rw [debugAssert_true hv, sliceTuple_ok (h.desc.fuzzyPointers hg.spec hg.2.2 0)]
  exact h.readSlices_ok hg.2.2 hf

theorem RowsRep.slicesExact_ok (h : RowsRep W a t) {g : Group} (hg : RowOp.Exact W t.types g) (hf : t.FullTable g) :
    a.getSlicesUncheckedExact env g = .ok (g.map t.column) := by
  unfold getSlicesUncheckedExact
  rw [debugAssert_true (by rw [h.id_eq hg]; simp),
    sliceTuple_ok (h.desc.basePointers h.pointers_some hg.1.has hg.spec (h.types_eq hg))]
  exact h.readSlices_ok (fun c hc => (hg.2.2 c).mp hc) hf

theorem RowsRep.entities_ok (h : RowsRep W a t) (he : ∀ r ∈ t.rows, ∃ e, r.ent = some e) : a.entities = .ok t.handles := by
  obtain ⟨q1, q2⟩ := filterMap_full (f := fun r : Row => r.ent) he
  obtain ⟨l, hl, hll, hl3⟩ := h.ents
  have hle := h.le
  have hcap := h.cap
  have hraw : a.entitiesRaw = .ok (t.handles.map some) := by
    unfold entitiesRaw
    rw [hl]
    simp only []
    rw [if_pos (by rw [h.count]; omega), h.count]
    congr 1
    apply List.ext_getElem?
    intro k
    rw [List.getElem?_take, List.getElem?_map]
    by_cases hk : k < t.rows.length
    · obtain ⟨e, hek⟩ := he _ (List.getElem_mem hk)
      have h5 : t.ent k = some e := by rw [Rows.ent_eq hk]; exact hek
      rw [if_pos hk, hl3 k e h5]
      unfold Rows.handles
      rw [q2 k, List.getElem?_eq_getElem hk]
      simp [hek]
    · rw [if_neg hk]
      unfold Rows.handles
      rw [List.getElem?_eq_none (by omega)]
      rfl
  unfold Archetype.entities
  rw [hraw]
  simp only [ok_bind]
  rw [mapM_ok (g := fun o => o.getD Entity.INVALID)]
  · rw [List.map_map]
    congr 1
    conv => rhs; rw [← List.map_id t.handles]
    rfl
  · intro o ho
    obtain ⟨e, _, rfl⟩ := List.mem_map.mp ho
    rfl

theorem RowsRep.slicesEntity_ok (h : RowsRep W a t) {g : Group} (hg : RowOp.Fuzzy W t.types g) (hf : t.FullTable g)
    (he : ∀ r ∈ t.rows, ∃ e, r.ent = some e) :
    a.getEntityFuzzySlicesUnchecked env g = .ok (t.handles, g.map t.column) := by
  have hv : (g.descriptor env).isValid = true := hg.spec.valid
  unfold getEntityFuzzySlicesUnchecked
  rw [debugAssert_true hv, sliceTuple_ok (h.desc.fuzzyPointers hg.spec hg.2.2 0), h.entities_ok he]
  simp only [ok_bind]
  rw [h.readSlices_ok hg.2.2 hf]
  rfl

/-! ## Dropping everything -/

theorem RowsRep.dropEntities_spec (h : RowsRep W a t) (hf : t.FullTable t.types) :
    a.dropEntities = .ok (t.types.map t.column).flatten := by
  unfold Archetype.dropEntities
  obtain ⟨s, hs1, hs2⟩ := forRange_inv
    (f := fun i dropped => do
      let d ← index a.descriptor.components i
      let p ← index a.pointers i
      let vs ← runDropHandler d p 0 a.entityCount
      return dropped ++ vs)
    (fun i s => s = ((t.types.map t.column).take i).flatten) t.types.length 0 [] (by simp) (by
      intro i s _ hi hs
      have hi' : i < t.types.length := by omega
      have hc := List.getElem?_eq_getElem hi'
      obtain ⟨b, h1, h2⟩ := h.cols.col i _ hc
      rw [h.desc.index_comp hc, index_of_getElem? h1]
      simp only [ok_bind, runDropHandler, CompTy.descriptor]
      rw [h.readColumn_ok hf (List.getElem_mem hi') h2]
      refine ⟨_, rfl, ?_⟩
      rw [List.take_add_one, List.getElem?_map, hc, hs]
      simp)
  rw [h.desc.clen, hs1, hs2, Nat.zero_add, List.take_of_length_le (by simp)]

theorem RowsRep.deallocLoop_ok (h : RowsRep W a t) : ∀ (n i : Nat) (ptrs : List (Option Block)),
    i + n = t.types.length → ptrs.length = 14 → (∀ j, i ≤ j → ptrs[j]? = a.pointers[j]?) →
    (∀ j, j < i → ptrs[j]? = some none) → ∃ ptrs', a.deallocLoop n i ptrs = .ok (ptrs', false) ∧ ∀ p ∈ ptrs', p = none
  | 0, i, ptrs, hin, hlen, hp, hd => by
    refine ⟨ptrs, rfl, fun p hm => ?_⟩
    obtain ⟨j, hj⟩ := List.mem_iff_getElem?.mp hm
    have hjl := (List.getElem?_eq_some_iff.mp hj).1
    have : ptrs[j]? = some none := by
      by_cases hlt : j < i
      · exact hd j hlt
      · rw [hp j (by omega)]
        exact h.cols.rest j (by omega) (by omega)
    rw [hj] at this
    exact Option.some.inj this
  | n + 1, i, ptrs, hin, hlen, hp, hdone => by
    have hc := List.getElem?_eq_getElem (show i < t.types.length by omega)
    obtain ⟨b, h1, h2⟩ := h.cols.col i _ hc
    have hW := h.desc.world_of hc
    have hle := h.cols.cts_le
    unfold Archetype.deallocLoop
    rw [index_of_getElem? (by rw [hp i (Nat.le_refl _), h1]), h.desc.index_comp hc]
    simp only [ok_bind, W.desc_size hW, W.desc_align hW]
    have hd : deallocBlock (some b) (t.types[i].size * a.capacity) t.types[i].align = .ok () := by
      unfold deallocBlock
      simp only []
      rw [if_neg (by rw [h2.size, h2.align]; simp)]
    rw [hd]
    simp only [ok_bind]
    refine h.deallocLoop_ok n (i + 1) _ (by omega) (by rw [List.length_set]; exact hlen) ?_ ?_
    · intro j hj
      rw [List.getElem?_set_ne (by omega)]
      exact hp j (by omega)
    · intro j hj
      by_cases hji : j = i
      · subst hji
        exact List.getElem?_set_self (by omega)
      · rw [List.getElem?_set_ne (by omega)]
        exact hdone j (by omega)

theorem RowsRep.drop_spec (h : RowsRep W a t) (hf : t.FullTable t.types) :
    ∃ a', a.drop = .ok ((t.types.map t.column).flatten, a') ∧ a'.freed = true := by
  have hpos := h.pos
  have hcap := h.cap
  unfold Archetype.drop
  rw [if_neg (by omega), h.dropEntities_spec hf]
  simp only [ok_bind]
  obtain ⟨ptrs, hp, hn⟩ := h.deallocLoop_ok t.types.length 0 a.pointers (by omega) h.cols.ptrs_len (by intros; rfl)
    (by intros; omega)
  obtain ⟨l, hl, hll, _⟩ := h.ents
  unfold Archetype.dealloc
  rw [← h.desc.length, hp]
  simp only [ok_bind, Bool.false_eq_true, if_false, hl]
  rw [if_neg (by simp [hll])]
  refine ⟨_, rfl, ?_⟩
  unfold Archetype.freed
  simp only [Option.isNone_none, Bool.and_true, List.all_eq_true]
  intro p hp
  rw [hn p hp]
  rfl

end Shard
