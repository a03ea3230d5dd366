import Verif.Proofs.RowsOps
/-!
# Several archetypes refine several tables of rows
-/

set_option autoImplicit false

namespace Shard

open Archetype

variable {env : Env} {W : World env} {a : Archetype} {t : Rows}

/-! ## Copying between archetypes -/

theorem RowsRep.copyCommon_spec {src dst : Archetype} {s d : Rows} (hS : RowsRep W src s) (hD : RowsRep W dst d) {k l : Nat}
    (hk : k < s.rows.length) (hl : l < d.rows.length) :
    ∃ dst', copyCommonComponents src k dst l = .ok dst' ∧ RowsRep W dst' (d.edit l (StoreOp.received s k d)) := by
  have hkc : k < src.capacity := by have := hS.le; have := hS.cap; omega
  have hlc : l < dst.capacity := by have := hD.le; have := hD.cap; omega
  unfold copyCommonComponents
  obtain ⟨ptrs, hp1, hp2⟩ := forRange_inv
    (f := fun si ptrs => do
      let sc ← index src.descriptor.components si
      copyCommonInner src k dst l si sc ptrs)
    (fun si ptrs => Columns d.types dst.capacity ptrs
      (fun c j => if j = l ∧ c ∈ s.types.take si then s.cell c k else d.cell c j)) s.types.length 0 dst.pointers (by
      have : (fun (c : CompTy) (j : Nat) => if j = l ∧ c ∈ s.types.take 0 then s.cell c k else d.cell c j) = d.cell := by
        funext c j; simp
      rw [this]; exact hD.cols) (by
      intro si ptrs _ hsi hI
      have hsi' : si < s.types.length := by omega
      have hsc := List.getElem?_eq_getElem hsi'
      have hWs := hS.desc.world_of hsc
      rw [hS.desc.index_comp hsc]
      simp only [ok_bind]
      unfold copyCommonInner
      rw [hD.desc.clen]
      generalize s.types[si] = sc at *
      obtain ⟨sb, s2, s3⟩ := hS.cols.col si sc hsc
      apply hI.loop
      intro di c hc ptrs' b hpl hpb hok
      have hWc := hD.desc.world_of hc
      rw [hD.desc.index_comp hc]
      simp only [ok_bind]
      have hscid : sc.descriptor.id = sc.id := rfl
      have hcid : c.descriptor.id = c.id := rfl
      rw [hscid, hcid]
      by_cases hcc : c = sc
      · subst hcc
        rw [if_neg (by simp)]
        have hnm := nodup_not_mem_take hS.nodup hsc
        have hm : c ∈ s.types.take (si + 1) := (mem_take_succ hsc).mpr (Or.inr rfl)
        have hbd := s3.bound hkc
        obtain ⟨b', hb', hok'⟩ := hok.writeRaw hlc (bs := cell sb c.size k) (by
            unfold cell
            rw [List.length_take, List.length_drop]
            omega) (w := s.cell c k) (by
            intro v hv
            obtain ⟨_, q1, q2⟩ := s3.cells k v hv
            exact ⟨q1, q2⟩)
          (f' := fun j => if j = l ∧ c ∈ s.types.take (si + 1) then s.cell c k else d.cell c j) (by
            intro j
            simp only [hm, hnm, and_true, and_false, if_false])
        refine ⟨b', ?_, hok'⟩
        rw [index_of_getElem? s2, index_of_getElem? hpb]
        simp only [ok_bind, W.desc_size hWc]
        rw [readBytes_cell hbd]
        simp only [ok_bind]
        rw [hb']
        simp only [ok_bind]
        rw [setIndex_lt (List.getElem?_eq_some_iff.mp hpb).1]
      · rw [if_pos (by intro he; exact hcc (W.id_inj hWs hWc he).symm)]
        have : (c ∈ s.types.take (si + 1)) ↔ c ∈ s.types.take si := by
          rw [mem_take_succ hsc]; simp [hcc]
        refine ⟨b, ?_, ?_⟩
        · rw [set_same hpb]; rfl
        · simp only [this]; exact hok)
  rw [hS.desc.clen, hp1]
  rw [Nat.zero_add, List.take_length] at hp2
  refine ⟨_, rfl, hD.desc, hD.gid, ?_, ?_, ?_, hD.cap, ?_, hD.pos⟩
  · refine ⟨hp2.ptrs_len, hp2.cts_le, ?_, hp2.rest⟩
    intro i c hc
    obtain ⟨b, hb, hok⟩ := hp2.col i c hc
    refine ⟨b, hb, hok.weaken (fun j v hv => ?_)⟩
    have hcd : c ∈ d.types := List.mem_of_getElem? hc
    rw [Rows.cell_edit hl] at hv
    by_cases hj : j = l
    · subst hj
      rw [if_pos rfl] at hv
      simp only [StoreOp.received, hcd, and_true] at hv
      simp only [true_and]
      rw [Rows.cell_eq hl]
      exact hv
    · rw [if_neg hj] at hv
      rw [if_neg (by simp [hj])]
      exact hv
  · refine hD.ents.weaken (fun j e he => ?_)
    rw [Rows.ent_edit hl] at he
    split at he
    · next hj => subst hj; rw [Rows.ent_eq hl]; exact he
    · exact he
  · simp [Rows.edit, hD.count]
  · simp only [Rows.edit, List.length_modify]; exact hD.le

/-- Knowing less about the rows. -/
theorem RowsRep.forget (h : RowsRep W a t) {t' : Rows} (ht : t'.types = t.types) (hc : t'.cap = t.cap)
    (hl : t'.rows.length = t.rows.length) (h1 : ∀ c k v, t'.cell c k = some v → t.cell c k = some v)
    (h2 : ∀ k e, t'.ent k = some e → t.ent k = some e) : RowsRep W a t' := by
  refine ⟨by rw [ht]; exact h.desc, h.gid, by rw [ht]; exact h.cols.weaken h1, h.ents.weaken h2, by rw [hl]; exact h.count,
    by rw [hc]; exact h.cap, by rw [hl, hc]; exact h.le, by rw [hc]; exact h.pos⟩

theorem RowsRep.forgetCells (h : RowsRep W a t) {k : Nat} {f : Row → Row}
    (hv : ∀ r c v, (f r).val c = some v → r.val c = some v) (he : ∀ r, (f r).ent = r.ent) : RowsRep W a (t.edit k f) := by
  refine h.forget rfl rfl (by simp [Rows.edit]) ?_ ?_
  · intro c j v hx
    by_cases hk : k < t.rows.length
    · rw [Rows.cell_edit hk] at hx
      split at hx
      · next hj => subst hj; rw [Rows.cell_eq hk]; exact hv _ _ _ hx
      · exact hx
    · unfold Rows.cell Rows.edit at hx
      rw [List.modify_eq_self (by omega)] at hx
      exact hx
  · intro j e hx
    by_cases hk : k < t.rows.length
    · rw [Rows.ent_edit hk] at hx
      split at hx
      · next hj => subst hj; rw [Rows.ent_eq hk, ← he]; exact hx
      · exact hx
    · unfold Rows.ent Rows.edit at hx
      rw [List.modify_eq_self (by omega)] at hx
      exact hx

/-! ## All functions of one archetype -/

theorem Rows.tuple_single {t : Rows} {c : CompTy} {k : Nat} {v : Val} (h : t.cell c k = some v) : t.tuple [c] k = [v] := by
  simp [Rows.tuple, h]

theorem RowsRep.run_spec (h : RowsRep W a t) (op : RowOp) (hl : op.Legal W t) :
    ∃ a', op.run env a = .ok (a', (op.apply t).2) ∧ RowsRep W a' (op.apply t).1 := by
  cases op with
  | push e g vals =>
    obtain ⟨h1, h2, h3⟩ := hl
    obtain ⟨a', q1, q2⟩ := h.push_spec h1 e h2 h3
    exact ⟨a', by simp only [RowOp.run, q1]; rfl, q2⟩
  | pushUninit =>
    obtain ⟨a', q1, q2⟩ := h.pushUninit_spec (env := env) hl
    exact ⟨a', by simp only [RowOp.run, q1]; rfl, q2⟩
  | decrement =>
    obtain ⟨a', q1, q2⟩ := h.decrement_spec hl
    exact ⟨a', by simp only [RowOp.run, q1]; rfl, q2⟩
  | write c k v =>
    obtain ⟨h1, h2, h3⟩ := hl
    obtain ⟨a', q1, q2⟩ := h.write_spec h1 h2 h3
    exact ⟨a', by simp only [RowOp.run, q1]; rfl, q2⟩
  | writeRow k e g vals =>
    obtain ⟨h1, h2, h3⟩ := hl
    obtain ⟨a', q1, q2⟩ := h.writeRow_spec h1 e h2 h3
    exact ⟨a', by simp only [RowOp.run, q1]; rfl, q2⟩
  | setEntity k e =>
    obtain ⟨a', q1, q2⟩ := h.setEntity_spec hl e
    exact ⟨a', by simp only [RowOp.run, q1]; rfl, q2⟩
  | assign c k v =>
    obtain ⟨h1, h2, h3⟩ := hl
    obtain ⟨old, ho⟩ := h2.cell (List.mem_singleton_self c)
    obtain ⟨a', q1, q2⟩ := h.writeRef_spec (idxOf_getElem? h1) h2.lt h3
    refine ⟨a', ?_, q2⟩
    have hr := h.readRef_ok (idxOf_getElem? h1) ho
    simp only [RowOp.run, getComponentUncheckedMut]
    rw [h.componentRef_ok (idxOf_getElem? h1)]
    simp only [ok_bind, pure_eq_ok, hr, q1, RowOp.apply, Rows.tuple_single ho]
  | swap i j =>
    obtain ⟨h1, h2, h3⟩ := hl
    obtain ⟨a', q1, q2⟩ := h.swap_spec h1 h2.lt h3.lt
    exact ⟨a', by simp only [RowOp.run, q1]; rfl, q2⟩
  | swapToLast k =>
    obtain ⟨h1, h2⟩ := hl
    obtain ⟨a', q1, q2⟩ := h.swapToLast_spec (env := env) h1.lt
    exact ⟨a', by simp only [RowOp.run, q1]; rfl, q2⟩
  | swapDrop k =>
    obtain ⟨h1, _, _⟩ := hl
    obtain ⟨a', q1, q2⟩ := h.swapDrop_spec (env := env) h1
    exact ⟨a', by simp only [RowOp.run, q1]; rfl, q2⟩
  | swapRemove g k =>
    obtain ⟨h1, h2, _, _⟩ := hl
    obtain ⟨a', q1, q2⟩ := h.swapRemove_spec h1 h2
    exact ⟨a', by simp only [RowOp.run, q1]; rfl, q2⟩
  | moveOut c k =>
    obtain ⟨h1, h2⟩ := hl
    obtain ⟨old, ho⟩ := h2.cell (List.mem_singleton_self c)
    refine ⟨a, ?_, ?_⟩
    · simp only [RowOp.run, readComponentUnchecked]
      rw [h.componentRef_ok (idxOf_getElem? h1)]
      simp only [ok_bind]
      rw [h.readRef_ok (idxOf_getElem? h1) ho]
      simp only [ok_bind, RowOp.apply, Rows.tuple_single ho]
      rfl
    · refine h.forgetCells ?_ (fun _ => rfl)
      intro r c' v hv
      simp only [Row.drop] at hv
      split at hv
      · cases hv
      · exact hv
  | dropRow k =>
    refine ⟨a, ?_, ?_⟩
    · simp only [RowOp.run, h.dropEntity_spec hl]; rfl
    · exact h.forgetCells (by intro r c v hv; cases hv) (fun _ => rfl)
  | dropRows =>
    refine ⟨a, ?_, ?_⟩
    · simp only [RowOp.run, h.dropEntities_spec hl]; rfl
    · refine h.forget rfl rfl (by simp [RowOp.apply]) ?_ ?_
      · intro c k v hv
        simp only [Rows.cell, RowOp.apply, List.getElem?_map] at hv
        cases hk : t.rows[k]? with
        | none => rw [hk] at hv; cases hv
        | some r => rw [hk] at hv; cases hv
      · intro k e he
        simp only [Rows.ent, RowOp.apply, List.getElem?_map] at he ⊢
        cases hk : t.rows[k]? with
        | none => rw [hk] at he; cases he
        | some r => rw [hk] at he; exact he
  | size =>
    refine ⟨a, ?_, h⟩
    simp only [RowOp.run, RowOp.apply, Archetype.isFull, h.count, h.cap]
  | entities =>
    exact ⟨a, by simp only [RowOp.run, h.entities_ok hl]; rfl, h⟩
  | get c k =>
    obtain ⟨h1, h2⟩ := hl
    obtain ⟨old, ho⟩ := h2.cell (List.mem_singleton_self c)
    refine ⟨a, ?_, h⟩
    simp only [RowOp.run, getComponentUnchecked]
    rw [h.componentRef_ok (idxOf_getElem? h1)]
    simp only [ok_bind]
    rw [h.readRef_ok (idxOf_getElem? h1) ho]
    simp only [ok_bind, RowOp.apply, Rows.tuple_single ho]
    rfl
  | getFuzzy g k =>
    obtain ⟨h1, h2⟩ := hl
    exact ⟨a, by simp only [RowOp.run, h.getFuzzy_ok h1 h2]; rfl, h⟩
  | slicesExact g =>
    obtain ⟨h1, h2⟩ := hl
    exact ⟨a, by simp only [RowOp.run, h.slicesExact_ok h1 h2]; rfl, h⟩
  | slicesFuzzy g =>
    obtain ⟨h1, h2⟩ := hl
    exact ⟨a, by simp only [RowOp.run, h.slicesFuzzy_ok h1 h2]; rfl, h⟩
  | slicesEntity g =>
    obtain ⟨h1, h2, h3⟩ := hl
    exact ⟨a, by simp only [RowOp.run, h.slicesEntity_ok h1 h2 h3]; rfl, h⟩

/-! ## The store -/

/-- The archetypes `as` hold the tables `ts`, one by one. -/
def StoreRep {env : Env} (W : World env) (as : List Archetype) (ts : List Rows) : Prop :=
  as.length = ts.length ∧ ∀ (i : Nat) (a : Archetype) (t : Rows), as[i]? = some a → ts[i]? = some t → RowsRep W a t

namespace StoreRep

variable {as : List Archetype} {ts : List Rows}

theorem get (h : StoreRep W as ts) {i : Nat} {t : Rows} (ht : ts[i]? = some t) : ∃ a, as[i]? = some a ∧ RowsRep W a t := by
  have hi := (List.getElem?_eq_some_iff.mp ht).1
  have ha := List.getElem?_eq_getElem (show i < as.length by rw [h.1]; exact hi)
  exact ⟨_, ha, h.2 i _ t ha ht⟩

theorem set (h : StoreRep W as ts) {i : Nat} {a : Archetype} {t : Rows} (hr : RowsRep W a t) :
    StoreRep W (as.set i a) (ts.set i t) := by
  refine ⟨by simp [h.1], fun j b s hb hs => ?_⟩
  rw [List.getElem?_set] at hb hs
  by_cases hij : i = j
  · subst hij
    rw [if_pos rfl] at hb hs
    split at hb
    · split at hs
      · cases hb; cases hs; exact hr
      · cases hs
    · cases hb
  · rw [if_neg hij] at hb hs
    exact h.2 j b s hb hs

theorem set_right (h : StoreRep W as ts) {i : Nat} {a : Archetype} {t : Rows} (ha : as[i]? = some a) (hr : RowsRep W a t) :
    StoreRep W as (ts.set i t) := by
  have := h.set (i := i) hr
  rwa [set_same ha] at this

theorem append (h : StoreRep W as ts) {a : Archetype} {t : Rows} (hr : RowsRep W a t) :
    StoreRep W (as ++ [a]) (ts ++ [t]) := by
  refine ⟨by simp [h.1], fun j b s hb hs => ?_⟩
  have hlen := h.1
  rcases Nat.lt_trichotomy j as.length with hj | hj | hj
  · rw [List.getElem?_append_left hj] at hb
    rw [List.getElem?_append_left (by omega)] at hs
    exact h.2 j b s hb hs
  · rw [List.getElem?_append_right (by omega), show j - as.length = 0 by omega] at hb
    rw [List.getElem?_append_right (by omega), show j - ts.length = 0 by omega] at hs
    cases hb; cases hs; exact hr
  · rw [List.getElem?_eq_none (by simp; omega)] at hb; cases hb

theorem eraseIdx (h : StoreRep W as ts) (i : Nat) : StoreRep W (as.eraseIdx i) (ts.eraseIdx i) := by
  refine ⟨by simp [List.length_eraseIdx, h.1], fun j b s hb hs => ?_⟩
  rw [List.getElem?_eraseIdx] at hb hs
  split at hb
  · next hj => rw [if_pos hj] at hs; exact h.2 _ _ _ hb hs
  · next hj => rw [if_neg hj] at hs; exact h.2 _ _ _ hb hs

end StoreRep

/-- A new archetype of a valid group. -/
theorem create_spec {g : Group} (hg : W.OkGroup g) (hv : (g.descriptor env).isValid = true) {n : Nat} (hpos : 0 < n)
    (hle : n ≤ MAX_ENTITIES_PER_ARCHETYPE) {t : Rows} (ht : StoreOp.NewTable g n t) :
    ∃ a, withCapacity env (g.descriptor env).archetype n = .ok a ∧ RowsRep W a t := by
  have gs := Group.spec hv
  have hd := Group.descOK hg hv
  obtain ⟨h1, h2, h3, h4⟩ := ht
  have hty : t.types = g.cts env := by
    refine List.Perm.eq_of_pairwise (le := fun a b => a.id ≤ b.id) ?_ (h4.imp UInt16.le_of_lt) ?_ ?_
    · intro x y hx hy hxy hyx
      exact W.id_inj (hg.has x (h3.mem_iff.mp hx)) (hd.has y hy) (UInt16.le_antisymm hxy hyx)
    · have := hd.wf.ids_sorted
      rw [hd.ids_eq, List.pairwise_map] at this
      exact this.imp UInt16.le_of_lt
    · have hn1 : t.types.Nodup := by
        unfold List.Nodup
        exact h4.imp (by intro a b hab he; rw [he] at hab; exact absurd hab (UInt16.lt_irrefl _))
      have hn2 : (g.cts env).Nodup := by
        have := hd.nodup
        unfold List.Nodup at this ⊢
        rw [List.pairwise_map] at this
        exact this.imp (by intro a b hab he; exact hab (by rw [he]))
      refine (List.perm_ext_iff_of_nodup hn1 hn2).mpr fun c => ?_
      rw [h3.mem_iff, gs.mem_cts hg]
  rw [← hty] at hd
  rw [← h1]
  exact withCapacity_rows hd gs.archetypeId_eq (by omega) (by omega) h2

theorem StoreOp.step_spec {as : List Archetype} {ts ts' : List Rows} {op : StoreOp} {x : RowAns} (h : StoreRep W as ts)
    (hs : StoreOp.Step W ts op x ts') : ∃ as', op.run env as = .ok (as', x) ∧ StoreRep W as' ts' := by
  cases hs with
  | create g n t hg hv hpos hle ht =>
    obtain ⟨a, q1, q2⟩ := create_spec hg hv hpos hle ht
    exact ⟨as ++ [a], by simp only [StoreOp.run, q1]; rfl, h.append q2⟩
  | on i t op ht hl =>
    obtain ⟨a, q1, q2⟩ := h.get ht
    obtain ⟨a', q3, q4⟩ := q2.run_spec op hl
    exact ⟨as.set i a', by simp only [StoreOp.run, index_of_getElem? q1, ok_bind, q3]; rfl, h.set q4⟩
  | copy i k j l s d hij hs hd hk hl =>
    obtain ⟨a, q1, q2⟩ := h.get hs
    obtain ⟨b, p1, p2⟩ := h.get hd
    obtain ⟨b', q3, q4⟩ := q2.copyCommon_spec p2 hk hl
    refine ⟨as.set j b', by simp only [StoreOp.run, index_of_getElem? q1, index_of_getElem? p1, ok_bind, q3]; rfl, ?_⟩
    refine (h.set_right q1 (q2.forgetCells ?_ ?_)).set q4
    · intro r c v hv
      simp only [StoreOp.given] at hv
      split at hv
      · cases hv
      · exact hv
    · intro r; rfl
  | drop i t ht hf =>
    obtain ⟨a, q1, q2⟩ := h.get ht
    obtain ⟨a', q3, q4⟩ := q2.drop_spec hf
    exact ⟨as.eraseIdx i, by simp only [StoreOp.run, index_of_getElem? q1, ok_bind, q3, q4]; rfl, h.eraseIdx i⟩

theorem StoreOp.steps_spec {ts ts' : List Rows} {ops : List StoreOp} {xs : List RowAns} (hs : StoreOp.Steps W ts ops xs ts') :
    ∀ {as : List Archetype}, StoreRep W as ts → ∃ as', StoreOp.runAll env as ops = .ok (as', xs) ∧ StoreRep W as' ts' := by
  induction hs with
  | nil ts => intro as h; exact ⟨as, rfl, h⟩
  | cons h1 _ ih =>
    intro as h
    obtain ⟨as1, q1, q2⟩ := StoreOp.step_spec h h1
    obtain ⟨as2, q3, q4⟩ := ih q2
    exact ⟨as2, by simp only [StoreOp.runAll, q1, ok_bind, q3]; rfl, q4⟩

end Shard
