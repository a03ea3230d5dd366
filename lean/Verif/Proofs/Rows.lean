import Verif.Proofs.Cells
import Verif.Spec.Rows
/-!
# An archetype refines a table of rows
-/

set_option autoImplicit false

namespace Shard

open Archetype

variable {env : Env} {W : World env} {a : Archetype} {t : Rows}

/-- The archetype `a` holds the table `t`. -/
structure RowsRep {env : Env} (W : World env) (a : Archetype) (t : Rows) : Prop where
  desc : DescOK W a.descriptor t.types
  gid : a.descriptor.archetypeId = groupId env a.descriptor.ids
  cols : Columns t.types a.capacity a.pointers t.cell
  ents : EntArray a.capacity a.entityAssociations t.ent
  count : a.entityCount = t.rows.length
  cap : a.capacity = t.cap
  le : t.rows.length ≤ t.cap
  pos : 0 < t.cap

/-! ## Cells of changed tables -/

theorem Rows.cell_add (t : Rows) (r : Row) (c : CompTy) (k : Nat) :
    (t.add r).cell c k = if k = t.rows.length then r.val c else t.cell c k := by
  unfold Rows.cell Rows.add
  simp only []
  by_cases h : k = t.rows.length
  · subst h
    rw [if_pos rfl, List.getElem?_append_right (Nat.le_refl _), Nat.sub_self]
    rfl
  · rw [if_neg h]
    rcases Nat.lt_or_ge k t.rows.length with hlt | hge
    · rw [List.getElem?_append_left hlt]
    · rw [List.getElem?_eq_none (by simp; omega), List.getElem?_eq_none hge]

theorem Rows.ent_add (t : Rows) (r : Row) (k : Nat) :
    (t.add r).ent k = if k = t.rows.length then r.ent else t.ent k := by
  unfold Rows.ent Rows.add
  simp only []
  by_cases h : k = t.rows.length
  · subst h
    rw [if_pos rfl, List.getElem?_append_right (Nat.le_refl _), Nat.sub_self]
    rfl
  · rw [if_neg h]
    rcases Nat.lt_or_ge k t.rows.length with hlt | hge
    · rw [List.getElem?_append_left hlt]
    · rw [List.getElem?_eq_none (by simp; omega), List.getElem?_eq_none hge]

theorem Rows.cell_edit {t : Rows} {k : Nat} (hk : k < t.rows.length) (f : Row → Row) (c : CompTy) (j : Nat) :
    (t.edit k f).cell c j = if j = k then (f t.rows[k]).val c else t.cell c j := by
  unfold Rows.cell Rows.edit
  simp only [List.getElem?_modify]
  by_cases h : j = k
  · subst h
    rw [if_pos rfl, List.getElem?_eq_getElem hk]
    simp
  · rw [if_neg h]
    simp [Ne.symm h]

theorem Rows.ent_edit {t : Rows} {k : Nat} (hk : k < t.rows.length) (f : Row → Row) (j : Nat) :
    (t.edit k f).ent j = if j = k then (f t.rows[k]).ent else t.ent j := by
  unfold Rows.ent Rows.edit
  simp only [List.getElem?_modify]
  by_cases h : j = k
  · subst h
    rw [if_pos rfl, List.getElem?_eq_getElem hk]
    simp
  · rw [if_neg h]
    simp [Ne.symm h]

theorem Rows.cell_lt {t : Rows} {c : CompTy} {k : Nat} {v : Val} (h : t.cell c k = some v) : k < t.rows.length := by
  unfold Rows.cell at h
  rcases Nat.lt_or_ge k t.rows.length with hlt | hge
  · exact hlt
  · rw [List.getElem?_eq_none hge] at h; cases h

theorem Rows.exchange_eq {t : Rows} {i j : Nat} (hi : i < t.rows.length) (hj : j < t.rows.length) :
    t.exchange i j = { t with rows := swapAt t.rows i j } := by
  unfold Rows.exchange swapAt
  rw [List.getElem?_eq_getElem hi, List.getElem?_eq_getElem hj]

theorem Rows.exchange_types (t : Rows) (i j : Nat) : (t.exchange i j).types = t.types := by
  unfold Rows.exchange; split <;> rfl

theorem Rows.exchange_cap (t : Rows) (i j : Nat) : (t.exchange i j).cap = t.cap := by
  unfold Rows.exchange; split <;> rfl

theorem Rows.exchange_length (t : Rows) (i j : Nat) : (t.exchange i j).rows.length = t.rows.length := by
  unfold Rows.exchange; split <;> simp

theorem Rows.exchange_self (t : Rows) (i : Nat) : t.exchange i i = t := by
  by_cases hi : i < t.rows.length
  · rw [Rows.exchange_eq hi hi, swapAt_self]
  · unfold Rows.exchange
    rw [List.getElem?_eq_none (by omega)]

theorem Rows.cell_exchange {t : Rows} {i j : Nat} (hi : i < t.rows.length) (hj : j < t.rows.length) (c : CompTy) (k : Nat) :
    (t.exchange i j).cell c k = if k = j then t.cell c i else if k = i then t.cell c j else t.cell c k := by
  unfold Rows.cell
  rw [Rows.exchange_eq hi hj]
  simp only [getElem?_swapAt hi hj]
  split
  · rfl
  · split <;> rfl

theorem Rows.ent_exchange {t : Rows} {i j : Nat} (hi : i < t.rows.length) (hj : j < t.rows.length) (k : Nat) :
    (t.exchange i j).ent k = if k = j then t.ent i else if k = i then t.ent j else t.ent k := by
  unfold Rows.ent
  rw [Rows.exchange_eq hi hj]
  simp only [getElem?_swapAt hi hj]
  split
  · rfl
  · split <;> rfl

theorem Rows.cell_pop (t : Rows) (c : CompTy) (k : Nat) :
    t.pop.cell c k = if k < t.rows.length - 1 then t.cell c k else none := by
  unfold Rows.cell Rows.pop
  simp only [List.getElem?_take]
  split <;> rfl

theorem Rows.ent_pop (t : Rows) (k : Nat) :
    t.pop.ent k = if k < t.rows.length - 1 then t.ent k else none := by
  unfold Rows.ent Rows.pop
  simp only [List.getElem?_take]
  split <;> rfl

theorem Rows.cell_eq {t : Rows} {k : Nat} (hk : k < t.rows.length) (c : CompTy) : t.cell c k = (t.rows[k]).val c := by
  unfold Rows.cell
  rw [List.getElem?_eq_getElem hk]
  rfl

theorem Rows.ent_eq {t : Rows} {k : Nat} (hk : k < t.rows.length) : t.ent k = (t.rows[k]).ent := by
  unfold Rows.ent
  rw [List.getElem?_eq_getElem hk]
  rfl

theorem Rows.FullRow.lt {t : Rows} {cs : List CompTy} {k : Nat} (h : t.FullRow cs k) : k < t.rows.length := by
  obtain ⟨r, h1, _⟩ := h
  exact (List.getElem?_eq_some_iff.mp h1).1

theorem Rows.FullRow.cell {t : Rows} {cs : List CompTy} {k : Nat} (h : t.FullRow cs k) {c : CompTy} (hc : c ∈ cs) :
    ∃ v, t.cell c k = some v := by
  obtain ⟨r, h1, h2⟩ := h
  obtain ⟨v, hv⟩ := h2 c hc
  exact ⟨v, by unfold Rows.cell; rw [h1]; exact hv⟩

theorem Rows.HasEnt.lt {t : Rows} {k : Nat} (h : t.HasEnt k) : k < t.rows.length := by
  obtain ⟨r, _, h1, _⟩ := h
  exact (List.getElem?_eq_some_iff.mp h1).1

/-- A list of optional values all of which are present. -/
theorem filterMap_full {α β : Type} {f : α → Option β} : ∀ {l : List α}, (∀ x ∈ l, ∃ y, f x = some y) →
    (l.filterMap f).length = l.length ∧ ∀ i : Nat, (l.filterMap f)[i]? = (l[i]?).bind f
  | [], _ => ⟨rfl, fun i => rfl⟩
  | x :: l, h => by
    obtain ⟨y, hy⟩ := h x List.mem_cons_self
    obtain ⟨h1, h2⟩ := filterMap_full (fun z hz => h z (List.mem_cons_of_mem _ hz))
    rw [List.filterMap_cons_some hy]
    refine ⟨by simp [h1], fun i => ?_⟩
    cases i with
    | zero => simp [hy]
    | succ i => simpa using h2 i

/-! ## Groups with the types of an archetype -/

theorem RowOp.Exact.spec {cs : List CompTy} {g : Group} (h : RowOp.Exact W cs g) : GroupSpec env g := Group.spec h.2.1
theorem RowOp.Fuzzy.spec {cs : List CompTy} {g : Group} (h : RowOp.Fuzzy W cs g) : GroupSpec env g := Group.spec h.2.1

theorem RowsRep.nodup (h : RowsRep W a t) : t.types.Nodup := by
  have := h.desc.nodup
  unfold List.Nodup at this ⊢
  rw [List.pairwise_map] at this
  exact this.imp (by intro a b hab he; exact hab (by rw [he]))

theorem RowsRep.ids_eq (h : RowsRep W a t) {g : Group} (hg : RowOp.Exact W t.types g) :
    (g.descriptor env).archetype.ids = a.descriptor.ids := by
  have gs := hg.spec
  have h2 := Group.descOK hg.1 hg.2.1
  apply sorted_perm_ids (gs.desc.ids_sorted.imp UInt16.le_of_lt) (h.desc.wf.ids_sorted.imp UInt16.le_of_lt)
  refine (List.perm_ext_iff_of_nodup gs.desc.ids_nodup h.desc.wf.ids_nodup).mpr fun i => ?_
  rw [h2.ids_eq, h.desc.ids_eq, List.mem_map, List.mem_map]
  constructor
  · rintro ⟨c, hc, rfl⟩
    exact ⟨c, (hg.2.2 c).mp ((gs.mem_cts hg.1).mp hc), rfl⟩
  · rintro ⟨c, hc, rfl⟩
    exact ⟨c, (gs.mem_cts hg.1).mpr ((hg.2.2 c).mpr hc), rfl⟩

theorem RowsRep.types_eq (h : RowsRep W a t) {g : Group} (hg : RowOp.Exact W t.types g) : t.types = g.cts env := by
  have hids := h.ids_eq hg
  have h2 := Group.descOK hg.1 hg.2.1
  rw [h2.ids_eq, h.desc.ids_eq] at hids
  have hlen : (g.cts env).length = t.types.length := by have := congrArg List.length hids; simpa using this
  apply List.ext_getElem hlen.symm
  intro i hi hi'
  apply W.id_inj (h.desc.has _ (List.getElem_mem hi)) (h2.has _ (List.getElem_mem hi'))
  have := congrArg (fun l => l[i]?) hids
  simpa [hi, hi'] using this.symm

theorem RowsRep.id_eq (h : RowsRep W a t) {g : Group} (hg : RowOp.Exact W t.types g) :
    (g.descriptor env).archetype.archetypeId = a.descriptor.archetypeId := by
  rw [hg.spec.archetypeId_eq, h.gid, h.ids_eq hg]

end Shard
