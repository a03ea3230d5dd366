import Verif.Spec.Reference
import Verif.Proofs.Archetypes
/-!
# The tables of the reference registry, as a function of the contents of the archetypes
-/

set_option autoImplicit false

namespace Shard

variable {env : Env} {W : World env}

/-! ## Rows -/

/-- The rows of a content. -/
def Content.rows (ct : Content) : List (Entity × List Val) := ct.ents.zipIdx.map (fun p => (p.1, ct.rowVals p.2))

theorem Content.rows_getElem? (ct : Content) (k : Nat) : ct.rows[k]? = (ct.ents[k]?).map (fun e => (e, ct.rowVals k)) := by
  unfold Content.rows
  rw [List.getElem?_map, List.getElem?_zipIdx]
  cases ct.ents[k]? <;> simp

theorem Content.rows_length (ct : Content) : ct.rows.length = ct.ents.length := by simp [Content.rows]

theorem Content.rows_fst (ct : Content) : ct.rows.map Prod.fst = ct.ents := by
  apply List.ext_getElem?
  intro k
  rw [List.getElem?_map, ct.rows_getElem?]
  cases ct.ents[k]? <;> rfl

theorem Content.rows_empty (cts : List CompTy) : (Content.empty cts).rows = [] := rfl

theorem lookupTy_mapRow {α β : Type} (f : α → β) : ∀ (cts : List CompTy) (l : List α) (c : CompTy),
    lookupTy cts (l.map f) c = (lookupTy cts l c).map f
  | [], _, _ => by simp [lookupTy]
  | _ :: _, [], _ => by simp [lookupTy]
  | c' :: cts, a :: l, c => by
    simp only [List.map_cons, lookupTy]
    split
    · rfl
    · exact lookupTy_mapRow f cts l c

/-- The value of a type in a row. -/
theorem Rep.lookup_row {a : Archetype} {ct : Content} (h : Rep W a ct) {k : Nat} (hk : k < ct.ents.length) (c : CompTy) :
    lookupTy ct.cts (ct.rowVals k) c = ct.get c k := by
  unfold Content.rowVals Content.get
  rw [lookupTy_mapRow]
  cases hx : lookupTy ct.cts ct.cols c with
  | none => rfl
  | some col =>
    obtain ⟨i, _, h2⟩ := lookupTy_some_mem hx
    have := h.lens i col h2
    simp only [Option.map_some, Option.bind_some]
    rw [List.getElem?_eq_getElem (by omega)]
    rfl

theorem Rep.valOf_row {a : Archetype} {ct : Content} (h : Rep W a ct) {k : Nat} (hk : k < ct.ents.length) (c : CompTy) :
    valOf ct.cts (ct.rowVals k) c = (ct.get c k).getD default := by
  unfold valOf
  rw [h.lookup_row hk]; rfl

theorem Rep.rows_push {a : Archetype} {ct : Content} (h : Rep W a ct) {e : Entity} {sv : List Val}
    (hs : sv.length = ct.cts.length) : (ct.push e sv).rows = ct.rows ++ [(e, sv)] := by
  apply List.ext_getElem?
  intro k
  rw [Content.rows_getElem?]
  have hcl : ct.cols.length = sv.length := by rw [hs, h.cols.cols_len]
  rcases Nat.lt_trichotomy k ct.ents.length with hk | hk | hk
  · rw [List.getElem?_append_left (by rw [ct.rows_length]; exact hk), Content.rows_getElem?]
    have h1 : (ct.push e sv).ents[k]? = ct.ents[k]? := by
      show (ct.ents ++ [e])[k]? = _
      rw [List.getElem?_append_left hk]
    rw [h1]
    congr 1
    funext x
    congr 1
    show (List.zipWith _ _ _).map _ = ct.cols.map _
    apply List.ext_getElem?
    intro i
    rw [List.getElem?_map, List.getElem?_map, List.getElem?_zipWith]
    cases hx : ct.cols[i]? with
    | none => simp
    | some col =>
      have hi := (List.getElem?_eq_some_iff.mp hx).1
      rw [List.getElem?_eq_getElem (by omega : i < sv.length)]
      have := h.lens i col hx
      simp only [Option.map_some]
      rw [List.getElem?_append_left (by omega)]
  · subst hk
    rw [List.getElem?_append_right (by rw [ct.rows_length]; omega), ct.rows_length, Nat.sub_self]
    have h1 : (ct.push e sv).ents[ct.ents.length]? = some e := by
      show (ct.ents ++ [e])[_]? = _
      simp
    rw [h1]
    show some (e, _) = some (e, sv)
    congr 2
    show (List.zipWith _ _ _).map _ = sv
    apply List.ext_getElem?
    intro i
    rw [List.getElem?_map, List.getElem?_zipWith]
    cases hx : sv[i]? with
    | none => simp
    | some v =>
      have hi := (List.getElem?_eq_some_iff.mp hx).1
      have hc := List.getElem?_eq_getElem (by omega : i < ct.cols.length)
      rw [hc]
      have := h.lens i _ hc
      simp only [Option.map_some]
      rw [List.getElem?_append_right (by omega), this]
      simp
  · have h1 : (ct.push e sv).ents[k]? = none := by
      show (ct.ents ++ [e])[k]? = _
      rw [List.getElem?_eq_none]; simp; omega
    rw [h1, List.getElem?_eq_none (by rw [List.length_append, ct.rows_length]; simp; omega)]
    rfl

theorem swapRemove_getElem? {α : Type} {l : List α} {k : Nat} (hk : k < l.length) (j : Nat) :
    (swapRemove l k)[j]? = if l.length - 1 ≤ j then none else if j = k then l[l.length - 1]? else l[j]? := by
  unfold swapRemove
  rw [List.getLast?_eq_getElem?]
  have hl : l.length - 1 < l.length := by omega
  rw [List.getElem?_eq_getElem hl]
  simp only [List.getElem?_dropLast, List.length_set]
  by_cases hj : j < l.length - 1
  · rw [if_pos hj, if_neg (by omega), List.getElem?_set]
    by_cases hjk : k = j
    · rw [if_pos hjk, if_pos hjk.symm, if_pos (by omega)]
    · rw [if_neg hjk, if_neg (fun h => hjk h.symm)]
  · rw [if_neg hj, if_pos (by omega)]

theorem Rep.rows_swapPop {a : Archetype} {ct : Content} (h : Rep W a ct) {k : Nat} (hk : k < ct.ents.length) :
    (ct.swapPop k).rows = swapRemove ct.rows k := by
  apply List.ext_getElem?
  intro j
  rw [swapRemove_getElem? (by rw [ct.rows_length]; exact hk), Content.rows_getElem?, swapPop_ents hk, ct.rows_length]
  by_cases hj : ct.ents.length - 1 ≤ j
  · rw [if_pos hj, if_pos hj]; rfl
  · rw [if_neg hj, if_neg hj]
    have key : ∀ j', (∀ col : List Val, col.length = ct.ents.length →
        ((swapAt col k (ct.ents.length - 1)).dropLast)[j]? = col[j']?) → (ct.swapPop k).rowVals j = ct.rowVals j' := by
      intro j' hcol
      show (((ct.cols.map _).map _).map _) = ct.cols.map _
      apply List.ext_getElem?
      intro i
      simp only [List.getElem?_map]
      cases hx : ct.cols[i]? with
      | none => rfl
      | some col =>
        simp only [Option.map_some]
        rw [hcol col (h.lens i col hx)]
    by_cases hjk : j = k
    · subst hjk
      rw [if_pos rfl, if_pos rfl, Content.rows_getElem?, key (ct.ents.length - 1)]
      intro col hl
      rw [List.getElem?_dropLast, swapAt_length, if_pos (by omega), getElem?_swapAt (by omega) (by omega), if_neg (by omega),
        if_pos rfl]
    · rw [if_neg hjk, if_neg hjk, Content.rows_getElem?, key j]
      intro col hl
      rw [List.getElem?_dropLast, swapAt_length, if_pos (by omega), getElem?_swapAt (by omega) (by omega), if_neg (by omega),
        if_neg hjk]

theorem setTy_set {v : Val} : ∀ {cts : List CompTy} {vals : List Val} {i : Nat} {c : CompTy}, cts.Nodup →
    vals.length = cts.length → cts[i]? = some c → setTy cts vals c v = vals.set i v
  | [], _, _, _, _, _, h => by simp at h
  | _ :: _, [], _, _, _, hl, _ => by simp at hl
  | c' :: cts, w :: vals, 0, c, hn, hl, h => by
    simp at h
    subst h
    obtain ⟨h1, h2⟩ := List.nodup_cons.mp hn
    unfold setTy
    simp only [List.zipWith_cons_cons, if_true, List.set_cons_zero]
    congr 1
    apply List.ext_getElem?
    intro i
    rw [List.getElem?_zipWith]
    simp only [List.length_cons, Nat.add_right_cancel_iff] at hl
    cases hx : vals[i]? with
    | none => cases cts[i]? <;> rfl
    | some x =>
      have hi := (List.getElem?_eq_some_iff.mp hx).1
      rw [List.getElem?_eq_getElem (by omega : i < cts.length)]
      simp only []
      rw [if_neg]
      rintro rfl
      exact h1 (List.getElem_mem _)
  | c' :: cts, w :: vals, i + 1, c, hn, hl, h => by
    obtain ⟨h1, h2⟩ := List.nodup_cons.mp hn
    simp only [List.getElem?_cons_succ] at h
    simp only [List.length_cons, Nat.add_right_cancel_iff] at hl
    have hne : c' ≠ c := by rintro rfl; exact h1 (List.mem_of_getElem? h)
    have := setTy_set (v := v) h2 hl h
    unfold setTy at this ⊢
    rw [List.zipWith_cons_cons, if_neg hne, this, List.set_cons_succ]

theorem Rep.rowVals_length {a : Archetype} {ct : Content} (h : Rep W a ct) (k : Nat) :
    (ct.rowVals k).length = ct.cts.length := by
  unfold Content.rowVals
  rw [List.length_map, h.cols.cols_len]

theorem Rep.rows_setVal {a : Archetype} {ct : Content} (h : Rep W a ct) {i k : Nat} {c : CompTy} {v : Val} {e : Entity}
    (hi : ct.cts[i]? = some c) (hk : ct.ents[k]? = some e) :
    (ct.setVal i k v).rows = ct.rows.set k (e, setTy ct.cts (ct.rowVals k) c v) := by
  have hkl := (List.getElem?_eq_some_iff.mp hk).1
  rw [setTy_set h.nodup (h.rowVals_length k) hi]
  have hcl := h.cols.cols_len
  have hil := (List.getElem?_eq_some_iff.mp hi).1
  apply List.ext_getElem?
  intro j
  rw [Content.rows_getElem?]
  show (ct.ents[j]?).map _ = _
  have hrv : (ct.setVal i k v).rowVals j = if j = k then (ct.rowVals k).set i v else ct.rowVals j := by
    unfold Content.rowVals Content.setVal
    apply List.ext_getElem?
    intro i'
    rw [List.getElem?_map, List.getElem?_modify]
    by_cases hii : i = i'
    · subst hii
      have hc := List.getElem?_eq_getElem (by omega : i < ct.cols.length)
      have hcl' := h.lens i _ hc
      rw [hc]
      simp only [Option.map_some, Option.map_eq_map, if_true]
      by_cases hjk : j = k
      · subst hjk
        rw [if_pos rfl, List.getElem?_set_self (by omega), List.getElem?_set_self (by rw [List.length_map]; omega)]
        rfl
      · rw [if_neg hjk, List.getElem?_map, hc, List.getElem?_set_ne (fun h => hjk h.symm)]
        rfl
    · simp only [if_neg hii, Option.map_eq_map, Option.map_id']
      by_cases hjk : j = k
      · subst hjk
        rw [if_pos rfl, List.getElem?_set_ne hii, List.getElem?_map]
      · rw [if_neg hjk, List.getElem?_map]
  rw [hrv]
  by_cases hjk : k = j
  · subst hjk
    rw [if_pos rfl, List.getElem?_set_self (by rw [ct.rows_length]; exact hkl), hk]
    rfl
  · rw [if_neg (fun h => hjk h.symm), List.getElem?_set_ne hjk, Content.rows_getElem?]

/-! ## Tables -/

/-- The tables for archetypes with the given ids and contents. -/
def tablesOf (ids : List UInt32) (cs : List Content) : List RTable :=
  List.zipWith (fun id ct => ⟨ct.cts, id, ct.rows⟩) ids cs

/-- The archetype ids of a registry. -/
def ArchetypeRegistry.idsOf (ar : ArchetypeRegistry) : List UInt32 := ar.archetypes.map (fun a => a.descriptor.archetypeId)

theorem SameDescs.idsOf {ar ar' : ArchetypeRegistry} (h : SameDescs ar ar') : ar'.idsOf = ar.idsOf := by
  have := congrArg (List.map (fun d : ArchetypeDescriptor => d.archetypeId)) h
  rw [List.map_map, List.map_map] at this
  exact this

theorem tablesOf_getElem? {ids : List UInt32} {cs : List Content} {i : Nat} {id : UInt32} {ct : Content}
    (hi : ids[i]? = some id) (hc : cs[i]? = some ct) : (tablesOf ids cs)[i]? = some ⟨ct.cts, id, ct.rows⟩ := by
  unfold tablesOf
  rw [List.getElem?_zipWith, hi, hc]

theorem tablesOf_length {ids : List UInt32} {cs : List Content} (h : ids.length = cs.length) :
    (tablesOf ids cs).length = cs.length := by
  unfold tablesOf
  rw [List.length_zipWith, h, Nat.min_self]

theorem tablesOf_some {ids : List UInt32} {cs : List Content} {i : Nat} {t : RTable} (h : (tablesOf ids cs)[i]? = some t) :
    ∃ id ct, ids[i]? = some id ∧ cs[i]? = some ct ∧ t = ⟨ct.cts, id, ct.rows⟩ := by
  unfold tablesOf at h
  rw [List.getElem?_zipWith] at h
  cases h1 : ids[i]? with
  | none => rw [h1] at h; cases h
  | some id =>
    cases h2 : cs[i]? with
    | none => rw [h1, h2] at h; cases h
    | some ct => rw [h1, h2] at h; cases h; exact ⟨id, ct, rfl, rfl, rfl⟩

theorem ARInv.ids_length {ar : ArchetypeRegistry} {cs : List Content} (h : ARInv W ar cs) : ar.idsOf.length = cs.length := by
  unfold ArchetypeRegistry.idsOf
  rw [List.length_map, h.len]

theorem ARInv.table {ar : ArchetypeRegistry} {cs : List Content} {i : Nat} {ct : Content} (hc : cs[i]? = some ct)
    {a : Archetype} (ha : ar.archetypes[i]? = some a) :
    (tablesOf ar.idsOf cs)[i]? = some ⟨ct.cts, a.descriptor.archetypeId, ct.rows⟩ := by
  apply tablesOf_getElem? ?_ hc
  unfold ArchetypeRegistry.idsOf
  rw [List.getElem?_map, ha]; rfl

theorem onRows_getElem? (ts : List RTable) (i j : Nat) (f : List (Entity × List Val) → List (Entity × List Val)) :
    (onRows ts i f)[j]? = if i = j then (ts[j]?).map (fun t => { t with rows := f t.rows }) else ts[j]? := by
  unfold onRows
  rw [List.getElem?_modify]
  split
  · rfl
  · simp

/-- Replacing the content of one archetype by one with the same types. -/
theorem tablesOf_set {ids : List UInt32} {cs : List Content} {i : Nat} {ct ct' : Content} (hc : cs[i]? = some ct)
    (hcts : ct'.cts = ct.cts) {f : List (Entity × List Val) → List (Entity × List Val)} (hf : ct'.rows = f ct.rows) :
    tablesOf ids (cs.set i ct') = onRows (tablesOf ids cs) i f := by
  apply List.ext_getElem?
  intro j
  rw [onRows_getElem?]
  unfold tablesOf
  rw [List.getElem?_zipWith, List.getElem?_zipWith]
  by_cases hij : i = j
  · subst hij
    rw [if_pos rfl, List.getElem?_set_self (List.getElem?_eq_some_iff.mp hc).1, hc]
    cases ids[i]? with
    | none => rfl
    | some id => simp [hcts, hf]
  · rw [if_neg hij, List.getElem?_set_ne hij]

/-! ## Finding an entity -/

theorem findRow_none {e : Entity} : ∀ {rows : List (Entity × List Val)}, (∀ x ∈ rows, x.1 ≠ e) → findRow rows e = none
  | [], _ => rfl
  | x :: rows, h => by
    unfold findRow
    rw [if_neg (h x List.mem_cons_self), findRow_none (fun y hy => h y (List.mem_cons_of_mem _ hy))]
    rfl

theorem findRow_some {e : Entity} : ∀ {rows : List (Entity × List Val)} {k : Nat} {vals : List Val}, rows[k]? = some (e, vals) →
    (∀ (j : Nat) (x : Entity × List Val), rows[j]? = some x → x.1 = e → j = k) → findRow rows e = some (k, vals)
  | [], _, _, h, _ => by cases h
  | x :: rows, 0, vals, h, _ => by
    cases h
    unfold findRow
    rw [if_pos rfl]
  | x :: rows, k + 1, vals, h, hu => by
    unfold findRow
    have hx : x.1 ≠ e := by
      intro he
      have := hu 0 x rfl he
      omega
    rw [if_neg hx, findRow_some (k := k) (vals := vals) h (fun j y hj hy => by have := hu (j + 1) y hj hy; omega)]
    rfl

theorem findEntity_none {e : Entity} : ∀ {ts : List RTable}, (∀ t ∈ ts, findRow t.rows e = none) → findEntity ts e = none
  | [], _ => rfl
  | t :: ts, h => by
    unfold findEntity
    rw [h t List.mem_cons_self]
    simp only []
    rw [findEntity_none (fun y hy => h y (List.mem_cons_of_mem _ hy))]
    rfl

theorem findEntity_some {e : Entity} : ∀ {ts : List RTable} {i k : Nat} {t : RTable} {vals : List Val}, ts[i]? = some t →
    findRow t.rows e = some (k, vals) → (∀ (j : Nat) (t' : RTable), ts[j]? = some t' → j ≠ i → findRow t'.rows e = none) →
    findEntity ts e = some (i, k, t, vals)
  | [], _, _, _, _, h, _, _ => by cases h
  | t :: ts, 0, k, t', vals, h, h1, _ => by
    cases h
    unfold findEntity
    rw [h1]
  | t0 :: ts, i + 1, k, t, vals, h, h1, h2 => by
    unfold findEntity
    rw [h2 0 t0 rfl (by omega)]
    simp only []
    rw [findEntity_some (i := i) h h1 (fun j t' hj hne => h2 (j + 1) t' hj (by omega))]
    rfl

/-- The reference finds what the placement says. -/
theorem Placed.find {L : Entity → Option (Nat × Nat)} {cs : List Content} (h : Placed L cs) {ids : List UInt32}
    {e : Entity} {i k : Nat} {ct : Content} {id : UInt32} (hl : L e = some (i, k)) (hc : cs[i]? = some ct)
    (hid : ids[i]? = some id) :
    findEntity (tablesOf ids cs) e = some (i, k, ⟨ct.cts, id, ct.rows⟩, ct.rowVals k) := by
  obtain ⟨ct', q1, q2⟩ := (h e i k).mp hl
  rw [hc] at q1; cases q1
  have huniq : ∀ (j k' : Nat) (ct' : Content), cs[j]? = some ct' → ct'.ents[k']? = some e → j = i ∧ k' = k := by
    intro j k' ct' h1 h2
    have := (h e j k').mpr ⟨ct', h1, h2⟩
    rw [hl] at this
    cases this
    exact ⟨rfl, rfl⟩
  apply findEntity_some (tablesOf_getElem? hid hc)
  · apply findRow_some
    · rw [ct.rows_getElem?, q2]; rfl
    · intro j x hj hx
      rw [ct.rows_getElem?] at hj
      cases he : ct.ents[j]? with
      | none => rw [he] at hj; cases hj
      | some e' =>
        rw [he] at hj
        cases hj
        have hx : e' = e := hx
        subst hx
        exact (huniq i j ct hc he).2
  · intro j t' hj hne
    obtain ⟨id', ct', _, h2, rfl⟩ := tablesOf_some hj
    apply findRow_none
    intro x hx he
    obtain ⟨k', hk'⟩ := List.mem_iff_getElem?.mp hx
    rw [Content.rows_getElem?] at hk'
    cases he' : ct'.ents[k']? with
    | none => rw [he'] at hk'; cases hk'
    | some e' =>
      rw [he'] at hk'
      cases hk'
      have he : e' = e := he
      subst he
      exact hne (huniq j k' ct' h2 he').1

theorem Placed.find_none {L : Entity → Option (Nat × Nat)} {cs : List Content} (h : Placed L cs) {ids : List UInt32}
    {e : Entity} (hl : L e = none) : findEntity (tablesOf ids cs) e = none := by
  apply findEntity_none
  intro t ht
  obtain ⟨j, hj⟩ := List.mem_iff_getElem?.mp ht
  obtain ⟨id', ct', _, h2, rfl⟩ := tablesOf_some hj
  apply findRow_none
  intro x hx he
  obtain ⟨k', hk'⟩ := List.mem_iff_getElem?.mp hx
  rw [Content.rows_getElem?] at hk'
  cases he' : ct'.ents[k']? with
  | none => rw [he'] at hk'; cases hk'
  | some e' =>
    rw [he'] at hk'
    cases hk'
    have he : e' = e := he
    subst he
    have := (h e' j k').mpr ⟨ct', h2, he'⟩
    rw [hl] at this
    cases this

end Shard
