import Verif.Proofs.ArchetypeMove
/-!
# Columns with cells that may be empty

`ColOK` describes a column whose first cells all hold values. Here the content of a column is a partial function from rows
to values: `f k = some v` means that cell `k` holds `v`, `f k = none` says nothing.
-/

set_option autoImplicit false

namespace Shard

/-- Block `b` is the column of component `c` with capacity `cap`; where `f` is defined, it tells what the cell holds. -/
structure CellsOK (c : CompTy) (cap : Nat) (b : Block) (f : Nat → Option Val) : Prop where
  align : b.align = c.align
  mult : c.size % c.align = 0
  size : b.bytes.length = c.size * cap
  cells : ∀ k v, f k = some v → k < cap ∧ v.HasTy c ∧ cell b c.size k = v.encode

namespace CellsOK

variable {c : CompTy} {cap : Nat} {b : Block} {f : Nat → Option Val}

theorem bound (h : CellsOK c cap b f) {k : Nat} (hk : k < cap) : c.size * k + c.size ≤ b.bytes.length := by
  rw [h.size]; exact row_le hk

theorem aligned (h : CellsOK c cap b f) (k : Nat) : checkAligned (some b) c.align (c.size * k) = .ok () :=
  checkAligned_cell h.align h.mult

theorem read (h : CellsOK c cap b f) {k : Nat} {v : Val} (hk : f k = some v) :
    readVal (some b) c.ty c.size c.align (c.size * k) = .ok v := by
  obtain ⟨h0, h1, h3⟩ := h.cells k v hk
  rw [← h1.1]
  exact readVal_cell h.align h.mult (h.bound h0) h3

theorem readSlice_ok (h : CellsOK c cap b f) {off : Nat} {vs : List Val}
    (hv : ∀ (i : Nat) (v : Val), vs[i]? = some v → f (off + i) = some v) :
    readSlice (some b) c.ty c.size c.align (c.size * off) vs.length = .ok vs := by
  unfold readSlice
  simp only [checkAligned_cell h.align h.mult, ok_bind]
  have key : mapRange 0 vs.length (fun k => readVal (some b) c.ty c.size c.align (c.size * off + c.size * k)) =
      .ok ((List.range' 0 vs.length).map (fun k => vs[k]!)) := by
    apply mapRange_ok
    intro k hk
    rw [Nat.zero_add, ← Nat.mul_add, getElem!_pos vs k hk]
    exact h.read (hv k _ (List.getElem?_eq_getElem hk))
  rw [key]
  congr 1
  apply List.ext_getElem?
  intro i
  rw [List.getElem?_map]
  by_cases hi : i < vs.length
  · rw [List.getElem?_range' hi, List.getElem?_eq_getElem hi]
    simp only [Option.map_some, Nat.zero_add, Nat.one_mul]
    rw [getElem!_pos vs i hi]
  · rw [List.getElem?_eq_none (by simp; omega), List.getElem?_eq_none (by omega)]
    rfl

/-- Knowing less about the cells. -/
theorem weaken (h : CellsOK c cap b f) {f' : Nat → Option Val} (hf : ∀ k v, f' k = some v → f k = some v) :
    CellsOK c cap b f' := ⟨h.align, h.mult, h.size, fun k v hk => h.cells k v (hf k v hk)⟩

/-- Overwriting one cell with bytes that are the value `w`, if it is one. -/
theorem writeRaw (h : CellsOK c cap b f) {k : Nat} (hk : k < cap) {bs : List (Option TByte)} (hbs : bs.length = c.size)
    {w : Option Val} (hw : ∀ v, w = some v → v.HasTy c ∧ bs = v.encode) {f' : Nat → Option Val}
    (hf : ∀ j, f' j = if j = k then w else f j) :
    ∃ b', writeBytes (some b) (c.size * k) bs = .ok b' ∧ CellsOK c cap b' f' := by
  obtain ⟨b', e, a, l, c1, g⟩ := writeBytes_cell (b := b) (k := k) hbs (h.bound hk)
  refine ⟨b', e, a.trans h.align, h.mult, l.trans h.size, ?_⟩
  intro j x hx
  rw [hf j] at hx
  by_cases hj : j = k
  · subst hj
    rw [if_pos rfl] at hx
    obtain ⟨q1, q2⟩ := hw x hx
    exact ⟨hk, q1, c1.trans q2⟩
  · rw [if_neg hj] at hx
    rw [g j hj]
    exact h.cells j x hx

/-- Overwriting one cell with a value. -/
theorem write (h : CellsOK c cap b f) {k : Nat} (hk : k < cap) {v : Val} (hv : v.HasTy c) {f' : Nat → Option Val}
    (hf : ∀ j, f' j = if j = k then some v else f j) :
    ∃ b', writeBytes (some b) (c.size * k) v.encode = .ok b' ∧ CellsOK c cap b' f' :=
  h.writeRaw hk (by rw [v.encode_length, hv.2]) (fun u hu => by cases hu; exact ⟨hv, rfl⟩) hf

/-- Exchanging two cells. -/
theorem swap (h : CellsOK c cap b f) {i j : Nat} (hij : i ≠ j) (hi : i < cap) (hj : j < cap) {f' : Nat → Option Val}
    (hf : ∀ k, f' k = if k = j then f i else if k = i then f j else f k) :
    ∃ b', Archetype.swapBytes (some b) (i * c.size) (j * c.size) c.size = .ok b' ∧ CellsOK c cap b' f' := by
  obtain ⟨b', w, a, l, c1, c2, g⟩ := swapBytes_cell (b := b) (sz := c.size) hij (h.bound hi) (h.bound hj)
  refine ⟨b', w, a.trans h.align, h.mult, l.trans h.size, ?_⟩
  intro k x hx
  rw [hf k] at hx
  by_cases hk : k = j
  · subst hk
    rw [if_pos rfl] at hx
    obtain ⟨_, q, r⟩ := h.cells i x hx
    exact ⟨hj, q, c2.trans r⟩
  · rw [if_neg hk] at hx
    by_cases hk' : k = i
    · subst hk'
      rw [if_pos rfl] at hx
      obtain ⟨_, q, r⟩ := h.cells j x hx
      exact ⟨hi, q, c1.trans r⟩
    · rw [if_neg hk'] at hx
      rw [g k hk' hk]
      exact h.cells k x hx

/-- Reallocation to a larger capacity. -/
theorem grow {env : Env} (h : CellsOK c cap b f) {newCap : Nat} (hn : cap ≤ newCap) (hpos : 0 < newCap)
    (hs : 0 < c.size ∨ env.zstAllocOk = true) :
    ∃ b', reallocBlock env (some b) (c.size * cap) c.align (c.size * newCap) = .ok b' ∧ CellsOK c newCap b' f := by
  have hmul := Nat.mul_le_mul_left c.size hn
  refine ⟨⟨c.align, b.bytes.take (c.size * newCap) ++ List.replicate (c.size * newCap - c.size * cap) none⟩, ?_, rfl, h.mult, ?_, ?_⟩
  · unfold reallocBlock
    simp only
    rw [if_neg (by rw [h.size, h.align]; simp), if_neg]
    rintro ⟨h1, h2⟩
    rcases hs with hs | hs
    · have := Nat.mul_pos hs hpos; omega
    · exact h2 hs
  · simp only [List.length_append, List.length_take, List.length_replicate, h.size]; omega
  · intro k v hk
    obtain ⟨p, q, r⟩ := h.cells k v hk
    refine ⟨by omega, q, ?_⟩
    rw [← r]
    have hb := h.bound p
    rw [List.take_of_length_le (by rw [h.size]; exact hmul)]
    unfold cell
    rw [List.drop_append_of_le_length (by omega), List.take_append_of_le_length (by rw [List.length_drop]; omega)]

end CellsOK

theorem cellsOK_alloc {c : CompTy} {cap : Nat} (h : c.size % c.align = 0) {f : Nat → Option Val} (hf : ∀ k, f k = none) :
    CellsOK c cap ⟨c.align, List.replicate (c.size * cap) none⟩ f :=
  ⟨rfl, h, by simp, by intro k v h; rw [hf k] at h; cases h⟩

/-! ## All columns -/

/-- The blocks `ptrs` are the columns of the types `cts`; `f` tells what the cells hold. -/
structure Columns (cts : List CompTy) (cap : Nat) (ptrs : List (Option Block)) (f : CompTy → Nat → Option Val) : Prop where
  ptrs_len : ptrs.length = 14
  cts_le : cts.length ≤ 14
  col : ∀ (i : Nat) (c : CompTy), cts[i]? = some c → ∃ b, ptrs[i]? = some (some b) ∧ CellsOK c cap b (f c)
  rest : ∀ i, cts.length ≤ i → i < 14 → ptrs[i]? = some none

namespace Columns

variable {cts : List CompTy} {cap cap' : Nat} {ptrs : List (Option Block)} {f f' : CompTy → Nat → Option Val}

/-- A loop over all columns. -/
theorem loop {step : Nat → List (Option Block) → M (List (Option Block))} (h : Columns cts cap ptrs f)
    (hs : ∀ (i : Nat) (c : CompTy), cts[i]? = some c → ∀ ptrs' b, ptrs'.length = 14 → ptrs'[i]? = some (some b) →
      CellsOK c cap b (f c) → ∃ b', step i ptrs' = .ok (ptrs'.set i (some b')) ∧ CellsOK c cap' b' (f' c)) :
    ∃ ptrs', forRange 0 cts.length step ptrs = .ok ptrs' ∧ Columns cts cap' ptrs' f' := by
  have hpl := h.ptrs_len
  have hcl := h.cts_le
  obtain ⟨s, h1, h2, h3, h4⟩ := ptrLoop (n := cts.length) (f := step) (ptrs := ptrs)
    (P := fun i p => ∃ b c, p = some b ∧ cts[i]? = some c ∧ CellsOK c cap b (f c))
    (Q := fun i p => ∃ b c, p = some b ∧ cts[i]? = some c ∧ CellsOK c cap' b (f' c))
    (by omega)
    (by
      intro i hi
      obtain ⟨b, hb, hok⟩ := h.col i cts[i] (List.getElem?_eq_getElem hi)
      exact ⟨some b, hb, b, cts[i], rfl, List.getElem?_eq_getElem hi, hok⟩)
    (by
      rintro i hi ptrs' p hpl' hp ⟨b, c, rfl, hc, hok⟩
      obtain ⟨b', hb', hok'⟩ := hs i c hc ptrs' b (by omega) hp hok
      exact ⟨b', hb', b', c, rfl, hc, hok'⟩)
  refine ⟨s, h1, by omega, hcl, ?_, fun i h5 h6 => by rw [h4 i h5]; exact h.rest i h5 h6⟩
  intro i c hc
  obtain ⟨p, hp, b, c', rfl, hc', hok⟩ := h3 i (List.getElem?_eq_some_iff.mp hc).1
  rw [hc] at hc'; cases hc'
  exact ⟨b, hp, hok⟩

theorem weaken (h : Columns cts cap ptrs f) (hf : ∀ c k v, f' c k = some v → f c k = some v) : Columns cts cap ptrs f' := by
  refine ⟨h.ptrs_len, h.cts_le, ?_, h.rest⟩
  intro i c hc
  obtain ⟨b, hb, hok⟩ := h.col i c hc
  exact ⟨b, hb, hok.weaken (hf c)⟩

/-- Replacing the block of one column. -/
theorem setCol (h : Columns cts cap ptrs f) (hn : cts.Nodup) {i : Nat} {c : CompTy} (hc : cts[i]? = some c) {b' : Block}
    (hb : CellsOK c cap b' (f' c)) (hf : ∀ c', c' ≠ c → ∀ k v, f' c' k = some v → f c' k = some v) :
    Columns cts cap (ptrs.set i (some b')) f' := by
  have hi := (List.getElem?_eq_some_iff.mp hc).1
  have := h.cts_le
  refine ⟨by rw [List.length_set]; exact h.ptrs_len, h.cts_le, ?_, ?_⟩
  · intro j c' hc'
    by_cases hij : i = j
    · subst hij
      rw [hc] at hc'; cases hc'
      exact ⟨b', List.getElem?_set_self (by rw [h.ptrs_len]; omega), hb⟩
    · obtain ⟨b, hb, hok⟩ := h.col j c' hc'
      refine ⟨b, by rw [List.getElem?_set_ne hij]; exact hb, hok.weaken (hf c' ?_)⟩
      rintro rfl
      obtain ⟨hi', he⟩ := List.getElem?_eq_some_iff.mp hc
      obtain ⟨hj', he'⟩ := List.getElem?_eq_some_iff.mp hc'
      rcases Nat.lt_or_gt_of_ne hij with hlt | hlt
      · exact List.pairwise_iff_getElem.mp hn i j hi' hj' hlt (by rw [he, he'])
      · exact List.pairwise_iff_getElem.mp hn j i hj' hi' hlt (by rw [he, he'])
  · intro j h5 h6
    rw [List.getElem?_set_ne (by omega)]
    exact h.rest j h5 h6

end Columns

/-! ## The entity array -/

/-- The entity array with room for `cap` handles; where `g` is defined, it tells the handle. -/
def EntArray (cap : Nat) (ea : Option (List (Option Entity))) (g : Nat → Option Entity) : Prop :=
  ∃ l, ea = some l ∧ l.length = cap ∧ ∀ k e, g k = some e → l[k]? = some (some e)

namespace EntArray

variable {cap : Nat} {ea : Option (List (Option Entity))} {l : List (Option Entity)} {g g' : Nat → Option Entity}

theorem weaken (h : EntArray cap ea g) (hg : ∀ k e, g' k = some e → g k = some e) : EntArray cap ea g' := by
  obtain ⟨l, h1, h2, h3⟩ := h
  exact ⟨l, h1, h2, fun k e hk => h3 k e (hg k e hk)⟩

theorem grow (h : EntArray cap (some l) g) {cap' : Nat} (hc : cap ≤ cap') :
    EntArray cap' (some (l.take cap' ++ List.replicate (cap' - cap) none)) g := by
  obtain ⟨l', hl, h2, h3⟩ := h
  cases hl
  refine ⟨_, rfl, by simp; omega, ?_⟩
  intro k e hk
  have h4 := h3 k e hk
  have := (List.getElem?_eq_some_iff.mp h4).1
  rw [List.getElem?_append_left (by rw [List.length_take]; omega), List.getElem?_take_of_lt (by omega)]
  exact h4

theorem set (h : EntArray cap (some l) g) {k : Nat} {e : Entity} (hk : k < cap)
    (hg : ∀ j, g' j = if j = k then some e else g j) : EntArray cap (some (l.set k (some e))) g' := by
  obtain ⟨l', hl, h2, h3⟩ := h
  cases hl
  refine ⟨_, rfl, by simp [h2], ?_⟩
  intro j x hx
  rw [hg j] at hx
  by_cases hj : j = k
  · subst hj
    rw [if_pos rfl] at hx
    rw [List.getElem?_set_self (by omega), hx]
  · rw [if_neg hj] at hx
    rw [List.getElem?_set_ne (Ne.symm hj)]
    exact h3 j x hx

theorem swap (h : EntArray cap (some l) g) {i j : Nat} (hi : i < cap) (hj : j < cap)
    (hg : ∀ k, g' k = if k = j then g i else if k = i then g j else g k) :
    EntArray cap (some ((l.set i (l.getD j none)).set j (l.getD i none))) g' := by
  obtain ⟨l', hl, h2, h3⟩ := h
  cases hl
  refine ⟨_, rfl, by simp [h2], ?_⟩
  intro k x hx
  rw [hg k] at hx
  by_cases hkj : k = j
  · subst hkj
    rw [if_pos rfl] at hx
    rw [List.getElem?_set_self (by rw [List.length_set]; omega), List.getD, h3 i x hx]
    rfl
  · rw [if_neg hkj] at hx
    rw [List.getElem?_set_ne (Ne.symm hkj)]
    by_cases hki : k = i
    · subst hki
      rw [if_pos rfl] at hx
      rw [List.getElem?_set_self (by omega), List.getD, h3 j x hx]
      rfl
    · rw [if_neg hki] at hx
      rw [List.getElem?_set_ne (Ne.symm hki)]
      exact h3 k x hx

end EntArray

end Shard
