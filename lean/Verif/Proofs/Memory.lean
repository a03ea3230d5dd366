import Verif.Model.Memory
import Verif.Model.Archetype
import Verif.Proofs.Basic
/-!
# Memory: cells of a block, typed columns
-/

namespace Shard

/-! ## Encoding and decoding -/

theorem Val.encode_length (v : Val) : v.encode.length = v.bytes.length := by simp [Val.encode]

theorem decodeFrom_mapIdx (ty : Nat) : ∀ (bs : List UInt8) (k : Nat),
    decodeFrom ty k (bs.mapIdx (fun i b => some ⟨ty, i + k, b⟩)) = .ok bs
  | [], k => by simp [decodeFrom]
  | b :: bs, k => by
    have ih := decodeFrom_mapIdx ty bs (k + 1)
    rw [List.mapIdx_cons]
    have : (bs.mapIdx fun i b => (some ⟨ty, i + 1 + k, b⟩ : Option TByte)) =
        bs.mapIdx (fun i b => some ⟨ty, i + (k + 1), b⟩) := by
      congr 1; funext i b; rw [show i + 1 + k = i + (k + 1) by omega]
    rw [this]
    simp [decodeFrom, ih]

theorem decodeVal_encode (v : Val) : decodeVal v.ty v.encode = .ok v := by
  have := decodeFrom_mapIdx v.ty v.bytes 0
  simp only [Nat.add_zero] at this
  unfold decodeVal Val.encode
  rw [this]

/-! ## Cells -/

/-- The bytes of element `k` of an array with elements of `sz` bytes. -/
def cell (b : Block) (sz k : Nat) : List (Option TByte) := (b.bytes.drop (sz * k)).take sz

theorem row_le {sz j k : Nat} (h : j < k) : sz * j + sz ≤ sz * k := by
  have := Nat.mul_le_mul_left sz (show j + 1 ≤ k from h)
  rwa [Nat.mul_succ] at this

theorem overwrite_getElem? {α : Type} (l bs : List α) (off : Nat) (h : off + bs.length ≤ l.length) (i : Nat) :
    (l.take off ++ bs ++ l.drop (off + bs.length))[i]? =
      if off ≤ i ∧ i < off + bs.length then bs[i - off]? else l[i]? := by
  have hl : (l.take off).length = off := by rw [List.length_take]; omega
  by_cases h1 : i < off
  · rw [if_neg (by omega), List.append_assoc, List.getElem?_append_left (by omega), List.getElem?_take_of_lt h1]
  · by_cases h2 : i < off + bs.length
    · rw [if_pos (by omega), List.getElem?_append_left (by rw [List.length_append]; omega),
        List.getElem?_append_right (by omega), hl]
    · rw [if_neg (by omega), List.getElem?_append_right (by rw [List.length_append]; omega), List.length_append, hl,
        List.getElem?_drop]
      congr 1; omega

theorem readBytes_cell {b : Block} {sz k : Nat} (h : sz * k + sz ≤ b.bytes.length) :
    readBytes (some b) (sz * k) sz = .ok (cell b sz k) := by
  simp [readBytes, h, cell]

theorem cell_length {b : Block} {sz k : Nat} (h : sz * k + sz ≤ b.bytes.length) : (cell b sz k).length = sz := by
  simp only [cell, List.length_take, List.length_drop]; omega

/-- Overwriting one cell. -/
theorem writeBytes_cell {b : Block} {sz k : Nat} {bs : List (Option TByte)} (hbs : bs.length = sz)
    (h : sz * k + sz ≤ b.bytes.length) :
    ∃ b', writeBytes (some b) (sz * k) bs = .ok b' ∧ b'.align = b.align ∧ b'.bytes.length = b.bytes.length ∧
      cell b' sz k = bs ∧ ∀ j, j ≠ k → cell b' sz j = cell b sz j := by
  refine ⟨{ b with bytes := b.bytes.take (sz * k) ++ bs ++ b.bytes.drop (sz * k + bs.length) }, ?_, rfl, ?_, ?_, ?_⟩
  · simp [writeBytes, hbs, h]
  · simp only [List.length_append, List.length_take, List.length_drop]; omega
  · apply List.ext_getElem?
    intro i
    unfold cell
    rw [List.getElem?_take, List.getElem?_drop, overwrite_getElem? _ _ _ (by omega)]
    by_cases hi : i < sz
    · rw [if_pos hi, if_pos (by omega)]
      congr 1; omega
    · rw [if_neg hi, List.getElem?_eq_none (by omega)]
  · intro j hj
    apply List.ext_getElem?
    intro i
    unfold cell
    rw [List.getElem?_take, List.getElem?_take, List.getElem?_drop, List.getElem?_drop,
      overwrite_getElem? _ _ _ (by omega)]
    by_cases hi : i < sz
    · rw [if_pos hi, if_pos hi, if_neg]
      intro hc
      rcases Nat.lt_or_gt_of_ne hj with hlt | hlt
      · have := row_le (sz := sz) hlt; omega
      · have := row_le (sz := sz) hlt; omega
    · rw [if_neg hi, if_neg hi]

/-- Exchanging two different cells. -/
theorem swapBytes_cell {b : Block} {sz i j : Nat} (hij : i ≠ j) (hi : sz * i + sz ≤ b.bytes.length)
    (hj : sz * j + sz ≤ b.bytes.length) :
    ∃ b', Archetype.swapBytes (some b) (i * sz) (j * sz) sz = .ok b' ∧ b'.align = b.align ∧
      b'.bytes.length = b.bytes.length ∧ cell b' sz i = cell b sz j ∧ cell b' sz j = cell b sz i ∧
      ∀ k, k ≠ i → k ≠ j → cell b' sz k = cell b sz k := by
  obtain ⟨b1, w1, a1, l1, c1, f1⟩ := writeBytes_cell (b := b) (k := i) (cell_length hj) hi
  obtain ⟨b2, w2, a2, l2, c2, f2⟩ := writeBytes_cell (b := b1) (k := j) (cell_length hi) (by omega)
  refine ⟨b2, ?_, a2.trans a1, l2.trans l1, ?_, c2, ?_⟩
  · unfold Archetype.swapBytes
    rw [if_neg]
    · rw [Nat.mul_comm i, Nat.mul_comm j]
      simp only [readBytes_cell hi, readBytes_cell hj, ok_bind, w1, w2]
    · rintro ⟨hne, h1, h2⟩
      rw [Nat.mul_comm i, Nat.mul_comm j] at h1 h2
      rcases Nat.lt_or_gt_of_ne hij with hlt | hlt
      · have := row_le (sz := sz) hlt; omega
      · have := row_le (sz := sz) hlt; omega
  · rw [f2 i hij, c1]
  · intro k hki hkj
    rw [f2 k hkj, f1 k hki]

/-- Reading a value from a cell. -/
theorem checkAligned_cell {b : Block} {sz al k : Nat} (hb : b.align = al) (hm : sz % al = 0) :
    checkAligned (some b) al (sz * k) = .ok () := by
  unfold checkAligned
  simp only
  rw [if_pos]
  refine ⟨by rw [hb, Nat.mod_self], ?_⟩
  rw [Nat.mul_mod, hm, Nat.zero_mul, Nat.zero_mod]

theorem readVal_cell {b : Block} {sz al k : Nat} {v : Val} (hb : b.align = al) (hm : sz % al = 0)
    (h : sz * k + sz ≤ b.bytes.length) (hc : cell b sz k = v.encode) :
    readVal (some b) v.ty sz al (sz * k) = .ok v := by
  unfold readVal
  rw [checkAligned_cell hb hm, readBytes_cell h, hc]
  simp only [ok_bind]
  exact decodeVal_encode v

theorem powerOfTwo_iff {n : Nat} : powerOfTwo n = true ↔ n < 65536 ∧ ∃ k, n = 2 ^ k := by
  simp only [powerOfTwo, List.any_eq_true, List.mem_range, beq_iff_eq]
  constructor
  · rintro ⟨k, hk, rfl⟩
    exact ⟨Nat.lt_of_lt_of_le (Nat.pow_lt_pow_right (by decide) hk) (by decide), k, rfl⟩
  · rintro ⟨hlt, k, rfl⟩
    refine ⟨k, Nat.lt_of_not_le fun h => ?_, rfl⟩
    have : 2 ^ 16 ≤ 2 ^ k := Nat.pow_le_pow_right (by decide) h
    omega

theorem allocBlock_ok {env : Env} {size align : Nat} (ha : powerOfTwo align = true) (hs : 0 < size ∨ env.zstAllocOk = true) :
    allocBlock env size align = .ok ⟨align, List.replicate size none⟩ := by
  unfold allocBlock
  rw [if_neg (by rw [ha]; decide), if_neg]
  rintro ⟨h1, h2⟩
  rcases hs with hs | hs
  · omega
  · exact h2 hs

/-! ## Typed columns -/

instance : Inhabited Val := ⟨⟨0, []⟩⟩

/-- Block `b` is the column of component `c` with capacity `cap`, holding the values `vs` in its first cells. -/
structure ColOK (c : CompTy) (cap : Nat) (b : Block) (vs : List Val) : Prop where
  align : b.align = c.align
  mult : c.size % c.align = 0
  size : b.bytes.length = c.size * cap
  len : vs.length ≤ cap
  cells : ∀ k v, vs[k]? = some v → v.ty = c.ty ∧ v.bytes.length = c.size ∧ cell b c.size k = v.encode

namespace ColOK

variable {c : CompTy} {cap : Nat} {b : Block} {vs : List Val}

theorem bound (h : ColOK c cap b vs) {k : Nat} (hk : k < cap) : c.size * k + c.size ≤ b.bytes.length := by
  rw [h.size]; exact row_le hk

theorem read (h : ColOK c cap b vs) {k : Nat} {v : Val} (hk : vs[k]? = some v) :
    readVal (some b) c.ty c.size c.align (c.size * k) = .ok v := by
  obtain ⟨h1, h2, h3⟩ := h.cells k v hk
  have hlt := (List.getElem?_eq_some_iff.mp hk).1
  have := h.len
  rw [← h1]
  exact readVal_cell h.align h.mult (h.bound (by omega)) h3

theorem readSlice_ok (h : ColOK c cap b vs) (off n : Nat) (hn : off + n ≤ vs.length) :
    readSlice (some b) c.ty c.size c.align (c.size * off) n = .ok ((vs.drop off).take n) := by
  unfold readSlice
  simp only [checkAligned_cell h.align h.mult, ok_bind]
  have key : mapRange 0 n (fun k => readVal (some b) c.ty c.size c.align (c.size * off + c.size * k)) =
      .ok ((List.range' 0 n).map (fun k => vs[off + k]!)) := by
    apply mapRange_ok
    intro k hk
    have hlt : off + k < vs.length := by omega
    rw [Nat.zero_add, ← Nat.mul_add, getElem!_pos vs (off + k) hlt]
    exact h.read (List.getElem?_eq_getElem hlt)
  rw [key]
  congr 1
  apply List.ext_getElem?
  intro i
  rw [List.getElem?_map, List.getElem?_take, List.getElem?_drop]
  by_cases hi : i < n
  · have hlt : off + i < vs.length := by omega
    rw [if_pos hi, List.getElem?_range' hi, List.getElem?_eq_getElem hlt]
    simp only [Option.map_some, Nat.zero_add, Nat.one_mul]
    rw [getElem!_pos vs (off + i) hlt]
  · rw [if_neg hi, List.getElem?_eq_none (by simp; omega)]
    rfl

theorem aligned (h : ColOK c cap b vs) (k : Nat) : checkAligned (some b) c.align (c.size * k) = .ok () :=
  checkAligned_cell h.align h.mult

/-- Writing the next value. -/
theorem append (h : ColOK c cap b vs) {v : Val} (hlt : vs.length < cap) (hty : v.ty = c.ty)
    (hsz : v.bytes.length = c.size) :
    ∃ b', writeBytes (some b) (c.size * vs.length) v.encode = .ok b' ∧ ColOK c cap b' (vs ++ [v]) := by
  obtain ⟨b', w, a, l, c1, f⟩ := writeBytes_cell (b := b) (k := vs.length) (by rw [v.encode_length, hsz]) (h.bound hlt)
  refine ⟨b', w, a.trans h.align, h.mult, l.trans h.size, by simp; omega, ?_⟩
  intro k x hx
  rw [List.getElem?_append] at hx
  split at hx
  · next hk =>
    rw [f k (by omega)]
    exact h.cells k x hx
  · next hk =>
    have hk' : k = vs.length := by
      have := (List.getElem?_eq_some_iff.mp hx).1; simp at this; omega
    subst hk'
    simp at hx
    subst hx
    exact ⟨hty, hsz, c1⟩

/-- Overwriting one value. -/
theorem set (h : ColOK c cap b vs) {v : Val} {k : Nat} (hlt : k < vs.length) (hty : v.ty = c.ty)
    (hsz : v.bytes.length = c.size) :
    ∃ b', writeBytes (some b) (c.size * k) v.encode = .ok b' ∧ ColOK c cap b' (vs.set k v) := by
  have := h.len
  obtain ⟨b', w, a, l, c1, f⟩ := writeBytes_cell (b := b) (k := k) (by rw [v.encode_length, hsz]) (h.bound (by omega))
  refine ⟨b', w, a.trans h.align, h.mult, l.trans h.size, by simp; omega, ?_⟩
  intro j x hx
  rw [List.getElem?_set] at hx
  split at hx
  · next hj =>
    subst hj
    cases hx
    exact ⟨hty, hsz, c1⟩
  · next hj =>
    rw [f j (Ne.symm hj)]
    exact h.cells j x hx

/-- Exchanging two values. -/
theorem swap (h : ColOK c cap b vs) {i j : Nat} (hij : i ≠ j) (hi : i < vs.length) (hj : j < vs.length) :
    ∃ b', Archetype.swapBytes (some b) (i * c.size) (j * c.size) c.size = .ok b' ∧
      ColOK c cap b' ((vs.set i vs[j]).set j vs[i]) := by
  have hl := h.len
  obtain ⟨b', w, a, l, c1, c2, f⟩ := swapBytes_cell (b := b) (sz := c.size) hij (h.bound (show i < cap by omega))
    (h.bound (show j < cap by omega))
  refine ⟨b', w, a.trans h.align, h.mult, l.trans h.size, by simp; omega, ?_⟩
  intro k x hx
  rw [List.getElem?_set] at hx
  split at hx
  · next hk =>
    subst hk
    rw [if_pos (by simpa using hj)] at hx
    cases hx
    obtain ⟨p, q, r⟩ := h.cells i vs[i] (List.getElem?_eq_getElem hi)
    exact ⟨p, q, c2.trans r⟩
  · next hk =>
    rw [List.getElem?_set] at hx
    split at hx
    · next hk' =>
      subst hk'
      cases hx
      obtain ⟨p, q, r⟩ := h.cells j vs[j] (List.getElem?_eq_getElem hj)
      exact ⟨p, q, c1.trans r⟩
    · next hk' =>
      rw [f k (Ne.symm hk') (Ne.symm hk)]
      exact h.cells k x hx

/-- Forgetting trailing values. -/
theorem take (h : ColOK c cap b vs) (n : Nat) : ColOK c cap b (vs.take n) := by
  refine ⟨h.align, h.mult, h.size, by have := h.len; rw [List.length_take]; omega, ?_⟩
  intro k v hk
  rw [List.getElem?_take] at hk
  split at hk
  · exact h.cells k v hk
  · cases hk

/-- Reallocation to a larger capacity. -/
theorem grow {env : Env} (h : ColOK c cap b vs) {newCap : Nat} (hn : cap ≤ newCap) (hpos : 0 < newCap)
    (hs : 0 < c.size ∨ env.zstAllocOk = true) :
    ∃ b', reallocBlock env (some b) (c.size * cap) c.align (c.size * newCap) = .ok b' ∧ ColOK c newCap b' vs := by
  have hmul := Nat.mul_le_mul_left c.size hn
  refine ⟨⟨c.align, b.bytes.take (c.size * newCap) ++ List.replicate (c.size * newCap - c.size * cap) none⟩, ?_, rfl, h.mult, ?_, ?_, ?_⟩
  · unfold reallocBlock
    simp only
    rw [if_neg (by rw [h.size, h.align]; simp), if_neg]
    rintro ⟨h1, h2⟩
    rcases hs with hs | hs
    · have := Nat.mul_pos hs hpos; omega
    · exact h2 hs
  · simp only [List.length_append, List.length_take, List.length_replicate, h.size]; omega
  · have := h.len; omega
  · intro k v hk
    obtain ⟨p, q, r⟩ := h.cells k v hk
    refine ⟨p, q, ?_⟩
    rw [← r]
    have hlt := (List.getElem?_eq_some_iff.mp hk).1
    have hb := h.bound (show k < cap by have := h.len; omega)
    rw [List.take_of_length_le (by rw [h.size]; exact hmul)]
    unfold cell
    rw [List.drop_append_of_le_length (by omega), List.take_append_of_le_length (by rw [List.length_drop]; omega)]

end ColOK

theorem colOK_alloc {c : CompTy} {cap : Nat} (h : c.size % c.align = 0) : ColOK c cap ⟨c.align, List.replicate (c.size * cap) none⟩ [] :=
  ⟨rfl, h, by simp, by simp, by intro k v h; simp at h⟩

end Shard
