import Verif.Props.OnePlace
/-!
# The four-byte strings with a given hash

Undoing two steps of the hash from the end leaves 65,536 states; a state two steps from the start is recognised by the
carry of the multiplication (`nearStart`), and the few candidates are compared one by one.
-/

set_option autoImplicit false

namespace Shard

/-- One step of the hash undone. -/
def fnvUndo (t b : Nat) : Nat := t * 899433627 % 4294967296 ^^^ b

/-- The hash of one byte, `e` being the lowest byte of the state after the `xor`. -/
def afterOne (e : Nat) : Nat := (36342605583951616 + e * 16777619) % 4294967296

/-- A necessary condition for `x` to be, up to its lowest byte, the hash of one byte. -/
def nearStart (x : Nat) : Bool := (x / 256 * 256 + 255 + 16777216 - 36342605583951616 % 16777216) % 16777216 ≤ 103020

/-- No string of two bytes leads to the state `s`. -/
def unreachable (s : Nat) : Bool :=
  let x := s * 899433627 % 4294967296
  !nearStart x || (List.range 256).all fun e => afterOne e / 256 != x / 256

/-- No string of four bytes leads to the state `y`, apart from those ending with the listed pairs of bytes. -/
def scan (y : Nat) (except : List (Nat × Nat)) : Bool :=
  (List.range 256).all fun d =>
    let u := fnvUndo y d
    (List.range 256).all fun c => unreachable (fnvUndo u c) || except.contains (c, d)

theorem nearStart_afterOne {e x : Nat} (he : e < 256) (h : afterOne e / 256 = x / 256) : nearStart x = true := by
  unfold nearStart
  unfold afterOne at h
  rw [decide_eq_true_eq]
  have hu : (36342605583951616 + e * 16777619) % 4294967296 % 16777216 = (730880 + e * 403) % 16777216 := by omega
  have hL : 36342605583951616 % 16777216 = 730880 := by decide
  rw [hL]
  generalize (36342605583951616 + e * 16777619) % 4294967296 = u at *
  have hx : x / 256 * 256 = u - u % 256 := by omega
  rw [hx]
  clear hx h hL
  generalize hr : u % 256 = r
  have : r < 256 ∧ r ≤ u := by omega
  clear hr
  have h2 : (u - r + 255 + 16777216 - 730880) % 16777216 = (e * 403 + (255 - r)) % 16777216 := by omega
  rw [h2, Nat.mod_eq_of_lt (by omega)]
  omega

theorem xor_lt32 {h b : Nat} (hh : h < 4294967296) (hb : b < 256) : h ^^^ b < 4294967296 :=
  Nat.xor_lt_two_pow (n := 32) hh (by omega)

theorem undo_step {h b : Nat} (hh : h < 4294967296) (hb : b < 256) : fnvUndo ((h ^^^ b) * 16777619 % 2 ^ 32) b = h := by
  have hx := xor_lt32 hh hb
  have : (h ^^^ b) * 16777619 % 2 ^ 32 * 899433627 % 4294967296 = h ^^^ b := by
    generalize h ^^^ b = x at hx
    show x * 16777619 % 4294967296 * 899433627 % 4294967296 = x
    omega
  rw [fnvUndo, this, Nat.xor_assoc, Nat.xor_self, Nat.xor_zero]

theorem start_xor {a : Nat} (ha : a < 256) : (2166136261 ^^^ a) * 16777619 % 2 ^ 32 = afterOne ((2166136261 ^^^ a) % 256) := by
  have h := xor_byte_div 2166136261 a ha
  have hm := Nat.div_add_mod (2166136261 ^^^ a) 256
  generalize 2166136261 ^^^ a = x at *
  unfold afterOne
  have : x = 256 * 8461469 + x % 256 := by omega
  omega

theorem unreachable_spec {s a b : Nat} (ha : a < 256) (hb : b < 256) (h : unreachable s = true) :
    ((2166136261 ^^^ a) * 16777619 % 2 ^ 32 ^^^ b) * 16777619 % 2 ^ 32 ≠ s := by
  rintro rfl
  have hlt : (2166136261 ^^^ a) * 16777619 % 2 ^ 32 < 4294967296 := Nat.mod_lt _ (by decide)
  have hu := undo_step hlt hb
  have hd : afterOne ((2166136261 ^^^ a) % 256) / 256 =
      (((2166136261 ^^^ a) * 16777619 % 2 ^ 32 ^^^ b) * 16777619 % 2 ^ 32 * 899433627 % 4294967296) / 256 := by
    rw [← start_xor ha, ← xor_byte_div (_ * 899433627 % 4294967296) b hb]
    exact congrArg (· / 256) hu.symm
  have he : (2166136261 ^^^ a) % 256 < 256 := Nat.mod_lt _ (by decide)
  unfold unreachable at h
  simp only [Bool.or_eq_true, Bool.not_eq_true', List.all_eq_true, List.mem_range, bne_iff_ne] at h
  rcases h with h | h
  · rw [nearStart_afterOne he hd] at h
    exact absurd h (by decide)
  · exact h _ he hd

theorem scan_spec {y : Nat} {except : List (Nat × Nat)} (h : scan y except = true) {a b c d : UInt8}
    (he : ([a, b, c, d].foldl fnvStep FNV_OFFSET_BASIS_32).toNat = y) : (c.toNat, d.toNat) ∈ except := by
  have ha := UInt8.toNat_lt256 a
  have hb := UInt8.toNat_lt256 b
  have hc := UInt8.toNat_lt256 c
  have hd := UInt8.toNat_lt256 d
  unfold scan at h
  simp only [List.all_eq_true, List.mem_range, Bool.or_eq_true, List.contains_iff_mem] at h
  rcases h d.toNat hd c.toNat hc with h | h
  · exfalso
    simp only [List.foldl, fnvStep_toNat] at he
    refine unreachable_spec ha hb h ?_
    rw [← he, undo_step (Nat.mod_lt _ (by decide)) hd, undo_step (Nat.mod_lt _ (by decide)) hc]
    rfl
  · exact h

set_option maxRecDepth 100000 in
theorem scan_ff : scan 561242743 [(55, 5), (94, 252), (114, 231)] = true := by decide +kernel

set_option maxRecDepth 100000 in
theorem scan_00 : scan 1542227295 [] = true := by decide +kernel

end Shard
