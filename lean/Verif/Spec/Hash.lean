import Verif.Model.Base
/-!
# Reference hashing, over natural numbers

Written without reference to the model: FNV-1a as published, and the byte strings that are hashed into archetype ids.
-/

set_option autoImplicit false

namespace Shard.Spec

/-- FNV-1a, 32 bit: for every byte, xor then multiply modulo `2^32`. -/
def fnv1a32 (bs : List UInt8) : Nat :=
  bs.foldl (fun h b => (h ^^^ b.toNat) * 16777619 % 2 ^ 32) 2166136261

/-- FNV-1a, 64 bit. -/
def fnv1a64 (bs : List UInt8) : Nat :=
  bs.foldl (fun h b => (h ^^^ b.toNat) * 1099511628211 % 2 ^ 64) 14695981039346656037

/-- The part of a byte string selected by the optional limit: the first `limit` bytes, or everything if the limit is
absent, zero or too long. -/
def limited (bs : List UInt8) : Option Nat → List UInt8
  | none => bs
  | some v => if v = 0 ∨ bs.length < v then bs else bs.take v

/-- The two bytes of a component id in memory order. -/
def idBytes (bigEndian : Bool) (i : UInt16) : List UInt8 :=
  if bigEndian then [UInt8.ofNat (i.toNat / 256), UInt8.ofNat i.toNat] else [UInt8.ofNat i.toNat, UInt8.ofNat (i.toNat / 256)]

/-- The archetype id of a component group: the hash of its ids in ascending order, filled up to 28 bytes with `0xFF`. -/
def groupId (bigEndian : Bool) (ids : List UInt16) : Nat :=
  fnv1a32 (ids.flatMap (idBytes bigEndian) ++ List.replicate (28 - 2 * ids.length) 255)

/-- The archetype id after adding or removing a component: a lone component id stands for itself; otherwise the hash of
the ids in ascending order, filled up to 28 bytes with zeros. -/
def movedId (bigEndian : Bool) : List UInt16 → Nat
  | [i] => i.toNat
  | ids => fnv1a32 (ids.flatMap (idBytes bigEndian) ++ List.replicate (28 - 2 * ids.length) 0)

end Shard.Spec
