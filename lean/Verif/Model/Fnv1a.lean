import Verif.Model.Base
/-!
# `src/fnv1a.rs`
-/

namespace Shard

/-- `fnv1a.rs:1` `FNV_OFFSET_BASIS_32`. -/
def FNV_OFFSET_BASIS_32 : UInt32 := 0x811c9dc5
/-- `fnv1a.rs:3` `FNV_OFFSET_BASIS_64`. -/
def FNV_OFFSET_BASIS_64 : UInt64 := 0xcbf29ce484222325
/-- `fnv1a.rs:5` `FNV_PRIME_32`. -/
def FNV_PRIME_32 : UInt32 := 0x01000193
/-- `fnv1a.rs:7` `FNV_PRIME_64`. -/
def FNV_PRIME_64 : UInt64 := 0x00000100000001B3

/-- `fnv1a.rs:15-24`, `40-49`: the number of bytes hashed for a slice of length `n`. -/
def fnvLen (n : Nat) (limit : Option Nat) : Nat :=
  match limit with
  | some v => if v ≤ n ∧ v > 0 then v else n
  | none => n

/-- `fnv1a.rs:11-32` `fnv1a_hash_64`. The `while i < len` loop indexes `bytes[i]`, which is in bounds because
`len ≤ bytes.len()`. -/
def fnv1aHash64 (bytes : List UInt8) (limit : Option Nat) : UInt64 :=
  (List.range (fnvLen bytes.length limit)).foldl
    (fun hash i => (hash ^^^ (bytes.getD i 0).toUInt64) * FNV_PRIME_64) FNV_OFFSET_BASIS_64

/-- `fnv1a.rs:36-57` `fnv1a_hash_32`. -/
def fnv1aHash32 (bytes : List UInt8) (limit : Option Nat) : UInt32 :=
  (List.range (fnvLen bytes.length limit)).foldl
    (fun hash i => (hash ^^^ (bytes.getD i 0).toUInt32) * FNV_PRIME_32) FNV_OFFSET_BASIS_32

/-- `u16::to_ne_bytes`. -/
def u16ToNeBytes (env : Env) (v : UInt16) : UInt8 × UInt8 :=
  if env.bigEndian then ((v >>> 8).toUInt8, v.toUInt8) else (v.toUInt8, (v >>> 8).toUInt8)

/-- `u16::from_ne_bytes`. -/
def u16FromNeBytes (env : Env) (b : UInt8 × UInt8) : UInt16 :=
  if env.bigEndian then (b.1.toUInt16 <<< 8) ||| b.2.toUInt16 else (b.2.toUInt16 <<< 8) ||| b.1.toUInt16

/-- `u32::to_ne_bytes`. -/
def u32ToNeBytes (env : Env) (v : UInt32) : UInt8 × UInt8 × UInt8 × UInt8 :=
  let b0 := v.toUInt8
  let b1 := (v >>> 8).toUInt8
  let b2 := (v >>> 16).toUInt8
  let b3 := (v >>> 24).toUInt8
  if env.bigEndian then (b3, b2, b1, b0) else (b0, b1, b2, b3)

/-- `fnv1a.rs:63-68` `fnv1a_hash_16_xor`. -/
def fnv1aHash16Xor (env : Env) (bytes : List UInt8) (limit : Option Nat) : UInt16 :=
  let bs := u32ToNeBytes env (fnv1aHash32 bytes limit)
  let upper := u16FromNeBytes env (bs.1, bs.2.1)
  let lower := u16FromNeBytes env (bs.2.2.1, bs.2.2.2)
  upper ^^^ lower

/-- `fnv1a.rs:72-74` `fnv1a_hash_str_64`; a `&str` is its UTF-8 byte sequence. -/
def fnv1aHashStr64 (input : List UInt8) : UInt64 := fnv1aHash64 input none
/-- `fnv1a.rs:78-80` `fnv1a_hash_str_32`. -/
def fnv1aHashStr32 (input : List UInt8) : UInt32 := fnv1aHash32 input none
/-- `fnv1a.rs:84-86` `fnv1a_hash_str_16_xor`. -/
def fnv1aHashStr16Xor (env : Env) (input : List UInt8) : UInt16 := fnv1aHash16Xor env input none

end Shard
