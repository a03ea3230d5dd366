import Verif.Model.Descriptors
/-!
# Raw memory and the global allocator

Models `alloc::alloc::{alloc, realloc, dealloc, Layout}` and `core::ptr::{read, write, copy_nonoverlapping,
swap_nonoverlapping}` as used by `src/archetype/`. A block is an allocation of bytes; a byte is uninitialised or
carries, besides its value, the (ghost) type and position it was written with. Allocation always succeeds
here; `Oom.lean` treats allocation failures in `create_entity`.
-/

namespace Shard

/-- A value of a component type: the identity of the type and the bytes of the value. -/
structure Val where
  ty : Nat
  bytes : List UInt8
  deriving DecidableEq, Repr

/-- One initialised byte of memory: byte `pos` of a value of type `ty`. -/
structure TByte where
  ty : Nat
  pos : Nat
  val : UInt8
  deriving DecidableEq, Repr

/-- An allocation: its alignment and its bytes (`none` = uninitialised). Its size is the length of the list. -/
structure Block where
  align : Nat
  bytes : List (Option TByte)
  deriving DecidableEq, Repr

/-- Whether `n` is a power of two (below `2^16`: alignments are `u16` values, `component_descriptor.rs:42-47`). -/
def powerOfTwo (n : Nat) : Bool := (List.range 16).any (fun k => n == 2 ^ k)

/-- `alloc(Layout::from_size_align_unchecked(size, align))`. A layout's alignment must be a power of two (so 0, which is
what the `as u16` cast makes of alignments beyond `u16::MAX`, is not allowed). -/
def allocBlock (env : Env) (size align : Nat) : M Block :=
  if powerOfTwo align = false then .error (.ub .layoutMismatch)
  else if size = 0 ∧ ¬ env.zstAllocOk then .error (.ub .zeroSizedAlloc)
  else .ok ⟨align, List.replicate size none⟩

/-- `realloc(ptr, Layout(oldSize, align), newSize)`: contents are preserved up to the smaller size. -/
def reallocBlock (env : Env) (p : Option Block) (oldSize align newSize : Nat) : M Block :=
  match p with
  | none => .error (.ub .badRealloc)
  | some b =>
    if b.bytes.length ≠ oldSize ∨ b.align ≠ align then .error (.ub .layoutMismatch)
    else if newSize = 0 ∧ ¬ env.zstAllocOk then .error (.ub .zeroSizedAlloc)
    else .ok ⟨align, b.bytes.take newSize ++ List.replicate (newSize - oldSize) none⟩

/-- `dealloc(ptr, Layout(size, align))`. -/
def deallocBlock (p : Option Block) (size align : Nat) : M Unit :=
  match p with
  | none => .error (.ub .badRealloc)
  | some b => if b.bytes.length ≠ size ∨ b.align ≠ align then .error (.ub .layoutMismatch) else .ok ()

/-- Copying `n` bytes out of `p` at byte offset `off`. -/
def readBytes (p : Option Block) (off n : Nat) : M (List (Option TByte)) :=
  match p with
  | none => .error (.ub .nullDeref)
  | some b => if off + n ≤ b.bytes.length then .ok ((b.bytes.drop off).take n) else .error (.ub .outOfBounds)

/-- Overwriting the bytes `off .. off + bs.length` of `p` with `bs`. -/
def writeBytes (p : Option Block) (off : Nat) (bs : List (Option TByte)) : M Block :=
  match p with
  | none => .error (.ub .nullDeref)
  | some b =>
    if off + bs.length ≤ b.bytes.length then
      .ok { b with bytes := b.bytes.take off ++ bs ++ b.bytes.drop (off + bs.length) }
    else .error (.ub .outOfBounds)

/-- The memory image of a value. -/
def Val.encode (v : Val) : List (Option TByte) :=
  v.bytes.mapIdx (fun k b => some ⟨v.ty, k, b⟩)

/-- Interpret bytes from position `k` on as (the rest of) a value of type `ty`. -/
def decodeFrom (ty : Nat) : (k : Nat) → List (Option TByte) → M (List UInt8)
  | _, [] => .ok []
  | _, none :: _ => .error (.ub .uninit)
  | k, some b :: rest =>
    if b.ty = ty ∧ b.pos = k then
      match decodeFrom ty (k + 1) rest with
      | .ok bs => .ok (b.val :: bs)
      | .error e => .error e
    else .error (.ub .typeConfusion)

/-- Interpret bytes as a value of type `ty`. -/
def decodeVal (ty : Nat) (bs : List (Option TByte)) : M Val :=
  match decodeFrom ty 0 bs with
  | .ok l => .ok ⟨ty, l⟩
  | .error e => .error e

/-- The check behind a typed access at byte offset `off` of `p` at a type of alignment `align`. The block is aligned to
`b.align`, so the address is known to be aligned if `align` divides `b.align` and `off`. -/
def checkAligned (p : Option Block) (align off : Nat) : M Unit :=
  match p with
  | none => .error (.ub .nullDeref)
  | some b => if b.align % align = 0 ∧ off % align = 0 then .ok () else .error (.ub .misaligned)

/-- `core::ptr::read(p.offset(off) as *const C)` for a type `C` with identity `ty`, size `size` and
alignment `align`; also a shared reference `&*(p.offset(off) as *const C)` that is then read. -/
def readVal (p : Option Block) (ty size align off : Nat) : M Val := do
  checkAligned p align off
  let bs ← readBytes p off size
  decodeVal ty bs

/-- `core::slice::from_raw_parts(p.offset(off) as *const C, len)`, read element by element. A null pointer is not
allowed even for the empty slice, nor is a misaligned one. -/
def readSlice (p : Option Block) (ty size align off len : Nat) : M (List Val) :=
  match p with
  | none => .error (.ub .nullDeref)
  | some b => do
    checkAligned (some b) align off
    mapRange 0 len (fun k => readVal (some b) ty size align (off + size * k))

end Shard
