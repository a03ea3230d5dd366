import Verif.Model.Memory
import Verif.Model.Entity
/-!
# Memory as an array of addresses

`Memory.lean` gives every column of an archetype a block of its own, so two columns cannot overlap, a pointer cannot
stray from one column into another, and an address is aligned as soon as the offset is. Here memory is one array of
bytes indexed by addresses. An allocation is an interval of addresses chosen by the allocator; a pointer is an address
together with the allocation it was derived from (its provenance). `realloc` moves the block wherever the allocator likes,
`offset` has to stay inside the allocation, the two ranges of `copy_nonoverlapping` and `swap_nonoverlapping` are compared
as addresses, and typed accesses check the address itself. The stack, from which `create_entity` copies the components,
is not part of this memory.
-/

set_option autoImplicit false

namespace Shard.Flat

/-- One initialised byte: a byte of a component, or byte `k` of a 4-byte entity handle. -/
inductive Cell
  | comp (b : TByte)
  | ent (e : Entity) (k : Nat)
  deriving DecidableEq, Repr

/-- A raw pointer: the number of the allocation it was derived from, and an address. -/
structure Ptr where
  prov : Nat
  addr : Nat
  deriving DecidableEq, Repr

/-- `core::ptr::null_mut()`. -/
def Ptr.null : Ptr := ⟨0, 0⟩

/-- The address `n` bytes further on, with the same provenance. -/
def Ptr.plus (p : Ptr) (n : Nat) : Ptr := ⟨p.prov, p.addr + n⟩

/-- A live allocation: its first address and its layout. -/
structure Alloc where
  base : Nat
  size : Nat
  align : Nat
  deriving DecidableEq, Repr

/-- The memory of the process: the number of the next allocation, the live allocations by number, the contents by
address (`none` = uninitialised), and whether the allocator has returned null. -/
structure Heap where
  next : Nat
  allocs : Nat → Option Alloc
  mem : Nat → Option Cell
  refused : Bool := false

/-- The global allocator: where the next block of the given size and alignment goes, `none` when it returns null. It may
look at everything. -/
structure Allocator where
  place : Heap → (size align : Nat) → Option Nat

/-- A computation that reads and changes the memory; the memory survives a panic. -/
abbrev FM := ExceptT Fault (StateM Heap)

/-- The memory without allocation `id`. -/
def Heap.free (h : Heap) (id : Nat) : Heap := { h with allocs := fun i => if i = id then none else h.allocs i }

/-- The memory with a new allocation with contents `f` (by offset). -/
def Heap.add (h : Heap) (base size align : Nat) (f : Nat → Option Cell) : Heap :=
  { next := h.next + 1
    allocs := fun i => if i = h.next then some ⟨base, size, align⟩ else h.allocs i
    mem := fun x => if base ≤ x ∧ x < base + size then f (x - base) else h.mem x
    refused := h.refused }

/-- The memory after the allocator has returned null. -/
def Heap.refuse (h : Heap) : Heap := { h with refused := true }

/-- Whether the `n` bytes at `p` lie in the live allocation that `p` was derived from. -/
def Heap.inBounds (h : Heap) (p : Ptr) (n : Nat) : Bool :=
  match h.allocs p.prov with
  | none => false
  | some al => decide (al.base ≤ p.addr ∧ p.addr + n ≤ al.base + al.size)

/-- `alloc(Layout::from_size_align_unchecked(size, align))`, which may return null. -/
def alloc (A : Allocator) (env : Env) (size align : Nat) : FM Ptr := fun h =>
  if powerOfTwo align = false then (.error (.ub .layoutMismatch), h)
  else if size = 0 ∧ ¬ env.zstAllocOk then (.error (.ub .zeroSizedAlloc), h)
  else
    match A.place h size align with
    | none => (.ok Ptr.null, h.refuse)
    | some b => (.ok ⟨h.next, b⟩, h.add b size align (fun _ => none))

/-- `realloc(p, Layout(oldSize, align), newSize)`. The new place may be the old one or overlap it. When it returns null the
old block stays as it is. -/
def realloc (A : Allocator) (env : Env) (p : Ptr) (oldSize align newSize : Nat) : FM Ptr := fun h =>
  match h.allocs p.prov with
  | none => (.error (.ub .badRealloc), h)
  | some al =>
    if p.addr ≠ al.base then (.error (.ub .badRealloc), h)
    else if al.size ≠ oldSize ∨ al.align ≠ align then (.error (.ub .layoutMismatch), h)
    else if newSize = 0 ∧ ¬ env.zstAllocOk then (.error (.ub .zeroSizedAlloc), h)
    else
      match A.place (h.free p.prov) newSize align with
      | none => (.ok Ptr.null, h.refuse)
      | some b => (.ok ⟨h.next, b⟩,
          (h.free p.prov).add b newSize align (fun k => if k < oldSize then h.mem (al.base + k) else none))

/-- `dealloc(p, Layout(size, align))`. -/
def dealloc (p : Ptr) (size align : Nat) : FM Unit := fun h =>
  match h.allocs p.prov with
  | none => (.error (.ub .badRealloc), h)
  | some al =>
    if p.addr ≠ al.base then (.error (.ub .badRealloc), h)
    else if al.size ≠ size ∨ al.align ≠ align then (.error (.ub .layoutMismatch), h)
    else (.ok (), h.free p.prov)

/-- `p.offset(n)` (in bytes): the result must be in the allocation or one past its end, unless `n` is 0. -/
def offset (p : Ptr) (n : Nat) : FM Ptr := fun h =>
  if n = 0 ∨ h.inBounds p n = true then (.ok (p.plus n), h) else (.error (.ub .outOfBounds), h)

/-- Reading the `n` bytes at `p`. -/
def readCells (p : Ptr) (n : Nat) : FM (List (Option Cell)) := fun h =>
  if p.addr = 0 then (.error (.ub .nullDeref), h)
  else if h.inBounds p n = true then (.ok ((List.range n).map (fun k => h.mem (p.addr + k))), h)
  else (.error (.ub .outOfBounds), h)

/-- Writing bytes at `p`. -/
def writeCells (p : Ptr) (cs : List (Option Cell)) : FM Unit := fun h =>
  if p.addr = 0 then (.error (.ub .nullDeref), h)
  else if h.inBounds p cs.length = true then
    (.ok (), { h with mem := fun x => if p.addr ≤ x ∧ x < p.addr + cs.length then cs.getD (x - p.addr) none else h.mem x })
  else (.error (.ub .outOfBounds), h)

/-- Whether two ranges of `n` bytes overlap. -/
def overlapping (p q : Ptr) (n : Nat) : Bool := decide (n ≠ 0 ∧ p.addr < q.addr + n ∧ q.addr < p.addr + n)

/-- `core::ptr::copy_nonoverlapping(src, dst, n)`. -/
def copyNonoverlapping (src dst : Ptr) (n : Nat) : FM Unit := do
  ensure (!overlapping src dst n) (.ub .overlap)
  let cs ← readCells src n
  writeCells dst cs

/-- `core::ptr::swap_nonoverlapping(p, q, n)`. -/
def swapNonoverlapping (p q : Ptr) (n : Nat) : FM Unit := do
  ensure (!overlapping p q n) (.ub .overlap)
  let cp ← readCells p n
  let cq ← readCells q n
  writeCells p cq
  writeCells q cp

/-- `assert_ne!(p, null_mut())`. -/
def assertNonNull (p : Ptr) : FM Unit := ensure (decide (p.addr ≠ 0)) (.panic .assertFailed)

/-- The address of a reference must not be null and must be a multiple of the alignment. -/
def checkRef (p : Ptr) (align : Nat) : FM Unit := do
  ensure (decide (p.addr ≠ 0)) (.ub .nullDeref)
  ensure (decide (p.addr % align = 0)) (.ub .misaligned)

/-- The bytes of a component: a byte of a handle is a byte of another type. -/
def compBytes : List (Option Cell) → M (List (Option TByte))
  | [] => .ok []
  | none :: rest => do
    let bs ← compBytes rest
    return none :: bs
  | some (.comp b) :: rest => do
    let bs ← compBytes rest
    return some b :: bs
  | some (.ent _ _) :: _ => .error (.ub .typeConfusion)

/-- `core::ptr::read(p as *const C)`, or a reference that is then read. -/
def readVal (p : Ptr) (ty size align : Nat) : FM Val := do
  checkRef p align
  let cs ← readCells p size
  let bs ← compBytes cs
  decodeVal ty bs

/-- `core::ptr::write(p as *mut C, v)`, or a store through a reference. -/
def writeVal (p : Ptr) (align : Nat) (v : Val) : FM Unit := do
  checkRef p align
  writeCells p (v.encode.map (Option.map .comp))

/-- `for i in lo..lo+n { s = f(i, s) }`. -/
def loop {σ : Type} (lo : Nat) : (n : Nat) → (f : Nat → σ → FM σ) → σ → FM σ
  | 0, _, s => pure s
  | n + 1, f, s => do
    let s' ← f lo s
    loop (lo + 1) n f s'

/-- `(lo..lo+n).map(f).collect()`. -/
def mapLoop {α : Type} (lo : Nat) : (n : Nat) → (f : Nat → FM α) → FM (List α)
  | 0, _ => pure []
  | n + 1, f => do
    let a ← f lo
    let as ← mapLoop (lo + 1) n f
    return a :: as

/-- `core::slice::from_raw_parts(p as *const C, len)`: not null, aligned, inside one allocation. -/
def rawSlice (p : Ptr) (size align len : Nat) : FM Unit := do
  checkRef p align
  fun h => if h.inBounds p (size * len) = true then (.ok (), h) else (.error (.ub .outOfBounds), h)

/-- A slice formed by `from_raw_parts`, read element by element. -/
def readSlice (p : Ptr) (ty size align len : Nat) : FM (List Val) := do
  rawSlice p size align len
  mapLoop 0 len (fun k => readVal (p.plus (size * k)) ty size align)

/-- The four bytes of a handle. -/
def entCells (o : Option Entity) : List (Option Cell) := (List.range 4).map (fun k => o.map (fun e => .ent e k))

/-- Reading four bytes as a handle. -/
def decodeEntity : List (Option Cell) → M Entity
  | [some (.ent e 0), some (.ent e1 1), some (.ent e2 2), some (.ent e3 3)] =>
    if e1 = e ∧ e2 = e ∧ e3 = e then .ok e else .error (.ub .typeConfusion)
  | cs => if none ∈ cs then .error (.ub .uninit) else .error (.ub .typeConfusion)

end Shard.Flat
