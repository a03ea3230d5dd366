import Verif.Model.FlatMemory
/-!
# What is assumed of the memory and of the allocator

Nothing here depends on the crate.
-/

set_option autoImplicit false

namespace Shard.Flat

/-- A memory as a process has it: allocations have numbers below `next`, do not start at address 0, are aligned, end below
`2^64` and are disjoint. -/
structure Heap.WF (h : Heap) : Prop where
  lt : ∀ {id : Nat} {al : Alloc}, h.allocs id = some al → id < h.next
  pos : ∀ {id : Nat} {al : Alloc}, h.allocs id = some al → 0 < al.base
  aligned : ∀ {id : Nat} {al : Alloc}, h.allocs id = some al → al.base % al.align = 0
  top : ∀ {id : Nat} {al : Alloc}, h.allocs id = some al → al.base + al.size ≤ 2 ^ 64
  disj : ∀ {i j : Nat} {a b : Alloc}, h.allocs i = some a → h.allocs j = some b → i ≠ j →
    ∀ x y, x < a.size → y < b.size → a.base + x ≠ b.base + y

/-- What the allocator guarantees: a block it hands out is aligned, lies inside the address space and is disjoint from all
live blocks. It may fail whenever it likes. -/
structure Allocator.Ok (A : Allocator) : Prop where
  pos : ∀ {h : Heap} {size align b : Nat}, h.WF → A.place h size align = some b → 0 < b
  aligned : ∀ {h : Heap} {size align b : Nat}, h.WF → A.place h size align = some b → powerOfTwo align = true →
    b % align = 0
  top : ∀ {h : Heap} {size align b : Nat}, h.WF → A.place h size align = some b → b + size ≤ 2 ^ 64
  fresh : ∀ {h : Heap} {size align b : Nat}, h.WF → A.place h size align = some b →
    ∀ {id : Nat} {al : Alloc}, h.allocs id = some al → ∀ x y, x < size → y < al.size → b + x ≠ al.base + y

/-- The allocator returns null for some request. -/
def Allocator.Fails (A : Allocator) : Prop := ∃ h size align, A.place h size align = none

/-- Allocation `id` is as it was: it is live with the same layout or was not live, and its bytes are the same. -/
structure Same (h h' : Heap) (id : Nat) : Prop where
  allocs : h'.allocs id = h.allocs id
  mem : ∀ {al : Alloc}, h.allocs id = some al → ∀ k, k < al.size → h'.mem (al.base + k) = h.mem (al.base + k)

end Shard.Flat
