import Verif.Spec.Api
import Verif.Spec.Iter
/-!
# Several threads using the references a registry handed out

The mutable iterators hand out slices of several archetypes and columns that may be held at the same time (collected into
a vector, split, sent to threads: components are `Send + Sync`, `component.rs:11`); `get_components_mut` hands out a tuple
of references. A schedule is a sequence of accesses through these references, each by one thread.
-/

set_option autoImplicit false

namespace Shard

/-- A reference handed out by a registry: to a value of type `cty`, in archetype `arch`, at `ptr`. -/
structure Lent where
  arch : Nat
  cty : CompTy
  ptr : Ref

/-- The references in the items of a mutable iterator, named by item, member of the tuple and row. -/
def lentByItems (items : List (Nat × List SliceRef)) : Nat × Nat × Nat → Option Lent
  | (n, j, k) =>
    match items[n]? with
    | none => none
    | some (ai, ss) =>
      match ss[j]? with
      | none => none
      | some s => if k < s.len then some ⟨ai, s.cty, s.elem k⟩ else none

/-- The references in the tuple `get_components_mut` returns, named by the position in the tuple. -/
def lentByTuple (ai : Nat) (ps : List (CompTy × Option Ref)) (j : Nat) : Option Lent :=
  match ps[j]? with
  | some (c, some p) => some ⟨ai, c, p⟩
  | _ => none

/-- What a thread does with a reference. -/
inductive Access (α : Type)
  /-- read the value -/
  | read (i : α)
  /-- `core::mem::replace` the value -/
  | replace (i : α) (v : Val)

variable {α : Type}

/-- The reference used. -/
def Access.name : Access α → α
  | .read i => i
  | .replace i _ => i

/-- The access does not write. -/
def Access.isRead : Access α → Prop
  | .read _ => True
  | .replace _ _ => False

/-- Perform an access: the state of memory after it, and the value read or replaced. -/
def Access.run (refs : α → Option Lent) (r : Registry) : Access α → M (Registry × Val)
  | .read i =>
    match refs i with
    | none => .error (.ub .outOfBounds)
    | some x => do
      let a ← index r.archetypes.archetypes x.arch
      let v ← a.readRef x.cty x.ptr
      return (r, v)
  | .replace i v =>
    match refs i with
    | none => .error (.ub .outOfBounds)
    | some x => r.replaceAt x.arch x.cty x.ptr v

/-- Perform the accesses of a schedule (thread and access) in order: the state after it, and what each thread saw. -/
def runSchedule (refs : α → Option Lent) : Registry → List (Nat × Access α) → M (Registry × List (Nat × Val))
  | r, [] => .ok (r, [])
  | r, (t, x) :: rest => do
    let p ← x.run refs r
    let q ← runSchedule refs p.1 rest
    return (q.1, (t, p.2) :: q.2)

/-- The part of thread `t`. -/
def threadOf {β : Type} (t : Nat) (l : List (Nat × β)) : List (Nat × β) := l.filter (fun x => x.1 == t)

/-- The same threads, interleaved in possibly different ways. -/
def SameThreads {β : Type} (l l' : List (Nat × β)) : Prop := ∀ t, threadOf t l = threadOf t l'

/-- What the borrow checker ensures: the references exist, the values have the right type, and a reference used by two
threads is used for reading only. -/
structure Borrowed (refs : α → Option Lent) (l : List (Nat × Access α)) : Prop where
  known : ∀ x ∈ l, ∃ y, refs x.2.name = some y ∧ ∀ i v, x.2 = .replace i v → v.HasTy y.cty
  apart : ∀ x ∈ l, ∀ y ∈ l, x.1 ≠ y.1 → x.2.name = y.2.name → x.2.isRead ∧ y.2.isRead

/-- What is seen by the accesses if every reference is a variable of its own, with the value `σ i` at first. -/
def seen [DecidableEq α] : (σ : α → Val) → List (Nat × Access α) → List (Nat × Val)
  | _, [] => []
  | σ, (t, .read i) :: rest => (t, σ i) :: seen σ rest
  | σ, (t, .replace i v) :: rest => (t, σ i) :: seen (fun j => if j = i then v else σ j) rest

/-- The values of the variables afterwards. -/
def after [DecidableEq α] : (σ : α → Val) → List (Nat × Access α) → α → Val
  | σ, [] => σ
  | σ, (_, .read _) :: rest => after σ rest
  | σ, (_, .replace i v) :: rest => after (fun j => if j = i then v else σ j) rest

/-- The references `refs` into `r` can be used by any number of threads: they refer to disjoint memory; and whatever the
threads do, in whatever order, no access has a fault, each thread sees what it would see alone if every reference were a
variable of its own, the variables have the expected values afterwards, the state of the registry is one reachable by
calls, and it does not depend on the interleaving. -/
def Shareable [DecidableEq α] {env : Env} (W : World env) (r : Registry) (refs : α → Option Lent) : Prop :=
  (∀ i i' x x', i ≠ i' → refs i = some x → refs i' = some x' → NoOverlap x.arch x.cty x.ptr x'.arch x'.cty x'.ptr) ∧
  ∃ σ : α → Val, (∀ i, (refs i).isSome → (Access.read i).run refs r = .ok (r, σ i)) ∧
    ∀ l, Borrowed refs l → ∃ r' vals, runSchedule refs r l = .ok (r', vals) ∧ Reachable W r' ∧
      (∀ t, threadOf t vals = seen σ (threadOf t l)) ∧
      (∀ i, (refs i).isSome → (Access.read i).run refs r' = .ok (r', after σ l i)) ∧
      ∀ l', SameThreads l l' → ∃ vals', runSchedule refs r l' = .ok (r', vals') ∧ SameThreads vals vals'

end Shard
