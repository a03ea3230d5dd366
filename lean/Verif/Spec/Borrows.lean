import Verif.Spec.Api
/-!
# Stacked Borrows

The aliasing rules for Rust references, as in R. Jung et al., *Stacked Borrows* (POPL 2020): every location has a stack of
items, each saying what the references with a given tag may do; using a reference removes what is above its item, and
using a reference whose item is gone is undefined behaviour, even if the access is in bounds and well typed.

Simplifications: protectors (which make the removal of items of function arguments an error on the spot) are left out, as
the theorems say that nothing live is removed; an `Archetype` is a single location.
-/

set_option autoImplicit false

namespace Shard.Borrow

/-- What an item permits. -/
inductive Perm
  /-- of a `&mut T`: reading and writing, as the only one -/
  | unique
  /-- of a `*mut T` -/
  | sharedRW
  /-- of a `&T` -/
  | sharedRO
  /-- no longer anything -/
  | disabled
  deriving DecidableEq, Repr

/-- An item of a stack. -/
structure Item where
  tag : Nat
  perm : Perm
  deriving DecidableEq, Repr

/-- The stack of a location, the topmost item first. -/
abbrev Stack := List Item

/-- The item permits a read (`w = false`) or a write (`w = true`) through the references with tag `t`. -/
def Item.grants (w : Bool) (t : Nat) (x : Item) : Bool :=
  x.tag == t && (match x.perm with
    | .unique => true
    | .sharedRW => true
    | .sharedRO => !w
    | .disabled => false)

/-- The topmost item that satisfies `p`, with what is above it and what is below it. -/
def split (p : Item → Bool) : Stack → Option (Stack × Item × Stack)
  | [] => none
  | x :: s => if p x then some ([], x, s) else (split p s).map (fun y => (x :: y.1, y.2.1, y.2.2))

/-- The items directly above `x` that a write through `x` leaves there: if `x` belongs to a raw pointer, the adjacent ones
of raw pointers. -/
def compatible (above : Stack) (x : Item) : Stack :=
  if x.perm = .sharedRW then (above.reverse.takeWhile (fun y => y.perm = .sharedRW)).reverse else []

/-- What a read through something below does to an item. -/
def Item.disable (x : Item) : Item := if x.perm = .unique then ⟨x.tag, .disabled⟩ else x

/-- A read or write of a location through a reference with tag `t`. -/
def access (w : Bool) (t : Nat) (s : Stack) : Option Stack :=
  (split (Item.grants w t) s).map (fun y =>
    if w then compatible y.1 y.2.1 ++ y.2.1 :: y.2.2 else y.1.map Item.disable ++ y.2.1 :: y.2.2)

/-- Kinds of references. -/
inductive Kind
  /-- `&mut T` -/
  | mutRef
  /-- `&T` -/
  | ref
  /-- `*mut T` -/
  | raw
  deriving DecidableEq, Repr

/-- A reference with tag `new` is made from one with tag `t`. Making a `&mut T` counts as a write, making a `&T` as a
read; making a `*mut T` is not an access. -/
def reborrow (t new : Nat) : Kind → Stack → Option Stack
  | .mutRef, s => (access true t s).map (fun s => ⟨new, .unique⟩ :: s)
  | .ref, s => (access false t s).map (fun s => ⟨new, .sharedRO⟩ :: s)
  | .raw, s => (split (Item.grants true t) s).map (fun y =>
      y.1.take (y.1.length - (compatible y.1 y.2.1).length) ++
        ⟨new, .sharedRW⟩ :: (compatible y.1 y.2.1 ++ y.2.1 :: y.2.2))

/-- The locations concerned. -/
inductive Loc
  /-- the `Archetype` at a position of the archetype registry's vector -/
  | struct (i : Nat)
  /-- a byte of a column of an archetype -/
  | byte (i col off : Nat)
  /-- an element of the entity column of an archetype -/
  | entity (i row : Nat)
  deriving DecidableEq, Repr

/-- The stacks of all locations, and the next unused tag. -/
structure State where
  stacks : Loc → Stack
  next : Nat

/-- What may go wrong: a fault of the code as in the rest of the model, or a use of a reference that is not allowed. -/
inductive Fault
  | code (f : Shard.Fault)
  | aliasing

/-- Computations with such faults. -/
abbrev BM := Except Fault

/-- A computation of the rest of the model. -/
def lift {α : Type} : M α → BM α
  | .ok x => .ok x
  | .error f => .error (.code f)

/-- Change the stacks of some locations. -/
def State.update (σ : State) (f : Stack → Option Stack) (ls : List Loc) : BM State :=
  if ∀ l ∈ ls, (f (σ.stacks l)).isSome then
    .ok { σ with stacks := fun l => if l ∈ ls then (f (σ.stacks l)).getD [] else σ.stacks l }
  else .error .aliasing

/-- A read or write of some locations through a reference with tag `t`. -/
def State.access (σ : State) (w : Bool) (t : Nat) (ls : List Loc) : BM State := σ.update (Borrow.access w t) ls

/-- Make a new reference to some locations from one with tag `t`; its tag. -/
def State.retag (σ : State) (t : Nat) (k : Kind) (ls : List Loc) : BM (Nat × State) := do
  let σ' ← σ.update (reborrow t σ.next k) ls
  return (σ.next, { σ' with next := σ.next + 1 })

/-! ## Programs that use what they are handed -/

/-- What the program got from one call: slices with their tags, and possibly the entity slice (length and tag). -/
structure Held where
  arch : Nat
  slices : List (SliceRef × Nat)
  ents : Option (Nat × Nat)

/-- The bytes of the elements `k, …, k + n - 1` of a slice of archetype `i`. -/
def bytesAt (i : Nat) (s : SliceRef) (k n : Nat) : List Loc :=
  (List.range (s.cty.size * n)).map (fun b => .byte i s.base.col (s.base.off + s.cty.size * k + b))

/-- A use of something held. -/
inductive Use
  /-- read or write element `k` of slice `j` of the `n`-th thing held -/
  | elem (n j k : Nat) (write : Bool)
  /-- read element `k` of the entity slice of the `n`-th thing held -/
  | entity (n k : Nat)

/-- Use something held. A use of what is not held or out of bounds does nothing: it does not compile, or panics. -/
def Use.run (held : List Held) (σ : State) : Use → BM State
  | .elem n j k w =>
    match held[n]? with
    | none => .ok σ
    | some h =>
      match h.slices[j]? with
      | none => .ok σ
      | some (s, t) => if k < s.len then σ.access w t (bytesAt h.arch s k 1) else .ok σ
  | .entity n k =>
    match held[n]? with
    | none => .ok σ
    | some h =>
      match h.ents with
      | none => .ok σ
      | some (len, t) => if k < len then σ.access false t [.entity h.arch k] else .ok σ

/-- The references from which the calls make others: the iterator's `&mut [Archetype]` (or the `&mut Archetype` a lookup
returned), and what the allocator returned for the columns and the entity column of each archetype. -/
structure Tags where
  registry : Nat
  col : Nat → Nat → Nat
  ent : Nat → Nat

/-- At the time of the call, with `n` archetypes, these references may be used for reading and writing. -/
def Ready (T : Tags) (n : Nat) (σ : State) : Prop :=
  (∀ i, i < n → ∃ x ∈ σ.stacks (.struct i), x.grants true T.registry = true) ∧
  (∀ i c o, ∃ x ∈ σ.stacks (.byte i c o), x.grants true (T.col i c) = true) ∧
  (∀ i k, ∃ x ∈ σ.stacks (.entity i k), x.grants true (T.ent i) = true)

end Shard.Borrow
