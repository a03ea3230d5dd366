import Verif.Spec.Api
/-!
# What a program can compute from the outcomes of its own calls
-/

namespace Shard

/-- The handles that are live after a history, computed from the outcomes alone: created and not retired since. -/
def liveHandles (h : List (Call × Outcome)) : List Entity :=
  h.foldl (fun l x =>
    match x.2.created, x.2.vacated with
    | some e, _ => e :: l
    | none, some e => l.erase e
    | none, none => l) []

/-- How often the slot `i` is vacated in a history. -/
def vacations (h : List (Call × Outcome)) (i : UInt32) : Nat :=
  h.countP (fun x => x.2.vacated.any (fun e => e.index == i))

/-- The slots of a history as a stack allocator sees them: the stack of vacated slots and the number of slots. -/
def slotState (h : List (Call × Outcome)) : List UInt32 × Nat :=
  h.foldl (fun s x =>
    match x.2.created, x.2.vacated with
    | some _, _ => (match s.1 with
      | _ :: rest => (rest, s.2)
      | [] => ([], s.2 + 1))
    | none, some e => (e.index :: s.1, s.2)
    | none, none => s) ([], 0)

/-- The number of live entities a history ends with, and the largest number it passes through. -/
def liveCount (h : List (Call × Outcome)) : Nat × Nat :=
  h.foldl (fun s x =>
    match x.2.created, x.2.vacated with
    | some _, _ => (s.1 + 1, max s.2 (s.1 + 1))
    | none, some _ => (s.1 - 1, s.2)
    | none, none => s) (0, 0)

/-- The last structural change of `e` in a history was `add_component` or `remove_component` (and not its creation). -/
def movedLast (h : List (Call × Outcome)) (e : Entity) : Bool :=
  h.foldl (fun b x =>
    if x.2.created = some e then false else
    match x.1 with
    | .add e' _ _ => if e' = e ∧ x.2.success = true then true else b
    | .remove e' _ => if e' = e ∧ x.2.success = true then true else b
    | _ => b) false

/-- The slot a stack allocator hands out next. -/
def nextSlot (s : List UInt32 × Nat) : Nat :=
  match s.1 with
  | i :: _ => i.toNat
  | [] => s.2

end Shard
