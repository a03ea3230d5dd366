import Verif.Spec.Api
/-!
# Which handles an allocator of slots and versions gives out

Slots and versions are plain numbers here; nothing refers to the registry.
-/

set_option autoImplicit false

namespace Shard

/-- What a program does as far as handles are concerned: it makes an entity, or ends the one it made as the `k`-th. -/
inductive Event where
  | made
  | gone (k : Nat)
  deriving DecidableEq, Repr

/-- The handles given out so far, those to be given out again (the next one first), and the number of slots. -/
structure Alloc where
  given : List (Nat × Nat)
  free : List (Nat × Nat)
  slots : Nat
  deriving DecidableEq, Repr

namespace Alloc

def start : Alloc := ⟨[], [], 0⟩

/-- The next handle. -/
def next (s : Alloc) : Nat × Nat :=
  match s.free with
  | h :: _ => h
  | [] => (s.slots, 0)

/-- A handle that ends comes back with the next version, and before all others. -/
def step (s : Alloc) : Event → Alloc
  | .made => ⟨s.given ++ [s.next], s.free.tail, if s.free = [] then s.slots + 1 else s.slots⟩
  | .gone k =>
    match s.given[k]? with
    | some (i, v) => ⟨s.given, (i, (v + 1) % 256) :: s.free, s.slots⟩
    | none => s

/-- All events of a program. -/
def after (p : List Event) : Alloc := p.foldl step start

end Alloc

/-- The handles returned in a history, in order. -/
def createdHandles (h : List (Call × Outcome)) : List Entity := h.filterMap (fun x => x.2.created)

/-- The position of the last occurrence. -/
def lastIdx (l : List Entity) (e : Entity) : Nat := l.length - 1 - l.reverse.idxOf e

/-- A history as far as handles are concerned. Which entity was ended is said by the position of its creation, so the
pattern does not contain handles, components or calls that fail. -/
def pattern : List (Call × Outcome) → List Entity → List Event
  | [], _ => []
  | x :: rest, made =>
    match x.2.created, x.2.vacated with
    | some e, _ => .made :: pattern rest (made ++ [e])
    | none, some e => .gone (lastIdx made e) :: pattern rest made
    | none, none => pattern rest made

/-- Slot and version of a handle. -/
def Entity.parts (e : Entity) : Nat × Nat := (e.index.toNat, e.version.toNat)

end Shard
