import Verif.Model.EntityRegistry
/-!
# The entity table on its own

`EntityRegistry` is a public type. `Table` is the reference it is compared with: a list of slots, each with a version
and possibly a content, and a stack of slots to be used again. Handles are pairs (slot, version).
-/

set_option autoImplicit false

namespace Shard

/-- A handle as seen by the reference table. -/
abbrev Handle := Nat × UInt8

/-- What an entry holds: an index in an archetype and an archetype index. -/
abbrev Place := UInt32 × UInt16

/-- The reference table. -/
structure Table where
  slots : List (UInt8 × Option Place)
  stack : List Nat
  deriving DecidableEq, Repr

namespace Table

/-- The empty table. -/
def empty : Table := ⟨[], []⟩

/-- The content a handle leads to. -/
def look (t : Table) (h : Handle) : Option Place :=
  match t.slots[h.1]? with
  | some (v, c) => if v = h.2 then c else none
  | none => none

/-- A new handle: from the stack if there is something on it, otherwise a new slot of version 0. At most `2^24 - 1`
slots. -/
def create (t : Table) (p : Place) : Table × Option Handle :=
  if t.slots.length < 2 ^ 24 - 1 then
    match t.stack with
    | [] => (⟨t.slots ++ [(0, some p)], []⟩, some (t.slots.length, 0))
    | j :: rest =>
      let v := match t.slots[j]? with
        | some s => s.1
        | none => 0
      (⟨t.slots.set j (v, some p), rest⟩, some (j, v))
  else (t, none)

/-- Remove a live handle: its slot gets the next version and goes onto the stack. -/
def destroy (t : Table) (h : Handle) : Table × Bool :=
  match t.look h with
  | some _ => (⟨t.slots.set h.1 (h.2 + 1, none), h.1 :: t.stack⟩, true)
  | none => (t, false)

/-- Overwrite the slot of a live handle, version included; `none` as content makes it dead. -/
def write (t : Table) (h : Handle) (v : UInt8) (c : Option Place) : Table × Bool :=
  match t.look h with
  | some _ => (⟨t.slots.set h.1 (v, c), t.stack⟩, true)
  | none => (t, false)

/-- The live handles, in the order of the slots, the first of which has number `i`. -/
def handlesFrom : List (UInt8 × Option Place) → Nat → List Handle
  | [], _ => []
  | (v, some _) :: rest, i => (i, v) :: handlesFrom rest (i + 1)
  | (_, none) :: rest, i => handlesFrom rest (i + 1)

end Table

/-- The calls safe code can make on an `EntityRegistry`. `write e en` stands for obtaining `entity_entry_mut(e)` and
storing any six bytes there with the setters of the entry (or by assigning an entry built elsewhere). -/
inductive TableCall
  | create (i : IndexInArchetype) (a : ArchetypeIndex)
  | destroy (e : Entity)
  | write (e : Entity) (en : EntityEntry)
  | entry (e : Entity)
  | iter
  | canRegister

/-- What the safe constructors of the two index types guarantee about the arguments: an `IndexInArchetype` is below
`2^24` (`new` or `from_bytes`), an `ArchetypeIndex` is not 65535. -/
def TableCall.Safe : TableCall → Prop
  | .create i a => i.value.toNat < 2 ^ 24 ∧ a.value.toNat ≠ 65535
  | _ => True

/-- The answers, with handles as pairs. -/
inductive TableAns
  | handle (h : Option Handle)
  | flag (b : Bool)
  | place (p : Option Place)
  | handles (l : List Handle)
  deriving DecidableEq, Repr

/-- The pair of an entity handle. -/
def Entity.pair (e : Entity) : Handle := (e.index.toNat, e.version)

/-- The content of an entry, if it is valid. -/
def EntityEntry.place (env : Env) (en : EntityEntry) : Option Place :=
  if en.archetypeIndex env = 65535 then none else some (en.indexInArchetype.value, en.archetypeIndex env)

/-- A call on the real table. -/
def TableCall.run (env : Env) (r : EntityRegistry) : TableCall → M (EntityRegistry × TableAns)
  | .create i a => do
    let x ← r.createEntity env i a
    return (x.1, .handle (x.2.map Entity.pair))
  | .destroy e => .ok ((r.destroyEntity env e).1, .flag (r.destroyEntity env e).2)
  | .write e en =>
    match r.updateEntry env e (fun _ => en) with
    | some r' => .ok (r', .flag true)
    | none => .ok (r, .flag false)
  | .entry e => .ok (r, .place ((r.entityEntry env e).bind (fun en => en.place env)))
  | .iter => .ok (r, .handles ((r.iter env).map Entity.pair))
  | .canRegister => .ok (r, .flag r.canRegisterNewEntity)

/-- The same call on the reference table. -/
def TableCall.ref (env : Env) (t : Table) : TableCall → Table × TableAns
  | .create i a => ((t.create (i.value, a.value)).1, .handle (t.create (i.value, a.value)).2)
  | .destroy e => ((t.destroy e.pair).1, .flag (t.destroy e.pair).2)
  | .write e en => ((t.write e.pair en.version (en.place env)).1, .flag (t.write e.pair en.version (en.place env)).2)
  | .entry e => (t, .place (t.look e.pair))
  | .iter => (t, .handles (Table.handlesFrom t.slots 0))
  | .canRegister => (t, .flag (decide (t.slots.length < 2 ^ 24 - 1)))

/-- A sequence of calls on the real table: the first fault ends it. -/
def runTable (env : Env) : EntityRegistry → List TableCall → M (EntityRegistry × List TableAns)
  | r, [] => .ok (r, [])
  | r, c :: rest => do
    let x ← c.run env r
    let y ← runTable env x.1 rest
    return (y.1, x.2 :: y.2)

/-- A sequence of calls on the reference table. -/
def refTable (env : Env) : Table → List TableCall → Table × List TableAns
  | t, [] => (t, [])
  | t, c :: rest =>
    let x := c.ref env t
    let y := refTable env x.1 rest
    (y.1, x.2 :: y.2)

end Shard
