import Verif.Spec.World
/-!
# A table of rows: what a single `Archetype` is supposed to be

The `unsafe` functions of `src/archetype/data_access.rs` document what their callers have to guarantee. `Rows` is the table
an archetype stands for, with cells that may be empty (not yet written, dropped, or moved elsewhere); `RowOp.Legal` is the
documented contract of each function, and `RowOp.apply` its effect. The store of several archetypes (`Store`) adds the
functions that create, drop and connect archetypes. None of this mentions memory.
-/

set_option autoImplicit false

namespace Shard

/-- One row: the entity handle and the components, as far as they are present. -/
structure Row where
  ent : Option Entity
  val : CompTy → Option Val

namespace Row

/-- Put the value `v` into the cell of `c`. -/
def put (r : Row) (c : CompTy) (v : Val) : Row := { r with val := fun c' => if c' = c then some v else r.val c' }

/-- Empty the cell of `c`. -/
def drop (r : Row) (c : CompTy) : Row := { r with val := fun c' => if c' = c then none else r.val c' }

/-- Empty all cells. -/
def clear (r : Row) : Row := { r with val := fun _ => none }

/-- All components of the types `cs` are present. -/
def Full (r : Row) (cs : List CompTy) : Prop := ∀ c ∈ cs, ∃ v, r.val c = some v

end Row

/-- A table: its component types (in ascending order of ids), the number of rows there is memory for, and the rows. -/
structure Rows where
  types : List CompTy
  cap : Nat
  rows : List Row

namespace Rows

/-- There is memory for another row, or it can be had. -/
def CanPush (t : Rows) : Prop := t.rows.length < t.cap ∨ 2 * t.cap < MAX_ENTITIES_PER_ARCHETYPE

/-- Append a row, doubling the memory if it is full. -/
def add (t : Rows) (r : Row) : Rows :=
  { t with cap := if t.rows.length = t.cap then 2 * t.cap else t.cap, rows := t.rows ++ [r] }

/-- Remove the last row. -/
def pop (t : Rows) : Rows := { t with rows := t.rows.take (t.rows.length - 1) }

/-- Change row `k`. -/
def edit (t : Rows) (k : Nat) (f : Row → Row) : Rows := { t with rows := t.rows.modify k f }

/-- Exchange two rows. -/
def exchange (t : Rows) (i j : Nat) : Rows :=
  match t.rows[i]?, t.rows[j]? with
  | some x, some y => { t with rows := (t.rows.set i y).set j x }
  | _, _ => t

/-- The component of type `c` in row `k`. -/
def cell (t : Rows) (c : CompTy) (k : Nat) : Option Val := (t.rows[k]?).bind (fun r => r.val c)

/-- The entity handle of row `k`. -/
def ent (t : Rows) (k : Nat) : Option Entity := (t.rows[k]?).bind (fun r => r.ent)

/-- The components of the types `cs` in row `k`. -/
def tuple (t : Rows) (cs : List CompTy) (k : Nat) : List Val := cs.filterMap (fun c => t.cell c k)

/-- The components of type `c`, row after row. -/
def column (t : Rows) (c : CompTy) : List Val := t.rows.filterMap (fun r => r.val c)

/-- All entity handles. -/
def handles (t : Rows) : List Entity := t.rows.filterMap (fun r => r.ent)

/-- Row `k` exists, and its components of the types `cs` are present. -/
def FullRow (t : Rows) (cs : List CompTy) (k : Nat) : Prop := ∃ r, t.rows[k]? = some r ∧ r.Full cs

/-- All rows have their components of the types `cs`. -/
def FullTable (t : Rows) (cs : List CompTy) : Prop := ∀ r ∈ t.rows, r.Full cs

/-- Row `k` exists, and its handle is set. -/
def HasEnt (t : Rows) (k : Nat) : Prop := ∃ r e, t.rows[k]? = some r ∧ r.ent = some e

end Rows

/-- The functions of a single archetype. -/
inductive RowOp
  /-- `push_entity_unchecked` -/
  | push (e : Entity) (g : Group) (vals : List Val)
  /-- `push_uninitialized_entity` -/
  | pushUninit
  /-- `decrement_len_unchecked` -/
  | decrement
  /-- `write_single_component_unchecked` -/
  | write (c : CompTy) (k : Nat) (v : Val)
  /-- `write_entity_unchecked` -/
  | writeRow (k : Nat) (e : Entity) (g : Group) (vals : List Val)
  /-- `entities_mut()[k] = e` -/
  | setEntity (k : Nat) (e : Entity)
  /-- `*get_component_unchecked_mut(k) = v` -/
  | assign (c : CompTy) (k : Nat) (v : Val)
  /-- `swap_entities` -/
  | swap (i j : Nat)
  /-- `swap_to_last_unchecked` -/
  | swapToLast (k : Nat)
  /-- `swap_drop_unchecked` -/
  | swapDrop (k : Nat)
  /-- `swap_remove_unchecked` -/
  | swapRemove (g : Group) (k : Nat)
  /-- `read_component_unchecked` -/
  | moveOut (c : CompTy) (k : Nat)
  /-- `drop_entity` -/
  | dropRow (k : Nat)
  /-- `drop_entities` -/
  | dropRows
  /-- `len`, `capacity`, `is_full` -/
  | size
  /-- `entities` -/
  | entities
  /-- `get_component_unchecked` -/
  | get (c : CompTy) (k : Nat)
  /-- `get_fuzzy_components_unchecked` -/
  | getFuzzy (g : Group) (k : Nat)
  /-- `get_slices_unchecked_exact` -/
  | slicesExact (g : Group)
  /-- `get_fuzzy_slices_unchecked` -/
  | slicesFuzzy (g : Group)
  /-- `get_entity_fuzzy_slices_unchecked` -/
  | slicesEntity (g : Group)

/-- Answers of these functions; `dropped` are the values whose destructors ran. -/
inductive RowAns
  | unit
  | index (n : Nat)
  | swapped (b : Bool)
  | dropped (vs : List Val)
  | swappedDropped (b : Bool) (vs : List Val)
  | removed (vs : List Val) (b : Bool)
  | values (vs : List Val)
  | slices (vs : List (List Val))
  | entSlices (es : List Entity) (vs : List (List Val))
  | ents (es : List Entity)
  | sizes (len cap : Nat) (full : Bool)
  /-- an archetype is dropped: the values whose destructors ran, and whether all memory is freed -/
  | gone (vs : List Val) (freed : Bool)
  deriving DecidableEq

namespace RowOp

/-- `g` is a valid group with exactly the types `cs`, in any order. -/
def Exact {env : Env} (W : World env) (cs : List CompTy) (g : Group) : Prop :=
  W.OkGroup g ∧ (g.descriptor env).isValid = true ∧ ∀ c, c ∈ g ↔ c ∈ cs

/-- `g` is a valid group with some of the types `cs`. -/
def Fuzzy {env : Env} (W : World env) (cs : List CompTy) (g : Group) : Prop :=
  W.OkGroup g ∧ (g.descriptor env).isValid = true ∧ ∀ c ∈ g, c ∈ cs

/-- The documented contracts. -/
def Legal {env : Env} (W : World env) (t : Rows) : RowOp → Prop
  | push _ g vals => Exact W t.types g ∧ TypedVals g vals ∧ t.CanPush
  | pushUninit => t.CanPush
  | decrement => 0 < t.rows.length
  | write c k v => c ∈ t.types ∧ k < t.rows.length ∧ v.HasTy c
  | writeRow k _ g vals => Exact W t.types g ∧ TypedVals g vals ∧ k < t.rows.length
  | setEntity k _ => k < t.rows.length
  | assign c k v => c ∈ t.types ∧ t.FullRow [c] k ∧ v.HasTy c
  | swap i j => i ≠ j ∧ t.HasEnt i ∧ t.HasEnt j
  | swapToLast k => t.HasEnt k ∧ t.HasEnt (t.rows.length - 1)
  | swapDrop k => t.FullRow t.types k ∧ t.HasEnt k ∧ t.HasEnt (t.rows.length - 1)
  | swapRemove g k => Exact W t.types g ∧ t.FullRow t.types k ∧ t.HasEnt k ∧ t.HasEnt (t.rows.length - 1)
  | moveOut c k => c ∈ t.types ∧ t.FullRow [c] k
  | dropRow k => t.FullRow t.types k
  | dropRows => t.FullTable t.types
  | size => True
  | entities => ∀ r ∈ t.rows, ∃ e, r.ent = some e
  | get c k => c ∈ t.types ∧ t.FullRow [c] k
  | getFuzzy g k => Fuzzy W t.types g ∧ t.FullRow g k
  | slicesExact g => Exact W t.types g ∧ t.FullTable g
  | slicesFuzzy g => Fuzzy W t.types g ∧ t.FullTable g
  | slicesEntity g => Fuzzy W t.types g ∧ t.FullTable g ∧ ∀ r ∈ t.rows, ∃ e, r.ent = some e

/-- Their effects and answers. -/
def apply (t : Rows) : RowOp → Rows × RowAns
  | push e g vals => (t.add ⟨some e, lookupTy g vals⟩, .index t.rows.length)
  | pushUninit => (t.add ⟨none, fun _ => none⟩, .index t.rows.length)
  | decrement => (t.pop, .unit)
  | write c k v => (t.edit k (fun r => r.put c v), .unit)
  | writeRow k e g vals => (t.edit k (fun _ => ⟨some e, lookupTy g vals⟩), .unit)
  | setEntity k e => (t.edit k (fun r => { r with ent := some e }), .unit)
  | assign c k v => (t.edit k (fun r => r.put c v), .dropped (t.tuple [c] k))
  | swap i j => (t.exchange i j, .unit)
  | swapToLast k => (t.exchange k (t.rows.length - 1), .swapped (k != t.rows.length - 1))
  | swapDrop k =>
    ((t.exchange k (t.rows.length - 1)).pop, .swappedDropped (k != t.rows.length - 1) (t.tuple t.types k))
  | swapRemove g k => ((t.exchange k (t.rows.length - 1)).pop, .removed (t.tuple g k) (k != t.rows.length - 1))
  | moveOut c k => (t.edit k (fun r => r.drop c), .values (t.tuple [c] k))
  | dropRow k => (t.edit k Row.clear, .dropped (t.tuple t.types k))
  | dropRows => ({ t with rows := t.rows.map Row.clear }, .dropped (t.types.map t.column).flatten)
  | size => (t, .sizes t.rows.length t.cap (t.rows.length == t.cap))
  | entities => (t, .ents t.handles)
  | get c k => (t, .values (t.tuple [c] k))
  | getFuzzy g k => (t, .values (t.tuple g k))
  | slicesExact g => (t, .slices (g.map t.column))
  | slicesFuzzy g => (t, .slices (g.map t.column))
  | slicesEntity g => (t, .entSlices t.handles (g.map t.column))

end RowOp

/-! ## Several archetypes -/

/-- Functions that create, drop and connect archetypes. -/
inductive StoreOp
  /-- `Archetype::with_capacity(G::DESCRIPTOR.archetype(), n)` -/
  | create (g : Group) (n : Nat)
  /-- a function of archetype `i` -/
  | on (i : Nat) (op : RowOp)
  /-- `copy_common_components_between_archetypes_unchecked(i, k, j, l)` -/
  | copy (i k j l : Nat)
  /-- dropping archetype `i` -/
  | drop (i : Nat)

namespace StoreOp

/-- The table of a new archetype: `types` are the types of the group in ascending order of ids. -/
def NewTable (g : Group) (n : Nat) (t : Rows) : Prop :=
  t.cap = n ∧ t.rows = [] ∧ t.types.Perm g ∧ t.types.Pairwise (fun a b => a.id < b.id)

/-- Row `l` of `d` with what it has in common with row `k` of `s`. -/
def received (s : Rows) (k : Nat) (d : Rows) (r : Row) : Row :=
  { r with val := fun c => if c ∈ s.types ∧ c ∈ d.types then s.cell c k else r.val c }

/-- Row `k` of `s` without what it has in common with `d`. -/
def given (s d : Rows) (r : Row) : Row :=
  { r with val := fun c => if c ∈ s.types ∧ c ∈ d.types then none else r.val c }

/-- A legal step of a store: the operation, the answer, and the tables before and after. -/
inductive Step {env : Env} (W : World env) : List Rows → StoreOp → RowAns → List Rows → Prop
  | create (ts : List Rows) (g : Group) (n : Nat) (t : Rows) : W.OkGroup g → (g.descriptor env).isValid = true →
      0 < n → n ≤ MAX_ENTITIES_PER_ARCHETYPE → NewTable g n t → Step W ts (.create g n) .unit (ts ++ [t])
  | on (ts : List Rows) (i : Nat) (t : Rows) (op : RowOp) : ts[i]? = some t → op.Legal W t →
      Step W ts (.on i op) (op.apply t).2 (ts.set i (op.apply t).1)
  | copy (ts : List Rows) (i k j l : Nat) (s d : Rows) : i ≠ j → ts[i]? = some s → ts[j]? = some d →
      k < s.rows.length → l < d.rows.length →
      Step W ts (.copy i k j l) .unit
        ((ts.set i (s.edit k (given s d))).set j (d.edit l (received s k d)))
  | drop (ts : List Rows) (i : Nat) (t : Rows) : ts[i]? = some t → t.FullTable t.types →
      Step W ts (.drop i) (.gone (t.types.map t.column).flatten true) (ts.eraseIdx i)

/-- A history of legal steps, with the answers. -/
inductive Steps {env : Env} (W : World env) : List Rows → List StoreOp → List RowAns → List Rows → Prop
  | nil (ts : List Rows) : Steps W ts [] [] ts
  | cons {ts ts' ts'' : List Rows} {op : StoreOp} {x : RowAns} {ops : List StoreOp} {xs : List RowAns} :
      Step W ts op x ts' → Steps W ts' ops xs ts'' → Steps W ts (op :: ops) (x :: xs) ts''

end StoreOp

/-! ## The functions of the code -/

/-- Call the modelled function. -/
def RowOp.run (env : Env) (a : Archetype) : RowOp → M (Archetype × RowAns)
  | push e g vals => do
    let x ← a.pushEntityUnchecked env e g vals
    return (x.1, .index x.2)
  | pushUninit => do
    let x ← a.pushUninitializedEntity env
    return (x.1, .index x.2)
  | decrement => do
    let a ← a.decrementLenUnchecked env
    return (a, .unit)
  | write c k v => do
    let a ← a.writeSingleComponentUnchecked c k v
    return (a, .unit)
  | writeRow k e g vals => do
    let a ← a.writeEntityUnchecked env k e g vals
    return (a, .unit)
  | setEntity k e => do
    let a ← a.setEntityAt k e
    return (a, .unit)
  | assign c k v => do
    let r ← a.getComponentUncheckedMut c k
    let old ← a.readRef c r
    let a ← a.writeRef c r v
    return (a, .dropped [old])
  | swap i j => do
    let a ← a.swapEntities i j
    return (a, .unit)
  | swapToLast k => do
    let x ← a.swapToLastUnchecked env k
    return (x.1, .swapped x.2)
  | swapDrop k => do
    let x ← a.swapDropUnchecked env k
    return (x.1, .swappedDropped x.2.1 x.2.2)
  | swapRemove g k => do
    let x ← a.swapRemoveUnchecked env g k
    return (x.1, .removed x.2.1 x.2.2)
  | moveOut c k => do
    let v ← a.readComponentUnchecked c k
    return (a, .values [v])
  | dropRow k => do
    let vs ← a.dropEntity k
    return (a, .dropped vs)
  | dropRows => do
    let vs ← a.dropEntities
    return (a, .dropped vs)
  | size => .ok (a, .sizes a.entityCount a.capacity a.isFull)
  | entities => do
    let es ← a.entities
    return (a, .ents es)
  | get c k => do
    let v ← a.getComponentUnchecked c k
    return (a, .values [v])
  | getFuzzy g k => do
    let vs ← a.getFuzzyComponentsUnchecked env g k
    return (a, .values vs)
  | slicesExact g => do
    let vs ← a.getSlicesUncheckedExact env g
    return (a, .slices vs)
  | slicesFuzzy g => do
    let vs ← a.getFuzzySlicesUnchecked env g
    return (a, .slices vs)
  | slicesEntity g => do
    let x ← a.getEntityFuzzySlicesUnchecked env g
    return (a, .entSlices x.1 x.2)

/-- No block of memory is left in the archetype. -/
def Archetype.freed (a : Archetype) : Bool := a.pointers.all (fun p => p.isNone) && a.entityAssociations.isNone

/-- Call the modelled function on a list of archetypes. -/
def StoreOp.run (env : Env) (as : List Archetype) : StoreOp → M (List Archetype × RowAns)
  | create g n => do
    let a ← Archetype.withCapacity env (g.descriptor env).archetype n
    return (as ++ [a], .unit)
  | on i op => do
    let a ← index as i
    let x ← op.run env a
    return (as.set i x.1, x.2)
  | copy i k j l => do
    let s ← index as i
    let d ← index as j
    let d ← Archetype.copyCommonComponents s k d l
    return (as.set j d, .unit)
  | drop i => do
    let a ← index as i
    let x ← a.drop
    return (as.eraseIdx i, .gone x.1 x.2.freed)

/-- A sequence of calls, with the answers. -/
def StoreOp.runAll (env : Env) : List Archetype → List StoreOp → M (List Archetype × List RowAns)
  | as, [] => .ok (as, [])
  | as, op :: ops => do
    let x ← op.run env as
    let y ← runAll env x.1 ops
    return (y.1, x.2 :: y.2)

end Shard
