import Verif.Spec.Iter
import Verif.Spec.Hash
/-!
# A reference registry

A small executable registry with the same observable behaviour, without bytes, pointers, capacities, sorted indices or
back references: tables are lists of rows, an entity is found by searching for its handle, slots are a list of versions
and a stack. It fixes everything the real registry leaves open as far as the abstract map is concerned: which handle is
given out, in which order the entities of an archetype lie, in which order archetypes are visited, in which order values
are dropped, and which calls fault.
-/

set_option autoImplicit false

namespace Shard

/-- A table: its component types in ascending order of their ids, its archetype id, and the rows. A row is a handle and
the values in the order of the types. -/
structure RTable where
  cts : List CompTy
  id : UInt32
  rows : List (Entity × List Val)
  deriving DecidableEq

/-- The reference registry: the versions of all slots, the stack of free slots, the tables. -/
structure RReg where
  versions : List UInt8
  free : List Nat
  tables : List RTable
  deriving DecidableEq

/-! ## Component types -/

/-- Insert a type by its id. -/
def insertTy (c : CompTy) : List CompTy → List CompTy
  | [] => [c]
  | d :: l => if c.id < d.id then c :: d :: l else d :: insertTy c l

/-- The types of a group in ascending order of their ids. -/
def sortTys (g : Group) : List CompTy := g.foldr insertTy []

/-- The ids of a list of types. -/
def tyIds (cts : List CompTy) : List UInt16 := cts.map (fun c => c.id)

/-- The value of a type in a list of values parallel to a list of types (an arbitrary one if there is none). -/
def valOf (cts : List CompTy) (vals : List Val) (c : CompTy) : Val := (lookupTy cts vals c).getD ⟨0, []⟩

/-- Overwrite the value of one type in a row. -/
def setTy (cts : List CompTy) (vals : List Val) (c : CompTy) (v : Val) : List Val :=
  List.zipWith (fun c' w => if c' = c then v else w) cts vals

/-- The archetype id of a table made for a created entity. -/
def createdId (env : Env) (cts : List CompTy) : UInt32 := UInt32.ofNat (Spec.groupId env.bigEndian (tyIds cts))

/-- The archetype id of a table made for an entity that was given or lost a component. -/
def changedId (env : Env) (cts : List CompTy) : UInt32 := UInt32.ofNat (Spec.movedId env.bigEndian (tyIds cts))

/-! ## Tables -/

/-- The position of the table for `n` types with a given archetype id. -/
def tableIndex : List RTable → Nat → UInt32 → Option Nat
  | [], _, _ => none
  | t :: ts, n, id => if t.cts.length = n ∧ t.id = id then some 0 else (tableIndex ts n id).map (· + 1)

/-- Find a table or append an empty one: no table has the reserved id, and there are at most 65,534 tables. -/
def internTable (ts : List RTable) (cts : List CompTy) (id : UInt32) : List RTable × Option Nat :=
  if id = 4294967295 then (ts, none)
  else match tableIndex ts cts.length id with
    | some i => (ts, some i)
    | none => if ts.length < 65534 then (ts ++ [⟨cts, id, []⟩], some ts.length) else (ts, none)

/-- The row of a handle in a table. -/
def findRow : List (Entity × List Val) → Entity → Option (Nat × List Val)
  | [], _ => none
  | x :: xs, e => if x.1 = e then some (0, x.2) else (findRow xs e).map (fun p => (p.1 + 1, p.2))

/-- Where a handle is: position of the table, position of the row, the table, the values. -/
def findEntity : List RTable → Entity → Option (Nat × Nat × RTable × List Val)
  | [], _ => none
  | t :: ts, e =>
    match findRow t.rows e with
    | some (k, vals) => some (0, k, t, vals)
    | none => (findEntity ts e).map (fun p => (p.1 + 1, p.2))

/-- Change the rows of one table. -/
def onRows (ts : List RTable) (i : Nat) (f : List (Entity × List Val) → List (Entity × List Val)) : List RTable :=
  ts.modify i (fun t => { t with rows := f t.rows })

/-- Remove the element at position `k`; the last element takes its place. -/
def swapRemove {α : Type} (l : List α) (k : Nat) : List α :=
  match l.getLast? with
  | some x => (l.set k x).dropLast
  | none => []

/-- The number of rows of a table. -/
def rowCount (ts : List RTable) (i : Nat) : Nat :=
  match ts[i]? with
  | some t => t.rows.length
  | none => 0

/-! ## Iteration -/

/-- The order in which tables are visited: by the number of types, then by the archetype id. -/
def RTable.before (t t' : RTable) : Bool := t.cts.length < t'.cts.length || (t.cts.length == t'.cts.length && t.id < t'.id)

/-- Insert a table into the list of tables to be visited. -/
def insertTable (x : RTable × Nat) : List (RTable × Nat) → List (RTable × Nat)
  | [] => [x]
  | y :: l => if x.1.before y.1 then x :: y :: l else y :: insertTable x l

/-- All tables, with their positions, in the order in which they are visited. -/
def visitOrder (ts : List RTable) : List (RTable × Nat) := ts.zipIdx.foldr insertTable []

/-- What a filter sees of a table. -/
def RTable.desc (t : RTable) : ArchetypeDescriptor := ⟨t.id, t.cts.map CompTy.descriptor, t.cts.length⟩

/-- A filter that looks at the id, the number and the slice of components of a descriptor only (all that the public
functions of a descriptor show). -/
def Observing (f : ArchetypeDescriptor → Bool) : Prop :=
  ∀ d d' : ArchetypeDescriptor, d.archetypeId = d'.archetypeId → d.len = d'.len → d.components = d'.components → f d = f d'

/-- The filter of an iterator (if it takes one) is such a filter. -/
def MutIter.Observing : MutIter → Prop
  | .filtered f => Shard.Observing f
  | .entityFiltered f => Shard.Observing f
  | _ => True

/-- The filter of a call (if it takes one) is such a filter. -/
def Call.Observing : Call → Prop
  | .writeIter it _ _ _ _ _ => it.Observing
  | _ => True

/-- The tables, with their positions, that have all types of a group and pass a filter, in the order of the visit. -/
def visits (ts : List RTable) (g : Group) (f : ArchetypeDescriptor → Bool) : List (RTable × Nat) :=
  (visitOrder ts).filter (fun x => g.all (fun c => decide (c ∈ x.1.cts)) && f x.1.desc)

/-- The table of the entities created with exactly the group (if it has been created). -/
def exactIndex (env : Env) (ts : List RTable) (g : Group) : Option Nat :=
  tableIndex ts g.length (createdId env (sortTys g))

/-- The values of one type in a table, row by row. -/
def RTable.column (t : RTable) (c : CompTy) : List Val := t.rows.map (fun x => valOf t.cts x.2 c)

/-- The positions of the tables a mutable iterator visits. -/
def iterTables (env : Env) (ts : List RTable) (g : Group) : MutIter → List Nat
  | .matching => (visits ts g (fun _ => true)).map Prod.snd
  | .entityMatching => (visits ts g (fun _ => true)).map Prod.snd
  | .filtered f => (visits ts g f).map Prod.snd
  | .entityFiltered f => (visits ts g f).map Prod.snd
  | .exact => (exactIndex env ts g).toList
  | .entityExact => (exactIndex env ts g).toList

namespace RReg

/-- The empty registry. -/
def empty : RReg := ⟨[], [], []⟩

/-! ## Slots -/

/-- The handle for the slot `i`. -/
def handle (R : RReg) (i : Nat) : Entity := Entity.newUnchecked (UInt32.ofNat i) (R.versions[i]?.getD 0)

/-- The handle that is given out next. -/
def next (R : RReg) : Entity := R.handle (R.free.headD R.versions.length)

/-- The registry after that handle was given out. -/
def alloc (R : RReg) : RReg :=
  match R.free with
  | [] => { R with versions := R.versions ++ [0] }
  | _ :: rest => { R with free := rest }

/-- The registry after the handle `e` was retired. -/
def retire (R : RReg) (e : Entity) : RReg :=
  { R with versions := R.versions.set e.index.toNat (e.version + 1), free := e.index.toNat :: R.free }

/-! ## Calls -/

/-- Overwrite the `c` in row `k` of table `i`. -/
def store (R : RReg) (i k : Nat) (t : RTable) (x : Entity × List Val) (c : CompTy) (v : Val) : RReg :=
  { R with tables := onRows R.tables i (fun rows => rows.set k (x.1, setTy t.cts x.2 c v)) }

/-- A call that stores `v` and does not succeed hands the value back. -/
def refuse (R : RReg) (v : Val) : Except Fault (RReg × Outcome) :=
  .ok (R, { success := false, given := [v], returned := [v] })

/-- A call: the new registry and the outcome, or the fault it ends with. -/
def step (env : Env) (R : RReg) : Call → Except Fault (RReg × Outcome)
  | .create g vals =>
    if 1 ≤ g.length ∧ g.length ≤ 14 ∧ (tyIds g).Nodup then
      match internTable R.tables (sortTys g) (createdId env (sortTys g)) with
      | (_, none) => .ok (R, { success := false, given := vals, returned := vals })
      | (ts, some i) =>
        if R.versions.length < 16777215 then
          if rowCount ts i < 8388608 then
            let row := (R.next, (sortTys g).map (fun c => valOf g vals c))
            .ok ({ R.alloc with tables := onRows ts i (· ++ [row]) },
              { success := true, created := some R.next, given := vals })
          else .error (if env.debug then .panic .debugAssert else .ub .nullDeref)
        else .ok ({ R with tables := ts }, { success := false, given := vals, returned := vals })
    else .ok (R, { success := false, given := vals, returned := vals })
  | .destroy e =>
    match findEntity R.tables e with
    | none => .ok (R, { success := false })
    | some (i, k, _, vals) =>
      .ok ({ R.retire e with tables := onRows R.tables i (swapRemove · k) },
        { success := true, vacated := some e, dropped := vals })
  | .removeEntity g e =>
    match findEntity R.tables e with
    | none => .ok (R, { success := false })
    | some (i, k, t, vals) =>
      .ok ({ R.retire e with tables := onRows R.tables i (swapRemove · k) },
        { success := true, vacated := some e, returned := g.map (fun c => valOf t.cts vals c) })
  | .add e c v =>
    match findEntity R.tables e with
    | none => R.refuse v
    | some (i, k, t, vals) =>
      if c ∈ t.cts ∨ t.cts.length = 14 then R.refuse v
      else if t.cts.length = 13 then .error (.panic .indexOutOfBounds)
      else
        let cts := insertTy c t.cts
        match internTable R.tables cts (changedId env cts) with
        | (_, none) => R.refuse v
        | (ts, some d) =>
          if rowCount ts d < 8388608 then
            let row := (e, cts.map (fun c' => if c' = c then v else valOf t.cts vals c'))
            .ok ({ R with tables := onRows (onRows ts i (swapRemove · k)) d (· ++ [row]) },
              { success := true, given := [v] })
          else .error (.ub .nullDeref)
  | .remove e c =>
    match findEntity R.tables e with
    | none => .ok (R, { success := false })
    | some (i, k, t, vals) =>
      if c ∉ t.cts ∨ t.cts.length = 1 then .ok (R, { success := false })
      else if t.cts.length = 14 then .error (.panic .indexOutOfBounds)
      else
        let cts := t.cts.erase c
        match internTable R.tables cts (changedId env cts) with
        | (_, none) => .ok (R, { success := false })
        | (ts, some d) =>
          if rowCount ts d < 8388608 then
            let row := (e, cts.map (fun c' => valOf t.cts vals c'))
            .ok ({ R with tables := onRows (onRows ts i (swapRemove · k)) d (· ++ [row]) },
              { success := true, returned := [valOf t.cts vals c] })
          else .error (.ub .nullDeref)
  | .write e c v =>
    match findEntity R.tables e with
    | none => R.refuse v
    | some (i, k, t, vals) =>
      match lookupTy t.cts vals c with
      | none => R.refuse v
      | some old => .ok (R.store i k t (e, vals) c v, { success := true, given := [v], returned := [old] })
  | .writeIn g e j v =>
    match findEntity R.tables e with
    | none => R.refuse v
    | some (i, k, t, vals) =>
      if g.all (fun c => decide (c ∈ t.cts)) then
        match g[j]? with
        | none => R.refuse v
        | some c => .ok (R.store i k t (e, vals) c v,
            { success := true, given := [v], returned := [valOf t.cts vals c] })
      else R.refuse v
  | .writeIter it g n j k v =>
    match (iterTables env R.tables g it)[n]? with
    | none => R.refuse v
    | some i =>
      match R.tables[i]?, g[j]? with
      | some t, some c =>
        match t.rows[k]? with
        | none => R.refuse v
        | some x => .ok (R.store i k t x c v,
            { success := true, given := [v], returned := [valOf t.cts x.2 c] })
      | _, _ => R.refuse v

/-- A sequence of calls: the outcomes, and the registry in the end or the fault of the last call. -/
def run (env : Env) : RReg → List Call → List Outcome × Except Fault RReg
  | R, [] => ([], .ok R)
  | R, c :: rest =>
    match R.step env c with
    | .error f => ([], .error f)
    | .ok (R', out) => (out :: (run env R' rest).1, (run env R' rest).2)

/-! ## Queries -/

/-- The live handles, in the order of their slots. -/
def entities (R : RReg) : List Entity :=
  ((List.range R.versions.length).filter (fun i => decide (i ∉ R.free))).map R.handle

/-- `get_component`. -/
def get (R : RReg) (c : CompTy) (e : Entity) : Option Val :=
  match findEntity R.tables e with
  | some (_, _, t, vals) => lookupTy t.cts vals c
  | none => none

/-- `get_components`. -/
def gets (R : RReg) (g : Group) (e : Entity) : Option (List Val) :=
  match findEntity R.tables e with
  | some (_, _, t, vals) =>
    if g.all (fun c => decide (c ∈ t.cts)) then some (g.map (fun c => valOf t.cts vals c)) else none
  | none => none

/-- The items of the iterators over matching tables: position, entities, columns. -/
def matching (R : RReg) (g : Group) (f : ArchetypeDescriptor → Bool) : List (Nat × List Entity × List (List Val)) :=
  (visits R.tables g f).map (fun x => (x.2, x.1.rows.map Prod.fst, g.map x.1.column))

/-- What the iterators over the exact table show: entities, columns. -/
def exactly (env : Env) (R : RReg) (g : Group) : List Entity × List (List Val) :=
  match (exactIndex env R.tables g).bind (fun i => R.tables[i]?) with
  | some t => (t.rows.map Prod.fst, g.map t.column)
  | none => ([], g.map (fun _ => []))

/-- All values, in the order in which dropping the registry drops them: table by table, column by column. -/
def all (R : RReg) : List Val := R.tables.flatMap (fun t => t.cts.flatMap t.column)

end RReg

/-! ## The real registry -/

/-- A sequence of calls on the real registry: the outcomes, and the registry in the end or the fault of the last call. -/
def runAll (env : Env) : Registry → List Call → List Outcome × M Registry
  | r, [] => ([], .ok r)
  | r, c :: rest =>
    match c.run env r with
    | .error f => ([], .error f)
    | .ok (r', out) => (out :: (runAll env r' rest).1, (runAll env r' rest).2)

/-- Every call satisfies the assumptions on calls where it is made. -/
def OkRun {env : Env} (W : World env) : Registry → List Call → Prop
  | _, [] => True
  | r, c :: rest =>
    c.Disciplined W r ∧ c.Observing ∧ ∀ r' out, c.run env r = .ok (r', out) → OkRun W r' rest

/-- The real registry answers every query as the reference does. -/
structure SameAnswers {env : Env} (W : World env) (r : Registry) (R : RReg) : Prop where
  entities : r.iterEntities env = R.entities
  get : ∀ c e, W.Has c → r.getComponent env c e = .ok (R.get c e) ∧ r.hasComponent env c e = .ok (R.get c e).isSome
  gets : ∀ g e, (∀ c ∈ g, W.Has c) → (g.descriptor env).isValid = true →
    r.getComponents env g e = .ok (R.gets g e) ∧ r.hasComponents env g e = .ok (R.gets g e).isSome
  filtered : ∀ g f, (∀ c ∈ g, W.Has c) → (g.descriptor env).isValid = true → Observing f →
    r.iterFilteredEntityComponentsMatching env g f = .ok (R.matching g f) ∧
    r.iterFilteredComponentsMatching env g f = .ok ((R.matching g f).map (fun x => (x.1, x.2.2))) ∧
    (∃ items, r.iterFilteredEntityComponentsMatchingMut env g f = .ok items ∧
      items.map (fun x => (x.1, x.2.1, x.2.2.map SliceRef.len)) =
        (R.matching g f).map (fun x => (x.1, x.2.1, x.2.2.map List.length))) ∧
    (∃ items, r.iterFilteredComponentsMatchingMut env g f = .ok items ∧
      items.map (fun x => (x.1, x.2.map SliceRef.len)) = (R.matching g f).map (fun x => (x.1, x.2.2.map List.length)))
  matching : ∀ g, (∀ c ∈ g, W.Has c) → (g.descriptor env).isValid = true →
    r.iterEntityComponentsMatching env g = .ok (R.matching g (fun _ => true)) ∧
    r.iterComponentsMatching env g = .ok ((R.matching g (fun _ => true)).map (fun x => (x.1, x.2.2))) ∧
    (∃ items, r.iterEntityComponentsMatchingMut env g = .ok items ∧
      items.map (fun x => (x.1, x.2.1, x.2.2.map SliceRef.len)) =
        (R.matching g (fun _ => true)).map (fun x => (x.1, x.2.1, x.2.2.map List.length))) ∧
    (∃ items, r.iterComponentsMatchingMut env g = .ok items ∧
      items.map (fun x => (x.1, x.2.map SliceRef.len)) =
        (R.matching g (fun _ => true)).map (fun x => (x.1, x.2.2.map List.length)))
  exactly : ∀ g, W.OkGroup g → (g.descriptor env).isValid = true →
    r.iterEntityComponentsExact env g = .ok (R.exactly env g) ∧
    r.iterComponentsExact env g = .ok (R.exactly env g).2 ∧
    ∃ o, r.iterEntityComponentsExactMut env g = .ok o ∧
      r.iterComponentsExactMut env g = .ok (o.map (fun x => (x.1, x.2.2))) ∧
      o.map (fun x => (x.1, x.2.1, x.2.2.map SliceRef.len)) = (exactIndex env R.tables g).map (fun i =>
        (i, (R.exactly env g).1, (R.exactly env g).2.map List.length))
  drop : ∃ left, r.drop = .ok (R.all, left)

/-- Two ways to end: with the same fault, or with registries that answer alike. -/
def SameEnd {env : Env} (W : World env) (x : M Registry) (y : Except Fault RReg) : Prop :=
  match x, y with
  | .error f, .error f' => f = f'
  | .ok r, .ok R => SameAnswers W r R
  | _, _ => False

/-- Faults of the two builds: the same, or the fault at a full archetype. -/
def FaultLike (f f' : Fault) : Prop :=
  f = f' ∨ (f = .panic .debugAssert ∨ f = .ub .nullDeref) ∧ (f' = .panic .debugAssert ∨ f' = .ub .nullDeref)

end Shard
