import Verif.Model.Memory
import Verif.Model.Entity
/-!
# `src/archetype/{mod,data_access}.rs`

`pointers` is a list of 14 nullable blocks, `entity_associations` a nullable list of (possibly uninitialised) entities.
`usize`/`isize` have 64 bits, so the offset computations `size * index` (below `2^16 * 2^32`) do not overflow.
`entity_count` and `capacity` are natural numbers; `- 1` on them goes through `subU32`, and the additions stay far
below `2^32` because every successful push needs `capacity < 2^24` rows of memory.

Operations that take `&mut self` return the new state. Operations that drop component values also return the list
of the values they dropped.
-/

namespace Shard

/-- `archetype/mod.rs:12-18` `Archetype`. -/
structure Archetype where
  descriptor : ArchetypeDescriptor
  pointers : List (Option Block)
  entityAssociations : Option (List (Option Entity))
  entityCount : Nat
  capacity : Nat
  deriving DecidableEq, Repr

/-- A raw pointer into the memory of one archetype: byte offset `off` from `pointers[col]`. -/
structure Ref where
  col : Nat
  off : Nat
  deriving DecidableEq, Repr

/-- A slice of `len` elements of type `cty` in the memory of one archetype, starting at `base`. -/
structure SliceRef where
  cty : CompTy
  base : Ref
  len : Nat
  deriving DecidableEq, Repr

namespace Archetype

/-- `archetype/mod.rs:59-66`: the allocation loop of `with_capacity`. -/
def allocColumns (env : Env) (d : ArchetypeDescriptor) (capacity : Nat) (pointers : List (Option Block)) :
    M (List (Option Block)) :=
  forRange 0 d.components.length (fun i ptrs => do
    let c ← index d.components i
    let b ← allocBlock env (c.size * capacity) c.align
    setIndex ptrs i (some b)) pointers

/-- `archetype/mod.rs:40-71` `with_capacity`. -/
def withCapacity (env : Env) (d : ArchetypeDescriptor) (capacity : Nat) : M Archetype := do
  ensure d.isValid (.panic .assertFailed)
  let a : Archetype := ⟨d, List.replicate MAX_COMPONENTS_PER_ENTITY none, none, 0, 0⟩
  if capacity > 0 ∧ capacity ≤ MAX_ENTITIES_PER_ARCHETYPE then
    let ptrs ← allocColumns env d capacity a.pointers
    return { a with entityAssociations := some (List.replicate capacity none), pointers := ptrs, capacity := capacity }
  else
    return a

/-- `archetype/mod.rs:27-33` `new`. -/
def new (env : Env) (d : ArchetypeDescriptor) : M Archetype := do
  ensure d.isValid (.panic .assertFailed)
  withCapacity env d DEFAULT_ARCHETYPE_ALLOCATION_SIZE

/-! ## References -/

/-- Read a value of type `c` through a raw pointer (`&*ptr` or `ptr::read`). -/
def readRef (a : Archetype) (c : CompTy) (r : Ref) : M Val := do
  let p ← index a.pointers r.col
  readVal p c.ty c.size c.align r.off

/-- Write a value of type `c` through a raw pointer (`ptr::write`, or the store part of `*reference = value`). -/
def writeRef (a : Archetype) (c : CompTy) (r : Ref) (v : Val) : M Archetype := do
  let p ← index a.pointers r.col
  checkAligned p c.align r.off
  let b ← writeBytes p r.off v.encode
  return { a with pointers := a.pointers.set r.col (some b) }

/-- Dereference a nullable raw pointer. -/
def derefPtr (a : Archetype) (c : CompTy) (p : Option Ref) : M Val :=
  match p with
  | none => .error (.ub .nullDeref)
  | some r => a.readRef c r

/-- `data_access.rs:15-22`, `30-37`, `71-80`, `250-260`: the column of `C` found by binary search, and the pointer
`(self.pointers[idx] as *mut C).offset(index)`; `unreachable!()` if absent. -/
def componentRef (a : Archetype) (c : CompTy) (index : Nat) : M Ref :=
  match binarySearchByKey a.descriptor.components c.id.toNat (fun e => e.id.toNat) with
  | .found idx => .ok ⟨idx, c.size * index⟩
  | .insertAt _ => .error (.panic .unreachable)

/-- `data_access.rs:14-23` `get_component_unchecked`: the value behind the returned reference. -/
def getComponentUnchecked (a : Archetype) (c : CompTy) (index : Nat) : M Val := do
  let r ← a.componentRef c index
  a.readRef c r

/-- `data_access.rs:29-38` `get_component_unchecked_mut`: the returned reference. Forming `&mut C` requires a valid
value behind the pointer. -/
def getComponentUncheckedMut (a : Archetype) (c : CompTy) (index : Nat) : M Ref := do
  let r ← a.componentRef c index
  let _ ← a.readRef c r
  return r

/-- `data_access.rs:70-81` `read_component_unchecked`. -/
def readComponentUnchecked (a : Archetype) (c : CompTy) (index : Nat) : M Val := do
  let r ← a.componentRef c index
  a.readRef c r

/-- `data_access.rs:245-261` `write_single_component_unchecked`. -/
def writeSingleComponentUnchecked (a : Archetype) (c : CompTy) (index : Nat) (v : Val) : M Archetype := do
  let r ← a.componentRef c index
  a.writeRef c r v

/-! ## Fuzzy access -/

/-- `data_access.rs:550-565`: the `'inner_loop`, from `check_index`, `n` iterations left. -/
def fuzzyFind (a : Archetype) (id : UInt16) : (n check : Nat) → Option Nat
  | 0, _ => none
  | n + 1, check =>
    if (a.descriptor.comps.getD check ComponentDescriptor.INVALID).id = id then some check
    else fuzzyFind a id n (check + 1)

/-- `data_access.rs:544-568` `get_fuzzy_pointers_unchecked`: 14 nullable pointers. -/
def getFuzzyPointersUnchecked (env : Env) (a : Archetype) (g : Group) (offset : Nat) : List (Option Ref) :=
  (List.range MAX_COMPONENTS_PER_ENTITY).map (fun i =>
    match (g.descriptor env).archetype.components[i]? with
    | none => none
    | some d =>
      match a.fuzzyFind d.id (a.descriptor.len - i) i with
      | none => none
      | some k => some ⟨k, d.size * offset⟩)

/-- `component_group.rs:99-103`, `167-173` `pointers_as_ref_tuple` (and the `mut` version `105-109`, `175-181`):
the pointers of the tuple's components, in tuple order. -/
def tuplePointers (env : Env) (g : Group) (ptrs : List (Option Ref)) : List (CompTy × Option Ref) :=
  g.mapIdx (fun i c => (c, ptrs.getD (g.slot env i) none))

/-- Dereference the pointers of a tuple, in tuple order. -/
def derefTuple (a : Archetype) : List (CompTy × Option Ref) → M (List Val)
  | [] => .ok []
  | (c, p) :: rest => do
    let v ← a.derefPtr c p
    let vs ← derefTuple a rest
    return v :: vs

/-- `data_access.rs:44-51` `get_fuzzy_components_unchecked`: the values behind the returned references. -/
def getFuzzyComponentsUnchecked (env : Env) (a : Archetype) (g : Group) (index : Nat) : M (List Val) := do
  debugAssert env (g.descriptor env).isValid
  a.derefTuple (tuplePointers env g (a.getFuzzyPointersUnchecked env g index))

/-- `data_access.rs:57-64` `get_fuzzy_components_unchecked_mut`: the returned references. Forming them requires valid
values behind the pointers. -/
def getFuzzyComponentsUncheckedMut (env : Env) (a : Archetype) (g : Group) (index : Nat) :
    M (List (CompTy × Option Ref)) := do
  debugAssert env (g.descriptor env).isValid
  let refs := tuplePointers env g (a.getFuzzyPointersUnchecked env g index)
  let _ ← a.derefTuple refs
  return refs

/-! ## Slices -/

/-- `component_group.rs:111-116`, `183-190` `slice_unchecked` (and `slice_unchecked_mut` `118-123`, `192-199`):
the tuple of slices formed from sorted pointers. -/
def sliceTuple (env : Env) (g : Group) (ptrs : List (Option Ref)) (len : Nat) : M (List SliceRef) :=
  (tuplePointers env g ptrs).mapM (fun cp =>
    match cp.2 with
    | none => .error (.ub .nullDeref)
    | some r => .ok ⟨cp.1, r, len⟩)

/-- Read all elements of a slice. -/
def readSliceRef (a : Archetype) (s : SliceRef) : M (List Val) := do
  let p ← index a.pointers s.base.col
  readSlice p s.cty.ty s.cty.size s.cty.align s.base.off s.len

/-- `self.pointers` as an array of nullable pointers. -/
def basePointers (a : Archetype) : List (Option Ref) :=
  a.pointers.mapIdx (fun i p => p.map (fun _ => ⟨i, 0⟩))

/-- `data_access.rs:88-97` `get_slices_unchecked_exact_mut`: the returned slices (valid values are required behind
them). -/
def getSlicesUncheckedExactMut (env : Env) (a : Archetype) (g : Group) : M (List SliceRef) := do
  debugAssert env ((g.descriptor env).archetype.archetypeId == a.descriptor.archetypeId)
  let s ← sliceTuple env g a.basePointers a.entityCount
  let _ ← s.mapM a.readSliceRef
  return s

/-- `data_access.rs:104-113` `get_slices_unchecked_exact`: the contents of the returned slices. -/
def getSlicesUncheckedExact (env : Env) (a : Archetype) (g : Group) : M (List (List Val)) := do
  debugAssert env ((g.descriptor env).archetype.archetypeId == a.descriptor.archetypeId)
  let s ← sliceTuple env g a.basePointers a.entityCount
  s.mapM a.readSliceRef

/-- `data_access.rs:120-126` `get_fuzzy_slices_unchecked`: the contents of the returned slices. -/
def getFuzzySlicesUnchecked (env : Env) (a : Archetype) (g : Group) : M (List (List Val)) := do
  debugAssert env (g.descriptor env).isValid
  let s ← sliceTuple env g (a.getFuzzyPointersUnchecked env g 0) a.entityCount
  s.mapM a.readSliceRef

/-- `data_access.rs:133-139` `get_fuzzy_slices_unchecked_mut`: the returned slices. -/
def getFuzzySlicesUncheckedMut (env : Env) (a : Archetype) (g : Group) : M (List SliceRef) := do
  debugAssert env (g.descriptor env).isValid
  let s ← sliceTuple env g (a.getFuzzyPointersUnchecked env g 0) a.entityCount
  let _ ← s.mapM a.readSliceRef
  return s

/-! ## Entity associations -/

/-- `data_access.rs:193-195` `entities`: the slice as a list of (possibly uninitialised) elements. -/
def entitiesRaw (a : Archetype) : M (List (Option Entity)) :=
  match a.entityAssociations with
  | none => .error (.ub .nullDeref)
  | some l => if a.entityCount ≤ l.length then .ok (l.take a.entityCount) else .error (.ub .outOfBounds)

/-- Reading one element of the entity slice. -/
def initEntity (o : Option Entity) : M Entity :=
  match o with
  | none => .error (.ub .uninit)
  | some e => .ok e

/-- `data_access.rs:193-195` `entities`, all elements read. -/
def entities (a : Archetype) : M (List Entity) := do
  let l ← a.entitiesRaw
  l.mapM initEntity

/-- `self.entities()[i]`. -/
def entityAt (a : Archetype) (i : Nat) : M Entity := do
  let l ← a.entitiesRaw
  let o ← index l i
  initEntity o

/-- `*self.entities().get_unchecked(i)`. -/
def entityAtUnchecked (a : Archetype) (i : Nat) : M Entity := do
  let l ← a.entitiesRaw
  let o ← indexUnchecked l i
  initEntity o

/-- `data_access.rs:198-200` `self.entities_mut()[i] = e`. -/
def setEntityAt (a : Archetype) (i : Nat) (e : Entity) : M Archetype :=
  match a.entityAssociations with
  | none => .error (.ub .nullDeref)
  | some l =>
    if a.entityCount ≤ l.length then
      if i < a.entityCount then .ok { a with entityAssociations := some (l.set i (some e)) }
      else .error (.panic .indexOutOfBounds)
    else .error (.ub .outOfBounds)

/-- `data_access.rs:198-200` `self.entities_mut().swap(i, j)`. -/
def swapEntityAt (a : Archetype) (i j : Nat) : M Archetype :=
  match a.entityAssociations with
  | none => .error (.ub .nullDeref)
  | some l =>
    if a.entityCount ≤ l.length then
      if i < a.entityCount ∧ j < a.entityCount then
        .ok { a with entityAssociations := some ((l.set i (l.getD j none)).set j (l.getD i none)) }
      else .error (.panic .indexOutOfBounds)
    else .error (.ub .outOfBounds)

/-- `data_access.rs:147-156` `get_entity_fuzzy_slices_unchecked`. -/
def getEntityFuzzySlicesUnchecked (env : Env) (a : Archetype) (g : Group) : M (List Entity × List (List Val)) := do
  debugAssert env (g.descriptor env).isValid
  let es ← a.entities
  let s ← sliceTuple env g (a.getFuzzyPointersUnchecked env g 0) a.entityCount
  let vs ← s.mapM a.readSliceRef
  return (es, vs)

/-- `data_access.rs:164-173` `get_entity_fuzzy_slices_unchecked_mut`. -/
def getEntityFuzzySlicesUncheckedMut (env : Env) (a : Archetype) (g : Group) : M (List Entity × List SliceRef) := do
  debugAssert env (g.descriptor env).isValid
  let es ← a.entities
  let s ← sliceTuple env g (a.getFuzzyPointersUnchecked env g 0) a.entityCount
  let _ ← s.mapM a.readSliceRef
  return (es, s)

/-! ## Capacity -/

/-- `data_access.rs:188-190` `is_full`. -/
def isFull (a : Archetype) : Bool := a.entityCount == a.capacity

/-- `data_access.rs:462-476`: the loop of `dealloc` from column `i`, `n` left. The second component tells whether a
null pointer made the function return early. -/
def deallocLoop (a : Archetype) : (n i : Nat) → List (Option Block) → M (List (Option Block) × Bool)
  | 0, _, ptrs => .ok (ptrs, false)
  | n + 1, i, ptrs => do
    let p ← index ptrs i
    match p with
    | none => return (ptrs, true)
    | some _ =>
      let c ← index a.descriptor.components i
      deallocBlock p (c.size * a.capacity) c.align
      deallocLoop a n (i + 1) (ptrs.set i none)

/-- `data_access.rs:461-484` `dealloc`. -/
def dealloc (a : Archetype) : M Archetype := do
  let r ← a.deallocLoop a.descriptor.len 0 a.pointers
  if r.2 then return { a with pointers := r.1 }
  else
    match a.entityAssociations with
    | none => .error (.ub .badRealloc)
    | some l =>
      if l.length ≠ a.capacity then .error (.ub .layoutMismatch)
      else return { a with pointers := r.1, entityAssociations := none, capacity := 0 }

/-- `data_access.rs:439-454`: the reallocation loop of `resize_capacity`. -/
def reallocColumns (env : Env) (a : Archetype) (newCapacity : Nat) : M (List (Option Block)) :=
  forRange 0 a.descriptor.len (fun i ptrs => do
    let p ← index ptrs i
    let c ← index a.descriptor.components i
    let b ← reallocBlock env p (c.size * a.capacity) c.align (c.size * newCapacity)
    setIndex ptrs i (some b)) a.pointers

/-- `data_access.rs:420-456` `resize_capacity`. -/
def resizeCapacity (env : Env) (a : Archetype) (change : Int) : M Archetype := do
  let new : Int := (a.capacity : Int) + change
  if new ≤ 0 ∨ new ≥ (MAX_ENTITIES_PER_ARCHETYPE : Int) then a.dealloc
  else
    let newCapacity := new.toNat
    match a.entityAssociations with
    | none => .error (.ub .badRealloc)
    | some l =>
      if l.length ≠ a.capacity then .error (.ub .layoutMismatch)
      else
        let ea := l.take newCapacity ++ List.replicate (newCapacity - a.capacity) none
        let ptrs ← reallocColumns env a newCapacity
        return { a with pointers := ptrs, entityAssociations := some ea, capacity := newCapacity }

/-- `data_access.rs:503-512` `resize_if_necessary`. -/
def resizeIfNecessary (env : Env) (a : Archetype) : M Archetype :=
  if a.isFull then
    let additional := if a.capacity = 0 then DEFAULT_ARCHETYPE_ALLOCATION_SIZE else a.capacity
    a.resizeCapacity env (additional : Int)
  else .ok a

/-! ## Writing entities -/

/-- `component_group.rs:90-92`, `155-159` `as_sorted_pointers`: for each sorted position the value it points at. -/
def asSortedPointers (env : Env) (g : Group) (vals : List Val) : List (Option Val) :=
  (List.range g.length).foldl (fun ptrs i => ptrs.set (g.slot env i) vals[i]?)
    (List.replicate MAX_COMPONENTS_PER_ENTITY none)

/-- The first `n` bytes behind a pointer to a value on the stack. -/
def readStack (src : Option Val) (n : Nat) : M (List (Option TByte)) :=
  match src with
  | none => .error (.ub .nullDeref)
  | some v => if n ≤ v.bytes.length then .ok (v.encode.take n) else .error (.ub .outOfBounds)

/-- `data_access.rs:286-301`: the copy loop of `write_entity_unchecked`. -/
def writeColumns (gd : ArchetypeDescriptor) (idx : Nat) (srcs : List (Option Val)) (pointers : List (Option Block)) :
    M (List (Option Block)) :=
  forRange 0 gd.len (fun i ptrs => do
    let c ← indexUnchecked gd.comps i
    let dst ← indexUnchecked ptrs i
    let src ← indexUnchecked srcs i
    let bs ← readStack src c.size
    let b ← writeBytes dst (c.size * idx) bs
    setIndex ptrs i (some b)) pointers

/-- `data_access.rs:272-304` `write_entity_unchecked`. -/
def writeEntityUnchecked (env : Env) (a : Archetype) (idx : Nat) (e : Entity) (g : Group) (vals : List Val) :
    M Archetype := do
  debugAssert env (decide (idx < a.capacity))
  debugAssert env (g.descriptor env).isValid
  debugAssert env ((g.descriptor env).archetype.archetypeId == a.descriptor.archetypeId)
  let ptrs ← writeColumns (g.descriptor env).archetype idx (asSortedPointers env g vals) a.pointers
  setEntityAt { a with pointers := ptrs } idx e

/-- `data_access.rs:209-224` `push_entity_unchecked`. -/
def pushEntityUnchecked (env : Env) (a : Archetype) (e : Entity) (g : Group) (vals : List Val) :
    M (Archetype × Nat) := do
  debugAssert env (g.descriptor env).isValid
  debugAssert env ((g.descriptor env).archetype.archetypeId == a.descriptor.archetypeId)
  let a ← a.resizeIfNecessary env
  let idx := a.entityCount
  let a := { a with entityCount := a.entityCount + 1 }
  let a ← a.writeEntityUnchecked env idx e g vals
  return (a, idx)

/-- `data_access.rs:229-234` `push_uninitialized_entity`. -/
def pushUninitializedEntity (env : Env) (a : Archetype) : M (Archetype × Nat) := do
  let a ← a.resizeIfNecessary env
  return ({ a with entityCount := a.entityCount + 1 }, a.entityCount)

/-- `data_access.rs:238-240` `decrement_len_unchecked`. -/
def decrementLenUnchecked (env : Env) (a : Archetype) : M Archetype := do
  let n ← subU32 env a.entityCount 1
  return { a with entityCount := n }

/-! ## Removing entities -/

/-- `core::ptr::swap_nonoverlapping(p + off1, p + off2, n)` within one block. -/
def swapBytes (p : Option Block) (off1 off2 n : Nat) : M Block := do
  if n ≠ 0 ∧ off1 < off2 + n ∧ off2 < off1 + n then .error (.ub .overlap)
  else
    let b1 ← readBytes p off1 n
    let b2 ← readBytes p off2 n
    let q ← writeBytes p off1 b2
    writeBytes (some q) off2 b1

/-- `data_access.rs:374-378`: the loop of `swap_entities`. -/
def swapColumns (a : Archetype) (first second : Nat) : M (List (Option Block)) :=
  forRange 0 a.descriptor.components.length (fun i ptrs => do
    let c ← index a.descriptor.components i
    let p ← index ptrs i
    let b ← swapBytes p (first * c.size) (second * c.size) c.size
    setIndex ptrs i (some b)) a.pointers

/-- `data_access.rs:373-380` `swap_entities`. -/
def swapEntities (a : Archetype) (first second : Nat) : M Archetype := do
  let ptrs ← a.swapColumns first second
  swapEntityAt { a with pointers := ptrs } first second

/-- `component_descriptor.rs:137-140` `drop_handler_wrapper`: the values dropped. -/
def runDropHandler (d : ComponentDescriptor) (p : Option Block) (off len : Nat) : M (List Val) :=
  match d.drop with
  | none => .ok []
  | some f => readSlice p f.ty f.size f.align off len

/-- `data_access.rs:385-392` `drop_entity`: the dropped values, in column order. -/
def dropEntity (a : Archetype) (idx : Nat) : M (List Val) :=
  forRange 0 a.descriptor.components.length (fun i dropped => do
    let d ← index a.descriptor.components i
    let p ← index a.pointers i
    let vs ← runDropHandler d p (idx * d.size) 1
    return dropped ++ vs) []

/-- `data_access.rs:396-400` `drop_entities`. -/
def dropEntities (a : Archetype) : M (List Val) :=
  forRange 0 a.descriptor.components.length (fun i dropped => do
    let d ← index a.descriptor.components i
    let p ← index a.pointers i
    let vs ← runDropHandler d p 0 a.entityCount
    return dropped ++ vs) []

/-- `data_access.rs:313-326` `swap_drop_unchecked`: new state, whether a swap occurred, dropped values. -/
def swapDropUnchecked (env : Env) (a : Archetype) (idx : Nat) : M (Archetype × Bool × List Val) := do
  debugAssert env (decide (idx < a.entityCount))
  let last ← subU32 env a.entityCount 1
  if idx = last then
    let dropped ← a.dropEntity idx
    let n ← subU32 env a.entityCount 1
    return ({ a with entityCount := n }, false, dropped)
  else
    let a ← a.swapEntities idx last
    let last ← subU32 env a.entityCount 1
    let dropped ← a.dropEntity last
    let n ← subU32 env a.entityCount 1
    return ({ a with entityCount := n }, true, dropped)

/-- `data_access.rs:334-342` `swap_to_last_unchecked`. -/
def swapToLastUnchecked (env : Env) (a : Archetype) (idx : Nat) : M (Archetype × Bool) := do
  debugAssert env (decide (idx < a.entityCount))
  let last ← subU32 env a.entityCount 1
  if idx = last then return (a, false)
  else
    let a ← a.swapEntities idx last
    return (a, true)

/-- `data_access.rs:487-500` `offset_sorted_pointers_unchecked`: 14 nullable pointers. -/
def offsetSortedPointersUnchecked (a : Archetype) (idx : Nat) : List (Option Ref) :=
  (List.range MAX_COMPONENTS_PER_ENTITY).map (fun i =>
    if i < a.descriptor.len then
      match a.pointers.getD i none with
      | none => none
      | some _ => some ⟨i, (a.descriptor.comps.getD i ComponentDescriptor.INVALID).size * idx⟩
    else none)

/-- `data_access.rs:406-409` `read_components_exact_unchecked`, with `component_group.rs:94-96`, `161-165`
`read_from_sorted_pointers`. -/
def readComponentsExactUnchecked (env : Env) (a : Archetype) (g : Group) (idx : Nat) : M (List Val) :=
  a.derefTuple (tuplePointers env g (a.offsetSortedPointersUnchecked idx))

/-- `data_access.rs:353-366` `swap_remove_unchecked`: new state, the values moved out, whether a swap occurred. -/
def swapRemoveUnchecked (env : Env) (a : Archetype) (g : Group) (idx : Nat) : M (Archetype × List Val × Bool) := do
  debugAssert env (decide (idx < a.entityCount))
  let last ← subU32 env a.entityCount 1
  if idx = last then
    let data ← a.readComponentsExactUnchecked env g idx
    let n ← subU32 env a.entityCount 1
    return ({ a with entityCount := n }, data, false)
  else
    let a ← a.swapEntities idx last
    let last ← subU32 env a.entityCount 1
    let data ← a.readComponentsExactUnchecked env g last
    let n ← subU32 env a.entityCount 1
    return ({ a with entityCount := n }, data, true)

/-! ## Moving between archetypes -/

/-- `data_access.rs:522-535`: the inner loop for one source column. -/
def copyCommonInner (src : Archetype) (srcIdx : Nat) (dst : Archetype) (dstIdx : Nat) (si : Nat)
    (sc : ComponentDescriptor) (pointers : List (Option Block)) : M (List (Option Block)) :=
  forRange 0 dst.descriptor.components.length (fun di ptrs => do
    let dc ← index dst.descriptor.components di
    if sc.id ≠ dc.id then return ptrs
    else
      let sp ← index src.pointers si
      let dp ← index ptrs di
      let bs ← readBytes sp (sc.size * srcIdx) sc.size
      let b ← writeBytes dp (dc.size * dstIdx) bs
      setIndex ptrs di (some b)) pointers

/-- `data_access.rs:515-537` `copy_common_components_between_archetypes_unchecked`: the new `destination`. -/
def copyCommonComponents (src : Archetype) (srcIdx : Nat) (dst : Archetype) (dstIdx : Nat) : M Archetype := do
  let ptrs ← forRange 0 src.descriptor.components.length (fun si ptrs => do
    let sc ← index src.descriptor.components si
    copyCommonInner src srcIdx dst dstIdx si sc ptrs) dst.pointers
  return { dst with pointers := ptrs }

/-- `archetype/mod.rs:78-89` `Drop for Archetype`: the dropped values, and the archetype afterwards (what is still
allocated in it is leaked). -/
def drop (a : Archetype) : M (List Val × Archetype) := do
  if a.capacity = 0 then return ([], a)
  else
    let dropped ← a.dropEntities
    let a ← a.dealloc
    return (dropped, a)

end Archetype

end Shard
