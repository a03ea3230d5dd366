import Verif.Model.FlatMemory
import Verif.Model.Archetype
/-!
# `src/archetype/{mod,data_access}.rs` on addresses

The functions of `Archetype.lean` again, with `pointers` an array of raw pointers and `entity_associations` a raw pointer.
What is not memory (searches in the descriptors, sorted positions) is shared with `Archetype.lean`.
-/

set_option autoImplicit false

namespace Shard.Flat

/-- `archetype/mod.rs:12-18` `Archetype`, with its pointers. -/
structure FArch where
  descriptor : ArchetypeDescriptor
  pointers : List Ptr
  entityAssociations : Ptr
  entityCount : Nat
  capacity : Nat
  deriving DecidableEq, Repr

/-- A slice of `len` elements of type `cty` at `base`. -/
structure FSlice where
  cty : CompTy
  base : Ptr
  len : Nat
  deriving DecidableEq, Repr

namespace FArch

/-- The fields that are not memory, for the functions that only look at them. -/
def shell (a : FArch) : Archetype := ⟨a.descriptor, [], none, a.entityCount, a.capacity⟩

/-- `archetype/mod.rs:59-66`: the allocation loop of `with_capacity`. -/
def allocColumns (A : Allocator) (env : Env) (d : ArchetypeDescriptor) (capacity : Nat) (pointers : List Ptr) :
    FM (List Ptr) :=
  loop 0 d.components.length (fun i ptrs => do
    let c ← index d.components i
    let p ← alloc A env (c.size * capacity) c.align
    let ptrs ← setIndex ptrs i p
    assertNonNull p
    return ptrs) pointers

/-- `archetype/mod.rs:40-71` `with_capacity`. -/
def withCapacity (A : Allocator) (env : Env) (d : ArchetypeDescriptor) (capacity : Nat) : FM FArch := do
  ensure d.isValid (.panic .assertFailed)
  let a : FArch := ⟨d, List.replicate MAX_COMPONENTS_PER_ENTITY Ptr.null, Ptr.null, 0, 0⟩
  if capacity > 0 ∧ capacity ≤ MAX_ENTITIES_PER_ARCHETYPE then
    let ea ← alloc A env (4 * capacity) 4
    assertNonNull ea
    let ptrs ← allocColumns A env d capacity a.pointers
    return { a with entityAssociations := ea, pointers := ptrs, capacity := capacity }
  else
    return a

/-- `data_access.rs:15-22`, `30-37`, `71-80`, `250-260`: the column of `C` and the pointer
`(self.pointers[idx] as *mut C).offset(index)`. -/
def componentPtr (a : FArch) (c : CompTy) (i : Nat) : FM Ptr :=
  match binarySearchByKey a.descriptor.components c.id.toNat (fun e => e.id.toNat) with
  | .found idx => do
    let p ← index a.pointers idx
    offset p (c.size * i)
  | .insertAt _ => fun h => (.error (.panic .unreachable), h)

/-- `data_access.rs:14-23` `get_component_unchecked`. -/
def getComponentUnchecked (a : FArch) (c : CompTy) (i : Nat) : FM Val := do
  let p ← a.componentPtr c i
  readVal p c.ty c.size c.align

/-- `data_access.rs:29-38` `get_component_unchecked_mut`: the address of the returned reference. -/
def getComponentUncheckedMut (a : FArch) (c : CompTy) (i : Nat) : FM Ptr := do
  let p ← a.componentPtr c i
  let _ ← readVal p c.ty c.size c.align
  return p

/-- `data_access.rs:70-81` `read_component_unchecked`. -/
def readComponentUnchecked (a : FArch) (c : CompTy) (i : Nat) : FM Val := do
  let p ← a.componentPtr c i
  readVal p c.ty c.size c.align

/-- `data_access.rs:245-261` `write_single_component_unchecked`. -/
def writeSingleComponentUnchecked (a : FArch) (c : CompTy) (i : Nat) (v : Val) : FM Unit := do
  let p ← a.componentPtr c i
  writeVal p c.align v

/-- `data_access.rs:544-568` `get_fuzzy_pointers_unchecked`: 14 nullable pointers. -/
def getFuzzyPointersUnchecked (env : Env) (a : FArch) (g : Group) (off : Nat) : FM (List Ptr) :=
  mapLoop 0 MAX_COMPONENTS_PER_ENTITY (fun i =>
    match (g.descriptor env).archetype.components[i]? with
    | none => pure Ptr.null
    | some d =>
      match a.shell.fuzzyFind d.id (a.descriptor.len - i) i with
      | none => pure Ptr.null
      | some k => do
        let p ← indexUnchecked a.pointers k
        offset p (d.size * off))

/-- `component_group.rs:99-103`, `167-173` `pointers_as_ref_tuple` and the `mut` version. -/
def tuplePointers (env : Env) (g : Group) (ptrs : List Ptr) : List (CompTy × Ptr) :=
  g.mapIdx (fun i c => (c, ptrs.getD (g.slot env i) Ptr.null))

/-- Dereference the pointers of a tuple, in tuple order. -/
def derefTuple : List (CompTy × Ptr) → FM (List Val)
  | [] => pure []
  | (c, p) :: rest => do
    let v ← readVal p c.ty c.size c.align
    let vs ← derefTuple rest
    return v :: vs

/-- `data_access.rs:44-51` `get_fuzzy_components_unchecked`. -/
def getFuzzyComponentsUnchecked (env : Env) (a : FArch) (g : Group) (i : Nat) : FM (List Val) := do
  debugAssert env (g.descriptor env).isValid
  let ptrs ← a.getFuzzyPointersUnchecked env g i
  derefTuple (tuplePointers env g ptrs)

/-- `data_access.rs:57-64` `get_fuzzy_components_unchecked_mut`. -/
def getFuzzyComponentsUncheckedMut (env : Env) (a : FArch) (g : Group) (i : Nat) : FM (List (CompTy × Ptr)) := do
  debugAssert env (g.descriptor env).isValid
  let ptrs ← a.getFuzzyPointersUnchecked env g i
  let _ ← derefTuple (tuplePointers env g ptrs)
  return tuplePointers env g ptrs

/-- `component_group.rs:111-116`, `183-190` `slice_unchecked` and `slice_unchecked_mut`: the slices of the tuple. -/
def sliceTuple (env : Env) (g : Group) (ptrs : List Ptr) (len : Nat) : List FSlice :=
  (tuplePointers env g ptrs).map (fun cp => ⟨cp.1, cp.2, len⟩)

/-- Form the slices of a tuple and read all their elements. -/
def readSlices : List FSlice → FM (List (List Val))
  | [] => pure []
  | s :: rest => do
    let vs ← readSlice s.base s.cty.ty s.cty.size s.cty.align s.len
    let vss ← readSlices rest
    return vs :: vss

/-- `data_access.rs:88-97` `get_slices_unchecked_exact_mut`. -/
def getSlicesUncheckedExactMut (env : Env) (a : FArch) (g : Group) : FM (List FSlice) := do
  debugAssert env ((g.descriptor env).archetype.archetypeId == a.descriptor.archetypeId)
  let _ ← readSlices (sliceTuple env g a.pointers a.entityCount)
  return sliceTuple env g a.pointers a.entityCount

/-- `data_access.rs:104-113` `get_slices_unchecked_exact`. -/
def getSlicesUncheckedExact (env : Env) (a : FArch) (g : Group) : FM (List (List Val)) := do
  debugAssert env ((g.descriptor env).archetype.archetypeId == a.descriptor.archetypeId)
  readSlices (sliceTuple env g a.pointers a.entityCount)

/-- `data_access.rs:120-126` `get_fuzzy_slices_unchecked`. -/
def getFuzzySlicesUnchecked (env : Env) (a : FArch) (g : Group) : FM (List (List Val)) := do
  debugAssert env (g.descriptor env).isValid
  let ptrs ← a.getFuzzyPointersUnchecked env g 0
  readSlices (sliceTuple env g ptrs a.entityCount)

/-- `data_access.rs:133-139` `get_fuzzy_slices_unchecked_mut`. -/
def getFuzzySlicesUncheckedMut (env : Env) (a : FArch) (g : Group) : FM (List FSlice) := do
  debugAssert env (g.descriptor env).isValid
  let ptrs ← a.getFuzzyPointersUnchecked env g 0
  let _ ← readSlices (sliceTuple env g ptrs a.entityCount)
  return sliceTuple env g ptrs a.entityCount

/-- `data_access.rs:193-195`, `198-200`: the slice of handles is formed. -/
def entitySlice (a : FArch) : FM Unit := rawSlice a.entityAssociations 4 4 a.entityCount

/-- The handle at index `i` of the slice. -/
def readEntity (a : FArch) (i : Nat) : FM Entity := do
  let cs ← readCells (a.entityAssociations.plus (4 * i)) 4
  decodeEntity cs

/-- `data_access.rs:193-195` `entities`, all elements read. -/
def entities (a : FArch) : FM (List Entity) := do
  a.entitySlice
  mapLoop 0 a.entityCount a.readEntity

/-- `self.entities()[i]`. -/
def entityAt (a : FArch) (i : Nat) : FM Entity := do
  a.entitySlice
  ensure (decide (i < a.entityCount)) (.panic .indexOutOfBounds)
  a.readEntity i

/-- `*self.entities().get_unchecked(i)`. -/
def entityAtUnchecked (a : FArch) (i : Nat) : FM Entity := do
  a.entitySlice
  ensure (decide (i < a.entityCount)) (.ub .outOfBounds)
  a.readEntity i

/-- `data_access.rs:198-200` `self.entities_mut()[i] = e`. -/
def setEntityAt (a : FArch) (i : Nat) (e : Entity) : FM Unit := do
  a.entitySlice
  ensure (decide (i < a.entityCount)) (.panic .indexOutOfBounds)
  writeCells (a.entityAssociations.plus (4 * i)) (entCells (some e))

/-- `data_access.rs:198-200` `self.entities_mut().swap(i, j)`. -/
def swapEntityAt (a : FArch) (i j : Nat) : FM Unit := do
  a.entitySlice
  ensure (decide (i < a.entityCount ∧ j < a.entityCount)) (.panic .indexOutOfBounds)
  let ci ← readCells (a.entityAssociations.plus (4 * i)) 4
  let cj ← readCells (a.entityAssociations.plus (4 * j)) 4
  writeCells (a.entityAssociations.plus (4 * i)) cj
  writeCells (a.entityAssociations.plus (4 * j)) ci

/-- `data_access.rs:147-156` `get_entity_fuzzy_slices_unchecked`. -/
def getEntityFuzzySlicesUnchecked (env : Env) (a : FArch) (g : Group) : FM (List Entity × List (List Val)) := do
  debugAssert env (g.descriptor env).isValid
  let es ← a.entities
  let ptrs ← a.getFuzzyPointersUnchecked env g 0
  let vs ← readSlices (sliceTuple env g ptrs a.entityCount)
  return (es, vs)

/-- `data_access.rs:164-173` `get_entity_fuzzy_slices_unchecked_mut`. -/
def getEntityFuzzySlicesUncheckedMut (env : Env) (a : FArch) (g : Group) : FM (List Entity × List FSlice) := do
  debugAssert env (g.descriptor env).isValid
  let es ← a.entities
  let ptrs ← a.getFuzzyPointersUnchecked env g 0
  let _ ← readSlices (sliceTuple env g ptrs a.entityCount)
  return (es, sliceTuple env g ptrs a.entityCount)

/-- `data_access.rs:462-476`: the loop of `dealloc` from column `i`, `n` left; whether it returned early. -/
def deallocLoop (a : FArch) : (n i : Nat) → List Ptr → FM (List Ptr × Bool)
  | 0, _, ptrs => pure (ptrs, false)
  | n + 1, i, ptrs => do
    let p ← index ptrs i
    if p.addr = 0 then return (ptrs, true)
    else
      let c ← index a.descriptor.components i
      Flat.dealloc p (c.size * a.capacity) c.align
      deallocLoop a n (i + 1) (ptrs.set i Ptr.null)

/-- `data_access.rs:461-484` `dealloc`. -/
def dealloc (a : FArch) : FM FArch := do
  let r ← a.deallocLoop a.descriptor.len 0 a.pointers
  if r.2 then return { a with pointers := r.1 }
  else
    Flat.dealloc a.entityAssociations (4 * a.capacity) 4
    return { a with pointers := r.1, entityAssociations := Ptr.null, capacity := 0 }

/-- `data_access.rs:439-454`: the reallocation loop of `resize_capacity`. -/
def reallocColumns (A : Allocator) (env : Env) (a : FArch) (newCapacity : Nat) : FM (List Ptr) :=
  loop 0 a.descriptor.len (fun i ptrs => do
    let p ← index ptrs i
    let c ← index a.descriptor.components i
    let q ← realloc A env p (c.size * a.capacity) c.align (c.size * newCapacity)
    let ptrs ← setIndex ptrs i q
    assertNonNull q
    return ptrs) a.pointers

/-- `data_access.rs:420-456` `resize_capacity`. -/
def resizeCapacity (A : Allocator) (env : Env) (a : FArch) (change : Int) : FM FArch := do
  let new : Int := (a.capacity : Int) + change
  if new ≤ 0 ∨ new ≥ (MAX_ENTITIES_PER_ARCHETYPE : Int) then a.dealloc
  else
    let newCapacity := new.toNat
    let ea ← realloc A env a.entityAssociations (4 * a.capacity) 4 (4 * newCapacity)
    assertNonNull ea
    let ptrs ← reallocColumns A env a newCapacity
    return { a with pointers := ptrs, entityAssociations := ea, capacity := newCapacity }

/-- `data_access.rs:503-512` `resize_if_necessary`. -/
def resizeIfNecessary (A : Allocator) (env : Env) (a : FArch) : FM FArch :=
  if a.entityCount == a.capacity then
    let additional := if a.capacity = 0 then DEFAULT_ARCHETYPE_ALLOCATION_SIZE else a.capacity
    a.resizeCapacity A env (additional : Int)
  else pure a

/-- `data_access.rs:286-301`: the copy loop of `write_entity_unchecked`; the sources are on the stack. -/
def writeColumns (gd : ArchetypeDescriptor) (idx : Nat) (srcs : List (Option Val)) (pointers : List Ptr) : FM Unit :=
  loop 0 gd.len (fun i _ => do
    let c ← indexUnchecked gd.comps i
    let dst ← indexUnchecked pointers i
    let dst ← offset dst (c.size * idx)
    let src ← indexUnchecked srcs i
    let bs ← Archetype.readStack src c.size
    writeCells dst (bs.map (Option.map .comp))) ()

/-- `data_access.rs:272-304` `write_entity_unchecked`. -/
def writeEntityUnchecked (env : Env) (a : FArch) (idx : Nat) (e : Entity) (g : Group) (vals : List Val) : FM Unit := do
  debugAssert env (decide (idx < a.capacity))
  debugAssert env (g.descriptor env).isValid
  debugAssert env ((g.descriptor env).archetype.archetypeId == a.descriptor.archetypeId)
  writeColumns (g.descriptor env).archetype idx (Archetype.asSortedPointers env g vals) a.pointers
  a.setEntityAt idx e

/-- `data_access.rs:209-224` `push_entity_unchecked`. -/
def pushEntityUnchecked (A : Allocator) (env : Env) (a : FArch) (e : Entity) (g : Group) (vals : List Val) :
    FM (FArch × Nat) := do
  debugAssert env (g.descriptor env).isValid
  debugAssert env ((g.descriptor env).archetype.archetypeId == a.descriptor.archetypeId)
  let a ← a.resizeIfNecessary A env
  let idx := a.entityCount
  let a := { a with entityCount := a.entityCount + 1 }
  a.writeEntityUnchecked env idx e g vals
  return (a, idx)

/-- `data_access.rs:229-234` `push_uninitialized_entity`. -/
def pushUninitializedEntity (A : Allocator) (env : Env) (a : FArch) : FM (FArch × Nat) := do
  let a ← a.resizeIfNecessary A env
  return ({ a with entityCount := a.entityCount + 1 }, a.entityCount)

/-- `data_access.rs:238-240` `decrement_len_unchecked`. -/
def decrementLenUnchecked (env : Env) (a : FArch) : FM FArch := do
  let n ← subU32 env a.entityCount 1
  return { a with entityCount := n }

/-- `data_access.rs:374-378`: the loop of `swap_entities`. -/
def swapColumns (a : FArch) (first second : Nat) : FM Unit :=
  loop 0 a.descriptor.components.length (fun i _ => do
    let c ← index a.descriptor.components i
    let p ← index a.pointers i
    let p1 ← offset p (first * c.size)
    let p2 ← offset p (second * c.size)
    swapNonoverlapping p1 p2 c.size) ()

/-- `data_access.rs:373-380` `swap_entities`. -/
def swapEntities (a : FArch) (first second : Nat) : FM Unit := do
  a.swapColumns first second
  a.swapEntityAt first second

/-- `component_descriptor.rs:137-140` `drop_handler_wrapper`: the values dropped. -/
def runDropHandler (d : ComponentDescriptor) (p : Ptr) (len : Nat) : FM (List Val) :=
  match d.drop with
  | none => pure []
  | some f => readSlice p f.ty f.size f.align len

/-- `data_access.rs:385-392` `drop_entity`. -/
def dropEntity (a : FArch) (idx : Nat) : FM (List Val) :=
  loop 0 a.descriptor.components.length (fun i dropped => do
    let d ← index a.descriptor.components i
    let p ← index a.pointers i
    let p ← offset p (idx * d.size)
    let vs ← runDropHandler d p 1
    return dropped ++ vs) []

/-- `data_access.rs:396-400` `drop_entities`. -/
def dropEntities (a : FArch) : FM (List Val) :=
  loop 0 a.descriptor.components.length (fun i dropped => do
    let d ← index a.descriptor.components i
    let p ← index a.pointers i
    let vs ← runDropHandler d p a.entityCount
    return dropped ++ vs) []

/-- `data_access.rs:313-326` `swap_drop_unchecked`. -/
def swapDropUnchecked (env : Env) (a : FArch) (idx : Nat) : FM (FArch × Bool × List Val) := do
  debugAssert env (decide (idx < a.entityCount))
  let last ← subU32 env a.entityCount 1
  if idx = last then
    let dropped ← a.dropEntity idx
    let n ← subU32 env a.entityCount 1
    return ({ a with entityCount := n }, false, dropped)
  else
    a.swapEntities idx last
    let last ← subU32 env a.entityCount 1
    let dropped ← a.dropEntity last
    let n ← subU32 env a.entityCount 1
    return ({ a with entityCount := n }, true, dropped)

/-- `data_access.rs:334-342` `swap_to_last_unchecked`. -/
def swapToLastUnchecked (env : Env) (a : FArch) (idx : Nat) : FM Bool := do
  debugAssert env (decide (idx < a.entityCount))
  let last ← subU32 env a.entityCount 1
  if idx = last then return false
  else
    a.swapEntities idx last
    return true

/-- `data_access.rs:487-500` `offset_sorted_pointers_unchecked`: 14 nullable pointers. -/
def offsetSortedPointersUnchecked (a : FArch) (idx : Nat) : FM (List Ptr) :=
  mapLoop 0 MAX_COMPONENTS_PER_ENTITY (fun i =>
    if i < a.descriptor.len then
      offset (a.pointers.getD i Ptr.null) ((a.descriptor.comps.getD i ComponentDescriptor.INVALID).size * idx)
    else pure Ptr.null)

/-- `data_access.rs:406-409` `read_components_exact_unchecked`. -/
def readComponentsExactUnchecked (env : Env) (a : FArch) (g : Group) (idx : Nat) : FM (List Val) := do
  let ptrs ← a.offsetSortedPointersUnchecked idx
  derefTuple (tuplePointers env g ptrs)

/-- `data_access.rs:353-366` `swap_remove_unchecked`. -/
def swapRemoveUnchecked (env : Env) (a : FArch) (g : Group) (idx : Nat) : FM (FArch × List Val × Bool) := do
  debugAssert env (decide (idx < a.entityCount))
  let last ← subU32 env a.entityCount 1
  if idx = last then
    let data ← a.readComponentsExactUnchecked env g idx
    let n ← subU32 env a.entityCount 1
    return ({ a with entityCount := n }, data, false)
  else
    a.swapEntities idx last
    let last ← subU32 env a.entityCount 1
    let data ← a.readComponentsExactUnchecked env g last
    let n ← subU32 env a.entityCount 1
    return ({ a with entityCount := n }, data, true)

/-- `data_access.rs:522-535`: the inner loop for one source column. -/
def copyCommonInner (src : FArch) (srcIdx : Nat) (dst : FArch) (dstIdx : Nat) (si : Nat) (sc : ComponentDescriptor) :
    FM Unit :=
  loop 0 dst.descriptor.components.length (fun di _ => do
    let dc ← index dst.descriptor.components di
    if sc.id ≠ dc.id then return ()
    else
      let sp ← index src.pointers si
      let sp ← offset sp (sc.size * srcIdx)
      let dp ← index dst.pointers di
      let dp ← offset dp (dc.size * dstIdx)
      copyNonoverlapping sp dp sc.size) ()

/-- `data_access.rs:515-537` `copy_common_components_between_archetypes_unchecked`. -/
def copyCommonComponents (src : FArch) (srcIdx : Nat) (dst : FArch) (dstIdx : Nat) : FM Unit :=
  loop 0 src.descriptor.components.length (fun si _ => do
    let sc ← index src.descriptor.components si
    copyCommonInner src srcIdx dst dstIdx si sc) ()

/-- `archetype/mod.rs:78-89` `Drop for Archetype`. -/
def drop (a : FArch) : FM (List Val) := do
  if a.capacity = 0 then return []
  else
    let dropped ← a.dropEntities
    let _ ← a.dealloc
    return dropped

end FArch

end Shard.Flat
