import Verif.Model.Archetype
/-!
# The implementations of `ComponentGroup`, one by one (`component_group.rs`)

`Model/Descriptors` and `Model/Archetype` treat a component group as the list of its types, whatever its length. The code
has one implementation for a single component and one for each tuple length, made by two macros. Here the macros are
expanded: the invocations are data, and the functions follow the macro bodies. A type parameter `T7` is the number 7; a
value of a tuple is the list of its fields; a pointer to a field is the value behind it. Not modelled: addresses, and
`empty_slice` (`component_group.rs:124-130`, `144-150`), which has no inputs.
-/

set_option autoImplicit false

namespace Shard

/-- One invocation of `impl_component_tuple!` (`component_group.rs:133-134`): `$len` and the pairs `($elem, $elem_idx)`. -/
structure TupleImpl where
  len : Nat
  elems : List (Nat × Nat)
  deriving DecidableEq, Repr

/-- The invocations, `component_group.rs:396-515`. -/
def tupleImpls : List TupleImpl := [
  ⟨14, [(1, 0), (2, 1), (3, 2), (4, 3), (5, 4), (6, 5), (7, 6), (8, 7), (9, 8), (10, 9), (11, 10), (12, 11), (13, 12), (14, 13)]⟩,
  ⟨13, [(1, 0), (2, 1), (3, 2), (4, 3), (5, 4), (6, 5), (7, 6), (8, 7), (9, 8), (10, 9), (11, 10), (12, 11), (13, 12)]⟩,
  ⟨12, [(1, 0), (2, 1), (3, 2), (4, 3), (5, 4), (6, 5), (7, 6), (8, 7), (9, 8), (10, 9), (11, 10), (12, 11)]⟩,
  ⟨11, [(1, 0), (2, 1), (3, 2), (4, 3), (5, 4), (6, 5), (7, 6), (8, 7), (9, 8), (10, 9), (11, 10)]⟩,
  ⟨10, [(1, 0), (2, 1), (3, 2), (4, 3), (5, 4), (6, 5), (7, 6), (8, 7), (9, 8), (10, 9)]⟩,
  ⟨9, [(1, 0), (2, 1), (3, 2), (4, 3), (5, 4), (6, 5), (7, 6), (8, 7), (9, 8)]⟩,
  ⟨8, [(1, 0), (2, 1), (3, 2), (4, 3), (5, 4), (6, 5), (7, 6), (8, 7)]⟩,
  ⟨7, [(1, 0), (2, 1), (3, 2), (4, 3), (5, 4), (6, 5), (7, 6)]⟩,
  ⟨6, [(1, 0), (2, 1), (3, 2), (4, 3), (5, 4), (6, 5)]⟩,
  ⟨5, [(1, 0), (2, 1), (3, 2), (4, 3), (5, 4)]⟩,
  ⟨4, [(1, 0), (2, 1), (3, 2), (4, 3)]⟩,
  ⟨3, [(1, 0), (2, 1), (3, 2)]⟩,
  ⟨2, [(1, 0), (2, 1)]⟩
]

/-- `component_group.rs:532-537`: the helper rules of `impl_sealed_component_tuples!`, which put the parameters of the
first list in front of the second, one after the other. -/
def sealedTuple : List Nat → List Nat → List Nat
  | [], ty => ty
  | first :: tail, ty => sealedTuple tail (first :: ty)

/-- `component_group.rs:524-531` `impl_sealed_component_tuples!`: the tuples that get `SealedComponentGroup`. A single
parameter is the base case. -/
def sealedTuples : List Nat → List (List Nat)
  | [] => []
  | [_] => []
  | head :: tail => sealedTuple tail [head] :: sealedTuples tail

/-- `component_group.rs:540-542`: the invocation of the macro. -/
def sealedImpls : List (List Nat) := sealedTuples [16, 15, 14, 13, 12, 11, 10, 9, 8, 7, 6, 5, 4, 3, 2, 1]

/-- An implementation of `ComponentGroup`: `component_group.rs:80-131` for a component, `component_group.rs:133-202` for
a tuple. -/
inductive GroupImpl
  | single
  | tuple (m : TupleImpl)
  deriving DecidableEq, Repr

/-- All implementations: `component_group.rs:80`, `396-515`. -/
def groupImpls : List GroupImpl := .single :: tupleImpls.map .tuple

namespace GroupImpl

/-- The pairs of type parameter and tuple position that the repetitions `$( … )*` of the macro body run over; the
implementation for a component is written for its only type `T` (`component_group.rs:80`). -/
def elems : GroupImpl → List (Nat × Nat)
  | single => [(1, 0)]
  | tuple m => m.elems

/-- The implementing type for given type arguments: `component_group.rs:80` `T`, `component_group.rs:135`
`($($elem), *)`. -/
def group (I : GroupImpl) (T : Nat → CompTy) : Group := I.elems.map (fun p => T p.1)

/-- `component_group.rs:91`, `157` (and the other functions): the index into the pointer array for a tuple position;
`Self::DESCRIPTOR.unsorted_to_sorted` is `component_group_descriptor.rs:46-48`. -/
def slotOf (env : Env) (I : GroupImpl) (T : Nat → CompTy) (idx : Nat) : M Nat :=
  match I with
  | single => .ok 0
  | tuple _ => index ((I.group T).descriptor env).unsortedToSorted idx

/-- `component_group.rs:90-92`, `155-159` `as_sorted_pointers`: fills in the caller's array. -/
def asSortedPointers (env : Env) (I : GroupImpl) (T : Nat → CompTy) (self : List Val) (ptrs : List (Option Val)) :
    M (List (Option Val)) :=
  I.elems.foldlM (fun ptrs p => do
    let s ← I.slotOf env T p.2
    let v ← index self p.2
    setIndex ptrs s (some v)) ptrs

/-- `core::ptr::read(p as *mut C)`, where `p` points at a value. -/
def readAs (c : CompTy) : Option Val → M Val
  | none => .error (.ub .nullDeref)
  | some v => if v.ty = c.ty ∧ v.bytes.length = c.size then .ok v else .error (.ub .typeConfusion)

/-- `component_group.rs:94-96`, `161-165` `read_from_sorted_pointers`. -/
def readFromSortedPointers (env : Env) (I : GroupImpl) (T : Nat → CompTy) (ptrs : List (Option Val)) : M (List Val) :=
  I.elems.mapM (fun p => do
    let s ← I.slotOf env T p.2
    let ptr ← index ptrs s
    readAs (T p.1) ptr)

/-- `component_group.rs:98-108`, `167-181` `pointers_as_ref_tuple` and `pointers_as_mut_ref_tuple`: the types and the
pointers of the references. A reference must not be null. -/
def pointersAsRefTuple {α : Type} (env : Env) (I : GroupImpl) (T : Nat → CompTy) (ptrs : List (Option α)) :
    M (List (CompTy × α)) :=
  I.elems.mapM (fun p => do
    let s ← I.slotOf env T p.2
    let ptr ← index ptrs s
    match ptr with
    | none => .error (.ub .nullDeref)
    | some x => .ok (T p.1, x))

/-- `component_group.rs:110-123`, `183-199` `slice_unchecked` and `slice_unchecked_mut`: the types, starts and lengths of
the slices. -/
def sliceUnchecked {α : Type} (env : Env) (I : GroupImpl) (T : Nat → CompTy) (ptrs : List (Option α)) (len : Nat) :
    M (List (CompTy × α × Nat)) :=
  I.elems.mapM (fun p => do
    let s ← I.slotOf env T p.2
    let ptr ← index ptrs s
    match ptr with
    | none => .error (.ub .nullDeref)
    | some x => .ok (T p.1, x, len))

end GroupImpl

end Shard
