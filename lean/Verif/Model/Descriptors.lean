import Verif.Model.Fnv1a
/-!
# `src/descriptors/`

`[ComponentDescriptor; MAX_COMPONENTS_PER_ENTITY]` is a list of length 14.
-/

namespace Shard

/-- A Rust type implementing `Component` (`component.rs:11-18`): `ty` is the identity of the type, `id` its `ID`
constant, `size`/`align` its `size_of`/`align_of`. (`NAME` only matters for the default of `ID`,
see `CompTy.ofName`.) -/
structure CompTy where
  ty : Nat
  id : UInt16
  size : Nat
  align : Nat
  deriving DecidableEq, Repr

/-- `component.rs:15` the default `ID` of a component type: the 16-bit hash of its `NAME`. -/
def CompTy.ofName (env : Env) (ty : Nat) (name : List UInt8) (size align : Nat) : CompTy :=
  ⟨ty, fnv1aHashStr16Xor env name, size, align⟩

/-! ## `component_type_id.rs` -/

/-- `component_type_id.rs:21`. -/
def COMPONENT_TYPE_ID_INVALID : UInt16 := 65535

/-! ## `component_descriptor.rs` -/

/-- `component_descriptor.rs:137-140`: the function `drop_handler_wrapper::<C>`, identified by the type `C` and the size
and alignment of `C` (of the slice it forms). -/
structure DropFn where
  ty : Nat
  size : Nat
  align : Nat
  deriving DecidableEq, Repr

/-- `component_descriptor.rs:42-47`. `drop` is the `drop_handler` function pointer (`component_descriptor.rs:33-35`):
`some f` is `drop_handler_wrapper` of some type, `none` is the dummy of `ComponentDescriptor::INVALID`. -/
structure ComponentDescriptor where
  id : UInt16
  size : Nat
  align : Nat
  drop : Option DropFn
  deriving DecidableEq, Repr

/-- `component_descriptor.rs:102-112` `ComponentDescriptor::INVALID`. -/
def ComponentDescriptor.INVALID : ComponentDescriptor := ⟨COMPONENT_TYPE_ID_INVALID, 0, 0, none⟩

/-- `component_descriptor.rs:116-132` `ComponentDescriptor::new`. -/
def ComponentDescriptor.new (id : UInt16) (size align : Nat) (drop : Option DropFn) : ComponentDescriptor :=
  if id = COMPONENT_TYPE_ID_INVALID then ComponentDescriptor.INVALID else ⟨id, size, align, drop⟩

/-- `component_descriptor.rs:8-19` `define_component_descriptor!` (`Component::DESCRIPTOR`, `component.rs:17`):
the sizes are cast with `as u16`. -/
def CompTy.descriptor (c : CompTy) : ComponentDescriptor :=
  ⟨c.id, c.size % 65536, c.align % 65536, some ⟨c.ty, c.size, c.align⟩⟩

/-! ## `archetype_id.rs` -/

/-- `archetype_id.rs:17` `ArchetypeId::INVALID`. -/
def ARCHETYPE_ID_INVALID : UInt32 := 4294967295

/-! ## `archetype_descriptor.rs` -/

/-- `archetype_descriptor.rs:11-15`. -/
structure ArchetypeDescriptor where
  archetypeId : UInt32
  comps : List ComponentDescriptor
  len : Nat
  deriving DecidableEq, Repr

namespace ArchetypeDescriptor

/-- `archetype_descriptor.rs:19-23` `INVALID`. -/
def INVALID : ArchetypeDescriptor :=
  ⟨ARCHETYPE_ID_INVALID, List.replicate MAX_COMPONENTS_PER_ENTITY ComponentDescriptor.INVALID, 0⟩

/-- `archetype_descriptor.rs:28-30` `is_valid`. -/
def isValid (d : ArchetypeDescriptor) : Bool := d.archetypeId != ARCHETYPE_ID_INVALID

/-- `archetype_descriptor.rs:33-46` `new`. -/
def new (id : UInt32) (len : Nat) (comps : List ComponentDescriptor) : ArchetypeDescriptor :=
  if len = 0 ∨ id = ARCHETYPE_ID_INVALID then INVALID else ⟨id, comps, len⟩

/-- `archetype_descriptor.rs:205-207` `components()`: `&self.components[0..self.len]`
(the slicing panics for `len > 14`, which no descriptor of the crate has). -/
def components (d : ArchetypeDescriptor) : List ComponentDescriptor := d.comps.take d.len

/-- `archetype_descriptor.rs:57-67`: the byte buffer that is hashed. All call sites pass at most 14 descriptors
(a sub-slice of a 14-element array), so the indexing `bytes[2*i+j]` is in bounds. -/
def idBytes (env : Env) (ds : List ComponentDescriptor) : List UInt8 :=
  (List.range ds.length).foldl
    (fun bytes i =>
      let b := u16ToNeBytes env ((ds.getD i ComponentDescriptor.INVALID).id)
      (bytes.set (i * 2 + 0) b.1).set (i * 2 + 1) b.2)
    (List.replicate (MAX_COMPONENTS_PER_ENTITY * 2) 0)

/-- `archetype_descriptor.rs:49-69` `compute_archetype_id`. -/
def computeArchetypeId (env : Env) (ds : List ComponentDescriptor) : UInt32 :=
  match ds with
  | [] => ARCHETYPE_ID_INVALID
  | [d] => d.id.toUInt32
  | ds => fnv1aHash32 (idBytes env ds) (some (idBytes env ds).length)

/-- `archetype_descriptor.rs:77-92`: the `'outer_loop` of `contains_subset` from position `i`, `n` iterations left. -/
def containsLoop (self other : ArchetypeDescriptor) : (n i : Nat) → Bool
  | 0, _ => true
  | n + 1, i =>
    -- inner loop: is there a `j < self.len()` with an equal id?
    if (List.range self.len).any (fun j =>
        (self.comps.getD j ComponentDescriptor.INVALID).id == (other.comps.getD i ComponentDescriptor.INVALID).id)
    then containsLoop self other n (i + 1)
    else false

/-- `archetype_descriptor.rs:73-94` `contains_subset`. -/
def containsSubset (self other : ArchetypeDescriptor) : Bool :=
  if other.len > self.len then false else containsLoop self other other.len 0

/-- `archetype_descriptor.rs:98-115` `excludes_subset`. -/
def excludesSubset (self other : ArchetypeDescriptor) : Bool :=
  (List.range other.len).all (fun i => (List.range self.len).all (fun j =>
    !((self.comps.getD j ComponentDescriptor.INVALID).id == (other.comps.getD i ComponentDescriptor.INVALID).id)))

/-- `archetype_descriptor.rs:126-151` `add_component`. All array accesses are checked: for `len = 13` the shifting
loop writes `v.components[14]`. -/
def addComponent (env : Env) (self : ArchetypeDescriptor) (cd : ComponentDescriptor) :
    M (Option ArchetypeDescriptor) :=
  if self.len = MAX_COMPONENTS_PER_ENTITY then .ok none
  else
    match binarySearchByKey (self.comps.take self.len) cd.id.toNat (fun e => e.id.toNat) with
    | .found _ => .ok none
    | .insertAt ins => do
      -- `for i in insertion_index..self.len() as usize + 1`
      let comps ← forRange ins (self.len + 1 - ins) (fun i v => do
        let x ← index self.comps i
        setIndex v (i + 1) x) self.comps
      let comps ← setIndex comps ins cd
      let len := self.len + 1
      return some ⟨computeArchetypeId env (comps.take len), comps, len⟩

/-- `archetype_descriptor.rs:153-173` `remove_component`. For `len = 14` the shifting loop reads
`self.components[14]`. -/
def removeComponent (env : Env) (self : ArchetypeDescriptor) (id : UInt16) :
    M (Option ArchetypeDescriptor) :=
  if self.len = 1 then .ok none
  else
    match binarySearchByKey (self.comps.take self.len) id.toNat (fun e => e.id.toNat) with
    | .found fi => do
      -- `for i in found_index..self.len() as usize`
      let comps ← forRange fi (self.len - fi) (fun i v => do
        let x ← index self.comps (i + 1)
        setIndex v i x) self.comps
      let len := self.len - 1
      return some ⟨computeArchetypeId env (comps.take len), comps, len⟩
    | .insertAt _ => .ok none

/-- `archetype_descriptor.rs:176-181` `has_component`. -/
def hasComponent (self : ArchetypeDescriptor) (c : CompTy) : Bool :=
  (binarySearchByKey self.components c.id.toNat (fun e => e.id.toNat)).isFound

end ArchetypeDescriptor

/-- `component_descriptor.rs:49-97` `Into<ArchetypeDescriptor>` (both impls), with the id conversion of
`component_type_id.rs:14-18`. -/
def ComponentDescriptor.intoArchetype (d : ComponentDescriptor) : ArchetypeDescriptor :=
  ArchetypeDescriptor.new d.id.toUInt32 1
    (d :: List.replicate (MAX_COMPONENTS_PER_ENTITY - 1) ComponentDescriptor.INVALID)

/-! ## `component_group_descriptor.rs` -/

/-- `component_group_descriptor.rs:13-17`. -/
structure ComponentGroupDescriptor where
  archetype : ArchetypeDescriptor
  sortedToUnsorted : List Nat
  unsortedToSorted : List Nat
  deriving DecidableEq, Repr

namespace ComponentGroupDescriptor

/-- `component_group_descriptor.rs:20-24` `INVALID`. -/
def INVALID : ComponentGroupDescriptor :=
  ⟨ArchetypeDescriptor.INVALID, List.replicate MAX_COMPONENTS_PER_ENTITY 0, List.replicate MAX_COMPONENTS_PER_ENTITY 0⟩

/-- `component_group_descriptor.rs:26-28`. -/
def isValid (d : ComponentGroupDescriptor) : Bool := d.archetype.isValid

/-- `component_group_descriptor.rs:50-52`. -/
def len (d : ComponentGroupDescriptor) : Nat := d.archetype.len

/-- `component_group_descriptor.rs:35-40` `as_unsorted`. -/
def asUnsorted (d : ComponentGroupDescriptor) (sortedIndex : Nat) : M ComponentDescriptor := do
  let i ← index d.sortedToUnsorted sortedIndex
  index d.archetype.comps i

/-- `component_group_descriptor.rs:82-104` `validate_component_descriptors`. -/
def validate (ds : List ComponentDescriptor) : Bool :=
  if ds.isEmpty || decide (ds.length > MAX_COMPONENTS_PER_ENTITY) then false
  else
    (List.range ds.length).all (fun i => (List.range' (i + 1) (ds.length - (i + 1))).all (fun c =>
      !((ds.getD i ComponentDescriptor.INVALID).id == (ds.getD c ComponentDescriptor.INVALID).id)))

/-- `component_group_descriptor.rs:123-130`: compare positions `i` and `j`, exchange them if out of order.
Both are `< N ≤ 14`, so in bounds. -/
def sortStep (l : List ComponentDescriptor) (i j : Nat) : List ComponentDescriptor :=
  let x := l.getD i ComponentDescriptor.INVALID
  let y := l.getD j ComponentDescriptor.INVALID
  if y.id < x.id then (l.set i y).set j x else l

/-- `component_group_descriptor.rs:121-132`: `j` from the given value, `n` iterations left. -/
def sortInner (i : Nat) : (n j : Nat) → List ComponentDescriptor → List ComponentDescriptor
  | 0, _, l => l
  | n + 1, j, l => sortInner i n (j + 1) (sortStep l i j)

/-- `component_group_descriptor.rs:120-134`: `i` from the given value, `n` iterations left, `N` elements. -/
def sortOuter (N : Nat) : (n i : Nat) → List ComponentDescriptor → List ComponentDescriptor
  | 0, _, l => l
  | n + 1, i, l => sortOuter N n (i + 1) (sortInner i (N - (i + 1)) (i + 1) l)

/-- `component_group_descriptor.rs:109-137` `compute_sorted_descriptors`; the input is copied into a 14-element array
padded with `INVALID`. -/
def computeSortedDescriptors (ds : List ComponentDescriptor) : List ComponentDescriptor :=
  sortOuter ds.length ds.length 0
    (ds ++ List.replicate (MAX_COMPONENTS_PER_ENTITY - ds.length) ComponentDescriptor.INVALID)

/-- `component_group_descriptor.rs:151-168`: one of the two inner assignments. The loop over `j` stores the last
`j < N` with an equal id, starting from the array's initial 0. -/
def lastMatch (N : Nat) (l : List ComponentDescriptor) (id : UInt16) : Nat :=
  (List.range N).foldl (fun acc j => if (l.getD j ComponentDescriptor.INVALID).id = id then j else acc) 0

/-- `component_group_descriptor.rs:141-170` `compute_sort_mappings`: `(unsorted_to_sorted, sorted_to_unsorted)`. -/
def computeSortMappings (unsorted sorted : List ComponentDescriptor) : List Nat × List Nat :=
  let N := unsorted.length
  let pad := List.replicate (MAX_COMPONENTS_PER_ENTITY - N) 0
  ((List.range N).map (fun i => lastMatch N sorted (unsorted.getD i ComponentDescriptor.INVALID).id) ++ pad,
   (List.range N).map (fun i => lastMatch N unsorted (sorted.getD i ComponentDescriptor.INVALID).id) ++ pad)

/-- `component_group_descriptor.rs:56-80` `new`. Note that the id is computed from the whole 14-element array,
including the `INVALID` padding. -/
def new (env : Env) (ds : List ComponentDescriptor) : ComponentGroupDescriptor :=
  if !validate ds then INVALID
  else
    let sorted := computeSortedDescriptors ds
    let id := ArchetypeDescriptor.computeArchetypeId env sorted
    if id = ARCHETYPE_ID_INVALID then INVALID
    else
      let m := computeSortMappings ds sorted
      let value : ComponentGroupDescriptor := ⟨ArchetypeDescriptor.new id ds.length sorted, m.2, m.1⟩
      if value.archetype.archetypeId = ARCHETYPE_ID_INVALID then INVALID else value

end ComponentGroupDescriptor

/-! ## The `ComponentGroup` trait's constant -/

/-- A type implementing `ComponentGroup` (`component_group.rs:80-131` a single component,
`component_group.rs:133-202` a tuple): its component types in tuple order. -/
abbrev Group := List CompTy

/-- `component_group.rs:87-88`, `152-153`: `G::DESCRIPTOR`. -/
def Group.descriptor (env : Env) (g : Group) : ComponentGroupDescriptor :=
  ComponentGroupDescriptor.new env (g.map CompTy.descriptor)

/-- The position in the sorted pointer array used for tuple position `i`: `Self::DESCRIPTOR.unsorted_to_sorted(i)`
for tuples (`component_group.rs:157,163,171,179,188,197`), `0` for a single component
(`component_group.rs:91,95,101,107,114,121`). -/
def Group.slot (env : Env) (g : Group) (i : Nat) : Nat :=
  match g with
  | [_] => 0
  | g => (g.descriptor env).unsortedToSorted.getD i 0

end Shard
