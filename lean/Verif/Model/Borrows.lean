import Verif.Spec.Borrows
/-!
# The references the mutable iterators and `get_components_mut` make on their way

The functions of `Model/Iterators` and `Model/Registry` that hand out `&mut` references, with every reference they make on
the way and every use of one. What they compute is computed by the functions of the model; `σ` is the state of the borrow
stacks, `t1`, `t2`, … are tags. The reborrow of `self` that every method call makes is included.
-/

set_option autoImplicit false

namespace Shard.Borrow

variable (env : Env)

/-- All archetypes of the slice `self.archetypes`. -/
def structs (ar : ArchetypeRegistry) : List Loc := (List.range ar.archetypes.length).map .struct

/-- A method with `&self` that only reads the archetype: `descriptor` (`archetype/mod.rs:73-75`) and what is read
through its result, `get_fuzzy_pointers_unchecked` (`data_access.rs:544-570`), `len` (`data_access.rs:178-180`),
`has_component`, `contains_subset`, `self.pointers` and `self.descriptor`. -/
def peek (σ : State) (t i : Nat) : BM State := do
  let (t1, σ) ← σ.retag t .ref [.struct i]
  σ.access false t1 [.struct i]

/-- `archetype_iter_mut.rs:47-56`, `filter_archetype_iter_mut.rs:53-63`: one iteration of the inner loop of `next`, at
archetype `i`. `self.archetypes.as_mut_ptr()` makes a `&mut` to the whole slice and from it a raw pointer;
`&mut *….offset(i)` makes a `&mut` to archetype `i`; a filter gets a `&` to its descriptor; returning makes a new `&mut`.
Result: the tag of the returned reference, if any. -/
def visit (T : Tags) (gd : ArchetypeDescriptor) (filter : Option (ArchetypeDescriptor → Bool)) (ar : ArchetypeRegistry)
    (i : Nat) (a : Archetype) (σ : State) : BM (Option Nat × State) := do
  let (t1, σ) ← σ.retag T.registry .mutRef (structs ar)
  let (t2, σ) ← σ.retag t1 .raw (structs ar)
  let (t3, σ) ← σ.retag t2 .mutRef [.struct i]
  let σ ← peek σ t3 i
  if a.descriptor.containsSubset gd then
    match filter with
    | none =>
      let (t4, σ) ← σ.retag t3 .mutRef [.struct i]
      return (some t4, σ)
    | some f =>
      let σ ← peek σ t3 i
      if f a.descriptor then
        let (t4, σ) ← σ.retag t3 .mutRef [.struct i]
        return (some t4, σ)
      else return (none, σ)
  else return (none, σ)

/-- `archetype_iter_mut.rs:42-57`, `filter_archetype_iter_mut.rs:48-64`, `archetype_iter.rs:42-55`,
`filter_archetype_iter.rs:47-61`: the inner loop; as `ArchIter.nextInLevel`. `visit` is one iteration. -/
def nextInLevel (visit : Nat → Archetype → State → BM (Option Nat × State))
    (ar : ArchetypeRegistry) (level : List SortedArchetypeKey) :
    (n idx : Nat) → State → BM (Option (Nat × Nat) × Nat × State)
  | 0, idx, σ => .ok (none, idx, σ)
  | n + 1, idx, σ =>
    if idx < level.length then do
      let k ← lift (indexUnchecked level idx)
      let a ← lift (indexUnchecked ar.archetypes k.archetypeIndex.toNat)
      let (o, σ) ← visit k.archetypeIndex.toNat a σ
      match o with
      | some t => return (some (k.archetypeIndex.toNat, t), idx + 1, σ)
      | none => nextInLevel visit ar level n (idx + 1) σ
    else .ok (none, idx, σ)

/-- `archetype_iter_mut.rs:38-62`, `filter_archetype_iter_mut.rs:44-69`, `archetype_iter.rs:37-60`,
`filter_archetype_iter.rs:42-66`: the outer loop; as `ArchIter.nextLoop`. -/
def nextLoop (visit : Nat → Archetype → State → BM (Option Nat × State))
    (ar : ArchetypeRegistry) : (n : Nat) → ArchIter → State → BM (Option (Nat × Nat) × ArchIter × State)
  | 0, it, σ => .ok (none, it, σ)
  | n + 1, it, σ =>
    if it.level < MAX_COMPONENTS_PER_ENTITY then do
      let level ← lift (indexUnchecked ar.sortedMappings it.level)
      let (o, idx, σ) ← nextInLevel visit ar level (level.length - it.idx) it.idx σ
      match o with
      | some x => return (some x, ⟨it.level, idx⟩, σ)
      | none => nextLoop visit ar n ⟨it.level + 1, 0⟩ σ
    else .ok (none, it, σ)

/-- `archetype_iter_mut.rs:33-63`, `filter_archetype_iter_mut.rs:39-70`: `next` of `ArchetypeIterMut` and
`FilterArchetypeIterMut`; as `ArchIter.next`. The item is a `&mut Archetype`: its position and its tag. -/
def archNext (T : Tags) (g : Group) (filter : Option (ArchetypeDescriptor → Bool)) (ar : ArchetypeRegistry) (it : ArchIter)
    (σ : State) : BM (Option (Nat × Nat) × ArchIter × State) :=
  if ¬ (g.descriptor env).isValid then .ok (none, it, σ)
  else nextLoop (visit T (g.descriptor env).archetype filter ar) ar (MAX_COMPONENTS_PER_ENTITY - it.level) it σ

/-- `component_group.rs:117-122`, `192-199` `slice_unchecked_mut`, `104-108`, `175-181` `pointers_as_mut_ref_tuple`: a
`&mut` to each slice (or to each value: a slice of one element), made from the pointer the allocator returned. -/
def slicesMut (T : Tags) (i : Nat) : List SliceRef → State → BM (List (SliceRef × Nat) × State)
  | [], σ => .ok ([], σ)
  | s :: ss, σ => do
    let (t, σ) ← σ.retag (T.col i s.base.col) .mutRef (bytesAt i s 0 s.len)
    let (rest, σ) ← slicesMut T i ss σ
    return ((s, t) :: rest, σ)

/-- `data_access.rs:193-195` `entities`: reads the archetype and makes a `&` to the entity slice. -/
def entitiesRef (T : Tags) (i : Nat) (a : Archetype) (t : Nat) (σ : State) : BM ((Nat × Nat) × State) := do
  let σ ← peek σ t i
  let (t1, σ) ← σ.retag (T.ent i) .ref ((List.range a.entityCount).map (.entity i))
  return ((a.entityCount, t1), σ)

/-- `data_access.rs:133-139` `get_fuzzy_slices_unchecked_mut` on the archetype `i`, through a reference with tag `t`. -/
def fuzzySlicesMut (T : Tags) (g : Group) (i : Nat) (a : Archetype) (t : Nat) (σ : State) : BM (Held × State) := do
  let (t1, σ) ← σ.retag t .mutRef [.struct i]
  let σ ← peek σ t1 i
  let ss ← lift (a.getFuzzySlicesUncheckedMut env g)
  let (ss, σ) ← slicesMut T i ss σ
  return (⟨i, ss, none⟩, σ)

/-- `data_access.rs:164-173` `get_entity_fuzzy_slices_unchecked_mut`. -/
def entityFuzzySlicesMut (T : Tags) (g : Group) (i : Nat) (a : Archetype) (t : Nat) (σ : State) : BM (Held × State) := do
  let (t1, σ) ← σ.retag t .mutRef [.struct i]
  let σ ← peek σ t1 i
  let (es, σ) ← entitiesRef T i a t1 σ
  let x ← lift (a.getEntityFuzzySlicesUncheckedMut env g)
  let σ ← peek σ t1 i
  let (ss, σ) ← slicesMut T i x.2 σ
  return (⟨i, ss, some es⟩, σ)

/-- `matching_iter_mut.rs:26-29`, `52-55`, `filter_matching_iter_mut.rs:34-37`, `76-79`: `next` of the four iterators
handed to the user (`ents`: those that also yield the entity slice). -/
def next (T : Tags) (g : Group) (filter : Option (ArchetypeDescriptor → Bool)) (ents : Bool) (ar : ArchetypeRegistry)
    (it : ArchIter) (σ : State) : BM (Option Held × ArchIter × State) := do
  let (o, it, σ) ← archNext env T g filter ar it σ
  match o with
  | none => return (none, it, σ)
  | some (i, t) =>
    let a ← lift (indexUnchecked ar.archetypes i)
    let (h, σ) ← if ents then entityFuzzySlicesMut env T g i a t σ else fuzzySlicesMut env T g i a t σ
    return (some h, it, σ)

/-- A program that has a mutable iterator: it calls `next`, or uses something it got before. -/
inductive Act
  | next
  | use (u : Use)

/-- Run such a program. Result: what it holds, the state of the iterator and of the stacks. -/
def run (T : Tags) (g : Group) (filter : Option (ArchetypeDescriptor → Bool)) (ents : Bool) (ar : ArchetypeRegistry) :
    List Act → List Held → ArchIter → State → BM (List Held × ArchIter × State)
  | [], held, it, σ => .ok (held, it, σ)
  | .next :: acts, held, it, σ => do
    let (o, it, σ) ← next env T g filter ents ar it σ
    run T g filter ents ar acts (held ++ o.toList) it σ
  | .use u :: acts, held, it, σ => do
    let σ ← u.run held σ
    run T g filter ents ar acts held it σ

/-- Run a program that only uses what it holds. -/
def runUses (held : List Held) : List Use → State → BM State
  | [], σ => .ok σ
  | u :: us, σ => do
    let σ ← u.run held σ
    runUses held us σ

/-- `registry.rs:476-486` `iter_components_exact_mut`: `find_archetype_mut` returned a `&mut` to archetype `i`. -/
def exactMut (T : Tags) (r : Registry) (g : Group) (σ : State) : BM (Option Held × State) := do
  let o ← lift (r.archetypes.findArchetype env (g.descriptor env).archetype)
  match o with
  | none => return (none, σ)
  | some i =>
    let (t1, σ) ← σ.retag T.registry .mutRef [.struct i]
    let σ ← peek σ t1 i
    let a ← lift (index r.archetypes.archetypes i)
    let ss ← lift (a.getSlicesUncheckedExactMut env g)
    let (ss, σ) ← slicesMut T i ss σ
    return (some ⟨i, ss, none⟩, σ)

/-- `registry.rs:504-523` `iter_entity_components_exact_mut`: the entity slice is made through a raw pointer made from the
`&mut Archetype`. -/
def entityExactMut (T : Tags) (r : Registry) (g : Group) (σ : State) : BM (Option Held × State) := do
  let o ← lift (r.archetypes.findArchetype env (g.descriptor env).archetype)
  match o with
  | none => return (none, σ)
  | some i =>
    let a ← lift (index r.archetypes.archetypes i)
    let (t1, σ) ← σ.retag T.registry .mutRef [.struct i]
    let (t2, σ) ← σ.retag t1 .raw [.struct i]
    let (es, σ) ← entitiesRef T i a t2 σ
    let (t3, σ) ← σ.retag T.registry .mutRef [.struct i]
    let σ ← peek σ t3 i
    let ss ← lift (a.getSlicesUncheckedExactMut env g)
    let (ss, σ) ← slicesMut T i ss σ
    return (some ⟨i, ss, some es⟩, σ)

/-- The references of a tuple, as slices of one element. -/
def oneElem (ps : List (CompTy × Option Ref)) : List SliceRef := ps.filterMap (fun x => x.2.map (fun p => ⟨x.1, p, 1⟩))

/-- `registry.rs:186-206` `get_components_mut` (and, for a single component, `169-183` `get_component_mut`): reads the
descriptor through the `&mut Archetype`, then `data_access.rs:57-66` `get_fuzzy_components_unchecked_mut`. -/
def componentsMut (T : Tags) (r : Registry) (g : Group) (e : Entity) (σ : State) : BM (Option Held × State) := do
  let o ← lift (r.getComponentsMut env g e)
  match o with
  | none => return (none, σ)
  | some (i, ps) =>
    let σ ← peek σ T.registry i
    let (t1, σ) ← σ.retag T.registry .mutRef [.struct i]
    let σ ← peek σ t1 i
    let (ss, σ) ← slicesMut T i (oneElem ps) σ
    return (some ⟨i, ss, none⟩, σ)

end Shard.Borrow
