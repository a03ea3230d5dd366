import Verif.Model.Borrows
/-!
# The references the shared iterators and `get_components` make on their way

As `Model/Borrows`, for the functions with `&self`. `S` is the tag of the `&` to the registry that all these calls share,
so several iterators can be alive at once. The pointers and lengths of the slices are those of the `mut` versions (the code
differs from them only in `&` for `&mut`). At the end, programs that borrow the registry several times, one after the other.
-/

set_option autoImplicit false

namespace Shard.Borrow

variable (env : Env)

/-- `archetype_iter.rs:47-54`, `filter_archetype_iter.rs:52-60`: one iteration of the inner loop of `next`, at archetype
`i`: `get_unchecked` makes a `&` to the slice, then one to archetype `i`. Result: the tag of the returned reference. -/
def visitRef (S : Nat) (gd : ArchetypeDescriptor) (filter : Option (ArchetypeDescriptor → Bool)) (ar : ArchetypeRegistry)
    (i : Nat) (a : Archetype) (σ : State) : BM (Option Nat × State) := do
  let (t1, σ) ← σ.retag S .ref (structs ar)
  let (t2, σ) ← σ.retag t1 .ref [.struct i]
  let σ ← peek σ t2 i
  if a.descriptor.containsSubset gd then
    match filter with
    | none =>
      let (t3, σ) ← σ.retag t2 .ref [.struct i]
      return (some t3, σ)
    | some f =>
      let σ ← peek σ t2 i
      if f a.descriptor then
        let (t3, σ) ← σ.retag t2 .ref [.struct i]
        return (some t3, σ)
      else return (none, σ)
  else return (none, σ)

/-- `archetype_iter.rs:33-60`, `filter_archetype_iter.rs:38-66`: `next` of `ArchetypeIter` and `FilterArchetypeIter`. -/
def archNextRef (S : Nat) (g : Group) (filter : Option (ArchetypeDescriptor → Bool)) (ar : ArchetypeRegistry) (it : ArchIter)
    (σ : State) : BM (Option (Nat × Nat) × ArchIter × State) :=
  if ¬ (g.descriptor env).isValid then .ok (none, it, σ)
  else nextLoop (visitRef S (g.descriptor env).archetype filter ar) ar (MAX_COMPONENTS_PER_ENTITY - it.level) it σ

/-- `component_group.rs:110-115`, `183-190` `slice_unchecked`, `99-103`, `167-173` `pointers_as_ref_tuple`: a `&` to each
slice (or to each value: a slice of one element). -/
def slicesRef (T : Tags) (i : Nat) : List SliceRef → State → BM (List (SliceRef × Nat) × State)
  | [], σ => .ok ([], σ)
  | s :: ss, σ => do
    let (t, σ) ← σ.retag (T.col i s.base.col) .ref (bytesAt i s 0 s.len)
    let (rest, σ) ← slicesRef T i ss σ
    return ((s, t) :: rest, σ)

/-- `data_access.rs:193-195` `entities`, by the functions that also return the entity slice (`ents`). -/
def entitiesIf (T : Tags) (ents : Bool) (i : Nat) (a : Archetype) (t : Nat) (σ : State) : BM (Option (Nat × Nat) × State) :=
  if ents then do
    let (x, σ) ← entitiesRef T i a t σ
    return (some x, σ)
  else .ok (none, σ)

/-- `data_access.rs:120-126` `get_fuzzy_slices_unchecked`, `147-156` `get_entity_fuzzy_slices_unchecked` (`ents`) on the
archetype `i`, through a reference with tag `t`. -/
def fuzzySlicesRef (T : Tags) (g : Group) (ents : Bool) (i : Nat) (a : Archetype) (t : Nat) (σ : State) :
    BM (Held × State) := do
  let (t1, σ) ← σ.retag t .ref [.struct i]
  let σ ← peek σ t1 i
  let (es, σ) ← entitiesIf T ents i a t1 σ
  let ss ← lift (a.getFuzzySlicesUncheckedMut env g)
  let σ ← peek σ t1 i
  let (ss, σ) ← slicesRef T i ss σ
  return (⟨i, ss, es⟩, σ)

/-- `matching_iter.rs:26-29`, `52-55`, `filter_matching_iter.rs:29-32`, `67-70`: `next` of the four iterators
handed to the user (`ents`: those that also yield the entity slice). -/
def nextRef (T : Tags) (S : Nat) (g : Group) (filter : Option (ArchetypeDescriptor → Bool)) (ents : Bool)
    (ar : ArchetypeRegistry) (it : ArchIter) (σ : State) : BM (Option Held × ArchIter × State) := do
  let (o, it, σ) ← archNextRef env S g filter ar it σ
  match o with
  | none => return (none, it, σ)
  | some (i, t) =>
    let a ← lift (indexUnchecked ar.archetypes i)
    let (h, σ) ← fuzzySlicesRef env T g ents i a t σ
    return (some h, it, σ)

/-- `registry.rs:465-472` `iter_components_exact`, `490-500` `iter_entity_components_exact` (`ents`). -/
def exactRef (T : Tags) (S : Nat) (r : Registry) (g : Group) (ents : Bool) (σ : State) : BM (Option Held × State) := do
  let o ← lift (r.archetypes.findArchetype env (g.descriptor env).archetype)
  match o with
  | none => return (none, σ)
  | some i =>
    let a ← lift (index r.archetypes.archetypes i)
    let (t, σ) ← σ.retag S .ref [.struct i]
    let (es, σ) ← entitiesIf T ents i a t σ
    let (t1, σ) ← σ.retag t .ref [.struct i]
    let σ ← peek σ t1 i
    let ss ← lift (a.getSlicesUncheckedExactMut env g)
    let (ss, σ) ← slicesRef T i ss σ
    return (some ⟨i, ss, es⟩, σ)

/-- `registry.rs:146-166` `get_components` (and, for a single component, `128-141` `get_component`): reads the descriptor
through the `&Archetype`, then `data_access.rs:44-51` `get_fuzzy_components_unchecked`. -/
def componentsRef (T : Tags) (S : Nat) (r : Registry) (g : Group) (e : Entity) (σ : State) : BM (Option Held × State) := do
  let o ← lift (r.getComponentsMut env g e)
  match o with
  | none => return (none, σ)
  | some (i, ps) =>
    let (t, σ) ← σ.retag S .ref [.struct i]
    let σ ← peek σ t i
    let (t1, σ) ← σ.retag t .ref [.struct i]
    let σ ← peek σ t1 i
    let (ss, σ) ← slicesRef T i (oneElem ps) σ
    return (some ⟨i, ss, none⟩, σ)

/-! ## Programs -/

/-- A shared iterator: its type, its state, and what it has yielded (without the tags). -/
structure SharedIter where
  group : Group
  filter : Option (ArchetypeDescriptor → Bool)
  ents : Bool
  it : ArchIter
  got : List (Nat × List SliceRef)

/-- What a program with a `&Registry` can do. -/
inductive SharedAct
  /-- make an iterator -/
  | iter (g : Group) (filter : Option (ArchetypeDescriptor → Bool)) (ents : Bool)
  /-- call `next` of the `n`-th iterator -/
  | next (n : Nat)
  /-- the exact iterators -/
  | exact (g : Group) (ents : Bool)
  /-- `get_components` -/
  | components (g : Group) (e : Entity)
  /-- read element `k` of slice `j` of the `n`-th thing held -/
  | read (n j k : Nat)
  /-- read element `k` of the entity slice of the `n`-th thing held -/
  | readEntity (n k : Nat)

/-- The state of such a program. -/
structure SharedState where
  iters : List SharedIter
  held : List Held
  borrows : State

/-- One step. -/
def SharedAct.run (T : Tags) (S : Nat) (r : Registry) (s : SharedState) : SharedAct → BM SharedState
  | .iter g filter ents => do
    let it ← lift (ArchIter.new env g)
    return { s with iters := s.iters ++ [⟨g, filter, ents, it, []⟩] }
  | .next n =>
    match s.iters[n]? with
    | none => .ok s
    | some x => do
      let (o, it, σ) ← nextRef env T S x.group x.filter x.ents r.archetypes x.it s.borrows
      return ⟨s.iters.set n { x with it := it, got := x.got ++ (o.toList.map (fun h => (h.arch, h.slices.map Prod.fst))) },
        s.held ++ o.toList, σ⟩
  | .exact g ents => do
    let (o, σ) ← exactRef env T S r g ents s.borrows
    return { s with held := s.held ++ o.toList, borrows := σ }
  | .components g e => do
    let (o, σ) ← componentsRef env T S r g e s.borrows
    return { s with held := s.held ++ o.toList, borrows := σ }
  | .read n j k => do
    let σ ← (Use.elem n j k false).run s.held s.borrows
    return { s with borrows := σ }
  | .readEntity n k => do
    let σ ← (Use.entity n k).run s.held s.borrows
    return { s with borrows := σ }

/-- Several steps. -/
def runShared (T : Tags) (S : Nat) (r : Registry) : List SharedAct → SharedState → BM SharedState
  | [], s => .ok s
  | a :: as, s => do
    let s ← a.run env T S r s
    runShared T S r as s

/-- The caller makes a `&` to the registry and runs a program with it. -/
def shared (T : Tags) (r : Registry) (acts : List SharedAct) (σ : State) : BM SharedState := do
  let (S, σ) ← σ.retag T.registry .ref (structs r.archetypes)
  runShared env T S r acts ⟨[], [], σ⟩

/-- A period during which the registry is borrowed. -/
inductive Session
  /-- a mutable iterator: `next` and uses in any order -/
  | iterMut (g : Group) (filter : Option (ArchetypeDescriptor → Bool)) (ents : Bool) (acts : List Act)
  | exactMut (g : Group) (uses : List Use)
  | entityExactMut (g : Group) (uses : List Use)
  | componentsMut (g : Group) (e : Entity) (uses : List Use)
  /-- any number of shared borrows -/
  | shared (acts : List SharedAct)

/-- Run a session: the caller makes a `&mut` (or `&`) to the registry, for this session. -/
def Session.run (T : Tags) (r : Registry) (σ : State) : Session → BM State
  | .iterMut g filter ents acts => do
    let (t, σ) ← σ.retag T.registry .mutRef (structs r.archetypes)
    let it ← lift (ArchIter.new env g)
    let x ← Borrow.run env { T with registry := t } g filter ents r.archetypes acts [] it σ
    return x.2.2
  | .exactMut g uses => do
    let (t, σ) ← σ.retag T.registry .mutRef (structs r.archetypes)
    let (o, σ) ← Borrow.exactMut env { T with registry := t } r g σ
    runUses o.toList uses σ
  | .entityExactMut g uses => do
    let (t, σ) ← σ.retag T.registry .mutRef (structs r.archetypes)
    let (o, σ) ← Borrow.entityExactMut env { T with registry := t } r g σ
    runUses o.toList uses σ
  | .componentsMut g e uses => do
    let (t, σ) ← σ.retag T.registry .mutRef (structs r.archetypes)
    let (o, σ) ← Borrow.componentsMut env { T with registry := t } r g e σ
    runUses o.toList uses σ
  | .shared acts => do
    let s ← Borrow.shared env T r acts σ
    return s.borrows

/-- One session after the other. -/
def runSessions (T : Tags) (r : Registry) : List Session → State → BM State
  | [], σ => .ok σ
  | x :: xs, σ => do
    let σ ← x.run env T r σ
    runSessions T r xs σ

end Shard.Borrow
