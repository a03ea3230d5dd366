import Verif.Model.SharedBorrows
/-!
# The references the calls that change the registry make on their way

As `Model/Borrows`, for `create_entity`, `destroy_entity`, `remove_entity`, `add_component`, `remove_component` and the
drop of the registry. What they compute is computed by the functions of the model. Now `T.registry` is the pointer of the
vector of archetypes, and `T` changes when memory is allocated.

Simplifications: the entity registry (safe code that makes no raw pointers) and the components that are moved into and out
of a call (on the caller's stack) are left out; `self.pointers[..].iter_mut()` (`data_access.rs:439-441`, `462-464`), which
borrows one field of an archetype while another is read, is modelled as uses of `self`; a call that fails with a fault of
the code (C50) is not followed further.
-/

set_option autoImplicit false

namespace Shard.Borrow

variable (env : Env)

/-- Memory for some locations is allocated: only the new pointer may be used. -/
def State.alloc (σ : State) (p : Loc → Bool) : Nat × State :=
  (σ.next, ⟨fun l => if p l then [⟨σ.next, .sharedRW⟩] else σ.stacks l, σ.next + 1⟩)

/-- The bytes of column `c` of archetype `i`. -/
def Loc.inCol (i c : Nat) : Loc → Bool
  | .byte j d _ => j == i && d == c
  | _ => false

/-- The elements of the entity column of archetype `i`. -/
def Loc.inEnts (i : Nat) : Loc → Bool
  | .entity j _ => j == i
  | _ => false

/-- The archetypes. -/
def Loc.isStruct : Loc → Bool
  | .struct _ => true
  | _ => false

/-- A new pointer to column `c` of archetype `i`. -/
def Tags.setCol (T : Tags) (i c t : Nat) : Tags := { T with col := fun j d => if j = i ∧ d = c then t else T.col j d }

/-- A new pointer to the entity column of archetype `i`. -/
def Tags.setEnt (T : Tags) (i t : Nat) : Tags := { T with ent := fun j => if j = i then t else T.ent j }

/-- `n` values of `size` bytes in column `c` of archetype `i`, from row `k` on. -/
def rows (i c size k n : Nat) : List Loc := (List.range (size * n)).map (fun b => .byte i c (size * k + b))

/-- The first `n` elements of the entity column of archetype `i`. -/
def ents (i n : Nat) : List Loc := (List.range n).map (.entity i)

/-- Do something for each column of an archetype. -/
def forCols {α : Type} (f : Nat → ComponentDescriptor → α → BM α) : Nat → List ComponentDescriptor → α → BM α
  | _, [], x => .ok x
  | c, d :: ds, x => do
    let x ← f c d x
    forCols f (c + 1) ds x

/-! ## Methods of an archetype

`i` is its position, `t` the tag of the `&mut Archetype` the method is called with. -/

/-- A method with `&mut self` that writes fields: `data_access.rs:238-240` `decrement_len_unchecked`. -/
def poke (σ : State) (t i : Nat) : BM State := do
  let (t1, σ) ← σ.retag t .mutRef [.struct i]
  σ.access true t1 [.struct i]

/-- `data_access.rs:198-200` `entities_mut`, then a write of some of the elements. -/
def writeEnts (T : Tags) (i count : Nat) (t : Nat) (ls : List Loc) (σ : State) : BM State := do
  let (t1, σ) ← σ.retag t .mutRef [.struct i]
  let σ ← peek σ t1 i
  let (t2, σ) ← σ.retag (T.ent i) .mutRef (ents i count)
  σ.access true t2 ls

/-- `data_access.rs:193-195` `entities`, then a read of some of the elements. -/
def readEnts (T : Tags) (i count : Nat) (t : Nat) (ls : List Loc) (σ : State) : BM State := do
  let σ ← peek σ t i
  let (t1, σ) ← σ.retag (T.ent i) .ref (ents i count)
  σ.access false t1 ls

/-- `data_access.rs:439-454`: one turn of the loop of `resize_capacity`. Freeing the old memory counts as a write. -/
def reallocCol (i cap t : Nat) (c : Nat) (d : ComponentDescriptor) (x : Tags × State) : BM (Tags × State) := do
  let σ ← x.2.access false t [.struct i]
  let σ ← σ.access true (x.1.col i c) (rows i c d.size 0 cap)
  let y := σ.alloc (Loc.inCol i c)
  let σ ← y.2.access true t [.struct i]
  return (x.1.setCol i c y.1, σ)

/-- `data_access.rs:420-456` `resize_capacity`. -/
def resize (T : Tags) (i : Nat) (a : Archetype) (t : Nat) (σ : State) : BM (Tags × State) := do
  let (t1, σ) ← σ.retag t .mutRef [.struct i]
  let σ ← peek σ t1 i
  let σ ← σ.access true (T.ent i) (ents i a.capacity)
  let y := σ.alloc (Loc.inEnts i)
  let σ ← y.2.access true t1 [.struct i]
  let (T, σ) ← forCols (reallocCol i a.capacity t1) 0 a.descriptor.components (T.setEnt i y.1, σ)
  let σ ← σ.access true t1 [.struct i]
  return (T, σ)

/-- `data_access.rs:503-512` `resize_if_necessary`. -/
def resizeIfNecessary (T : Tags) (i : Nat) (a : Archetype) (t : Nat) (σ : State) : BM (Tags × State) := do
  let (t1, σ) ← σ.retag t .mutRef [.struct i]
  let σ ← peek σ t1 i
  if a.isFull then resize T i a t1 σ else .ok (T, σ)

/-- `data_access.rs:272-304` `write_entity_unchecked`, in an archetype that has `count` entities. -/
def writeEntity (T : Tags) (i : Nat) (d : ArchetypeDescriptor) (count idx t : Nat) (σ : State) : BM State := do
  let (t1, σ) ← σ.retag t .mutRef [.struct i]
  let σ ← peek σ t1 i
  let σ ← forCols (fun c d σ => do
    let σ ← σ.access false t1 [.struct i]
    σ.access true (T.col i c) (rows i c d.size idx 1)) 0 d.components σ
  writeEnts T i count t1 [.entity i idx] σ

/-- `data_access.rs:229-234` `push_uninitialized_entity`. -/
def pushUninitialized (T : Tags) (i : Nat) (a : Archetype) (t : Nat) (σ : State) : BM (Tags × State) := do
  let (t1, σ) ← σ.retag t .mutRef [.struct i]
  let (T, σ) ← resizeIfNecessary T i a t1 σ
  let σ ← peek σ t1 i
  let σ ← σ.access true t1 [.struct i]
  return (T, σ)

/-- `data_access.rs:209-224` `push_entity_unchecked`. -/
def pushEntity (T : Tags) (i : Nat) (a : Archetype) (t : Nat) (σ : State) : BM (Tags × State) := do
  let (t1, σ) ← σ.retag t .mutRef [.struct i]
  let σ ← σ.access false t1 [.struct i]
  let (T, σ) ← resizeIfNecessary T i a t1 σ
  let σ ← peek σ t1 i
  let σ ← σ.access true t1 [.struct i]
  let σ ← writeEntity T i a.descriptor (a.entityCount + 1) a.entityCount t1 σ
  return (T, σ)

/-- `data_access.rs:373-380` `swap_entities`. -/
def swapEntities (T : Tags) (i : Nat) (a : Archetype) (first second t : Nat) (σ : State) : BM State := do
  let (t1, σ) ← σ.retag t .mutRef [.struct i]
  let σ ← forCols (fun c d σ => do
    let σ ← σ.access false t1 [.struct i]
    let σ ← σ.access true (T.col i c) (rows i c d.size first 1)
    σ.access true (T.col i c) (rows i c d.size second 1)) 0 a.descriptor.components σ
  writeEnts T i a.entityCount t1 [.entity i first, .entity i second] σ

/-- `component_descriptor.rs:137-140` `drop_handler_wrapper`: `drop_in_place` makes a `&mut` to the values, through which
the program's `drop` may read and write. -/
def dropRows (T : Tags) (i c size k n : Nat) (σ : State) : BM State := do
  let (t, σ) ← σ.retag (T.col i c) .mutRef (rows i c size k n)
  let σ ← σ.access false t (rows i c size k n)
  σ.access true t (rows i c size k n)

/-- `data_access.rs:385-392` `drop_entity`, `396-400` `drop_entities`: `n` entities from row `k` on. -/
def dropEntities (T : Tags) (i : Nat) (d : ArchetypeDescriptor) (k n t : Nat) (σ : State) : BM State := do
  let (t1, σ) ← σ.retag t .mutRef [.struct i]
  forCols (fun c d σ => do
    let σ ← σ.access false t1 [.struct i]
    dropRows T i c d.size k n σ) 0 d.components σ

/-- `data_access.rs:334-342` `swap_to_last_unchecked`. -/
def swapToLast (T : Tags) (i : Nat) (a : Archetype) (idx t : Nat) (σ : State) : BM State := do
  let (t1, σ) ← σ.retag t .mutRef [.struct i]
  let σ ← peek σ t1 i
  if idx = a.entityCount - 1 then .ok σ else swapEntities T i a idx (a.entityCount - 1) t1 σ

/-- `data_access.rs:313-326` `swap_drop_unchecked`. -/
def swapDrop (T : Tags) (i : Nat) (a : Archetype) (idx t : Nat) (σ : State) : BM State := do
  let (t1, σ) ← σ.retag t .mutRef [.struct i]
  let σ ← swapToLast T i a idx t1 σ
  let σ ← peek σ t1 i
  let σ ← dropEntities T i a.descriptor (a.entityCount - 1) 1 t1 σ
  σ.access true t1 [.struct i]

/-- `data_access.rs:353-366` `swap_remove_unchecked`, with `406-409` `read_components_exact_unchecked`. -/
def swapRemove (T : Tags) (i : Nat) (a : Archetype) (idx t : Nat) (σ : State) : BM State := do
  let (t1, σ) ← σ.retag t .mutRef [.struct i]
  let σ ← swapToLast T i a idx t1 σ
  let σ ← peek σ t1 i
  let (t2, σ) ← σ.retag t1 .ref [.struct i]
  let σ ← forCols (fun c d σ => do
    let σ ← σ.access false t2 [.struct i]
    σ.access false (T.col i c) (rows i c d.size (a.entityCount - 1) 1)) 0 a.descriptor.components σ
  σ.access true t1 [.struct i]

/-- `data_access.rs:245-261` `write_single_component_unchecked` (`w`), `70-81` `read_component_unchecked`: the column with
the given id. -/
def single (w : Bool) (T : Tags) (i : Nat) (d : ArchetypeDescriptor) (id : UInt16) (idx t : Nat) (σ : State) : BM State := do
  let (t1, σ) ← σ.retag t (if w then .mutRef else .ref) [.struct i]
  let σ ← peek σ t1 i
  forCols (fun c x σ => if x.id = id then σ.access w (T.col i c) (rows i c x.size idx 1) else .ok σ) 0 d.components σ

/-- `data_access.rs:515-537` `copy_common_components_between_archetypes_unchecked`, from row `k` of archetype `i` to row
`l` of archetype `j`. -/
def copyCommon (T : Tags) (i : Nat) (a : Archetype) (k t : Nat) (j : Nat) (b : Archetype) (l u : Nat) (σ : State) :
    BM State := do
  let (t1, σ) ← σ.retag t .ref [.struct i]
  let (u1, σ) ← σ.retag u .mutRef [.struct j]
  forCols (fun c x σ => forCols (fun d y σ => do
    let σ ← σ.access false t1 [.struct i]
    let σ ← σ.access false u1 [.struct j]
    if x.id = y.id then
      let σ ← σ.access false (T.col i c) (rows i c x.size k 1)
      σ.access true (T.col j d) (rows j d y.size l 1)
    else .ok σ) 0 b.descriptor.components σ) 0 a.descriptor.components σ

/-! ## The archetype registry -/

/-- The first `n` archetypes of the vector. -/
def archs (n : Nat) : List Loc := (List.range n).map .struct

/-- `mod.rs:213-215` `get_unchecked_mut`, and `self.archetypes[i]`, `last_mut` in `mod.rs:164-201`: a `&mut` to the whole
slice, then one to archetype `i`. -/
def getMut (T : Tags) (n i : Nat) (σ : State) : BM (Nat × State) := do
  let (t, σ) ← σ.retag T.registry .mutRef (archs n)
  σ.retag t .mutRef [.struct i]

/-- `archetype/mod.rs:40-71` `with_capacity`: memory for the columns of the new archetype `i`. -/
def allocCols (i : Nat) (c : Nat) (_ : ComponentDescriptor) (x : Tags × State) : BM (Tags × State) :=
  let y := x.2.alloc (Loc.inCol i c)
  .ok (x.1.setCol i c y.1, y.2)

/-- `mod.rs:193` `self.archetypes.push(archetype)` with `n` archetypes before. If `moved`, the vector is full and its
contents are moved to new memory. -/
def pushArch (T : Tags) (n : Nat) (moved : Bool) (σ : State) : BM (Tags × State) :=
  if moved then do
    let σ ← σ.access true T.registry (archs n)
    let y := σ.alloc Loc.isStruct
    let σ ← y.2.access true y.1 (archs (n + 1))
    return ({ T with registry := y.1 }, σ)
  else do
    let σ ← σ.access true T.registry [.struct n]
    return (T, σ)

/-- `mod.rs:164-201` `find_or_create_archetype`, with the position and the tag of the returned `&mut Archetype`. -/
def findOrCreate (T : Tags) (ar : ArchetypeRegistry) (d : ArchetypeDescriptor) (moved : Bool) (σ : State) :
    BM (ArchetypeRegistry × Option (Nat × Nat) × Tags × State) := do
  let f ← lift (ar.findOrCreateArchetype env d)
  match f.2 with
  | none => return (f.1, none, T, σ)
  | some i =>
    if f.1.archetypes.length = ar.archetypes.length then
      let (t, σ) ← getMut T f.1.archetypes.length i.toNat σ
      return (f.1, some (i.toNat, t), T, σ)
    else
      let y := σ.alloc (Loc.inEnts ar.archetypes.length)
      let (T, σ) ← forCols (allocCols ar.archetypes.length) 0 d.components (T.setEnt ar.archetypes.length y.1, y.2)
      let (T, σ) ← pushArch T ar.archetypes.length moved σ
      let (t, σ) ← getMut T f.1.archetypes.length i.toNat σ
      return (f.1, some (i.toNat, t), T, σ)

/-- `mod.rs:22-37` `disjoint_mut`: `split_at_mut` makes a raw pointer and from it a `&mut` to each part; then a `&mut` to
one archetype of each part. -/
def disjoint (T : Tags) (n i j : Nat) (σ : State) : BM (Nat × Nat × State) := do
  let (t, σ) ← σ.retag T.registry .mutRef (archs n)
  let (t1, σ) ← σ.retag t .mutRef (archs n)
  let (t2, σ) ← σ.retag t1 .raw (archs n)
  let (h, σ) ← σ.retag t2 .mutRef ((archs n).take (min i j + 1))
  let (l, σ) ← σ.retag t2 .mutRef ((archs n).drop (min i j + 1))
  let (t3, σ) ← σ.retag (if i < j then h else l) .mutRef [.struct i]
  let (t4, σ) ← σ.retag (if i < j then l else h) .mutRef [.struct j]
  return (t3, t4, σ)

/-! ## The registry -/

/-- `registry.rs:21-39` `create_entity`. -/
def create (T : Tags) (r : Registry) (g : Group) (vals : List Val) (moved : Bool) (σ : State) :
    BM (Registry × Tags × State) := do
  let x ← lift (r.createEntity env g vals)
  if ¬ (g.descriptor env).isValid then return (x.1, T, σ)
  let (ar, o, T, σ) ← findOrCreate env T r.archetypes (g.descriptor env).archetype moved σ
  match o with
  | none => return (x.1, T, σ)
  | some (i, t) =>
    let a ← lift (index ar.archetypes i)
    let σ ← peek σ t i
    match x.2 with
    | .err _ => return (x.1, T, σ)
    | .ok _ =>
      let (T, σ) ← pushEntity T i a t σ
      return (x.1, T, σ)

/-- `registry.rs:43-66` `destroy_entity`. -/
def destroy (T : Tags) (r : Registry) (e : Entity) (σ : State) : BM (Registry × Tags × State) := do
  let x ← lift (r.destroyEntity env e)
  match r.entities.entityEntry env e with
  | none => return (x.1, T, σ)
  | some entry =>
    let i := (entry.archetypeIndex env).toNat
    let idx := entry.indexInArchetype.value.toNat
    let a ← lift (r.archetypes.getUnchecked (entry.archetypeIndex env))
    let (t, σ) ← getMut T r.archetypes.archetypes.length i σ
    let σ ← swapDrop T i a idx t σ
    if idx = a.entityCount - 1 then return (x.1, T, σ)
    else
      let σ ← readEnts T i (a.entityCount - 1) t [.entity i idx] σ
      return (x.1, T, σ)

/-- `registry.rs:71-99` `remove_entity`. -/
def remove (T : Tags) (r : Registry) (g : Group) (e : Entity) (σ : State) : BM (Registry × Tags × State) := do
  let x ← lift (r.removeEntity env g e)
  match r.entities.entityEntry env e with
  | none => return (x.1, T, σ)
  | some entry =>
    let i := (entry.archetypeIndex env).toNat
    let idx := entry.indexInArchetype.value.toNat
    let a ← lift (r.archetypes.getUnchecked (entry.archetypeIndex env))
    let (t, σ) ← getMut T r.archetypes.archetypes.length i σ
    let σ ← swapRemove T i a idx t σ
    if idx = a.entityCount - 1 then return (x.1, T, σ)
    else
      let σ ← readEnts T i (a.entityCount - 1) t [.entity i idx] σ
      return (x.1, T, σ)

/-- `registry.rs:228-266`, `297-335`: the part that `add_component` and `remove_component` (`w = false`) have in common,
with the `&mut` to the source (`i`, `t`) and to the destination (`j`, `u`). -/
def move (w : Bool) (T : Tags) (i : Nat) (a : Archetype) (idx t : Nat) (j : Nat) (b : Archetype) (u : Nat) (id : UInt16)
    (σ : State) : BM (Tags × State) := do
  let σ ← swapToLast T i a idx t σ
  let σ ← (if idx = a.entityCount - 1 then .ok σ else readEnts T i a.entityCount t [.entity i idx] σ)
  let (T, σ) ← pushUninitialized T j b u σ
  let σ ← peek σ t i
  let σ ← peek σ u j
  let σ ← copyCommon T i a (a.entityCount - 1) t j b b.entityCount u σ
  let σ ← (if w then single true T j b.descriptor id b.entityCount u σ
    else single false T i a.descriptor id (a.entityCount - 1) t σ)
  let σ ← readEnts T i a.entityCount t [.entity i (a.entityCount - 1)] σ
  let σ ← writeEnts T j (b.entityCount + 1) u [.entity j b.entityCount] σ
  let σ ← poke σ t i
  return (T, σ)

/-- `mod.rs:119-133`, `148-161`: `find_or_create_archetype_adding_component` and `…_removing_component`, from the
descriptor `nd` of the destination on; then the rest of the call. -/
def moveTo (w : Bool) (T : Tags) (r : Registry) (entry : EntityEntry) (nd : ArchetypeDescriptor) (id : UInt16) (moved : Bool)
    (σ : State) : BM (Tags × State) := do
  let (ar, o, T, σ) ← findOrCreate env T r.archetypes nd moved σ
  match o with
  | none => return (T, σ)
  | some (j, _) =>
    match disjointMut ar.archetypes (entry.archetypeIndex env).toNat j with
    | none => return (T, σ)
    | some (i, j) =>
      let (t, u, σ) ← disjoint T ar.archetypes.length i j σ
      let a ← lift (index ar.archetypes i)
      let b ← lift (index ar.archetypes j)
      move w T i a entry.indexInArchetype.value.toNat t j b u id σ

/-- `mod.rs:120-122`, `149-151`: the descriptor of the source, read through a `&` to the slice. -/
def readSource (T : Tags) (n i : Nat) (σ : State) : BM State := do
  let (t, σ) ← σ.retag T.registry .ref (archs n)
  let (t, σ) ← σ.retag t .ref [.struct i]
  peek σ t i

/-- `registry.rs:213-274` `add_component`. -/
def add (T : Tags) (r : Registry) (e : Entity) (c : CompTy) (v : Val) (moved : Bool) (σ : State) :
    BM (Registry × Tags × State) := do
  let x ← lift (r.addComponent env e c v)
  match r.entities.entityEntry env e with
  | none => return (x.1, T, σ)
  | some entry =>
    let a ← lift (index r.archetypes.archetypes (entry.archetypeIndex env).toNat)
    let σ ← readSource T r.archetypes.archetypes.length (entry.archetypeIndex env).toNat σ
    let nd ← lift (a.descriptor.addComponent env c.descriptor)
    match nd with
    | none => return (x.1, T, σ)
    | some nd =>
      let y ← moveTo env true T r entry nd c.id moved σ
      return (x.1, y)

/-- `registry.rs:281-342` `remove_component`. -/
def removeComp (T : Tags) (r : Registry) (e : Entity) (c : CompTy) (moved : Bool) (σ : State) :
    BM (Registry × Tags × State) := do
  let x ← lift (r.removeComponent env e c)
  match r.entities.entityEntry env e with
  | none => return (x.1, T, σ)
  | some entry =>
    let a ← lift (index r.archetypes.archetypes (entry.archetypeIndex env).toNat)
    let σ ← readSource T r.archetypes.archetypes.length (entry.archetypeIndex env).toNat σ
    let nd ← lift (a.descriptor.removeComponent env c.id)
    match nd with
    | none => return (x.1, T, σ)
    | some nd =>
      let y ← moveTo env false T r entry nd c.id moved σ
      return (x.1, y)

/-- `archetype/mod.rs:78-89`, `data_access.rs:461-484`: the drop of archetype `i`; freeing counts as a write. -/
def dropArch (T : Tags) (i : Nat) (a : Archetype) (σ : State) : BM State := do
  let (t, σ) ← σ.retag T.registry .mutRef [.struct i]
  let σ ← peek σ t i
  if a.capacity = 0 then .ok σ
  else
    let σ ← dropEntities T i a.descriptor 0 a.entityCount t σ
    let (t1, σ) ← σ.retag t .mutRef [.struct i]
    let σ ← forCols (fun c d σ => do
      let σ ← σ.access false t1 [.struct i]
      let σ ← σ.access true (T.col i c) (rows i c d.size 0 a.capacity)
      σ.access true t1 [.struct i]) 0 a.descriptor.components σ
    let σ ← σ.access true (T.ent i) (ents i a.capacity)
    σ.access true t1 [.struct i]

/-- The drop glue of the vector of archetypes. -/
def dropArchs (T : Tags) : Nat → List Archetype → State → BM State
  | _, [], σ => .ok σ
  | i, a :: as, σ => do
    let σ ← dropArch T i a σ
    dropArchs T (i + 1) as σ

/-- The stores of `Call`: what the program does to get the reference and to use it. -/
def stores (n j k : Nat) : List Use := [.elem n j k false, .elem n j k true]

/-- The same for a mutable iterator: `next` until the `n`-th item. -/
def iterStores (n j k : Nat) : List Act := List.replicate (n + 1) .next ++ (stores n j k).map .use

/-- The borrows of a call. `moved`: the vector of archetypes is moved if it grows. -/
def call (T : Tags) (r : Registry) (moved : Bool) (σ : State) : Call → BM (Registry × Tags × State)
  | .create g vals => create env T r g vals moved σ
  | .destroy e => destroy env T r e σ
  | .removeEntity g e => remove env T r g e σ
  | .add e c v => add env T r e c v moved σ
  | .remove e c => removeComp env T r e c moved σ
  | .write e c v => do
    let x ← lift ((Call.write e c v).run env r)
    let σ ← (Session.componentsMut [c] e (stores 0 0 0)).run env T r σ
    return (x.1, T, σ)
  | .writeIn g e j v => do
    let x ← lift ((Call.writeIn g e j v).run env r)
    let σ ← (Session.componentsMut g e (stores 0 j 0)).run env T r σ
    return (x.1, T, σ)
  | .writeIter it g n j k v => do
    let x ← lift ((Call.writeIter it g n j k v).run env r)
    let s : Session := match it with
      | .matching => .iterMut g none false (iterStores n j k)
      | .entityMatching => .iterMut g none true (iterStores n j k)
      | .filtered f => .iterMut g (some f) false (iterStores n j k)
      | .entityFiltered f => .iterMut g (some f) true (iterStores n j k)
      | .exact => .exactMut g (stores n j k)
      | .entityExact => .entityExactMut g (stores n j k)
    let σ ← s.run env T r σ
    return (x.1, T, σ)

/-- What a program does with a registry: a call, or a period during which it is borrowed and nothing is stored. -/
inductive Action
  | call (c : Call) (moved : Bool)
  | borrow (x : Session)

/-- Run one. -/
def Action.run (T : Tags) (r : Registry) (σ : State) : Action → BM (Registry × Tags × State)
  | .call c moved => Borrow.call env T r moved σ c
  | .borrow x => do
    let σ ← x.run env T r σ
    return (r, T, σ)

/-- Run a program. -/
def runActions : List Action → Registry × Tags × State → BM (Registry × Tags × State)
  | [], x => .ok x
  | a :: as, x => do
    let x ← a.run env x.2.1 x.1 x.2.2
    runActions as x

/-- The registry at the beginning: memory for the vector of archetypes (`mod.rs:65`). Nothing else is allocated; the stacks
of what is not allocated do not matter. -/
def initial : Tags × State := (⟨0, fun _ _ => 0, fun _ => 0⟩, ⟨fun _ => [⟨0, .sharedRW⟩], 1⟩)

end Shard.Borrow
