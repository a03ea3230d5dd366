import Verif.Spec.Api
/-!
# The slices of handles the calls make on their way

`Archetype::entities` and `Archetype::entities_mut` (`data_access.rs:193-200`) make a reference to the slice of the first
`len` handles of an archetype. Here every such slice a call makes is collected, in the order of the calls; an element is
`none` while nothing has been stored there since the memory was allocated. What the calls compute is computed by the
functions of the model.

Simplifications: the copying of component data between two of the steps below changes neither the handles nor the number of
entities and is left out; an iterator that yields handles is given the slices of all archetypes, a superset of those it makes.
-/

set_option autoImplicit false

namespace Shard.HandleSlices

variable (env : Env)

/-- The handles a `&[Entity]` or `&mut [Entity]` refers to. -/
abbrev Slice := List (Option Entity)

/-- `data_access.rs:379`: the slice made by `swap_entities` in `swap_drop_unchecked`, `swap_to_last_unchecked` and
`swap_remove_unchecked` (`313-366`), which is not called for the last entity. -/
def ofSwap (a : Archetype) (idx : Nat) : M (List Slice) :=
  if idx = a.entityCount - 1 then .ok []
  else do
    let s ← a.entitiesRaw
    return [s]

/-- `registry.rs:54-56`, `83`, `232-233`, `300-301`: the slice made to look up the entity that was swapped, if one was. -/
def ofLookup (swapped : Bool) (a : Archetype) : M (List Slice) :=
  if swapped then do
    let s ← a.entitiesRaw
    return [s]
  else .ok []

/-- `registry.rs:21-39` `create_entity`; the slice is made in `write_entity_unchecked`, `data_access.rs:302`. -/
def create (r : Registry) (g : Group) (vals : List Val) : M (List Slice) := do
  let x ← r.createEntity env g vals
  match x.2 with
  | .err _ => return []
  | .ok _ =>
    let f ← r.archetypes.findOrCreateArchetype env (g.descriptor env).archetype
    match f.2 with
    | none => return []
    | some ai =>
      let a ← index f.1.archetypes ai.toNat
      let a ← a.resizeIfNecessary env
      let s ← { a with entityCount := a.entityCount + 1 }.entitiesRaw
      return [s]

/-- `registry.rs:43-66` `destroy_entity`. -/
def destroy (r : Registry) (e : Entity) : M (List Slice) :=
  match r.entities.entityEntry env e with
  | none => .ok []
  | some entry => do
    let a ← r.archetypes.getUnchecked (entry.archetypeIndex env)
    let l1 ← ofSwap a entry.indexInArchetype.value.toNat
    let s ← a.swapDropUnchecked env entry.indexInArchetype.value.toNat
    let l2 ← ofLookup s.2.1 s.1
    return l1 ++ l2

/-- `registry.rs:71-99` `remove_entity`. -/
def removeEntity (r : Registry) (g : Group) (e : Entity) : M (List Slice) :=
  match r.entities.entityEntry env e with
  | none => .ok []
  | some entry => do
    let a ← r.archetypes.getUnchecked (entry.archetypeIndex env)
    let l1 ← ofSwap a entry.indexInArchetype.value.toNat
    let s ← a.swapRemoveUnchecked env g entry.indexInArchetype.value.toNat
    let l2 ← ofLookup s.2.2 s.1
    return l1 ++ l2

/-- `registry.rs:228-260`, `297-328`: the part `add_component` and `remove_component` have in common. In the last step the
slice of the source is made first. -/
def move (src : Archetype) (idx : Nat) (dst : Archetype) : M (List Slice) := do
  let l1 ← ofSwap src idx
  let s ← src.swapToLastUnchecked env idx
  let l2 ← ofLookup s.2 s.1
  let p ← dst.pushUninitializedEntity env
  let s3 ← s.1.entitiesRaw
  let s4 ← p.1.entitiesRaw
  return l1 ++ l2 ++ [s3, s4]

/-- `registry.rs:213-274` `add_component`. -/
def add (r : Registry) (e : Entity) (c : CompTy) : M (List Slice) :=
  match r.entities.entityEntry env e with
  | none => .ok []
  | some entry => do
    let f ← r.archetypes.findOrCreateAdding env (entry.archetypeIndex env) c.descriptor
    match f.2 with
    | none => return []
    | some (si, _, di) =>
      let src ← index f.1.archetypes si
      let dst ← index f.1.archetypes di
      move env src entry.indexInArchetype.value.toNat dst

/-- `registry.rs:281-342` `remove_component`. -/
def remove (r : Registry) (e : Entity) (c : CompTy) : M (List Slice) :=
  match r.entities.entityEntry env e with
  | none => .ok []
  | some entry => do
    let f ← r.archetypes.findOrCreateRemoving env (entry.archetypeIndex env) c.descriptor
    match f.2 with
    | none => return []
    | some (si, _, di) =>
      let src ← index f.1.archetypes si
      let dst ← index f.1.archetypes di
      move env src entry.indexInArchetype.value.toNat dst

/-- The slices of handles a call makes; `get_component_mut` and `get_components_mut` make none. -/
def ofCall (r : Registry) : Call → M (List Slice)
  | .create g vals => create env r g vals
  | .destroy e => destroy env r e
  | .removeEntity g e => removeEntity env r g e
  | .add e c _ => add env r e c
  | .remove e c => remove env r e c
  | .write _ _ _ => .ok []
  | .writeIn _ _ _ _ => .ok []
  | .writeIter _ _ _ _ _ _ => r.archetypes.archetypes.mapM Archetype.entitiesRaw

end Shard.HandleSlices
