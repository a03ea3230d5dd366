import Verif.Model.UnsafeCalls
/-!
# What the documentation of the `unsafe fn`s demands of a call

Where the documentation is silent on the row (`data_access.rs:11-13`, `41-43`, `67-69`, `242-244`, `403-405`, `514`) the row
must be one of the archetype, or, for a write, one there is memory for.
-/

set_option autoImplicit false

namespace Shard.UnsafeCalls

/-- "Component type `C` must be present in the archetype" -/
def Present (a : Archetype) (c : CompTy) : Prop := c.descriptor ∈ a.descriptor.components

/-- "Component group type `G` must be a subset of the types in the archetype" -/
def Subset (a : Archetype) (g : Group) : Prop := ∀ c ∈ g, Present a c

/-- "Must be called exactly with the component group contained in the archetype", "a compatible group type is also accepted"
(the same types in another order) -/
def Exact (a : Archetype) (g : Group) : Prop := (g.map CompTy.descriptor).Perm a.descriptor.components

/-- "`G` must have a valid archetype descriptor": one to fourteen types, no two with the same id -/
def ValidGroup (g : Group) : Prop := (g.map (fun c => c.id)).Nodup ∧ 1 ≤ g.length ∧ g.length ≤ 14

/-- The documented conditions of a call. -/
def UCall.Contract : UCall → Prop
  /- `archetype_registry/mod.rs:203-205`, `210-212`: "Index must not be out of bounds." -/
  | .getUnchecked r i => i.toNat < r.archetypes.length
  /- `data_access.rs:11-13`, `26-28` -/
  | .getComponent a c i => Present a c ∧ i < a.entityCount
  /- `data_access.rs:67-69` -/
  | .readComponent a c i => Present a c ∧ i < a.entityCount
  /- `data_access.rs:242-244`: "Panics if called on an archetype that does not contain `C`." -/
  | .writeComponent a c i => Present a c ∧ i < a.capacity
  /- `data_access.rs:41-43`, `54-56` -/
  | .fuzzyComponents a g i => Subset a g ∧ i < a.entityCount
  /- `data_access.rs:117-119`, `130-132`, `144-146`, `161-163` -/
  | .fuzzySlices a g => Subset a g ∧ ValidGroup g
  /- `data_access.rs:541-543`: "offset must be smaller than self.capacity." -/
  | .fuzzyPointers a g offset => offset < a.capacity ∧ Subset a g
  /- `data_access.rs:84-87`, `100-103` -/
  | .exactSlices a g => Exact a g ∧ ValidGroup g
  /- `data_access.rs:203-208` -/
  | .pushEntity a g => Exact a g
  /- `data_access.rs:264-271`: "Assumes the underlying backing memory is sized accordingly to fit the data." -/
  | .writeEntity a g i => Exact a g ∧ i < a.capacity
  /- `data_access.rs:236-237`: "assuming the last entity is moved elsewhere" -/
  | .decrementLen a => 0 < a.entityCount
  /- `data_access.rs:311-312`, `332-333`: "`index` must be smaller than the amount of entities in the archetype." -/
  | .swapDrop a i => i < a.entityCount
  | .swapToLast a i => i < a.entityCount
  /- `data_access.rs:349-352` -/
  | .swapRemove a g i => i < a.entityCount ∧ Exact a g
  /- `data_access.rs:369-372` -/
  | .swapEntities a i j => i < a.entityCount ∧ j < a.entityCount ∧ i ≠ j
  /- `data_access.rs:383-384` -/
  | .dropEntity a i => i < a.entityCount
  /- `data_access.rs:403-405` -/
  | .readExact a g i => Exact a g ∧ i < a.entityCount
  /- `data_access.rs:514` -/
  | .copyCommon s i d j => i < s.entityCount ∧ s.entityCount ≤ s.capacity ∧ j < d.capacity
  /- `entry.rs:58-59`: "next_free_slot must at most be 24 bits." -/
  | .invalidate n => n.toNat < 2 ^ 24
  /- `index_in_archetype.rs:19-20`: "If value >= `Self::INVALID_VALUE` behaviour is undefined." -/
  | .newIndex v => v.toNat < 16777215
  /- `entity.rs:41-42`: "index MUST be lower than 2^24!" -/
  | .newEntity i => i.toNat < 2 ^ 24

/-- All calls but those of `IndexInArchetype::new_unchecked`. -/
def UCall.Ordinary : UCall → Prop
  | .newIndex _ => False
  | _ => True

/-- No archetype has as many rows as an archetype can hold. -/
def NotFull (r : Registry) : Prop := ∀ a ∈ r.archetypes.archetypes, a.entityCount < 8388608

/-- The archetype `a` is the one `add_component` and `remove_component` look for when they move an entity to the types `P`. -/
def Takes {env : Env} (W : World env) (a : Archetype) (P : CompTy → Prop) : Prop :=
  (∀ c, W.Has c → (Present a c ↔ P c)) ∧ a.descriptor.archetypeId = plainId env (a.descriptor.components.map (fun c => c.id))

/-- All contracts are kept but those of `IndexInArchetype::new_unchecked`. -/
def ApiCall.KeepsOrdinary (env : Env) (r : Registry) (c : ApiCall) : Prop := ∀ u ∈ c.calls env r, u.Ordinary → u.Contract

/-- All contracts are kept. -/
def ApiCall.Keeps (env : Env) (r : Registry) (c : ApiCall) : Prop := ∀ u ∈ c.calls env r, u.Contract

/-- What is asked of a call: the types are types of the program and the component sets it forms are in use (as in
`Call.Admissible`); `remove_entity` is called with the types the entity has; the groups of `get_components` are valid; nothing
is put into an archetype that is full. Nothing is asked of the handles. -/
def ApiCall.Fair {env : Env} (W : World env) (r : Registry) : ApiCall → Prop
  | .createEntity g _ => ((g.map (fun c => c.id)).Nodup → W.OkGroup g) ∧ NotFull r
  | .destroyEntity _ => True
  | .removeEntity g e => (∀ c ∈ g, W.Has c) ∧ (Live env r e → HasExactly W r e g ∧ g.Nodup)
  | .hasComponent _ _ => True
  | .hasComponents _ _ => True
  | .getComponent c _ => W.Has c
  | .getComponents g _ => (∀ c ∈ g, W.Has c) ∧ (g.descriptor env).isValid = true
  | .getComponentMut c _ => W.Has c
  | .getComponentsMut g _ => (∀ c ∈ g, W.Has c) ∧ (g.descriptor env).isValid = true
  | .addComponent e c _ => W.Has c ∧
      (Live env r e → ∀ s, AscSet s (fun i => i = c.id ∨ HasId W r e i) → W.Used s) ∧ NotFull r
  | .removeComponent e c => W.Has c ∧
      (Live env r e → ∀ s, s ≠ [] → AscSet s (fun i => i ≠ c.id ∧ HasId W r e i) → W.Used s) ∧ NotFull r
  | .iterEntities => True
  | .iterMatching _ g _ => ∀ c ∈ g, W.Has c
  | .exact g _ => (g.map (fun c => c.id)).Nodup → W.OkGroup g
  | .exactMut g _ => (g.map (fun c => c.id)).Nodup → W.OkGroup g

end Shard.UnsafeCalls
