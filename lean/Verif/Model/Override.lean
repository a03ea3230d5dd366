import Verif.Model.Registry
/-!
# Components with a `DESCRIPTOR` of their own

`Component` is a safe trait with overridable constants (`component.rs:11-18`). The groups and all queries build their
descriptors from `size_of`, `align_of` and `ID` (`component_group.rs:86-87`, `:152-153`). `C::DESCRIPTOR` itself is used by
`add_component` and `remove_component` only (`registry.rs:222`, `:290`). In `Registry.lean` it is the default,
`CompTy.descriptor`. Here it is a parameter.
-/

set_option autoImplicit false

namespace Shard.Registry

/-- `registry.rs:213-274` `add_component`, for a component type with `DESCRIPTOR = d`. -/
def addComponentWith (env : Env) (r : Registry) (e : Entity) (c : CompTy) (d : ComponentDescriptor) (v : Val) :
    M (Registry × Res Unit Val) :=
  match r.entities.entityEntry env e with
  | none => .ok (r, .err v)
  | some entry => do
    let f ← r.archetypes.findOrCreateAdding env (entry.archetypeIndex env) d
    match f.2 with
    | none => return (⟨r.entities, f.1⟩, .err v)
    | some (si, dai, di) =>
      let src ← index f.1.archetypes si
      let dst ← index f.1.archetypes di
      let iia := entry.indexInArchetype
      let s ← src.swapToLastUnchecked env iia.value.toNat
      let src := s.1
      let ents ← (if s.2 then do
          let sw ← src.entityAt iia.value.toNat
          unwrap (r.entities.updateEntry env sw (fun en => en.setIndexInArchetype iia))
        else .ok r.entities)
      let p ← dst.pushUninitializedEntity env
      let dst := p.1
      let sIdx ← subU32 env src.entityCount 1
      let dIdx ← subU32 env dst.entityCount 1
      let dst ← Archetype.copyCommonComponents src sIdx dst dIdx
      let dst ← dst.writeSingleComponentUnchecked c dIdx v
      let h ← src.entityAt sIdx
      let dst ← dst.setEntityAt dIdx h
      let src ← src.decrementLenUnchecked env
      let niia ← unwrap (IndexInArchetype.new (UInt32.ofNat dIdx))
      let ents ← unwrap (ents.updateEntry env e
        (fun en => (en.setArchetypeIndex env dai).setIndexInArchetype niia))
      return (⟨ents, (f.1.setArchetype si src).setArchetype di dst⟩, .ok ())

/-- `registry.rs:281-342` `remove_component`, for a component type with `DESCRIPTOR = d`. -/
def removeComponentWith (env : Env) (r : Registry) (e : Entity) (c : CompTy) (d : ComponentDescriptor) :
    M (Registry × Res Val Unit) :=
  match r.entities.entityEntry env e with
  | none => .ok (r, .err ())
  | some entry => do
    let f ← r.archetypes.findOrCreateRemoving env (entry.archetypeIndex env) d
    match f.2 with
    | none => return (⟨r.entities, f.1⟩, .err ())
    | some (si, dai, di) =>
      let src ← index f.1.archetypes si
      let dst ← index f.1.archetypes di
      let iia := entry.indexInArchetype
      let s ← src.swapToLastUnchecked env iia.value.toNat
      let src := s.1
      let ents ← (if s.2 then do
          let sw ← src.entityAt iia.value.toNat
          unwrap (r.entities.updateEntry env sw (fun en => en.setIndexInArchetype iia))
        else .ok r.entities)
      let p ← dst.pushUninitializedEntity env
      let dst := p.1
      let sIdx ← subU32 env src.entityCount 1
      let dIdx ← subU32 env dst.entityCount 1
      let dst ← Archetype.copyCommonComponents src sIdx dst dIdx
      let v ← src.readComponentUnchecked c sIdx
      let h ← src.entityAt sIdx
      let dst ← dst.setEntityAt dIdx h
      let src ← src.decrementLenUnchecked env
      let niia ← unwrap (IndexInArchetype.new (UInt32.ofNat dIdx))
      let ents ← unwrap (ents.updateEntry env e
        (fun en => (en.setArchetypeIndex env dai).setIndexInArchetype niia))
      return (⟨ents, (f.1.setArchetype si src).setArchetype di dst⟩, .ok v)

theorem addComponentWith_default (env : Env) (r : Registry) (e : Entity) (c : CompTy) (v : Val) :
    r.addComponentWith env e c c.descriptor v = r.addComponent env e c v := rfl

theorem removeComponentWith_default (env : Env) (r : Registry) (e : Entity) (c : CompTy) :
    r.removeComponentWith env e c c.descriptor = r.removeComponent env e c := rfl

end Shard.Registry
