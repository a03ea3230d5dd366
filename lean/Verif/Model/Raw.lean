import Verif.Model.ArchetypeRegistry
/-!
# The public functions of `Archetype` and `ArchetypeDescriptor` for arbitrary descriptors

`ArchetypeDescriptor::new`, `ComponentDescriptor::new` and the public fields of `ComponentDescriptor` are safe, so safe
code can pass any descriptor to the safe functions of `src/archetype/mod.rs` and `src/descriptors/archetype_descriptor.rs`.
The registry only forms descriptors with at most 14 components; the definitions here add the bounds checks that matter
beyond that.
-/

namespace Shard

namespace ArchetypeDescriptor

/-- `archetype_descriptor.rs:205-207` `components()`: the slicing `self.components[0..self.len]` is checked. -/
def componentsAny (d : ArchetypeDescriptor) : M (List ComponentDescriptor) :=
  if d.len ≤ d.comps.length then .ok d.components else .error (.panic .indexOutOfBounds)

end ArchetypeDescriptor

namespace Archetype

/-- `archetype/mod.rs:40-71` `with_capacity` for any descriptor. (The entity array is allocated before `components()` can
panic; that allocation is leaked, because the archetype has capacity 0 when it is dropped by unwinding.) -/
def withCapacityAny (env : Env) (d : ArchetypeDescriptor) (capacity : Nat) : M Archetype := do
  ensure d.isValid (.panic .assertFailed)
  if capacity > 0 ∧ capacity ≤ MAX_ENTITIES_PER_ARCHETYPE then
    let _ ← d.componentsAny
    withCapacity env d capacity
  else
    withCapacity env d capacity

/-- `archetype/mod.rs:27-33` `new` for any descriptor. -/
def newAny (env : Env) (d : ArchetypeDescriptor) : M Archetype := do
  ensure d.isValid (.panic .assertFailed)
  withCapacityAny env d DEFAULT_ARCHETYPE_ALLOCATION_SIZE

end Archetype

end Shard
