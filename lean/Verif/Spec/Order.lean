import Verif.Spec.Api
/-!
# The order in which iterators visit archetypes
-/

set_option autoImplicit false

namespace Shard

/-- Archetype number `i` comes before number `j`: it has fewer component types, or as many and a smaller id. -/
def Before (r : Registry) (i j : Nat) : Prop :=
  ∃ a b, r.archetypes.archetypes[i]? = some a ∧ r.archetypes.archetypes[j]? = some b ∧
    (a.descriptor.len < b.descriptor.len ∨
      a.descriptor.len = b.descriptor.len ∧ a.descriptor.archetypeId.toNat < b.descriptor.archetypeId.toNat)

/-- Archetype number `i` is there, has the types of `g` and passes the filter. -/
def Visits (r : Registry) (g : Group) (f : ArchetypeDescriptor → Bool) (i : Nat) : Prop :=
  ∃ a, r.archetypes.archetypes[i]? = some a ∧ (∀ c ∈ g, c.descriptor ∈ a.descriptor.components) ∧ f a.descriptor = true

/-- The descriptor of archetype number `i`. -/
def descriptorAt (r : Registry) (i : Nat) : Option ArchetypeDescriptor :=
  (r.archetypes.archetypes[i]?).map (fun a => a.descriptor)

end Shard
