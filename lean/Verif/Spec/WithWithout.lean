import Verif.Spec.System
/-!
# Filtered iteration: entities with some components and without others

The closure `|d| d.contains_subset(W::DESCRIPTOR.archetype()) && d.excludes_subset(X::DESCRIPTOR.archetype())` given to a
filtered iterator (`registry/registry.rs:393-461`), with `W` the components wanted besides the tuple and `X` those not wanted.
-/

set_option autoImplicit false

namespace Shard

/-- `e` has none of the components of `g`. -/
def Lacks (env : Env) (r : Registry) (g : Group) (e : Entity) : Prop := ∀ c ∈ g, r.hasComponent env c e = .ok false

/-- The filter for the components `w` and without the components `x` (client code, built from
`archetype_descriptor.rs:71-94` `contains_subset` and `96-115` `excludes_subset`). -/
def withWithout (env : Env) (w x : Group) : ArchetypeDescriptor → Bool :=
  fun d => d.containsSubset (w.descriptor env).archetype && d.excludesSubset (x.descriptor env).archetype

end Shard
