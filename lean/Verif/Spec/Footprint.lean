import Verif.Spec.Api
import Verif.Spec.History
/-!
# The memory a registry holds
-/

set_option autoImplicit false

namespace Shard

/-- The bytes an archetype holds: its component arrays and its array of entity handles (4 bytes each). -/
def Archetype.allocated (a : Archetype) : Nat :=
  (a.pointers.map (fun p => match p with
    | some b => b.bytes.length
    | none => 0)).sum + 4 * (match a.entityAssociations with
    | some l => l.length
    | none => 0)

/-- The bytes all archetypes of a registry hold. -/
def Registry.allocated (r : Registry) : Nat := (r.archetypes.archetypes.map Archetype.allocated).sum

/-- The bytes one entity of an archetype takes: its components and its handle. -/
def rowBytes (d : ArchetypeDescriptor) : Nat := (d.components.map (fun c => c.size)).sum + 4

end Shard
