import Verif.Model.Archetype
/-!
# Requests of memory
-/

set_option autoImplicit false

namespace Shard

/-- The blocks that an archetype needs, as size and alignment: the handles of 4 bytes and an array for each component. -/
def blocksOf (a : Archetype) : List (Nat × Nat) :=
  (4 * a.capacity, 4) :: a.descriptor.components.map (fun d => (d.size * a.capacity, d.align))

/-- The requests for an archetype: each of its blocks when it is created with 128 rows, and again at each doubling. -/
def requestsOf (a : Archetype) : Nat := (blocksOf a).length * (1 + Nat.log2 (a.capacity / 128))

end Shard
