import Verif.Model.EntityRegistry
/-!
# The free list of the entity table
-/

namespace Shard

/-- The free list starting at `h` visits exactly the slots `fl`, in this order. -/
def FreeChain (ents : List EntityEntry) : UInt32 → List Nat → Prop
  | h, [] => h = IndexInArchetype.INVALID_VALUE
  | h, i :: rest => h.toNat = i ∧ ∃ en, ents[i]? = some en ∧ FreeChain ents en.indexInArchetype.value rest

/-- The free list of `r` is `fl`; it enumerates exactly the dead slots. -/
def FreeList (env : Env) (r : EntityRegistry) (fl : List Nat) : Prop :=
  FreeChain r.entities r.nextFreeSlot fl ∧ fl.Nodup ∧
    ∀ (i : Nat) (en : EntityEntry), r.entities[i]? = some en → (en.isValid env = false ↔ i ∈ fl)

end Shard
