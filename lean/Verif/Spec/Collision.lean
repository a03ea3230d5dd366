import Verif.Model.Registry
/-!
# Where a row of one layout lands in columns of another

`d` is the descriptor of an archetype, `gd` that of the component set whose values are written; `i` is the position of a
component in ascending order of the ids, the number of the column.
-/

set_option autoImplicit false

namespace Shard

/-- The number of rows there is memory for when the next row is written (the storage is doubled when it is full). -/
def Archetype.rowsAtPush (a : Archetype) : Nat := if a.entityCount = a.capacity then 2 * a.capacity else a.capacity

/-- Row `n` of the layout `gd` ends, in every column, inside the memory for `cap` rows of the layout `d`. -/
def RowFits (d gd : ArchetypeDescriptor) (n cap : Nat) : Prop :=
  ∀ (i : Nat) (da dg : ComponentDescriptor), d.components[i]? = some da → gd.components[i]? = some dg →
    dg.size * (n + 1) ≤ da.size * cap

/-- Row `j` of a column of cells like `da` and row `n` of a column of cells like `dg`, at the same address, have no byte in
common. -/
def Apart (da dg : ComponentDescriptor) (j n : Nat) : Prop :=
  da.size * (j + 1) ≤ dg.size * n ∨ dg.size * (n + 1) ≤ da.size * j ∨ dg.size = 0 ∨ da.size = 0

instance (da dg : ComponentDescriptor) (j n : Nat) : Decidable (Apart da dg j n) := by unfold Apart; infer_instance

end Shard
