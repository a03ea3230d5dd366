import Verif.Spec.System
/-!
# Loops over a mutable iterator that carry a state and may be left early

`for (a, b) in registry.iter_components_matching_mut::<(A, B)>() { for k in 0..a.len() { … } }` where the body reads and
changes variables declared outside the loop (a counter, a sum, a random number generator), and may `break`. Client code; the
iterators it uses are those of `registry/registry.rs:361-523`.
-/

set_option autoImplicit false

namespace Shard

/-- The body: from the variables and the old values of the row, the new variables, the new values, and whether to leave. -/
abbrev Body (σ : Type) := σ → List Val → σ × List Val × Bool

/-- The loop over the rows. -/
def loopRows {σ : Type} (F : Body σ) : List (Nat × List SliceRef × Nat) → σ → Registry → M (σ × Registry)
  | [], s, r => .ok (s, r)
  | row :: rows, s, r => do
    let vals ← row.2.1.mapM (readElem r row.1 row.2.2)
    let r' ← writeElems row.1 row.2.2 r row.2.1 (F s vals).2.1
    if (F s vals).2.2 then return ((F s vals).1, r') else loopRows F rows (F s vals).1 r'

/-- The loop over the rows of the items of an iterator. -/
def runLoop {σ : Type} (env : Env) (it : MutIter) (g : Group) (F : Body σ) (s : σ) (r : Registry) : M (σ × Registry) := do
  let items ← it.items env r g
  loopRows F (items.flatMap rowsOfItem) s r

/-- The same body over a list of tuples, without any registry: the final variables and the new tuples up to the row at which
the loop was left. -/
def scanBody {σ : Type} (F : Body σ) : σ → List (List Val) → σ × List (List Val)
  | s, [] => (s, [])
  | s, vals :: rest =>
    if (F s vals).2.2 then ((F s vals).1, [(F s vals).2.1])
    else ((scanBody F (F s vals).1 rest).1, (F s vals).2.1 :: (scanBody F (F s vals).1 rest).2)

end Shard
