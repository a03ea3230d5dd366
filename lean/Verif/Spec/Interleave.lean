import Verif.Spec.Script
/-!
# Several pieces of code working in one registry by turns

Each operation of the sequence belongs to one of the scripts, given by its number. Every script has its own handles.
-/

set_option autoImplicit false

namespace Shard.Script

/-- The entries of script `k`. -/
def ofScript {α : Type} (k : Nat) (l : List (Nat × α)) : List α := (l.filter (fun x => x.1 == k)).map (fun x => x.2)

/-- The handles of all scripts, with those of script `k` replaced. -/
def put (hs : Nat → Handles) (k : Nat) (h : Handles) : Nat → Handles := fun l => if l = k then h else hs l

/-- Run several scripts in one registry by turns: the outcomes with the number of the script, the registry and the
handles of each script. -/
def runMany (env : Env) : Registry → (Nat → Handles) → List (Nat × Op) →
    M (List (Nat × Outcome) × Registry × (Nat → Handles))
  | r, hs, [] => .ok ([], r, hs)
  | r, hs, (k, op) :: ops =>
    match op.call? (hs k) with
    | none => runMany env r hs ops
    | some call =>
      match call.run env r with
      | .error f => .error f
      | .ok (r', o) =>
        match runMany env r' (put hs k (op.handles (hs k) o)) ops with
        | .error f => .error f
        | .ok (os, x) => .ok ((k, o) :: os, x)

/-- The tuples in one item of an iteration: position `k` of every slice, for every `k`. -/
def rowsOf (cols : List (List Val)) : List (List Val) :=
  (List.range (cols.headD []).length).map (fun k => cols.filterMap (fun col => col[k]?))

/-- The tuples `iter_components_matching::<G>` passes, from the first item to the last. -/
def seen (env : Env) (r : Registry) (g : Group) : M (List (List Val)) := do
  let items ← r.iterComponentsMatching env g
  return items.flatMap (fun x => rowsOf x.2)

end Shard.Script
