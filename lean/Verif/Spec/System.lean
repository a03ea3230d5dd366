import Verif.Spec.Api
import Verif.Spec.Iter
/-!
# Client code that updates entities through a mutable iterator

What an ECS calls a system: `for (a, b) in registry.iter_components_matching_mut::<(A, B)>() { for k in 0..a.len() { … } }`
where the body computes new values of `a[k]` and `b[k]` from the old ones. Client code, so no lines of the repository are
modelled here; the iterators it uses are those of `registry/registry.rs:361-523`.
-/

set_option autoImplicit false

namespace Shard

/-- `s[k]`, read through a slice handed out by archetype `ai`. -/
def readElem (r : Registry) (ai k : Nat) (s : SliceRef) : M Val :=
  if k < s.len then do
    let a ← index r.archetypes.archetypes ai
    a.readRef s.cty (s.elem k)
  else .error (.panic .indexOutOfBounds)

/-- `s₀[k] = v₀; s₁[k] = v₁; …` -/
def writeElems (ai k : Nat) : Registry → List SliceRef → List Val → M Registry
  | r, s :: ss, v :: vs =>
    if k < s.len then do
      let x ← r.replaceAt ai s.cty (s.elem k) v
      writeElems ai k x.1 ss vs
    else .error (.panic .indexOutOfBounds)
  | r, _, _ => .ok r

/-- The body of the inner loop: compute the new values of one row from the old ones, and store them. -/
def updateRow (F : List Val → List Val) (r : Registry) (row : Nat × List SliceRef × Nat) : M Registry := do
  let vals ← row.2.1.mapM (readElem r row.1 row.2.2)
  writeElems row.1 row.2.2 r row.2.1 (F vals)

/-- The rows of an item: as many as its first slice has elements. -/
def rowsOfItem (x : Nat × List SliceRef) : List (Nat × List SliceRef × Nat) :=
  match x.2 with
  | [] => []
  | s :: _ => (List.range s.len).map (fun k => (x.1, x.2, k))

/-- The two loops: update every row of every item of a mutable iterator. -/
def runSystem (env : Env) (it : MutIter) (g : Group) (F : List Val → List Val) (r : Registry) : M Registry := do
  let items ← it.items env r g
  (items.flatMap rowsOfItem).foldlM (updateRow F) r

/-- What a system does to an entity it visits: its tuple is replaced by `F` of it, its other components stay. -/
def TupleUpdated {env : Env} (W : World env) (g : Group) (F : List Val → List Val) (r r' : Registry) (e : Entity) : Prop :=
  Live env r' e ∧ (∃ vals, TypedVals g vals ∧ r.getComponents env g e = .ok (some vals) ∧
    r'.getComponents env g e = .ok (some (F vals))) ∧
  (∀ c, W.Has c → r'.hasComponent env c e = r.hasComponent env c e) ∧
  ∀ c, W.Has c → c ∉ g → r'.getComponent env c e = r.getComponent env c e

end Shard
