import Verif.Spec.System
/-!
# Client code that updates entities one by one, by handle

`for e in handles { if let Some((a, b)) = registry.get_components_mut::<(A, B)>(e) { … } }`: the same job as a system over a
mutable iterator (`Spec/System`), done through `get_components_mut` (`registry/registry.rs:187-206`).
-/

set_option autoImplicit false

namespace Shard

/-- `*p`, for a reference of the tuple that `get_components_mut` returned. -/
def readMember (r : Registry) (ai : Nat) (x : CompTy × Option Ref) : M Val :=
  match x.2 with
  | none => .error (.ub .nullDeref)
  | some p => do
    let a ← index r.archetypes.archetypes ai
    a.readRef x.1 p

/-- `*p₀ = v₀; *p₁ = v₁; …` -/
def writeMembers (ai : Nat) : Registry → List (CompTy × Option Ref) → List Val → M Registry
  | r, (c, some p) :: ps, v :: vs => do
    let x ← r.replaceAt ai c p v
    writeMembers ai x.1 ps vs
  | _, (_, none) :: _, _ :: _ => .error (.ub .nullDeref)
  | r, _, _ => .ok r

/-- Update the tuple of one entity, if it has all the components. -/
def updateEntity (env : Env) (g : Group) (F : List Val → List Val) (r : Registry) (e : Entity) : M Registry := do
  match ← r.getComponentsMut env g e with
  | none => return r
  | some (ai, ps) =>
    let vals ← ps.mapM (readMember r ai)
    writeMembers ai r ps (F vals)

/-- Update the entities of a list. -/
def updateEntities (env : Env) (g : Group) (F : List Val → List Val) (r : Registry) (l : List Entity) : M Registry :=
  l.foldlM (updateEntity env g F) r

end Shard
