import Verif.Spec.LastStored
import Verif.Spec.History
/-!
# Handles kept in components

A component type whose values are handles of other entities (`struct Link(Entity)`; an `Entity` is one `u32`,
`entity_registry/entity.rs:4-8`), and client code that follows them with `get_component` (`registry/registry.rs:128-141`).
-/

set_option autoImplicit false

namespace Shard

/-- The value of the component type `l` that is the handle `e`: its four bytes in the byte order of the machine. -/
def linkTo (env : Env) (l : CompTy) (e : Entity) : Val :=
  let n := e.handle.toNat
  let le := [n % 256, n / 256 % 256, n / 65536 % 256, n / 16777216 % 256].map UInt8.ofNat
  ⟨l.ty, if env.bigEndian then le.reverse else le⟩

/-- The handle a value of the component type is. -/
def linkOf (env : Env) (v : Val) : Entity :=
  let le := if env.bigEndian then v.bytes.reverse else v.bytes
  ⟨UInt32.ofNat (le.foldr (fun b n => b.toNat + 256 * n) 0)⟩

/-- `let mut e = a; for _ in 0..n { e = registry.get_component::<Link>(e)?.0 } Some(e)` -/
def chase (env : Env) (l : CompTy) (r : Registry) : Nat → Entity → M (Option Entity)
  | 0, a => .ok (some a)
  | n + 1, a => do
    match ← r.getComponent env l a with
    | none => return none
    | some v => chase env l r n (linkOf env v)

/-- The same with the values last stored, according to the record of the calls. -/
def chaseRecord (env : Env) (l : CompTy) (hist : List (Call × Outcome)) : Nat → Entity → Option Entity
  | 0, a => some a
  | n + 1, a =>
    match lastStored hist.reverse a l with
    | none => none
    | some v => chaseRecord env l hist n (linkOf env v)

/-- `registry.get_component::<C>(registry.get_component::<Link>(a)?.0)` -/
def follow (env : Env) (l c : CompTy) (r : Registry) (a : Entity) : M (Option Val) := do
  match ← r.getComponent env l a with
  | none => return none
  | some v => r.getComponent env c (linkOf env v)

end Shard
