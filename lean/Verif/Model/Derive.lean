import Verif.Model.Descriptors
/-!
# `shard_ecs_derive/src/lib.rs`

`#[derive(Component)]` implements `NAME` as the bare identifier of the type; neither the module the type lives in nor its
generic arguments appear in it.
-/

namespace Shard

/-- A name in the source, as its UTF-8 bytes. -/
abbrev Name := List UInt8

/-- A Rust type with a derived `Component` implementation: where it is declared, how it is called, its generic arguments
(as identities of types) and its layout. `ty` is its identity as a type. -/
structure TypeDecl where
  ty : Nat
  path : List Name
  ident : Name
  args : List Nat
  size : Nat
  align : Nat
  deriving DecidableEq, Repr

/-- `shard_ecs_derive/src/lib.rs:5-16` `derive_component`: `NAME = stringify!(#name)`, and `ID` the default of
`component.rs:15`. -/
def TypeDecl.derived (env : Env) (t : TypeDecl) : CompTy := CompTy.ofName env t.ty t.ident t.size t.align

end Shard
