import Verif.Model.CrateTests
/-!
# The example programs and the benchmark, as programs of the model

Each function returns what the program sees of the results of its calls. `name` is the `NAME` of `Rotation`: all three
examples that have the type give it the name `"Position"`, which is also the name of `Position`.
-/

set_option autoImplicit false

namespace Shard.Examples

open CrateTests

/-- The string `"Position"`. -/
def positionName : List UInt8 := [80, 111, 115, 105, 116, 105, 111, 110]
/-- The string `"Rotation"`. -/
def rotationName : List UInt8 := [82, 111, 116, 97, 116, 105, 111, 110]

/-- `examples/add_remove_components.rs:4-11` (the same lines in the other examples) `Position`: three `f32`. -/
def position (env : Env) : CompTy := CompTy.ofName env 31 positionName 12 4
/-- `examples/add_remove_components.rs:14-22` (`iterations.rs:15-23`) `Rotation`: four `f32`. -/
def rotation (env : Env) (name : List UInt8) : CompTy := CompTy.ofName env 32 name 16 4

/-- `examples/add_remove_components.rs:25-52`: whether `add_component` and `remove_component` succeeded. -/
def addRemove (env : Env) (name : List UInt8) (p q : Val) : M (Bool × Bool) := do
  let (r, e) ← create env Registry.default [position env] [p]
  let (r, added) ← r.addComponent env e (rotation env name) q
  let (r, removed) ← r.removeComponent env e (position env)
  let _ ← r.drop
  return (isOk added, isOk removed)

/-- `examples/create_destroy_entity.rs:25-58`: whether the creation with both components and the destruction succeeded. -/
def createDestroy (env : Env) (name : List UInt8) (p q : Val) : M (Bool × Bool) := do
  let (r, e) ← create env Registry.default [position env] [p]
  let (r, created) ← r.createEntity env [position env, rotation env name] [p, q]
  let (r, destroyed, _) ← r.destroyEntity env e
  let _ ← r.drop
  return (isOk created, destroyed)

/-- `(0..n).for_each(|_| { registry.create_entity(values); })`: the results are ignored. -/
def createIgnoring (env : Env) (g : Group) (vals : List Val) : Nat → Registry → M Registry
  | 0, r => .ok r
  | n + 1, r => do
    let (r, _) ← r.createEntity env g vals
    createIgnoring env g vals n r

/-- What `examples/iterations.rs` sees. -/
structure Seen where
  /-- `iter_entities` -/
  entities : List Entity
  /-- `iter_components_exact::<(Position, Rotation)>` -/
  exact : List (List Val)
  /-- `iter_components_matching::<Position>` -/
  positions : List (List (List Val))
  /-- `iter_filtered_components_matching::<Position, _>(|a| !a.has_component::<Rotation>())` -/
  filtered : List (List (List Val))
  /-- `iter_entity_components_matching::<Rotation>` -/
  rotations : List (List Entity × List (List Val))
  deriving DecidableEq

/-- `examples/iterations.rs:26-98`; the example has `n = 10000`. -/
def iterations (env : Env) (name : List UInt8) (n : Nat) (p q : Val) : M Seen := do
  let r ← createIgnoring env [position env, rotation env name] [p, q] n Registry.default
  let entities := r.iterEntities env
  let exact ← r.iterComponentsExact env [position env, rotation env name]
  let positions ← r.iterComponentsMatching env [position env]
  let filtered ← r.iterFilteredComponentsMatching env [position env] (fun d => ! d.hasComponent (rotation env name))
  let rotations ← r.iterEntityComponentsMatching env [rotation env name]
  let _ ← r.drop
  return ⟨entities, exact, positions.map Prod.snd, filtered.map Prod.snd, rotations.map Prod.snd⟩

/-! ## `benches/ecs.rs` -/

/-- `benches/ecs.rs:79-84`, `98-100` `P`. -/
def benchP (env : Env) : CompTy := CompTy.ofName env 41 [80] 12 4
/-- `benches/ecs.rs:85-90`, `101-103` `R`. -/
def benchR (env : Env) : CompTy := CompTy.ofName env 42 [82] 12 4
/-- `benches/ecs.rs:91-96`, `104-106` `S`. -/
def benchS (env : Env) : CompTy := CompTy.ofName env 43 [83] 12 4

/-- `benches/ecs.rs:27-33`: one entity; the arguments stand for the random values. -/
def benchCreate (env : Env) (first second : Bool) (p q s : Val) (r : Registry) : M (Registry × Entity) :=
  if first then create env r [benchP env, benchS env] [p, s]
  else if second then create env r [benchP env] [p]
  else create env r [benchP env, benchR env, benchS env] [p, q, s]

/-- `benches/ecs.rs:10-34`: the set-up of the benchmark; the benchmark has `n = 1000000`. -/
def benchSetup (env : Env) (random : Nat → Bool × Bool) (p q s : Nat → Val) : (n i : Nat) → Registry →
    M (Registry × List Entity)
  | 0, _, r => .ok (r, [])
  | n + 1, i, r => do
    let (r, e) ← benchCreate env (random i).1 (random i).2 (p i) (q i) (s i) r
    let (r, es) ← benchSetup env random p q s n (i + 1) r
    return (r, e :: es)

/-- `benches/ecs.rs:36-42` `random_lookup`: the body for the chosen entities. -/
def benchLookups (env : Env) (r : Registry) : List Entity → M (List Val)
  | [] => .ok []
  | e :: es => do
    let v ← unwrap (← r.getComponent env (benchP env) e)
    let vs ← benchLookups env r es
    return v :: vs

end Shard.Examples
