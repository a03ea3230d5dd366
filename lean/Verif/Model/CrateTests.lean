import Verif.Model.Registry
/-!
# The crate's own tests, as programs of the model

Each `#[test]` function of the crate is transcribed statement by statement. A test passes if its program ends with
`.ok ()`: no assertion fails, nothing panics, nothing has undefined behaviour. A registry or archetype that goes out of
scope is dropped at the end of the program. `usize` has 8 bytes.

Not transcribed: assertions that compare addresses of stack variables (`component_group.rs:211-257`, `280-352`); they are
replaced by the same assertions about positions (`testComponentGroupPointers`).
-/

set_option autoImplicit false

namespace Shard.CrateTests

/-! ## Assertions and unwrapping -/

/-- `assert!(b)`. -/
def assertThat (b : Bool) : M Unit := ensure b (.panic .assertFailed)

/-- `assert_eq!(a, b)`. -/
def assertEq {α : Type} [DecidableEq α] (a b : α) : M Unit := assertThat (decide (a = b))

/-- `assert_ne!(a, b)`. -/
def assertNe {α : Type} [DecidableEq α] (a b : α) : M Unit := assertThat (decide (a ≠ b))

/-- `Result::unwrap`. -/
def unwrapRes {α ε : Type} : Registry.Res α ε → M α
  | .ok a => .ok a
  | .err _ => .error (.panic .unwrapNone)

/-- `Result::is_ok`. -/
def isOk {α ε : Type} : Registry.Res α ε → Bool
  | .ok _ => true
  | .err _ => false

/-- `for x in l { f(x) }` without a state. -/
def forEach {α : Type} (l : List α) (f : α → M Unit) : M Unit :=
  match l with
  | [] => .ok ()
  | x :: rest => do
    f x
    forEach rest f

/-- `iter().enumerate().for_each(f)`. -/
def forEnumerated {α : Type} (l : List α) (f : Nat → α → M Unit) : M Unit := forEach l.zipIdx (fun x => f x.2 x.1)

/-! ## `src/test_components.rs` -/

/-- The bytes of a `usize`. -/
def usizeBytes (env : Env) (n : Nat) : List UInt8 :=
  let le := (List.range 8).map (fun i => UInt8.ofNat (n / 256 ^ i))
  if env.bigEndian then le.reverse else le

/-- `test_components.rs:3-15` `A`. -/
def tA : CompTy := ⟨1, 1, 8, 8⟩
/-- `test_components.rs:16-29` `B`. -/
def tB : CompTy := ⟨2, 2, 8, 8⟩
/-- `test_components.rs:30-43` `C`. -/
def tC : CompTy := ⟨3, 3, 8, 8⟩
/-- `A { _data: n }`. -/
def vA (env : Env) (n : Nat) : Val := ⟨1, usizeBytes env n⟩
/-- `B { _data: n }`. -/
def vB (env : Env) (n : Nat) : Val := ⟨2, usizeBytes env n⟩
/-- `C { _data: n }`. -/
def vC (env : Env) (n : Nat) : Val := ⟨3, usizeBytes env n⟩
/-- `test_components.rs:7-11` `A::default()`. -/
def defA (env : Env) : Val := vA env 1
/-- `test_components.rs:20-24` `B::default()`. -/
def defB (env : Env) : Val := vB env 2
/-- `test_components.rs:34-38` `C::default()`. -/
def defC (env : Env) : Val := vC env 3

/-! ## `src/registry/tests.rs` -/

/-- `*reference` for the result of `get_component_mut`. -/
def derefMut (r : Registry) (c : CompTy) (o : Option (Nat × Ref)) : M (Option Val) :=
  match o with
  | none => .ok none
  | some (ai, p) => do
    let a ← index r.archetypes.archetypes ai
    let v ← a.readRef c p
    return some v

/-- The values behind the references of the result of `get_components_mut`. -/
def derefMuts (r : Registry) (o : Option (Nat × List (CompTy × Option Ref))) : M (Option (List Val)) :=
  match o with
  | none => .ok none
  | some (ai, ps) => do
    let a ← index r.archetypes.archetypes ai
    let vs ← a.derefTuple ps
    return some vs

/-- `registry.create_entity(values).unwrap()`. -/
def create (env : Env) (r : Registry) (g : Group) (vals : List Val) : M (Registry × Entity) := do
  let x ← r.createEntity env g vals
  let e ← unwrapRes x.2
  return (x.1, e)

/-- `get_component_mut` and reading through it. -/
def getMut (env : Env) (r : Registry) (c : CompTy) (e : Entity) : M (Option Val) := do
  let p ← r.getComponentMut env c e
  derefMut r c p

/-- `get_components_mut` and reading through it. -/
def getsMut (env : Env) (r : Registry) (g : Group) (e : Entity) : M (Option (List Val)) := do
  let p ← r.getComponentsMut env g e
  derefMuts r p

/-- `registry/tests.rs:7-42`. -/
def registryTestGetComponent (env : Env) : M Unit := do
  let (r, e) ← create env Registry.default [tA, tB] [defA env, defB env]
  assertEq (← r.getComponent env tA e) (some (defA env))
  assertEq (← getMut env r tB e) (some (defB env))
  assertEq (← r.getComponent env tC e) none
  assertEq (← getMut env r tA Entity.INVALID) none
  assertEq (← r.getComponents env [tA, tB] e) (some [defA env, defB env])
  assertEq (← r.getComponents env [tB, tA] e) (some [defB env, defA env])
  assertEq (← r.getComponents env [tA, tB] Entity.INVALID) none
  assertEq (← getsMut env r [tA, tB] e) (some [defA env, defB env])
  assertEq (← getsMut env r [tB, tA] e) (some [defB env, defA env])
  assertEq (← getsMut env r [tA, tB] Entity.INVALID) none
  assertEq ((← r.getComponent env tA e).map (fun v => [v])) (← r.getComponents env [tA] e)
  let _ ← r.drop

/-- `registry/tests.rs:44-58`. -/
def registryTestHasComponent (env : Env) : M Unit := do
  let (r, e) ← create env Registry.default [tA, tB] [defA env, defB env]
  assertEq (← r.hasComponent env tA e) true
  assertEq (← r.hasComponent env tB e) true
  assertEq (← r.hasComponent env tC e) false
  assertEq (← r.hasComponent env tA Entity.INVALID) false
  assertEq (← r.hasComponents env [tA, tB] e) true
  assertEq (← r.hasComponents env [tA, tC] e) false
  assertEq (← r.hasComponents env [tA, tB] Entity.INVALID) false
  let _ ← r.drop

/-- `registry/tests.rs:61-119`: the first part of `test_registry`, with its own registry. -/
def testRegistryFirst (env : Env) : M Unit := do
  let (r, e) ← create env Registry.default [tA, tB] [defA env, defB env]
  assertEq e.version 0
  assertEq (← r.getComponent env tA e) (some (defA env))
  assertEq (← getMut env r tB e) (some (defB env))
  let (r, _, _) ← r.destroyEntity env e
  let (r, e) ← create env r [tA, tB] [defA env, defB env]
  assertEq e.version 1
  assertEq (← r.getComponent env tA e) (some (defA env))
  assertEq (← getMut env r tB e) (some (defB env))
  let (r, data) ← r.removeEntity env [tB, tA] e
  assertEq data (some [defB env, defA env])
  let (r, e) ← create env r [tA, tB] [defA env, defB env]
  assertThat (← r.hasComponent env tB e)
  assertThat (← r.hasComponent env tA e)
  let (r, added) ← r.addComponent env e tC (defC env)
  assertThat (isOk added)
  assertThat (← r.hasComponent env tB e)
  assertThat (← r.hasComponent env tA e)
  assertThat (← r.hasComponent env tC e)
  let (r, removed) ← r.removeComponent env e tA
  assertThat (isOk removed)
  assertThat (← r.hasComponents env [tC, tB] e)
  assertEq (← r.hasComponent env tA e) false
  let (r, _, _) ← r.destroyEntity env e
  let _ ← r.drop

/-- `(lo..lo + n).map(|i| registry.create_entity(values(i)).unwrap()).collect()`. -/
def createMany (env : Env) (g : Group) (vals : Nat → List Val) : (n lo : Nat) → Registry → M (Registry × List Entity)
  | 0, _, r => .ok (r, [])
  | n + 1, lo, r => do
    let (r, e) ← create env r g (vals lo)
    let (r, es) ← createMany env g vals n (lo + 1) r
    return (r, e :: es)

/-- `registry/tests.rs:165-169`: the loop that adds a `C` to every entity. -/
def addMany (env : Env) : List Entity → Registry → M Registry
  | [], r => .ok r
  | e :: es, r => do
    let (r, added) ← r.addComponent env e tC (defC env)
    assertThat (isOk added)
    assertThat (← r.hasComponent env tC e)
    addMany env es r

/-- `registry/tests.rs:171-198`: one iteration of the last loop; the two arguments stand for the results of the two
calls of `rand::random()`. -/
def change (env : Env) (first second : Bool) (e : Entity) (r : Registry) : M Registry := do
  if first then
    let (r, destroyed, _) ← r.destroyEntity env e
    assertThat destroyed
    return r
  else if second then
    let (r, removed) ← r.removeComponent env e tC
    assertThat (isOk removed)
    assertThat (← r.hasComponents env [tA, tB] e)
    assertEq (← r.hasComponent env tC e) false
    assertEq (← r.getComponents env [tA, tB] e) (some [defA env, defB env])
    return r
  else
    let (r, removed) ← r.removeComponent env e tA
    assertThat (isOk removed)
    assertThat (← r.hasComponents env [tC, tB] e)
    assertEq (← r.hasComponent env tA e) false
    assertEq (← r.getComponents env [tC, tB] e) (some [defC env, defB env])
    return r

/-- `registry/tests.rs:170-200`: the last loop; `random i` are the two random values of iteration `i`. -/
def changeMany (env : Env) (random : Nat → Bool × Bool) : (i : Nat) → List Entity → Registry → M Registry
  | _, [], r => .ok r
  | i, e :: es, r => do
    let r ← change env (random i).1 (random i).2 e r
    changeMany env random (i + 1) es r

/-- `registry/tests.rs:121-201`: the second part of `test_registry`, with its own registry. The test has `count = 32` and
`more = 1000`. -/
def testRegistrySecond (env : Env) (count more : Nat) (random : Nat → Bool × Bool) : M Unit := do
  let (r, entities) ← createMany env [tA, tB] (fun i => [vA env i, vB env (count - i)]) count 0 Registry.default
  forEach (r.iterEntities env) (fun e => assertThat (entities.contains e))
  let items ← r.iterEntityComponentsMatching env [tA, tB]
  forEach items (fun item => do
    forEach item.2.1 (fun e => assertThat (item.2.1.contains e))
    let a ← index item.2.2 0
    let b ← index item.2.2 1
    forEnumerated a (fun i v => assertEq v (vA env i))
    forEnumerated b (fun i v => assertEq v (vB env (count - i))))
  let (r, _) ← createMany env [tA, tB, tC] (fun i => [vA env i, vB env (count - i), vC env i]) count 0 r
  let items ← r.iterComponentsMatching env [tA, tB]
  assertEq items.length 2
  let (r, entities) ← createMany env [tA, tB] (fun _ => [defA env, defB env]) more 0 r
  let r ← addMany env entities r
  let r ← changeMany env random 0 entities r
  let _ ← r.drop

/-- `registry/tests.rs:60-201` `test_registry`. -/
def testRegistry (env : Env) (random : Nat → Bool × Bool) : M Unit := do
  testRegistryFirst env
  testRegistrySecond env 32 1000 random

/-! ## `src/archetype/tests.rs` -/

/-- `Archetype::with_capacity(..)`, dropped immediately. -/
def constructAndDrop (env : Env) (d : ArchetypeDescriptor) (capacity : Nat) : M Unit := do
  let a ← Archetype.withCapacity env d capacity
  let _ ← a.drop

/-- `archetype/tests.rs:7-15`. -/
def testArchetypeConstructors (env : Env) : M Unit := do
  let d := (Group.descriptor env [tA, tB]).archetype
  let a ← Archetype.new env d
  let _ ← a.drop
  constructAndDrop env d 0
  constructAndDrop env d MAX_ENTITIES_PER_ARCHETYPE
  constructAndDrop env d (MAX_ENTITIES_PER_ARCHETYPE + 1)

/-- `archetype/tests.rs:17-55`. -/
def testArchetypeSlices (env : Env) : M Unit := do
  let a ← Archetype.new env (Group.descriptor env [tA, tB, tC]).archetype
  let (a, _) ← a.pushEntityUnchecked env Entity.INVALID [tA, tB, tC] [defA env, defB env, defC env]
  assertEq a.entityCount 1
  assertEq (← a.entityAt 0) Entity.INVALID
  assertEq (← a.getSlicesUncheckedExact env [tA, tB, tC]) [[defA env], [defB env], [defC env]]
  assertEq (← a.getSlicesUncheckedExact env [tB, tA, tC]) [[defB env], [defA env], [defC env]]
  assertEq (← a.getFuzzySlicesUnchecked env [tB, tA]) [[defB env], [defA env]]
  assertEq (← a.getFuzzySlicesUnchecked env [tA, tC]) [[defA env], [defC env]]
  let _ ← a.drop

/-- `archetype/tests.rs:57-72`. -/
def testArchetypeGetComponents (env : Env) : M Unit := do
  let a ← Archetype.new env (Group.descriptor env [tA, tB, tC]).archetype
  let (a, idx) ← a.pushEntityUnchecked env Entity.INVALID [tA, tB, tC] [defA env, defB env, defC env]
  assertEq (← a.getComponentUnchecked tA idx) (defA env)
  assertEq (← a.readRef tB (← a.getComponentUncheckedMut tB idx)) (defB env)
  let _ ← a.drop

/-- The reads that `archetype/tests.rs:74-163` repeats: the values and the handle of a row. -/
def checkRow (env : Env) (a : Archetype) (idx : Nat) (e : Entity) (x y : Nat) : M Unit := do
  assertEq (← a.getComponentUnchecked tA idx) (vA env x)
  assertEq (← a.readComponentUnchecked tA idx) (vA env x)
  assertEq (← a.readRef tB (← a.getComponentUncheckedMut tB idx)) (vB env y)
  assertEq (← a.readComponentUnchecked tB idx) (vB env y)
  assertEq (← a.entityAt idx) e

/-- `archetype/tests.rs:74-163`. -/
def testArchetypeSwapEntities (env : Env) : M Unit := do
  let a ← Archetype.new env (Group.descriptor env [tA, tB]).archetype
  let e1 := Entity.fromRaw 1
  let e2 := Entity.fromRaw 2
  let (a, idx1) ← a.pushEntityUnchecked env e1 [tA, tB] [vA env 1, vB env 3]
  let (a, idx2) ← a.pushEntityUnchecked env e2 [tA, tB] [vA env 2, vB env 4]
  checkRow env a idx1 e1 1 3
  checkRow env a idx2 e2 2 4
  let a ← a.swapEntities idx1 idx2
  checkRow env a idx2 e1 1 3
  checkRow env a idx1 e2 2 4
  let a ← a.swapEntities idx1 idx2
  checkRow env a idx1 e1 1 3
  checkRow env a idx2 e2 2 4
  let _ ← a.drop

/-- `archetype/tests.rs:165-199`. -/
def testArchetypeReadComponents (env : Env) : M Unit := do
  let a ← Archetype.new env (Group.descriptor env [tA, tB]).archetype
  let (a, idx) ← a.pushEntityUnchecked env Entity.INVALID [tA, tB] [defA env, defB env]
  assertEq (← a.readComponentsExactUnchecked env [tA, tB] idx) [defA env, defB env]
  assertEq (← a.readComponentsExactUnchecked env [tB, tA] idx) [defB env, defA env]
  let a' ← Archetype.new env (Group.descriptor env [tA, tB, tC]).archetype
  let (a', idx) ← a'.pushEntityUnchecked env Entity.INVALID [tA, tB, tC] [defA env, defB env, defC env]
  assertEq (← a'.readComponentsExactUnchecked env [tA, tB, tC] idx) [defA env, defB env, defC env]
  assertEq (← a'.readComponentsExactUnchecked env [tB, tC, tA] idx) [defB env, defC env, defA env]
  let _ ← a'.drop
  let _ ← a.drop

/-! ## `src/archetype_registry/tests.rs` -/

/-- The contents of the slices of a mutable iterator. -/
def readItems (r : ArchetypeRegistry) (items : List (Nat × List SliceRef)) : M (List (List (List Val))) :=
  items.mapM (fun item => do
    let a ← index r.archetypes item.1
    item.2.mapM a.readSliceRef)

/-- The loops over the columns of one item (`archetype_registry/tests.rs:18-49`); `with_b` for the loops over `(A, B)`. -/
def checkColumns (env : Env) (withB : Bool) (cols : List (List Val)) : M Unit := do
  let a ← index cols 0
  forEnumerated a (fun i v => assertEq v (vA env i))
  if withB then
    let b ← index cols 1
    forEnumerated b (fun i v => assertEq v (vB env (1048576 - i)))

/-- `archetype_registry/tests.rs:6-50`. -/
def testArchetypeRegistry (env : Env) : M Unit := do
  let (r, o) ← ArchetypeRegistry.default.findOrCreateArchetype env (Group.descriptor env [tA, tB]).archetype
  let ai ← unwrap o
  let a ← index r.archetypes ai.toNat
  let (a, _) ← a.pushEntityUnchecked env (Entity.newUnchecked 0 0) [tA, tB] [vA env 0, vB env 1048576]
  let r := r.setArchetype ai.toNat a
  forEach (← r.iterComponentsMatching env [tA]) (fun x => checkColumns env false x.2)
  forEach (← r.iterComponentsMatching env [tA, tB]) (fun x => checkColumns env true x.2)
  forEach (← readItems r (← r.iterComponentsMatchingMut env [tA])) (checkColumns env false)
  forEach (← readItems r (← r.iterComponentsMatchingMut env [tA, tB])) (checkColumns env true)
  let _ ← r.drop

/-! ## `src/entity_registry` -/

/-- `entry.rs:70-83` the test values. -/
def testValuesU8 : List UInt8 := [0, 3, 7, 12, 89, 254, 255, 72, 134, 1]
/-- `entry.rs:70-83` the test values. -/
def testValuesU16 : List UInt16 := [0, 1, 3, 7, 234, 29304, 13032, 65535, 65534, 1]
/-- `entry.rs:70-83` the test values. -/
def testValuesU32 : List UInt32 := [0, 1, 3, 7, 234, 2429304, 13032, IndexInArchetype.INVALID_VALUE - 1, 2304820, 1]

/-- The six bytes of an entry. -/
def entryBytes (e : EntityEntry) : List UInt8 := [e.v0, e.v1, e.v2, e.v3, e.v4, e.v5]

/-- `entry.rs:87-101` `check_bytes`. -/
def checkBytes (before after : EntityEntry) (allowed : List Nat) : Bool :=
  (List.range 6).all (fun i => allowed.contains i || decide ((entryBytes before)[i]? = (entryBytes after)[i]?))

/-- `for value in l { .. }` with the entry as state. -/
def forEntry {α : Type} (l : List α) (f : EntityEntry → α → M EntityEntry) (e : EntityEntry) : M EntityEntry :=
  match l with
  | [] => .ok e
  | x :: rest => do
    let e ← f e x
    forEntry rest f e

/-- `entry.rs:103-138`. -/
def testEntityRegisterEntry (env : Env) : M Unit := do
  let e := EntityEntry.default
  assertEq e.version 0
  assertEq (e.archetypeIndex env) 0
  assertEq e.indexInArchetype.value 0
  forEach testValuesU32 (fun x => do
    let i ← unwrap (IndexInArchetype.new x)
    assertEq i.value x)
  let e ← forEntry testValuesU8 (fun e x => do
    let e' := e.setVersion x
    assertEq e'.version x
    assertThat (checkBytes e e' [0])
    return e') e
  let e ← forEntry testValuesU16 (fun e x => do
    let e' := e.setArchetypeIndex env x
    assertEq (e'.archetypeIndex env) x
    assertThat (checkBytes e e' [4, 5])
    return e') e
  let _ ← forEntry testValuesU32 (fun e x => do
    let e' := e.setIndexInArchetype (IndexInArchetype.newUnchecked x)
    assertEq e'.indexInArchetype.value x
    assertThat (checkBytes e e' [1, 2, 3])
    return e') e

/-- `entity.rs:85-103`. -/
def testEntityHandles (env : Env) : M Unit := do
  let e := Entity.newUnchecked 8000000 255
  assertEq e.index 8000000
  assertEq e.version 255
  let e := e.setVersion 20
  assertEq e.version 20
  assertEq e.index 8000000
  let e ← e.setIndexChecked env 30
  assertEq e.index 30
  assertEq e.version 20
  assertEq Entity.INVALID.raw 4294967295

/-- `mod.rs:113-119`: the `while` loop of `verify_linked_list`, at most `fuel` times around. -/
def verifyLoop (env : Env) (r : EntityRegistry) : (fuel : Nat) → UInt32 → M Unit
  | 0, value => assertThat (value == IndexInArchetype.INVALID_VALUE)
  | fuel + 1, value =>
    if value = IndexInArchetype.INVALID_VALUE then .ok ()
    else do
      assertThat (decide (value.toNat ≤ r.entities.length))
      let slot ← index r.entities value.toNat
      assertThat (! slot.isValid env)
      verifyLoop env r fuel slot.indexInArchetype.value

/-- `mod.rs:107-122` `verify_linked_list`. -/
def verifyLinkedList (env : Env) (r : EntityRegistry) : M Unit :=
  if r.nextFreeSlot = IndexInArchetype.INVALID_VALUE then
    forEach r.entities (fun e => assertThat (e.isValid env))
  else verifyLoop env r r.entities.length r.nextFreeSlot

/-- `mod.rs:124-157`. -/
def testEntityRegister (env : Env) : M Unit := do
  let iia ← unwrap (IndexInArchetype.new 1)
  let ai ← unwrap (ArchetypeIndex.new 1)
  let (r, o) ← EntityRegistry.default.createEntity env iia ai
  let e ← unwrap o
  assertThat (r.entityEntry env e).isSome
  verifyLinkedList env r
  assertEq r.nextFreeSlot IndexInArchetype.INVALID_VALUE
  assertEq r.entities.length 1
  let (r, destroyed) := r.destroyEntity env e
  assertThat destroyed
  assertEq r.nextFreeSlot e.index
  let slot ← index r.entities e.index.toNat
  assertThat (! slot.isValid env)
  assertEq slot.version 1
  assertEq (slot.archetypeIndex env) ArchetypeIndex.INVALID_VALUE
  assertThat (r.entityEntry env e).isNone
  let (r, o) ← r.createEntity env iia ai
  let e ← unwrap o
  let entry ← unwrap (r.entityEntry env e)
  assertEq (entry.archetypeIndex env) ai.value
  assertEq entry.indexInArchetype iia
  assertEq e.index 0
  verifyLinkedList env r
  assertEq r.nextFreeSlot IndexInArchetype.INVALID_VALUE
  assertEq r.entities.length 1

/-- `mod.rs:168-171` (and `188-191`): create `n` entities, keep those that were created. -/
def createSlots (env : Env) (iia : IndexInArchetype) (ai : ArchetypeIndex) :
    (n : Nat) → EntityRegistry → M (EntityRegistry × List Entity)
  | 0, r => .ok (r, [])
  | n + 1, r => do
    let (r, o) ← r.createEntity env iia ai
    let (r, es) ← createSlots env iia ai n r
    return (r, o.toList ++ es)

/-- `mod.rs:172-178` (and `192-198`): check and destroy every entity. -/
def destroySlots (env : Env) (okVersion : UInt8 → Bool) : List Entity → EntityRegistry → M EntityRegistry
  | [], r => .ok r
  | e :: es, r => do
    let entry ← unwrap (r.entityEntry env e)
    assertThat (okVersion entry.version)
    assertEq (entry.archetypeIndex env) 1
    assertEq entry.indexInArchetype.value 2
    let (r, destroyed) := r.destroyEntity env e
    assertThat destroyed
    destroySlots env okVersion es r

/-- `mod.rs:179-183` (and `199-203`): every entity is dead. -/
def deadSlots (env : Env) : List Entity → EntityRegistry → M EntityRegistry
  | [], r => .ok r
  | e :: es, r => do
    let (r, destroyed) := r.destroyEntity env e
    assertEq destroyed false
    assertThat (r.entityEntry env e).isNone
    deadSlots env es r

/-- `mod.rs:159-208`; the test has `count = 1024`. -/
def testManyEntities (env : Env) (count : Nat) : M Unit := do
  let (r, destroyed) := EntityRegistry.default.destroyEntity env Entity.INVALID
  assertThat (! destroyed)
  let iia ← unwrap (IndexInArchetype.new 2)
  let ai ← unwrap (ArchetypeIndex.new 1)
  let (r, es) ← createSlots env iia ai count r
  let r ← destroySlots env (fun v => v == 0) es.reverse r
  let r ← deadSlots env es r
  let (r, destroyed) := r.destroyEntity env Entity.INVALID
  assertThat (! destroyed)
  let (r, es) ← createSlots env iia ai count r
  let r ← destroySlots env (fun v => v != 0) es.reverse r
  let _ ← deadSlots env es r

/-! ## `src/descriptors` -/

/-- `archetype_descriptor.rs:217-233`. -/
def testArchetypeDescriptorAddRemove (env : Env) : M Unit := do
  let d := (Group.descriptor env [tA, tB]).archetype
  assertThat (d.hasComponent tA)
  assertThat (d.hasComponent tB)
  let d ← unwrap (← d.addComponent env tC.descriptor)
  assertThat (d.hasComponent tC)
  assertThat (d.hasComponent tA)
  assertThat (d.hasComponent tB)
  let d ← unwrap (← d.removeComponent env tB.id)
  assertThat (! d.hasComponent tB)
  assertThat (d.hasComponent tA)
  assertThat (d.hasComponent tC)
  assertEq d.len 2

/-- `archetype_descriptor.rs:235-255`. -/
def testArchetypeDescriptorContains (env : Env) : M Unit := do
  let d := (Group.descriptor env [tA, tB]).archetype
  assertEq (d.containsSubset (Group.descriptor env [tA]).archetype) true
  assertEq (d.containsSubset (Group.descriptor env [tB]).archetype) true
  assertEq (d.containsSubset (Group.descriptor env [tC]).archetype) false

/-- `archetype_descriptor.rs:257-278`. -/
def testArchetypeDescriptorExcludes (env : Env) : M Unit := do
  let d := (Group.descriptor env [tA, tB]).archetype
  assertEq (d.excludesSubset (Group.descriptor env [tC]).archetype) true
  assertEq (d.excludesSubset (Group.descriptor env [tA]).archetype) false
  assertEq (d.containsSubset (Group.descriptor env [tB]).archetype) true

/-- `component_group_descriptor.rs:180-194` the test components (zero-sized, ids 1, 2, 3). -/
def dA : ComponentDescriptor := (CompTy.mk 11 1 0 1).descriptor
/-- `component_group_descriptor.rs:180-194`. -/
def dB : ComponentDescriptor := (CompTy.mk 12 2 0 1).descriptor
/-- `component_group_descriptor.rs:180-194`. -/
def dC : ComponentDescriptor := (CompTy.mk 13 3 0 1).descriptor

/-- `component_group_descriptor.rs:196-207`. -/
def testComputeSortedDescriptors : M Unit := do
  let result := ComponentGroupDescriptor.computeSortedDescriptors [dA, dB, dC]
  assertEq result[0]? (some dA)
  assertEq result[1]? (some dB)
  assertEq result[2]? (some dC)

/-- `component_group_descriptor.rs:209-243`. -/
def testComputeSortMappings : M Unit := do
  let unsorted := [dA, dB, dC]
  let maps := ComponentGroupDescriptor.computeSortMappings unsorted (ComponentGroupDescriptor.computeSortedDescriptors unsorted)
  assertEq (maps.1.take 3) [0, 1, 2]
  assertEq (maps.2.take 3) [0, 1, 2]
  let unsorted := [dB, dC, dA]
  let maps := ComponentGroupDescriptor.computeSortMappings unsorted (ComponentGroupDescriptor.computeSortedDescriptors unsorted)
  assertEq (maps.1.take 3) [1, 2, 0]
  assertEq (maps.2.take 3) [2, 0, 1]

/-- `component_group.rs:210-354`: the four tests about pointers, with positions instead of addresses: the values of a
tuple are put at the positions of their types in ascending order of the ids, and a tuple reads from there. -/
def testComponentGroupPointers (env : Env) : M Unit := do
  let sorted := [some (defA env), some (defB env), some (defC env)]
  assertEq ((Archetype.asSortedPointers env [tA, tB, tC] [defA env, defB env, defC env]).take 3) sorted
  assertEq ((Archetype.asSortedPointers env [tB, tC, tA] [defB env, defC env, defA env]).take 3) sorted
  let ptrs : List (Option Ref) := [some ⟨0, 0⟩, some ⟨1, 0⟩, some ⟨2, 0⟩]
  assertEq (Archetype.tuplePointers env [tA, tB, tC] ptrs) [(tA, some ⟨0, 0⟩), (tB, some ⟨1, 0⟩), (tC, some ⟨2, 0⟩)]
  assertEq (Archetype.tuplePointers env [tB, tC, tA] ptrs) [(tB, some ⟨1, 0⟩), (tC, some ⟨2, 0⟩), (tA, some ⟨0, 0⟩)]
  assertEq (Archetype.tuplePointers env [tC, tA, tB] ptrs) [(tC, some ⟨2, 0⟩), (tA, some ⟨0, 0⟩), (tB, some ⟨1, 0⟩)]
  let slices ← Archetype.sliceTuple env [tA, tB, tC] ptrs 16
  assertEq slices [⟨tA, ⟨0, 0⟩, 16⟩, ⟨tB, ⟨1, 0⟩, 16⟩, ⟨tC, ⟨2, 0⟩, 16⟩]
  let slices ← Archetype.sliceTuple env [tB, tC, tA] ptrs 16
  assertEq slices [⟨tB, ⟨1, 0⟩, 16⟩, ⟨tC, ⟨2, 0⟩, 16⟩, ⟨tA, ⟨0, 0⟩, 16⟩]

/-- `component_group.rs:548-560`: the test components of the second test module, with ids from their names. -/
def tPosition (env : Env) : CompTy := CompTy.ofName env 21 [80, 111, 115, 105, 116, 105, 111, 110] 0 1
/-- `component_group.rs:548-560`. -/
def tRotation (env : Env) : CompTy := CompTy.ofName env 22 [82, 111, 116, 97, 116, 105, 111, 110] 0 1
/-- `component_group.rs:548-560`. -/
def tVelocity (env : Env) : CompTy := CompTy.ofName env 23 [86, 101, 108, 111, 99, 105, 116, 121] 0 1

/-- `component_group.rs:562-571`. -/
def testComponentGroupLen (env : Env) : M Unit := do
  assertEq (Group.descriptor env [tPosition env]).archetype.len 1
  assertEq (Group.descriptor env [tPosition env, tRotation env]).archetype.len 2
  assertEq (Group.descriptor env [tPosition env, tRotation env, tVelocity env]).archetype.len 3

/-- `component_group.rs:573-581`. -/
def testComponentGroupDescriptor (env : Env) : M Unit := do
  assertThat (Group.descriptor env [tPosition env]).isValid
  assertThat (! (Group.descriptor env [tPosition env, tPosition env]).isValid)
  assertThat (Group.descriptor env [tPosition env, tRotation env]).isValid

end Shard.CrateTests
