import Verif.Proofs.RemoveAny
import Verif.Props.Violations
/-!
# C60: components of 64 KiB and more

`Component::DESCRIPTOR` stores the size and the alignment of a type as `u16` (`as u16` casts,
`component_descriptor.rs:8-19`). The trait's documentation asks implementors to stay below `u16::MAX`, but the trait is
safe and nothing checks it. On a fresh registry a component can be stored and read back exactly if its size and
alignment are below 65536; from there on the calls have undefined behaviour.
-/

set_option autoImplicit false

namespace Shard

variable {env : Env} {W : World env} {r : Registry}

/-- The archetype descriptor of a group of one. -/
def singleDesc (id : UInt32) (d : ComponentDescriptor) : ArchetypeDescriptor :=
  ⟨id, d :: List.replicate 13 ComponentDescriptor.INVALID, 1⟩

theorem single_descriptor (env : Env) (c : CompTy) :
    (Group.descriptor env [c]).archetype = singleDesc (Group.archetypeId env [c]) c.descriptor ∧
    (Group.descriptor env [c]).isValid = true := by
  have hid := single_archetypeId_valid env c
  have hs : ComponentGroupDescriptor.computeSortedDescriptors ([c].map CompTy.descriptor) =
      c.descriptor :: List.replicate 13 ComponentDescriptor.INVALID := rfl
  have hv : ComponentGroupDescriptor.validate ([c].map CompTy.descriptor) = true := rfl
  have hd : (Group.descriptor env [c]).archetype = singleDesc (Group.archetypeId env [c]) c.descriptor := by
    unfold Group.archetypeId at hid
    unfold singleDesc Group.archetypeId
    unfold Group.descriptor ComponentGroupDescriptor.new
    rw [hv, hs]
    rw [hs] at hid
    simp only [Bool.not_true, Bool.false_eq_true, if_false]
    rw [if_neg hid]
    have hnew : ArchetypeDescriptor.new (ArchetypeDescriptor.computeArchetypeId env
        (c.descriptor :: List.replicate 13 ComponentDescriptor.INVALID)) ([c].map CompTy.descriptor).length
        (c.descriptor :: List.replicate 13 ComponentDescriptor.INVALID) = ⟨ArchetypeDescriptor.computeArchetypeId env
        (c.descriptor :: List.replicate 13 ComponentDescriptor.INVALID),
        c.descriptor :: List.replicate 13 ComponentDescriptor.INVALID, 1⟩ := by
      unfold ArchetypeDescriptor.new
      rw [if_neg (fun h => h.elim (fun h => by cases h) hid)]
      rfl
    rw [hnew, if_neg hid]
  refine ⟨hd, ?_⟩
  unfold ComponentGroupDescriptor.isValid ArchetypeDescriptor.isValid
  rw [hd]
  simpa [singleDesc] using hid

/-- The new archetype of `create_entity` with a group of one: 128 rows of uninitialised memory. -/
def emptyArchetype (id : UInt32) (d : ComponentDescriptor) : Archetype :=
  ⟨singleDesc id d, some ⟨d.align, List.replicate (d.size * 128) none⟩ :: List.replicate 13 none,
    some (List.replicate 128 none), 0, 128⟩

/-- ... and after the entity has been written: its first row starts with the first `d.size` bytes of the value. -/
def fullArchetype (id : UInt32) (d : ComponentDescriptor) (v : Val) : Archetype :=
  ⟨singleDesc id d,
    some ⟨d.align, v.encode.take d.size ++ List.replicate (d.size * 127) none⟩ :: List.replicate 13 none,
    some (some (Entity.newUnchecked 0 0) :: List.replicate 127 none), 1, 128⟩

/-- The registry with that archetype. -/
def freshRegistry (env : Env) (id : UInt32) (a : Archetype) : Registry :=
  ⟨⟨[(EntityEntry.default.setArchetypeIndex env 0).setIndexInArchetype ⟨0⟩], IndexInArchetype.INVALID_VALUE⟩,
    ⟨[⟨id, 0⟩] :: List.replicate 13 [], [a]⟩⟩

theorem forRange_one {σ : Type} (lo : Nat) (f : Nat → σ → M σ) (s : σ) : forRange lo 1 f s = f lo s := by
  unfold forRange
  cases f lo s <;> rfl

/-- The way in which the allocation of a column of `d` is undefined, if it is. -/
def singleFault (env : Env) (d : ComponentDescriptor) : Option UBKind :=
  if powerOfTwo d.align = false then some .layoutMismatch
  else if d.size = 0 ∧ ¬ env.zstAllocOk = true then some .zeroSizedAlloc
  else none

theorem allocColumns_single (env : Env) (id : UInt32) (d : ComponentDescriptor) :
    Archetype.allocColumns env (singleDesc id d) 128 (List.replicate 14 none) =
      match singleFault env d with
      | some u => .error (.ub u)
      | none => .ok (some ⟨d.align, List.replicate (d.size * 128) none⟩ :: List.replicate 13 none) := by
  have hcs : (singleDesc id d).components = [d] := rfl
  unfold Archetype.allocColumns
  rw [hcs]
  have h1 : [d].length = 1 := rfl
  rw [h1, forRange_one]
  show (do
    let b ← allocBlock env (d.size * 128) d.align
    setIndex (List.replicate 14 none) 0 (some b)) = _
  unfold allocBlock singleFault
  by_cases ha : powerOfTwo d.align = false
  · rw [if_pos ha, if_pos ha]; rfl
  rw [if_neg ha, if_neg ha]
  by_cases h : d.size = 0 ∧ ¬ env.zstAllocOk = true
  · rw [if_pos (by constructor; omega; exact h.2), if_pos h]; rfl
  · rw [if_neg (by rintro ⟨h1, h2⟩; exact h ⟨by omega, h2⟩), if_neg h]; rfl

theorem withCapacity_single (env : Env) {id : UInt32} (hid : id ≠ ARCHETYPE_ID_INVALID) (d : ComponentDescriptor) :
    Archetype.withCapacity env (singleDesc id d) 128 =
      match singleFault env d with
      | some u => .error (.ub u)
      | none => .ok (emptyArchetype id d) := by
  have hv : (singleDesc id d).isValid = true := by
    unfold ArchetypeDescriptor.isValid singleDesc
    simpa using hid
  unfold Archetype.withCapacity
  rw [ensure_true hv]
  simp only [ok_bind]
  rw [if_pos (by decide)]
  have h14 : MAX_COMPONENTS_PER_ENTITY = 14 := rfl
  rw [h14, allocColumns_single env id d]
  cases singleFault env d <;> rfl

theorem findOrCreate_single (env : Env) {id : UInt32} (hid : id ≠ ARCHETYPE_ID_INVALID) (d : ComponentDescriptor) :
    Registry.default.archetypes.findOrCreateArchetype env (singleDesc id d) =
      match singleFault env d with
      | some u => .error (.ub u)
      | none => .ok (⟨[⟨id, 0⟩] :: List.replicate 13 [], [emptyArchetype id d]⟩, some 0) := by
  have hv : (singleDesc id d).isValid = true := by
    unfold ArchetypeDescriptor.isValid singleDesc
    simpa using hid
  have hdef : Registry.default.archetypes = ⟨List.replicate 14 [], []⟩ := rfl
  have hs : ArchetypeRegistry.searchLevel env ⟨List.replicate 14 [], []⟩ (singleDesc id d) = .ok ([], .insertAt 0) := rfl
  have hk : UInt16.ofNat 0 = 0 := by decide
  have hk1 : UInt16.ofNat 1 - 1 = 0 := by decide
  have hln : (singleDesc id d).len - 1 = 0 := rfl
  have hid : (singleDesc id d).archetypeId = id := rfl
  have hset : ∀ x : List SortedArchetypeKey, (List.replicate 14 []).set 0 x = x :: List.replicate 13 [] := fun _ => rfl
  unfold ArchetypeRegistry.findOrCreateArchetype
  rw [if_neg (by rw [hv]; show ¬ (1 > 14 ∨ _); simp), hdef, hs]
  simp only [ok_bind]
  rw [if_neg (by decide)]
  have h128 : DEFAULT_ARCHETYPE_ALLOCATION_SIZE = 128 := rfl
  rw [h128, withCapacity_single env (by assumption) d]
  cases singleFault env d
  rotate_left
  · rfl
  · simp only [ok_bind]
    rw [ensure_true (by rfl)]
    simp only [ok_bind, pure_eq_ok, List.take_nil, List.drop_nil, List.nil_append, List.length_cons, List.length_nil,
      Nat.zero_add, hk, hk1, hln, hid, hset]

theorem writeColumns_single (id : UInt32) (d : ComponentDescriptor) (v : Val) (hle : d.size ≤ v.bytes.length)
    {srcs : List (Option Val)} (hsrc : indexUnchecked srcs 0 = .ok (some v)) :
    Archetype.writeColumns (singleDesc id d) 0 srcs (emptyArchetype id d).pointers = .ok (fullArchetype id d v).pointers := by
  unfold Archetype.writeColumns
  have h1 : (singleDesc id d).len = 1 := rfl
  rw [h1, forRange_one]
  have hrs : Archetype.readStack (some v) d.size = .ok (v.encode.take d.size) := by
    unfold Archetype.readStack
    simp only []
    rw [if_pos hle]
  have hlen : (v.encode.take d.size).length = d.size := by
    rw [List.length_take, Val.encode, List.length_mapIdx, Nat.min_eq_left hle]
  have hwb : writeBytes (some ⟨d.align, List.replicate (d.size * 128) none⟩) (d.size * 0) (v.encode.take d.size) =
      .ok ⟨d.align, v.encode.take d.size ++ List.replicate (d.size * 127) none⟩ := by
    unfold writeBytes
    simp only [hlen, Nat.mul_zero, Nat.zero_add, List.length_replicate, List.take_zero, List.nil_append, List.drop_replicate]
    rw [if_pos (by omega)]
    have : d.size * 128 - d.size = d.size * 127 := by omega
    rw [this]
  have hi1 : indexUnchecked (singleDesc id d).comps 0 = .ok d := rfl
  have hi2 : indexUnchecked (emptyArchetype id d).pointers 0 = .ok (some ⟨d.align, List.replicate (d.size * 128) none⟩) := rfl
  rw [hi1, hi2, hsrc]
  simp only [ok_bind]
  rw [hrs]
  simp only [ok_bind]
  rw [hwb]
  rfl

theorem setEntityAt_single (id : UInt32) (d : ComponentDescriptor) (v : Val) :
    Archetype.setEntityAt { (emptyArchetype id d) with
      entityCount := 0 + 1, pointers := (fullArchetype id d v).pointers } 0 (Entity.newUnchecked 0 0) =
      .ok (fullArchetype id d v) := by
  have h : (List.replicate 128 (none : Option Entity)).set 0 (some (Entity.newUnchecked 0 0)) =
      some (Entity.newUnchecked 0 0) :: List.replicate 127 none := by
    rw [show 128 = 127 + 1 from rfl, List.replicate_succ, List.set_cons_zero]
  unfold Archetype.setEntityAt
  simp only [emptyArchetype, fullArchetype]
  rw [if_pos (by rw [List.length_replicate]; omega), h, if_pos (by omega)]

theorem push_abs (env : Env) {id : UInt32} {d : ComponentDescriptor} {v : Val} {g : Group} {vals : List Val}
    (hd : (Group.descriptor env g).archetype = singleDesc id d) (hv : (Group.descriptor env g).isValid = true)
    (hsrc : indexUnchecked (Archetype.asSortedPointers env g vals) 0 = .ok (some v)) (hle : d.size ≤ v.bytes.length) :
    (emptyArchetype id d).pushEntityUnchecked env (Entity.newUnchecked 0 0) g vals = .ok (fullArchetype id d v, 0) := by
  have hda : (emptyArchetype id d).descriptor = singleDesc id d := rfl
  have hd1 : debugAssert env ((Group.descriptor env g).archetype.archetypeId ==
      (emptyArchetype id d).descriptor.archetypeId) = .ok () := by
    rw [hda, hd]
    exact debugAssert_true (by simp)
  have h0 : (emptyArchetype id d).entityCount = 0 := rfl
  have h1 : (emptyArchetype id d).capacity = 128 := rfl
  have hrz : (emptyArchetype id d).resizeIfNecessary env = .ok (emptyArchetype id d) := by
    unfold Archetype.resizeIfNecessary
    rw [if_neg (by unfold Archetype.isFull; rw [h0, h1]; decide)]
  have hw := writeColumns_single id d v hle hsrc
  unfold Archetype.pushEntityUnchecked
  rw [debugAssert_true hv, hd1]
  simp only [ok_bind]
  rw [hrz]
  simp only [ok_bind]
  unfold Archetype.writeEntityUnchecked
  rw [debugAssert_true (by rw [h0, h1]; decide), debugAssert_true hv, hd1]
  simp only [ok_bind]
  rw [hd, h0, hw]
  simp only [ok_bind]
  rw [setEntityAt_single]
  simp only [ok_bind, pure_eq_ok]

theorem push_single (env : Env) (c : CompTy) (v : Val) (hle : c.descriptor.size ≤ v.bytes.length) :
    (emptyArchetype (Group.archetypeId env [c]) c.descriptor).pushEntityUnchecked env (Entity.newUnchecked 0 0) [c] [v] =
      .ok (fullArchetype (Group.archetypeId env [c]) c.descriptor v, 0) := by
  obtain ⟨hd, hv⟩ := single_descriptor env c
  refine push_abs env hd hv ?_ hle
  rfl

/-- Decoding a value whose bytes are not all there. -/
theorem decodeFrom_short (ty : Nat) : ∀ (k : Nat) (l m : List (Option TByte)), none ∈ l ++ m → ∃ u, decodeFrom ty k (l ++ m) = .error (.ub u) := by
  have key : ∀ (l : List (Option TByte)) (k : Nat), none ∈ l → ∃ u, decodeFrom ty k l = .error (.ub u) := by
    intro l
    induction l with
    | nil => intro k h; cases h
    | cons x l ih =>
      intro k h
      cases x with
      | none => exact ⟨_, rfl⟩
      | some b =>
        have hm : none ∈ l := by
          rcases List.mem_cons.mp h with h | h
          · cases h
          · exact h
        obtain ⟨u, hu⟩ := ih (k + 1) hm
        unfold decodeFrom
        split
        · rw [hu]; exact ⟨u, rfl⟩
        · exact ⟨_, rfl⟩
  intro k l m h
  exact key _ k h

theorem freshEntry (env : Env) : EntityRegistry.entityEntry env
    ⟨[(EntityEntry.default.setArchetypeIndex env 0).setIndexInArchetype ⟨0⟩], IndexInArchetype.INVALID_VALUE⟩
    (Entity.newUnchecked 0 0) = some ((EntityEntry.default.setArchetypeIndex env 0).setIndexInArchetype ⟨0⟩) := by
  obtain ⟨d, b, z⟩ := env
  revert d b z
  decide +kernel

theorem freshEntry_fields (env : Env) :
    ((EntityEntry.default.setArchetypeIndex env 0).setIndexInArchetype ⟨0⟩).archetypeIndex env = 0 ∧
    ((EntityEntry.default.setArchetypeIndex env 0).setIndexInArchetype ⟨0⟩).indexInArchetype.value.toNat = 0 := by
  obtain ⟨d, b, z⟩ := env
  revert d b z
  decide +kernel


theorem freshLive (env : Env) (id : UInt32) (a : Archetype) : Live env (freshRegistry env id a) (Entity.newUnchecked 0 0) := by
  have h : Entity.newUnchecked 0 0 ∈ EntityRegistry.iter env
      ⟨[(EntityEntry.default.setArchetypeIndex env 0).setIndexInArchetype ⟨0⟩], IndexInArchetype.INVALID_VALUE⟩ := by
    obtain ⟨d, b, z⟩ := env
    revert d b z
    decide +kernel
  exact h

/-- `create_entity` of a single component on a fresh registry: an undefined zero-sized allocation if the size is a
multiple of 65536 (and the allocator does not tolerate it), otherwise a live entity. -/
theorem create_single (env : Env) (c : CompTy) (v : Val)
    (hle : c.descriptor.size ≤ v.bytes.length) :
    Registry.default.createEntity env [c] [v] =
      match singleFault env c.descriptor with
      | some u => .error (.ub u)
      | none => .ok (freshRegistry env (Group.archetypeId env [c])
        (fullArchetype (Group.archetypeId env [c]) c.descriptor v), .ok (Entity.newUnchecked 0 0)) := by
  have hce : EntityRegistry.createEntity env Registry.default.entities ⟨UInt32.ofNat 0⟩ ⟨0⟩ =
      .ok (⟨[(EntityEntry.default.setArchetypeIndex env 0).setIndexInArchetype ⟨0⟩],
        IndexInArchetype.INVALID_VALUE⟩, some (Entity.newUnchecked 0 0)) := by
    obtain ⟨d, b, z⟩ := env
    revert d b z
    decide +kernel
  obtain ⟨hd, hv⟩ := single_descriptor env c
  have hid := single_archetypeId_valid env c
  have hp := push_single env c v hle
  unfold Registry.createEntity
  rw [if_neg (by rw [hv]; simp), hd, findOrCreate_single env hid c.descriptor]
  generalize c.descriptor = d at *
  generalize Group.archetypeId env [c] = id at *
  cases singleFault env d
  rotate_left
  · rfl
  · simp only [ok_bind]
    have hi : index [emptyArchetype id d] (0 : UInt16).toNat = .ok (emptyArchetype id d) := rfl
    have h0 : (emptyArchetype id d).entityCount = 0 := rfl
    have hn1 : unwrap (IndexInArchetype.new (UInt32.ofNat 0)) = .ok ⟨UInt32.ofNat 0⟩ := by decide
    have hn2 : unwrap (ArchetypeIndex.new 0) = .ok ⟨0⟩ := by decide
    rw [hi]
    simp only [ok_bind]
    rw [h0, hn1, hn2]
    simp only [ok_bind]
    rw [hce]
    simp only [ok_bind]
    rw [hp]
    simp only [ok_bind, pure_eq_ok]
    rfl

/-- Reading that component reads `c.size` bytes at the start of its column. -/
theorem get_single (env : Env) (c : CompTy) (v : Val) (id : UInt32) :
    (freshRegistry env id (fullArchetype id c.descriptor v)).getComponent env c (Entity.newUnchecked 0 0) =
      (do
        let x ← readVal (some ⟨c.descriptor.align, v.encode.take c.descriptor.size ++
          List.replicate (c.descriptor.size * 127) none⟩) c.ty c.size c.align 0
        return some x) := by
  obtain ⟨h1, h2⟩ := freshEntry_fields env
  unfold Registry.getComponent
  have he : EntityRegistry.entityEntry env (freshRegistry env id (fullArchetype id c.descriptor v)).entities
      (Entity.newUnchecked 0 0) = some ((EntityEntry.default.setArchetypeIndex env 0).setIndexInArchetype ⟨0⟩) :=
    freshEntry env
  rw [he]
  simp only [h1, h2]
  have hidc : c.descriptor.id = c.id := rfl
  generalize c.descriptor = d at *
  have hg : (freshRegistry env id (fullArchetype id d v)).archetypes.getUnchecked 0 = .ok (fullArchetype id d v) := rfl
  have hbs : binarySearchByKey (fullArchetype id d v).descriptor.components c.id.toNat (fun e => e.id.toNat) = .found 0 := by
    have : (fullArchetype id d v).descriptor.components = [d] := rfl
    rw [this, ← hidc]
    exact binarySearchByKey_found (l := [d]) (f := fun e => e.id.toNat) (i := 0) (List.pairwise_singleton _ _) (by simp)
  have hh : (fullArchetype id d v).descriptor.hasComponent c = true := by
    unfold ArchetypeDescriptor.hasComponent
    rw [hbs]
    rfl
  have hr : (fullArchetype id d v).componentRef c 0 = .ok ⟨0, 0⟩ := by
    unfold Archetype.componentRef
    rw [hbs]
    rfl
  rw [hg]
  simp only [ok_bind]
  rw [if_neg (by rw [hh]; simp)]
  unfold Archetype.getComponentUnchecked
  rw [hr]
  simp only [ok_bind]
  rfl

/-- The full claim: a value of any component type (with a size that is not zero and a multiple of its alignment, a power
of two) can be stored in a new registry and read back. -/
def C60_statement : Prop :=
  ∀ (env : Env) (c : CompTy) (v : Val) (k : Nat), c.align = 2 ^ k → c.size % c.align = 0 → 0 < c.size →
    v.ty = c.ty → v.bytes.length = c.size →
    ∃ r' e, Registry.default.createEntity env [c] [v] = .ok (r', .ok e) ∧ r'.getComponent env c e = .ok (some v)

theorem two_pow_mod (k : Nat) : (2 ^ k % 65536 = 0 ↔ ¬ 2 ^ k < 65536) ∧ (2 ^ k < 65536 → 2 ^ k % 65536 = 2 ^ k) := by
  refine ⟨?_, fun h => Nat.mod_eq_of_lt h⟩
  have hpos : 0 < 2 ^ k := Nat.two_pow_pos k
  constructor
  · intro h hlt
    rw [Nat.mod_eq_of_lt hlt] at h
    omega
  · intro h
    have h16 : 16 ≤ k := by
      refine Nat.le_of_not_lt fun hk => h ?_
      have : 2 ^ k < 2 ^ 16 := Nat.pow_lt_pow_right (by decide) hk
      exact this
    obtain ⟨j, rfl⟩ := Nat.exists_eq_add_of_le h16
    rw [Nat.pow_add]
    exact Nat.mul_mod_right 65536 (2 ^ j)

/-- **C60 (exact, partial)** On a new registry a value of a component type can be stored and read back if and only if the
type's size and alignment are below 65536 and (C50) it is not zero-sized or the allocator tolerates that. In all other
cases `create_entity` has undefined behaviour, or it returns a live entity whose component cannot be read without
undefined behaviour. Missing from the full claim: exactly those types. (The histories of the other properties only use
component types with sizes and alignments below 65536: `World.size_lt`, `World.align_lt`.) -/
theorem C60_oversized_partial (env : Env) (c : CompTy) (v : Val) (k : Nat) (hal : c.align = 2 ^ k)
    (hm : c.size % c.align = 0) (hty : v.ty = c.ty) (hlen : v.bytes.length = c.size) :
    ((∃ r' e, Registry.default.createEntity env [c] [v] = .ok (r', .ok e) ∧ r'.getComponent env c e = .ok (some v)) ↔
      c.size < 65536 ∧ c.align < 65536 ∧ (c.size = 0 → env.zstAllocOk = true)) ∧
    (¬ (c.size < 65536 ∧ c.align < 65536 ∧ (c.size = 0 → env.zstAllocOk = true)) →
      (∃ u, Registry.default.createEntity env [c] [v] = .error (.ub u)) ∨
      (∃ r' e, Registry.default.createEntity env [c] [v] = .ok (r', .ok e) ∧ Live env r' e ∧
        ∃ u, r'.getComponent env c e = .error (.ub u))) := by
  obtain ⟨hp1, hp2⟩ := two_pow_mod k
  rw [← hal] at hp1 hp2
  have hpos : 0 < c.align := by rw [hal]; exact Nat.two_pow_pos k
  have hds : c.descriptor.size = c.size % 65536 := rfl
  have hda : c.descriptor.align = c.align % 65536 := rfl
  have hmodle : c.size % 65536 ≤ c.size := Nat.mod_le _ _
  have hc := create_single env c v (by rw [hds, hlen]; exact hmodle)
  have hel : v.encode.length = c.size := by rw [Val.encode, List.length_mapIdx, hlen]
  by_cases hg : c.size < 65536 ∧ c.align < 65536 ∧ (c.size = 0 → env.zstAllocOk = true)
  · refine ⟨⟨fun _ => hg, fun _ => ?_⟩, fun h => absurd hg h⟩
    obtain ⟨h1, h2, h3⟩ := hg
    have hs : c.size % 65536 = c.size := Nat.mod_eq_of_lt h1
    have hn : singleFault env c.descriptor = none := by
      unfold singleFault
      rw [hds, hda, hs, hp2 h2, if_neg (by rw [powerOfTwo_iff.2 ⟨h2, k, hal⟩]; decide), if_neg (fun h => h.2 (h3 h.1))]
    rw [hn] at hc
    refine ⟨_, _, hc, ?_⟩
    rw [get_single, hds, hda, hs, hp2 h2]
    have hr := readVal_cell (b := ⟨c.align, v.encode.take c.size ++ List.replicate (c.size * 127) none⟩) (sz := c.size)
      (al := c.align) (k := 0) (v := v) rfl hm
      (by simp only [List.length_append, List.length_take, List.length_replicate, hel]; omega)
      (by unfold cell
          simp only [Nat.mul_zero, List.drop_zero]
          rw [List.take_append_of_le_length (by rw [List.length_take, hel]; omega), List.take_take, Nat.min_self,
            List.take_of_length_le (by omega)])
    rw [hty, Nat.mul_zero] at hr
    rw [hr]
    rfl
  · have hub : (∃ u, Registry.default.createEntity env [c] [v] = .error (.ub u)) ∨
      (∃ r' e, Registry.default.createEntity env [c] [v] = .ok (r', .ok e) ∧ Live env r' e ∧
        ∃ u, r'.getComponent env c e = .error (.ub u)) := by
      cases hf : singleFault env c.descriptor with
      | some u => rw [hf] at hc; exact .inl ⟨u, hc⟩
      | none =>
        rw [hf] at hc
        refine .inr ⟨_, _, hc, ?_, ?_⟩
        · exact freshLive env _ _
        · unfold singleFault at hf
          rw [hds, hda] at hf
          split at hf
          · cases hf
          · rename_i ha0
            split at hf
            · cases hf
            · rename_i hz
              have halt : c.align < 65536 := by
                refine Classical.byContradiction fun h => ha0 (by rw [hp1.mpr h]; decide)
              have hbig : ¬ c.size < 65536 := by
                intro h
                refine hg ⟨h, halt, fun h0 => ?_⟩
                refine Classical.byContradiction fun h' => hz ⟨by rw [h0], h'⟩
              have hlt : c.size % 65536 < c.size := by
                have := Nat.mod_lt c.size (show 65536 > 0 by decide)
                omega
              rw [get_single, hds, hda, hp2 halt]
              have hcase : ∃ u, readVal (some ⟨c.align, v.encode.take (c.size % 65536) ++
                  List.replicate (c.size % 65536 * 127) none⟩) c.ty c.size c.align 0 = .error (.ub u) := by
                unfold readVal
                have hca : checkAligned (some ⟨c.align, v.encode.take (c.size % 65536) ++
                    List.replicate (c.size % 65536 * 127) none⟩) c.align 0 = .ok () := by
                  unfold checkAligned
                  simp only [Nat.mod_self, Nat.zero_mod, and_self, if_true]
                rw [hca]
                simp only [ok_bind]
                unfold readBytes
                simp only [Nat.zero_add, List.drop_zero]
                split
                · rename_i hfit
                  simp only [ok_bind]
                  have hle : (v.encode.take (c.size % 65536)).length ≤ c.size := by
                    rw [List.length_take]; omega
                  have hmem : none ∈ (v.encode.take (c.size % 65536) ++ List.replicate (c.size % 65536 * 127) none).take c.size := by
                    rw [List.take_append, List.take_of_length_le hle]
                    refine List.mem_append_right _ ?_
                    rw [List.take_replicate, List.length_take, hel, Nat.min_eq_left hmodle]
                    rw [List.length_append, List.length_take, List.length_replicate, hel, Nat.min_eq_left hmodle] at hfit
                    refine List.mem_replicate.mpr ⟨?_, rfl⟩
                    rw [Nat.min_def]
                    split <;> omega
                  obtain ⟨u, hu⟩ := decodeFrom_short c.ty 0 _ [] (by rw [List.append_nil]; exact hmem)
                  rw [List.append_nil] at hu
                  unfold decodeVal
                  rw [hu]
                  exact ⟨u, rfl⟩
                · exact ⟨_, rfl⟩
              obtain ⟨u, hu⟩ := hcase
              rw [hu]
              exact ⟨u, rfl⟩
    refine ⟨⟨fun ⟨r', e, h1, h2⟩ => ?_, fun h => absurd h hg⟩, fun _ => hub⟩
    rcases hub with ⟨u, hu⟩ | ⟨r'', e', h1', _, u, hu⟩
    · rw [hu] at h1; cases h1
    · rw [h1'] at h1
      cases h1
      rw [hu] at h2
      cases h2

/-- **C60 (violated)** A component of 65540 bytes cannot be read back: it is stored in a column of 4-byte rows. -/
theorem C60_violated : ¬ C60_statement := by
  intro h
  let c : CompTy := ⟨0, 7, 65540, 4⟩
  have hx := h ⟨true, false, false⟩ c ⟨0, List.replicate 65540 1⟩ 2 rfl (by decide) (by decide) rfl (by rw [List.length_replicate])
  have hp := (C60_oversized_partial ⟨true, false, false⟩ c ⟨0, List.replicate 65540 1⟩ 2 rfl (by decide) rfl
    (by rw [List.length_replicate])).1.mp hx
  exact absurd hp.1 (by decide)

/-- C60 on a concrete type: 4 bytes, 4-aligned, on both byte orders and in both build modes. -/
example (debug big : Bool) : ∃ r' e, Registry.default.createEntity ⟨debug, big, false⟩ [⟨0, 7, 4, 4⟩] [⟨0, [1, 2, 3, 4]⟩] =
    .ok (r', .ok e) ∧ r'.getComponent ⟨debug, big, false⟩ ⟨0, 7, 4, 4⟩ e = .ok (some ⟨0, [1, 2, 3, 4]⟩) :=
  (C60_oversized_partial ⟨debug, big, false⟩ ⟨0, 7, 4, 4⟩ ⟨0, [1, 2, 3, 4]⟩ 2 rfl rfl rfl rfl).1.mpr
    ⟨by decide, by decide, fun h => (by cases h)⟩

end Shard
