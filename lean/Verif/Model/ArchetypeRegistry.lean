import Verif.Model.Archetype
/-!
# `src/archetype_registry/mod.rs`
-/

namespace Shard

/-- `sorted_archetype_key.rs:4-7`. -/
structure SortedArchetypeKey where
  id : UInt32
  archetypeIndex : UInt16
  deriving DecidableEq, Repr

/-- `archetype_registry/mod.rs:40-44`: 14 sorted levels and the archetypes. -/
structure ArchetypeRegistry where
  sortedMappings : List (List SortedArchetypeKey)
  archetypes : List Archetype
  deriving DecidableEq, Repr

/-- `mod.rs:22-36` `disjoint_mut`: the two positions of the returned references
(`split_at_mut` and the index arithmetic are spelled out: position in `head` or `tail`). -/
def disjointMut {α : Type} (slice : List α) (first second : Nat) : Option (Nat × Nat) :=
  if first = second ∨ first ≥ slice.length ∨ second ≥ slice.length then none
  else if first < second then
    -- `head = slice[..first+1]`, `tail = slice[first+1..]`; `(&mut head[first], &mut tail[second-first-1])`
    some (first, (first + 1) + (second - first - 1))
  else
    -- `head = slice[..second+1]`, `tail = slice[second+1..]`; `(&mut tail[first-second-1], &mut head[second])`
    some ((second + 1) + (first - second - 1), second)

namespace ArchetypeRegistry

/-- `mod.rs:46-68` `Default`. -/
def default : ArchetypeRegistry := ⟨List.replicate MAX_COMPONENTS_PER_ENTITY [], []⟩

/-- `mod.rs:77-78`: the binary search in level `len - 1` (`len ≥ 1` for every valid descriptor; for `len = 0` the
index expression would underflow). -/
def searchLevel (env : Env) (r : ArchetypeRegistry) (d : ArchetypeDescriptor) : M (List SortedArchetypeKey × Search) := do
  let lvl ← (if 1 ≤ d.len then .ok (d.len - 1)
             else if env.debug then .error (.panic .overflow) else .error (.panic .indexOutOfBounds))
  let keys ← index r.sortedMappings lvl
  return (keys, binarySearchByKey keys d.archetypeId.toNat (fun k => k.id.toNat))

/-- `mod.rs:72-86` `find_archetype` and `mod.rs:89-106` `find_archetype_mut`: the position of the returned archetype. -/
def findArchetype (env : Env) (r : ArchetypeRegistry) (d : ArchetypeDescriptor) : M (Option Nat) :=
  if d.len > MAX_COMPONENTS_PER_ENTITY ∨ ¬ d.isValid then .ok none
  else do
    let s ← r.searchLevel env d
    match s.2 with
    | .found i =>
      let k ← index s.1 i
      let _ ← index r.archetypes k.archetypeIndex.toNat
      return some k.archetypeIndex.toNat
    | .insertAt _ => return none

/-- `mod.rs:164-201` `find_or_create_archetype`: the returned index (the reference is to the archetype at it). -/
def findOrCreateArchetype (env : Env) (r : ArchetypeRegistry) (d : ArchetypeDescriptor) :
    M (ArchetypeRegistry × Option UInt16) :=
  if d.len > MAX_COMPONENTS_PER_ENTITY ∨ ¬ d.isValid then .ok (r, none)
  else do
    let s ← r.searchLevel env d
    match s.2 with
    | .found i =>
      let k ← index s.1 i
      let _ ← index r.archetypes k.archetypeIndex.toNat
      return (r, some k.archetypeIndex)
    | .insertAt i =>
      if r.archetypes.length ≥ MAX_ARCHETYPE_COUNT then return (r, none)
      else
        let a ← Archetype.withCapacity env d DEFAULT_ARCHETYPE_ALLOCATION_SIZE
        let key : SortedArchetypeKey := ⟨d.archetypeId, UInt16.ofNat r.archetypes.length⟩
        let archetypes := r.archetypes ++ [a]
        -- `Vec::insert` panics for an index beyond the length
        ensure (decide (i ≤ s.1.length)) (.panic .indexOutOfBounds)
        let maps := r.sortedMappings.set (d.len - 1) (s.1.take i ++ key :: s.1.drop i)
        return (⟨maps, archetypes⟩, some (UInt16.ofNat archetypes.length - 1))

/-- `mod.rs:110-134` `find_or_create_archetype_adding_component`: positions of source and destination. -/
def findOrCreateAdding (env : Env) (r : ArchetypeRegistry) (src : UInt16) (cd : ComponentDescriptor) :
    M (ArchetypeRegistry × Option (Nat × UInt16 × Nat)) :=
  if src.toNat > r.archetypes.length then .ok (r, none)
  else do
    let a ← index r.archetypes src.toNat
    let nd ← a.descriptor.addComponent env cd
    match nd with
    | none => return (r, none)
    | some nd =>
      let f ← r.findOrCreateArchetype env nd
      match f.2 with
      | none => return (f.1, none)
      | some dst =>
        match disjointMut f.1.archetypes src.toNat dst.toNat with
        | none => return (f.1, none)
        | some p => return (f.1, some (p.1, dst, p.2))

/-- `mod.rs:138-162` `find_or_create_archetype_removing_component`. -/
def findOrCreateRemoving (env : Env) (r : ArchetypeRegistry) (src : UInt16) (cd : ComponentDescriptor) :
    M (ArchetypeRegistry × Option (Nat × UInt16 × Nat)) :=
  if src.toNat > r.archetypes.length then .ok (r, none)
  else do
    let a ← index r.archetypes src.toNat
    let nd ← a.descriptor.removeComponent env cd.id
    match nd with
    | none => return (r, none)
    | some nd =>
      let f ← r.findOrCreateArchetype env nd
      match f.2 with
      | none => return (f.1, none)
      | some dst =>
        match disjointMut f.1.archetypes src.toNat dst.toNat with
        | none => return (f.1, none)
        | some p => return (f.1, some (p.1, dst, p.2))

/-- `mod.rs:206-215` `get_unchecked`, `get_unchecked_mut`. -/
def getUnchecked (r : ArchetypeRegistry) (i : UInt16) : M Archetype := indexUnchecked r.archetypes i.toNat

/-- Store the archetype a `&mut Archetype` at position `i` refers to. -/
def setArchetype (r : ArchetypeRegistry) (i : Nat) (a : Archetype) : ArchetypeRegistry :=
  { r with archetypes := r.archetypes.set i a }

/-- Dropping the registry drops the archetypes in order (`Vec`'s drop glue): the dropped values and what is left of the
archetypes. -/
def drop (r : ArchetypeRegistry) : M (List Val × List Archetype) :=
  forRange 0 r.archetypes.length (fun i acc => do
    let a ← index r.archetypes i
    let x ← a.drop
    return (acc.1 ++ x.1, acc.2 ++ [x.2])) ([], [])

end ArchetypeRegistry

end Shard
