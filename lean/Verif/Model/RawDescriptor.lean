import Verif.Model.Raw
/-!
# `src/descriptors/archetype_descriptor.rs` for descriptors with arbitrary fields

`ArchetypeDescriptor::new` is public and stores any length up to 255 beside the array of 14 component descriptors. The
functions of `Model/Descriptors.lean` read the array without a bounds check, which is right for lengths up to 14. Here the
same functions are modelled with every array access checked, in the order in which the code does them. Slicing
`self.components[0..self.len()]` is `componentsAny` of `Model/Raw.lean`.
-/

set_option autoImplicit false

namespace Shard

namespace ArchetypeDescriptor

/-- `archetype_descriptor.rs:79-90` and `101-111`: the inner loop from position `j`, `n` iterations left; whether it found
the id of `other.components[i]`. -/
def findLoop (self other : ArchetypeDescriptor) (i : Nat) : (n j : Nat) → M Bool
  | 0, _ => .ok false
  | n + 1, j => do
    let x ← index self.comps j
    let y ← index other.comps i
    if x.id == y.id then return true else findLoop self other i n (j + 1)

/-- `archetype_descriptor.rs:78-92`: the outer loop of `contains_subset` from position `i`, `n` iterations left. -/
def containsOuter (self other : ArchetypeDescriptor) : (n i : Nat) → M Bool
  | 0, _ => .ok true
  | n + 1, i => do
    let b ← findLoop self other i self.len 0
    if b then containsOuter self other n (i + 1) else return false

/-- `archetype_descriptor.rs:73-94` `contains_subset`. -/
def containsSubsetAny (self other : ArchetypeDescriptor) : M Bool :=
  if other.len > self.len then .ok false else containsOuter self other other.len 0

/-- `archetype_descriptor.rs:100-113`: the outer loop of `excludes_subset` from position `i`, `n` iterations left. -/
def excludesOuter (self other : ArchetypeDescriptor) : (n i : Nat) → M Bool
  | 0, _ => .ok true
  | n + 1, i => do
    let b ← findLoop self other i self.len 0
    if b then return false else excludesOuter self other n (i + 1)

/-- `archetype_descriptor.rs:98-115` `excludes_subset`. -/
def excludesSubsetAny (self other : ArchetypeDescriptor) : M Bool := excludesOuter self other other.len 0

/-- `archetype_descriptor.rs:49-69` `compute_archetype_id` (public, takes any slice). -/
def computeArchetypeIdAny (env : Env) (ds : List ComponentDescriptor) : M UInt32 :=
  match ds with
  | [] => .ok ARCHETYPE_ID_INVALID
  | [d] => .ok d.id.toUInt32
  | ds => do
    let bytes ← forRange 0 ds.length (fun i bytes => do
      let d ← index ds i
      let b := u16ToNeBytes env d.id
      let bytes ← setIndex bytes (i * 2 + 0) b.1
      setIndex bytes (i * 2 + 1) b.2) (List.replicate (MAX_COMPONENTS_PER_ENTITY * 2) 0)
    return fnv1aHash32 bytes (some bytes.length)

/-- `archetype_descriptor.rs:126-151` `add_component`. -/
def addComponentAny (env : Env) (self : ArchetypeDescriptor) (cd : ComponentDescriptor) :
    M (Option ArchetypeDescriptor) :=
  if self.len = MAX_COMPONENTS_PER_ENTITY then .ok none
  else do
    let s ← self.componentsAny
    match binarySearchByKey s cd.id.toNat (fun e => e.id.toNat) with
    | .found _ => .ok none
    | .insertAt ins => do
      let comps ← forRange ins (self.len + 1 - ins) (fun i v => do
        let x ← index self.comps i
        setIndex v (i + 1) x) self.comps
      let comps ← setIndex comps ins cd
      let v : ArchetypeDescriptor := ⟨self.archetypeId, comps, self.len + 1⟩
      let s ← v.componentsAny
      let id ← computeArchetypeIdAny env s
      return some ⟨id, comps, v.len⟩

/-- `archetype_descriptor.rs:153-173` `remove_component`. -/
def removeComponentAny (env : Env) (self : ArchetypeDescriptor) (id : UInt16) :
    M (Option ArchetypeDescriptor) :=
  if self.len = 1 then .ok none
  else do
    let s ← self.componentsAny
    match binarySearchByKey s id.toNat (fun e => e.id.toNat) with
    | .found fi => do
      let comps ← forRange fi (self.len - fi) (fun i v => do
        let x ← index self.comps (i + 1)
        setIndex v i x) self.comps
      let v : ArchetypeDescriptor := ⟨self.archetypeId, comps, self.len - 1⟩
      let s ← v.componentsAny
      let id ← computeArchetypeIdAny env s
      return some ⟨id, comps, v.len⟩
    | .insertAt _ => .ok none

/-- `archetype_descriptor.rs:176-181` `has_component`. -/
def hasComponentAny (self : ArchetypeDescriptor) (c : CompTy) : M Bool := do
  let s ← self.componentsAny
  return (binarySearchByKey s c.id.toNat (fun e => e.id.toNat)).isFound

end ArchetypeDescriptor

end Shard
