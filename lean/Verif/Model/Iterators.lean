import Verif.Model.ArchetypeRegistry
/-!
# `src/archetype_registry/iterators/`

The four archetype iterators (`ArchetypeIter`, `ArchetypeIterMut`, `FilterArchetypeIter`, `FilterArchetypeIterMut`)
have the same `new` and `next`, up to the filter; the unfiltered ones are the filtered one with the constant filter
`true`. The item of an iterator is the position of the archetype it yields a reference to.
-/

namespace Shard

/-- `archetype_iter.rs:7-13`, `filter_archetype_iter.rs:7-14`: the mutable part of the iterator's state. -/
structure ArchIter where
  level : Nat
  idx : Nat
  deriving DecidableEq, Repr

namespace ArchIter

/-- `archetype_iter.rs:16-27`, `archetype_iter_mut.rs:16-27`, `filter_archetype_iter.rs:17-30`,
`filter_archetype_iter_mut.rs:18-31`: `current_level: G::DESCRIPTOR.len() - 1` on `u8`. -/
def new (env : Env) (g : Group) : M ArchIter := do
  let l ← subU8 env (g.descriptor env).len 1
  return ⟨l, 0⟩

/-- `archetype_iter.rs:42-54`, `archetype_iter_mut.rs:42-57`, `filter_archetype_iter.rs:47-60`,
`filter_archetype_iter_mut.rs:48-64`: the inner loop over one level; `n` iterations left.
Result: the yielded position (if any) and the new `current_index_in_level`. -/
def nextInLevel (gd : ArchetypeDescriptor) (filter : ArchetypeDescriptor → Bool) (archetypes : List Archetype)
    (level : List SortedArchetypeKey) : (n idx : Nat) → M (Option Nat × Nat)
  | 0, idx => .ok (none, idx)
  | n + 1, idx =>
    if idx < level.length then do
      let k ← indexUnchecked level idx
      let a ← indexUnchecked archetypes k.archetypeIndex.toNat
      if a.descriptor.containsSubset gd && filter a.descriptor then return (some k.archetypeIndex.toNat, idx + 1)
      else nextInLevel gd filter archetypes level n (idx + 1)
    else .ok (none, idx)

/-- `archetype_iter.rs:37-59`, `archetype_iter_mut.rs:38-62`, `filter_archetype_iter.rs:42-65`,
`filter_archetype_iter_mut.rs:44-69`: the outer loop; `n` iterations left. -/
def nextLoop (gd : ArchetypeDescriptor) (filter : ArchetypeDescriptor → Bool) (r : ArchetypeRegistry) :
    (n : Nat) → ArchIter → M (Option Nat × ArchIter)
  | 0, it => .ok (none, it)
  | n + 1, it =>
    if it.level < MAX_COMPONENTS_PER_ENTITY then do
      let level ← indexUnchecked r.sortedMappings it.level
      let res ← nextInLevel gd filter r.archetypes level (level.length - it.idx) it.idx
      match res.1 with
      | some a => return (some a, ⟨it.level, res.2⟩)
      | none => nextLoop gd filter r n ⟨it.level + 1, 0⟩
    else .ok (none, it)

/-- `archetype_iter.rs:33-60` `next` and its three variants. -/
def next (env : Env) (g : Group) (filter : ArchetypeDescriptor → Bool) (r : ArchetypeRegistry) (it : ArchIter) :
    M (Option Nat × ArchIter) :=
  if ¬ (g.descriptor env).isValid then .ok (none, it)
  else nextLoop (g.descriptor env).archetype filter r (MAX_COMPONENTS_PER_ENTITY - it.level) it

/-- `for item in iter`: call `next` until it returns `None`, at most `n` times, mapping each item through `f`
(the outer iterators' `next`, which is `inner.next()?` followed by the access). -/
def collect {α : Type} (env : Env) (g : Group) (filter : ArchetypeDescriptor → Bool) (r : ArchetypeRegistry)
    (f : Archetype → M α) : (n : Nat) → ArchIter → M (List (Nat × α))
  | 0, _ => .ok []
  | n + 1, it => do
    let s ← next env g filter r it
    match s.1 with
    | none => return []
    | some i =>
      let a ← indexUnchecked r.archetypes i
      let x ← f a
      let rest ← collect env g filter r f n s.2
      return (i, x) :: rest

end ArchIter

namespace ArchetypeRegistry

/-- Run an iterator from its creation to its end. Every yielded archetype position occurs at most once, so
`archetypes.len() + 1` calls of `next` reach the end (see `Proofs/Iterators`). -/
def iterate {α : Type} (env : Env) (r : ArchetypeRegistry) (g : Group) (filter : ArchetypeDescriptor → Bool)
    (f : Archetype → M α) : M (List (Nat × α)) := do
  let it ← ArchIter.new env g
  it.collect env g filter r f (r.archetypes.length + 1)

/-- `matching_iter.rs:8-30`, `archetype_registry/mod.rs:217-221`. -/
def iterComponentsMatching (env : Env) (r : ArchetypeRegistry) (g : Group) : M (List (Nat × List (List Val))) :=
  r.iterate env g (fun _ => true) (fun a => a.getFuzzySlicesUnchecked env g)

/-- `matching_iter_mut.rs:8-30`, `archetype_registry/mod.rs:223-227`. -/
def iterComponentsMatchingMut (env : Env) (r : ArchetypeRegistry) (g : Group) : M (List (Nat × List SliceRef)) :=
  r.iterate env g (fun _ => true) (fun a => a.getFuzzySlicesUncheckedMut env g)

/-- `matching_iter.rs:34-56`, `archetype_registry/mod.rs:229-233`. -/
def iterEntityComponentsMatching (env : Env) (r : ArchetypeRegistry) (g : Group) :
    M (List (Nat × List Entity × List (List Val))) :=
  r.iterate env g (fun _ => true) (fun a => a.getEntityFuzzySlicesUnchecked env g)

/-- `matching_iter_mut.rs:34-56`, `archetype_registry/mod.rs:235-239`. -/
def iterEntityComponentsMatchingMut (env : Env) (r : ArchetypeRegistry) (g : Group) :
    M (List (Nat × List Entity × List SliceRef)) :=
  r.iterate env g (fun _ => true) (fun a => a.getEntityFuzzySlicesUncheckedMut env g)

/-- `filter_matching_iter.rs:8-33`, `archetype_registry/mod.rs:241-250`. -/
def iterFilteredComponentsMatching (env : Env) (r : ArchetypeRegistry) (g : Group)
    (filter : ArchetypeDescriptor → Bool) : M (List (Nat × List (List Val))) :=
  r.iterate env g filter (fun a => a.getFuzzySlicesUnchecked env g)

/-- `filter_matching_iter_mut.rs:8-38`, `archetype_registry/mod.rs:252-265`. -/
def iterFilteredComponentsMatchingMut (env : Env) (r : ArchetypeRegistry) (g : Group)
    (filter : ArchetypeDescriptor → Bool) : M (List (Nat × List SliceRef)) :=
  r.iterate env g filter (fun a => a.getFuzzySlicesUncheckedMut env g)

/-- `filter_matching_iter.rs:40-74`, `archetype_registry/mod.rs:267-280`. -/
def iterFilteredEntityComponentsMatching (env : Env) (r : ArchetypeRegistry) (g : Group)
    (filter : ArchetypeDescriptor → Bool) : M (List (Nat × List Entity × List (List Val))) :=
  r.iterate env g filter (fun a => a.getEntityFuzzySlicesUnchecked env g)

/-- `filter_matching_iter_mut.rs:45-80`, `archetype_registry/mod.rs:282-295`. -/
def iterFilteredEntityComponentsMatchingMut (env : Env) (r : ArchetypeRegistry) (g : Group)
    (filter : ArchetypeDescriptor → Bool) : M (List (Nat × List Entity × List SliceRef)) :=
  r.iterate env g filter (fun a => a.getEntityFuzzySlicesUncheckedMut env g)

end ArchetypeRegistry

end Shard
