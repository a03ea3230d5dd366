import Verif.Model.Registry
/-!
# Filter closures with side effects, and filter closures that panic

The filtered iterators take any `F: Fn(&ArchetypeDescriptor) -> bool`. Such a closure can have side effects (`Cell`,
atomics, I/O) and can panic. `Iterators` models pure closures only; here the closure is a function of a state of any
type `σ` (whatever it can change), and a call may panic. A panic of the closure unwinds out of `next`; the iterator is
then in the state it had at that moment, and can be used again after `catch_unwind`.
-/

set_option autoImplicit false

namespace Shard

/-- A filter closure: what a call returns (`none`: it panics), and the state after the call. -/
abbrev Closure (σ : Type) := σ → ArchetypeDescriptor → Option Bool × σ

/-- How a call of `next` ends. -/
inductive NextEnd
  /-- `Some(item)`: the position of the archetype -/
  | item (i : Nat)
  /-- `None` -/
  | ended
  /-- a panic of the closure -/
  | panicked
  deriving DecidableEq, Repr

namespace ArchIter

/-- `filter_archetype_iter.rs:47-60`, `filter_archetype_iter_mut.rs:48-64`: the inner loop. The closure is called only if
`contains_subset` is true (`&&`), and after `current_index_in_level` was incremented. -/
def nextInLevelEff {σ : Type} (gd : ArchetypeDescriptor) (call : Closure σ) (archetypes : List Archetype)
    (level : List SortedArchetypeKey) : (n idx : Nat) → σ → M (NextEnd × Nat × σ)
  | 0, idx, s => .ok (.ended, idx, s)
  | n + 1, idx, s =>
    if idx < level.length then do
      let k ← indexUnchecked level idx
      let a ← indexUnchecked archetypes k.archetypeIndex.toNat
      if a.descriptor.containsSubset gd then
        match call s a.descriptor with
        | (some true, s') => return (.item k.archetypeIndex.toNat, idx + 1, s')
        | (some false, s') => nextInLevelEff gd call archetypes level n (idx + 1) s'
        | (none, s') => return (.panicked, idx + 1, s')
      else nextInLevelEff gd call archetypes level n (idx + 1) s
    else .ok (.ended, idx, s)

/-- `filter_archetype_iter.rs:42-65`, `filter_archetype_iter_mut.rs:44-69`: the outer loop. -/
def nextLoopEff {σ : Type} (gd : ArchetypeDescriptor) (call : Closure σ) (r : ArchetypeRegistry) :
    (n : Nat) → ArchIter → σ → M (NextEnd × ArchIter × σ)
  | 0, it, s => .ok (.ended, it, s)
  | n + 1, it, s =>
    if it.level < MAX_COMPONENTS_PER_ENTITY then do
      let level ← indexUnchecked r.sortedMappings it.level
      let res ← nextInLevelEff gd call r.archetypes level (level.length - it.idx) it.idx s
      match res.1 with
      | .item a => return (.item a, ⟨it.level, res.2.1⟩, res.2.2)
      | .panicked => return (.panicked, ⟨it.level, res.2.1⟩, res.2.2)
      | .ended => nextLoopEff gd call r n ⟨it.level + 1, 0⟩ res.2.2
    else .ok (.ended, it, s)

/-- `filter_archetype_iter.rs:38-66`, `filter_archetype_iter_mut.rs:39-70` `next`. -/
def nextEff {σ : Type} (env : Env) (g : Group) (call : Closure σ) (r : ArchetypeRegistry) (it : ArchIter) (s : σ) :
    M (NextEnd × ArchIter × σ) :=
  if ¬ (g.descriptor env).isValid then .ok (.ended, it, s)
  else nextLoopEff (g.descriptor env).archetype call r (MAX_COMPONENTS_PER_ENTITY - it.level) it s

/-- `n` calls of `next`, each of them with its panics caught. -/
def nextsEff {σ : Type} (env : Env) (g : Group) (call : Closure σ) (r : ArchetypeRegistry) :
    Nat → ArchIter → σ → M (List NextEnd × σ)
  | 0, _, s => .ok ([], s)
  | n + 1, it, s => do
    let x ← nextEff env g call r it s
    let rest ← nextsEff env g call r n x.2.1 x.2.2
    return (x.1 :: rest.1, rest.2)

end ArchIter

/-- `registry.rs:396-409`, `411-424`, `426-444`, `446-463` with `archetype_registry/mod.rs:241-295`: create a filtered
iterator (any of the four) and call `next` `n` times; the items as positions of archetypes. -/
def Registry.filteredNexts {σ : Type} (env : Env) (r : Registry) (g : Group) (call : Closure σ) (n : Nat) (s : σ) :
    M (List NextEnd × σ) := do
  let it ← ArchIter.new env g
  it.nextsEff env g call r.archetypes n s

end Shard
