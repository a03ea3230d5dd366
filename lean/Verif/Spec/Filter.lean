import Verif.Model.FilterEffects
/-!
# Filtering a list lazily, with a closure that has side effects or panics
-/

set_option autoImplicit false

namespace Shard

/-- One call of `next` on `list.filter(closure)`: the elements are offered to the closure one after the other, until it
says `true` (the element is the item) or panics (the element is lost). The third component is what is left. -/
def lazyNext {σ : Type} (call : Closure σ) : List (Nat × ArchetypeDescriptor) → σ →
    NextEnd × List (Nat × ArchetypeDescriptor) × σ
  | [], s => (.ended, [], s)
  | (i, d) :: rest, s =>
    match call s d with
    | (some true, s') => (.item i, rest, s')
    | (some false, s') => lazyNext call rest s'
    | (none, s') => (.panicked, rest, s')

/-- `n` calls of `next`. -/
def lazyNexts {σ : Type} (call : Closure σ) : Nat → List (Nat × ArchetypeDescriptor) → σ → List NextEnd × σ
  | 0, _, s => ([], s)
  | n + 1, l, s =>
    let x := lazyNext call l s
    let rest := lazyNexts call n x.2.1 x.2.2
    (x.1 :: rest.1, rest.2)

/-- A closure that notes the descriptors it is called with. -/
def Closure.logged {σ : Type} (call : Closure σ) : Closure (σ × List ArchetypeDescriptor) :=
  fun s d => ((call s.1 d).1, (call s.1 d).2, s.2 ++ [d])

end Shard
