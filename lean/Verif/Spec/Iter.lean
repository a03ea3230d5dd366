import Verif.Spec.Api
/-!
# What the items of the iterators are compared with

Stated through the public queries (`get_component`, `has_component`, entity iteration) only.
-/

set_option autoImplicit false

namespace Shard

/-- The slices `cols` are the components `g` of the entities `ents`: one slice per member of the tuple, in tuple order,
all as long as `ents`, and position `k` of each slice is the component of the entity at position `k`. -/
def Aligned (env : Env) (r : Registry) (g : Group) (ents : List Entity) (cols : List (List Val)) : Prop :=
  cols.length = g.length ∧ ∀ (j : Nat) (c : CompTy), g[j]? = some c → ∃ col, cols[j]? = some col ∧
    col.length = ents.length ∧ ∀ (k : Nat) (e : Entity), ents[k]? = some e → r.getComponent env c e = .ok col[k]?

/-- The same for mutable slices of archetype `ai`: replacing element `k` of a slice replaces that component of the entity
at position `k`, and nothing else. -/
def AlignedMut {env : Env} (W : World env) (r : Registry) (g : Group) (ai : Nat) (ents : List Entity)
    (slices : List SliceRef) : Prop :=
  slices.length = g.length ∧ ∀ (j : Nat) (c : CompTy), g[j]? = some c → ∃ s : SliceRef, slices[j]? = some s ∧
    s.cty = c ∧ s.len = ents.length ∧ ∀ (k : Nat) (e : Entity), ents[k]? = some e → ∀ v : Val, v.HasTy c →
      ∃ r' old, r.replaceAt ai c (s.elem k) v = .ok (r', old) ∧ OnlyWritten W r r' e c old v

/-- `e` is live and has all components of `g`. -/
def Matches (env : Env) (r : Registry) (g : Group) (e : Entity) : Prop :=
  Live env r e ∧ ∀ c ∈ g, r.hasComponent env c e = .ok true

/-- `n` calls of `next`, starting in state `it`: the returned items. -/
def ArchIter.nexts (env : Env) (g : Group) (filter : ArchetypeDescriptor → Bool) (ar : ArchetypeRegistry) :
    Nat → ArchIter → M (List (Option Nat))
  | 0, _ => .ok []
  | n + 1, it => do
    let x ← ArchIter.next env g filter ar it
    let rest ← nexts env g filter ar n x.2
    return x.1 :: rest

/-- The same for the entity iterator. -/
def EntityIter.nexts (env : Env) : Nat → EntityIter → List (Option Entity)
  | 0, _ => []
  | n + 1, it => (it.next env).1 :: nexts env n (it.next env).2

/-- What `n` calls of `next` return if the iterator has the items `items`: these in order, then only `None`. -/
def nextsOf {α : Type} (items : List α) (n : Nat) : List (Option α) :=
  (List.range n).map (fun i => items[i]?)

/-- A mutable iterator with the assumption it needs: the exact ones look up the component set of `g`. -/
def MutIter.Ok {env : Env} (W : World env) (g : Group) : MutIter → Prop
  | .exact => W.Used g.idSet
  | .entityExact => W.Used g.idSet
  | _ => True

end Shard
