import Verif.Spec.Archetypes
import Verif.Spec.Api
import Verif.Spec.Hash
/-!
# Which archetypes a history asks for

All of it is computed from the calls and their outcomes, without looking at the registry.
-/

set_option autoImplicit false

namespace Shard

/-- Ids in ascending order. -/
def sortIds (l : List UInt16) : List UInt16 := l.foldr insertId []

/-- The component ids of `e`, in ascending order, computed from the outcomes of the calls. -/
def ownIds (hist : List (Call × Outcome)) (e : Entity) : List UInt16 :=
  hist.foldl (fun s x =>
    match x.1 with
    | .create g _ => if x.2.created = some e then sortIds (g.map (fun c => c.id)) else s
    | .add e' c _ => if e' = e ∧ x.2.success = true then insertId c.id s else s
    | .remove e' c => if e' = e ∧ x.2.success = true then s.erase c.id else s
    | _ => s) []

/-- The tuples the crate takes: 1 to 14 components with different ids. -/
def Group.Fine (g : Group) : Prop := 1 ≤ g.length ∧ g.length ≤ 14 ∧ (g.map (fun c => c.id)).Nodup

instance (g : Group) : Decidable g.Fine := inferInstanceAs (Decidable (_ ∧ _ ∧ _))

/-- What entities created with the set `s` ask for. -/
def createdKey (env : Env) (s : List UInt16) : ArchKey := (s, UInt32.ofNat (Spec.groupId env.bigEndian s))

/-- What entities changed to the set `s` ask for. -/
def changedKey (env : Env) (s : List UInt16) : ArchKey := (s, UInt32.ofNat (Spec.movedId env.bigEndian s))

/-- What a call after the history `before` asks for: `create_entity` always (also if it is refused), `add_component` and
`remove_component` if they succeed, the other calls never. -/
def asks (env : Env) (before : List (Call × Outcome)) (x : Call × Outcome) : List ArchKey :=
  match x.1 with
  | .create g _ => if g.Fine then [createdKey env (sortIds (g.map (fun c => c.id)))] else []
  | .add e c _ => if x.2.success = true then [changedKey env (insertId c.id (ownIds before e))] else []
  | .remove e c => if x.2.success = true then [changedKey env ((ownIds before e).erase c.id)] else []
  | _ => []

/-- What the calls of a history ask for, in order. -/
def demands (env : Env) (hist : List (Call × Outcome)) : List ArchKey :=
  (hist.foldl (fun (s : List (Call × Outcome) × List ArchKey) x => (s.1 ++ [x], s.2 ++ asks env s.1 x)) ([], [])).2

/-- Every creation with a fine tuple succeeded. -/
def NoRefusal (hist : List (Call × Outcome)) : Prop :=
  ∀ x ∈ hist, ∀ g vals, x.1 = .create g vals → g.Fine → x.2.success = true

end Shard
