import Verif.Spec.Reference
/-!
# The byte order

Archetype ids are hashes of the bytes of component ids in the byte order of the machine. So the same program has other
archetype ids on another machine. This file says what it sees of that.
-/

set_option autoImplicit false

namespace Shard

/-- The assumptions on one program on two machines. The last three say that none of three coincidences of hashes occurs on
one machine only: that the two ways to compute the id of one component set give the same id, and that either of them gives
the reserved id. -/
structure SameProgram {env env' : Env} (W : World env) (W' : World env') : Prop where
  has : ∀ c, W'.Has c ↔ W.Has c
  used : ∀ s, W'.Used s ↔ W.Used s
  kinds : ∀ s, W.Used s → (Spec.groupId env'.bigEndian s = Spec.movedId env'.bigEndian s ↔
    Spec.groupId env.bigEndian s = Spec.movedId env.bigEndian s)
  created : ∀ s : List UInt16, s.Pairwise (fun a b => a < b) → (∀ i ∈ s, ∃ c, W.Has c ∧ c.id = i) →
    (Spec.groupId env'.bigEndian s = 2 ^ 32 - 1 ↔ Spec.groupId env.bigEndian s = 2 ^ 32 - 1)
  changed : ∀ s, W.Used s → (Spec.movedId env'.bigEndian s = 2 ^ 32 - 1 ↔ Spec.movedId env.bigEndian s = 2 ^ 32 - 1)

/-- The call does not depend on the order in which archetypes are visited: it does not write to the `n`-th item of an
iterator over several archetypes. -/
def Call.OrderFree : Call → Prop
  | .writeIter it _ _ _ _ _ => match it with
    | .exact => True
    | .entityExact => True
    | _ => False
  | _ => True

/-- A filter that looks at the components of a descriptor but not at the archetype id. -/
def IdBlind (f : ArchetypeDescriptor → Bool) : Prop :=
  ∀ d d' : ArchetypeDescriptor, d.len = d'.len → d.components = d'.components → f d = f d'

/-- Two registries on two machines answer every query alike, except that the iterators over several archetypes may visit
them in another order. -/
structure AnswerAlike {env env' : Env} (W : World env) (r r' : Registry) : Prop where
  entities : r'.iterEntities env' = r.iterEntities env
  get : ∀ c e, W.Has c → r'.getComponent env' c e = r.getComponent env c e ∧ r'.hasComponent env' c e = r.hasComponent env c e
  gets : ∀ g e, (∀ c ∈ g, W.Has c) → (g.descriptor env).isValid = true →
    r'.getComponents env' g e = r.getComponents env g e ∧ r'.hasComponents env' g e = r.hasComponents env g e
  matching : ∀ g, (∀ c ∈ g, W.Has c) → (g.descriptor env).isValid = true → ∃ items items',
    r.iterEntityComponentsMatching env g = .ok items ∧ r'.iterEntityComponentsMatching env' g = .ok items' ∧
    items'.Perm items
  filtered : ∀ g f, (∀ c ∈ g, W.Has c) → (g.descriptor env).isValid = true → IdBlind f → ∃ items items',
    r.iterFilteredEntityComponentsMatching env g f = .ok items ∧
    r'.iterFilteredEntityComponentsMatching env' g f = .ok items' ∧ items'.Perm items
  exactly : ∀ g, W.OkGroup g → (g.descriptor env).isValid = true →
    r'.iterEntityComponentsExact env' g = r.iterEntityComponentsExact env g ∧
    r'.iterComponentsExact env' g = r.iterComponentsExact env g
  drop : ∃ vals left left', r.drop = .ok (vals, left) ∧ r'.drop = .ok (vals, left')

/-- Two ways to end on the two machines. -/
def EndAlike {env : Env} (W : World env) (env' : Env) (x x' : M Registry) : Prop :=
  match x, x' with
  | .error f, .error f' => FaultLike f f'
  | .ok r, .ok r' => AnswerAlike W r r' (env' := env')
  | _, _ => False

end Shard
