import Verif.Spec.ByteOrder
import Verif.Spec.Locality
/-!
# Other names

The id of a component type is computed from its `NAME` (or given by the program), and archetype ids are hashes of these.
Two programs that differ in nothing but the ids are related by a bijection of the ids. This file says what they see of it.
-/

set_option autoImplicit false

namespace Shard

/-- A bijection of the component ids. -/
structure Renaming where
  to : UInt16 → UInt16
  back : UInt16 → UInt16
  back_to : ∀ i, back (to i) = i
  to_back : ∀ i, to (back i) = i

/-- The same component type with its other id. -/
def CompTy.ren (ρ : Renaming) (c : CompTy) : CompTy := { c with id := ρ.to c.id }

/-- The group in the other program. -/
def Group.ren (ρ : Renaming) (g : Group) : Group := g.map (CompTy.ren ρ)

/-- The same component set, as an ascending list of the other ids. -/
def Renaming.set (ρ : Renaming) (s : List UInt16) : List UInt16 := (s.map ρ.to).mergeSort (fun a b => decide (a ≤ b))

/-- The call in the other program. -/
def Call.ren (ρ : Renaming) : Call → Call
  | .create g vals => .create (g.ren ρ) vals
  | .destroy e => .destroy e
  | .removeEntity g e => .removeEntity (g.ren ρ) e
  | .add e c v => .add e (c.ren ρ) v
  | .remove e c => .remove e (c.ren ρ)
  | .write e c v => .write e (c.ren ρ) v
  | .writeIn g e j v => .writeIn (g.ren ρ) e j v
  | .writeIter it g n j k v => .writeIter it (g.ren ρ) n j k v

/-- Two programs (on possibly different machines) that differ in the component ids. The last three assumptions say that
none of three coincidences of hashes occurs in one program only: that the two ways to compute the id of one component set
give the same id, and that either of them gives the reserved id. -/
structure RenamedProgram {env env' : Env} (ρ : Renaming) (W : World env) (W' : World env') : Prop where
  has : ∀ c : CompTy, W'.Has (c.ren ρ) ↔ W.Has c
  used : ∀ s : List UInt16, s.Pairwise (fun a b => a < b) → (W'.Used (ρ.set s) ↔ W.Used s)
  kinds : ∀ s, W.Used s → (Spec.groupId env'.bigEndian (ρ.set s) = Spec.movedId env'.bigEndian (ρ.set s) ↔
    Spec.groupId env.bigEndian s = Spec.movedId env.bigEndian s)
  created : ∀ s : List UInt16, s.Pairwise (fun a b => a < b) → (∀ i ∈ s, ∃ c, W.Has c ∧ c.id = i) →
    (Spec.groupId env'.bigEndian (ρ.set s) = 2 ^ 32 - 1 ↔ Spec.groupId env.bigEndian s = 2 ^ 32 - 1)
  changed : ∀ s, W.Used s →
    (Spec.movedId env'.bigEndian (ρ.set s) = 2 ^ 32 - 1 ↔ Spec.movedId env.bigEndian s = 2 ^ 32 - 1)

/-- Two filters that say the same about a component set, the second about its other ids. -/
def FiltersAlike (ρ : Renaming) (f f' : ArchetypeDescriptor → Bool) : Prop :=
  ∀ d d' : ArchetypeDescriptor, d'.len = d.len →
    d'.components.Perm (d.components.map (fun c => { c with id := ρ.to c.id })) → f' d' = f d

/-- Two registries of the two programs answer every query alike, except that the iterators over several archetypes may
visit them in another order, and dropping may drop the values in another order. -/
structure RenamedAlike {env env' : Env} (ρ : Renaming) (W : World env) (r r' : Registry) : Prop where
  entities : r'.iterEntities env' = r.iterEntities env
  get : ∀ c e, W.Has c → r'.getComponent env' (c.ren ρ) e = r.getComponent env c e ∧
    r'.hasComponent env' (c.ren ρ) e = r.hasComponent env c e
  gets : ∀ g e, (∀ c ∈ g, W.Has c) → (g.descriptor env).isValid = true →
    r'.getComponents env' (g.ren ρ) e = r.getComponents env g e ∧
    r'.hasComponents env' (g.ren ρ) e = r.hasComponents env g e
  matching : ∀ g, (∀ c ∈ g, W.Has c) → (g.descriptor env).isValid = true → ∃ items items',
    r.iterEntityComponentsMatching env g = .ok items ∧ r'.iterEntityComponentsMatching env' (g.ren ρ) = .ok items' ∧
    items'.Perm items
  filtered : ∀ g f f', (∀ c ∈ g, W.Has c) → (g.descriptor env).isValid = true → FiltersAlike ρ f f' → ∃ items items',
    r.iterFilteredEntityComponentsMatching env g f = .ok items ∧
    r'.iterFilteredEntityComponentsMatching env' (g.ren ρ) f' = .ok items' ∧ items'.Perm items
  exactly : ∀ g, W.OkGroup g → (g.descriptor env).isValid = true →
    r'.iterEntityComponentsExact env' (g.ren ρ) = r.iterEntityComponentsExact env g ∧
    r'.iterComponentsExact env' (g.ren ρ) = r.iterComponentsExact env g
  drop : ∃ vals vals' left left', r.drop = .ok (vals, left) ∧ r'.drop = .ok (vals', left') ∧ vals'.Perm vals

/-- The same outcomes, call by call, up to the order of the dropped values. -/
def SameOutcomes (os os' : List Outcome) : Prop :=
  os.length = os'.length ∧ ∀ (i : Nat) o o', os[i]? = some o → os'[i]? = some o' → SameOutcome o o'

/-- Two ways to end in the two programs. -/
def RenamedEnd {env : Env} (ρ : Renaming) (W : World env) (env' : Env) (x x' : M Registry) : Prop :=
  match x, x' with
  | .error f, .error f' => FaultLike f f'
  | .ok r, .ok r' => RenamedAlike ρ W r r' (env' := env')
  | _, _ => False

end Shard
