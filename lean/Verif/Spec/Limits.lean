import Verif.Spec.Api
/-!
# Conditions under which calls succeed
-/

set_option autoImplicit false

namespace Shard

/-- `e` is live and its component ids are exactly those in `t`. -/
def HasSet {env : Env} (W : World env) (r : Registry) (e : Entity) (t : List UInt16) : Prop :=
  Live env r e ∧ ∀ i, HasId W r e i ↔ i ∈ t

/-- The largest number of entities an archetype can hold: the largest capacity below the entity limit that is
128 times a power of two. -/
def STORAGE_LIMIT : Nat := 8388608

/-- The component ids `e` has after gaining `c`. -/
def WithId {env : Env} (W : World env) (r : Registry) (e : Entity) (c : CompTy) (i : UInt16) : Prop :=
  i = c.id ∨ HasId W r e i

/-- The component ids `e` has after losing `c`. -/
def WithoutId {env : Env} (W : World env) (r : Registry) (e : Entity) (c : CompTy) (i : UInt16) : Prop :=
  i ≠ c.id ∧ HasId W r e i

/-- The limits of the code that a call must stay within in order not to fault: a full archetype cannot be pushed to,
an entity cannot gain a fourteenth component, nor lose one of fourteen. -/
def Call.WithinLimits {env : Env} (W : World env) (r : Registry) : Call → Prop
  | .create g _ => FewerThan STORAGE_LIMIT (fun x => HasExactly W r x g)
  | .add e c _ => (∀ s, AscSet s (HasId W r e) → s.length ≠ 13) ∧
      ∀ t, AscSet t (WithId W r e c) → FewerThan STORAGE_LIMIT (fun x => HasSet W r x t)
  | .remove e c => (∀ s, AscSet s (HasId W r e) → s.length ≠ 14) ∧
      ∀ t, AscSet t (WithoutId W r e c) → FewerThan STORAGE_LIMIT (fun x => HasSet W r x t)
  | _ => True

/-- The archetype descriptors a program forms: those of its groups, and those that `add_component` and
`remove_component` derive from them. -/
inductive World.Desc {env : Env} (W : World env) : ArchetypeDescriptor → Prop
  | group {g : Group} : W.OkGroup g → (g.descriptor env).isValid = true → W.Desc (g.descriptor env).archetype
  | add {d d' : ArchetypeDescriptor} {c : CompTy} : W.Desc d → W.Has c → d.addComponent env c.descriptor = .ok (some d') →
      d'.isValid = true → W.Used (d'.components.map (fun c => c.id)) → W.Desc d'
  | remove {d d' : ArchetypeDescriptor} {c : CompTy} : W.Desc d → W.Has c → d.removeComponent env c.id = .ok (some d') →
      d'.isValid = true → W.Used (d'.components.map (fun c => c.id)) → W.Desc d'

end Shard
