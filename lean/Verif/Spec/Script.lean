import Verif.Spec.Locality
/-!
# Pieces of code that keep to the entities they created

A script creates entities and works on the entities it created. It names them by the order in which it created them and
never looks into a handle; when it has ended an entity (`destroy_entity`, `remove_entity`) it forgets the handle. The
same script can be run in any registry.
-/

set_option autoImplicit false

namespace Shard.Script

/-- What a script can do with one of its entities. -/
inductive Action
  /-- `destroy_entity(e)` -/
  | destroy
  /-- `remove_entity::<G>(e)` -/
  | removeEntity (g : Group)
  /-- `add_component(e, v)` -/
  | add (c : CompTy) (v : Val)
  /-- `remove_component::<C>(e)` -/
  | remove (c : CompTy)
  /-- `mem::replace(get_component_mut::<C>(e)?, v)` -/
  | write (c : CompTy) (v : Val)
  /-- `mem::replace(get_components_mut::<G>(e)?.j, v)` -/
  | writeIn (g : Group) (j : Nat) (v : Val)

/-- The action as a call, for the entity `e`. -/
def Action.call (e : Entity) : Action → Call
  | .destroy => .destroy e
  | .removeEntity g => .removeEntity g e
  | .add c v => .add e c v
  | .remove c => .remove e c
  | .write c v => .write e c v
  | .writeIn g j v => .writeIn g e j v

/-- One operation of a script. -/
inductive Op
  /-- `create_entity::<G>(vals)`; if it succeeds, the entity gets the next number -/
  | create (g : Group) (vals : List Val)
  /-- act on entity number `n`; nothing happens if there is no such entity or it has been ended -/
  | on (n : Nat) (a : Action)

/-- The handles of a script: those of its entities in the order of creation; none for those it has ended. -/
abbrev Handles := List (Option Entity)

/-- The call an operation makes, if any. -/
def Op.call? (hs : Handles) : Op → Option Call
  | .create g vals => some (.create g vals)
  | .on n a => match hs[n]? with
    | some (some e) => some (a.call e)
    | _ => none

/-- The handles after an operation with the given outcome. -/
def Op.handles (hs : Handles) (o : Outcome) : Op → Handles
  | .create _ _ => match o.created with
    | some e => hs ++ [some e]
    | none => hs
  | .on n _ => if o.vacated.isSome then hs.set n none else hs

/-- Run a script: the outcomes of its calls, the registry and the handles. -/
def run (env : Env) : Registry → Handles → List Op → M (List Outcome × Registry × Handles)
  | r, hs, [] => .ok ([], r, hs)
  | r, hs, op :: ops =>
    match op.call? hs with
    | none => run env r hs ops
    | some call =>
      match call.run env r with
      | .error f => .error f
      | .ok (r', o) =>
        match run env r' (op.handles hs o) ops with
        | .error f => .error f
        | .ok (os, x) => .ok (o :: os, x)

/-- Every call of the script respects the assumptions of `Call.Disciplined` in the state in which it is made. -/
def Disciplined {env : Env} (W : World env) : Registry → Handles → List Op → Prop
  | _, _, [] => True
  | r, hs, op :: ops =>
    match op.call? hs with
    | none => Disciplined W r hs ops
    | some call => call.Disciplined W r ∧
      ∀ r' o, call.run env r = .ok (r', o) → Disciplined W r' (op.handles hs o) ops

/-- There is room for `n` more calls after the history: for the archetypes and the entities they can make. -/
def Roomy {env : Env} (W : World env) (hist : List (Call × Outcome)) (n : Nat) : Prop :=
  ((hist.filter (fun x => x.1.reshapes)).length + n < 65534 ∨
    ∃ L : List (List UInt16), (∀ s, W.Used s → s ∈ L) ∧ L.length < 32767) ∧
  (liveCount hist).2 + n < STORAGE_LIMIT

/-- The registry `r` answers every query about `e` as the registry `r'` does about `e'`. -/
def SameAs {env : Env} (W : World env) (r : Registry) (e : Entity) (r' : Registry) (e' : Entity) : Prop :=
  (Live env r' e' ↔ Live env r e) ∧ ∀ c, W.Has c →
    r'.hasComponent env c e' = r.hasComponent env c e ∧ r'.getComponent env c e' = r.getComponent env c e

/-- Two outcomes are the same except for the handles in them and the order of the dropped values. -/
def SameReport (o o' : Outcome) : Prop :=
  o.success = o'.success ∧ o.created.isSome = o'.created.isSome ∧ o.vacated.isSome = o'.vacated.isSome ∧
  o.given = o'.given ∧ o.returned = o'.returned ∧ o.dropped.Perm o'.dropped

/-- Every handle the script holds is live, and no two of them are equal. -/
def Own (env : Env) (r : Registry) (hs : Handles) : Prop :=
  (∀ (n : Nat) (e : Entity), hs[n]? = some (some e) → Live env r e) ∧
  ∀ (n m : Nat) (e : Entity), hs[n]? = some (some e) → hs[m]? = some (some e) → n = m

/-- The script sees the same in both registries: the same entities are there, with the same components and values. -/
def SameView {env : Env} (W : World env) (r : Registry) (hs : Handles) (r' : Registry) (hs' : Handles) : Prop :=
  hs.length = hs'.length ∧ ∀ n : Nat,
    (∀ e, hs[n]? = some (some e) → ∃ e', hs'[n]? = some (some e') ∧ SameAs W r e r' e') ∧
    (∀ e', hs'[n]? = some (some e') → ∃ e, hs[n]? = some (some e))

/-- Two runs of a script end the same way: with the same fault, or with the same reports and the same view. -/
def RunsAlike {env : Env} (W : World env) : M (List Outcome × Registry × Handles) → M (List Outcome × Registry × Handles) → Prop
  | .ok (os, r, hs), .ok (os', r', hs') => 
    os.length = os'.length ∧ (∀ p ∈ os.zip os', SameReport p.1 p.2) ∧ SameView W r hs r' hs'
  | .error f, .error f' => f = f'
  | _, _ => False

end Shard.Script
