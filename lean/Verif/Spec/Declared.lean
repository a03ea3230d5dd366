import Verif.Spec.Reference
import Verif.Model.Override
/-!
# Programs whose component types declare their `DESCRIPTOR`

A program is a list of calls. Run with the declarations `decl`, its calls of `add_component` and `remove_component` use
`decl c` where they use `C::DESCRIPTOR`.
-/

set_option autoImplicit false

namespace Shard

/-- Run a call in a program with the declarations `decl`. -/
def Call.runWith (decl : CompTy → ComponentDescriptor) (env : Env) (r : Registry) : Call → M (Registry × Outcome)
  | .add e c v => do
    let x ← r.addComponentWith env e c (decl c) v
    match x.2 with
    | .ok _ => return (x.1, { success := true, given := [v] })
    | .err w => return (x.1, { success := false, given := [v], returned := [w] })
  | .remove e c => do
    let x ← r.removeComponentWith env e c (decl c)
    match x.2 with
    | .ok w => return (x.1, { success := true, returned := [w] })
    | .err _ => return (x.1, { success := false })
  | call => call.run env r

/-- A sequence of calls in a program with the declarations `decl`. -/
def runAllWith (decl : CompTy → ComponentDescriptor) (env : Env) : Registry → List Call → List Outcome × M Registry
  | r, [] => ([], .ok r)
  | r, c :: rest =>
    match c.runWith decl env r with
    | .error f => ([], .error f)
    | .ok (r', out) => (out :: (runAllWith decl env r' rest).1, (runAllWith decl env r' rest).2)

/-- The descriptor `d` has the id and the size of the type, an alignment that is at least as strict, and the drop handler of
the type or one that does nothing. -/
def HarmlessFor (c : CompTy) (d : ComponentDescriptor) : Prop :=
  d.id = c.id ∧ d.size = c.descriptor.size ∧ (∃ k, k < 16 ∧ d.align = 2 ^ k) ∧ c.descriptor.align ∣ d.align ∧
  (d.drop = c.descriptor.drop ∨ d.drop = none)

/-- The answer of the filter depends on the archetype id and on the ids and sizes of the components only. -/
def IgnoresAlign (f : ArchetypeDescriptor → Bool) : Prop :=
  ∀ d d' : ArchetypeDescriptor, d'.archetypeId = d.archetypeId → d'.len = d.len →
    d'.comps.map (fun c => (c.id, c.size)) = d.comps.map (fun c => (c.id, c.size)) → f d' = f d

/-- The declared descriptor a call uses is harmless, and so is its filter. -/
def Call.Harmless (decl : CompTy → ComponentDescriptor) : Call → Prop
  | .add _ c _ => HarmlessFor c (decl c)
  | .remove _ c => (decl c).id = c.id
  | .writeIter (.filtered f) _ _ _ _ _ => IgnoresAlign f
  | .writeIter (.entityFiltered f) _ _ _ _ _ => IgnoresAlign f
  | _ => True

/-- The declared drop handler a call uses is the one of the type. -/
def Call.KeepsHandler (decl : CompTy → ComponentDescriptor) : Call → Prop
  | .add _ c _ => (decl c).drop = c.descriptor.drop
  | _ => True

/-- The same outcome, except that fewer values may have been dropped. -/
def Outcome.SameButLeaks (o o' : Outcome) : Prop :=
  o' = { o with dropped := o'.dropped } ∧ o'.dropped.Sublist o.dropped

/-- Every query that `r` answers, `s` answers alike. -/
structure AnswersLike (env : Env) (r s : Registry) : Prop where
  entities : s.iterEntities env = r.iterEntities env
  has : ∀ c e x, r.hasComponent env c e = .ok x → s.hasComponent env c e = .ok x
  hasAll : ∀ g e x, r.hasComponents env g e = .ok x → s.hasComponents env g e = .ok x
  get : ∀ c e x, r.getComponent env c e = .ok x → s.getComponent env c e = .ok x
  getAll : ∀ g e x, r.getComponents env g e = .ok x → s.getComponents env g e = .ok x
  getMut : ∀ c e x, r.getComponentMut env c e = .ok x → s.getComponentMut env c e = .ok x
  getAllMut : ∀ g e x, r.getComponentsMut env g e = .ok x → s.getComponentsMut env g e = .ok x
  matching : ∀ g x, r.iterComponentsMatching env g = .ok x → s.iterComponentsMatching env g = .ok x
  entityMatching : ∀ g x, r.iterEntityComponentsMatching env g = .ok x → s.iterEntityComponentsMatching env g = .ok x
  filtered : ∀ g f x, IgnoresAlign f → r.iterFilteredComponentsMatching env g f = .ok x →
    s.iterFilteredComponentsMatching env g f = .ok x
  entityFiltered : ∀ g f x, IgnoresAlign f → r.iterFilteredEntityComponentsMatching env g f = .ok x →
    s.iterFilteredEntityComponentsMatching env g f = .ok x
  exact : ∀ g x, r.iterComponentsExact env g = .ok x → s.iterComponentsExact env g = .ok x
  entityExact : ∀ g x, r.iterEntityComponentsExact env g = .ok x → s.iterEntityComponentsExact env g = .ok x
  items : ∀ it : MutIter, (∀ f, it = .filtered f ∨ it = .entityFiltered f → IgnoresAlign f) → ∀ g x,
    it.items env r g = .ok x → it.items env s g = .ok x

end Shard
