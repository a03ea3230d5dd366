import Verif.Spec.World
/-!
# Histories of API calls and the abstract map they are compared with

Everything in this file is stated through the public API of `Registry` (`src/registry/registry.rs`): the calls a
program can make, what the program observes of each call (`Outcome`), and an abstract registry that is just a map from
handles to maps from component types to values. Nothing here mentions archetypes, rows or slots.
-/

namespace Shard

/-- The handle is live: entity iteration yields it. -/
def Live (env : Env) (r : Registry) (e : Entity) : Prop := e ∈ r.iterEntities env

/-- Two registries answer every query about `e` identically. -/
def SameEntity {env : Env} (W : World env) (r r' : Registry) (e : Entity) : Prop :=
  (Live env r' e ↔ Live env r e) ∧ ∀ c, W.Has c →
    r'.hasComponent env c e = r.hasComponent env c e ∧ r'.getComponent env c e = r.getComponent env c e

/-- Two registries answer every query about the components of `e` other than `c` identically. -/
def SameOthers {env : Env} (W : World env) (r r' : Registry) (e : Entity) (c : CompTy) : Prop :=
  ∀ c', W.Has c' → c' ≠ c →
    r'.hasComponent env c' e = r.hasComponent env c' e ∧ r'.getComponent env c' e = r.getComponent env c' e

/-- The only difference between `r` and `r'` is that the component `c` of `e` is `old` in `r` and `v` in `r'`. -/
def OnlyWritten {env : Env} (W : World env) (r r' : Registry) (e : Entity) (c : CompTy) (old v : Val) : Prop :=
  Live env r e ∧ Live env r' e ∧ r.getComponent env c e = .ok (some old) ∧ r'.getComponent env c e = .ok (some v) ∧
  r'.hasComponent env c e = .ok true ∧ SameOthers W r r' e c ∧ ∀ x, x ≠ e → SameEntity W r r' x

/-- The storage behind two references does not overlap. -/
def NoOverlap (ai : Nat) (c : CompTy) (p : Ref) (ai' : Nat) (c' : CompTy) (p' : Ref) : Prop :=
  ai ≠ ai' ∨ p.col ≠ p'.col ∨ p.off + c.size ≤ p'.off ∨ p'.off + c'.size ≤ p.off

/-- `e` is live and its component types are exactly those of `g`. -/
def HasExactly {env : Env} (W : World env) (r : Registry) (e : Entity) (g : Group) : Prop :=
  Live env r e ∧ ∀ c, W.Has c → (r.hasComponent env c e = .ok true ↔ c ∈ g)

/-- The component ids of `e`. -/
def HasId {env : Env} (W : World env) (r : Registry) (e : Entity) (i : UInt16) : Prop :=
  ∃ c, W.Has c ∧ c.id = i ∧ r.hasComponent env c e = .ok true

/-- Fewer than `n` entities satisfy `P`. -/
def FewerThan (n : Nat) (P : Entity → Prop) : Prop := ∀ l : List Entity, l.Nodup → (∀ e ∈ l, P e) → l.length < n

/-- The archetype owns no memory. -/
def Archetype.NoMemory (a : Archetype) : Prop := (∀ p ∈ a.pointers, p = none) ∧ a.entityAssociations = none

/-! ## Calls -/

/-- The iterators that hand out mutable references. -/
inductive MutIter
  | matching
  | entityMatching
  | filtered (f : ArchetypeDescriptor → Bool)
  | entityFiltered (f : ArchetypeDescriptor → Bool)
  | exact
  | entityExact

/-- The items of a mutable iterator, run to its end: for each item the archetype and the slices. -/
def MutIter.items (env : Env) (r : Registry) (g : Group) : MutIter → M (List (Nat × List SliceRef))
  | .matching => r.iterComponentsMatchingMut env g
  | .entityMatching => do
    let l ← r.iterEntityComponentsMatchingMut env g
    return l.map (fun x => (x.1, x.2.2))
  | .filtered f => r.iterFilteredComponentsMatchingMut env g f
  | .entityFiltered f => do
    let l ← r.iterFilteredEntityComponentsMatchingMut env g f
    return l.map (fun x => (x.1, x.2.2))
  | .exact => do
    let o ← r.iterComponentsExactMut env g
    return o.toList
  | .entityExact => do
    let o ← r.iterEntityComponentsExactMut env g
    return o.toList.map (fun x => (x.1, x.2.2))

/-- The pointer to element `k` of a slice. -/
def SliceRef.elem (s : SliceRef) (k : Nat) : Ref := ⟨s.base.col, s.base.off + s.cty.size * k⟩

/-- `core::mem::replace(reference, v)` for a reference to a `c` in archetype `ai`. -/
def Registry.replaceAt (r : Registry) (ai : Nat) (c : CompTy) (p : Ref) (v : Val) : M (Registry × Val) := do
  let a ← index r.archetypes.archetypes ai
  let old ← a.readRef c p
  let r ← r.storeRef ai c p v
  return (r, old)

/-- The calls that can change a registry, and the stores through references it hands out. -/
inductive Call
  /-- `create_entity::<G>(vals)` -/
  | create (g : Group) (vals : List Val)
  /-- `destroy_entity(e)` -/
  | destroy (e : Entity)
  /-- `remove_entity::<G>(e)` -/
  | removeEntity (g : Group) (e : Entity)
  /-- `add_component(e, v)` -/
  | add (e : Entity) (c : CompTy) (v : Val)
  /-- `remove_component::<C>(e)` -/
  | remove (e : Entity) (c : CompTy)
  /-- `mem::replace(get_component_mut::<C>(e)?, v)` -/
  | write (e : Entity) (c : CompTy) (v : Val)
  /-- `mem::replace(get_components_mut::<G>(e)?.j, v)` -/
  | writeIn (g : Group) (e : Entity) (j : Nat) (v : Val)
  /-- `mem::replace(&mut item.j[k], v)` for the `n`th item of a mutable iterator over `G` -/
  | writeIter (it : MutIter) (g : Group) (n j k : Nat) (v : Val)

/-- What the program observes of a call, and where the component values go. -/
structure Outcome where
  /-- the call reports success -/
  success : Bool
  /-- the handle `create_entity` returns -/
  created : Option Entity := none
  /-- the handle that the call retires -/
  vacated : Option Entity := none
  /-- the values moved into the call -/
  given : List Val := []
  /-- the values handed back to the caller -/
  returned : List Val := []
  /-- the values dropped by the call -/
  dropped : List Val := []
  deriving DecidableEq

/-- Run a call. -/
def Call.run (env : Env) (r : Registry) : Call → M (Registry × Outcome)
  | .create g vals => do
    let x ← r.createEntity env g vals
    match x.2 with
    | .ok e => return (x.1, { success := true, created := some e, given := vals })
    | .err vs => return (x.1, { success := false, given := vals, returned := vs })
  | .destroy e => do
    let x ← r.destroyEntity env e
    return (x.1, { success := x.2.1, vacated := if x.2.1 then some e else none, dropped := x.2.2 })
  | .removeEntity g e => do
    let x ← r.removeEntity env g e
    match x.2 with
    | some vs => return (x.1, { success := true, vacated := some e, returned := vs })
    | none => return (x.1, { success := false })
  | .add e c v => do
    let x ← r.addComponent env e c v
    match x.2 with
    | .ok _ => return (x.1, { success := true, given := [v] })
    | .err w => return (x.1, { success := false, given := [v], returned := [w] })
  | .remove e c => do
    let x ← r.removeComponent env e c
    match x.2 with
    | .ok w => return (x.1, { success := true, returned := [w] })
    | .err _ => return (x.1, { success := false })
  | .write e c v => do
    let x ← r.replaceComponent env c e v
    match x.2 with
    | some old => return (x.1, { success := true, given := [v], returned := [old] })
    | none => return (x.1, { success := false, given := [v], returned := [v] })
  | .writeIn g e j v => do
    let o ← r.getComponentsMut env g e
    match o with
    | none => return (r, { success := false, given := [v], returned := [v] })
    | some (ai, ps) =>
      match ps[j]? with
      | some (c, some p) =>
        let x ← r.replaceAt ai c p v
        return (x.1, { success := true, given := [v], returned := [x.2] })
      | _ => return (r, { success := false, given := [v], returned := [v] })
  | .writeIter it g n j k v => do
    let items ← it.items env r g
    match items[n]? with
    | none => return (r, { success := false, given := [v], returned := [v] })
    | some (ai, ss) =>
      match ss[j]? with
      | none => return (r, { success := false, given := [v], returned := [v] })
      | some s =>
        if k < s.len then
          let x ← r.replaceAt ai s.cty (s.elem k) v
          return (x.1, { success := true, given := [v], returned := [x.2] })
        else return (r, { success := false, given := [v], returned := [v] })

/-- The assumptions on a call: the types are types of the program, the values have their types, and the component set
the call asks for is one of the component sets of the program. -/
def Call.Admissible {env : Env} (W : World env) (r : Registry) : Call → Prop
  | .create g vals => TypedVals g vals ∧ ((g.map (fun c => c.id)).Nodup → W.OkGroup g)
  | .destroy _ => True
  | .removeEntity _ _ => True
  | .add e c v => W.Has c ∧ v.HasTy c ∧
      (Live env r e → ∀ s, AscSet s (fun i => i = c.id ∨ HasId W r e i) → W.Used s)
  | .remove e c => W.Has c ∧ (Live env r e → ∀ s, s ≠ [] → AscSet s (fun i => i ≠ c.id ∧ HasId W r e i) → W.Used s)
  | .write _ c v => W.Has c ∧ v.HasTy c
  | .writeIn g _ j v => (∀ c ∈ g, W.Has c) ∧ (g.descriptor env).isValid = true ∧ ∀ c, g[j]? = some c → v.HasTy c
  | .writeIter it g _ j _ v => (∀ c ∈ g, W.Has c) ∧ (g.descriptor env).isValid = true ∧
      (∀ c, g[j]? = some c → v.HasTy c) ∧
      match it with
      | .exact => W.Used g.idSet
      | .entityExact => W.Used g.idSet
      | _ => True

/-- `remove_entity::<G>` is only called for a handle that is not live or has exactly the components `G` (the code does
not check it, see `C18`). -/
def Call.Matched {env : Env} (W : World env) (r : Registry) : Call → Prop
  | .removeEntity g e => Live env r e → (∀ c ∈ g, W.Has c) ∧ (g.descriptor env).isValid = true ∧ HasExactly W r e g
  | _ => True

/-- The calls that respect both. -/
def Call.Disciplined {env : Env} (W : World env) (r : Registry) (call : Call) : Prop :=
  call.Admissible W r ∧ call.Matched W r

/-! ## Histories -/

/-- A history from `r` to `r'`: calls that satisfy `ok`, with their outcomes. -/
inductive Steps (env : Env) (ok : Registry → Call → Prop) (r : Registry) : List (Call × Outcome) → Registry → Prop
  | nil : Steps env ok r [] r
  | snoc {h : List (Call × Outcome)} {r1 r2 : Registry} {call : Call} {out : Outcome} :
      Steps env ok r h r1 → ok r1 call → call.run env r1 = .ok (r2, out) → Steps env ok r (h ++ [(call, out)]) r2

/-- The registry results from some history. -/
def Reachable {env : Env} (W : World env) (r : Registry) : Prop :=
  ∃ h, Steps env (Call.Admissible W) Registry.default h r

/-! ## The abstract registry -/

/-- A map from handles to maps from component types to values. -/
abbrev AMap := Entity → Option (CompTy → Option Val)

/-- The empty abstract registry. -/
def AMap.empty : AMap := fun _ => none

/-- Change the entry of one handle. -/
def AMap.set (a : AMap) (e : Entity) (x : Option (CompTy → Option Val)) : AMap := fun y => if y = e then x else a y

/-- Change the entry of one component type. -/
def setComp (f : CompTy → Option Val) (c : CompTy) (x : Option Val) : CompTy → Option Val :=
  fun y => if y = c then x else f y

/-- Replacing the component `c` of `e` by `v` yields `a'`, and the old value is `old`. -/
def AMap.Replaced (a : AMap) (e : Entity) (c : CompTy) (v old : Val) (a' : AMap) : Prop :=
  ∃ f, a e = some f ∧ f c = some old ∧ a' = a.set e (some (setComp f c (some v)))

/-- `vs` are the values of the components `f`, each once. -/
def RowOf (f : CompTy → Option Val) (vs : List Val) : Prop :=
  ∃ cts : List CompTy, cts.Nodup ∧ (∀ c, c ∈ cts ↔ (f c).isSome) ∧ vs.map some = cts.map f

/-- The entity `e` has all components of `g`. -/
def AMap.HasAll (a : AMap) (e : Entity) (g : Group) : Prop := ∃ f, a e = some f ∧ ∀ c ∈ g, (f c).isSome

/-- What a call does to the abstract registry. -/
def AMap.Step (env : Env) (a : AMap) (call : Call) (out : Outcome) (a' : AMap) : Prop :=
  match call with
  | .create g vals =>
    (out.success = true ∧ ∃ e, out.created = some e ∧ a e = none ∧ a' = a.set e (some (lookupTy g vals))) ∨
    (out.success = false ∧ out.returned = vals ∧ a' = a)
  | .destroy e =>
    match a e with
    | none => out.success = false ∧ a' = a
    | some _ => out.success = true ∧ a' = a.set e none
  | .removeEntity g e =>
    match a e with
    | none => out.success = false ∧ a' = a
    | some f => out.success = true ∧ a' = a.set e none ∧
        ((g.descriptor env).isValid = true → (∀ c, (f c).isSome ↔ c ∈ g) → out.returned.map some = g.map f)
  | .add e c v =>
    match a e with
    | none => out.success = false ∧ out.returned = [v] ∧ a' = a
    | some f => (out.success = true ∧ f c = none ∧ a' = a.set e (some (setComp f c (some v)))) ∨
        (out.success = false ∧ out.returned = [v] ∧ a' = a)
  | .remove e c =>
    match a e with
    | none => out.success = false ∧ a' = a
    | some f => (out.success = true ∧ ∃ v, f c = some v ∧ (∃ c', c' ≠ c ∧ (f c').isSome) ∧ out.returned = [v] ∧
          a' = a.set e (some (setComp f c none))) ∨
        (out.success = false ∧ a' = a)
  | .write e c v =>
    (out.success = true ∧ ∃ old, out.returned = [old] ∧ a.Replaced e c v old a') ∨
    (out.success = false ∧ out.returned = [v] ∧ (a e).bind (fun f => f c) = none ∧ a' = a)
  | .writeIn g e j v =>
    (out.success = true ∧ a.HasAll e g ∧ ∃ c old, g[j]? = some c ∧ out.returned = [old] ∧ a.Replaced e c v old a') ∨
    (out.success = false ∧ out.returned = [v] ∧ (a.HasAll e g → g[j]? = none) ∧ a' = a)
  | .writeIter _ g _ j _ v =>
    (out.success = true ∧ ∃ e c old, g[j]? = some c ∧ out.returned = [old] ∧ a.HasAll e g ∧
      a.Replaced e c v old a') ∨
    (out.success = false ∧ out.returned = [v] ∧ a' = a)

/-- What a call drops: `destroy_entity` the values of its entity, each once; the other calls nothing. -/
def AMap.Drops (a : AMap) (call : Call) (out : Outcome) : Prop :=
  match call with
  | .destroy e =>
    match a e with
    | none => out.dropped = []
    | some f => RowOf f out.dropped
  | _ => out.dropped = []

end Shard
