import Verif.Spec.World
/-!
# The archetype registry on its own

`ArchetypeRegistry` is a public type. The reference is an append-only list of keys, one per archetype: the component
set (ascending ids) and the archetype id it was created with.
-/

set_option autoImplicit false

namespace Shard

/-- The key of an archetype. -/
abbrev ArchKey := List UInt16 × UInt32

/-- The position of the archetype for sets as large as `s` with the id `id`. -/
def keyIndex : List ArchKey → ArchKey → Option Nat
  | [], _ => none
  | k :: l, q => if k.1.length = q.1.length ∧ k.2 = q.2 then some 0 else (keyIndex l q).map (· + 1)

/-- Find a key or append it: no key has the reserved id, and there are at most 65,534 keys. -/
def keyIntern (l : List ArchKey) (q : ArchKey) : List ArchKey × Option Nat :=
  if q.2 = 4294967295 then (l, none)
  else match keyIndex l q with
    | some i => (l, some i)
    | none => if l.length < 65534 then (l ++ [q], some l.length) else (l, none)

/-- Insert an id into an ascending list. -/
def insertId (i : UInt16) : List UInt16 → List UInt16
  | [] => [i]
  | j :: l => if i < j then i :: j :: l else j :: insertId i l

/-- Calls on an archetype registry with the descriptors of groups and components. -/
inductive ArchCall
  | find (g : Group)
  | findOrCreate (g : Group)
  | adding (src : UInt16) (c : CompTy)
  | removing (src : UInt16) (c : CompTy)

/-- The key of a group: `none` for groups that are not valid (empty, too large, repeated ids). -/
def Group.key (env : Env) (g : Group) : Option ArchKey :=
  if 1 ≤ g.length ∧ g.length ≤ 14 ∧ (g.map (fun c => c.id)).Nodup then some (g.idSet, groupId env g.idSet) else none

/-- The reference: `none` means that the call panics. A call with a source returns the position of the destination. -/
def ArchCall.ref (env : Env) (l : List ArchKey) : ArchCall → Option (List ArchKey × Option Nat)
  | .find g =>
    match g.key env with
    | none => some (l, none)
    | some k => some (l, if k.2 = 4294967295 then none else keyIndex l k)
  | .findOrCreate g =>
    match g.key env with
    | none => some (l, none)
    | some k => some (keyIntern l k)
  | .adding src c =>
    if l.length < src.toNat then some (l, none)
    else match l[src.toNat]? with
      | none => none
      | some k =>
        if c.id ∈ k.1 ∨ k.1.length = 14 then some (l, none)
        else if k.1.length = 13 then none
        else some (keyIntern l (insertId c.id k.1, plainId env (insertId c.id k.1)))
  | .removing src c =>
    if l.length < src.toNat then some (l, none)
    else match l[src.toNat]? with
      | none => none
      | some k =>
        if c.id ∉ k.1 ∨ k.1.length = 1 then some (l, none)
        else if k.1.length = 14 then none
        else some (keyIntern l (k.1.erase c.id, plainId env (k.1.erase c.id)))

/-- The same call on the real registry; the answer is the position of the archetype that is returned. -/
def ArchCall.run (env : Env) (ar : ArchetypeRegistry) : ArchCall → M (ArchetypeRegistry × Option Nat)
  | .find g => do
    let i ← ar.findArchetype env (g.descriptor env).archetype
    return (ar, i)
  | .findOrCreate g => do
    let x ← ar.findOrCreateArchetype env (g.descriptor env).archetype
    return (x.1, x.2.map UInt16.toNat)
  | .adding src c => do
    let x ← ar.findOrCreateAdding env src c.descriptor
    return (x.1, x.2.map (fun p => p.2.2))
  | .removing src c => do
    let x ← ar.findOrCreateRemoving env src c.descriptor
    return (x.1, x.2.map (fun p => p.2.2))

/-- The call uses types of the program, and the component set it may form is in use. -/
def ArchCall.Ok {env : Env} (W : World env) (l : List ArchKey) : ArchCall → Prop
  | .find g => W.OkGroup g
  | .findOrCreate g => W.OkGroup g
  | .adding src c => W.Has c ∧ ∀ k, l[src.toNat]? = some k → c.id ∉ k.1 → W.Used (insertId c.id k.1)
  | .removing src c => W.Has c ∧ ∀ k, l[src.toNat]? = some k → c.id ∈ k.1 → k.1.length ≠ 1 → W.Used (k.1.erase c.id)

/-- The keys of the archetypes of a registry. -/
def ArchetypeRegistry.keysOf (ar : ArchetypeRegistry) : List ArchKey :=
  ar.archetypes.map (fun a => (a.descriptor.components.map (fun c => c.id), a.descriptor.archetypeId))

/-- A sequence of calls on the reference: the answers, and the keys in the end unless a call panicked. -/
def refArch (env : Env) : List ArchKey → List ArchCall → List (Option Nat) × Option (List ArchKey)
  | l, [] => ([], some l)
  | l, c :: rest =>
    match c.ref env l with
    | none => ([], none)
    | some x =>
      let y := refArch env x.1 rest
      (x.2 :: y.1, y.2)

/-- A sequence of calls on the real registry. -/
def runArch (env : Env) : ArchetypeRegistry → List ArchCall → List (Option Nat) × M ArchetypeRegistry
  | ar, [] => ([], .ok ar)
  | ar, c :: rest =>
    match c.run env ar with
    | .error f => ([], .error f)
    | .ok x =>
      let y := runArch env x.1 rest
      (x.2 :: y.1, y.2)

/-- Every call of the sequence is fine where it is made. -/
def OkCalls {env : Env} (W : World env) : List ArchKey → List ArchCall → Prop
  | _, [] => True
  | l, c :: rest => c.Ok W l ∧ ∀ x, c.ref env l = some x → OkCalls W x.1 rest

end Shard
