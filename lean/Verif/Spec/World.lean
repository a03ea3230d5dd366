import Verif.Model.Registry
/-!
# The programs the theorems talk about

A `World` collects what the theorems assume about the component types of a program and about the component sets
it forms. Everything here is an assumption on the user's types and on the values of the 32-bit hash for the
component sets in use; nothing is assumed about the code.
-/

namespace Shard

/-- A descriptor that only carries an id (the archetype ids depend on nothing else). -/
def idOnly (i : UInt16) : ComponentDescriptor := ⟨i, 0, 0, none⟩

/-- The archetype id `add_component`/`remove_component` compute for the component set `s` (ascending ids). -/
def plainId (env : Env) (s : List UInt16) : UInt32 := ArchetypeDescriptor.computeArchetypeId env (s.map idOnly)

/-- The archetype id `create_entity` computes for the component set `s` (ascending ids). -/
def groupId (env : Env) (s : List UInt16) : UInt32 :=
  ArchetypeDescriptor.computeArchetypeId env
    (s.map idOnly ++ List.replicate (MAX_COMPONENTS_PER_ENTITY - s.length) ComponentDescriptor.INVALID)

/-- The registry has an archetype for `n` component types with the given archetype id. -/
def HasArchetype (ar : ArchetypeRegistry) (n : Nat) (id : UInt32) : Prop :=
  ∃ a ∈ ar.archetypes, a.descriptor.len = n ∧ a.descriptor.archetypeId = id

/-- An archetype for `n` component types with the given archetype id can be had: the id is not the reserved one, and
the archetype is there or the limit of 65,534 archetypes is not reached. -/
def Room (ar : ArchetypeRegistry) (n : Nat) (id : UInt32) : Prop :=
  id ≠ ARCHETYPE_ID_INVALID ∧ (HasArchetype ar n id ∨ ar.archetypes.length < 65534)

/-- The assumptions on a program. -/
structure World (env : Env) where
  /-- the component types the program uses -/
  Has : CompTy → Prop
  /-- the component sets the program forms, as ascending lists of ids -/
  Used : List UInt16 → Prop
  /-- distinct component types have distinct ids (the documented obligation of `Component::ID`) -/
  id_inj : ∀ {c c'}, Has c → Has c' → c.id = c'.id → c = c'
  /-- the sizes fit the `u16` fields of `ComponentDescriptor` -/
  size_lt : ∀ {c}, Has c → c.size < 65536
  align_lt : ∀ {c}, Has c → c.align < 65536
  /-- facts about every Rust type -/
  align_pow : ∀ {c}, Has c → ∃ k, c.align = 2 ^ k
  mult : ∀ {c}, Has c → c.size % c.align = 0
  /-- no zero-sized components, unless the allocator tolerates zero-sized requests -/
  zst : ∀ {c}, Has c → 0 < c.size ∨ env.zstAllocOk = true
  /-- no two component sets in use collide under the 32-bit hash -/
  noClash : ∀ {s t}, Used s → Used t → s.length = t.length →
    (plainId env s = plainId env t ∨ plainId env s = groupId env t ∨ groupId env s = groupId env t) → s = t

/-- The component set of a group: its ids in ascending order. -/
def Group.idSet (g : Group) : List UInt16 := (g.map (fun c => c.id)).mergeSort (fun a b => decide (a ≤ b))

namespace World

variable {env : Env}

/-- A group of the program: its types are types of the program and its component set is in use. -/
structure OkGroup (W : World env) (g : Group) : Prop where
  has : ∀ c ∈ g, W.Has c
  used : W.Used g.idSet

end World

/-- `s` lists, in ascending order, the ids that satisfy `P`. -/
def AscSet (s : List UInt16) (P : UInt16 → Prop) : Prop := s.Pairwise (fun a b => a < b) ∧ ∀ i, i ∈ s ↔ P i

/-- `v` is a value of type `c`. -/
def Val.HasTy (v : Val) (c : CompTy) : Prop := v.ty = c.ty ∧ v.bytes.length = c.size

/-- `vals` is a value of the tuple type `g`. -/
def TypedVals (g : Group) (vals : List Val) : Prop :=
  vals.length = g.length ∧ ∀ (i : Nat) (c : CompTy) (v : Val), g[i]? = some c → vals[i]? = some v → v.HasTy c

/-- The item (column, value) that belongs to a component type, in a list parallel to a list of component types. -/
def lookupTy {α : Type} : List CompTy → List α → CompTy → Option α
  | c' :: cs, v :: vs, c => if c' = c then some v else lookupTy cs vs c
  | _, _, _ => none

end Shard
