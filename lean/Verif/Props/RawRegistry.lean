import Verif.Props.RawArchetype
import Verif.Proofs.ArchetypeRead
import Verif.Proofs.Iterators
import Verif.Props.Example
/-!
# C69: the safe functions of `ArchetypeRegistry`

`ArchetypeRegistry` is public. Apart from `get_unchecked` and `get_unchecked_mut` all its functions are safe, and
`IndexMut` (or `find_archetype_mut`) lets safe code put any archetype it has created at the place of another one.
-/

set_option autoImplicit false

namespace Shard

variable {env : Env}

/-! ## Programs that use `ArchetypeRegistry` -/

/-- A set of component types as Rust guarantees and documents it: distinct ids, sizes and alignments that fit `u16`,
alignments that are powers of two, no zero-sized types unless the allocator tolerates them. Nothing is assumed about
collisions of archetype ids. -/
structure TypeSet (env : Env) where
  Has : CompTy → Prop
  id_inj : ∀ {c c'}, Has c → Has c' → c.id = c'.id → c = c'
  size_lt : ∀ {c}, Has c → c.size < 65536
  align_lt : ∀ {c}, Has c → c.align < 65536
  align_pow : ∀ {c}, Has c → ∃ k, c.align = 2 ^ k
  zst : ∀ {c}, Has c → 0 < c.size ∨ env.zstAllocOk = true

/-- The types of a world. -/
def World.types (W : World env) : TypeSet env :=
  ⟨W.Has, W.id_inj, W.size_lt, W.align_lt, W.align_pow, W.zst⟩

/-- The descriptor lists descriptors of types of `T` in ascending order of their ids. Its archetype id is arbitrary. -/
structure Describes (T : TypeSet env) (d : ArchetypeDescriptor) : Prop where
  array : d.comps.length = 14
  pos : 1 ≤ d.len
  le : d.len ≤ 14
  ascending : (d.components.map (fun c => c.id.toNat)).Pairwise (· < ·)
  types : ∀ c ∈ d.components, ∃ t, T.Has t ∧ c = t.descriptor

/-- A call of a safe function of `ArchetypeRegistry`. `replace i d cap` is
`registry[i] = Archetype::with_capacity(&d, cap)`; the iterators are polled `n` times, with any filter. -/
inductive SafeCall where
  | find (d : ArchetypeDescriptor)
  | findOrCreate (d : ArchetypeDescriptor)
  | adding (src : UInt16) (cd : ComponentDescriptor)
  | removing (src : UInt16) (cd : ComponentDescriptor)
  | entities (i : UInt16)
  | replace (i : UInt16) (d : ArchetypeDescriptor) (cap : Nat)
  | iter (g : Group) (filter : ArchetypeDescriptor → Bool) (n : Nat)
  | iterMut (g : Group) (filter : ArchetypeDescriptor → Bool) (n : Nat)
  | iterEntity (g : Group) (filter : ArchetypeDescriptor → Bool) (n : Nat)
  | iterEntityMut (g : Group) (filter : ArchetypeDescriptor → Bool) (n : Nat)

/-- What an iteration yields: for every archetype the number of entities and the numbers of elements of the slices. -/
abbrev Lengths := List (List Nat)

/-- Run a call: the registry after it, and the lengths of the slices it returned. -/
def SafeCall.run (env : Env) (ar : ArchetypeRegistry) : SafeCall → M (ArchetypeRegistry × Lengths)
  | .find d => do
    let _ ← ar.findArchetype env d
    return (ar, [])
  | .findOrCreate d => do
    let x ← ar.findOrCreateArchetype env d
    return (x.1, [])
  | .adding src cd => do
    let x ← ar.findOrCreateAdding env src cd
    return (x.1, [])
  | .removing src cd => do
    let x ← ar.findOrCreateRemoving env src cd
    return (x.1, [])
  | .entities i => do
    let a ← index ar.archetypes i.toNat
    let es ← a.entities
    return (ar, [[es.length]])
  | .replace i d cap => do
    let new ← Archetype.withCapacityAny env d cap
    let old ← index ar.archetypes i.toNat
    let _ ← old.drop
    return (ar.setArchetype i.toNat new, [])
  | .iter g filter n => do
    let it ← ArchIter.new env g
    let l ← it.collect env g filter ar (fun a => a.getFuzzySlicesUnchecked env g) n
    return (ar, l.map (fun x => x.2.map List.length))
  | .iterMut g filter n => do
    let it ← ArchIter.new env g
    let l ← it.collect env g filter ar (fun a => a.getFuzzySlicesUncheckedMut env g) n
    return (ar, l.map (fun x => x.2.map SliceRef.len))
  | .iterEntity g filter n => do
    let it ← ArchIter.new env g
    let l ← it.collect env g filter ar (fun a => a.getEntityFuzzySlicesUnchecked env g) n
    return (ar, l.map (fun x => x.2.1.length :: x.2.2.map List.length))
  | .iterEntityMut g filter n => do
    let it ← ArchIter.new env g
    let l ← it.collect env g filter ar (fun a => a.getEntityFuzzySlicesUncheckedMut env g) n
    return (ar, l.map (fun x => x.2.1.length :: x.2.2.map SliceRef.len))

/-- A call that uses types of `T` only: groups of types of `T`, any descriptors the safe constructors can build. -/
def SafeCall.Uses (T : TypeSet env) : SafeCall → Prop
  | .find d | .findOrCreate d | .replace _ d _ => d.comps.length = 14 ∧ d.len < 256
  | .adding _ cd | .removing _ cd => cd.size < 65536 ∧ cd.align < 65536
  | .entities _ => True
  | .iter g _ _ | .iterMut g _ _ | .iterEntity g _ _ | .iterEntityMut g _ _ => ∀ c ∈ g, T.Has c

/-- A call with honest descriptors: those passed in describe types of `T`, and replacements have memory. -/
def SafeCall.Honest (T : TypeSet env) : SafeCall → Prop
  | .find d | .findOrCreate d => Describes T d
  | .adding _ cd => ∃ t, T.Has t ∧ cd = t.descriptor
  | .removing _ _ => True
  | .entities _ => True
  | .replace _ d cap => Describes T d ∧ CapInRange cap
  | .iter g _ _ | .iterMut g _ _ | .iterEntity g _ _ | .iterEntityMut g _ _ => ∀ c ∈ g, T.Has c

/-- The registries that calls with the property `ok` lead to. A call that panics leaves the registry as it is. -/
inductive SafeReach (env : Env) (ok : SafeCall → Prop) : ArchetypeRegistry → Prop
  | start : SafeReach env ok ArchetypeRegistry.default
  | step {ar ar' : ArchetypeRegistry} {c : SafeCall} {out : Lengths} :
      SafeReach env ok ar → ok c → c.run env ar = .ok (ar', out) → SafeReach env ok ar'

/-- The full claim: no safe use of an `ArchetypeRegistry` has undefined behaviour. -/
def C69_statement : Prop :=
  ∀ (env : Env) (T : TypeSet env) (ar : ArchetypeRegistry), SafeReach env (SafeCall.Uses T) ar →
    ∀ c : SafeCall, c.Uses T → ∀ u, c.run env ar ≠ .error (.ub u)

/-! ## The invariant -/

theorem Describes.wf {T : TypeSet env} {d : ArchetypeDescriptor} (h : Describes T d) : WFDesc d :=
  ⟨h.array, h.pos, h.le, h.ascending⟩

theorem TypeSet.desc_size (T : TypeSet env) {c : CompTy} (h : T.Has c) : c.descriptor.size = c.size :=
  Nat.mod_eq_of_lt (T.size_lt h)

theorem TypeSet.desc_align (T : TypeSet env) {c : CompTy} (h : T.Has c) : c.descriptor.align = c.align :=
  Nat.mod_eq_of_lt (T.align_lt h)

theorem TypeSet.goodLayout (T : TypeSet env) {c : CompTy} (h : T.Has c) : GoodLayout env c.descriptor := by
  refine ⟨?_, ?_⟩
  · rw [T.desc_align h]
    exact T.align_pow h
  · rw [T.desc_size h]
    exact T.zst h

theorem TypeSet.goodDrop (T : TypeSet env) {c : CompTy} (h : T.Has c) : GoodDrop c.descriptor := by
  intro f hf
  rw [T.desc_align h]
  cases hf
  exact Nat.mod_self _

/-- An archetype without rows that describes types of `T` and has memory. -/
structure Vacant (T : TypeSet env) (a : Archetype) : Prop where
  eq : a = allocated a.descriptor a.capacity
  cap : CapInRange a.capacity
  desc : Describes T a.descriptor

structure SafeInv (T : TypeSet env) (ar : ArchetypeRegistry) : Prop where
  levels : ar.sortedMappings.length = 14
  keys : ∀ level ∈ ar.sortedMappings, ∀ k ∈ level, k.archetypeIndex.toNat < ar.archetypes.length
  vacant : ∀ a ∈ ar.archetypes, Vacant T a

/-- The result is not undefined behaviour, and a normal result satisfies `P`. -/
def NoUB {α : Type} (P : α → Prop) (m : M α) : Prop :=
  (∃ x, m = .ok x ∧ P x) ∨ ∃ p, m = .error (.panic p)

theorem NoUB.bind {α β : Type} {P : α → Prop} {Q : β → Prop} {m : M α} {f : α → M β} (h : NoUB P m)
    (hf : ∀ x, P x → NoUB Q (f x)) : NoUB Q (m >>= f) := by
  rcases h with ⟨x, rfl, hx⟩ | ⟨p, rfl⟩
  · exact hf x hx
  · exact .inr ⟨p, rfl⟩

theorem NoUB.ok {α : Type} {P : α → Prop} {x : α} (h : P x) : NoUB P (.ok x) := .inl ⟨x, rfl, h⟩

theorem NoUB.ne {α : Type} {P : α → Prop} {m : M α} (h : NoUB P m) (u : UBKind) : m ≠ .error (.ub u) := by
  rcases h with ⟨x, rfl, _⟩ | ⟨p, rfl⟩ <;> intro h <;> cases h

theorem NoUB.imp {α : Type} {P Q : α → Prop} {m : M α} (h : NoUB P m) (hpq : ∀ x, P x → Q x) : NoUB Q m := by
  rcases h with ⟨x, hx, hp⟩ | h
  · exact .inl ⟨x, hx, hpq x hp⟩
  · exact .inr h

theorem NoUB.index {α : Type} (l : List α) (i : Nat) : NoUB (fun a => l[i]? = some a) (index l i) := by
  unfold Shard.index
  cases h : l[i]? with
  | none => exact .inr ⟨_, rfl⟩
  | some a => exact .inl ⟨a, rfl, rfl⟩

theorem NoUB.ensure (b : Bool) (p : PanicKind) : NoUB (fun _ => b = true) (Shard.ensure b (.panic p)) := by
  cases b
  · exact .inr ⟨p, rfl⟩
  · exact .inl ⟨(), rfl, rfl⟩

theorem vacant_new {T : TypeSet env} {d : ArchetypeDescriptor} (hd : Describes T d) {cap : Nat} (hc : CapInRange cap) :
    NoUB (Vacant T) (Archetype.withCapacityAny env d cap) := by
  by_cases hv : d.isValid = true
  · have hal : ∀ c ∈ d.components, c.align < 65536 := by
      intro c hc
      obtain ⟨t, ht, rfl⟩ := hd.types c hc
      rw [T.desc_align ht]
      exact T.align_lt ht
    have hg : ∀ c ∈ d.components, GoodLayout env c := by
      intro c hc
      obtain ⟨t, ht, rfl⟩ := hd.types c hc
      exact T.goodLayout ht
    have := (withCapacityAny_in (env := env) hv hc hd.array hal hd.le).1 hg
    rw [this]
    exact .ok ⟨rfl, hc, hd⟩
  · rw [withCapacityAny_invalid (by simpa using hv)]
    exact .inr ⟨_, rfl⟩

/-! ## Accesses to archetypes without rows -/

namespace Vacant

variable {T : TypeSet env} {a : Archetype}

theorem count (h : Vacant T a) : a.entityCount = 0 := by rw [h.eq]; rfl

theorem entities_ok (h : Vacant T a) : a.entities = .ok [] := by
  rw [h.eq]
  exact allocated_entities _ _

theorem drop_ok (h : Vacant T a) : ∃ a', a.drop = .ok ([], a') := by
  rw [h.eq]
  refine (allocated_drop h.desc.array h.desc.le h.cap.1).1 fun c hc => ?_
  obtain ⟨t, ht, rfl⟩ := h.desc.types c hc
  exact T.goodDrop ht

theorem fuzzyFind_ok (h : Vacant T a) {p : Nat} {id : UInt16} (hp : a.descriptor.ids[p]? = some id) :
    ∀ (n check : Nat), check ≤ p → p < check + n → a.fuzzyFind id n check = some p
  | 0, check, h1, h2 => by omega
  | n + 1, check, h1, h2 => by
    have hw := h.desc.wf
    have hpl : p < a.descriptor.ids.length := (List.getElem?_eq_some_iff.mp hp).1
    have hlen : a.descriptor.ids.length = a.descriptor.len := hw.ids_length
    have hcl := hw.components_length
    have hck : check < a.descriptor.components.length := by omega
    have hg : (a.descriptor.comps.getD check ComponentDescriptor.INVALID).id = a.descriptor.components[check].id := by
      rw [hw.getD_comps (by omega)]
    have hpc : a.descriptor.components[p].id = id := by
      have := (List.getElem?_eq_some_iff.mp hp).2
      unfold ArchetypeDescriptor.ids at this
      rwa [List.getElem_map] at this
    unfold Archetype.fuzzyFind
    rw [hg]
    by_cases hcp : check = p
    · subst hcp
      rw [if_pos hpc]
    · rw [if_neg]
      · exact fuzzyFind_ok h hp n (check + 1) (by omega) (by omega)
      · intro he
        exact hcp (hw.id_inj hck (by omega) (he.trans hpc.symm))

/-- The slices of a group in an archetype that contains it. -/
def slots (d : ArchetypeDescriptor) (g : Group) : List SliceRef :=
  g.map (fun c => ⟨c, ⟨d.ids.idxOf c.id, 0⟩, 0⟩)

theorem sliceTuple_ok (h : Vacant T a) {g : Group} (gs : GroupSpec env g) (hsub : ∀ c ∈ g, c.id ∈ a.descriptor.ids) :
    Archetype.sliceTuple env g (a.getFuzzyPointersUnchecked env g 0) a.entityCount = .ok (slots a.descriptor g) := by
  have hw := h.desc.wf
  have htp : Archetype.tuplePointers env g (a.getFuzzyPointersUnchecked env g 0) =
      g.map (fun c => (c, some ⟨a.descriptor.ids.idxOf c.id, 0⟩)) := by
    unfold Archetype.tuplePointers
    apply List.ext_getElem (by simp)
    intro j h1 h2
    have hj : j < g.length := by simpa using h2
    simp only [List.getElem_mapIdx, List.getElem_map]
    have hsl : g.slot env j < g.length := by rw [← gs.components_length]; exact gs.slot_lt hj
    have h14 : MAX_COMPONENTS_PER_ENTITY = 14 := rfl
    have hgl := gs.wf.le
    unfold Archetype.getFuzzyPointersUnchecked
    rw [List.getD, List.getElem?_map, List.getElem?_range (by omega)]
    simp only [Option.map_some, Option.getD_some, gs.slot j hj]
    have hmem := hsub g[j] (List.getElem_mem hj)
    have hlt := List.idxOf_lt_length_iff.mpr hmem
    have hc : a.descriptor.ids[a.descriptor.ids.idxOf g[j].id]? = some g[j].id := by
      rw [List.getElem?_eq_getElem hlt, List.getElem_idxOf]
    have hle : g.slot env j ≤ a.descriptor.ids.idxOf g[j].id := by
      refine sorted_subset_pos gs.desc.ids_sorted hw.ids_sorted ?_ (x := g[j].id) ?_ hc
      · intro x hx
        obtain ⟨c, hcg, rfl⟩ := (gs.mem_ids x).mp hx
        exact hsub c hcg
      · unfold ArchetypeDescriptor.ids
        rw [List.getElem?_map, gs.slot j hj]; rfl
    have hf := h.fuzzyFind_ok hc (a.descriptor.len - g.slot env j) (g.slot env j) hle
      (by have := hw.ids_length; omega)
    have hid : g[j].descriptor.id = g[j].id := rfl
    rw [hid, hf, Nat.mul_zero]
  unfold Archetype.sliceTuple slots
  rw [htp, h.count, mapM_ok (g := fun cp => (⟨cp.1, ⟨a.descriptor.ids.idxOf cp.1.id, 0⟩, 0⟩ : SliceRef))]
  · rw [List.map_map]; rfl
  · intro cp hcp
    obtain ⟨c, _, rfl⟩ := List.mem_map.mp hcp
    rfl

theorem readSlots_ok (h : Vacant T a) {g : Group} (hg : ∀ c ∈ g, T.Has c) (hsub : ∀ c ∈ g, c.id ∈ a.descriptor.ids) :
    (slots a.descriptor g).mapM a.readSliceRef = .ok (g.map (fun _ => [])) := by
  unfold slots
  rw [mapM_ok (g := fun _ => [])]
  · rw [List.map_map]; rfl
  · intro s hs
    obtain ⟨c, hc, rfl⟩ := List.mem_map.mp hs
    have hlt := List.idxOf_lt_length_iff.mpr (hsub c hc)
    have hltc : a.descriptor.ids.idxOf c.id < a.descriptor.components.length := by
      rw [h.desc.wf.components_length, ← h.desc.wf.ids_length]
      exact hlt
    have hid : a.descriptor.components[a.descriptor.ids.idxOf c.id].id = c.id := by
      have h1 : a.descriptor.ids[a.descriptor.ids.idxOf c.id]? = some c.id := by
        rw [List.getElem?_eq_getElem hlt, List.getElem_idxOf]
      have h2 : a.descriptor.ids[a.descriptor.ids.idxOf c.id]? =
          (a.descriptor.components[a.descriptor.ids.idxOf c.id]?).map (fun c => c.id) := List.getElem?_map ..
      rw [h2, List.getElem?_eq_getElem hltc] at h1
      simpa using h1
    obtain ⟨t, ht, hte⟩ := h.desc.types _ (List.getElem_mem hltc)
    have htc : t = c := by
      refine T.id_inj ht (hg c hc) ?_
      rw [← hid, hte]
      rfl
    subst htc
    have hal : a.descriptor.components[a.descriptor.ids.idxOf t.id].align = t.align := by rw [hte]; exact T.desc_align ht
    unfold Archetype.readSliceRef
    have hp : index a.pointers (a.descriptor.ids.idxOf t.id) =
        .ok (some (freshBlock a.capacity a.descriptor.components[a.descriptor.ids.idxOf t.id])) := by
      have := allocated_pointer (cap := a.capacity) hltc
      rw [← h.eq] at this
      exact index_of_getElem? this
    simp only [hp, ok_bind]
    unfold readSlice checkAligned freshBlock
    simp only [hal, Nat.mod_self, Nat.zero_mod, and_self, if_true, ok_bind]
    rfl

theorem fuzzySlices_ok (h : Vacant T a) {g : Group} (gs : GroupSpec env g) (hg : ∀ c ∈ g, T.Has c)
    (hsub : ∀ c ∈ g, c.id ∈ a.descriptor.ids) :
    a.getFuzzySlicesUnchecked env g = .ok (g.map (fun _ => [])) ∧
    a.getFuzzySlicesUncheckedMut env g = .ok (slots a.descriptor g) ∧
    a.getEntityFuzzySlicesUnchecked env g = .ok ([], g.map (fun _ => [])) ∧
    a.getEntityFuzzySlicesUncheckedMut env g = .ok ([], slots a.descriptor g) := by
  have hv : (g.descriptor env).isValid = true := gs.valid
  unfold Archetype.getFuzzySlicesUnchecked Archetype.getFuzzySlicesUncheckedMut Archetype.getEntityFuzzySlicesUnchecked
    Archetype.getEntityFuzzySlicesUncheckedMut
  simp only [debugAssert_true hv, ok_bind, h.sliceTuple_ok gs hsub, h.readSlots_ok hg hsub, h.entities_ok, pure_eq_ok,
    and_self]

end Vacant

/-! ## Iteration -/

theorem SafeInv.nextInLevel_ok {T : TypeSet env} {ar : ArchetypeRegistry} (h : SafeInv T ar) {gd : ArchetypeDescriptor}
    {filter : ArchetypeDescriptor → Bool} {level : List SortedArchetypeKey} (hl : level ∈ ar.sortedMappings) :
    ∀ (n idx : Nat), ∃ o idx', ArchIter.nextInLevel gd filter ar.archetypes level n idx = .ok (o, idx') ∧
      ∀ i, o = some i → ∃ a, ar.archetypes[i]? = some a ∧ a.descriptor.containsSubset gd = true
  | 0, idx => ⟨none, idx, rfl, fun i hi => by cases hi⟩
  | n + 1, idx => by
    unfold ArchIter.nextInLevel
    by_cases hi : idx < level.length
    · rw [if_pos hi, indexUnchecked_lt hi]
      have hk := h.keys level hl level[idx] (List.getElem_mem hi)
      simp only [ok_bind]
      rw [indexUnchecked_lt hk]
      simp only [ok_bind]
      split
      · next hc =>
        refine ⟨_, _, rfl, fun i hi => ?_⟩
        cases hi
        exact ⟨_, List.getElem?_eq_getElem hk, (Bool.and_eq_true _ _ ▸ hc).1⟩
      · exact h.nextInLevel_ok hl n (idx + 1)
    · rw [if_neg hi]
      exact ⟨none, idx, rfl, fun i hi => by cases hi⟩

theorem SafeInv.nextLoop_ok {T : TypeSet env} {ar : ArchetypeRegistry} (h : SafeInv T ar) {gd : ArchetypeDescriptor}
    {filter : ArchetypeDescriptor → Bool} :
    ∀ (n : Nat) (it : ArchIter), ∃ o it', ArchIter.nextLoop gd filter ar n it = .ok (o, it') ∧
      ∀ i, o = some i → ∃ a, ar.archetypes[i]? = some a ∧ a.descriptor.containsSubset gd = true
  | 0, it => ⟨none, it, rfl, fun i hi => by cases hi⟩
  | n + 1, it => by
    unfold ArchIter.nextLoop
    have hM : MAX_COMPONENTS_PER_ENTITY = 14 := rfl
    by_cases hl : it.level < MAX_COMPONENTS_PER_ENTITY
    · rw [if_pos hl]
      have hlt : it.level < ar.sortedMappings.length := by have := h.levels; omega
      rw [indexUnchecked_lt hlt]
      simp only [ok_bind]
      obtain ⟨o, idx', h1, h2⟩ := h.nextInLevel_ok (gd := gd) (filter := filter) (List.getElem_mem hlt)
        (ar.sortedMappings[it.level].length - it.idx) it.idx
      rw [h1]
      simp only [ok_bind]
      cases o with
      | none => exact h.nextLoop_ok n _
      | some i => exact ⟨_, _, rfl, h2⟩
    · rw [if_neg hl]
      exact ⟨none, it, rfl, fun i hi => by cases hi⟩

theorem SafeInv.collect_ok {T : TypeSet env} {ar : ArchetypeRegistry} (h : SafeInv T ar) {g : Group}
    {filter : ArchetypeDescriptor → Bool} {α : Type} {f : Archetype → M α} {P : α → Prop}
    (hf : ∀ a, Vacant T a → (g.descriptor env).isValid = true →
      a.descriptor.containsSubset (g.descriptor env).archetype = true → ∃ x, f a = .ok x ∧ P x) :
    ∀ (n : Nat) (it : ArchIter), ∃ l, it.collect env g filter ar f n = .ok l ∧ ∀ x ∈ l, P x.2
  | 0, it => ⟨[], rfl, fun x hx => by cases hx⟩
  | n + 1, it => by
    unfold ArchIter.collect ArchIter.next
    by_cases hv : (g.descriptor env).isValid = true
    · rw [if_neg (by rw [hv]; decide)]
      obtain ⟨o, it', h1, h2⟩ := h.nextLoop_ok (gd := (g.descriptor env).archetype) (filter := filter)
        (MAX_COMPONENTS_PER_ENTITY - it.level) it
      rw [h1]
      simp only [ok_bind]
      cases o with
      | none => exact ⟨[], rfl, fun x hx => by cases hx⟩
      | some i =>
        obtain ⟨a, ha, hc⟩ := h2 i rfl
        simp only []
        rw [indexUnchecked_of_getElem? ha]
        simp only [ok_bind]
        obtain ⟨x, hx, hP⟩ := hf a (h.vacant a (List.mem_of_getElem? ha)) hv hc
        obtain ⟨l, hl, hPl⟩ := h.collect_ok (filter := filter) hf n it'
        rw [hx]
        simp only [ok_bind]
        rw [hl]
        refine ⟨_, rfl, fun y hy => ?_⟩
        rcases List.mem_cons.mp hy with rfl | hy
        · exact hP
        · exact hPl y hy
    · rw [if_pos hv]
      exact ⟨[], rfl, fun x hx => by cases hx⟩

/-! ## The operations preserve the invariant -/

variable {T : TypeSet env} {ar : ArchetypeRegistry}

theorem SafeInv.default (T : TypeSet env) : SafeInv T ArchetypeRegistry.default := by
  refine ⟨rfl, fun level hl k hk => ?_, fun a ha => by cases ha⟩
  have : level = [] := List.eq_of_mem_replicate hl
  subst this
  cases hk

theorem searchLevel_noUB (d : ArchetypeDescriptor) :
    NoUB (fun s => ar.sortedMappings[d.len - 1]? = some s.1) (ar.searchLevel env d) := by
  unfold ArchetypeRegistry.searchLevel
  refine NoUB.bind (P := fun l => l = d.len - 1) ?_ ?_
  · split
    · exact .ok rfl
    · split
      · exact .inr ⟨_, rfl⟩
      · exact .inr ⟨_, rfl⟩
  · rintro _ rfl
    exact (NoUB.index _ _).bind fun keys hk => .ok hk

theorem SafeInv.find_ok (d : ArchetypeDescriptor) : NoUB (fun _ => True) (ar.findArchetype env d) := by
  unfold ArchetypeRegistry.findArchetype
  split
  · exact .ok trivial
  · refine (searchLevel_noUB d).bind fun s _ => ?_
    cases s.2 with
    | found i =>
      exact (NoUB.index _ _).bind fun k _ => (NoUB.index _ _).bind fun _ _ => .ok trivial
    | insertAt i => exact .ok trivial

theorem withCapacity_eq_any {d : ArchetypeDescriptor} {cap : Nat} (h14 : d.comps.length = 14) (hl : d.len ≤ 14) :
    Archetype.withCapacity env d cap = Archetype.withCapacityAny env d cap := by
  unfold Archetype.withCapacityAny ArchetypeDescriptor.componentsAny
  rw [if_pos (show d.len ≤ d.comps.length by omega)]
  cases hv : d.isValid with
  | true =>
    rw [ensure_true rfl]
    simp only [ok_bind, ite_self]
  | false =>
    unfold Archetype.withCapacity
    rw [hv]
    rfl

theorem SafeInv.findOrCreate_ok (h : SafeInv T ar) {d : ArchetypeDescriptor} (hd : Describes T d) :
    NoUB (fun x => SafeInv T x.1) (ar.findOrCreateArchetype env d) := by
  unfold ArchetypeRegistry.findOrCreateArchetype
  split
  · exact .ok h
  · refine (searchLevel_noUB d).bind fun s hs => ?_
    cases s.2 with
    | found i =>
      exact (NoUB.index _ _).bind fun k _ => (NoUB.index _ _).bind fun _ _ => .ok h
    | insertAt i =>
      simp only []
      split
      · exact .ok h
      · next hlim =>
        have hM : MAX_ARCHETYPE_COUNT = 65534 := rfl
        rw [withCapacity_eq_any hd.array hd.le]
        refine (vacant_new hd (cap := DEFAULT_ARCHETYPE_ALLOCATION_SIZE) (by decide)).bind fun a ha => ?_
        refine (NoUB.ensure _ _).bind fun _ hi => .ok ⟨?_, ?_, ?_⟩
        · simpa using h.levels
        · intro level hlev k hk
          have hlen : (ar.archetypes ++ [a]).length = ar.archetypes.length + 1 := by simp
          have hold : ∀ level ∈ ar.sortedMappings, ∀ k ∈ level, k.archetypeIndex.toNat < (ar.archetypes ++ [a]).length := by
            intro level hl k hk
            have := h.keys level hl k hk
            omega
          rcases List.mem_or_eq_of_mem_set hlev with hlev | rfl
          · exact hold level hlev k hk
          · have hmem : s.1 ∈ ar.sortedMappings := List.mem_of_getElem? hs
            rcases List.mem_append.mp hk with hk | hk
            · exact hold _ hmem k (List.mem_of_mem_take hk)
            · rcases List.mem_cons.mp hk with rfl | hk
              · show (UInt16.ofNat ar.archetypes.length).toNat < _
                rw [UInt16.toNat_ofNat', hlen]
                omega
              · exact hold _ hmem k (List.mem_of_mem_drop hk)
        · intro b hb
          rcases List.mem_append.mp hb with hb | hb
          · exact h.vacant b hb
          · rw [List.mem_singleton] at hb
            rw [hb]
            exact ha

theorem Describes.add {d : ArchetypeDescriptor} (hd : Describes T d) {t : CompTy} (ht : T.Has t) :
    NoUB (fun o => ∀ d', o = some d' → Describes T d') (d.addComponent env t.descriptor) := by
  have hw := hd.wf
  by_cases h14 : d.len = 14
  · rw [ArchetypeDescriptor.addComponent_full h14]
    exact .ok (fun d' hd' => by cases hd')
  by_cases hp : t.descriptor.id ∈ d.ids
  · rw [ArchetypeDescriptor.addComponent_present hw hp]
    exact .ok (fun d' hd' => by cases hd')
  by_cases h13 : d.len = 13
  · rw [ArchetypeDescriptor.addComponent_thirteen hw h13 hp]
    exact .inr ⟨_, rfl⟩
  have hle := hd.le
  obtain ⟨d', i, h1, h2, h3, h4, h5, h6⟩ := ArchetypeDescriptor.addComponent_spec (env := env) hw (by omega) hp
  rw [h1]
  refine .ok (fun d'' hd'' => ?_)
  cases hd''
  refine ⟨h2.comps_len, h2.len_pos, h2.len_le, h2.sorted, fun c hc => ?_⟩
  rw [h5] at hc
  rcases List.mem_append.mp hc with hc | hc
  · exact hd.types c (List.mem_of_mem_take hc)
  · rcases List.mem_cons.mp hc with rfl | hc
    · exact ⟨t, ht, rfl⟩
    · exact hd.types c (List.mem_of_mem_drop hc)

theorem Describes.remove {d : ArchetypeDescriptor} (hd : Describes T d) (id : UInt16) :
    NoUB (fun o => ∀ d', o = some d' → Describes T d') (d.removeComponent env id) := by
  have hw := hd.wf
  by_cases h1 : d.len = 1
  · rw [ArchetypeDescriptor.removeComponent_one h1]
    exact .ok (fun d' hd' => by cases hd')
  by_cases hp : id ∈ d.ids
  rotate_left
  · rw [ArchetypeDescriptor.removeComponent_absent hw hp]
    exact .ok (fun d' hd' => by cases hd')
  by_cases h14 : d.len = 14
  · rw [ArchetypeDescriptor.removeComponent_fourteen hw h14 hp]
    exact .inr ⟨_, rfl⟩
  have hle := hd.le
  have hpos := hd.pos
  obtain ⟨i, hi, he⟩ := hw.mem_ids_iff.mp hp
  obtain ⟨d', h1, h2, h3, h4, h5⟩ := ArchetypeDescriptor.removeComponent_spec (env := env) hw (by omega) (by omega) hi he
  rw [h1]
  refine .ok (fun d'' hd'' => ?_)
  cases hd''
  refine ⟨h2.comps_len, h2.len_pos, h2.len_le, h2.sorted, fun c hc => ?_⟩
  rw [h4] at hc
  exact hd.types c (List.mem_of_mem_eraseIdx hc)

theorem SafeInv.adding_ok (h : SafeInv T ar) (src : UInt16) {t : CompTy} (ht : T.Has t) :
    NoUB (fun x => SafeInv T x.1) (ar.findOrCreateAdding env src t.descriptor) := by
  unfold ArchetypeRegistry.findOrCreateAdding
  split
  · exact .ok h
  · refine (NoUB.index _ _).bind fun a ha => ?_
    refine ((h.vacant a (List.mem_of_getElem? ha)).desc.add ht).bind fun nd hnd => ?_
    cases nd with
    | none => exact .ok h
    | some d =>
      refine (h.findOrCreate_ok (hnd d rfl)).bind fun f hf => ?_
      cases f.2 with
      | none => exact .ok hf
      | some dst =>
        simp only []
        split
        · exact .ok hf
        · exact .ok hf

theorem SafeInv.removing_ok (h : SafeInv T ar) (src : UInt16) (cd : ComponentDescriptor) :
    NoUB (fun x => SafeInv T x.1) (ar.findOrCreateRemoving env src cd) := by
  unfold ArchetypeRegistry.findOrCreateRemoving
  split
  · exact .ok h
  · refine (NoUB.index _ _).bind fun a ha => ?_
    refine ((h.vacant a (List.mem_of_getElem? ha)).desc.remove cd.id).bind fun nd hnd => ?_
    cases nd with
    | none => exact .ok h
    | some d =>
      refine (h.findOrCreate_ok (hnd d rfl)).bind fun f hf => ?_
      cases f.2 with
      | none => exact .ok hf
      | some dst =>
        simp only []
        split
        · exact .ok hf
        · exact .ok hf

theorem archIter_new_noUB (g : Group) : NoUB (fun _ => True) (ArchIter.new env g) := by
  unfold ArchIter.new subU8
  split
  · exact .ok trivial
  · split
    · exact .inr ⟨_, rfl⟩
    · exact .ok trivial

theorem group_sub {a : Archetype} (ha : Vacant T a) {g : Group} (hv : (g.descriptor env).isValid = true)
    (hc : a.descriptor.containsSubset (g.descriptor env).archetype = true) : ∀ c ∈ g, c.id ∈ a.descriptor.ids := by
  intro c hcg
  have gs := Group.spec hv
  exact (ha.desc.wf.containsSubset_iff gs.desc).mp hc c.id ((gs.mem_ids c.id).mpr ⟨c, hcg, rfl⟩)

/-- One honest call. -/
theorem SafeInv.run_ok (h : SafeInv T ar) {c : SafeCall} (hc : c.Honest T) :
    NoUB (fun x => SafeInv T x.1 ∧ ∀ l ∈ x.2, ∀ n ∈ l, n = 0) (c.run env ar) := by
  cases c with
  | find d => exact (SafeInv.find_ok d).bind fun _ _ => .ok ⟨h, fun l hl => by cases hl⟩
  | findOrCreate d => exact (h.findOrCreate_ok hc).bind fun x hx => .ok ⟨hx, fun l hl => by cases hl⟩
  | adding src cd =>
    obtain ⟨t, ht, rfl⟩ := hc
    exact (h.adding_ok src ht).bind fun x hx => .ok ⟨hx, fun l hl => by cases hl⟩
  | removing src cd => exact (h.removing_ok src cd).bind fun x hx => .ok ⟨hx, fun l hl => by cases hl⟩
  | entities i =>
    refine (NoUB.index _ _).bind fun a ha => ?_
    rw [(h.vacant a (List.mem_of_getElem? ha)).entities_ok]
    refine .ok ⟨h, fun l hl n hn => ?_⟩
    rw [List.mem_singleton.mp hl] at hn
    exact List.mem_singleton.mp hn
  | replace i d cap =>
    refine (vacant_new hc.1 hc.2).bind fun new hnew => ?_
    refine (NoUB.index _ _).bind fun old hold => ?_
    obtain ⟨a', ha'⟩ := (h.vacant old (List.mem_of_getElem? hold)).drop_ok
    rw [ha']
    refine .ok ⟨⟨h.levels, fun level hl k hk => ?_, fun b hb => ?_⟩, fun l hl => by cases hl⟩
    · show _ < (ar.archetypes.set _ _).length
      rw [List.length_set]
      exact h.keys level hl k hk
    · rcases List.mem_or_eq_of_mem_set hb with hb | rfl
      · exact h.vacant b hb
      · exact hnew
  | iter g filter n =>
    refine (archIter_new_noUB g).bind fun it _ => ?_
    obtain ⟨l, hl, hP⟩ := h.collect_ok (g := g) (filter := filter) (f := fun a => a.getFuzzySlicesUnchecked env g)
      (P := fun x => ∀ s ∈ x, s = [])
      (fun a ha hv hs => ⟨_, (ha.fuzzySlices_ok (Group.spec hv) hc (group_sub ha hv hs)).1, fun s hs => by
        obtain ⟨_, _, rfl⟩ := List.mem_map.mp hs
        rfl⟩) n it
    rw [hl]
    refine .ok ⟨h, fun m hm k hk => ?_⟩
    obtain ⟨x, hx, rfl⟩ := List.mem_map.mp hm
    obtain ⟨s, hs, rfl⟩ := List.mem_map.mp hk
    rw [hP x hx s hs]
    rfl
  | iterMut g filter n =>
    refine (archIter_new_noUB g).bind fun it _ => ?_
    obtain ⟨l, hl, hP⟩ := h.collect_ok (g := g) (filter := filter) (f := fun a => a.getFuzzySlicesUncheckedMut env g)
      (P := fun x => ∀ s ∈ x, s.len = 0)
      (fun a ha hv hs => ⟨_, (ha.fuzzySlices_ok (Group.spec hv) hc (group_sub ha hv hs)).2.1, fun s hs => by
        obtain ⟨_, _, rfl⟩ := List.mem_map.mp hs
        rfl⟩) n it
    rw [hl]
    refine .ok ⟨h, fun m hm k hk => ?_⟩
    obtain ⟨x, hx, rfl⟩ := List.mem_map.mp hm
    obtain ⟨s, hs, rfl⟩ := List.mem_map.mp hk
    exact hP x hx s hs
  | iterEntity g filter n =>
    refine (archIter_new_noUB g).bind fun it _ => ?_
    obtain ⟨l, hl, hP⟩ := h.collect_ok (g := g) (filter := filter) (f := fun a => a.getEntityFuzzySlicesUnchecked env g)
      (P := fun x => x.1 = [] ∧ ∀ s ∈ x.2, s = [])
      (fun a ha hv hs => ⟨_, (ha.fuzzySlices_ok (Group.spec hv) hc (group_sub ha hv hs)).2.2.1, rfl, fun s hs => by
        obtain ⟨_, _, rfl⟩ := List.mem_map.mp hs
        rfl⟩) n it
    rw [hl]
    refine .ok ⟨h, fun m hm k hk => ?_⟩
    obtain ⟨x, hx, rfl⟩ := List.mem_map.mp hm
    rcases List.mem_cons.mp hk with rfl | hk
    · rw [(hP x hx).1]
      rfl
    · obtain ⟨s, hs, rfl⟩ := List.mem_map.mp hk
      rw [(hP x hx).2 s hs]
      rfl
  | iterEntityMut g filter n =>
    refine (archIter_new_noUB g).bind fun it _ => ?_
    obtain ⟨l, hl, hP⟩ := h.collect_ok (g := g) (filter := filter) (f := fun a => a.getEntityFuzzySlicesUncheckedMut env g)
      (P := fun x => x.1 = [] ∧ ∀ s ∈ x.2, s.len = 0)
      (fun a ha hv hs => ⟨_, (ha.fuzzySlices_ok (Group.spec hv) hc (group_sub ha hv hs)).2.2.2, rfl, fun s hs => by
        obtain ⟨_, _, rfl⟩ := List.mem_map.mp hs
        rfl⟩) n it
    rw [hl]
    refine .ok ⟨h, fun m hm k hk => ?_⟩
    obtain ⟨x, hx, rfl⟩ := List.mem_map.mp hm
    rcases List.mem_cons.mp hk with rfl | hk
    · rw [(hP x hx).1]
      rfl
    · obtain ⟨s, hs, rfl⟩ := List.mem_map.mp hk
      exact (hP x hx).2 s hs

theorem SafeReach.inv (h : SafeReach env (SafeCall.Honest T) ar) : SafeInv T ar := by
  induction h with
  | start => exact SafeInv.default T
  | step _ hok hrun ih =>
    rcases ih.run_ok hok with ⟨x, hx, hP, _⟩ | ⟨p, hp⟩
    · rw [hx] at hrun
      cases hrun
      exact hP
    · rw [hp] at hrun
      cases hrun

theorem dropLoop_vacant : ∀ (n lo : Nat), (∀ a ∈ ar.archetypes, Vacant T a) → lo + n = ar.archetypes.length →
    ∀ acc : List Val × List Archetype, ∃ rest,
    forRange lo n (fun i acc => do
      let a ← index ar.archetypes i
      let x ← a.drop
      return (acc.1 ++ x.1, acc.2 ++ [x.2])) acc = .ok (acc.1, rest)
  | 0, lo, _, _, acc => ⟨acc.2, rfl⟩
  | n + 1, lo, hv, hn, acc => by
    have hlo : lo < ar.archetypes.length := by omega
    obtain ⟨a', ha'⟩ := (hv _ (List.getElem_mem hlo)).drop_ok
    unfold forRange
    simp only [index_lt hlo, ok_bind, ha', pure_eq_ok, List.append_nil]
    exact dropLoop_vacant n (lo + 1) hv (by omega) (acc.1, acc.2 ++ [a'])

/-! ## C69 -/

/-- **C69 (partial)** No safe use of an `ArchetypeRegistry` with honest descriptors (strictly sorted by component id,
describing types of the program; the archetype ids may be arbitrary, may collide and may have nothing to do with the
components) and replacements that have memory has undefined behaviour, and all slices such a registry hands out are empty;
dropping it runs no destructor. This includes panics in between and archetypes that do not belong to their place in the
sorted index. Missing from the full claim: other descriptors and archetypes without memory; `C69_violated`,
`C69_unsorted_violated` show that both are needed. -/
theorem C69_safe_registry_partial (h : SafeReach env (SafeCall.Honest T) ar) :
    (∀ c : SafeCall, c.Honest T → (∃ ar' out, c.run env ar = .ok (ar', out) ∧ ∀ l ∈ out, ∀ n ∈ l, n = 0) ∨
      ∃ p, c.run env ar = .error (.panic p)) ∧
    ∃ rest, ar.drop = .ok ([], rest) := by
  refine ⟨fun c hc => ?_, dropLoop_vacant ar.archetypes.length 0 h.inv.vacant (by omega) ([], [])⟩
  rcases h.inv.run_ok hc with ⟨x, hx, _, hP⟩ | hp
  · exact .inl ⟨x.1, x.2, hx, hP⟩
  · exact .inr hp

/-! ## Counterexamples and an example -/

/-- Run a list of calls: the registry and the lengths every call returned. -/
def runSafe (env : Env) : ArchetypeRegistry → List SafeCall → M (ArchetypeRegistry × List Lengths)
  | ar, [] => .ok (ar, [])
  | ar, c :: cs => do
    let x ← c.run env ar
    let y ← runSafe env x.1 cs
    return (y.1, x.2 :: y.2)

theorem SafeReach.of_run {ok : SafeCall → Prop} : ∀ {cs : List SafeCall} {ar ar' : ArchetypeRegistry} {outs : List Lengths},
    SafeReach env ok ar → (∀ c ∈ cs, ok c) → runSafe env ar cs = .ok (ar', outs) → SafeReach env ok ar'
  | [], ar, ar', outs, h, _, hr => by
    cases hr
    exact h
  | c :: cs, ar, ar', outs, h, hok, hr => by
    unfold runSafe at hr
    cases h1 : c.run env ar with
    | error f => rw [h1] at hr; cases hr
    | ok x =>
      rw [h1] at hr
      simp only [ok_bind] at hr
      cases h2 : runSafe env x.1 cs with
      | error f => rw [h2] at hr; cases hr
      | ok y =>
        rw [h2] at hr
        cases hr
        exact SafeReach.of_run (SafeReach.step h (hok c List.mem_cons_self) h1) (fun c hc => hok c (List.mem_cons_of_mem _ hc)) h2

/-- `let i = registry.find_or_create_archetype(&d).0; registry[i] = Archetype::with_capacity(&d, 0);` for the archetype of
`exA`. -/
def exReplaced : List SafeCall :=
  [.findOrCreate exA.descriptor.intoArchetype, .replace 0 exA.descriptor.intoArchetype 0]

/-- `registry.find_or_create_archetype(&ArchetypeDescriptor::new(id, 2, [B, A, ...]))`. -/
def exUnsorted : ArchetypeDescriptor :=
  ArchetypeDescriptor.new 7 2 ([exB.descriptor, exA.descriptor] ++ List.replicate 12 ComponentDescriptor.INVALID)

/-- The final iteration of both counterexamples has undefined behaviour. -/
theorem exReplaced_ub (env : Env) : (runSafe env ArchetypeRegistry.default
    (exReplaced ++ [.iter [exA] (fun _ => true) 1])).map (fun x => x.2) = .error (.ub .nullDeref) := by
  obtain ⟨d, b, z⟩ := env
  revert d b z
  decide +kernel

theorem exUnsorted_ub (env : Env) : (runSafe env ArchetypeRegistry.default
    [.findOrCreate exUnsorted, .iter [exA, exB] (fun _ => true) 1]).map (fun x => x.2) = .error (.ub .nullDeref) := by
  obtain ⟨d, b, z⟩ := env
  revert d b z
  decide +kernel

/-- If a run ends in a fault, some call faults in a registry the calls before it lead to. -/
theorem runSafe_ub {ok : SafeCall → Prop} {u : UBKind} : ∀ {cs : List SafeCall} {ar : ArchetypeRegistry},
    SafeReach env ok ar → (∀ c ∈ cs, ok c) → (runSafe env ar cs).map (fun x => x.2) = .error (.ub u) →
    ∃ ar', SafeReach env ok ar' ∧ ∃ c ∈ cs, c.run env ar' = .error (.ub u)
  | [], ar, _, _, hr => by cases hr
  | c :: cs, ar, h, hok, hr => by
    unfold runSafe at hr
    cases h1 : c.run env ar with
    | error f =>
      rw [h1] at hr
      cases hr
      exact ⟨ar, h, c, List.mem_cons_self, h1⟩
    | ok x =>
      rw [h1] at hr
      simp only [ok_bind] at hr
      cases h2 : runSafe env x.1 cs with
      | error f =>
        rw [h2] at hr
        cases hr
        obtain ⟨ar', hr', c', hc', he⟩ := runSafe_ub (u := u) (SafeReach.step h (hok c List.mem_cons_self) h1)
          (fun c hc => hok c (List.mem_cons_of_mem _ hc)) (by rw [h2]; rfl)
        exact ⟨ar', hr', c', List.mem_cons_of_mem _ hc', he⟩
      | ok y =>
        rw [h2] at hr
        cases hr

/-- **C69** is false: safe code can replace an archetype by one without memory; iterating then forms slices from null
pointers. -/
theorem C69_violated : ¬ C69_statement := by
  intro h
  obtain ⟨ar, hr, c, hc, he⟩ := runSafe_ub (ok := SafeCall.Uses exWorld.types) SafeReach.start (by
    intro c hc
    simp only [exReplaced, List.cons_append, List.nil_append, List.mem_cons, List.not_mem_nil, or_false] at hc
    rcases hc with rfl | rfl | rfl
    · exact ⟨by decide, by decide⟩
    · exact ⟨by decide, by decide⟩
    · show ∀ c ∈ [exA], c ∈ [exA, exB, exC]
      decide) (exReplaced_ub exEnv)
  refine h exEnv exWorld.types ar hr c ?_ _ he
  simp only [exReplaced, List.cons_append, List.nil_append, List.mem_cons, List.not_mem_nil, or_false] at hc
  rcases hc with rfl | rfl | rfl
  · exact ⟨by decide, by decide⟩
  · exact ⟨by decide, by decide⟩
  · show ∀ c ∈ [exA], c ∈ [exA, exB, exC]
    decide

/-- **C69** is also false if no archetype is replaced: `ArchetypeDescriptor::new` accepts components in any order; the
matching iteration finds both types in the descriptor but the pairwise walk over its columns misses one. -/
theorem C69_unsorted_violated : ∃ (ar : ArchetypeRegistry) (c : SafeCall),
    SafeReach exEnv (SafeCall.Uses exWorld.types) ar ∧ c.Uses exWorld.types ∧ c.run exEnv ar = .error (.ub .nullDeref) := by
  have hu : ∀ c ∈ [SafeCall.findOrCreate exUnsorted, .iter [exA, exB] (fun _ => true) 1], c.Uses exWorld.types := by
    intro c hc
    simp only [List.mem_cons, List.not_mem_nil, or_false] at hc
    rcases hc with rfl | rfl
    · exact ⟨by decide, by decide⟩
    · show ∀ c ∈ [exA, exB], c ∈ [exA, exB, exC]
      decide
  obtain ⟨ar, hr, c, hc, he⟩ := runSafe_ub SafeReach.start hu (exUnsorted_ub exEnv)
  exact ⟨ar, c, hr, hu c hc, he⟩

/-- The descriptor of the set `{A, B}` with an archetype id of the caller's choice. -/
def exForged : ArchetypeDescriptor :=
  ArchetypeDescriptor.new 7 2 ([exA.descriptor, exB.descriptor] ++ List.replicate 12 ComponentDescriptor.INVALID)

theorem exForged_describes : Describes exWorld.types exForged := by
  refine ⟨by decide, by decide, by decide, by decide, fun c hc => ?_⟩
  have : c = exA.descriptor ∨ c = exB.descriptor := by
    have h : ∀ c ∈ exForged.components, c = exA.descriptor ∨ c = exB.descriptor := by decide
    exact h c hc
  rcases this with rfl | rfl
  · exact ⟨exA, by show exA ∈ [exA, exB, exC]; decide, rfl⟩
  · exact ⟨exB, by show exB ∈ [exA, exB, exC]; decide, rfl⟩

theorem exSingle_describes : Describes exWorld.types exA.descriptor.intoArchetype := by
  refine ⟨by decide, by decide, by decide, by decide, fun c hc => ?_⟩
  have h : ∀ c ∈ exA.descriptor.intoArchetype.components, c = exA.descriptor := by decide
  rw [h c hc]
  exact ⟨exA, by show exA ∈ [exA, exB, exC]; decide, rfl⟩

/-- Honest calls: a forged archetype id, a replacement that does not belong to its place in the index (the archetype found
for the length 1 has two components), additions and removals from there, and iterations. -/
def exSafeCalls : List SafeCall :=
  [.findOrCreate exA.descriptor.intoArchetype, .findOrCreate exForged, .replace 0 exForged 3,
   .adding 0 exC.descriptor, .removing 0 exA.descriptor, .find exForged, .entities 0,
   .iter [exA] (fun _ => true) 9, .iterEntityMut [exB, exA] (fun d => d.len == 2) 9]

theorem exSafeCalls_honest : ∀ c ∈ exSafeCalls, c.Honest exWorld.types := by
  intro c hc
  simp only [exSafeCalls, List.mem_cons, List.not_mem_nil, or_false] at hc
  rcases hc with rfl | rfl | rfl | rfl | rfl | rfl | rfl | rfl | rfl
  · exact exSingle_describes
  · exact exForged_describes
  · exact ⟨exForged_describes, by decide⟩
  · exact ⟨exC, by show exC ∈ [exA, exB, exC]; decide, rfl⟩
  · trivial
  · exact exForged_describes
  · trivial
  · show ∀ c ∈ [exA], c ∈ [exA, exB, exC]
    decide
  · show ∀ c ∈ [exB, exA], c ∈ [exA, exB, exC]
    decide

/-- The calls succeed: the first iteration visits the three archetypes with `A`, the second one the archetype of `A` and `B`
that is at its place in the index, and all slices are empty. -/
theorem exSafeCalls_outs : (runSafe exEnv ArchetypeRegistry.default exSafeCalls).map (fun x => x.2) =
    .ok [[], [], [], [], [], [], [[0]], [[0], [0], [0]], [[0, 0, 0]]] := by
  decide +kernel

/-- The hypotheses of `C69_safe_registry_partial` hold for the registry of that run. -/
example : ∃ ar, SafeReach exEnv (SafeCall.Honest exWorld.types) ar ∧
    (runSafe exEnv ArchetypeRegistry.default exSafeCalls).map (fun x => x.1.archetypes.length) = .ok ar.archetypes.length ∧
    ∃ rest, ar.drop = .ok ([], rest) := by
  have h := exSafeCalls_outs
  cases hr : runSafe exEnv ArchetypeRegistry.default exSafeCalls with
  | error f => rw [hr] at h; cases h
  | ok x =>
    have hx := SafeReach.of_run (ok := SafeCall.Honest exWorld.types) SafeReach.start exSafeCalls_honest hr
    exact ⟨x.1, hx, rfl, (C69_safe_registry_partial hx).2⟩

end Shard
