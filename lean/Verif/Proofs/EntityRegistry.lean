import Verif.Spec.Slots
import Verif.Proofs.Entity
import Verif.Proofs.Basic
/-!
# The entity registry: invariant and complete specifications of its operations
-/

namespace Shard

/-- Invariant of the entity registry. -/
structure EntInv (env : Env) (r : EntityRegistry) : Prop where
  len_le : r.entities.length ≤ MAX_ENTITY_HANDLE_VALUE
  free : ∃ fl, FreeList env r fl

theorem FreeChain.mem_lt {ents : List EntityEntry} : ∀ {h : UInt32} {fl : List Nat}, FreeChain ents h fl →
    ∀ i ∈ fl, i < ents.length
  | _, [], _, _, hi => by cases hi
  | _, j :: rest, hc, i, hi => by
    obtain ⟨_, en, he, hr⟩ := hc
    rcases List.mem_cons.mp hi with rfl | hi
    · exact (List.getElem?_eq_some_iff.mp he).1
    · exact FreeChain.mem_lt hr i hi

theorem FreeChain.congr {ents ents' : List EntityEntry} : ∀ {h : UInt32} {fl : List Nat}, FreeChain ents h fl →
    (∀ i ∈ fl, ents'[i]? = ents[i]?) → FreeChain ents' h fl
  | _, [], hc, _ => hc
  | _, j :: rest, hc, hi => by
    obtain ⟨h1, en, he, hr⟩ := hc
    refine ⟨h1, en, ?_, hr.congr (fun i h => hi i (List.mem_cons_of_mem _ h))⟩
    rw [hi j List.mem_cons_self, he]

theorem FreeChain.head_lt {ents : List EntityEntry} {h : UInt32} {fl : List Nat} (hc : FreeChain ents h fl)
    (hl : ents.length ≤ MAX_ENTITY_HANDLE_VALUE) : h.toNat < 2 ^ 24 := by
  cases fl with
  | nil =>
    have hc : h = IndexInArchetype.INVALID_VALUE := hc
    rw [hc]; decide
  | cons i rest =>
    have := hc.mem_lt i List.mem_cons_self
    obtain ⟨h1, _⟩ := hc
    simp [MAX_ENTITY_HANDLE_VALUE] at hl
    omega

theorem FreeChain.unique {ents : List EntityEntry} (hl : ents.length ≤ MAX_ENTITY_HANDLE_VALUE) : ∀ {h : UInt32} {fl fl' : List Nat},
    FreeChain ents h fl → FreeChain ents h fl' → fl = fl'
  | _, [], [], _, _ => rfl
  | h, [], j :: rest, h1, h2 => by
    have := h2.mem_lt j List.mem_cons_self
    have h1 : h = IndexInArchetype.INVALID_VALUE := h1
    obtain ⟨h2, _⟩ := h2
    rw [h1] at h2
    have h3 : IndexInArchetype.INVALID_VALUE.toNat = 16777215 := rfl
    have h4 : MAX_ENTITY_HANDLE_VALUE = 16777215 := rfl
    omega
  | h, j :: rest, [], h2, h1 => by
    have := h2.mem_lt j List.mem_cons_self
    have h1 : h = IndexInArchetype.INVALID_VALUE := h1
    obtain ⟨h2, _⟩ := h2
    rw [h1] at h2
    have h3 : IndexInArchetype.INVALID_VALUE.toNat = 16777215 := rfl
    have h4 : MAX_ENTITY_HANDLE_VALUE = 16777215 := rfl
    omega
  | h, j :: rest, j' :: rest', h1, h2 => by
    obtain ⟨e1, en, q1, r1⟩ := h1
    obtain ⟨e2, en', q2, r2⟩ := h2
    have : j = j' := by omega
    subst this
    rw [q1] at q2; cases q2
    rw [FreeChain.unique hl r1 r2]

theorem EntInv.default (env : Env) : EntInv env EntityRegistry.default := by
  refine ⟨by decide, [], rfl, List.nodup_nil, ?_⟩
  intro i en h
  simp [EntityRegistry.default] at h

namespace EntityRegistry

theorem entityEntry_iff {env : Env} {r : EntityRegistry} (h : r.entities.length ≤ MAX_ENTITY_HANDLE_VALUE) (e : Entity)
    (en : EntityEntry) : r.entityEntry env e = some en ↔
      r.entities[e.index.toNat]? = some en ∧ en.version = e.version ∧ en.isValid env = true := by
  unfold entityEntry
  by_cases hc : e.index.toNat ≥ r.entities.length ∨ e = Entity.INVALID
  · simp only [hc, if_true]
    constructor
    · intro h; cases h
    · rintro ⟨h1, _, _⟩
      have hl := (List.getElem?_eq_some_iff.mp h1).1
      rcases hc with hc | hc
      · omega
      · rw [hc, Entity.INVALID_index] at hl
        simp [MAX_ENTITY_HANDLE_VALUE] at h
        omega
  · simp only [hc, if_false]
    cases hx : r.entities[e.index.toNat]? with
    | none => simp
    | some en' =>
      simp only
      by_cases hv : en'.version ≠ e.version ∨ ¬en'.isValid env = true
      · rw [if_pos hv]
        constructor
        · intro h; cases h
        · rintro ⟨h1, h2, h3⟩
          cases h1
          rcases hv with hv | hv <;> contradiction
      · rw [if_neg hv]
        constructor
        · intro h
          cases h
          refine ⟨rfl, ?_, ?_⟩
          · exact Classical.byContradiction (fun h => hv (Or.inl h))
          · exact Classical.byContradiction (fun h => hv (Or.inr h))
        · rintro ⟨h1, _, _⟩; exact h1

theorem entityEntry_newUnchecked {env : Env} {r : EntityRegistry} (h : r.entities.length ≤ MAX_ENTITY_HANDLE_VALUE)
    {i : Nat} {en : EntityEntry} (he : r.entities[i]? = some en) (hv : en.isValid env = true) :
    r.entityEntry env (Entity.newUnchecked (UInt32.ofNat i) en.version) = some en := by
  have hi := (List.getElem?_eq_some_iff.mp he).1
  simp [MAX_ENTITY_HANDLE_VALUE] at h
  have hn : (UInt32.ofNat i).toNat = i := by
    rw [UInt32.toNat_ofNat']; exact Nat.mod_eq_of_lt (by omega)
  rw [entityEntry_iff h, Entity.index_newUnchecked _ _ (by omega), Entity.version_newUnchecked, hn]
  exact ⟨he, rfl, hv⟩

/-- What a successful `create_entity` does to the table of entries. -/
structure Created (env : Env) (r r' : EntityRegistry) (e : Entity) (iia : IndexInArchetype) (ai : ArchetypeIndex) : Prop where
  inv : EntInv env r'
  /-- the slot was new or dead -/
  old : r.entities[e.index.toNat]? = none ∧ e.version = 0 ∧ e.index.toNat = r.entities.length ∨
    ∃ en, r.entities[e.index.toNat]? = some en ∧ en.isValid env = false ∧ en.version = e.version
  new : ∃ en, r'.entities[e.index.toNat]? = some en ∧ en.version = e.version ∧ en.isValid env = true ∧
    en.indexInArchetype = iia ∧ en.archetypeIndex env = ai.value
  frame : ∀ i, i ≠ e.index.toNat → r'.entities[i]? = r.entities[i]?
  /-- slots are recycled last in, first out -/
  lifo : r.nextFreeSlot ≠ IndexInArchetype.INVALID_VALUE → e.index = r.nextFreeSlot
  fresh : r.nextFreeSlot = IndexInArchetype.INVALID_VALUE → e.index.toNat = r.entities.length
  /-- the free list loses its head -/
  pop : ∀ fl, FreeList env r fl → FreeList env r' fl.tail
  length : r'.entities.length = max r.entities.length (e.index.toNat + 1)

theorem createEntity_full {env : Env} {r : EntityRegistry} {iia : IndexInArchetype} {ai : ArchetypeIndex}
    (h : r.entities.length ≥ MAX_ENTITY_HANDLE_VALUE) : r.createEntity env iia ai = .ok (r, none) := by
  unfold createEntity
  exact if_pos h

theorem createEntity_ok {env : Env} {r : EntityRegistry} {iia : IndexInArchetype} {ai : ArchetypeIndex}
    (hinv : EntInv env r) (h : r.entities.length < MAX_ENTITY_HANDLE_VALUE) (hi : iia.value.toNat < 2 ^ 24)
    (ha : ai.value ≠ 65535) :
    ∃ r' e, r.createEntity env iia ai = .ok (r', some e) ∧ Created env r r' e iia ai := by
  unfold createEntity
  rw [if_neg (show ¬ r.entities.length ≥ MAX_ENTITY_COUNT by simp only [MAX_ENTITY_COUNT]; omega)]
  have hl : r.entities.length < 16777215 := h
  obtain ⟨fl, hfl, hnd, hmem⟩ := hinv.free
  split
  · next hnf =>
    have hfl0 : fl = [] := by
      cases fl with
      | nil => rfl
      | cons j rest =>
        have h1 := hfl.mem_lt j List.mem_cons_self
        obtain ⟨h2, _⟩ := hfl
        rw [hnf] at h2
        have : IndexInArchetype.INVALID_VALUE.toNat = 16777215 := rfl
        omega
    subst hfl0
    have hn : (UInt32.ofNat r.entities.length).toNat = r.entities.length := by
      rw [UInt32.toNat_ofNat']; exact Nat.mod_eq_of_lt (by omega)
    refine ⟨_, _, rfl, ?_⟩
    have hidx : (Entity.newUnchecked (UInt32.ofNat r.entities.length) 0).index.toNat = r.entities.length := by
      rw [Entity.index_newUnchecked _ _ (by omega), hn]
    have hvalid : ((EntityEntry.default.setArchetypeIndex env ai.value).setIndexInArchetype iia).isValid env = true := by
      rw [EntityEntry.isValid_setIndexInArchetype, EntityEntry.isValid_set]; exact ha
    have hpop : FreeList env ⟨r.entities ++ [(EntityEntry.default.setArchetypeIndex env ai.value).setIndexInArchetype iia],
        r.nextFreeSlot⟩ [] := by
      refine ⟨hfl, hnd, ?_⟩
      intro i en hen
      rw [List.getElem?_append] at hen
      split at hen
      · exact hmem i en hen
      · next hge =>
        have : i - r.entities.length = 0 := by
          have := (List.getElem?_eq_some_iff.mp hen).1; simp at this; omega
        rw [this] at hen
        simp only [List.getElem?_cons_zero, Option.some.injEq] at hen
        subst hen
        rw [hvalid]; simp
    refine ⟨⟨?_, [], hpop⟩, ?_, ?_, ?_, ?_, ?_, ?_, ?_⟩
    · simp [MAX_ENTITY_HANDLE_VALUE]; omega
    · left
      rw [hidx, Entity.version_newUnchecked]
      refine ⟨?_, rfl, rfl⟩
      simp
    · rw [hidx, Entity.version_newUnchecked]
      refine ⟨_, by simp only [List.getElem?_concat_length], ?_, hvalid, ?_, ?_⟩
      · rfl
      · exact EntityEntry.indexInArchetype_set _ _ hi
      · rw [EntityEntry.archetypeIndex_setIndexInArchetype, EntityEntry.archetypeIndex_set]
    · intro i hne
      rw [hidx] at hne
      simp only [List.getElem?_append]
      split
      · rfl
      · next hge =>
        rw [List.getElem?_eq_none (by simp; omega), List.getElem?_eq_none (by omega)]
    · intro hc; contradiction
    · intro _; exact hidx
    · intro fl' hfl'
      rw [hfl'.1.unique hinv.len_le hfl]
      exact hpop
    · rw [hidx]; simp
  · next hnf =>
    cases fl with
    | nil => exact absurd hfl hnf
    | cons j rest =>
      obtain ⟨hj, en, hen, hchain⟩ := hfl
      have hjl := (List.getElem?_eq_some_iff.mp hen).1
      simp only [hj, hen]
      refine ⟨_, _, rfl, ?_⟩
      have hidx : (Entity.newUnchecked r.nextFreeSlot en.version).index = r.nextFreeSlot :=
        Entity.index_newUnchecked _ _ (by omega)
      have hidxn : (Entity.newUnchecked r.nextFreeSlot en.version).index.toNat = j := by rw [hidx, hj]
      have hvalid : ((en.setArchetypeIndex env ai.value).setIndexInArchetype iia).isValid env = true := by
        rw [EntityEntry.isValid_setIndexInArchetype, EntityEntry.isValid_set]; exact ha
      have hinvalid : en.isValid env = false := (hmem j en hen).mpr List.mem_cons_self
      have hnd' := List.nodup_cons.mp hnd
      have hpop : FreeList env ⟨r.entities.set j ((en.setArchetypeIndex env ai.value).setIndexInArchetype iia),
          en.indexInArchetype.value⟩ rest := by
        refine ⟨?_, hnd'.2, ?_⟩
        · refine hchain.congr ?_
          intro i hi
          have : j ≠ i := by rintro rfl; exact hnd'.1 hi
          simp only [List.getElem?_set_ne this]
        · intro i en' hen'
          simp only at hen'
          by_cases hij : j = i
          · subst hij
            rw [List.getElem?_set_self hjl] at hen'
            cases hen'
            rw [hvalid]
            constructor
            · intro h; cases h
            · intro h; exact absurd h hnd'.1
          · rw [List.getElem?_set_ne hij] at hen'
            rw [hmem i en' hen', List.mem_cons]
            constructor
            · rintro (rfl | h)
              · exact absurd rfl hij
              · exact h
            · exact Or.inr
      refine ⟨⟨?_, rest, hpop⟩, ?_, ?_, ?_, ?_, ?_, ?_, ?_⟩
      · simp only [List.length_set]; exact hinv.len_le
      · right
        rw [hidxn, Entity.version_newUnchecked]
        exact ⟨en, hen, hinvalid, rfl⟩
      · rw [hidxn, Entity.version_newUnchecked]
        refine ⟨_, List.getElem?_set_self hjl, ?_, hvalid, ?_, ?_⟩
        · rfl
        · exact EntityEntry.indexInArchetype_set _ _ hi
        · rw [EntityEntry.archetypeIndex_setIndexInArchetype, EntityEntry.archetypeIndex_set]
      · intro i hne
        rw [hidxn] at hne
        exact List.getElem?_set_ne (Ne.symm hne)
      · intro _; exact hidx
      · intro hc; contradiction
      · intro fl' hfl'
        rw [hfl'.1.unique hinv.len_le (show FreeChain r.entities r.nextFreeSlot (j :: rest) from ⟨hj, en, hen, hchain⟩)]
        exact hpop
      · rw [hidxn]; simp only [List.length_set]; omega

/-- What a successful `destroy_entity` does to the table of entries. -/
structure Destroyed (env : Env) (r r' : EntityRegistry) (e : Entity) : Prop where
  inv : EntInv env r'
  new : ∃ en, r'.entities[e.index.toNat]? = some en ∧ en.version = e.version + 1 ∧ en.isValid env = false
  frame : ∀ i, i ≠ e.index.toNat → r'.entities[i]? = r.entities[i]?
  head : r'.nextFreeSlot = e.index
  length : r'.entities.length = r.entities.length
  /-- the vacated slot becomes the head of the free list -/
  push : ∀ fl, FreeList env r fl → FreeList env r' (e.index.toNat :: fl)

theorem destroyEntity_dead {env : Env} {r : EntityRegistry} {e : Entity} (h : r.entityEntry env e = none) :
    r.destroyEntity env e = (r, false) := by
  unfold entityEntry at h
  unfold destroyEntity
  split
  · rfl
  · next hc =>
    rw [if_neg hc] at h
    cases hx : r.entities[e.index.toNat]? with
    | none => rfl
    | some en =>
      rw [hx] at h
      simp only at h ⊢
      split
      · rfl
      · next hc' => rw [if_neg hc'] at h; cases h

theorem destroyEntity_live {env : Env} {r : EntityRegistry} {e : Entity} {en : EntityEntry} (hinv : EntInv env r)
    (h : r.entityEntry env e = some en) :
    ∃ r', r.destroyEntity env e = (r', true) ∧ Destroyed env r r' e := by
  have hle := hinv.len_le
  obtain ⟨h1, h2, h3⟩ := (entityEntry_iff hle e en).mp h
  have hlt := (List.getElem?_eq_some_iff.mp h1).1
  have hne : ¬ (e.index.toNat ≥ r.entities.length ∨ e = Entity.INVALID) := by
    rintro (hc | hc)
    · omega
    · rw [hc, Entity.INVALID_index] at hlt
      simp [MAX_ENTITY_HANDLE_VALUE] at hle
      omega
  unfold destroyEntity
  rw [if_neg hne, h1]
  simp only
  rw [if_neg (by simp [h2, h3])]
  refine ⟨_, rfl, ?_⟩
  obtain ⟨fl, hfl, hnd, hmem⟩ := hinv.free
  have hnot : e.index.toNat ∉ fl := by
    intro hm
    have := (hmem _ _ h1).mpr hm
    rw [h3] at this; cases this
  have hinvd : ((en.invalidate env r.nextFreeSlot).setVersion ((en.invalidate env r.nextFreeSlot).version + 1)).isValid env
      = false := by
    rw [EntityEntry.isValid_setVersion, EntityEntry.isValid_invalidate]
  have hpush : FreeList env ⟨r.entities.set e.index.toNat ((en.invalidate env r.nextFreeSlot).setVersion
      ((en.invalidate env r.nextFreeSlot).version + 1)), e.index⟩ (e.index.toNat :: fl) := by
    refine ⟨?_, List.nodup_cons.mpr ⟨hnot, hnd⟩, ?_⟩
    · refine ⟨rfl, _, List.getElem?_set_self hlt, ?_⟩
      rw [EntityEntry.indexInArchetype_setVersion, EntityEntry.indexInArchetype_invalidate _ _ _ (hfl.head_lt hle)]
      refine hfl.congr ?_
      intro i hi
      exact List.getElem?_set_ne (by rintro rfl; exact hnot hi)
    · intro i en' hen'
      simp only at hen'
      by_cases hij : e.index.toNat = i
      · subst hij
        rw [List.getElem?_set_self hlt] at hen'
        cases hen'
        simp [hinvd]
      · rw [List.getElem?_set_ne hij] at hen'
        rw [hmem i en' hen', List.mem_cons]
        constructor
        · exact Or.inr
        · rintro (h | h)
          · exact absurd h.symm hij
          · exact h
  refine ⟨⟨?_, e.index.toNat :: fl, hpush⟩, ?_, ?_, rfl, ?_, ?_⟩
  · simp only [List.length_set]; exact hle
  · refine ⟨_, List.getElem?_set_self hlt, ?_, hinvd⟩
    rw [EntityEntry.version_setVersion, EntityEntry.version_invalidate, h2]
  · intro i hi
    exact List.getElem?_set_ne (Ne.symm hi)
  · simp only [List.length_set]
  · intro fl' hfl'
    rw [hfl'.1.unique hle hfl]
    exact hpush

/-- What a successful `entity_entry_mut` update does. -/
theorem updateEntry_live {env : Env} {r : EntityRegistry} {e : Entity} {en : EntityEntry} {f : EntityEntry → EntityEntry}
    (hinv : EntInv env r) (h : r.entityEntry env e = some en) (hf : (f en).isValid env = true) :
    ∃ r', r.updateEntry env e f = some r' ∧ EntInv env r' ∧ r'.entities[e.index.toNat]? = some (f en) ∧
      (∀ i, i ≠ e.index.toNat → r'.entities[i]? = r.entities[i]?) ∧ r'.entities.length = r.entities.length ∧
      r'.nextFreeSlot = r.nextFreeSlot := by
  have hle := hinv.len_le
  obtain ⟨h1, h2, h3⟩ := (entityEntry_iff hle e en).mp h
  have hlt := (List.getElem?_eq_some_iff.mp h1).1
  unfold updateEntry
  rw [h]
  refine ⟨_, rfl, ⟨?_, ?_⟩, List.getElem?_set_self hlt, ?_, by simp, rfl⟩
  · simp only [List.length_set]; exact hle
  · obtain ⟨fl, hfl, hnd, hmem⟩ := hinv.free
    have hnot : e.index.toNat ∉ fl := by
      intro hm
      have := (hmem _ _ h1).mpr hm
      rw [h3] at this; cases this
    refine ⟨fl, ?_, hnd, ?_⟩
    · refine hfl.congr ?_
      intro i hi
      exact List.getElem?_set_ne (by rintro rfl; exact hnot hi)
    · intro i en' hen'
      simp only at hen'
      by_cases hij : e.index.toNat = i
      · subst hij
        rw [List.getElem?_set_self hlt] at hen'
        cases hen'
        rw [hf]
        constructor
        · intro h; cases h
        · intro h; exact absurd h hnot
      · rw [List.getElem?_set_ne hij] at hen'
        exact hmem i en' hen'
  · intro i hi
    exact List.getElem?_set_ne (Ne.symm hi)

end EntityRegistry

end Shard
