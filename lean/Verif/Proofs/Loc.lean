import Verif.Proofs.EntityRegistry
/-!
# Where an entity is stored: the table of entries as a partial map from handles to (archetype, row)
-/

namespace Shard

/-- Archetype and row of a live entity. -/
def EntityRegistry.loc (env : Env) (r : EntityRegistry) (e : Entity) : Option (Nat × Nat) :=
  (r.entityEntry env e).map (fun en => ((en.archetypeIndex env).toNat, en.indexInArchetype.value.toNat))

namespace EntityRegistry

variable {env : Env} {r r' : EntityRegistry}

theorem loc_eq_none {e : Entity} : r.loc env e = none ↔ r.entityEntry env e = none := by
  unfold loc; simp

theorem loc_of_entry {e : Entity} {en : EntityEntry} (h : r.entityEntry env e = some en) :
    r.loc env e = some ((en.archetypeIndex env).toNat, en.indexInArchetype.value.toNat) := by
  unfold loc; rw [h]; rfl

theorem entry_of_loc {e : Entity} {p : Nat × Nat} (h : r.loc env e = some p) :
    ∃ en, r.entityEntry env e = some en ∧ (en.archetypeIndex env).toNat = p.1 ∧ en.indexInArchetype.value.toNat = p.2 := by
  unfold loc at h
  obtain ⟨en, h1, h2⟩ := Option.map_eq_some_iff.mp h
  exact ⟨en, h1, by rw [← h2], by rw [← h2]⟩

/-- Entries of equal slots are looked up alike. -/
theorem entityEntry_congr (h : r.entities.length ≤ MAX_ENTITY_HANDLE_VALUE) (h' : r'.entities.length ≤ MAX_ENTITY_HANDLE_VALUE)
    {e : Entity} (hs : r'.entities[e.index.toNat]? = r.entities[e.index.toNat]?) :
    r'.entityEntry env e = r.entityEntry env e := by
  apply Option.ext
  intro en
  rw [entityEntry_iff h, entityEntry_iff h', hs]

theorem entityEntry_none_of_version (h : r.entities.length ≤ MAX_ENTITY_HANDLE_VALUE) {e : Entity} {en : EntityEntry}
    (hs : r.entities[e.index.toNat]? = some en) (hv : en.version ≠ e.version) : r.entityEntry env e = none := by
  cases hx : r.entityEntry env e with
  | none => rfl
  | some en' =>
    obtain ⟨h1, h2, _⟩ := (entityEntry_iff h e en').mp hx
    rw [hs] at h1; cases h1
    exact absurd h2 hv

theorem entityEntry_none_of_dead (h : r.entities.length ≤ MAX_ENTITY_HANDLE_VALUE) {e : Entity} {en : EntityEntry}
    (hs : r.entities[e.index.toNat]? = some en) (hv : en.isValid env = false) : r.entityEntry env e = none := by
  cases hx : r.entityEntry env e with
  | none => rfl
  | some en' =>
    obtain ⟨h1, _, h2⟩ := (entityEntry_iff h e en').mp hx
    rw [hs] at h1; cases h1
    rw [hv] at h2; cases h2

theorem entityEntry_none_of_slot (h : r.entities.length ≤ MAX_ENTITY_HANDLE_VALUE) {e : Entity}
    (hs : r.entities[e.index.toNat]? = none) : r.entityEntry env e = none := by
  cases hx : r.entityEntry env e with
  | none => rfl
  | some en' =>
    obtain ⟨h1, _, h2⟩ := (entityEntry_iff h e en').mp hx
    rw [hs] at h1; cases h1

theorem ne_of_index {x e : Entity} (hi : x.index.toNat = e.index.toNat) (hne : x ≠ e) : x.version ≠ e.version := by
  intro hv
  exact hne (Entity.ext_iff.mpr ⟨UInt32.toNat_inj.mp hi, hv⟩)

theorem Created.entry {e : Entity} {iia : IndexInArchetype} {ai : ArchetypeIndex} (hinv : EntInv env r)
    (h : Created env r r' e iia ai) :
    r.entityEntry env e = none ∧ r'.loc env e = some (ai.value.toNat, iia.value.toNat) ∧
      ∀ x, x ≠ e → r'.entityEntry env x = r.entityEntry env x := by
  have hl := hinv.len_le
  have hl' := h.inv.len_le
  refine ⟨?_, ?_, ?_⟩
  · rcases h.old with ⟨h1, _⟩ | ⟨en, h1, h2, _⟩
    · exact entityEntry_none_of_slot hl h1
    · exact entityEntry_none_of_dead hl h1 h2
  · obtain ⟨en, h1, h2, h3, h4, h5⟩ := h.new
    rw [loc_of_entry ((entityEntry_iff hl' e en).mpr ⟨h1, h2, h3⟩), h4, h5]
  · intro x hx
    by_cases hi : x.index.toNat = e.index.toNat
    · have hv := ne_of_index hi hx
      obtain ⟨en, h1, h2, _⟩ := h.new
      rw [entityEntry_none_of_version hl' (by rw [hi]; exact h1) (by rw [h2]; exact Ne.symm hv)]
      rcases h.old with ⟨h1, _⟩ | ⟨en, h1, h2, _⟩
      · rw [entityEntry_none_of_slot hl (by rw [hi]; exact h1)]
      · rw [entityEntry_none_of_dead hl (by rw [hi]; exact h1) h2]
    · exact entityEntry_congr hl hl' (h.frame _ hi)

theorem Destroyed.entry {e : Entity} {en : EntityEntry} (hinv : EntInv env r) (he : r.entityEntry env e = some en)
    (h : Destroyed env r r' e) :
    r'.entityEntry env e = none ∧ ∀ x, x ≠ e → r'.entityEntry env x = r.entityEntry env x := by
  have hl := hinv.len_le
  have hl' := h.inv.len_le
  obtain ⟨en', h1, h2, h3⟩ := h.new
  refine ⟨entityEntry_none_of_dead hl' h1 h3, ?_⟩
  intro x hx
  by_cases hi : x.index.toNat = e.index.toNat
  · have hv := ne_of_index hi hx
    obtain ⟨q1, q2, q3⟩ := (entityEntry_iff hl e en).mp he
    rw [entityEntry_none_of_dead hl' (by rw [hi]; exact h1) h3]
    rw [entityEntry_none_of_version hl (by rw [hi]; exact q1) (by rw [q2]; exact Ne.symm hv)]
  · exact entityEntry_congr hl hl' (h.frame _ hi)

/-- `entity_entry_mut` and an update that keeps the version. -/
theorem updateEntry_entry {e : Entity} {en : EntityEntry} {f : EntityEntry → EntityEntry} (hinv : EntInv env r)
    (h : r.entityEntry env e = some en) (hf : (f en).isValid env = true) (hver : (f en).version = en.version) :
    ∃ r', r.updateEntry env e f = some r' ∧ EntInv env r' ∧ r'.entityEntry env e = some (f en) ∧
      (∀ x, x ≠ e → r'.entityEntry env x = r.entityEntry env x) ∧
      (∀ i, i ≠ e.index.toNat → r'.entities[i]? = r.entities[i]?) ∧ r'.entities[e.index.toNat]? = some (f en) ∧
      r'.entities.length = r.entities.length ∧ r'.nextFreeSlot = r.nextFreeSlot := by
  obtain ⟨r', h1, h2, h3, h4, h5, h6⟩ := updateEntry_live hinv h hf
  have hl := hinv.len_le
  have hl' := h2.len_le
  obtain ⟨q1, q2, q3⟩ := (entityEntry_iff hl e en).mp h
  refine ⟨r', h1, h2, (entityEntry_iff hl' e _).mpr ⟨h3, by rw [hver, q2], hf⟩, ?_, h4, h3, h5, h6⟩
  intro x hx
  by_cases hi : x.index.toNat = e.index.toNat
  · have hv := ne_of_index hi hx
    rw [entityEntry_none_of_version hl' (by rw [hi]; exact h3) (by rw [hver, q2]; exact Ne.symm hv)]
    rw [entityEntry_none_of_version hl (by rw [hi]; exact q1) (by rw [q2]; exact Ne.symm hv)]
  · exact entityEntry_congr hl hl' (h4 _ hi)

end EntityRegistry

end Shard
