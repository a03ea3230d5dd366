import Verif.Spec.Table
import Verif.Proofs.EntityRegistry
import Verif.Proofs.RegistryRead
/-!
# The entity table simulates the reference table

Unlike `EntInv`, the relation allows dead slots outside of the free list: safe code can make an entry invalid through
`entity_entry_mut`.
-/

set_option autoImplicit false

namespace Shard

/-- The real table `r` represents the reference table `t`. -/
structure TableRel (env : Env) (r : EntityRegistry) (t : Table) : Prop where
  len_le : r.entities.length ≤ MAX_ENTITY_HANDLE_VALUE
  slots : t.slots = r.entities.map (fun en => (en.version, en.place env))
  chain : FreeChain r.entities r.nextFreeSlot t.stack
  nodup : t.stack.Nodup
  dead : ∀ i ∈ t.stack, ∀ en, r.entities[i]? = some en → en.place env = none

theorem EntityEntry.place_none {env : Env} {en : EntityEntry} : en.place env = none ↔ en.isValid env = false := by
  have := EntityEntry.isValid_iff env en
  unfold EntityEntry.place
  split
  · next h => rw [h] at this; simp at this; simp [this]
  · next h => simp [h] at this; simp [this]

theorem EntityEntry.place_some {env : Env} {en : EntityEntry} (h : en.isValid env = true) :
    en.place env = some (en.indexInArchetype.value, en.archetypeIndex env) := by
  have := (EntityEntry.isValid_iff env en).mp h
  unfold EntityEntry.place
  rw [if_neg this]

theorem EntityEntry.place_of_isSome {env : Env} {en : EntityEntry} {p : Place} (h : en.place env = some p) :
    en.isValid env = true := by
  cases hv : en.isValid env with
  | true => rfl
  | false => rw [EntityEntry.place_none.mpr hv] at h; cases h

namespace TableRel

variable {env : Env} {r : EntityRegistry} {t : Table}

theorem length (h : TableRel env r t) : t.slots.length = r.entities.length := by rw [h.slots, List.length_map]

theorem slot (h : TableRel env r t) (i : Nat) :
    t.slots[i]? = (r.entities[i]?).map (fun en => (en.version, en.place env)) := by
  rw [h.slots, List.getElem?_map]

theorem empty (env : Env) : TableRel env EntityRegistry.default Table.empty :=
  ⟨by decide, rfl, rfl, List.nodup_nil, fun _ h => by cases h⟩

/-- A live handle of the reference table is a live handle of the real one. -/
theorem look_some (h : TableRel env r t) {e : Entity} {p : Place} :
    t.look e.pair = some p ↔ ∃ en, r.entityEntry env e = some en ∧ en.place env = some p := by
  unfold Table.look Entity.pair
  simp only [h.slot]
  constructor
  · intro hl
    cases hx : r.entities[e.index.toNat]? with
    | none => rw [hx] at hl; cases hl
    | some en =>
      rw [hx] at hl
      simp only [Option.map_some] at hl
      split at hl
      · next hv =>
        exact ⟨en, (EntityRegistry.entityEntry_iff h.len_le e en).mpr ⟨hx, hv, EntityEntry.place_of_isSome hl⟩, hl⟩
      · cases hl
  · rintro ⟨en, h1, h2⟩
    obtain ⟨h3, h4, h5⟩ := (EntityRegistry.entityEntry_iff h.len_le e en).mp h1
    rw [h3]
    simp only [Option.map_some, h4, if_true, h2]

theorem look_eq (h : TableRel env r t) (e : Entity) :
    (r.entityEntry env e).bind (fun en => en.place env) = t.look e.pair := by
  cases hx : r.entityEntry env e with
  | none =>
    cases hy : t.look e.pair with
    | none => rfl
    | some p =>
      obtain ⟨en, h1, _⟩ := h.look_some.mp hy
      rw [hx] at h1; cases h1
  | some en =>
    obtain ⟨_, _, h5⟩ := (EntityRegistry.entityEntry_iff h.len_le e en).mp hx
    exact (EntityEntry.place_some h5).trans (h.look_some.mpr ⟨en, hx, EntityEntry.place_some h5⟩).symm

theorem look_none (h : TableRel env r t) {e : Entity} : t.look e.pair = none ↔ r.entityEntry env e = none := by
  rw [← h.look_eq]
  cases hx : r.entityEntry env e with
  | none => simp
  | some en =>
    obtain ⟨_, _, h5⟩ := (EntityRegistry.entityEntry_iff h.len_le e en).mp hx
    simp [EntityEntry.place_some h5]

/-- Writing into a slot that is not on the stack keeps the relation. -/
theorem set (h : TableRel env r t) {i : Nat} {en : EntityEntry} (hi : i ∉ t.stack) :
    TableRel env { r with entities := r.entities.set i en } ⟨t.slots.set i (en.version, en.place env), t.stack⟩ := by
  refine ⟨by simp only [List.length_set]; exact h.len_le, ?_, ?_, h.nodup, ?_⟩
  · simp only [h.slots, List.map_set]
  · refine h.chain.congr ?_
    intro j hj
    exact List.getElem?_set_ne (by rintro rfl; exact hi hj)
  · intro j hj en' he
    have : i ≠ j := by rintro rfl; exact hi hj
    rw [List.getElem?_set_ne this] at he
    exact h.dead j hj en' he

theorem live_not_mem (h : TableRel env r t) {e : Entity} {en : EntityEntry} (he : r.entityEntry env e = some en) :
    e.index.toNat ∉ t.stack := by
  intro hm
  obtain ⟨h3, _, h5⟩ := (EntityRegistry.entityEntry_iff h.len_le e en).mp he
  have := h.dead _ hm en h3
  rw [EntityEntry.place_some h5] at this
  cases this

theorem create (h : TableRel env r t) {i : IndexInArchetype} {a : ArchetypeIndex} (hi : i.value.toNat < 2 ^ 24)
    (ha : a.value ≠ 65535) : ∃ x, r.createEntity env i a = .ok x ∧
      TableRel env x.1 (t.create (i.value, a.value)).1 ∧ x.2.map Entity.pair = (t.create (i.value, a.value)).2 := by
  have hM : MAX_ENTITY_HANDLE_VALUE = 16777215 := rfl
  have hC : EntityRegistry.MAX_ENTITY_COUNT = 16777215 := rfl
  have hle := h.len_le
  have hlen := h.length
  unfold EntityRegistry.createEntity Table.create
  by_cases hfull : r.entities.length ≥ 16777215
  · rw [if_pos (show r.entities.length ≥ EntityRegistry.MAX_ENTITY_COUNT by omega),
      if_neg (show ¬ t.slots.length < 2 ^ 24 - 1 by omega)]
    exact ⟨_, rfl, h, rfl⟩
  · rw [if_neg (show ¬ r.entities.length ≥ EntityRegistry.MAX_ENTITY_COUNT by omega),
      if_pos (show t.slots.length < 2 ^ 24 - 1 by omega)]
    have hvalid : ∀ en : EntityEntry, ((en.setArchetypeIndex env a.value).setIndexInArchetype i).place env
        = some (i.value, a.value) := by
      intro en
      rw [EntityEntry.place_some (by
        rw [EntityEntry.isValid_setIndexInArchetype, EntityEntry.isValid_set]; exact ha),
        EntityEntry.indexInArchetype_set _ _ hi, EntityEntry.archetypeIndex_setIndexInArchetype,
        EntityEntry.archetypeIndex_set]
    obtain ⟨slots, stack⟩ := t
    have hch := h.chain
    cases stack with
    | nil =>
      have hnf : r.nextFreeSlot = IndexInArchetype.INVALID_VALUE := hch
      rw [if_pos hnf]
      refine ⟨_, rfl, ⟨?_, ?_, hch, List.nodup_nil, fun _ hm => by cases hm⟩, ?_⟩
      · simp; omega
      · simp only [List.map_append, List.map_cons, List.map_nil, hvalid]
        rw [← h.slots]
        rfl
      · have hn : (UInt32.ofNat r.entities.length).toNat = r.entities.length := by
          rw [UInt32.toNat_ofNat']; exact Nat.mod_eq_of_lt (by omega)
        simp only [Option.map_some, Entity.pair, Entity.version_newUnchecked]
        rw [Entity.index_newUnchecked _ _ (by omega), hn, ← hlen]
    | cons j rest =>
      have hjm := hch.mem_lt j List.mem_cons_self
      obtain ⟨hj, en, hen, hchain⟩ := hch
      have hnf : r.nextFreeSlot ≠ IndexInArchetype.INVALID_VALUE := by
        intro hc
        rw [hc] at hj
        have : IndexInArchetype.INVALID_VALUE.toNat = 16777215 := rfl
        omega
      rw [if_neg hnf]
      simp only [hj, hen]
      have hnd := List.nodup_cons.mp h.nodup
      have hslot : slots[j]? = some (en.version, en.place env) := by
        have := h.slot j
        rw [hen] at this
        exact this
      refine ⟨_, rfl, ⟨?_, ?_, ?_, hnd.2, ?_⟩, ?_⟩
      · simp only [List.length_set]; exact hle
      · simp only [List.map_set, hslot, hvalid]
        rw [← h.slots]
        rfl
      · refine hchain.congr ?_
        intro k hk
        exact List.getElem?_set_ne (by rintro rfl; exact hnd.1 hk)
      · intro k hk en' he
        have : j ≠ k := by rintro rfl; exact hnd.1 hk
        rw [List.getElem?_set_ne this] at he
        exact h.dead k (List.mem_cons_of_mem _ hk) en' he
      · simp only [Option.map_some, Entity.pair, Entity.version_newUnchecked, hslot]
        rw [Entity.index_newUnchecked _ _ (by omega), hj]

theorem destroy (h : TableRel env r t) (e : Entity) :
    TableRel env (r.destroyEntity env e).1 (t.destroy e.pair).1 ∧ (r.destroyEntity env e).2 = (t.destroy e.pair).2 := by
  have hM : MAX_ENTITY_HANDLE_VALUE = 16777215 := rfl
  have hle := h.len_le
  unfold Table.destroy
  cases hl : t.look e.pair with
  | none =>
    rw [EntityRegistry.destroyEntity_dead (h.look_none.mp hl)]
    exact ⟨h, rfl⟩
  | some p =>
    obtain ⟨en, he, _⟩ := h.look_some.mp hl
    have hnot := h.live_not_mem he
    obtain ⟨h1, h2, h3⟩ := (EntityRegistry.entityEntry_iff hle e en).mp he
    have hlt := (List.getElem?_eq_some_iff.mp h1).1
    have hne : ¬ (e.index.toNat ≥ r.entities.length ∨ e = Entity.INVALID) := by
      rintro (hc | hc)
      · omega
      · rw [hc, Entity.INVALID_index] at hlt
        omega
    unfold EntityRegistry.destroyEntity
    rw [if_neg hne, h1]
    simp only
    rw [if_neg (by simp [h2, h3])]
    simp only [and_true]
    have hp : ((en.invalidate env r.nextFreeSlot).setVersion ((en.invalidate env r.nextFreeSlot).version + 1)).place env
        = none := by
      rw [EntityEntry.place_none, EntityEntry.isValid_setVersion, EntityEntry.isValid_invalidate]
    refine ⟨?_, ?_, ?_, ?_, ?_⟩
    · simp only [List.length_set]; exact hle
    · simp only [List.map_set, hp, ← h.slots]
      rw [EntityEntry.version_setVersion, EntityEntry.version_invalidate, h2]
      rfl
    · refine ⟨rfl, _, List.getElem?_set_self hlt, ?_⟩
      rw [EntityEntry.indexInArchetype_setVersion, EntityEntry.indexInArchetype_invalidate _ _ _ (h.chain.head_lt hle)]
      refine h.chain.congr ?_
      intro i hi
      exact List.getElem?_set_ne (by rintro rfl; exact hnot hi)
    · exact List.nodup_cons.mpr ⟨hnot, h.nodup⟩
    · intro i hi en' hen'
      by_cases hij : e.index.toNat = i
      · subst hij
        rw [List.getElem?_set_self hlt] at hen'
        cases hen'
        exact hp
      · rw [List.getElem?_set_ne hij] at hen'
        rcases List.mem_cons.mp hi with hi | hi
        · exact absurd hi.symm hij
        · exact h.dead i hi en' hen'

theorem write (h : TableRel env r t) (e : Entity) (en : EntityEntry) :
    match r.updateEntry env e (fun _ => en) with
    | some r' => TableRel env r' (t.write e.pair en.version (en.place env)).1 ∧
        (t.write e.pair en.version (en.place env)).2 = true
    | none => t.write e.pair en.version (en.place env) = (t, false) := by
  unfold EntityRegistry.updateEntry Table.write
  cases hx : r.entityEntry env e with
  | none => simp [h.look_none.mpr hx]
  | some en' =>
    obtain ⟨_, _, h5⟩ := (EntityRegistry.entityEntry_iff h.len_le e en').mp hx
    rw [h.look_some.mpr ⟨en', hx, EntityEntry.place_some h5⟩]
    exact ⟨h.set (h.live_not_mem hx), rfl⟩

theorem handles_aux {env : Env} : ∀ (l : List EntityEntry) (i : Nat), i + l.length ≤ 16777215 →
    ((l.zipIdx i).filterMap (fun p => if p.1.isValid env then
      some (Entity.newUnchecked (UInt32.ofNat p.2) p.1.version) else none)).map Entity.pair =
      Table.handlesFrom (l.map (fun en => (en.version, en.place env))) i
  | [], _, _ => rfl
  | en :: l, i, hi => by
    have ih := handles_aux (env := env) l (i + 1) (by simp at hi; omega)
    simp only [List.zipIdx_cons, List.map_cons]
    rw [List.filterMap_cons]
    cases hv : en.isValid env with
    | false =>
      rw [EntityEntry.place_none.mpr hv]
      simp only [Table.handlesFrom]
      exact ih
    | true =>
      rw [EntityEntry.place_some hv]
      have hn : (UInt32.ofNat i).toNat = i := by
        rw [UInt32.toNat_ofNat']; exact Nat.mod_eq_of_lt (by simp at hi; omega)
      simp only [if_true, List.map_cons, Table.handlesFrom, ih, Entity.pair, Entity.version_newUnchecked]
      rw [Entity.index_newUnchecked _ _ (by simp at hi; omega), hn]

theorem iter (h : TableRel env r t) : (r.iter env).map Entity.pair = Table.handlesFrom t.slots 0 := by
  have hM : MAX_ENTITY_HANDLE_VALUE = 16777215 := rfl
  have hle := h.len_le
  rw [iter_eq, h.slots]
  exact handles_aux r.entities 0 (by omega)

/-- One call: the same answer, and related tables again. -/
theorem step (h : TableRel env r t) {c : TableCall} (hc : c.Safe) : ∃ r', c.run env r = .ok (r', (c.ref env t).2) ∧
    TableRel env r' (c.ref env t).1 := by
  cases c with
  | create i a =>
    obtain ⟨h1, h2⟩ := hc
    obtain ⟨x, hx, hr, ho⟩ := h.create h1 (a := a) (by intro h; rw [h] at h2; exact h2 rfl)
    refine ⟨x.1, ?_, hr⟩
    simp only [TableCall.run, TableCall.ref, hx, ok_bind, pure_eq_ok, ho]
  | destroy e =>
    obtain ⟨hr, ho⟩ := h.destroy e
    exact ⟨_, by simp only [TableCall.run, TableCall.ref, ho], hr⟩
  | write e en =>
    have := h.write e en
    simp only [TableCall.run, TableCall.ref]
    split at this
    · next r' hx => exact ⟨r', by rw [this.2, hx], this.1⟩
    · next hx => exact ⟨r, by rw [this, hx], by rw [this]; exact h⟩
  | entry e => exact ⟨r, by simp only [TableCall.run, TableCall.ref, h.look_eq], h⟩
  | iter => exact ⟨r, by simp only [TableCall.run, TableCall.ref, h.iter], h⟩
  | canRegister =>
    refine ⟨r, ?_, h⟩
    simp only [TableCall.run, TableCall.ref, EntityRegistry.canRegisterNewEntity, h.length]
    rfl

/-- Any sequence of calls. -/
theorem run : ∀ {calls : List TableCall} {r : EntityRegistry} {t : Table}, TableRel env r t → (∀ c ∈ calls, c.Safe) →
    ∃ r', runTable env r calls = .ok (r', (refTable env t calls).2) ∧ TableRel env r' (refTable env t calls).1
  | [], r, _, h, _ => ⟨r, rfl, h⟩
  | c :: rest, r, t, h, hs => by
    obtain ⟨r1, h1, h2⟩ := h.step (hs c List.mem_cons_self)
    obtain ⟨r2, h3, h4⟩ := run h2 (fun c hc => hs c (List.mem_cons_of_mem _ hc))
    refine ⟨r2, ?_, h4⟩
    simp only [runTable, h1, ok_bind, h3, pure_eq_ok, refTable]

end TableRel

end Shard
