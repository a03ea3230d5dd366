import Verif.Proofs.Table
/-!
# C63: the entity table on its own

`EntityRegistry` is public, so these theorems are about every sequence of calls safe code can make on one, not only about
those a `Registry` makes.
-/

set_option autoImplicit false

namespace Shard

/-- Where a handle leads in a real table. -/
def EntityRegistry.at (env : Env) (r : EntityRegistry) (e : Entity) : Option Place :=
  (r.entityEntry env e).map (fun en => (en.indexInArchetype.value, en.archetypeIndex env))

theorem TableRel.at_eq {env : Env} {r : EntityRegistry} {t : Table} (h : TableRel env r t) (e : Entity) :
    r.at env e = t.look e.pair := by
  rw [← h.look_eq]
  unfold EntityRegistry.at
  cases hx : r.entityEntry env e with
  | none => rfl
  | some en =>
    obtain ⟨_, _, h5⟩ := (EntityRegistry.entityEntry_iff h.len_le e en).mp hx
    exact (EntityEntry.place_some h5).symm

theorem Entity.pair_inj {a b : Entity} (h : a.pair = b.pair) : a = b := by
  simp only [Entity.pair, Prod.mk.injEq] at h
  exact Entity.ext_iff.mpr ⟨UInt32.toNat_inj.mp h.1, h.2⟩

theorem Table.look_set {t : Table} {i : Nat} {v : UInt8} {c : Option Place} {st : List Nat} (hi : i < t.slots.length)
    (h : Handle) : Table.look ⟨t.slots.set i (v, c), st⟩ h =
      if h.1 = i then (if v = h.2 then c else none) else t.look h := by
  unfold Table.look
  by_cases hx : h.1 = i
  · rw [if_pos hx]
    simp only [hx, List.getElem?_set_self hi]
  · rw [if_neg hx]
    simp only [List.getElem?_set_ne (Ne.symm hx)]

theorem Table.look_lt {t : Table} {h : Handle} {p : Place} (hl : t.look h = some p) : h.1 < t.slots.length := by
  unfold Table.look at hl
  cases hx : t.slots[h.1]? with
  | none => rw [hx] at hl; cases hl
  | some s => exact (List.getElem?_eq_some_iff.mp hx).1

theorem Table.look_version {t : Table} {i : Nat} {v w : UInt8} {p : Place} (hl : t.look (i, v) = some p) (h : w ≠ v) :
    t.look (i, w) = none := by
  unfold Table.look at hl ⊢
  cases hx : t.slots[i]? with
  | none => rfl
  | some s =>
    rw [hx] at hl
    simp only at hl ⊢
    split at hl
    · next h1 =>
      rw [if_neg]
      intro h2; exact h (by rw [← h1, ← h2])
    · cases hl

/-- **C63** (behaviour) Whatever sequence of calls safe code makes on an `EntityRegistry`, none of them panics, and every
answer is the one the reference table gives: handles, flags, entries and iteration order. -/
theorem C63_table_refines (env : Env) (calls : List TableCall) (hs : ∀ c ∈ calls, c.Safe) :
    ∃ r, runTable env EntityRegistry.default calls = .ok (r, (refTable env Table.empty calls).2) := by
  obtain ⟨r, h, _⟩ := (TableRel.empty env).run hs
  exact ⟨r, h⟩

/-- **C63** (partial map) In every table safe code can reach: `create_entity` fails exactly when `2^24 - 1` slots are in
use, and otherwise returns a handle that led nowhere and now leads to the given place; `destroy_entity` is true exactly
for the handles that lead somewhere and then removes that one; an overwritten entry replaces what its slot held; no other
handle is affected by any of them; and iteration lists exactly the handles that lead somewhere, each once. -/
theorem C63_partial_map (env : Env) (calls : List TableCall) (hs : ∀ c ∈ calls, c.Safe) (r : EntityRegistry)
    (outs : List TableAns) (hr : runTable env EntityRegistry.default calls = .ok (r, outs)) :
    (∀ (i : IndexInArchetype) (a : ArchetypeIndex), i.value.toNat < 2 ^ 24 → a.value.toNat ≠ 65535 →
      (r.canRegisterNewEntity = false ∧ r.createEntity env i a = .ok (r, none)) ∨
      (r.canRegisterNewEntity = true ∧ ∃ r' e, r.createEntity env i a = .ok (r', some e) ∧ r.at env e = none ∧
        r'.at env e = some (i.value, a.value) ∧ ∀ e', e' ≠ e → r'.at env e' = r.at env e')) ∧
    (∀ e : Entity, r.at env e = none → r.destroyEntity env e = (r, false) ∧ ∀ f, r.updateEntry env e f = none) ∧
    (∀ e : Entity, r.at env e ≠ none → (r.destroyEntity env e).2 = true ∧ (r.destroyEntity env e).1.at env e = none ∧
      ∀ e', e' ≠ e → (r.destroyEntity env e).1.at env e' = r.at env e') ∧
    (∀ (e : Entity) (en : EntityEntry), r.at env e ≠ none → ∃ r', r.updateEntry env e (fun _ => en) = some r' ∧
      (∀ e', e'.index = e.index → e'.version = en.version → r'.at env e' = en.place env) ∧
      (∀ e', e'.index = e.index → e'.version ≠ en.version → r'.at env e' = none) ∧
      (∀ e', e'.index ≠ e.index → r'.at env e' = r.at env e')) ∧
    (∀ e : Entity, e ∈ r.iter env ↔ r.at env e ≠ none) ∧ (r.iter env).Nodup := by
  obtain ⟨r0, h0, hrel⟩ := (TableRel.empty env).run hs
  rw [hr] at h0
  cases h0
  generalize (refTable env Table.empty calls).1 = t at hrel
  have hM : MAX_ENTITY_HANDLE_VALUE = 16777215 := rfl
  have hC : EntityRegistry.MAX_ENTITY_COUNT = 16777215 := rfl
  have hlen := hrel.length
  refine ⟨?_, ?_, ?_, ?_, ?_, ?_⟩
  · intro i a hi ha
    have ha' : a.value ≠ 65535 := by intro h; rw [h] at ha; exact ha rfl
    obtain ⟨⟨r', o⟩, hx, hrel', ho⟩ := hrel.create hi ha'
    by_cases hfull : r.entities.length < 16777215
    · right
      refine ⟨by simp only [EntityRegistry.canRegisterNewEntity]; exact decide_eq_true (by omega), ?_⟩
      have hdead : ∀ j rest, t.stack = j :: rest → ∃ v, t.slots[j]? = some (v, none) := by
        intro j rest hst
        have hm : j ∈ t.stack := by rw [hst]; exact List.mem_cons_self
        have hlt := hrel.chain.mem_lt j hm
        obtain ⟨en, hen⟩ : ∃ en, r.entities[j]? = some en := ⟨_, List.getElem?_eq_getElem hlt⟩
        refine ⟨en.version, ?_⟩
        rw [hrel.slot, hen, Option.map_some, hrel.dead j hm en hen]
      unfold Table.create at ho hrel'
      rw [if_pos (show t.slots.length < 2 ^ 24 - 1 by omega)] at ho hrel'
      cases o with
      | none =>
        exfalso
        revert ho
        split <;> simp
      | some e =>
        refine ⟨r', e, hx, ?_⟩
        simp only [hrel.at_eq, hrel'.at_eq]
        split at ho
        · next hst =>
          simp only [Option.map_some, Option.some.injEq] at ho
          rw [hst] at hrel'
          simp only
          rw [ho]
          refine ⟨?_, ?_, ?_⟩
          · unfold Table.look
            simp
          · unfold Table.look
            simp
          · intro e' hne
            have hne' : e'.pair ≠ e.pair := fun h => hne (Entity.pair_inj h)
            rw [ho] at hne'
            unfold Table.look
            by_cases hlt : e'.pair.1 < t.slots.length
            · simp only [List.getElem?_append_left hlt]
            · rw [List.getElem?_eq_none (l := t.slots) (by omega)]
              by_cases heq : e'.pair.1 = t.slots.length
              · have hv : ¬ (0 : UInt8) = e'.pair.2 := by
                  intro h; exact hne' (Prod.ext heq h.symm)
                simp only [heq, List.getElem?_concat_length, if_neg hv]
              · rw [List.getElem?_eq_none (by simp; omega)]
        · next j rest hst =>
          obtain ⟨v, hv⟩ := hdead j rest hst
          have hjl := (List.getElem?_eq_some_iff.mp hv).1
          simp only [hv, Option.map_some, Option.some.injEq] at ho
          simp only [hv]
          rw [ho]
          refine ⟨?_, ?_, ?_⟩
          · unfold Table.look; simp only [hv]; simp
          · rw [Table.look_set hjl]; simp
          · intro e' hne
            rw [Table.look_set hjl]
            split
            · next hj =>
              have hne' : ¬ v = e'.pair.2 := by
                intro h
                exact hne (Entity.pair_inj (by rw [ho]; exact Prod.ext hj h.symm))
              rw [if_neg hne']
              unfold Table.look
              simp only [hj, hv]
              rw [if_neg hne']
            · rfl
    · left
      refine ⟨by simp only [EntityRegistry.canRegisterNewEntity]; exact decide_eq_false (by omega), ?_⟩
      exact EntityRegistry.createEntity_full (by omega)
  · intro e he
    have he' : r.entityEntry env e = none := by
      rw [hrel.at_eq] at he; exact hrel.look_none.mp he
    refine ⟨EntityRegistry.destroyEntity_dead he', fun f => ?_⟩
    unfold EntityRegistry.updateEntry
    rw [he']
  · intro e he
    obtain ⟨hrel', hf⟩ := hrel.destroy e
    rw [hf]
    simp only [hrel'.at_eq, hrel.at_eq]
    rw [hrel.at_eq] at he
    unfold Table.destroy
    cases hl : t.look e.pair with
    | none => exact absurd hl he
    | some p =>
      have hlt := Table.look_lt hl
      refine ⟨rfl, ?_, ?_⟩
      · simp only [Table.look_set hlt]; simp
      · intro e' hne
        simp only [Table.look_set hlt]
        split
        · next hi =>
          have hv : e'.pair.2 ≠ e.pair.2 := fun h => hne (Entity.pair_inj (Prod.ext hi h))
          have := Table.look_version (t := t) (i := e.pair.1) (v := e.pair.2) (w := e'.pair.2) hl hv
          rw [← hi] at this
          rw [show e'.pair = (e'.pair.1, e'.pair.2) from rfl, this]
          simp
        · rfl
  · intro e en he
    rw [hrel.at_eq] at he
    have hw := hrel.write e en
    cases hl : t.look e.pair with
    | none => exact absurd hl he
    | some p =>
      have hlt := Table.look_lt hl
      unfold Table.write at hw
      rw [hl] at hw
      cases hx : r.updateEntry env e (fun _ => en) with
      | none => rw [hx] at hw; simp at hw
      | some r' =>
        rw [hx] at hw
        refine ⟨r', rfl, ?_, ?_, ?_⟩
        · intro e' h1 h2
          rw [hw.1.at_eq]
          simp only [Table.look_set hlt]
          rw [if_pos (by simp only [Entity.pair, h1]), if_pos (by simp only [Entity.pair, h2])]
        · intro e' h1 h2
          rw [hw.1.at_eq]
          simp only [Table.look_set hlt]
          rw [if_pos (by simp only [Entity.pair, h1]), if_neg (by simp only [Entity.pair]; exact fun h => h2 h.symm)]
        · intro e' h1
          rw [hw.1.at_eq, hrel.at_eq]
          simp only [Table.look_set hlt]
          rw [if_neg (by simp only [Entity.pair]; exact fun h => h1 (UInt32.toNat_inj.mp h))]
  · intro e
    rw [mem_iter_of_len hrel.len_le]
    unfold EntityRegistry.at
    cases r.entityEntry env e <;> simp
  · rw [iter_eq]
    exact (liveFrom_nodup hrel.len_le _ 0 (Nat.le_add_left _ _)).1

/-- Two handles are made, the first is destroyed and made again, the entry of the second is overwritten with version 9
and then made invalid, which loses its slot: the next handle is a new one. -/
def exTableCalls : List TableCall :=
  [.create ⟨5⟩ ⟨1⟩, .create ⟨6⟩ ⟨2⟩, .destroy (Entity.newUnchecked 0 0), .destroy (Entity.newUnchecked 0 0),
   .create ⟨7⟩ ⟨3⟩, .iter, .write (Entity.newUnchecked 1 0) ⟨9, 0, 0, 8, 4, 4⟩, .iter,
   .entry (Entity.newUnchecked 1 0), .write (Entity.newUnchecked 1 9) ⟨9, 0, 0, 0, 255, 255⟩, .iter,
   .destroy (Entity.newUnchecked 1 9), .create ⟨8⟩ ⟨4⟩, .canRegister, .iter]

/-- The calls are safe, and the answers are as described. -/
example (env : Env) : (∀ c ∈ exTableCalls, c.Safe) ∧ (refTable env Table.empty exTableCalls).2 =
    [.handle (some (0, 0)), .handle (some (1, 0)), .flag true, .flag false,
     .handle (some (0, 1)), .handles [(0, 1), (1, 0)], .flag true, .handles [(0, 1), (1, 9)],
     .place none, .flag true, .handles [(0, 1)],
     .flag false, .handle (some (2, 0)), .flag true, .handles [(0, 1), (2, 0)]] := by
  refine ⟨?_, ?_⟩
  · intro c hc
    simp only [exTableCalls, List.mem_cons, List.not_mem_nil, or_false] at hc
    rcases hc with rfl | rfl | rfl | rfl | rfl | rfl | rfl | rfl | rfl | rfl | rfl | rfl | rfl | rfl | rfl <;>
      first | exact trivial | exact ⟨by decide, by decide⟩
  · obtain ⟨d, b, z⟩ := env
    revert d b z
    decide +kernel

end Shard
