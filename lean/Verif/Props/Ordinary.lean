import Verif.Proofs.Counts
import Verif.Props.Capacity
/-!
# C75: programs that stay far from the limits never notice them
-/

set_option autoImplicit false

namespace Shard

variable {env : Env} {W : World env} {r : Registry}

/-- **C75** (archetypes) A registry has at most one archetype per call that can make one, and at most two archetypes per
component set of the program, whatever the history. -/
theorem C75_archetype_count {hist : List (Call × Outcome)} (hs : Steps env (Call.Admissible W) Registry.default hist r) :
    r.archetypes.archetypes.length ≤ (hist.filter (fun x => x.1.reshapes)).length ∧
    ∀ L : List (List UInt16), (∀ s, W.Used s → s ∈ L) → r.archetypes.archetypes.length ≤ 2 * L.length := by
  obtain ⟨cs, h⟩ := hs.inv (fun _ _ h => h) (RInv.empty W)
  exact ⟨hs.count, fun L hL => h.arch.few hL⟩

/-- **C75** Take any history with fewer than 65,534 calls that can make an archetype (or any history of a program with
fewer than 32,767 different component sets), in which fewer than 8,388,608 entities are live at the same time. Then
`create_entity` succeeds for every valid group; `add_component` and `remove_component` succeed exactly as the component
sets demand (up to the reserved archetype id); and no call faults, except for the panics at 13 and 14 components. -/
theorem C75_ordinary_programs {hist : List (Call × Outcome)}
    (hs : Steps env (Call.Admissible W) Registry.default hist r)
    (hb : ArchetypeBudget W hist) (hp : (liveCount hist).2 < STORAGE_LIMIT) :
    (∀ g vals, (Call.create g vals).Admissible W r → (g.descriptor env).isValid = true →
      ∃ r' e, r.createEntity env g vals = .ok (r', .ok e)) ∧
    (∀ e c v t, (Call.add e c v).Admissible W r → Live env r e → r.hasComponent env c e = .ok false →
      AscSet t (WithId W r e c) →
      (t.length ≤ 13 → plainId env t ≠ ARCHETYPE_ID_INVALID → ∃ r', r.addComponent env e c v = .ok (r', .ok ())) ∧
      (t.length ≤ 13 → plainId env t = ARCHETYPE_ID_INVALID → r.addComponent env e c v = .ok (r, .err v)) ∧
      (t.length = 14 → r.addComponent env e c v = .error (.panic .indexOutOfBounds)) ∧
      (15 ≤ t.length → r.addComponent env e c v = .ok (r, .err v))) ∧
    (∀ e c t, (Call.remove e c).Admissible W r → r.hasComponent env c e = .ok true →
      AscSet t (WithoutId W r e c) →
      (t.length = 0 → r.removeComponent env e c = .ok (r, .err ())) ∧
      (1 ≤ t.length → t.length ≤ 12 → plainId env t ≠ ARCHETYPE_ID_INVALID →
        ∃ r' v, r.removeComponent env e c = .ok (r', .ok v)) ∧
      (1 ≤ t.length → t.length ≤ 12 → plainId env t = ARCHETYPE_ID_INVALID → r.removeComponent env e c = .ok (r, .err ())) ∧
      (13 ≤ t.length → r.removeComponent env e c = .error (.panic .indexOutOfBounds))) ∧
    (∀ call : Call, call.Disciplined W r →
      (∃ r' out, call.run env r = .ok (r', out)) ∨
      (call.run env r = .error (.panic .indexOutOfBounds) ∧ ∃ s,
        (∃ e c v, call = .add e c v ∧ AscSet s (HasId W r e) ∧ s.length = 13) ∨
        (∃ e c, call = .remove e c ∧ AscSet s (HasId W r e) ∧ s.length = 14))) := by
  have hr : Reachable W r := ⟨_, hs⟩
  obtain ⟨cs, h⟩ := hr.inv
  have hcount : r.archetypes.archetypes.length < 65534 := by
    rcases hb with hb | ⟨L, hL, hb⟩
    · exact Nat.lt_of_le_of_lt hs.count hb
    · have := h.arch.few hL
      omega
  have h7 := C07_slot_recycling (r' := r) hs
  have hlen : r.entities.entities.length < STORAGE_LIMIT := by rw [h7.2.2.2.1]; exact hp
  have hS : STORAGE_LIMIT = 8388608 := rfl
  have hM : MAX_ENTITY_HANDLE_VALUE = 16777215 := rfl
  have hlive : (r.iterEntities env).length < STORAGE_LIMIT := by
    have := count_free h7.1
    have h3 : (r.iterEntities env).length = (r.entities.iter env).length := rfl
    omega
  have few : ∀ {P : Entity → Prop}, (∀ e, P e → Live env r e) → FewerThan STORAGE_LIMIT P :=
    fun hP => few_of_live rfl hlive hP
  have room : ∀ {n : Nat} {id : UInt32}, Room r.archetypes n id ↔ id ≠ ARCHETYPE_ID_INVALID :=
    ⟨fun hx => hx.1, fun hx => ⟨hx, Or.inr hcount⟩⟩
  refine ⟨?_, ?_, ?_, ?_⟩
  · intro g vals hadm hv
    exact (C52_create_progress hr hadm hv (few (fun _ hx => hx.1))).1.mpr ⟨group_room hv hcount, by omega⟩
  · intro e c v t hadm hl hn ht
    have hfew : FewerThan STORAGE_LIMIT (fun x => HasSet W r x t) := few (fun _ hx => hx.1)
    refine ⟨fun h1 h2 => (C53_add_progress hr hadm hl hn ht h1 hfew).1.mpr (room.mpr h2),
      fun h1 h2 => (C53_add_progress hr hadm hl hn ht h1 hfew).2 (fun hx => hx.1 h2), ?_, ?_⟩ <;> intro h1
    · obtain ⟨f, hf⟩ := h.live_iff.mp hl
      have hnone : f c = none := by
        rw [h.hasComponent_eq hadm.1, hf] at hn
        simpa using hn
      obtain ⟨s, hs', _⟩ := h.ascSet hl
      obtain ⟨t', ht', hl'⟩ := withId hadm.1 hn hs'
      rw [← ht.unique ht'] at hl'
      rcases h.add_cases hadm hf hnone hs' ht with ⟨h2, h3⟩ | ⟨h2, h3⟩ | ⟨h2, _⟩ | ⟨h2, _⟩
      all_goals first | omega | exact h3
    · obtain ⟨f, hf⟩ := h.live_iff.mp hl
      have hnone : f c = none := by
        rw [h.hasComponent_eq hadm.1, hf] at hn
        simpa using hn
      obtain ⟨s, hs', _⟩ := h.ascSet hl
      obtain ⟨t', ht', hl'⟩ := withId hadm.1 hn hs'
      rw [← ht.unique ht'] at hl'
      rcases h.add_cases hadm hf hnone hs' ht with ⟨h2, h3⟩ | ⟨h2, h3⟩ | ⟨h2, _⟩ | ⟨h2, _⟩
      all_goals first | omega | exact h3
  · intro e c t hadm hy ht
    have hfew : FewerThan STORAGE_LIMIT (fun x => HasSet W r x t) := few (fun _ hx => hx.1)
    refine ⟨?_, fun h1 h2 h3 => (C54_remove_progress hr hadm hy ht h1 h2 hfew).1.mpr (room.mpr h3),
      fun h1 h2 h3 => (C54_remove_progress hr hadm hy ht h1 h2 hfew).2 (fun hx => hx.1 h3), ?_⟩ <;> intro h1
    all_goals
      cases hf : r.look env cs e with
      | none => rw [h.hasComponent_eq hadm.1, hf] at hy; cases hy
      | some f =>
        obtain ⟨v, hsome⟩ := Option.isSome_iff_exists.mp ((h.has_iff hf hadm.1).mp hy)
        obtain ⟨s, hs', _⟩ := h.ascSet (h.live_iff.mpr ⟨f, hf⟩)
        obtain ⟨t', ht', hl'⟩ := withoutId hadm.1 hy hs'
        rw [← ht.unique ht'] at hl'
        rcases h.remove_cases hadm hf hsome hs' ht with ⟨h2, h3⟩ | ⟨h2, h3⟩ | ⟨h2, h4, _⟩ | ⟨h2, h4, _⟩
        all_goals first | omega | exact h3
  · intro call hd
    by_cases hw : call.WithinLimits W r
    · exact Or.inl (h.call_safe hd hw)
    · cases call with
      | create g vals => exact absurd (few (fun _ hx => hx.1)) hw
      | add e c v =>
        have hadm : (Call.add e c v).Admissible W r := hd.1
        rcases h.add_step hadm with ⟨r1, o1, _, q1, _⟩ | ⟨flt, q1, f, s, q2, q3, q4, ⟨rfl, q6⟩ | ⟨_, _, ⟨t, q7, _⟩, q9⟩⟩
        · exact Or.inl ⟨r1, o1, q1⟩
        · exact Or.inr ⟨q1, s, Or.inl ⟨e, c, v, rfl, q4, q6⟩⟩
        · exact absurd q9 (h.not_full_with q2 hadm.1 q7 (few (fun _ hx => hx.1)))
      | remove e c =>
        have hadm : (Call.remove e c).Admissible W r := hd.1
        rcases h.remove_step hadm with ⟨r1, o1, _, q1, _⟩ | ⟨flt, q1, f, s, q2, q3, q4, ⟨rfl, q6⟩ | ⟨_, _, ⟨t, q7, _⟩, q9⟩⟩
        · exact Or.inl ⟨r1, o1, q1⟩
        · exact Or.inr ⟨q1, s, Or.inr ⟨e, c, rfl, q4, q6⟩⟩
        · exact absurd q9 (h.not_full_without q2 hadm.1 q7 (few (fun _ hx => hx.1)))
      | _ => exact absurd trivial hw

set_option maxRecDepth 100000 in
/-- C75 on the example history, with both kinds of budget. -/
example : Steps exEnv (Call.Admissible exWorld) Registry.default (exCalls.zip exOuts) exR ∧
    ((exCalls.zip exOuts).filter (fun x => x.1.reshapes)).length < 65534 ∧
    (∃ L : List (List UInt16), (∀ s, exWorld.Used s → s ∈ L) ∧ L.length < 32767) ∧
    (liveCount (exCalls.zip exOuts)).2 < STORAGE_LIMIT :=
  ⟨exSteps, by decide +kernel, ⟨[[10], [20], [30], [10, 20], [10, 30], [20, 30], [10, 20, 30]], fun _ hs => hs, by decide⟩,
    by decide +kernel⟩

end Shard
