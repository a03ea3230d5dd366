import Verif.Proofs.UnsafeFull
import Verif.Props.Reserved
import Verif.Props.Example
/-!
# C96: the safe functions keep the contracts of the `unsafe fn`s they call
-/

set_option autoImplicit false

namespace Shard.UnsafeCalls

/-- Every slot of the table is occupied. -/
def AllOccupied (env : Env) (r : Registry) : Prop :=
  ∀ i, i < r.entities.entities.length → ∃ e, Live env r e ∧ e.index.toNat = i

section
variable {env : Env} {W : World env} {r : Registry}

/-- Whatever is called with sensible types, and with whatever handles, the contracts of all `unsafe fn`s are kept but that of
`IndexInArchetype::new_unchecked`. Missing to the full claim: `C96_destroy`, `C96_remove`, `C96_get`, `C96_create`,
`C96_add`, `C96_remove_component` say exactly when the claim fails. -/
theorem C96_partial (hr : Reachable W r) (c : ApiCall) (hc : c.Fair W r) : c.KeepsOrdinary env r := by
  obtain ⟨cs, h⟩ := hr.inv
  have hnd : ∀ {g : Group}, ((g.map (fun c => c.id)).Nodup → W.OkGroup g) → (g.descriptor env).isValid = true → W.OkGroup g :=
    fun hg hv => hg (Group.spec hv).wf.nodup
  cases c with
  | createEntity g vals => exact keeps_createEntity h (hnd hc.1) (fun _ a ha _ _ => hc.2 a ha)
  | destroyEntity e => exact keeps_destroyEntity h e
  | removeEntity g e => exact keeps_removeEntity h hc.1 hc.2
  | hasComponent c e => exact keeps_hasComponent h c e
  | hasComponents g e => exact keeps_hasComponents h g e
  | getComponent c e => exact keeps_getComponentOf h hc e
  | getComponents g e => exact (keeps_getComponentsOf h (fun _ _ _ _ _ hr hs => (hr.containsSubset_iff hc.1 hc.2).mp hs)).1
  | getComponentMut c e => exact keeps_getComponentMutOf h hc e
  | getComponentsMut g e => exact (keeps_getComponentsOf h (fun _ _ _ _ _ hr hs => (hr.containsSubset_iff hc.1 hc.2).mp hs)).2
  | addComponent e c v => exact keeps_addComponent h v hc.1 hc.2.1 (fun _ _ a ha _ _ => hc.2.2 a ha)
  | removeComponent e c => exact keeps_removeComponent h hc.1 hc.2.1 (fun _ _ a ha _ _ => hc.2.2 a ha)
  | iterEntities => exact keeps_iterEntries h.ents
  | iterMatching k g f =>
    cases k with
    | slices => exact keeps_iterate h.arch hc (fun _ _ hr hv hs => keeps_fuzzySlices hr hv hs)
    | slicesMut => exact keeps_iterate h.arch hc (fun _ _ hr hv hs => keeps_fuzzySlicesMut hr hv hs)
    | entitySlices => exact keeps_iterate h.arch hc (fun _ _ hr hv hs => keeps_entityFuzzySlices hr hv hs)
    | entitySlicesMut => exact keeps_iterate h.arch hc (fun _ _ hr hv hs => keeps_entityFuzzySlicesMut hr hv hs)
  | exact g b => exact (keeps_exact h (hnd hc) b).1
  | exactMut g b => exact (keeps_exact h (hnd hc) b).2

/-- Only `destroy_entity` and `remove_entity` call `new_unchecked`. -/
theorem C96_plain (c : ApiCall) (hd : ∀ e, c ≠ .destroyEntity e) (hm : ∀ g e, c ≠ .removeEntity g e) :
    ∀ u ∈ c.calls env r, u.Ordinary := by
  cases c with
  | createEntity g vals => exact plain_createEntity g vals
  | destroyEntity e => exact absurd rfl (hd e)
  | removeEntity g e => exact absurd rfl (hm g e)
  | hasComponent c e => exact plain_hasComponent c e
  | hasComponents g e => exact plain_hasComponents g e
  | getComponent c e => exact plain_getComponentOf c e
  | getComponents g e => exact plain_getComponentsOf g e
  | getComponentMut c e => exact plain_getComponentMutOf c e
  | getComponentsMut g e => exact plain_getComponentsMutOf g e
  | addComponent e c v => exact plain_addComponent e c v
  | removeComponent e c => exact plain_removeComponent e c
  | iterEntities => exact plain_iterEntries r.entities
  | iterMatching k g f =>
    cases k with
    | slices => exact plain_iterate (fun a => by unfold fuzzySlices fuzzyPointers; no_new_index)
    | slicesMut => exact plain_iterate (fun a => by unfold fuzzySlicesMut fuzzyPointers; no_new_index)
    | entitySlices => exact plain_iterate (fun a => by unfold entityFuzzySlices fuzzyPointers; no_new_index)
    | entitySlicesMut => exact plain_iterate (fun a => by unfold entityFuzzySlicesMut fuzzyPointers; no_new_index)
  | exact g b => exact plain_exact g b
  | exactMut g b => exact plain_exactMut g b

/-- The head of the free list is a value `new_unchecked` accepts if and only if a slot is free. -/
theorem head_ok (hr : Reachable W r) {e : Entity} (he : Live env r e) :
    (UCall.newIndex r.entities.nextFreeSlot).Contract ↔ ¬ AllOccupied env r := by
  obtain ⟨_, _, _, _, h⟩ := Reserved.C94_partial hr
  obtain ⟨v, h1, h2, h3⟩ := h e he
  obtain ⟨cs, hI⟩ := hr.inv
  obtain ⟨en, hen⟩ := (mem_iter hI.ents).mp he
  have hv : v = r.entities.nextFreeSlot := by
    unfold Reserved.newUncheckedArgument at h1
    rw [hen] at h1
    injection h1 with h1
    exact h1.symm
  have hM : MAX_ENTITY_HANDLE_VALUE = 16777215 := rfl
  have hle := hI.ents.len_le
  show r.entities.nextFreeSlot.toNat < 16777215 ↔ _
  rw [← hv]
  constructor
  · intro hlt hall
    have := h2 hall
    omega
  · intro hn
    have := (h3 hn).1
    omega

/-- `destroy_entity` keeps all contracts if and only if the handle is dead or a slot of the table is free. -/
theorem C96_destroy (hr : Reachable W r) (e : Entity) :
    (ApiCall.destroyEntity e).Keeps env r ↔ (Live env r e → ¬ AllOccupied env r) := by
  obtain ⟨cs, h⟩ := hr.inv
  constructor
  · intro hk hl
    have := (destroyEntity_newIndex (env := env) h e r.entities.nextFreeSlot).mpr ⟨(mem_iter h.ents).mp hl, rfl⟩
    exact (head_ok hr hl).mp (hk _ this)
  · intro hf u hu
    cases hx : u with
    | newIndex v =>
      rw [hx] at hu
      obtain ⟨hen, rfl⟩ := (destroyEntity_newIndex (env := env) h e v).mp hu
      have hl : Live env r e := (mem_iter h.ents).mpr hen
      exact (head_ok hr hl).mpr (hf hl)
    | _ => rw [← hx]; exact C96_partial hr (.destroyEntity e) trivial u hu (by rw [hx]; trivial)

/-- `remove_entity` keeps the contracts but that of `new_unchecked` if and only if the handle is dead or the group has
exactly the types of the entity; all contracts if and only if, in addition, a slot is free. -/
theorem C96_remove (hr : Reachable W r) {g : Group} (hg : ∀ c ∈ g, W.Has c) (e : Entity) :
    ((ApiCall.removeEntity g e).KeepsOrdinary env r ↔ (Live env r e → HasExactly W r e g ∧ g.Nodup)) ∧
    ((Live env r e → ¬ AllOccupied env r) →
      ((ApiCall.removeEntity g e).Keeps env r ↔ (Live env r e → HasExactly W r e g ∧ g.Nodup))) := by
  obtain ⟨cs, h⟩ := hr.inv
  refine ⟨⟨fun hk hl => removeEntity_breaks h hg hk hl, fun hm => keeps_removeEntity h hg hm⟩, fun hf => ⟨fun hk hl =>
    removeEntity_breaks h hg (fun u hu _ => hk u hu) hl, fun hm u hu => ?_⟩⟩
  cases hx : u with
  | newIndex v =>
    rw [hx] at hu
    obtain ⟨hen, rfl⟩ := removeEntity_newIndex h hu
    have hl : Live env r e := (mem_iter h.ents).mpr hen
    exact (head_ok hr hl).mpr (hf hl)
  | _ => rw [← hx]; exact keeps_removeEntity h hg hm u hu (by rw [hx]; trivial)

/-- `get_components` and `get_components_mut` keep the contracts if and only if the handle is dead, the group is valid, or
the entity has all its types. -/
theorem C96_get (hr : Reachable W r) {g : Group} (hg : ∀ c ∈ g, W.Has c) (e : Entity) :
    ((ApiCall.getComponents g e).Keeps env r ↔
      (Live env r e → (g.descriptor env).isValid = true ∨ ∀ c ∈ g, r.hasComponent env c e = .ok true)) ∧
    ((ApiCall.getComponentsMut g e).Keeps env r ↔
      (Live env r e → (g.descriptor env).isValid = true ∨ ∀ c ∈ g, r.hasComponent env c e = .ok true)) := by
  obtain ⟨cs, h⟩ := hr.inv
  have hall : (Live env r e → (g.descriptor env).isValid = true ∨ ∀ c ∈ g, r.hasComponent env c e = .ok true) →
      Keeps Good (getComponentsOf env r g e) ∧ Keeps Good (getComponentsMutOf env r g e) := by
    intro hx
    refine keeps_getComponentsOf h (fun en a ct he ha hra hs => ?_)
    have hl : Live env r e := (mem_iter h.ents).mpr ⟨en, he⟩
    rcases hx hl with hv | hv
    · exact (hra.containsSubset_iff hg hv).mp hs
    · intro c hc
      have h1 := hv c hc
      unfold Registry.hasComponent at h1
      rw [he] at h1
      simp only [ArchetypeRegistry.getUnchecked, indexUnchecked, ha, ok_bind] at h1
      injection h1 with h1
      exact (hra.desc.hasComponent_iff (hg c hc)).mp h1
  refine ⟨⟨fun hk hl => ?_, fun hx u hu => (hall hx).1 u hu (plain_getComponentsOf g e u hu)⟩,
    ⟨fun hk hl => ?_, fun hx u hu => (hall hx).2 u hu (plain_getComponentsMutOf g e u hu)⟩⟩
  · cases hv : (g.descriptor env).isValid with
    | true => exact Or.inl rfl
    | false => exact Or.inr (getComponents_breaks h hg (Or.inl fun u hu _ => hk u hu) hl hv)
  · cases hv : (g.descriptor env).isValid with
    | true => exact Or.inl rfl
    | false => exact Or.inr (getComponents_breaks h hg (Or.inr fun u hu _ => hk u hu) hl hv)

/-- `create_entity` keeps the contracts if and only if it does not get to writing to an archetype that is full. -/
theorem C96_create (hr : Reachable W r) {g : Group} {vals : List Val} (hg : (g.descriptor env).isValid = true → W.OkGroup g) :
    (ApiCall.createEntity g vals).Keeps env r ↔
      ((g.descriptor env).isValid = true → r.entities.entities.length < 16777215 → ∀ a ∈ r.archetypes.archetypes, Exact a g →
        a.descriptor.archetypeId = (g.descriptor env).archetype.archetypeId → a.entityCount < 8388608) := by
  obtain ⟨cs, h⟩ := hr.inv
  constructor
  · intro hk hv hroom a ha hx hid
    exact createEntity_breaks h (hg hv) hv (fun u hu _ => hk u hu) hroom ha hx hid
  · intro hx u hu
    cases hv : (g.descriptor env).isValid with
    | true => exact keeps_createEntity h hg (hx hv) u hu (plain_createEntity g vals u hu)
    | false =>
      exfalso
      replace hu : u ∈ (createEntity env r g vals).calls := hu
      unfold createEntity at hu
      rw [if_pos (by simp [hv])] at hu
      cases hu

/-- `add_component` keeps the contracts if and only if it does not move an entity to an archetype that is full. (An entity that
would have more than thirteen types is not moved.) -/
theorem C96_add (hr : Reachable W r) {e : Entity} {c : CompTy} {v : Val} (hW : W.Has c)
    (hu : Live env r e → ∀ s, AscSet s (fun i => i = c.id ∨ HasId W r e i) → W.Used s) :
    (ApiCall.addComponent e c v).Keeps env r ↔
      (Live env r e → r.hasComponent env c e ≠ .ok true → ∀ a ∈ r.archetypes.archetypes,
        Takes W a (fun c' => c' = c ∨ r.hasComponent env c' e = .ok true) → a.descriptor.len ≤ 13 → a.entityCount < 8388608) := by
  obtain ⟨cs, h⟩ := hr.inv
  constructor
  · intro hk hl hno a ha ht hlen
    exact addComponent_breaks h hW hu (fun u hu _ => hk u hu) hl hno ha ht hlen
  · intro hx u hu'
    exact keeps_addComponent h v hW hu hx u hu' (plain_addComponent e c v u hu')

/-- `remove_component` keeps the contracts if and only if it does not move an entity to an archetype that is full. (An entity
with more than thirteen types is not moved.) -/
theorem C96_remove_component (hr : Reachable W r) {e : Entity} {c : CompTy} (hW : W.Has c)
    (hu : Live env r e → ∀ s, s ≠ [] → AscSet s (fun i => i ≠ c.id ∧ HasId W r e i) → W.Used s) :
    (ApiCall.removeComponent e c).Keeps env r ↔
      (Live env r e → r.hasComponent env c e = .ok true → ∀ a ∈ r.archetypes.archetypes,
        Takes W a (fun c' => c' ≠ c ∧ r.hasComponent env c' e = .ok true) → a.descriptor.len ≤ 12 → a.entityCount < 8388608) := by
  obtain ⟨cs, h⟩ := hr.inv
  constructor
  · intro hk hl hno a ha ht hlen
    exact removeComponent_breaks h hW hu (fun u hu _ => hk u hu) hl hno ha ht hlen
  · intro hx u hu'
    exact keeps_removeComponent h hW hu hx u hu' (plain_removeComponent e c u hu')

end

/-- The recorded functions compute what the functions of the model compute. -/
theorem C96_results (env : Env) (r : Registry) :
    (∀ g vals, (createEntity env r g vals).res = r.createEntity env g vals) ∧
    (∀ e, (destroyEntity env r e).res = r.destroyEntity env e) ∧
    (∀ g e, (removeEntity env r g e).res = r.removeEntity env g e) ∧
    (∀ c e, (hasComponent env r c e).res = r.hasComponent env c e) ∧
    (∀ g e, (hasComponents env r g e).res = r.hasComponents env g e) ∧
    (∀ c e, (getComponentOf env r c e).res = r.getComponent env c e) ∧
    (∀ g e, (getComponentsOf env r g e).res = r.getComponents env g e) ∧
    (∀ c e, (getComponentMutOf env r c e).res = r.getComponentMut env c e) ∧
    (∀ g e, (getComponentsMutOf env r g e).res = r.getComponentsMut env g e) ∧
    (∀ e c v, (addComponent env r e c v).res = r.addComponent env e c v) ∧
    (∀ e c, (removeComponent env r e c).res = r.removeComponent env e c) ∧
    (iterEntries env r.entities).res = .ok (r.iterEntities env) ∧
    (∀ g f, (iterate env r.archetypes g f (fun a => fuzzySlices env a g)).res = r.iterFilteredComponentsMatching env g f) ∧
    (∀ g f, (iterate env r.archetypes g f (fun a => fuzzySlicesMut env a g)).res = r.iterFilteredComponentsMatchingMut env g f) ∧
    (∀ g f, (iterate env r.archetypes g f (fun a => entityFuzzySlices env a g)).res =
      r.iterFilteredEntityComponentsMatching env g f) ∧
    (∀ g f, (iterate env r.archetypes g f (fun a => entityFuzzySlicesMut env a g)).res =
      r.iterFilteredEntityComponentsMatchingMut env g f) ∧
    (∀ g, r.iterFilteredComponentsMatching env g (fun _ => true) = r.iterComponentsMatching env g ∧
      r.iterFilteredComponentsMatchingMut env g (fun _ => true) = r.iterComponentsMatchingMut env g ∧
      r.iterFilteredEntityComponentsMatching env g (fun _ => true) = r.iterEntityComponentsMatching env g ∧
      r.iterFilteredEntityComponentsMatchingMut env g (fun _ => true) = r.iterEntityComponentsMatchingMut env g) ∧
    (∀ g, (UnsafeCalls.exact env r g true).res = r.iterEntityComponentsExact env g ∧
      (do let x ← (UnsafeCalls.exact env r g false).res; pure x.2) = r.iterComponentsExact env g) ∧
    (∀ g, (exactMut env r g true).res = r.iterEntityComponentsExactMut env g ∧
      (do let x ← (exactMut env r g false).res; pure (x.map fun y => (y.1, y.2.2))) = r.iterComponentsExactMut env g) :=
  ⟨fun g vals => createEntity_res env g r vals, fun e => destroyEntity_res env r e, fun g e => removeEntity_res env g r e,
    fun c e => hasComponent_res env c r e, fun g e => hasComponents_res env g r e, fun c e => getComponentOf_res env c r e,
    fun g e => getComponentsOf_res env g r e, fun c e => getComponentMutOf_res env c r e,
    fun g e => getComponentsMutOf_res env g r e, fun e c v => addComponent_res env c r e v,
    fun e c => removeComponent_res env c r e, rfl,
    fun g f => iterate_res env g f r.archetypes _ _ (fun a => fuzzySlices_res env a g),
    fun g f => iterate_res env g f r.archetypes _ _ (fun a => fuzzySlicesMut_res env a g),
    fun g f => iterate_res env g f r.archetypes _ _ (fun a => entityFuzzySlices_res env a g),
    fun g f => iterate_res env g f r.archetypes _ _ (fun a => entityFuzzySlicesMut_res env a g),
    fun g => ⟨rfl, rfl, rfl, rfl⟩, fun g => ⟨exact_res env g r, exactOnly_res env g r⟩,
    fun g => ⟨exactMut_res env g r, exactMutOnly_res env g r⟩⟩

/-! ## Examples -/

theorem exLive2 : Live exEnv exR exE2 := by show _ ∈ exR.iterEntities exEnv; decide +kernel

theorem exHas (c : CompTy) (hc : c ∈ [exA, exB, exC]) : exWorld.Has c := hc

theorem exNotFull : NotFull exR := by
  have h : exR.archetypes.archetypes.all (fun a => decide (a.entityCount < 8388608)) = true := by decide +kernel
  intro a ha
  simpa using List.all_eq_true.mp h a ha

/-- C96_partial on `exR`: a component is given to the second entity; four `unsafe fn`s are called. -/
example : (ApiCall.addComponent exE2 exB exValB).Fair exWorld exR ∧
    ((ApiCall.addComponent exE2 exB exValB).calls exEnv exR).length = 4 := by
  have h := exCheck_ok (call := .add exE2 exB exValB) (by decide) exR
  exact ⟨⟨h.1, h.2.2, exNotFull⟩, by decide +kernel⟩

/-- The same for an iterator, with and without entities, and for `create_entity`. -/
example : (ApiCall.iterMatching .entitySlices [exA] (fun _ => true)).Fair exWorld exR ∧
    ((ApiCall.iterMatching .entitySlices [exA] (fun _ => true)).calls exEnv exR).length = 6 ∧
    ((ApiCall.createEntity [exB, exA] [exValB, exValA]).calls exEnv exR).length = 3 :=
  ⟨by intro c hc; exact exHas c (by simp_all), by decide +kernel, by decide +kernel⟩

theorem exAllOccupied : AllOccupied exEnv exR := by
  have hl : exR.entities.entities.length = 3 := by decide +kernel
  intro i hi
  rw [hl] at hi
  match i, hi with
  | 0, _ => exact ⟨exE1, by show _ ∈ exR.iterEntities exEnv; decide +kernel, by decide +kernel⟩
  | 1, _ => exact ⟨exE2, exLive2, by decide +kernel⟩
  | 2, _ => exact ⟨exE4, by show _ ∈ exR.iterEntities exEnv; decide +kernel, by decide +kernel⟩
  | i + 3, h => omega

/-- The claim without exceptions is false: destroying an entity while every slot is occupied, `remove_entity` with another group
and `get_components` with a group that names a type twice break contracts. -/
theorem C96_violated : ∃ (env : Env) (W : World env) (r : Registry) (e : Entity) (c : CompTy), Reachable W r ∧ Live env r e ∧ W.Has c ∧
    ¬ (ApiCall.destroyEntity e).Keeps env r ∧
    ¬ (ApiCall.removeEntity [c] e).KeepsOrdinary env r ∧
    ¬ (ApiCall.getComponents [c, c] e).KeepsOrdinary env r ∧ ¬ (ApiCall.getComponentsMut [c, c] e).KeepsOrdinary env r := by
  have hB : exWorld.Has exB := exHas exB (by decide)
  have hno : exR.hasComponent exEnv exB exE2 ≠ .ok true := by decide +kernel
  have hg : ∀ c ∈ [exB, exB], exWorld.Has c := by intro c hc; simp at hc; rw [hc]; exact hB
  have hinv : ((Group.descriptor exEnv [exB, exB]).isValid) = false := by decide +kernel
  obtain ⟨cs, h⟩ := exReachable.inv
  refine ⟨exEnv, exWorld, exR, exE2, exB, exReachable, exLive2, hB, ?_, ?_, ?_, ?_⟩
  · intro hk
    exact (C96_destroy exReachable exE2).mp hk exLive2 exAllOccupied
  · intro hk
    have hx := (C96_remove exReachable (g := [exB]) (by intro c hc; simp at hc; rw [hc]; exact hB) exE2).1.mp hk exLive2
    exact hno ((hx.1.2 exB hB).mpr (by simp))
  · intro hk
    exact hno (getComponents_breaks h hg (Or.inl hk) exLive2 hinv exB (by simp))
  · intro hk
    exact hno (getComponents_breaks h hg (Or.inr hk) exLive2 hinv exB (by simp))

/-- The hypotheses of C96_remove, C96_get and C96_create hold on `exR`; here the contracts are kept. -/
example : (ApiCall.removeEntity [exA] exE2).KeepsOrdinary exEnv exR ∧ (ApiCall.getComponents [exA] exE2).Keeps exEnv exR ∧
    (ApiCall.createEntity [exB, exA] [exValB, exValA]).Keeps exEnv exR := by
  have hA : ∀ c ∈ [exA], exWorld.Has c := by intro c hc; simp at hc; rw [hc]; exact exHas exA (by decide)
  have hok := (exCheck_ok (call := .create [exB, exA] [exValB, exValA]) (by decide) exR).2 (by decide)
  refine ⟨(C96_remove exReachable hA exE2).1.mpr (fun _ => ⟨⟨exLive2, fun c hc => ?_⟩, by decide⟩),
    (C96_get exReachable hA exE2).1.mpr (fun _ => Or.inl (by decide +kernel)),
    (C96_create exReachable (fun _ => hok)).mpr (fun _ _ a ha _ _ => exNotFull a ha)⟩
  have hc : c ∈ [exA, exB, exC] := hc
  simp only [List.mem_cons, List.not_mem_nil, or_false] at hc
  rcases hc with rfl | rfl | rfl <;> decide +kernel

/-- The hypotheses of C96_add and C96_remove_component hold on `exR`; the contracts are kept. The third archetype is one that
`add_component` looks for. -/
example : (ApiCall.addComponent exE2 exB exValB).Keeps exEnv exR ∧
    ∃ a ∈ exR.archetypes.archetypes, Takes exWorld a (fun _ => True) ∧ a.descriptor.len = 3 ∧ a.entityCount = 1 := by
  have h := exCheck_ok (call := .add exE2 exB exValB) (by decide) exR
  refine ⟨(C96_add exReachable h.1 h.2.2).mpr (fun _ _ a ha _ _ => exNotFull a ha), ?_⟩
  have hx : exR.archetypes.archetypes.any (fun a =>
      decide (a.descriptor.archetypeId = plainId exEnv (a.descriptor.components.map (fun c => c.id))) &&
      decide (a.descriptor.len = 3) && decide (a.entityCount = 1) &&
      [exA, exB, exC].all (fun c => decide (c.descriptor ∈ a.descriptor.components))) = true := by decide +kernel
  obtain ⟨a, ha, hx⟩ := List.any_eq_true.mp hx
  simp only [Bool.and_eq_true, decide_eq_true_eq, List.all_eq_true] at hx
  exact ⟨a, ha, ⟨fun c hc => ⟨fun _ => trivial, fun _ => hx.2 c hc⟩, hx.1.1.1⟩, hx.1.1.2, hx.1.2⟩

example : (ApiCall.removeComponent exE1 exA).Keeps exEnv exR := by
  have h := exCheck_ok (call := .remove exE1 exA) (by decide) exR
  exact (C96_remove_component exReachable h.1 h.2).mpr (fun _ _ a ha _ _ => exNotFull a ha)

end Shard.UnsafeCalls
