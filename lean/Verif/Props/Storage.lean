import Verif.Props.Check
/-!
# C29: component sets and their storage
-/

set_option autoImplicit false

namespace Shard

variable {env : Env} {W : World env} {r r' : Registry}

/-- C29 as intended, for two entities with different component sets (of plain one-byte types with distinct ids) created
one after the other: they are stored in different archetypes, and the second has its components. -/
def C29_statement : Prop :=
  ∀ (env : Env) (g1 g2 : Group) (vals1 vals2 : List Val) (r1 r2 : Registry) (e1 e2 : Entity),
    (∀ c ∈ g1 ++ g2, c.size = 1 ∧ c.align = 1) → (g1.map (fun c => c.id)).Nodup → (g2.map (fun c => c.id)).Nodup →
    TypedVals g1 vals1 → TypedVals g2 vals2 → (¬ ∀ i, i ∈ g1.map (fun c => c.id) ↔ i ∈ g2.map (fun c => c.id)) →
    Registry.default.createEntity env g1 vals1 = .ok (r1, .ok e1) → r1.createEntity env g2 vals2 = .ok (r2, .ok e2) →
    (r2.entities.entityEntry env e1).map (fun en => en.archetypeIndex env) ≠
      (r2.entities.entityEntry env e2).map (fun en => en.archetypeIndex env) ∧
    ∀ c ∈ g2, r2.hasComponent env c e2 = .ok true

/-- Two component sets with the same archetype id. -/
def exK1 : Group := [⟨1, 4083, 1, 1⟩, ⟨2, 53647, 1, 1⟩]
def exK2 : Group := [⟨3, 17631, 1, 1⟩, ⟨4, 55333, 1, 1⟩]

/-- The archetype ids collide, for `create_entity` and for `add_component` and `remove_component`. -/
theorem C29_collision : groupId exEnv [4083, 53647] = groupId exEnv [17631, 55333] ∧
    plainId exEnv [4083, 53647] = plainId exEnv [17631, 55333] := by decide +kernel

set_option maxRecDepth 100000 in
/-- What a program sees: after creating an entity with the components 1 and 2 and one with 3 and 4, the second does not
have the components 3 and 4 but appears to have 1 and 2, and reading one of these reads a value of another type. -/
theorem C29_witness : ∃ r2,
    (do let x ← Registry.default.createEntity exEnv exK1 [⟨1, [1]⟩, ⟨2, [2]⟩]
        x.1.createEntity exEnv exK2 [⟨3, [3]⟩, ⟨4, [4]⟩]) = .ok (r2, .ok (Entity.newUnchecked 1 0)) ∧
    r2.hasComponent exEnv ⟨3, 17631, 1, 1⟩ (Entity.newUnchecked 1 0) = .ok false ∧
    r2.hasComponent exEnv ⟨1, 4083, 1, 1⟩ (Entity.newUnchecked 1 0) = .ok true ∧
    r2.getComponent exEnv ⟨1, 4083, 1, 1⟩ (Entity.newUnchecked 1 0) = .error (.ub .typeConfusion) := by
  have h : (match (do let x ← Registry.default.createEntity exEnv exK1 [⟨1, [1]⟩, ⟨2, [2]⟩]
                      x.1.createEntity exEnv exK2 [⟨3, [3]⟩, ⟨4, [4]⟩] : M (Registry × Registry.Res Entity (List Val))) with
    | .ok (r2, .ok e) => decide (e = Entity.newUnchecked 1 0 ∧
        r2.hasComponent exEnv ⟨3, 17631, 1, 1⟩ (Entity.newUnchecked 1 0) = .ok false ∧
        r2.hasComponent exEnv ⟨1, 4083, 1, 1⟩ (Entity.newUnchecked 1 0) = .ok true ∧
        r2.getComponent exEnv ⟨1, 4083, 1, 1⟩ (Entity.newUnchecked 1 0) = .error (.ub .typeConfusion))
    | _ => false) = true := by decide +kernel
  split at h
  · rename_i r2 e hx
    obtain ⟨rfl, h2⟩ := of_decide_eq_true h
    exact ⟨r2, hx, h2⟩
  · cases h

/-- **C29** is false. -/
theorem C29_violated : ¬ C29_statement := by
  intro h
  obtain ⟨r2, h1, h2, _⟩ := C29_witness
  cases hx : Registry.default.createEntity exEnv exK1 [⟨1, [1]⟩, ⟨2, [2]⟩] with
  | error f => rw [hx] at h1; cases h1
  | ok x =>
    rw [hx] at h1
    simp only [ok_bind] at h1
    obtain ⟨r1, res⟩ := x
    cases res with
    | err vs =>
      have h3 : (match Registry.default.createEntity exEnv exK1 [⟨1, [1]⟩, ⟨2, [2]⟩] with
        | .ok (_, .err _) => true | _ => false) = false := by decide +kernel
      rw [hx] at h3; cases h3
    | ok e1 =>
      have := (h exEnv exK1 exK2 _ _ r1 r2 e1 _ (by decide) (by decide) (by decide) (typedCheck_ok (by decide))
        (typedCheck_ok (by decide)) (fun hx => absurd ((hx 4083).mp (by decide)) (by decide)) hx h1).2
        ⟨3, 17631, 1, 1⟩ (by decide)
      rw [h2] at this
      cases this

/-- **C29** (partial: for programs whose component sets do not collide under the 32-bit hash, `World.noClash`)
`find_or_create_archetype` returns an archetype with exactly the requested component types; two requests with different
component sets never give the same archetype; every live entity is stored in an archetype with exactly its component
set, so entities with different component sets are in different archetypes. -/
theorem C29_storage_partial (hr : Reachable W r) :
    (∀ d ar i, W.Desc d → r.archetypes.findOrCreateArchetype env d = .ok (ar, some i) →
      ∃ a, ar.archetypes[i.toNat]? = some a ∧ a.descriptor.components = d.components) ∧
    (∀ d d' ar ar' i j, W.Desc d → W.Desc d' → r.archetypes.findOrCreateArchetype env d = .ok (ar, some i) →
      ar.findOrCreateArchetype env d' = .ok (ar', some j) → d.components ≠ d'.components → i ≠ j) ∧
    (∀ e en, r.entities.entityEntry env e = some en → ∃ a, r.archetypes.archetypes[(en.archetypeIndex env).toNat]? = some a ∧
      AscSet (a.descriptor.components.map (fun c => c.id)) (HasId W r e)) ∧
    (∀ e e' en en', r.entities.entityEntry env e = some en → r.entities.entityEntry env e' = some en' →
      (¬ ∀ i, HasId W r e i ↔ HasId W r e' i) → en.archetypeIndex env ≠ en'.archetypeIndex env) := by
  obtain ⟨cs, h⟩ := hr.inv
  have hget : ∀ {ar0 : ArchetypeRegistry} {cs0 : List Content} {d ar i}, ARInv W ar0 cs0 → W.Desc d →
      ar0.findOrCreateArchetype env d = .ok (ar, some i) →
      (∃ a, ar.archetypes[i.toNat]? = some a ∧ a.descriptor.components = d.components) ∧ (∃ cs1, ARInv W ar cs1) ∧
        ∀ (k : Nat) (b : Archetype), ar0.archetypes[k]? = some b → ar.archetypes[k]? = some b := by
    intro ar0 cs0 d ar i h0 hd hf
    obtain ⟨cts, hdo⟩ := hd.descOK
    rcases h0.findOrCreate_spec hdo with ⟨j, b, h1, h2, h3, h4⟩ | ⟨_, ⟨_, h1⟩ | ⟨ar', a, j, h1, h2, h3, h4⟩⟩
    · rw [hf] at h1; cases h1
      obtain ⟨ct, _, hrep⟩ := h0.content h2
      refine ⟨⟨b, h2, ?_⟩, ⟨_, h0⟩, fun _ _ h => h⟩
      rw [hrep.desc.comps, hdo.comps, hrep.desc.unique hdo h3 h4]
    · rw [hf] at h1; cases h1
    · rw [hf] at h2; cases h2
      refine ⟨⟨a, ?_, by rw [h4.desc]⟩, ⟨_, h4.inv⟩, fun k b hk => ?_⟩
      · rw [h4.archetypes, h3]; simp
      · rw [h4.archetypes, List.getElem?_append_left (List.getElem?_eq_some_iff.mp hk).1]; exact hk
  have hids : ∀ e en, r.entities.entityEntry env e = some en →
      ∃ a, r.archetypes.archetypes[(en.archetypeIndex env).toNat]? = some a ∧
      AscSet (a.descriptor.components.map (fun c => c.id)) (HasId W r e) := by
    intro e en he
    obtain ⟨a, ct, ha, hct, hrep, hk, _, hlook⟩ := h.entry he
    obtain ⟨en', a', ct', he', ha', _, hrep', _, hm⟩ := h.stored_at hlook
    rw [he] at he'; cases he'
    rw [ha] at ha'; cases ha'
    exact ⟨a, ha, (h.ids_of hlook hrep' hm).1⟩
  refine ⟨fun d ar i hd hf => (hget h.arch hd hf).1, ?_, hids, ?_⟩
  · intro d d' ar ar' i j hd hd' hf hf' hne hij
    subst hij
    obtain ⟨⟨a, h1, h2⟩, ⟨cs1, h3⟩, _⟩ := hget h.arch hd hf
    obtain ⟨⟨a', h4, h5⟩, _, h6⟩ := hget h3 hd' hf'
    rw [h6 _ _ h1] at h4; cases h4
    exact hne (h2.symm.trans h5)
  · intro e e' en en' he he' hne heq
    obtain ⟨a, h1, h2⟩ := hids e en he
    obtain ⟨a', h3, h4⟩ := hids e' en' he'
    rw [heq] at h1
    rw [h1] at h3; cases h3
    exact hne (fun i => by rw [← h2.2, ← h4.2])

set_option maxRecDepth 100000 in
/-- C29 on `exR`: two descriptors with different component sets, and two live entities. -/
example : Reachable exWorld exR ∧ exWorld.Desc (Group.descriptor exEnv [exB, exA]).archetype ∧
    exWorld.Desc (Group.descriptor exEnv [exC]).archetype ∧
    (Group.descriptor exEnv [exB, exA]).archetype.components ≠ (Group.descriptor exEnv [exC]).archetype.components ∧
    (exR.entities.entityEntry exEnv exE1).isSome = true ∧ (exR.entities.entityEntry exEnv exE2).isSome = true ∧
    ¬ ∀ i, HasId exWorld exR exE1 i ↔ HasId exWorld exR exE2 i := by
  refine ⟨exReachable, .group (createCheck_ok (vals := [exValB, exValA]) (by decide +kernel) exR).2 (by decide +kernel),
    .group (createCheck_ok (vals := [exValC]) (by decide +kernel) exR).2 (by decide +kernel), by decide +kernel,
    by decide +kernel, by decide +kernel, fun hx => ?_⟩
  have := (hasId_ofLists (e := exE2)).mp ((hx 20).mp (hasId_ofLists.mpr (by decide +kernel)))
  exact absurd this (by decide +kernel)

end Shard
