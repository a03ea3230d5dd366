import Verif.Proofs.Progress
import Verif.Spec.Ordinary
/-!
# How many archetypes a history can make
-/

set_option autoImplicit false

namespace Shard

variable {env : Env} {W : World env} {r r' : Registry} {cs : List Content}

theorem storeRef_count {ai : Nat} {c : CompTy} {p : Ref} {v : Val} (h : r.storeRef ai c p v = .ok r') :
    r'.archetypes.archetypes.length = r.archetypes.archetypes.length := by
  unfold Registry.storeRef at h
  cases h1 : index r.archetypes.archetypes ai with
  | error f => rw [h1] at h; cases h
  | ok a =>
    rw [h1] at h
    simp only [ok_bind] at h
    cases h2 : a.writeRef c p v with
    | error f => rw [h2] at h; cases h
    | ok a' =>
      rw [h2] at h
      cases h
      simp [ArchetypeRegistry.setArchetype]

theorem replaceAt_count {ai : Nat} {c : CompTy} {p : Ref} {v : Val} {x : Registry × Val} (h : r.replaceAt ai c p v = .ok x) :
    x.1.archetypes.archetypes.length = r.archetypes.archetypes.length := by
  unfold Registry.replaceAt at h
  cases h1 : index r.archetypes.archetypes ai with
  | error f => rw [h1] at h; cases h
  | ok a =>
    rw [h1] at h
    simp only [ok_bind] at h
    cases h2 : a.readRef c p with
    | error f => rw [h2] at h; cases h
    | ok a' =>
      rw [h2] at h
      simp only [ok_bind] at h
      cases h3 : r.storeRef ai c p v with
      | error f => rw [h3] at h; cases h
      | ok r1 =>
        rw [h3] at h
        cases h
        exact storeRef_count h3

theorem replaceComponent_count {c : CompTy} {e : Entity} {v : Val} {x : Registry × Option Val}
    (h : r.replaceComponent env c e v = .ok x) : x.1.archetypes.archetypes.length = r.archetypes.archetypes.length := by
  unfold Registry.replaceComponent at h
  cases h0 : r.getComponentMut env c e with
  | error f => rw [h0] at h; cases h
  | ok o =>
    rw [h0] at h
    cases o with
    | none => cases h; rfl
    | some q =>
      obtain ⟨ai, p⟩ := q
      simp only [ok_bind] at h
      cases h1 : index r.archetypes.archetypes ai with
      | error f => rw [h1] at h; cases h
      | ok a =>
        rw [h1] at h
        simp only [ok_bind] at h
        cases h2 : a.readRef c p with
        | error f => rw [h2] at h; cases h
        | ok a' =>
          rw [h2] at h
          simp only [ok_bind] at h
          cases h3 : r.storeRef ai c p v with
          | error f => rw [h3] at h; cases h
          | ok r1 =>
            rw [h3] at h
            cases h
            exact storeRef_count h3

/-- A call makes at most one archetype, and only the three calls that reshape entities make any. -/
theorem RInv.step_count (h : RInv W r cs) {call : Call} (hadm : call.Admissible W r) {out : Outcome}
    (hrun : call.run env r = .ok (r', out)) :
    r'.archetypes.archetypes.length ≤ r.archetypes.archetypes.length + (if call.reshapes = true then 1 else 0) := by
  cases call with
  | create g vals =>
    obtain ⟨cs', hs⟩ := h.step hadm hrun
    exact hs.place.count g vals rfl
  | destroy e =>
    simp only [Call.run] at hrun
    cases hx : r.entities.entityEntry env e with
    | none => rw [destroyEntity_dead hx] at hrun; cases hrun; simp
    | some en =>
      obtain ⟨r1, cs1, vs, h1, h2⟩ := h.destroyEntity_spec hx
      rw [h1] at hrun; cases hrun
      rw [h2.count]; simp
  | removeEntity g e =>
    simp only [Call.run] at hrun
    cases hx : r.entities.entityEntry env e with
    | none => rw [removeEntity_dead hx] at hrun; cases hrun; simp
    | some en =>
      cases hy : r.removeEntity env g e with
      | error f => rw [hy] at hrun; cases hrun
      | ok x =>
        obtain ⟨r1, o⟩ := x
        obtain ⟨cs1, vs, _, h2, l, rfl⟩ := h.removeEntity_any hx hy
        rw [hy] at hrun; cases hrun
        rw [h2.count]; simp
  | add e c v =>
    obtain ⟨hW, hv, hu⟩ := hadm
    simp only [Call.run] at hrun
    show _ ≤ _ + 1
    cases hx : r.look env cs e with
    | none =>
      rw [addComponent_dead (h.look_none.mp hx)] at hrun; cases hrun; exact Nat.le_succ _
    | some f =>
      obtain ⟨en, a, ct, he, ha, hct, hr, hfe, hm⟩ := h.stored_at hx
      have hadd : ∀ i, AddedIds ct.cts c i ↔ (i = c.id ∨ HasId W r e i) := by
        intro i
        unfold AddedIds
        rw [h.hasId_iff hx]
        constructor
        · rintro (hi | ⟨c', h1, h2⟩)
          · exact Or.inl hi
          · exact Or.inr ⟨c', h2, (hm c').mpr h1⟩
        · rintro (hi | ⟨c', h1, h2⟩)
          · exact Or.inl hi
          · exact Or.inr ⟨c', (hm c').mp h2, h1⟩
      rcases h.addComponent_spec he hct hW hv (fun _ _ s hs =>
        hu (h.live_iff.mpr ⟨f, hx⟩) s (hs.congr hadd)) with ⟨h1, _⟩ | ⟨h1, _⟩ | ⟨h1, _⟩ | ⟨_, _, _, r1, cs1, h1, h2, _⟩
      · rw [h1] at hrun; cases hrun; exact Nat.le_succ _
      · rw [h1] at hrun; cases hrun
      · rw [h1] at hrun; cases hrun
      · rw [h1] at hrun; cases hrun; exact h2.count
  | remove e c =>
    obtain ⟨hW, hu⟩ := hadm
    simp only [Call.run] at hrun
    show _ ≤ _ + 1
    cases hx : r.look env cs e with
    | none =>
      rw [removeComponent_dead (h.look_none.mp hx)] at hrun; cases hrun; exact Nat.le_succ _
    | some f =>
      obtain ⟨en, a, ct, he, ha, hct, hr, hfe, hm⟩ := h.stored_at hx
      have hrem : ∀ i, RemovedIds ct.cts c i ↔ (i ≠ c.id ∧ HasId W r e i) := by
        intro i
        unfold RemovedIds
        rw [h.hasId_iff hx]
        constructor
        · rintro ⟨c', h1, h2, h3⟩
          refine ⟨fun hi => h2 (W.id_inj (hr.desc.has _ h1) hW (h3.trans hi)), c', h3, (hm c').mpr h1⟩
        · rintro ⟨h1, c', h2, h3⟩
          exact ⟨c', (hm c').mp h3, fun hc => h1 (by rw [← h2, hc]), h2⟩
      rcases h.removeComponent_spec he hct hW (fun q1 q2 _ s hs =>
        hu (h.live_iff.mpr ⟨f, hx⟩) s (by
          obtain ⟨c', m1, m2⟩ := exists_ne_of_two hr.nodup q2 c
          have := (hs.2 c'.id).mpr ⟨c', m1, m2, rfl⟩
          intro hnil; rw [hnil] at this; cases this) (hs.congr hrem)) with ⟨h1, _⟩ | ⟨h1, _⟩ | ⟨h1, _⟩ | ⟨_, _, _, _, r1, cs1, v, _, h1, h2, _⟩
      · rw [h1] at hrun; cases hrun; exact Nat.le_succ _
      · rw [h1] at hrun; cases hrun
      · rw [h1] at hrun; cases hrun
      · rw [h1] at hrun; cases hrun; exact h2.count
  | write e c v =>
    simp only [Call.run] at hrun
    cases hy : r.replaceComponent env c e v with
    | error f => rw [hy] at hrun; cases hrun
    | ok x =>
      have := replaceComponent_count hy
      rw [hy] at hrun
      obtain ⟨r1, o⟩ := x
      cases o <;> cases hrun <;> simp_all
  | writeIn g e j v =>
    simp only [Call.run] at hrun
    cases hy : r.getComponentsMut env g e with
    | error f => rw [hy] at hrun; cases hrun
    | ok o =>
      rw [hy] at hrun
      simp only [ok_bind] at hrun
      split at hrun
      · cases hrun; simp
      · split at hrun
        · rename_i ai ps _ c p _
          cases hz : r.replaceAt ai c p v with
          | error f => rw [hz] at hrun; cases hrun
          | ok x =>
            have := replaceAt_count hz
            rw [hz] at hrun; cases hrun
            rw [this]; simp
        · cases hrun; simp
  | writeIter it g n j k v =>
    simp only [Call.run] at hrun
    cases hy : it.items env r g with
    | error f => rw [hy] at hrun; cases hrun
    | ok o =>
      rw [hy] at hrun
      simp only [ok_bind] at hrun
      split at hrun
      · cases hrun; simp
      · split at hrun
        · cases hrun; simp
        · rename_i ai ss _ _ s _
          split at hrun
          · cases hz : r.replaceAt ai s.cty (s.elem k) v with
            | error f => rw [hz] at hrun; cases hrun
            | ok x =>
              have := replaceAt_count hz
              rw [hz] at hrun; cases hrun
              rw [this]; simp
          · cases hrun; simp

/-- A history makes at most one archetype per call that reshapes an entity. -/
theorem Steps.count {hist : List (Call × Outcome)} (hs : Steps env (Call.Admissible W) Registry.default hist r) :
    r.archetypes.archetypes.length ≤ (hist.filter (fun x => x.1.reshapes)).length := by
  induction hs with
  | nil => simp [Registry.default, ArchetypeRegistry.default]
  | snoc h1 h2 h3 ih =>
    obtain ⟨cs, h⟩ := h1.inv (fun _ _ h => h) (RInv.empty W)
    have := h.step_count h2 h3
    rw [List.filter_append, List.length_append, List.filter_cons]
    split at this <;> simp_all <;> omega

/-- Different positions hold different keys. -/
theorem ARInv.key_inj {ar : ArchetypeRegistry} {cs : List Content} (h : ARInv W ar cs) {i j : Nat} {a b : Archetype}
    (ha : ar.archetypes[i]? = some a) (hb : ar.archetypes[j]? = some b) (hl : a.descriptor.len = b.descriptor.len)
    (hid : a.descriptor.archetypeId = b.descriptor.archetypeId) : i = j := by
  obtain ⟨keys, k, h1, h2, h3⟩ := h.cover i a ha
  obtain ⟨keys', k', h1', h2', h3'⟩ := h.cover j b hb
  rw [← hl, h1] at h1'
  cases h1'
  obtain ⟨a1, q1, _, q3⟩ := h.keys _ _ h1 k h2
  obtain ⟨b1, p1, _, p3⟩ := h.keys _ _ h1 k' h2'
  rw [h3, ha] at q1; cases q1
  rw [h3', hb] at p1; cases p1
  have hkk : k.id = k'.id := by rw [← q3, ← p3, hid]
  have hs := h.sorted _ _ h1
  obtain ⟨m, hm⟩ := List.mem_iff_getElem?.mp h2
  obtain ⟨m', hm'⟩ := List.mem_iff_getElem?.mp h2'
  have hmm : m = m' := by
    have e1 : (keys.map (fun k => k.id.toNat))[m]? = some k.id.toNat := by rw [List.getElem?_map, hm]; rfl
    have e2 : (keys.map (fun k => k.id.toNat))[m']? = some k'.id.toNat := by rw [List.getElem?_map, hm']; rfl
    rw [List.getElem?_eq_some_iff] at e1 e2
    obtain ⟨l1, e1⟩ := e1
    obtain ⟨l2, e2⟩ := e2
    rcases Nat.lt_trichotomy m m' with hlt | heq | hgt
    · have := List.pairwise_iff_getElem.mp hs m m' l1 l2 hlt
      rw [e1, e2, hkk] at this
      omega
    · exact heq
    · have := List.pairwise_iff_getElem.mp hs m' m l2 l1 hgt
      rw [e1, e2, hkk] at this
      omega
  subst hmm
  rw [hm] at hm'; cases hm'
  omega

/-- Every component set in use has at most two archetypes. -/
theorem ARInv.few {ar : ArchetypeRegistry} {cs : List Content} (h : ARInv W ar cs) {L : List (List UInt16)}
    (hL : ∀ s, W.Used s → s ∈ L) : ar.archetypes.length ≤ 2 * L.length := by
  let key : Archetype → Nat × UInt32 := fun a => (a.descriptor.len, a.descriptor.archetypeId)
  let all : List (Nat × UInt32) := L.map (fun s => (s.length, plainId env s)) ++ L.map (fun s => (s.length, groupId env s))
  have hn : (ar.archetypes.map key).Nodup := by
    unfold List.Nodup
    rw [List.pairwise_iff_getElem]
    intro i j hi hj hlt heq
    rw [List.length_map] at hi hj
    simp only [List.getElem_map, key, Prod.mk.injEq] at heq
    have := h.key_inj (List.getElem?_eq_getElem hi) (List.getElem?_eq_getElem hj) heq.1 heq.2
    omega
  have hsub : ∀ x ∈ ar.archetypes.map key, x ∈ all := by
    intro x hx
    obtain ⟨a, ha, rfl⟩ := List.mem_map.mp hx
    obtain ⟨i, hi⟩ := List.mem_iff_getElem?.mp ha
    obtain ⟨ct, _, hr⟩ := h.content hi
    have hd := hr.desc
    have hlen : a.descriptor.len = a.descriptor.ids.length := by
      rw [hd.ids_eq, List.length_map]; exact hd.length.symm
    simp only [key, all, List.mem_append, List.mem_map, Prod.mk.injEq]
    rcases hd.id with hid | hid
    · exact Or.inl ⟨_, hL _ hd.used, hlen.symm, hid.symm⟩
    · exact Or.inr ⟨_, hL _ hd.used, hlen.symm, hid.symm⟩
  have := hn.length_le_of_subset hsub
  simp only [all, List.length_append, List.length_map] at this
  omega

end Shard
