import Verif.Proofs.Registry
/-!
# The registry: creation
-/

namespace Shard

variable {env : Env} {W : World env}

theorem lookupTy_isSome {g : Group} {vals : List Val} (ht : TypedVals g vals) (hg : g.Nodup) {c : CompTy} (hc : c ∈ g) :
    ∃ v, lookupTy g vals c = some v ∧ v.HasTy c := by
  obtain ⟨j, hj, rfl⟩ := List.mem_iff_getElem.mp hc
  obtain ⟨v, _, h2, h3⟩ := ht.lookup hg hj
  exact ⟨v, h2, h3⟩

theorem map_lookupTy {g : Group} {vals : List Val} (ht : TypedVals g vals) (hg : g.Nodup) :
    g.map (fun c => (lookupTy g vals c).getD default) = vals := by
  apply List.ext_getElem?
  intro j
  rw [List.getElem?_map]
  by_cases hj : j < g.length
  · obtain ⟨v, h1, h2, _⟩ := ht.lookup hg hj
    rw [List.getElem?_eq_getElem hj, h1]
    simp [h2]
  · rw [List.getElem?_eq_none (l := g) (by omega), List.getElem?_eq_none (l := vals) (by rw [ht.1]; omega)]
    rfl

theorem Group.cts_perm_self {g : Group} (gs : GroupSpec env g) (hg : W.OkGroup g) {cts : List CompTy} (hn : cts.Nodup)
    (h : cts = g.cts env) : cts.Perm g := by
  rw [List.perm_ext_iff_of_nodup hn gs.wf.nodup']
  intro c
  rw [h, gs.mem_cts hg]

/-- What a successful creation of `e` with the values `vals` of `g` does. -/
structure CreatedAt (W : World env) (r : Registry) (cs : List Content) (e : Entity) (g : Group) (vals : List Val)
    (r' : Registry) (cs' : List Content) : Prop where
  inv : RInv W r' cs'
  dead : r.look env cs e = none
  look : ∀ x, r'.look env cs' x = if x = e then some (fun c => lookupTy g vals c) else r.look env cs x
  stored : (stored cs').Perm (stored cs ++ vals)
  table : ∃ iia ai, EntityRegistry.Created env r.entities r'.entities e iia ai
  step : ArchStep r.archetypes r'.archetypes
  stay : ∀ x, x ≠ e → r'.archOf env x = r.archOf env x
  home : Home env r' e g.idSet (groupId env g.idSet)
  count : r'.archetypes.archetypes.length ≤ r.archetypes.archetypes.length + 1
  reuse : HasArchetype r.archetypes g.length (groupId env g.idSet) →
    r'.archetypes.archetypes.length = r.archetypes.archetypes.length
  /-- a row with the values in column order is appended in the archetype that is found or created -/
  rows : ∃ ar1 cs1 ai ct, r.archetypes.findOrCreateArchetype env (g.descriptor env).archetype = .ok (ar1, some ai) ∧
    ARInv W ar1 cs1 ∧ Grown r.archetypes cs ar1 cs1 ∧ cs1[ai.toNat]? = some ct ∧ ct.cts = g.cts env ∧
    ct.ents.length < 8388608 ∧ cs' = cs1.set ai.toNat (ct.push e (sortVals ct.cts g vals)) ∧ SameDescs ar1 r'.archetypes

theorem createEntity_invalid {r : Registry} {g : Group} {vals : List Val} (hv : (g.descriptor env).isValid = false) :
    r.createEntity env g vals = .ok (r, .err vals) := by
  unfold Registry.createEntity
  rw [if_pos (by simp [hv])]

theorem IndexInArchetype.new_ofNat {n : Nat} (h : n < 16777215) :
    IndexInArchetype.new (UInt32.ofNat n) = some ⟨UInt32.ofNat n⟩ ∧ (UInt32.ofNat n).toNat = n := by
  have hn : (UInt32.ofNat n).toNat = n := by
    rw [UInt32.toNat_ofNat']; omega
  refine ⟨?_, hn⟩
  unfold IndexInArchetype.new
  rw [if_neg]
  rw [UInt32.le_iff_toNat_le, hn]
  have : IndexInArchetype.INVALID_VALUE.toNat = 16777215 := rfl
  omega

theorem ArchetypeIndex.new_ok {ai : UInt16} (h : ai ≠ 65535) : ArchetypeIndex.new ai = some ⟨ai⟩ := by
  unfold ArchetypeIndex.new
  rw [if_neg (show ¬ ai = INVALID_VALUE from h)]

/-- `create_entity` with a valid group: success, a refusal that changes nothing visible, or the fault at `2^23` rows. -/
theorem RInv.createEntity_spec {r : Registry} {cs : List Content} (h : RInv W r cs) {g : Group} (hg : W.OkGroup g)
    (hv : (g.descriptor env).isValid = true) {vals : List Val} (ht : TypedVals g vals) :
    (∃ r' cs' e, r.createEntity env g vals = .ok (r', .ok e) ∧ CreatedAt W r cs e g vals r' cs' ∧
      r.entities.entities.length < MAX_ENTITY_HANDLE_VALUE ∧ Room r.archetypes g.length (groupId env g.idSet)) ∨
    (∃ r' cs', r.createEntity env g vals = .ok (r', .err vals) ∧ RInv W r' cs' ∧ r'.entities = r.entities ∧
      Grown r.archetypes cs r'.archetypes cs' ∧
      (HasArchetype r.archetypes g.length (groupId env g.idSet) → r'.archetypes = r.archetypes) ∧
      ((r' = r ∧ ¬ Room r.archetypes g.length (groupId env g.idSet)) ∨
        (r.entities.entities.length = MAX_ENTITY_HANDLE_VALUE ∧ Room r.archetypes g.length (groupId env g.idSet))) ∧
      ((r' = r ∧ r.archetypes.findOrCreateArchetype env (g.descriptor env).archetype = .ok (r.archetypes, none)) ∨
        (r.entities.entities.length = MAX_ENTITY_HANDLE_VALUE ∧
          ∃ ai, r.archetypes.findOrCreateArchetype env (g.descriptor env).archetype = .ok (r'.archetypes, some ai)))) ∨
    (r.createEntity env g vals = (if env.debug then .error (.panic .debugAssert) else .error (.ub .nullDeref)) ∧
      r.entities.entities.length < MAX_ENTITY_HANDLE_VALUE ∧ Room r.archetypes g.length (groupId env g.idSet) ∧
      ∃ (ai : Nat) (ct : Content), cs[ai]? = some ct ∧ (∀ c, c ∈ ct.cts ↔ c ∈ g) ∧ ct.ents.length = 8388608 ∧
        ∃ ar1 ai', r.archetypes.findOrCreateArchetype env (g.descriptor env).archetype = .ok (ar1, some ai') ∧
          ai'.toNat = ai) := by
  have gs := Group.spec hv
  have hle := h.ents.len_le
  have hrw : ∀ P : Nat → UInt32 → Prop, P (g.descriptor env).archetype.len (g.descriptor env).archetype.archetypeId →
      P g.length (groupId env g.idSet) := by
    intro P hP
    rw [← gs.len, ← gs.ids_eq, ← gs.archetypeId_eq]; exact hP
  rcases h.arch.focus (Group.descOK hg hv) with ⟨h1, h2⟩ | ⟨ar', cs', ai, a, ct, h1, h2, h3, h4, h5, h6, h7, h8, h9, h10, hroom, hfound⟩
  · right; left
    refine ⟨r, cs, ?_, h, rfl, Or.inl ⟨rfl, rfl⟩, fun _ => rfl, Or.inl ⟨rfl, hrw (fun n i => ¬ Room r.archetypes n i) h2⟩,
      Or.inl ⟨rfl, h1⟩⟩
    unfold Registry.createEntity
    rw [if_neg (by simp [hv]), h1]
    rfl
  · replace hroom := hrw (fun n i => Room r.archetypes n i) hroom
    replace hfound := hrw (fun n i => HasArchetype r.archetypes n i → ar' = r.archetypes) hfound
    have hcl := h6.ents.len
    have hcap := h6.cap.le
    have hn : ct.ents.length < 16777215 := by omega
    obtain ⟨n1, n2⟩ := IndexInArchetype.new_ofNat hn
    have hp' := h3.placed h.placed
    rcases Nat.lt_or_ge r.entities.entities.length MAX_ENTITY_HANDLE_VALUE with hlt | hge
    · obtain ⟨re', e, c1, c2⟩ := EntityRegistry.createEntity_ok (iia := ⟨UInt32.ofNat ct.ents.length⟩) (ai := ⟨ai⟩) h.ents hlt
        (by show (UInt32.ofNat ct.ents.length).toNat < _; rw [n2]; omega) h10
      have hred : r.createEntity env g vals = (do
          let p ← a.pushEntityUnchecked env e g vals
          return (⟨re', ar'.setArchetype ai.toNat p.1⟩, .ok e)) := by
        unfold Registry.createEntity
        rw [if_neg (by simp [hv]), h1]
        simp only [ok_bind]
        rw [index_of_getElem? h4]
        simp only [ok_bind]
        rw [h6.count, n1, ArchetypeIndex.new_ok h10]
        simp only [unwrap, ok_bind]
        rw [c1]
        rfl
      rcases Nat.lt_or_ge ct.ents.length 8388608 with hlt' | hge'
      · left
        obtain ⟨a', p1, p2, p3, p4⟩ := h6.push_spec hg gs h7 h9.symm e ht hlt'
        obtain ⟨d1, d2, d3⟩ := c2.entry h.ents
        have hloc : re'.loc env = locPush (r.entities.loc env) e ai.toNat ct.ents.length := by
          funext x
          unfold locPush
          by_cases hx : x = e
          · subst hx
            rw [if_pos rfl, d2]
            show some (ai.toNat, (UInt32.ofNat ct.ents.length).toNat) = _
            rw [n2]
          · rw [if_neg hx]
            unfold EntityRegistry.loc
            rw [d3 x hx]
        have hs : (sortVals ct.cts g vals).length = ct.cts.length := sortVals_length _ _ _
        have hdead := EntityRegistry.loc_eq_none.mpr d1
        refine ⟨⟨re', ar'.setArchetype ai.toNat a'⟩, cs'.set ai.toNat (ct.push e (sortVals ct.cts g vals)), e, ?_, ⟨⟨?_, c2.inv, ?_⟩, ?_, ?_, ?_, ?_, ?_, ?_, ?_, ?_, ?_,
          ar', cs', ai, ct, h1, h2, h3, h5, h7, hlt', rfl, SameDescs.set rfl h4 p2⟩, hlt, hroom⟩
        · rw [hred, p1]; rfl
        · exact h2.set h4 p2 p4
        · show Placed (re'.loc env) _
          rw [hloc]
          exact hp'.push hdead h5 rfl
        · exact h.look_none.mpr d1
        · intro x
          show Shard.look (re'.loc env) _ x = _
          rw [hloc, look_push hp' h6 h5 hs x, h3.look_eq h.placed]
          split
          · congr 1
            funext c
            rw [lookupTy_sortVals h6.nodup]
            split
            · next hc =>
              obtain ⟨v, hv, _⟩ := lookupTy_isSome ht gs.wf.nodup' ((gs.mem_cts hg).mp (h7 ▸ hc))
              rw [hv]; rfl
            · next hc =>
              rw [lookupTy_none]
              intro hcg
              exact hc (h7 ▸ (gs.mem_cts hg).mpr hcg)
          · rfl
        · refine (stored_push h6 h5 hs).trans ?_
          rw [h3.stored_eq]
          apply List.Perm.append_left
          conv => rhs; rw [← map_lookupTy ht gs.wf.nodup']
          exact (Group.cts_perm_self gs hg h6.nodup h7).map _
        · exact ⟨_, _, c2⟩
        · refine ArchStep.after_grown h3 (ArchStep.set h4 p2 ?_) (by simp [ArchetypeRegistry.setArchetype])
          have hcnt := h6.count
          by_cases hf : ct.ents.length = a.capacity
          · rw [if_pos hf] at p3
            refine Or.inr ⟨p3, by omega, ?_⟩
            rw [p4.count, hcnt]; simp [Content.push]
          · rw [if_neg hf] at p3
            exact Or.inl p3
        · intro x hx
          show (re'.loc env x).map _ = _
          rw [hloc]
          unfold locPush
          rw [if_neg hx]; rfl
        · refine ⟨ai.toNat, a', ?_, List.getElem?_set_self (List.getElem?_eq_some_iff.mp h4).1, ?_, ?_⟩
          · show (re'.loc env e).map _ = _
            rw [hloc]
            unfold locPush
            rw [if_pos rfl]; rfl
          · rw [p2, h6.desc.ids_eq, h7, ← (Group.descOK hg hv).ids_eq, gs.ids_eq]
          · rw [p2, h9, gs.archetypeId_eq, gs.ids_eq]
        · show (ar'.archetypes.set _ _).length ≤ _
          rw [List.length_set]
          rcases h3 with ⟨rfl, _⟩ | ⟨b, cts, hb, _⟩
          · omega
          · rw [hb]; simp
        · intro hh
          show (ar'.archetypes.set _ _).length = _
          rw [List.length_set, hfound hh]
      · right; right
        have hfull : ct.ents.length = 8388608 := by omega
        refine ⟨?_, hlt, hroom, ai.toNat, ct, ?_, ?_, hfull, ar', ai, h1, rfl⟩
        · rw [hred, h6.push_full hg gs h7 h9.symm e ht hfull]
          cases env.debug <;> rfl
        · rcases h3 with ⟨_, rfl⟩ | ⟨b, cts, _, _, _, rfl⟩
          · exact h5
          · rw [List.getElem?_append] at h5
            split at h5
            · exact h5
            · rw [List.getElem?_singleton] at h5
              split at h5
              · cases h5
                simp [Content.empty] at hfull
              · cases h5
        · intro c; rw [h7, gs.mem_cts hg]
    · right; left
      refine ⟨⟨r.entities, ar'⟩, cs', ?_, ⟨h2, h.ents, hp'⟩, rfl, h3, hfound, Or.inr ⟨by omega, hroom⟩,
        Or.inr ⟨by omega, ai, h1⟩⟩
      unfold Registry.createEntity
      rw [if_neg (by simp [hv]), h1]
      simp only [ok_bind]
      rw [index_of_getElem? h4]
      simp only [ok_bind]
      rw [h6.count, n1, ArchetypeIndex.new_ok h10]
      simp only [unwrap, ok_bind]
      rw [EntityRegistry.createEntity_full hge]
      rfl

end Shard
