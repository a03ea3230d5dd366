import Verif.Proofs.UnsafeContracts
import Verif.Proofs.Progress
/-!
# Moving an entity into a full archetype breaks a contract
-/

set_option autoImplicit false

namespace Shard.UnsafeCalls

variable {env : Env} {W : World env} {r : Registry} {cs : List Content}

/-- Fixing the entry of the entity that was swapped in. -/
theorem fixSwap_swapped (h : RInv W r cs) {e : Entity} {en : EntityEntry} (he : r.entities.entityEntry env e = some en)
    {ct : Content} (hc : cs[(en.archetypeIndex env).toNat]? = some ct) {a' : Archetype}
    (hk : en.indexInArchetype.value.toNat < ct.ents.length)
    (hr : Rep W a' (ct.swap en.indexInArchetype.value.toNat (ct.ents.length - 1))) :
    ∃ m, ((if decide (en.indexInArchetype.value.toNat ≠ ct.ents.length - 1) = true then do
        let sw ← a'.entityAt en.indexInArchetype.value.toNat
        unwrap (r.entities.updateEntry env sw (fun x => x.setIndexInArchetype en.indexInArchetype))
      else .ok r.entities) : M EntityRegistry) = .ok m := by
  obtain ⟨m, m1, _⟩ := h.fixSwap he hc (a'.entityAt en.indexInArchetype.value.toNat) (by
    intro hne sw hsw
    refine hr.entityAt_ok ?_
    show (swapAt ct.ents _ _)[_]? = _
    rw [getElem?_swapAt hk (by omega), if_neg hne, if_pos rfl]
    exact hsw)
  exact ⟨m, m1⟩

theorem valid_id {d : ArchetypeDescriptor} (h : d.isValid = true) : d.archetypeId ≠ ARCHETYPE_ID_INVALID := by
  intro e
  unfold ArchetypeDescriptor.isValid at h
  rw [e] at h
  simp at h

/-- The target of a move is the archetype that takes the types. -/
theorem target_eq {ar' : ArchetypeRegistry} {cs' : List Content} {P Q : CompTy → Prop} {si : Nat} {dai : UInt16}
    {b : Archetype} {ctD : Content} (h : RInv W r cs) (hT : Target W r.archetypes cs si P ar' cs' dai b ctD)
    (hPQ : ∀ c, W.Has c → (P c ↔ Q c)) {a : Archetype} (ha : a ∈ r.archetypes.archetypes) (ht : Takes W a Q) : b = a := by
  obtain ⟨j, hj⟩ := List.mem_iff_getElem?.mp ha
  obtain ⟨ct, hc, hr⟩ := h.arch.content hj
  have hj' := hT.grown.getA hj
  have hcts : ∀ c, c ∈ ctD.cts ↔ c ∈ ct.cts := by
    intro c
    constructor
    · intro hx
      have hW := hT.rep.desc.has c hx
      exact (present_iff hr hW).mp ((ht.1 c hW).mpr ((hPQ c hW).mp ((hT.cts c).mp hx)))
    · intro hx
      have hW := hr.desc.has c hx
      exact (hT.cts c).mpr ((hPQ c hW).mpr ((ht.1 c hW).mp ((present_iff hr hW).mpr hx)))
  have hids : b.descriptor.ids = a.descriptor.ids := by
    refine AscSet.unique (P := fun i => i ∈ a.descriptor.ids) ⟨hT.rep.desc.wf.ids_sorted, fun i => ?_⟩
      ⟨hr.desc.wf.ids_sorted, fun _ => Iff.rfl⟩
    show i ∈ b.descriptor.ids ↔ i ∈ a.descriptor.ids
    rw [hT.rep.desc.ids_eq, hr.desc.ids_eq, List.mem_map, List.mem_map]
    simp only [hcts]
  have := hT.inv.unique_index hT.arch hj' (by rw [← hT.rep.desc.wf.ids_length, ← hr.desc.wf.ids_length, hids])
    (by rw [hT.id, hids]; exact ht.2.symm)
  have h1 := hT.arch
  rw [this, hj'] at h1
  cases h1; rfl

/-- Moving an entity into an archetype that is full breaks the contract of `copy_common_components`. -/
theorem addComponent_breaks (h : RInv W r cs) {e : Entity} {c : CompTy} {v : Val} (hW : W.Has c)
    (hu : Live env r e → ∀ s, AscSet s (fun i => i = c.id ∨ HasId W r e i) → W.Used s)
    (hk : Keeps Good (addComponent env r e c v)) (hl : Live env r e) (hno : r.hasComponent env c e ≠ .ok true)
    {d : Archetype} (hd : d ∈ r.archetypes.archetypes)
    (ht : Takes W d (fun c' => c' = c ∨ r.hasComponent env c' e = .ok true)) (hlen : d.descriptor.len ≤ 13) :
    d.entityCount < 8388608 := by
  obtain ⟨en, he⟩ := (mem_iter h.ents).mp hl
  obtain ⟨a, ct, ha, hc, hr, hkk, _, hlook⟩ := h.entry he
  have hkl := (List.getElem?_eq_some_iff.mp hkk).1
  obtain ⟨en', a0, ct0, he', ha', hc', hr', hf, hm⟩ := h.stored_at hlook
  rw [he] at he'; cases he'
  rw [hc] at hc'; cases hc'
  have hids : ∀ i, AddedIds ct.cts c i ↔ (i = c.id ∨ HasId W r e i) := by
    intro i
    unfold AddedIds
    rw [h.hasId_iff hlook]
    constructor
    · rintro (hi | ⟨c', h1, h2⟩)
      · exact Or.inl hi
      · exact Or.inr ⟨c', h2, (hm c').mpr h1⟩
    · rintro (hi | ⟨c', h1, h2⟩)
      · exact Or.inl hi
      · exact Or.inr ⟨c', (hm c').mp h2, h1⟩
  have hcn : c ∉ ct.cts := fun hx => hno ((h.has_iff hlook hW).mpr ((hm c).mpr hx))
  have hPQ : ∀ c', W.Has c' → ((fun c' => c' = c ∨ c' ∈ ct.cts) c' ↔ (fun c' => c' = c ∨ r.hasComponent env c' e = .ok true) c') := by
    intro c' hc'
    simp only []
    rw [h.has_iff hlook hc', hm c']
  obtain ⟨j, hj⟩ := List.mem_iff_getElem?.mp hd
  obtain ⟨ctd, hcd, hrd⟩ := h.arch.content hj
  have hmem : ∀ c', c' ∈ ctd.cts ↔ (fun c' => c' = c ∨ c' ∈ ct.cts) c' := by
    intro c'
    constructor
    · intro hx
      have hW' := hrd.desc.has c' hx
      exact (hPQ c' hW').mpr ((ht.1 c' hW').mp ((present_iff hrd hW').mpr hx))
    · intro hx
      have hW' : W.Has c' := by
        rcases hx with rfl | hx
        · exact hW
        · exact hr.desc.has c' hx
      exact (present_iff hrd hW').mp ((ht.1 c' hW').mpr ((hPQ c' hW').mp hx))
  have hdl := hrd.desc.length
  have hct : ct.cts.length ≤ 12 := by
    have := nodup_length_le (l1 := c :: ct.cts) (l2 := ctd.cts) (List.nodup_cons.mpr ⟨hcn, hr.nodup⟩)
      (fun c' hc' => (hmem c').mpr (List.mem_cons.mp hc'))
    simp only [List.length_cons] at this
    omega
  have hasc : AscSet d.descriptor.ids (AddedIds ct.cts c) := by
    refine ⟨hrd.desc.wf.ids_sorted, fun i => ?_⟩
    rw [hrd.desc.ids_eq, List.mem_map]
    unfold AddedIds
    constructor
    · rintro ⟨c', h1, rfl⟩
      rcases (hmem c').mp h1 with rfl | h1
      · exact Or.inl rfl
      · exact Or.inr ⟨c', h1, rfl⟩
    · rintro (rfl | ⟨c', h1, rfl⟩)
      · exact ⟨c, (hmem c).mpr (Or.inl rfl), rfl⟩
      · exact ⟨c', (hmem c').mpr (Or.inr h1), rfl⟩
  have hroom : ∀ s, AscSet s (AddedIds ct.cts c) → Room r.archetypes s.length (plainId env s) := by
    intro s hs
    rw [hs.unique hasc]
    refine ⟨?_, Or.inl ⟨d, hd, hrd.desc.wf.ids_length.symm, ht.2⟩⟩
    show plainId env (d.descriptor.components.map (fun c => c.id)) ≠ _
    rw [← ht.2]
    exact valid_id hrd.desc.valid
  rcases h.arch.adding_spec ha hc hW (fun _ _ s hs => hu hl s (hs.congr hids)) with
    ⟨_, q | q | ⟨_, s, q1, q2⟩⟩ | ⟨_, _, q⟩ | ⟨f1, f2, f4, ar', cs', dai, b, ctD, f3, hT⟩
  · exact absurd q hcn
  · omega
  · exact absurd (hroom s q1) q2
  · omega
  · have hb : b = d := target_eq h hT hPQ hd ht
    subst hb
    rcases Nat.lt_or_ge b.entityCount 8388608 with hlt | hge
    · exact hlt
    · exfalso
      have hcnt := hT.rep.count
      have hle := hT.rep.ents.len
      have hcap := hT.rep.cap.le
      obtain ⟨a', z1, z2⟩ := hT.rep.resize_full (env := env) (by omega)
      obtain ⟨a1, s1, s2, s3, s4⟩ := hr.swapToLast_spec (env := env) hkl
      obtain ⟨m, m1⟩ := fixSwap_swapped h he hc hkl s4
      have hs4 := s4.count
      have hl1 : (ct.swap en.indexInArchetype.value.toNat (ct.ents.length - 1)).ents.length = ct.ents.length := by
        simp [Content.swap, swapAt_length]
      have hmove : UCall.copyCommon a1 (ct.ents.length - 1) { a' with entityCount := a'.entityCount + 1 } a'.entityCount ∈
          (addComponent env r e c v).calls := by
        unfold addComponent
        rw [he]
        refine mem_bind.mpr (Or.inr ⟨_, f3, ?_⟩)
        refine mem_bind.mpr (Or.inr ⟨_, index_of_getElem? (hT.grown.getA ha), ?_⟩)
        refine mem_bind.mpr (Or.inr ⟨_, index_of_getElem? hT.arch, ?_⟩)
        refine mem_bind.mpr (Or.inr ⟨_, (swapToLast_res env a _).trans s1, ?_⟩)
        refine mem_bind.mpr (Or.inr ⟨m, m1, ?_⟩)
        refine mem_bind.mpr (Or.inr ⟨({ a' with entityCount := a'.entityCount + 1 }, a'.entityCount), ?_, ?_⟩)
        · show b.pushUninitializedEntity env = _
          unfold Archetype.pushUninitializedEntity
          rw [z1]; rfl
        refine mem_bind.mpr (Or.inr ⟨ct.ents.length - 1, ?_, ?_⟩)
        · show subU32 env a1.entityCount 1 = _
          rw [subU32_le (by omega), hs4, hl1]
        refine mem_bind.mpr (Or.inr ⟨a'.entityCount, ?_, ?_⟩)
        · show subU32 env (a'.entityCount + 1) 1 = _
          rw [subU32_le (by omega)]; rfl
        exact mem_bind.mpr (Or.inl (mem_bind.mpr (Or.inl (List.mem_singleton.mpr rfl))))
      have := (hk _ hmove trivial).2.2
      replace this : a'.entityCount < a'.capacity := this
      rw [z2.cap] at this
      omega

/-- Moving an entity into an archetype that is full breaks the contract of `copy_common_components`. -/
theorem removeComponent_breaks (h : RInv W r cs) {e : Entity} {c : CompTy} (hW : W.Has c)
    (hu : Live env r e → ∀ s, s ≠ [] → AscSet s (fun i => i ≠ c.id ∧ HasId W r e i) → W.Used s)
    (hk : Keeps Good (removeComponent env r e c)) (hl : Live env r e) (hno : r.hasComponent env c e = .ok true)
    {d : Archetype} (hd : d ∈ r.archetypes.archetypes)
    (ht : Takes W d (fun c' => c' ≠ c ∧ r.hasComponent env c' e = .ok true)) (hlen : d.descriptor.len ≤ 12) :
    d.entityCount < 8388608 := by
  obtain ⟨en, he⟩ := (mem_iter h.ents).mp hl
  obtain ⟨a, ct, ha, hc, hr, hkk, _, hlook⟩ := h.entry he
  have hkl := (List.getElem?_eq_some_iff.mp hkk).1
  obtain ⟨en', a0, ct0, he', ha', hc', hr', hf, hm⟩ := h.stored_at hlook
  rw [he] at he'; cases he'
  rw [hc] at hc'; cases hc'
  have hids : ∀ i, RemovedIds ct.cts c i ↔ (i ≠ c.id ∧ HasId W r e i) := by
    intro i
    unfold RemovedIds
    rw [h.hasId_iff hlook]
    constructor
    · rintro ⟨c', h1, h2, rfl⟩
      refine ⟨fun hid => h2 (W.id_inj (hr.desc.has _ h1) hW hid), c', rfl, (hm c').mpr h1⟩
    · rintro ⟨h1, c', rfl, h2⟩
      exact ⟨c', (hm c').mp h2, fun hc => h1 (congrArg _ hc), rfl⟩
  have hcn : c ∈ ct.cts := (hm c).mp ((h.has_iff hlook hW).mp hno)
  have hPQ : ∀ c', W.Has c' → ((fun c' => c' ≠ c ∧ c' ∈ ct.cts) c' ↔ (fun c' => c' ≠ c ∧ r.hasComponent env c' e = .ok true) c') := by
    intro c' hc'
    simp only []
    rw [h.has_iff hlook hc', hm c']
  obtain ⟨j, hj⟩ := List.mem_iff_getElem?.mp hd
  obtain ⟨ctd, hcd, hrd⟩ := h.arch.content hj
  have hmem : ∀ c', c' ∈ ctd.cts ↔ (fun c' => c' ≠ c ∧ c' ∈ ct.cts) c' := by
    intro c'
    constructor
    · intro hx
      have hW' := hrd.desc.has c' hx
      exact (hPQ c' hW').mpr ((ht.1 c' hW').mp ((present_iff hrd hW').mpr hx))
    · intro hx
      have hW' : W.Has c' := by
        exact hr.desc.has c' hx.2
      exact (present_iff hrd hW').mp ((ht.1 c' hW').mpr ((hPQ c' hW').mp hx))
  have hdl := hrd.desc.length
  have hct : ct.cts.length ≤ 13 := by
    have := nodup_length_le (l1 := ct.cts) (l2 := c :: ctd.cts) hr.nodup (fun c' hc' => by
      by_cases hx : c' = c
      · exact List.mem_cons.mpr (Or.inl hx)
      · exact List.mem_cons_of_mem _ ((hmem c').mpr ⟨hx, hc'⟩))
    simp only [List.length_cons] at this
    omega
  have hasc : AscSet d.descriptor.ids (RemovedIds ct.cts c) := by
    refine ⟨hrd.desc.wf.ids_sorted, fun i => ?_⟩
    rw [hrd.desc.ids_eq, List.mem_map]
    unfold RemovedIds
    constructor
    · rintro ⟨c', h1, rfl⟩
      obtain ⟨h2, h3⟩ := (hmem c').mp h1
      exact ⟨c', h3, h2, rfl⟩
    · rintro ⟨c', h1, h2, rfl⟩
      exact ⟨c', (hmem c').mpr ⟨h2, h1⟩, rfl⟩
  have hroom : ∀ s, AscSet s (RemovedIds ct.cts c) → Room r.archetypes s.length (plainId env s) := by
    intro s hs
    rw [hs.unique hasc]
    refine ⟨?_, Or.inl ⟨d, hd, hrd.desc.wf.ids_length.symm, ht.2⟩⟩
    show plainId env (d.descriptor.components.map (fun c => c.id)) ≠ _
    rw [← ht.2]
    exact valid_id hrd.desc.valid
  rcases h.arch.removing_spec ha hc hW (fun _ h2 _ s hs => by
      refine hu hl s ?_ (hs.congr hids)
      intro hnil
      obtain ⟨c', m1, m2⟩ := exists_ne_of_two hr.nodup h2 c
      have := (hs.2 c'.id).mpr ⟨c', m1, m2, rfl⟩
      rw [hnil] at this
      cases this) with
    ⟨_, q | q | ⟨_, _, s, q1, q2⟩⟩ | ⟨_, _, q⟩ | ⟨f1, f2, f5, f4, ar', cs', dai, b, ctD, f3, hT⟩
  · exact absurd hcn q
  · exfalso
    have hp := hrd.desc.pos
    obtain ⟨c', hx⟩ := List.exists_mem_of_length_pos (show 0 < ctd.cts.length by omega)
    obtain ⟨h1, h2⟩ := (hmem c').mp hx
    have := nodup_length_le (l1 := [c, c']) (l2 := ct.cts) (by simp [Ne.symm h1]) (fun y hy => by
      simp only [List.mem_cons, List.not_mem_nil, or_false] at hy
      rcases hy with rfl | rfl
      · exact hcn
      · exact h2)
    simp only [List.length_cons, List.length_nil] at this
    omega
  · exact absurd (hroom s q1) q2
  · omega
  · have hb : b = d := target_eq h hT hPQ hd ht
    subst hb
    rcases Nat.lt_or_ge b.entityCount 8388608 with hlt | hge
    · exact hlt
    · exfalso
      have hcnt := hT.rep.count
      have hle := hT.rep.ents.len
      have hcap := hT.rep.cap.le
      obtain ⟨a', z1, z2⟩ := hT.rep.resize_full (env := env) (by omega)
      obtain ⟨a1, s1, s2, s3, s4⟩ := hr.swapToLast_spec (env := env) hkl
      obtain ⟨m, m1⟩ := fixSwap_swapped h he hc hkl s4
      have hs4 := s4.count
      have hl1 : (ct.swap en.indexInArchetype.value.toNat (ct.ents.length - 1)).ents.length = ct.ents.length := by
        simp [Content.swap, swapAt_length]
      have hmove : UCall.copyCommon a1 (ct.ents.length - 1) { a' with entityCount := a'.entityCount + 1 } a'.entityCount ∈
          (removeComponent env r e c).calls := by
        unfold removeComponent
        rw [he]
        refine mem_bind.mpr (Or.inr ⟨_, f3, ?_⟩)
        refine mem_bind.mpr (Or.inr ⟨_, index_of_getElem? (hT.grown.getA ha), ?_⟩)
        refine mem_bind.mpr (Or.inr ⟨_, index_of_getElem? hT.arch, ?_⟩)
        refine mem_bind.mpr (Or.inr ⟨_, (swapToLast_res env a _).trans s1, ?_⟩)
        refine mem_bind.mpr (Or.inr ⟨m, m1, ?_⟩)
        refine mem_bind.mpr (Or.inr ⟨({ a' with entityCount := a'.entityCount + 1 }, a'.entityCount), ?_, ?_⟩)
        · show b.pushUninitializedEntity env = _
          unfold Archetype.pushUninitializedEntity
          rw [z1]; rfl
        refine mem_bind.mpr (Or.inr ⟨ct.ents.length - 1, ?_, ?_⟩)
        · show subU32 env a1.entityCount 1 = _
          rw [subU32_le (by omega), hs4, hl1]
        refine mem_bind.mpr (Or.inr ⟨a'.entityCount, ?_, ?_⟩)
        · show subU32 env (a'.entityCount + 1) 1 = _
          rw [subU32_le (by omega)]; rfl
        exact mem_bind.mpr (Or.inl (mem_bind.mpr (Or.inl (List.mem_singleton.mpr rfl))))
      have := (hk _ hmove trivial).2.2
      replace this : a'.entityCount < a'.capacity := this
      rw [z2.cap] at this
      omega

end Shard.UnsafeCalls
