import Verif.Spec.Width
import Verif.Props.Width
import Verif.Props.Footprint
/-!
# The registry on targets with narrow pointers: where it behaves as the rest of the model says
-/

set_option autoImplicit false

namespace Shard

variable {env : Env} {W : World env} {r : Registry} {cs : List Content} {w : Nat}

theorem bind_congr_ok {α β : Type} {m : M α} {f g : α → M β} (h : ∀ x, m = .ok x → f x = g x) : (m >>= f) = (m >>= g) := by
  cases m with
  | error e => rfl
  | ok x => exact h x rfl

theorem getElem?_of_index {α : Type} {l : List α} {i : Nat} {a : α} (h : index l i = .ok a) : l[i]? = some a := by
  unfold index at h
  split at h
  · next x hx => cases h; exact hx
  · cases h

/-- Sizes and alignments fit the `u16` fields. -/
def SmallDesc (d : ArchetypeDescriptor) : Prop := ∀ c ∈ d.components, c.size < 65536 ∧ c.align < 65536

theorem descriptor_small (c : CompTy) : c.descriptor.size < 65536 ∧ c.descriptor.align < 65536 :=
  ⟨Nat.mod_lt _ (by decide), Nat.mod_lt _ (by decide)⟩

/-- A new archetype always fits. -/
theorem SmallDesc.fits {d : ArchetypeDescriptor} (h : SmallDesc d) (hw : w = 32 ∨ w = 64) :
    Fits w d DEFAULT_ARCHETYPE_ALLOCATION_SIZE := by
  intro c hc
  obtain ⟨h1, h2⟩ := h c hc
  have hD : DEFAULT_ARCHETYPE_ALLOCATION_SIZE = 128 := rfl
  rw [hD]
  have hr : roundUp (c.size * 128) c.align ≤ c.size * 128 + c.align := by
    by_cases h0 : c.align = 0
    · rw [h0]
      unfold roundUp
      omega
    · exact Nat.le_of_lt (roundUp_lt (by omega))
  rcases hw with rfl | rfl
  · exact ⟨by omega, by omega⟩
  · exact ⟨by omega, by omega⟩

theorem SmallDesc.add {d nd : ArchetypeDescriptor} {cd : ComponentDescriptor} (hs : SmallDesc d) (h : WFDesc d)
    (hc : cd.size < 65536 ∧ cd.align < 65536) (hn : d.addComponent env cd = .ok (some nd)) : SmallDesc nd := by
  by_cases hp : cd.id ∈ d.ids
  · rw [ArchetypeDescriptor.addComponent_present h hp] at hn; cases hn
  · have hle : d.len ≤ 14 := h.len_le
    by_cases h14 : d.len = 14
    · rw [ArchetypeDescriptor.addComponent_full h14] at hn; cases hn
    · by_cases h13 : d.len = 13
      · rw [ArchetypeDescriptor.addComponent_thirteen h h13 hp] at hn; cases hn
      · obtain ⟨d', i, q1, _, _, _, q2, _⟩ := ArchetypeDescriptor.addComponent_spec (env := env) h (by omega) hp
        rw [q1] at hn
        injection hn with hn
        injection hn with hn
        subst hn
        intro c hm
        rw [q2] at hm
        rcases List.mem_append.mp hm with hm | hm
        · exact hs c (List.mem_of_mem_take hm)
        · rcases List.mem_cons.mp hm with rfl | hm
          · exact hc
          · exact hs c (List.mem_of_mem_drop hm)

theorem SmallDesc.remove {d nd : ArchetypeDescriptor} {id : UInt16} (hs : SmallDesc d) (h : WFDesc d)
    (hn : d.removeComponent env id = .ok (some nd)) : SmallDesc nd := by
  by_cases hp : id ∈ d.ids
  · have hle : d.len ≤ 14 := h.len_le
    have hpos := h.len_pos
    by_cases h1 : d.len = 1
    · rw [ArchetypeDescriptor.removeComponent_one h1] at hn; cases hn
    · by_cases h14 : d.len = 14
      · rw [ArchetypeDescriptor.removeComponent_fourteen h h14 hp] at hn; cases hn
      · obtain ⟨i, hi, he⟩ := h.mem_ids_iff.mp hp
        obtain ⟨d', q1, _, _, q2, _⟩ := ArchetypeDescriptor.removeComponent_spec (env := env) h (by omega) (by omega) hi he
        rw [q1] at hn
        injection hn with hn
        injection hn with hn
        subst hn
        intro c hm
        rw [q2] at hm
        exact hs c (List.mem_of_mem_eraseIdx hm)
  · rw [ArchetypeDescriptor.removeComponent_absent h hp] at hn; cases hn

theorem DescOK.small {d : ArchetypeDescriptor} {cts : List CompTy} (h : DescOK W d cts) : SmallDesc d := by
  intro c hc
  rw [h.comps] at hc
  obtain ⟨c', _, rfl⟩ := List.mem_map.mp hc
  exact descriptor_small c'

theorem Group.small {g : Group} (hv : (g.descriptor env).isValid = true) : SmallDesc (g.descriptor env).archetype := by
  intro c hc
  rw [Group.cts_comps (Group.spec hv)] at hc
  obtain ⟨c', _, rfl⟩ := List.mem_map.mp hc
  exact descriptor_small c'

theorem Rep.goodDesc {a : Archetype} {ct : Content} (h : Rep W a ct) : GoodDesc env a.descriptor where
  comps := h.desc.wf.comps_len
  len := h.desc.wf.len_le
  good := by
    intro c hc
    refine ⟨(h.desc.small c hc).1, (h.desc.small c hc).2, ?_⟩
    rw [h.desc.comps] at hc
    obtain ⟨c', hm, rfl⟩ := List.mem_map.mp hc
    have hW := h.desc.has c' hm
    have h1 : c'.descriptor.align = c'.align := Nat.mod_eq_of_lt (W.align_lt hW)
    have h2 : c'.descriptor.size = c'.size := Nat.mod_eq_of_lt (W.size_lt hW)
    unfold GoodLayout
    rw [h1, h2]
    exact ⟨W.align_pow hW, W.zst hW⟩

theorem Rep.hasMemory {a : Archetype} {ct : Content} (h : Rep W a ct) : HasMemory a where
  columns := by
    intro i c hi
    rw [h.desc.comps, List.getElem?_map] at hi
    obtain ⟨c', hc', rfl⟩ := Option.map_eq_some_iff.mp hi
    have hlt := (List.getElem?_eq_some_iff.mp hc').1
    have hW := h.desc.has c' (List.mem_of_getElem? hc')
    obtain ⟨b, hb, hok⟩ := h.cols.col i c' (ct.cols[i]'(by rw [h.cols.cols_len]; exact hlt)) hc' (List.getElem?_eq_getElem _)
    refine ⟨b, hb, ?_, ?_⟩
    · rw [hok.size]
      exact congrArg (· * a.capacity) (Nat.mod_eq_of_lt (W.size_lt hW)).symm
    · rw [hok.align]
      exact (Nat.mod_eq_of_lt (W.align_lt hW)).symm
  ents := by
    obtain ⟨l, h1, h2, _⟩ := h.ents.arr
    exact ⟨l, h1, h2⟩
  pointers := h.cols.ptrs_len

/-- A bound on the sizes makes the columns fit. -/
theorem Rep.fits {a : Archetype} {ct : Content} (h : Rep W a ct) {cap B : Nat} (hcap : cap ≤ B)
    (hB : ∀ c, W.Has c → c.size * B < 2 ^ (w - 1)) : Fits w a.descriptor cap := by
  intro c hc
  rw [h.desc.comps] at hc
  obtain ⟨c', hm, rfl⟩ := List.mem_map.mp hc
  have hW := h.desc.has c' hm
  have h1 : c'.descriptor.align = c'.align := Nat.mod_eq_of_lt (W.align_lt hW)
  have h2 : c'.descriptor.size = c'.size := Nat.mod_eq_of_lt (W.size_lt hW)
  rw [h1, h2]
  have hlt : c'.size * cap < 2 ^ (w - 1) := Nat.lt_of_le_of_lt (Nat.mul_le_mul_left _ hcap) (hB c' hW)
  refine ⟨half_lt hlt, ?_⟩
  obtain ⟨k, hk⟩ := W.align_pow hW
  have hpos : 0 < c'.align := by rw [hk]; exact Nat.two_pow_pos k
  have hdvd : c'.align ∣ c'.size * cap := Nat.dvd_trans (Nat.dvd_of_mod_eq_zero (W.mult hW)) (Nat.dvd_mul_right _ _)
  obtain ⟨q, hq⟩ := hdvd
  have : roundUp (c'.size * cap) c'.align = c'.size * cap := by
    unfold roundUp
    rw [hq, show c'.align * q + c'.align - 1 = (c'.align - 1) + c'.align * q by omega, Nat.add_mul_div_left _ _ hpos,
      Nat.div_eq_of_lt (by omega), Nat.zero_add, Nat.mul_comm]
  rw [this]
  exact hlt

/-- The two ways to make room agree. -/
def Archetype.Alike (w : Nat) (env : Env) (a : Archetype) : Prop := a.resizeIfNecessaryW w env = a.resizeIfNecessary env

theorem alike_of_room {a : Archetype} (h : a.isFull = false) : a.Alike w env := by
  unfold Archetype.Alike Archetype.resizeIfNecessaryW Archetype.resizeIfNecessary
  simp only [h]
  rfl

theorem Rep.alike {a : Archetype} {ct : Content} (h : Rep W a ct) (hw : w = 32 ∨ w = 64)
    (hB : ∀ c, W.Has c → c.size * (2 * a.entityCount) < 2 ^ (w - 1)) : a.Alike w env := by
  cases hf : a.isFull with
  | false => exact alike_of_room hf
  | true =>
    have he : a.entityCount = a.capacity := by simpa [Archetype.isFull] using hf
    have hpos := h.cap.pos
    rw [he] at hB
    rcases Nat.lt_or_ge (2 * a.capacity) MAX_ENTITIES_PER_ARCHETYPE with hlt | hge
    · exact (C72_growth_partial w hw a h.goodDesc h.hasMemory he hpos hlt (h.fits (by omega) hB)).1
        (h.fits (Nat.le_refl _) hB)
    · unfold Archetype.Alike Archetype.resizeIfNecessaryW Archetype.resizeIfNecessary
      rw [if_pos hf, if_pos hf, if_neg (by omega)]
      unfold Archetype.resizeCapacityW Archetype.resizeCapacity
      simp only []
      rw [if_pos (by right; omega), if_pos (by right; omega)]

theorem findOrCreateArchetypeW_eq {ar : ArchetypeRegistry} {d : ArchetypeDescriptor} (hw : w = 32 ∨ w = 64) (hd : SmallDesc d) :
    ar.findOrCreateArchetypeW w env d = ar.findOrCreateArchetype env d := by
  unfold ArchetypeRegistry.findOrCreateArchetypeW ArchetypeRegistry.findOrCreateArchetype
  split
  · rfl
  · refine bind_congr_ok (fun s hs => ?_)
    obtain ⟨s1, i | i⟩ := s
    · rfl
    · simp only [withCapacityW_fits hw (hd.fits hw)]

/-- What `find_or_create_archetype` leaves in the list of archetypes. -/
theorem findOrCreate_mem {ar ar' : ArchetypeRegistry} {d : ArchetypeDescriptor} {o : Option UInt16}
    (h : ar.findOrCreateArchetype env d = .ok (ar', o)) {a : Archetype} (ha : a ∈ ar'.archetypes) :
    a ∈ ar.archetypes ∨ a.isFull = false := by
  unfold ArchetypeRegistry.findOrCreateArchetype at h
  split at h
  · cases h; exact .inl ha
  · cases hs : ar.searchLevel env d with
    | error e => rw [hs] at h; cases h
    | ok s =>
      rw [hs] at h
      simp only [ok_bind] at h
      split at h
      · next i hi =>
        cases hk : index s.1 i with
        | error e => rw [hk] at h; cases h
        | ok k =>
          rw [hk] at h
          simp only [ok_bind] at h
          cases hx : index ar.archetypes k.archetypeIndex.toNat with
          | error e => rw [hx] at h; cases h
          | ok x => rw [hx] at h; cases h; exact .inl ha
      · next i hi =>
        split at h
        · cases h; exact .inl ha
        · cases hx : Archetype.withCapacity env d DEFAULT_ARCHETYPE_ALLOCATION_SIZE with
          | error e => rw [hx] at h; cases h
          | ok x =>
            rw [hx] at h
            simp only [ok_bind] at h
            cases hy : ensure (decide (i ≤ s.1.length)) (.panic .indexOutOfBounds) with
            | error e => rw [hy] at h; cases h
            | ok y =>
              rw [hy] at h
              cases h
              rcases List.mem_append.mp ha with ha | ha
              · exact .inl ha
              · right
                rw [List.mem_singleton.mp ha]
                unfold Archetype.withCapacity at hx
                cases hz : ensure d.isValid (.panic .assertFailed) with
                | error e => rw [hz] at hx; cases hx
                | ok z =>
                  rw [hz] at hx
                  simp only [ok_bind] at hx
                  rw [if_pos (by decide)] at hx
                  cases hp : Archetype.allocColumns env d DEFAULT_ARCHETYPE_ALLOCATION_SIZE
                      (List.replicate MAX_COMPONENTS_PER_ENTITY none) with
                  | error e => rw [hp] at hx; cases hx
                  | ok p =>
                    rw [hp] at hx
                    cases hx
                    rfl

theorem createEntityW_eq {g : Group} {vals : List Val} (hw : w = 32 ∨ w = 64)
    (hA : ∀ a ∈ r.archetypes.archetypes, a.Alike w env) : r.createEntityW w env g vals = r.createEntity env g vals := by
  unfold Registry.createEntityW Registry.createEntity
  split
  · rfl
  · next hv =>
    have hv : (g.descriptor env).isValid = true := by simpa using hv
    rw [findOrCreateArchetypeW_eq hw (Group.small hv)]
    refine bind_congr_ok (fun f hf => ?_)
    obtain ⟨f1, _ | ai⟩ := f
    · rfl
    · simp only []
      refine bind_congr_ok (fun a ha => ?_)
      have hmem : a.Alike w env := by
        rcases findOrCreate_mem hf (List.mem_of_getElem? (getElem?_of_index ha)) with h | h
        · exact hA a h
        · exact alike_of_room h
      have hp : ∀ e, a.pushEntityUncheckedW w env e g vals = a.pushEntityUnchecked env e g vals := by
        intro e
        unfold Archetype.pushEntityUncheckedW Archetype.pushEntityUnchecked
        rw [hmem]
      simp only [hp]
      rfl

theorem pushUninitializedW_eq {a : Archetype} (h : a.Alike w env) : a.pushUninitializedEntityW w env = a.pushUninitializedEntity env := by
  unfold Archetype.pushUninitializedEntityW Archetype.pushUninitializedEntity
  rw [h]

theorem findOrCreateAdding_mem {ar ar' : ArchetypeRegistry} {src : UInt16} {cd : ComponentDescriptor}
    {o : Option (Nat × UInt16 × Nat)} (h : ar.findOrCreateAdding env src cd = .ok (ar', o)) {a : Archetype}
    (ha : a ∈ ar'.archetypes) : a ∈ ar.archetypes ∨ a.isFull = false := by
  unfold ArchetypeRegistry.findOrCreateAdding at h
  split at h
  · cases h; exact .inl ha
  · cases hs : index ar.archetypes src.toNat with
    | error e => rw [hs] at h; cases h
    | ok s =>
      rw [hs] at h
      simp only [ok_bind] at h
      cases hn : s.descriptor.addComponent env cd with
      | error e => rw [hn] at h; cases h
      | ok nd =>
        rw [hn] at h
        simp only [ok_bind] at h
        cases nd with
        | none => cases h; exact .inl ha
        | some nd =>
          simp only [] at h
          cases hf : ar.findOrCreateArchetype env nd with
          | error e => rw [hf] at h; cases h
          | ok f =>
            obtain ⟨f1, f2⟩ := f
            rw [hf] at h
            simp only [ok_bind] at h
            have : ar' = f1 := by
              cases f2 with
              | none => cases h; rfl
              | some dst =>
                simp only [] at h
                cases hd : disjointMut f1.archetypes src.toNat dst.toNat with
                | none => rw [hd] at h; cases h; rfl
                | some p => rw [hd] at h; cases h; rfl
            subst this
            exact findOrCreate_mem hf ha

theorem findOrCreateRemoving_mem {ar ar' : ArchetypeRegistry} {src : UInt16} {cd : ComponentDescriptor}
    {o : Option (Nat × UInt16 × Nat)} (h : ar.findOrCreateRemoving env src cd = .ok (ar', o)) {a : Archetype}
    (ha : a ∈ ar'.archetypes) : a ∈ ar.archetypes ∨ a.isFull = false := by
  unfold ArchetypeRegistry.findOrCreateRemoving at h
  split at h
  · cases h; exact .inl ha
  · cases hs : index ar.archetypes src.toNat with
    | error e => rw [hs] at h; cases h
    | ok s =>
      rw [hs] at h
      simp only [ok_bind] at h
      cases hn : s.descriptor.removeComponent env cd.id with
      | error e => rw [hn] at h; cases h
      | ok nd =>
        rw [hn] at h
        simp only [ok_bind] at h
        cases nd with
        | none => cases h; exact .inl ha
        | some nd =>
          simp only [] at h
          cases hf : ar.findOrCreateArchetype env nd with
          | error e => rw [hf] at h; cases h
          | ok f =>
            obtain ⟨f1, f2⟩ := f
            rw [hf] at h
            simp only [ok_bind] at h
            have : ar' = f1 := by
              cases f2 with
              | none => cases h; rfl
              | some dst =>
                simp only [] at h
                cases hd : disjointMut f1.archetypes src.toNat dst.toNat with
                | none => rw [hd] at h; cases h; rfl
                | some p => rw [hd] at h; cases h; rfl
            subst this
            exact findOrCreate_mem hf ha

theorem findOrCreateAddingW_eq {ar : ArchetypeRegistry} {src : UInt16} {cd : ComponentDescriptor} (hw : w = 32 ∨ w = 64)
    (hA : ∀ a ∈ ar.archetypes, WFDesc a.descriptor ∧ SmallDesc a.descriptor) (hc : cd.size < 65536 ∧ cd.align < 65536) :
    ar.findOrCreateAddingW w env src cd = ar.findOrCreateAdding env src cd := by
  unfold ArchetypeRegistry.findOrCreateAddingW ArchetypeRegistry.findOrCreateAdding
  split
  · rfl
  · refine bind_congr_ok (fun a ha => bind_congr_ok (fun nd hn => ?_))
    obtain _ | nd := nd
    · rfl
    · simp only []
      obtain ⟨h1, h2⟩ := hA a (List.mem_of_getElem? (getElem?_of_index ha))
      rw [findOrCreateArchetypeW_eq hw (h2.add h1 hc hn)]
      rfl

theorem findOrCreateRemovingW_eq {ar : ArchetypeRegistry} {src : UInt16} {cd : ComponentDescriptor} (hw : w = 32 ∨ w = 64)
    (hA : ∀ a ∈ ar.archetypes, WFDesc a.descriptor ∧ SmallDesc a.descriptor) :
    ar.findOrCreateRemovingW w env src cd = ar.findOrCreateRemoving env src cd := by
  unfold ArchetypeRegistry.findOrCreateRemovingW ArchetypeRegistry.findOrCreateRemoving
  split
  · rfl
  · refine bind_congr_ok (fun a ha => bind_congr_ok (fun nd hn => ?_))
    obtain _ | nd := nd
    · rfl
    · simp only []
      obtain ⟨h1, h2⟩ := hA a (List.mem_of_getElem? (getElem?_of_index ha))
      rw [findOrCreateArchetypeW_eq hw (h2.remove h1 hn)]
      rfl

theorem addComponentW_eq {e : Entity} {c : CompTy} {v : Val} (hw : w = 32 ∨ w = 64)
    (hA : ∀ a ∈ r.archetypes.archetypes, a.Alike w env)
    (hD : ∀ a ∈ r.archetypes.archetypes, WFDesc a.descriptor ∧ SmallDesc a.descriptor) :
    r.addComponentW w env e c v = r.addComponent env e c v := by
  unfold Registry.addComponentW Registry.addComponent
  cases r.entities.entityEntry env e with
  | none => rfl
  | some entry =>
    simp only []
    rw [findOrCreateAddingW_eq hw hD (descriptor_small c)]
    refine bind_congr_ok (fun f hf => ?_)
    obtain ⟨f1, _ | ⟨si, dai, di⟩⟩ := f
    · rfl
    · simp only []
      refine bind_congr_ok (fun src hsrc => bind_congr_ok (fun dst hdst => ?_))
      have hmem : dst.Alike w env := by
        rcases findOrCreateAdding_mem hf (List.mem_of_getElem? (getElem?_of_index hdst)) with h | h
        · exact hA dst h
        · exact alike_of_room h
      rw [pushUninitializedW_eq hmem]

theorem removeComponentW_eq {e : Entity} {c : CompTy} (hw : w = 32 ∨ w = 64)
    (hA : ∀ a ∈ r.archetypes.archetypes, a.Alike w env)
    (hD : ∀ a ∈ r.archetypes.archetypes, WFDesc a.descriptor ∧ SmallDesc a.descriptor) :
    r.removeComponentW w env e c = r.removeComponent env e c := by
  unfold Registry.removeComponentW Registry.removeComponent
  cases r.entities.entityEntry env e with
  | none => rfl
  | some entry =>
    simp only []
    rw [findOrCreateRemovingW_eq hw hD]
    refine bind_congr_ok (fun f hf => ?_)
    obtain ⟨f1, _ | ⟨si, dai, di⟩⟩ := f
    · rfl
    · simp only []
      refine bind_congr_ok (fun src hsrc => bind_congr_ok (fun dst hdst => ?_))
      have hmem : dst.Alike w env := by
        rcases findOrCreateRemoving_mem hf (List.mem_of_getElem? (getElem?_of_index hdst)) with h | h
        · exact hA dst h
        · exact alike_of_room h
      rw [pushUninitializedW_eq hmem]

theorem runW_eq {call : Call} (hw : w = 32 ∨ w = 64)
    (hA : ∀ a ∈ r.archetypes.archetypes, a.Alike w env)
    (hD : ∀ a ∈ r.archetypes.archetypes, WFDesc a.descriptor ∧ SmallDesc a.descriptor) :
    call.runW w env r = call.run env r := by
  cases call with
  | create g vals => simp only [Call.runW, Call.run, createEntityW_eq hw hA]; rfl
  | add e c v => simp only [Call.runW, Call.run, addComponentW_eq hw hA hD]; rfl
  | remove e c => simp only [Call.runW, Call.run, removeComponentW_eq hw hA hD]; rfl
  | _ => rfl

theorem RInv.runW_eq (h : RInv W r cs) {call : Call} (hw : w = 32 ∨ w = 64)
    (hB : ∀ c, W.Has c → ∀ a ∈ r.archetypes.archetypes, c.size * (2 * a.entityCount) < 2 ^ (w - 1)) :
    call.runW w env r = call.run env r := by
  refine Shard.runW_eq hw (fun a ha => ?_) (fun a ha => ?_) <;>
  · obtain ⟨i, hi⟩ := List.mem_iff_getElem?.mp ha
    obtain ⟨ct, _, hr⟩ := h.arch.content hi
    first
    | exact hr.alike hw (fun c hc => hB c hc a ha)
    | exact ⟨hr.desc.wf, hr.desc.small⟩

end Shard
