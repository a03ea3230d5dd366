import Verif.Spec.Api
import Verif.Proofs.Placed
import Verif.Proofs.Full
/-!
# The registry: invariant, creation, destruction
-/

namespace Shard

variable {env : Env} {W : World env}

/-- The table of entries changed only in the positions of live entities. -/
structure Updated (env : Env) (r r' : EntityRegistry) : Prop where
  length : r'.entities.length = r.entities.length
  next : r'.nextFreeSlot = r.nextFreeSlot
  slot : ∀ (i : Nat) (en : EntityEntry), r.entities[i]? = some en → ∃ en', r'.entities[i]? = some en' ∧
    en'.version = en.version ∧ en'.isValid env = en.isValid env ∧ (en.isValid env = false → en' = en)

namespace Updated

variable {r r' r'' : EntityRegistry}

theorem refl (r : EntityRegistry) : Updated env r r := ⟨rfl, rfl, fun _ en h => ⟨en, h, rfl, rfl, fun _ => rfl⟩⟩

theorem trans (h : Updated env r r') (h' : Updated env r' r'') : Updated env r r'' := by
  refine ⟨h'.length.trans h.length, h'.next.trans h.next, ?_⟩
  intro i en he
  obtain ⟨e1, a1, b1, c1, d1⟩ := h.slot i en he
  obtain ⟨e2, a2, b2, c2, d2⟩ := h'.slot i e1 a1
  exact ⟨e2, a2, b2.trans b1, c2.trans c1, fun hf => (d2 (by rw [c1]; exact hf)).trans (d1 hf)⟩

theorem none (h : Updated env r r') {i : Nat} (hn : r.entities[i]? = Option.none) : r'.entities[i]? = Option.none := by
  rw [List.getElem?_eq_none_iff] at hn ⊢
  rw [h.length]; exact hn

theorem back (h : Updated env r r') {i : Nat} {en' : EntityEntry} (he : r'.entities[i]? = some en') :
    ∃ en, r.entities[i]? = some en ∧ en'.version = en.version ∧ en'.isValid env = en.isValid env ∧
      (en.isValid env = false → en' = en) := by
  cases hx : r.entities[i]? with
  | none => rw [h.none hx] at he; cases he
  | some en =>
    obtain ⟨e1, a1, b1, c1, d1⟩ := h.slot i en hx
    rw [he] at a1; cases a1
    exact ⟨en, rfl, b1, c1, d1⟩

theorem freeList (h : Updated env r r') {fl : List Nat} (hf : FreeList env r fl) : FreeList env r' fl := by
  obtain ⟨h1, h2, h3⟩ := hf
  refine ⟨?_, h2, ?_⟩
  · rw [h.next]
    apply h1.congr
    intro i hi
    have hlt := h1.mem_lt i hi
    have hx := List.getElem?_eq_getElem hlt
    obtain ⟨e1, a1, b1, c1, d1⟩ := h.slot i _ hx
    rw [a1, hx, d1 ((h3 i _ hx).mpr hi)]
  · intro i en' he
    obtain ⟨en, a1, b1, c1, d1⟩ := h.back he
    rw [c1]; exact h3 i en a1

end Updated

/-- The archetypes after an operation: nothing moves, nothing changes its descriptor, storage grows by doubling when
full; new archetypes are appended. -/
structure ArchStep (ar ar' : ArchetypeRegistry) : Prop where
  old : ∀ (i : Nat) (a : Archetype), ar.archetypes[i]? = some a → ∃ a', ar'.archetypes[i]? = some a' ∧
    a'.descriptor = a.descriptor ∧
    (a'.capacity = a.capacity ∨ a'.capacity = 2 * a.capacity ∧ a.entityCount = a.capacity ∧ a'.entityCount = a.entityCount + 1)
  new : ∀ (i : Nat) (a' : Archetype), ar.archetypes[i]? = none → ar'.archetypes[i]? = some a' → a'.capacity = 128

namespace ArchStep

theorem refl (ar : ArchetypeRegistry) : ArchStep ar ar :=
  ⟨fun _ a h => ⟨a, h, rfl, Or.inl rfl⟩, fun i a h1 h2 => by rw [h1] at h2; cases h2⟩

theorem set {ar : ArchetypeRegistry} {i : Nat} {a a' : Archetype} (ha : ar.archetypes[i]? = some a)
    (hd : a'.descriptor = a.descriptor)
    (hc : a'.capacity = a.capacity ∨ a'.capacity = 2 * a.capacity ∧ a.entityCount = a.capacity ∧ a'.entityCount = a.entityCount + 1) :
    ArchStep ar (ar.setArchetype i a') := by
  have hi := (List.getElem?_eq_some_iff.mp ha).1
  constructor
  · intro j b hb
    by_cases hij : i = j
    · subst hij
      rw [ha] at hb; cases hb
      exact ⟨a', List.getElem?_set_self hi, hd, hc⟩
    · exact ⟨b, (List.getElem?_set_ne hij).trans hb, rfl, Or.inl rfl⟩
  · intro j b h1 h2
    have : j < (ar.archetypes.set i a').length := (List.getElem?_eq_some_iff.mp h2).1
    rw [List.length_set] at this
    rw [List.getElem?_eq_none_iff] at h1
    omega

end ArchStep

/-- The archetypes have the same descriptors, in the same order. -/
def SameDescs (ar ar' : ArchetypeRegistry) : Prop :=
  ar'.archetypes.map (fun a => a.descriptor) = ar.archetypes.map (fun a => a.descriptor)

theorem SameDescs.set {ar ar' : ArchetypeRegistry} (h : SameDescs ar ar') {i : Nat} {a a' : Archetype}
    (ha : ar'.archetypes[i]? = some a) (hd : a'.descriptor = a.descriptor) : SameDescs ar (ar'.setArchetype i a') := by
  unfold SameDescs
  rw [← h]
  show (ar'.archetypes.set i a').map _ = _
  rw [List.map_set, hd]
  apply List.ext_getElem?
  intro j
  by_cases hij : i = j
  · subst hij
    rw [List.getElem?_set_self (by rw [List.length_map]; exact (List.getElem?_eq_some_iff.mp ha).1), List.getElem?_map, ha]
    rfl
  · rw [List.getElem?_set_ne hij]

/-- The archetype registry is unchanged or has a new empty archetype. -/
def Grown (ar : ArchetypeRegistry) (cs : List Content) (ar' : ArchetypeRegistry) (cs' : List Content) : Prop :=
  (ar' = ar ∧ cs' = cs) ∨ ∃ a cts, ar'.archetypes = ar.archetypes ++ [a] ∧ a.capacity = 128 ∧ a.entityCount = 0 ∧
    cs' = cs ++ [Content.empty cts]

namespace Grown

variable {ar ar' : ArchetypeRegistry} {cs cs' : List Content}

theorem placed (h : Grown ar cs ar' cs') {L : Entity → Option (Nat × Nat)} (hp : Placed L cs) : Placed L cs' := by
  rcases h with ⟨_, rfl⟩ | ⟨a, cts, _, _, _, rfl⟩
  · exact hp
  · exact hp.append cts

theorem look_eq (h : Grown ar cs ar' cs') {L : Entity → Option (Nat × Nat)} (hp : Placed L cs) : look L cs' = look L cs := by
  rcases h with ⟨_, rfl⟩ | ⟨a, cts, _, _, _, rfl⟩
  · rfl
  · funext x; exact look_append hp cts x

theorem stored_eq (h : Grown ar cs ar' cs') : stored cs' = stored cs := by
  rcases h with ⟨_, rfl⟩ | ⟨a, cts, _, _, _, rfl⟩
  · rfl
  · exact stored_append cs cts

theorem get (h : Grown ar cs ar' cs') {i : Nat} {ct : Content} (hc : cs[i]? = some ct) : cs'[i]? = some ct := by
  rcases h with ⟨_, rfl⟩ | ⟨a, cts, _, _, _, rfl⟩
  · exact hc
  · rw [List.getElem?_append_left (List.getElem?_eq_some_iff.mp hc).1]; exact hc

theorem getA (h : Grown ar cs ar' cs') {i : Nat} {a : Archetype} (hc : ar.archetypes[i]? = some a) :
    ar'.archetypes[i]? = some a := by
  rcases h with ⟨rfl, _⟩ | ⟨a, cts, h, _, _⟩
  · exact hc
  · rw [h, List.getElem?_append_left (List.getElem?_eq_some_iff.mp hc).1]; exact hc

theorem new (h : Grown ar cs ar' cs') {i : Nat} {a : Archetype} (hn : ar.archetypes[i]? = none)
    (hc : ar'.archetypes[i]? = some a) : a.capacity = 128 ∧ a.entityCount = 0 := by
  rcases h with ⟨rfl, _⟩ | ⟨b, cts, h, h', h'', _⟩
  · rw [hn] at hc; cases hc
  · rw [h] at hc
    rw [List.getElem?_eq_none_iff] at hn
    rw [List.getElem?_append_right hn, List.getElem?_singleton] at hc
    split at hc
    · cases hc; exact ⟨h', h''⟩
    · cases hc

theorem step (h : Grown ar cs ar' cs') : ArchStep ar ar' :=
  ⟨fun _ a ha => ⟨a, h.getA ha, rfl, Or.inl rfl⟩, fun _ _ h1 h2 => (h.new h1 h2).1⟩

end Grown

/-- Archetypes grown by at most one, then stepped without growth of the new one. -/
theorem ArchStep.after_grown {ar ar' ar'' : ArchetypeRegistry} {cs cs' : List Content} (h : Grown ar cs ar' cs')
    (h' : ArchStep ar' ar'') (hl : ar''.archetypes.length = ar'.archetypes.length) : ArchStep ar ar'' := by
  constructor
  · intro i a ha
    exact h'.old i a (h.getA ha)
  · intro i a hn ha
    have hlt : i < ar'.archetypes.length := by rw [← hl]; exact (List.getElem?_eq_some_iff.mp ha).1
    have hx := List.getElem?_eq_getElem hlt
    obtain ⟨h1, h2⟩ := h.new hn hx
    obtain ⟨b, q1, q2, q3⟩ := h'.old i _ hx
    rw [ha] at q1; cases q1
    rcases q3 with q3 | ⟨_, q4, _⟩
    · rw [q3, h1]
    · omega

/-- The result of `find_or_create_archetype`, in the form the callers use. -/
theorem ARInv.focus_raw {ar : ArchetypeRegistry} {cs : List Content} (h : ARInv W ar cs) {d : ArchetypeDescriptor}
    {cts : List CompTy} (hd : DescOK W d cts) :
    (ar.findOrCreateArchetype env d = .ok (ar, none) ∧ ar.archetypes.length = 65534 ∧
      ∀ (j : Nat) (a : Archetype), ar.archetypes[j]? = some a → a.descriptor.len = d.len →
        a.descriptor.archetypeId ≠ d.archetypeId) ∨
    ∃ ar' cs' ai a ct, ar.findOrCreateArchetype env d = .ok (ar', some ai) ∧ ARInv W ar' cs' ∧ Grown ar cs ar' cs' ∧
      ar'.archetypes[ai.toNat]? = some a ∧ cs'[ai.toNat]? = some ct ∧ Rep W a ct ∧ ct.cts = cts ∧
      a.descriptor.len = d.len ∧ a.descriptor.archetypeId = d.archetypeId ∧ ai ≠ 65535 ∧
      (HasArchetype ar d.len d.archetypeId → ar' = ar) := by
  have hne : ∀ (n : Nat) (ai : UInt16), ai.toNat < n → n ≤ 65534 → ai ≠ 65535 := by
    rintro n ai h1 h2 rfl
    have : (65535 : UInt16).toNat = 65535 := rfl
    omega
  rcases h.findOrCreate_spec hd with ⟨i, a, h1, h2, h3, h4⟩ | ⟨hno, ⟨h1, h2⟩ | ⟨ar', a, i, h1, h2, h3, h4⟩⟩
  · right
    obtain ⟨ct, hc, hr⟩ := h.content h2
    exact ⟨ar, cs, i, a, ct, h1, h, Or.inl ⟨rfl, rfl⟩, h2, hc, hr, hr.desc.unique hd h3 h4, h3, h4,
      hne _ i (List.getElem?_eq_some_iff.mp h2).1 h.le, fun _ => rfl⟩
  · left; exact ⟨h2, h1, hno⟩
  · right
    have ha : ar'.archetypes[i.toNat]? = some a := by
      rw [h4.archetypes, h3, List.getElem?_append_right (Nat.le_refl _)]; simp
    have hc : (cs ++ [Content.empty cts])[i.toNat]? = some (Content.empty cts) := by
      rw [h3, ← h.len, List.getElem?_append_right (Nat.le_refl _)]; simp
    refine ⟨ar', _, i, a, _, h2, h4.inv, Or.inr ⟨a, cts, h4.archetypes, h4.cap, h4.rep.count, rfl⟩, ha, hc, h4.rep, rfl, by rw [h4.desc],
      by rw [h4.desc], hne (ar.archetypes.length + 1) i (by omega) (by omega), ?_⟩
    rintro ⟨b, hb, q1, q2⟩
    obtain ⟨j, hj⟩ := List.mem_iff_getElem?.mp hb
    exact absurd q2 (hno j b hj q1)

/-! ## The invariant -/

theorem ARInv.focus {ar : ArchetypeRegistry} {cs : List Content} (h : ARInv W ar cs) {d : ArchetypeDescriptor}
    {cts : List CompTy} (hd : DescOK W d cts) :
    (ar.findOrCreateArchetype env d = .ok (ar, none) ∧ ¬ Room ar d.len d.archetypeId) ∨
    ∃ ar' cs' ai a ct, ar.findOrCreateArchetype env d = .ok (ar', some ai) ∧ ARInv W ar' cs' ∧ Grown ar cs ar' cs' ∧
      ar'.archetypes[ai.toNat]? = some a ∧ cs'[ai.toNat]? = some ct ∧ Rep W a ct ∧ ct.cts = cts ∧
      a.descriptor.len = d.len ∧ a.descriptor.archetypeId = d.archetypeId ∧ ai ≠ 65535 ∧
      Room ar d.len d.archetypeId ∧ (HasArchetype ar d.len d.archetypeId → ar' = ar) := by
  rcases h.focus_raw hd with ⟨h1, h2, h3⟩ | ⟨ar', cs', ai, b, ctD, h1, h2, h3, h4, h5, h6, h7, h8, h9, h10, h11⟩
  · left
    refine ⟨h1, fun hroom => ?_⟩
    rcases hroom.2 with ⟨b, hb, q1, q2⟩ | hlt
    · obtain ⟨j, hj⟩ := List.mem_iff_getElem?.mp hb
      exact h3 j b hj q1 q2
    · omega
  · right
    refine ⟨ar', cs', ai, b, ctD, h1, h2, h3, h4, h5, h6, h7, h8, h9, h10, ⟨?_, ?_⟩, h11⟩
    · have := hd.valid
      unfold ArchetypeDescriptor.isValid at this
      simpa using this
    · rcases h3 with ⟨rfl, _⟩ | ⟨b', cts, e1, _⟩
      · exact Or.inl ⟨b, List.mem_of_getElem? h4, h8, h9⟩
      · right
        have := h2.le
        rw [e1, List.length_append, List.length_singleton] at this
        omega

/-- Invariant of the registry holding the contents `cs`. -/
structure RInv (W : World env) (r : Registry) (cs : List Content) : Prop where
  arch : ARInv W r.archetypes cs
  ents : EntInv env r.entities
  placed : Placed (r.entities.loc env) cs

/-- The components of an entity of `r`. -/
def Registry.look (env : Env) (r : Registry) (cs : List Content) (e : Entity) : Option (CompTy → Option Val) :=
  Shard.look (r.entities.loc env) cs e

theorem RInv.empty (W : World env) : RInv W Registry.default [] := by
  refine ⟨ARInv.default W, EntInv.default env, ?_⟩
  intro e ai k
  have : (Registry.default.entities.loc env e) = none := by
    rw [EntityRegistry.loc_eq_none]
    apply EntityRegistry.entityEntry_none_of_slot (by decide)
    rfl
  rw [this]
  simp

namespace RInv

variable {r : Registry} {cs : List Content}

/-- The archetype and row of a live entity. -/
theorem entry (h : RInv W r cs) {e : Entity} {en : EntityEntry} (he : r.entities.entityEntry env e = some en) :
    ∃ a ct, r.archetypes.archetypes[(en.archetypeIndex env).toNat]? = some a ∧
      cs[(en.archetypeIndex env).toNat]? = some ct ∧ Rep W a ct ∧
      ct.ents[en.indexInArchetype.value.toNat]? = some e ∧
      r.entities.loc env e = some ((en.archetypeIndex env).toNat, en.indexInArchetype.value.toNat) ∧
      r.look env cs e = some (fun c => ct.get c en.indexInArchetype.value.toNat) := by
  have hl := EntityRegistry.loc_of_entry he
  obtain ⟨ct, h1, h2⟩ := (h.placed _ _ _).mp hl
  obtain ⟨a, h3, h4⟩ := h.arch.arch h1
  exact ⟨a, ct, h3, h1, h4, h2, hl, look_of hl h1⟩

theorem look_none (h : RInv W r cs) {e : Entity} : r.look env cs e = none ↔ r.entities.entityEntry env e = none := by
  unfold Registry.look
  rw [look_eq_none_iff h.placed, EntityRegistry.loc_eq_none]

theorem look_some (h : RInv W r cs) {e : Entity} {f : CompTy → Option Val} (hf : r.look env cs e = some f) :
    ∃ en, r.entities.entityEntry env e = some en := by
  cases hx : r.entities.entityEntry env e with
  | none => rw [h.look_none.mpr hx] at hf; cases hf
  | some en => exact ⟨en, rfl⟩

end RInv

/-! ## Where entities are stored -/

/-- The index of the archetype an entity is stored in. -/
def Registry.archOf (env : Env) (r : Registry) (x : Entity) : Option Nat := (r.entities.loc env x).map (fun p => p.1)

/-- The entity is stored in an archetype with this id, for these component ids. -/
def Home (env : Env) (r : Registry) (e : Entity) (s : List UInt16) (id : UInt32) : Prop :=
  ∃ ai a, r.archOf env e = some ai ∧ r.archetypes.archetypes[ai]? = some a ∧ a.descriptor.ids = s ∧
    a.descriptor.archetypeId = id

theorem locSwapPop_fst {L : Entity → Option (Nat × Nat)} {e : Entity} {ai k last : Nat} {x : Entity} (hx : x ≠ e) :
    (locSwapPop L e ai k last x).map (fun p => p.1) = (L x).map (fun p => p.1) := by
  unfold locSwapPop
  rw [if_neg hx]
  split
  · next h => rw [h]; rfl
  · rfl

/-! ## Relocating the entity that was swapped in -/

theorem Updated.of_update {r r' : EntityRegistry} {e : Entity} {en : EntityEntry} {f : EntityEntry → EntityEntry}
    (hinv : EntInv env r) (h : r.entityEntry env e = some en) (hf : (f en).isValid env = true)
    (hver : (f en).version = en.version) (hother : ∀ i, i ≠ e.index.toNat → r'.entities[i]? = r.entities[i]?)
    (hself : r'.entities[e.index.toNat]? = some (f en)) (hl : r'.entities.length = r.entities.length)
    (hn : r'.nextFreeSlot = r.nextFreeSlot) : Updated env r r' := by
  refine ⟨hl, hn, ?_⟩
  obtain ⟨q1, q2, q3⟩ := (EntityRegistry.entityEntry_iff hinv.len_le e en).mp h
  intro i en0 h0
  by_cases hi : i = e.index.toNat
  · subst hi
    rw [q1] at h0; cases h0
    exact ⟨f en, hself, hver, by rw [hf, q3], by intro hc; rw [q3] at hc; cases hc⟩
  · exact ⟨en0, by rw [hother i hi]; exact h0, rfl, rfl, fun _ => rfl⟩

/-- After the last row was moved to row `k`, its entity's entry is updated. -/
theorem RInv.fixSwap {r : Registry} {cs : List Content} (h : RInv W r cs) {e : Entity} {en : EntityEntry}
    (he : r.entities.entityEntry env e = some en) {ct : Content}
    (hc : cs[(en.archetypeIndex env).toNat]? = some ct) (getSw : M Entity)
    (hget : en.indexInArchetype.value.toNat ≠ ct.ents.length - 1 → ∀ sw, ct.ents[ct.ents.length - 1]? = some sw →
      getSw = .ok sw) :
    ∃ m, ((if decide (en.indexInArchetype.value.toNat ≠ ct.ents.length - 1) = true then do
        let sw ← getSw
        unwrap (r.entities.updateEntry env sw (fun x => x.setIndexInArchetype en.indexInArchetype))
      else .ok r.entities) : M EntityRegistry) = .ok m ∧ EntInv env m ∧ Updated env r.entities m ∧
      m.entityEntry env e = some en ∧
      ∀ x, x ≠ e → m.loc env x =
        locSwapPop (r.entities.loc env) e (en.archetypeIndex env).toNat en.indexInArchetype.value.toNat (ct.ents.length - 1) x := by
  have hloc := EntityRegistry.loc_of_entry he
  obtain ⟨ct', q1, q2⟩ := (h.placed _ _ _).mp hloc
  rw [hc] at q1; cases q1
  have hk := (List.getElem?_eq_some_iff.mp q2).1
  by_cases hkl : en.indexInArchetype.value.toNat = ct.ents.length - 1
  · refine ⟨r.entities, by rw [if_neg (by simpa using hkl)], h.ents, Updated.refl _, he, ?_⟩
    intro x hx
    unfold locSwapPop
    rw [if_neg hx, if_neg]
    intro hl
    rw [← hkl] at hl
    exact hx (h.placed.inj hl hloc)
  · obtain ⟨sw, hsw⟩ : ∃ sw, ct.ents[ct.ents.length - 1]? = some sw := ⟨_, List.getElem?_eq_getElem (by omega)⟩
    have hlsw : r.entities.loc env sw = some ((en.archetypeIndex env).toNat, ct.ents.length - 1) :=
      (h.placed _ _ _).mpr ⟨ct, hc, hsw⟩
    obtain ⟨ens, s1, s2, s3⟩ := EntityRegistry.entry_of_loc hlsw
    have hne : sw ≠ e := by
      rintro rfl
      rw [hloc] at hlsw
      injection hlsw with hlsw; injection hlsw with _ hlsw
      exact hkl hlsw
    obtain ⟨_, _, hvs⟩ := (EntityRegistry.entityEntry_iff h.ents.len_le _ _).mp s1
    obtain ⟨m, u1, u2, u3, u4, u5, u6, u7, u8⟩ := EntityRegistry.updateEntry_entry h.ents s1
      (f := fun x => x.setIndexInArchetype en.indexInArchetype)
      (by rw [EntityEntry.isValid_setIndexInArchetype]; exact hvs) rfl
    refine ⟨m, ?_, u2, ?_, ?_, ?_⟩
    · rw [if_pos (by simpa using hkl), hget hkl sw hsw]
      simp only [ok_bind]
      rw [u1]
      rfl
    · exact Updated.of_update (f := fun x => x.setIndexInArchetype en.indexInArchetype) h.ents s1
        (by rw [EntityEntry.isValid_setIndexInArchetype]; exact hvs) rfl u5 u6 u7 u8
    · rw [u4 e (Ne.symm hne)]; exact he
    · intro x hx
      unfold locSwapPop
      rw [if_neg hx]
      by_cases hxs : x = sw
      · subst hxs
        rw [if_pos hlsw, EntityRegistry.loc_of_entry u3, EntityEntry.archetypeIndex_setIndexInArchetype,
          EntityEntry.indexInArchetype_set _ _ (EntityEntry.indexInArchetype_toNat_lt en), s2]
      · rw [if_neg]
        · unfold EntityRegistry.loc
          rw [u4 x hxs]
        · intro hl; exact hxs (h.placed.inj hl hlsw)

theorem map_getD_of_map_some {vs : List Val} {cts : List CompTy} {f : CompTy → Option Val} (h : vs.map some = cts.map f) :
    vs = cts.map (fun c => (f c).getD default) := by
  have h2 := congrArg (List.map (fun o : Option Val => o.getD default)) h
  rw [List.map_map, List.map_map] at h2
  simpa [Function.comp_def] using h2

theorem Rep.rowOf {a : Archetype} {ct : Content} (h : Rep W a ct) {k : Nat} (hk : k < ct.ents.length) :
    RowOf (fun c => ct.get c k) (ct.rowVals k) := by
  refine ⟨ct.cts, h.nodup, fun c => ?_, ?_⟩
  · constructor
    · intro hc; obtain ⟨v, hv, _⟩ := h.get_some hc hk; simp [hv]
    · intro hs
      obtain ⟨v, hv⟩ := Option.isSome_iff_exists.mp hs
      exact (h.mem_of_get hv).1
  · have hcl := h.cols.cols_len
    unfold Content.rowVals
    rw [List.map_map]
    apply List.ext_getElem?
    intro i
    rw [List.getElem?_map, List.getElem?_map]
    by_cases hi : i < ct.cts.length
    · have h1 := List.getElem?_eq_getElem hi
      have h2 : ct.cols[i]? = some (ct.cols[i]'(by omega)) := List.getElem?_eq_getElem (by omega)
      obtain ⟨v, hv, _⟩ := h.get_some (List.getElem_mem hi) hk
      rw [h1, h2]
      simp only [Option.map_some]
      rw [hv]
      unfold Content.get at hv
      rw [lookupTy_of_getElem? h.nodup h1 h2] at hv
      simp only [Option.bind_some] at hv
      simp [hv]
    · rw [List.getElem?_eq_none (l := ct.cols) (by omega), List.getElem?_eq_none (l := ct.cts) (by omega)]
      rfl

/-- What a removal of `e` (by `destroy_entity` or `remove_entity`) does, apart from its result. -/
structure Removed (W : World env) (r : Registry) (cs : List Content) (e : Entity) (r' : Registry) (cs' : List Content)
    (vs : List Val) : Prop where
  inv : RInv W r' cs'
  look : ∀ x, r'.look env cs' x = if x = e then none else r.look env cs x
  stored : (stored cs' ++ vs).Perm (stored cs)
  row : ∀ f, r.look env cs e = some f → RowOf f vs
  table : ∃ m, Updated env r.entities m ∧ EntityRegistry.Destroyed env m r'.entities e
  step : ArchStep r.archetypes r'.archetypes
  stay : ∀ x, x ≠ e → r'.archOf env x = r.archOf env x
  count : r'.archetypes.archetypes.length = r.archetypes.archetypes.length
  /-- the row of `e` is removed and its values are `vs` -/
  rows : ∃ ai k ct, r.entities.loc env e = some (ai, k) ∧ cs[ai]? = some ct ∧ cs' = cs.set ai (ct.swapPop k) ∧
    vs = ct.rowVals k
  descs : SameDescs r.archetypes r'.archetypes

/-- The common part of `destroy_entity` and `remove_entity`. -/
theorem RInv.removal {r : Registry} {cs : List Content} (h : RInv W r cs) {e : Entity} {en : EntityEntry}
    (he : r.entities.entityEntry env e = some en) {a a' : Archetype} {ct : Content}
    (ha : r.archetypes.archetypes[(en.archetypeIndex env).toNat]? = some a)
    (hc : cs[(en.archetypeIndex env).toNat]? = some ct) (hd : a'.descriptor = a.descriptor)
    (hcap : a'.capacity = a.capacity) (hr : Rep W a' (ct.swapPop en.indexInArchetype.value.toNat)) (getSw : M Entity)
    (hget : en.indexInArchetype.value.toNat ≠ ct.ents.length - 1 → ∀ sw, ct.ents[ct.ents.length - 1]? = some sw →
      getSw = .ok sw) :
    ∃ m r2, ((if decide (en.indexInArchetype.value.toNat ≠ ct.ents.length - 1) = true then do
        let sw ← getSw
        unwrap (r.entities.updateEntry env sw (fun x => x.setIndexInArchetype en.indexInArchetype))
      else .ok r.entities) : M EntityRegistry) = .ok m ∧
      m.destroyEntity env e = (r2, true) ∧
      Removed W r cs e ⟨r2, r.archetypes.setArchetype (en.archetypeIndex env).toNat a'⟩
        (cs.set (en.archetypeIndex env).toNat (ct.swapPop en.indexInArchetype.value.toNat))
        (ct.rowVals en.indexInArchetype.value.toNat) := by
  have hloc := EntityRegistry.loc_of_entry he
  obtain ⟨ct', q1, q2⟩ := (h.placed _ _ _).mp hloc
  rw [hc] at q1; cases q1
  have hk := (List.getElem?_eq_some_iff.mp q2).1
  have hra := h.arch.rep _ _ _ ha hc
  obtain ⟨m, m1, m2, m3, m4, m5⟩ := h.fixSwap he hc getSw hget
  obtain ⟨r2, d1, d2⟩ := EntityRegistry.destroyEntity_live m2 m4
  obtain ⟨d3, d4⟩ := d2.entry m2 m4
  have hlocf : r2.loc env = locSwapPop (r.entities.loc env) e (en.archetypeIndex env).toNat
      en.indexInArchetype.value.toNat (ct.ents.length - 1) := by
    funext x
    by_cases hx : x = e
    · subst hx
      unfold locSwapPop
      rw [if_pos rfl, EntityRegistry.loc_eq_none]; exact d3
    · rw [← m5 x hx]
      unfold EntityRegistry.loc
      rw [d4 x hx]
  refine ⟨m, r2, m1, d1, ⟨h.arch.set ha hd hr, d2.inv, ?_⟩, ?_, stored_swapPop hra hc hk, ?_, ⟨m, m3, d2⟩,
    ArchStep.set ha hd (Or.inl hcap), ?_, by simp [ArchetypeRegistry.setArchetype], ⟨_, _, ct, hloc, hc, rfl, rfl⟩,
    SameDescs.set rfl ha hd⟩
  · show Placed (r2.loc env) _
    rw [hlocf]
    exact h.placed.swapPop hloc hc
  · intro x
    show Shard.look (r2.loc env) _ x = _
    rw [hlocf]
    exact look_swapPop h.placed hloc hra hc x
  · intro f hf
    rw [show r.look env cs e = some (fun c => ct.get c en.indexInArchetype.value.toNat) from look_of hloc hc] at hf
    cases hf
    exact hra.rowOf hk
  · intro x hx
    show (r2.loc env x).map _ = _
    rw [hlocf]
    exact locSwapPop_fst hx

/-! ## Destruction -/

/-- `destroy_entity` of a dead handle. -/
theorem destroyEntity_dead {r : Registry} {e : Entity} (he : r.entities.entityEntry env e = none) :
    r.destroyEntity env e = .ok (r, false, []) := by
  unfold Registry.destroyEntity
  rw [he]

/-- `destroy_entity` of a live entity. -/
theorem RInv.destroyEntity_spec {r : Registry} {cs : List Content} (h : RInv W r cs) {e : Entity} {en : EntityEntry}
    (he : r.entities.entityEntry env e = some en) :
    ∃ r' cs' vs, r.destroyEntity env e = .ok (r', true, vs) ∧ Removed W r cs e r' cs' vs := by
  obtain ⟨a, ct, ha, hc, hr, hk, _, _⟩ := h.entry he
  have hkl := (List.getElem?_eq_some_iff.mp hk).1
  obtain ⟨a', s1, s2, s3, s4⟩ := hr.swapDrop_spec hkl
  obtain ⟨m, r2, m1, m2, m3⟩ := h.removal he ha hc s2 s3 s4 (a'.entityAtUnchecked en.indexInArchetype.value.toNat) (by
    intro hne sw hsw
    apply s4.entityAtUnchecked_ok
    rw [swapPop_ents hkl, if_neg (by omega), if_pos rfl]
    exact hsw)
  refine ⟨_, _, _, ?_, m3⟩
  unfold Registry.destroyEntity
  rw [he]
  simp only []
  unfold ArchetypeRegistry.getUnchecked
  rw [indexUnchecked_of_getElem? ha]
  simp only [ok_bind]
  rw [s1]
  simp only [ok_bind]
  rw [m1]
  simp only [ok_bind]
  rw [m2, debugAssert_true rfl]
  rfl

/-! ## `remove_entity` -/

theorem removeEntity_dead {r : Registry} {g : Group} {e : Entity} (he : r.entities.entityEntry env e = none) :
    r.removeEntity env g e = .ok (r, none) := by
  unfold Registry.removeEntity
  rw [he]

/-- The component types of a content are those of a group. -/
theorem Rep.cts_eq_group {a : Archetype} {ct : Content} (h : Rep W a ct) {g : Group} (hg : W.OkGroup g)
    (hv : (g.descriptor env).isValid = true) (hm : ∀ c, c ∈ ct.cts ↔ c ∈ g) : ct.cts = g.cts env := by
  have gs := Group.spec hv
  have hd := Group.descOK hg hv
  have hs1 := h.desc.wf.ids_sorted
  have hs2 := hd.wf.ids_sorted
  have hperm : ct.cts.Perm (g.cts env) := by
    rw [List.perm_ext_iff_of_nodup h.nodup]
    · intro c; rw [hm c, gs.mem_cts hg]
    · have := hd.nodup
      unfold List.Nodup at this ⊢
      rw [List.pairwise_map] at this
      exact this.imp (fun hne he => hne (congrArg _ he))
  have hids : a.descriptor.ids = (g.descriptor env).archetype.ids := by
    apply sorted_perm_ids (hs1.imp UInt16.le_of_lt) (hs2.imp UInt16.le_of_lt)
    rw [h.desc.ids_eq, hd.ids_eq]
    exact hperm.map _
  rw [h.desc.ids_eq, hd.ids_eq] at hids
  apply List.ext_getElem?
  intro i
  have hi := congrArg (fun l => l[i]?) hids
  simp only [List.getElem?_map] at hi
  cases h1 : ct.cts[i]? with
  | none =>
    rw [h1] at hi
    cases h2 : (g.cts env)[i]? with
    | none => rfl
    | some c' => rw [h2] at hi; simp at hi
  | some c =>
    rw [h1] at hi
    cases h2 : (g.cts env)[i]? with
    | none => rw [h2] at hi; simp at hi
    | some c' =>
      rw [h2] at hi
      simp at hi
      rw [W.id_inj (h.desc.world_of h1) (hd.world_of h2) hi]

/-- `remove_entity` with a group that names exactly the entity's component types. -/
theorem RInv.removeEntity_spec {r : Registry} {cs : List Content} (h : RInv W r cs) {e : Entity} {f : CompTy → Option Val}
    (hf : r.look env cs e = some f) {g : Group} (hg : W.OkGroup g) (hv : (g.descriptor env).isValid = true)
    (hm : ∀ c, (f c).isSome ↔ c ∈ g) :
    ∃ r' cs' vs, r.removeEntity env g e = .ok (r', some (g.map (fun c => (f c).getD default))) ∧
      Removed W r cs e r' cs' vs ∧ vs.Perm (g.map (fun c => (f c).getD default)) := by
  obtain ⟨en, he⟩ := h.look_some hf
  obtain ⟨a, ct, ha, hc, hr, hk, _, hlook⟩ := h.entry he
  rw [hlook] at hf; cases hf
  have hkl := (List.getElem?_eq_some_iff.mp hk).1
  have hcts : ct.cts = g.cts env := by
    apply hr.cts_eq_group hg hv
    intro c
    rw [← hm c]
    constructor
    · intro hcc; obtain ⟨v, hv, _⟩ := hr.get_some hcc hkl; simp [hv]
    · intro hs
      obtain ⟨v, hv⟩ := Option.isSome_iff_exists.mp hs
      exact (hr.mem_of_get hv).1
  have gs := Group.spec hv
  obtain ⟨a', s1, s2, s3, s4⟩ := hr.swapRemove_spec hg gs hcts hkl
  obtain ⟨m, r2, m1, m2, m3⟩ := h.removal he ha hc s2 s3 s4 (a'.entityAt en.indexInArchetype.value.toNat) (by
    intro hne sw hsw
    apply s4.entityAt_ok
    rw [swapPop_ents hkl, if_neg (by omega), if_pos rfl]
    exact hsw)
  refine ⟨_, _, _, ?_, m3, ?_⟩
  · unfold Registry.removeEntity
    rw [he]
    simp only []
    unfold ArchetypeRegistry.getUnchecked
    rw [indexUnchecked_of_getElem? ha]
    simp only [ok_bind]
    rw [s1]
    simp only [ok_bind]
    rw [m1]
    simp only [ok_bind]
    rw [m2, debugAssert_true rfl]
    rfl
  · obtain ⟨cts, c1, c2, c3⟩ := m3.row _ hlook
    rw [map_getD_of_map_some c3]
    apply List.Perm.map
    rw [List.perm_ext_iff_of_nodup c1 gs.wf.nodup']
    intro c
    rw [c2 c, hm c]

/-- `remove_entity` with any group: if the call returns, the registry is the one `destroy_entity` produces. -/
theorem RInv.removeEntity_any {r : Registry} {cs : List Content} (h : RInv W r cs) {e : Entity} {en : EntityEntry}
    (he : r.entities.entityEntry env e = some en) {g : Group} {r' : Registry} {o : Option (List Val)}
    (hok : r.removeEntity env g e = .ok (r', o)) :
    ∃ cs' vs, r.destroyEntity env e = .ok (r', true, vs) ∧ Removed W r cs e r' cs' vs ∧ ∃ l, o = some l := by
  obtain ⟨a, ct, ha, hc, hr, hk, _, hlook⟩ := h.entry he
  have hkl := (List.getElem?_eq_some_iff.mp hk).1
  obtain ⟨a', s1, s2, s3, s4⟩ := hr.swapDrop_spec (env := env) hkl
  have hrem : ∀ x data b, a.swapRemoveUnchecked env g en.indexInArchetype.value.toNat = .ok (x, data, b) →
      x = a' ∧ b = decide (en.indexInArchetype.value.toNat ≠ ct.ents.length - 1) := by
    intro x data b hx
    have hcnt := hr.count
    unfold Archetype.swapDropUnchecked at s1
    unfold Archetype.swapRemoveUnchecked at hx
    rw [debugAssert_true (by rw [hcnt]; simpa using hkl), subU32_le (by omega)] at s1 hx
    simp only [ok_bind] at s1 hx
    by_cases hlast : en.indexInArchetype.value.toNat = a.entityCount - 1
    · rw [if_pos hlast] at s1 hx
      rw [hr.dropEntity_spec hkl] at s1
      simp only [ok_bind] at s1
      cases hread : a.readComponentsExactUnchecked env g en.indexInArchetype.value.toNat with
      | error f => rw [hread] at hx; cases hx
      | ok d =>
        rw [hread] at hx
        simp only [ok_bind] at hx
        injection s1 with s1
        injection hx with hx
        injection s1 with s11 s12
        injection s12 with s12 s13
        injection hx with hx1 hx2
        injection hx2 with hx2 hx3
        exact ⟨by rw [← s11, ← hx1], by rw [← s12, ← hx3]⟩
    · rw [if_neg hlast] at s1 hx
      cases hsw : a.swapEntities en.indexInArchetype.value.toNat (a.entityCount - 1) with
      | error f => rw [hsw] at hx; cases hx
      | ok b =>
        rw [hsw] at hx s1
        simp only [ok_bind] at hx s1
        cases hsub : subU32 env b.entityCount 1 with
        | error f => rw [hsub] at hx; cases hx
        | ok l =>
          rw [hsub] at hx s1
          simp only [ok_bind] at hx s1
          cases hread : b.readComponentsExactUnchecked env g l with
          | error f => rw [hread] at hx; cases hx
          | ok d =>
            cases hdrop : b.dropEntity l with
            | error f => rw [hdrop] at s1; cases s1
            | ok dr =>
              rw [hread] at hx
              rw [hdrop] at s1
              simp only [ok_bind] at hx s1
              injection s1 with s1
              injection hx with hx
              injection s1 with s11 s12
              injection s12 with s12 s13
              injection hx with hx1 hx2
              injection hx2 with hx2 hx3
              exact ⟨by rw [← s11, ← hx1], by rw [← s12, ← hx3]⟩
  obtain ⟨m, r2, m1, m2, m3⟩ := h.removal he ha hc s2 s3 s4 (a'.entityAt en.indexInArchetype.value.toNat) (by
    intro hne sw hsw
    apply s4.entityAt_ok
    rw [swapPop_ents hkl, if_neg (by omega), if_pos rfl]
    exact hsw)
  obtain ⟨m', r2', m1', m2', m3'⟩ := h.removal he ha hc s2 s3 s4 (a'.entityAtUnchecked en.indexInArchetype.value.toNat) (by
    intro hne sw hsw
    apply s4.entityAtUnchecked_ok
    rw [swapPop_ents hkl, if_neg (by omega), if_pos rfl]
    exact hsw)
  have hmm : m' = m := by
    by_cases hlast : en.indexInArchetype.value.toNat = ct.ents.length - 1
    · rw [if_neg (by simpa using hlast)] at m1 m1'
      rw [m1] at m1'; injection m1' with m1'; exact m1'.symm
    · obtain ⟨sw, hsw⟩ : ∃ sw, ct.ents[ct.ents.length - 1]? = some sw := ⟨_, List.getElem?_eq_getElem (by omega)⟩
      have hsw' : (ct.swapPop en.indexInArchetype.value.toNat).ents[en.indexInArchetype.value.toNat]? = some sw := by
        rw [swapPop_ents hkl, if_neg (by omega), if_pos rfl]; exact hsw
      rw [if_pos (by simpa using hlast), s4.entityAt_ok hsw'] at m1
      rw [if_pos (by simpa using hlast), s4.entityAtUnchecked_ok hsw'] at m1'
      rw [m1] at m1'; injection m1' with m1'; exact m1'.symm
  subst hmm
  rw [m2'] at m2
  injection m2 with m2 _
  subst m2
  unfold Registry.removeEntity at hok
  rw [he] at hok
  simp only [] at hok
  unfold ArchetypeRegistry.getUnchecked at hok
  rw [indexUnchecked_of_getElem? ha] at hok
  simp only [ok_bind] at hok
  cases hs : a.swapRemoveUnchecked env g en.indexInArchetype.value.toNat with
  | error f => rw [hs] at hok; cases hok
  | ok s =>
    obtain ⟨x, data, b⟩ := s
    obtain ⟨rfl, rfl⟩ := hrem x data b hs
    rw [hs] at hok
    simp only [ok_bind] at hok
    rw [m1] at hok
    simp only [ok_bind] at hok
    rw [m2', debugAssert_true rfl] at hok
    simp only [ok_bind] at hok
    injection hok with hok
    injection hok with hok1 hok2
    subst hok1
    refine ⟨_, _, ?_, m3', data, hok2.symm⟩
    unfold Registry.destroyEntity
    rw [he]
    simp only []
    unfold ArchetypeRegistry.getUnchecked
    rw [indexUnchecked_of_getElem? ha]
    simp only [ok_bind]
    rw [s1]
    simp only [ok_bind]
    rw [m1']
    simp only [ok_bind]
    rw [m2', debugAssert_true rfl]
    rfl

end Shard
