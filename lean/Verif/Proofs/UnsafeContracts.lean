import Verif.Proofs.UnsafeCalls
import Verif.Spec.Contracts
import Verif.Proofs.Full
/-!
# The recorded calls keep their contracts

`Keeps P x`: all recorded calls of the computation `x` satisfy `P`. A computation is followed step by step: what a step yields
is known from the specifications of the model's functions.
-/

set_option autoImplicit false

namespace Shard.UnsafeCalls

section
variable {α β : Type} {P : UCall → Prop}

def Keeps (P : UCall → Prop) (x : T α) : Prop := ∀ u ∈ x.calls, P u

theorem Keeps.bind {x : T α} {f : α → T β} (hx : Keeps P x) (hf : ∀ a, x.res = .ok a → Keeps P (f a)) : Keeps P (x >>= f) := by
  show Keeps P (T.bind x f)
  unfold T.bind
  cases hr : x.res with
  | error e => exact hx
  | ok a =>
    intro u hu
    rcases List.mem_append.mp hu with h | h
    · exact hx u h
    · exact hf a hr u h

theorem Keeps.lift (m : M α) : Keeps P (lift m) := fun _ h => by cases h

theorem Keeps.pure (a : α) : Keeps P (pure a : T α) := fun _ h => by cases h

theorem Keeps.note {u : UCall} (h : P u) : Keeps P (note u) := fun v hv => by
  rw [List.mem_singleton.mp hv]; exact h

/-- A call, and then something else. -/
theorem Keeps.step {u : UCall} {f : Unit → T β} (h : P u) (hf : Keeps P (f ())) : Keeps P (UnsafeCalls.note u >>= f) :=
  Keeps.bind (Keeps.note h) (fun _ _ => hf)

/-- Something that makes no call, and then something else. -/
theorem Keeps.lift_bind {m : M α} {f : α → T β} (hf : ∀ a, m = .ok a → Keeps P (f a)) : Keeps P (UnsafeCalls.lift m >>= f) :=
  Keeps.bind (Keeps.lift m) hf

/-- A call followed by something that makes no call. -/
theorem Keeps.leaf {u : UCall} {m : M β} (h : P u) : Keeps P (UnsafeCalls.note u >>= fun _ => UnsafeCalls.lift m) :=
  Keeps.step h (Keeps.lift m)

theorem mem_bind {x : T α} {f : α → T β} {u : UCall} :
    u ∈ (x >>= f).calls ↔ u ∈ x.calls ∨ ∃ a, x.res = .ok a ∧ u ∈ (f a).calls := by
  show u ∈ (T.bind x f).calls ↔ _
  unfold T.bind
  cases hr : x.res with
  | error e => exact ⟨Or.inl, fun h => h.elim id (fun ⟨_, h, _⟩ => by cases h)⟩
  | ok a =>
    rw [List.mem_append]
    refine or_congr_right ⟨fun h => ⟨a, rfl, h⟩, ?_⟩
    rintro ⟨b, hb, hu⟩
    injection hb with hb
    rw [hb]; exact hu

theorem okInv {x : M α} {f : α → M β} {y : β} (h : Except.bind x f = .ok y) : ∃ a, x = .ok a ∧ f a = .ok y := by
  cases x with
  | error e => cases h
  | ok a => exact ⟨a, rfl, h⟩

theorem Keeps.mono {Q : UCall → Prop} {x : T α} (h : Keeps P x) (hpq : ∀ u, P u → Q u) : Keeps Q x := fun u hu => hpq u (h u hu)
end

/-- A call that is ordinary keeps its contract. -/
def Good (u : UCall) : Prop := u.Ordinary → u.Contract

section
variable {env : Env} {W : World env} {a : Archetype} {ct : Content}

theorem present (h : Rep W a ct) {c : CompTy} (hc : c ∈ ct.cts) : Present a c := by
  unfold Present
  rw [h.desc.comps]
  exact List.mem_map_of_mem hc

theorem subset (h : Rep W a ct) {g : Group} (hg : ∀ c ∈ g, c ∈ ct.cts) : Subset a g := fun c hc => present h (hg c hc)

theorem exact_of (h : Rep W a ct) {g : Group} (gs : GroupSpec env g) (hcts : ct.cts = g.cts env) : Exact a g := by
  unfold Exact
  rw [h.desc.comps, hcts, ← Group.cts_comps gs]
  exact gs.perm.symm

theorem validGroup {g : Group} (gs : GroupSpec env g) : ValidGroup g := ⟨gs.wf.nodup, gs.wf.pos, gs.wf.le⟩

theorem keeps_getUnchecked {ar : ArchetypeRegistry} {i : UInt16} (ha : ar.archetypes[i.toNat]? = some a) :
    Keeps Good (getUnchecked ar i) := Keeps.leaf (fun _ => (List.getElem?_eq_some_iff.mp ha).1)

theorem getUnchecked_eq {ar : ArchetypeRegistry} {i : UInt16} (ha : ar.archetypes[i.toNat]? = some a) {b : Archetype}
    (h : (getUnchecked ar i).res = .ok b) : b = a := by
  rw [getUnchecked_res] at h
  simp only [ArchetypeRegistry.getUnchecked, indexUnchecked, ha] at h
  injection h with h
  exact h.symm

theorem keeps_fuzzyPointers (h : Rep W a ct) {g : Group} (hsub : ∀ c ∈ g, c ∈ ct.cts) {k : Nat} (hk : k < a.capacity) :
    Keeps Good (fuzzyPointers env a g k) := Keeps.step (fun _ => ⟨hk, subset h hsub⟩) (Keeps.pure _)

theorem keeps_fuzzyComponents (h : Rep W a ct) {g : Group} (hsub : ∀ c ∈ g, c ∈ ct.cts) {k : Nat} (hk : k < ct.ents.length) :
    Keeps Good (fuzzyComponents env a g k) := by
  have hl := h.ents.len
  have hc := h.count
  refine Keeps.step (fun _ => ⟨subset h hsub, by omega⟩) (Keeps.lift_bind fun _ _ => ?_)
  exact Keeps.bind (keeps_fuzzyPointers h hsub (by omega)) (fun _ _ => Keeps.lift _)

theorem keeps_fuzzyComponentsMut (h : Rep W a ct) {g : Group} (hsub : ∀ c ∈ g, c ∈ ct.cts) {k : Nat} (hk : k < ct.ents.length) :
    Keeps Good (fuzzyComponentsMut env a g k) := by
  have hl := h.ents.len
  have hc := h.count
  refine Keeps.step (fun _ => ⟨subset h hsub, by omega⟩) (Keeps.lift_bind fun _ _ => ?_)
  exact Keeps.bind (keeps_fuzzyPointers h hsub (by omega)) (fun _ _ => Keeps.lift_bind fun _ _ => Keeps.pure _)

theorem keeps_fuzzySlices (h : Rep W a ct) {g : Group} (hv : ValidGroup g) (hsub : ∀ c ∈ g, c ∈ ct.cts) :
    Keeps Good (fuzzySlices env a g) :=
  Keeps.step (fun _ => ⟨subset h hsub, hv⟩) (Keeps.lift_bind fun _ _ =>
    Keeps.bind (keeps_fuzzyPointers h hsub h.cap.pos) (fun _ _ => Keeps.lift_bind fun _ _ => Keeps.lift _))

theorem keeps_fuzzySlicesMut (h : Rep W a ct) {g : Group} (hv : ValidGroup g) (hsub : ∀ c ∈ g, c ∈ ct.cts) :
    Keeps Good (fuzzySlicesMut env a g) :=
  Keeps.step (fun _ => ⟨subset h hsub, hv⟩) (Keeps.lift_bind fun _ _ =>
    Keeps.bind (keeps_fuzzyPointers h hsub h.cap.pos) (fun _ _ => Keeps.lift_bind fun _ _ => Keeps.lift_bind fun _ _ => Keeps.pure _))

theorem keeps_entityFuzzySlices (h : Rep W a ct) {g : Group} (hv : ValidGroup g) (hsub : ∀ c ∈ g, c ∈ ct.cts) :
    Keeps Good (entityFuzzySlices env a g) :=
  Keeps.step (fun _ => ⟨subset h hsub, hv⟩) (Keeps.lift_bind fun _ _ =>
    Keeps.bind (keeps_fuzzyPointers h hsub h.cap.pos) (fun _ _ => Keeps.lift_bind fun _ _ => Keeps.lift_bind fun _ _ =>
      Keeps.lift_bind fun _ _ => Keeps.pure _))

theorem keeps_entityFuzzySlicesMut (h : Rep W a ct) {g : Group} (hv : ValidGroup g) (hsub : ∀ c ∈ g, c ∈ ct.cts) :
    Keeps Good (entityFuzzySlicesMut env a g) :=
  Keeps.step (fun _ => ⟨subset h hsub, hv⟩) (Keeps.lift_bind fun _ _ =>
    Keeps.bind (keeps_fuzzyPointers h hsub h.cap.pos) (fun _ _ => Keeps.lift_bind fun _ _ => Keeps.lift_bind fun _ _ =>
      Keeps.lift_bind fun _ _ => Keeps.pure _))

theorem keeps_pushEntity (h : Rep W a ct) {g : Group} (gs : GroupSpec env g) (hcts : ct.cts = g.cts env)
    (hlt : ct.ents.length < 8388608) (e : Entity) (vals : List Val) : Keeps Good (pushEntity env a e g vals) := by
  refine Keeps.step (fun _ => exact_of h gs hcts) (Keeps.lift_bind fun _ _ => Keeps.lift_bind fun _ _ =>
    Keeps.lift_bind fun a1 ha1 => ?_)
  obtain ⟨a', q1, q2, q3, q4, _⟩ := h.resizeIfNecessary_spec (env := env) hlt
  rw [q1] at ha1
  injection ha1 with ha1
  subst ha1
  refine Keeps.bind (Keeps.leaf (fun _ => ⟨exact_of q2 gs hcts, ?_⟩)) (fun _ _ => Keeps.pure _)
  rw [q2.count]
  exact q4

theorem keeps_swapDrop (h : Rep W a ct) {k : Nat} (hk : k < ct.ents.length) : Keeps Good (swapDrop env a k) := by
  have hcnt := h.count
  refine Keeps.step (fun _ => by show k < _; omega) (Keeps.lift_bind fun _ _ => Keeps.lift_bind fun l hl => ?_)
  rw [subU32_le (by omega)] at hl
  injection hl with hl
  subst hl
  split
  · exact Keeps.bind (Keeps.leaf (fun _ => by show k < _; omega)) (fun _ _ => Keeps.lift_bind fun _ _ => Keeps.pure _)
  · next hne =>
    refine Keeps.bind (Keeps.leaf (fun _ => ⟨by omega, by omega, hne⟩)) (fun a1 ha1 => ?_)
    obtain ⟨a', q1, _, _, q4⟩ := h.swapEntities_spec hne hk (j := a.entityCount - 1) (by omega)
    rw [swapEntities_res, q1] at ha1
    injection ha1 with ha1
    subst ha1
    have hcnt' := q4.count
    have hl' : (ct.swap k (a.entityCount - 1)).ents.length = ct.ents.length := by simp [Content.swap, swapAt_length]
    refine Keeps.lift_bind fun l hl => ?_
    rw [subU32_le (by omega)] at hl
    injection hl with hl
    subst hl
    exact Keeps.bind (Keeps.leaf (fun _ => by show _ < _; omega)) (fun _ _ => Keeps.lift_bind fun _ _ => Keeps.pure _)

theorem keeps_swapToLast (h : Rep W a ct) {k : Nat} (hk : k < ct.ents.length) : Keeps Good (swapToLast env a k) := by
  have hcnt := h.count
  refine Keeps.step (fun _ => by show k < _; omega) (Keeps.lift_bind fun _ _ => Keeps.lift_bind fun l hl => ?_)
  rw [subU32_le (by omega)] at hl
  injection hl with hl
  subst hl
  split
  · exact Keeps.pure _
  · next hne => exact Keeps.bind (Keeps.leaf (fun _ => ⟨by omega, by omega, hne⟩)) (fun _ _ => Keeps.pure _)

/-- `swap_remove_unchecked` calls with the group it gets. -/
theorem keeps_swapRemove (h : Rep W a ct) {g : Group} (hx : Exact a g) {k : Nat}
    (hk : k < ct.ents.length) : Keeps Good (swapRemove env a g k) := by
  have hcnt := h.count
  refine Keeps.step (fun _ => ⟨by omega, hx⟩) (Keeps.lift_bind fun _ _ => Keeps.lift_bind fun l hl => ?_)
  rw [subU32_le (by omega)] at hl
  injection hl with hl
  subst hl
  split
  · exact Keeps.bind (Keeps.leaf (fun _ => ⟨hx, by omega⟩)) (fun _ _ => Keeps.lift_bind fun _ _ => Keeps.pure _)
  · next hne =>
    refine Keeps.bind (Keeps.leaf (fun _ => ⟨by omega, by omega, hne⟩)) (fun a1 ha1 => ?_)
    obtain ⟨a', q1, q2, _, q4⟩ := h.swapEntities_spec hne hk (j := a.entityCount - 1) (by omega)
    rw [swapEntities_res, q1] at ha1
    injection ha1 with ha1
    subst ha1
    have hcnt' := q4.count
    have hl' : (ct.swap k (a.entityCount - 1)).ents.length = ct.ents.length := by simp [Content.swap, swapAt_length]
    refine Keeps.lift_bind fun l hl => ?_
    rw [subU32_le (by omega)] at hl
    injection hl with hl
    subst hl
    refine Keeps.bind (Keeps.leaf (fun _ => ⟨?_, by omega⟩)) (fun _ _ => Keeps.lift_bind fun _ _ => Keeps.pure _)
    unfold Exact
    rw [q2]
    exact hx

/-- The group has the types of the archetype, each once. -/
theorem exact_iff (h : Rep W a ct) {g : Group} (hg : ∀ c ∈ g, W.Has c) :
    Exact a g ↔ (∀ c, c ∈ ct.cts ↔ c ∈ g) ∧ g.Nodup := by
  have hinj : ∀ {c c' : CompTy}, W.Has c → W.Has c' → c.descriptor = c'.descriptor → c = c' := by
    intro c c' h1 h2 he
    exact W.id_inj h1 h2 (by rw [← CompTy.descriptor_id, he, CompTy.descriptor_id])
  unfold Exact
  rw [h.desc.comps]
  constructor
  · intro hp
    have hnd : g.Nodup := by
      have h1 : (ct.cts.map CompTy.descriptor).Nodup := by
        rw [← h.desc.comps]
        have := h.desc.wf.ids_nodup
        exact nodup_of_map this
      have h2 := hp.nodup_iff.mpr h1
      exact nodup_of_map h2
    refine ⟨fun c => ⟨fun hc => ?_, fun hc => ?_⟩, hnd⟩
    · obtain ⟨c', h1, h2⟩ := List.mem_map.mp (hp.mem_iff.mpr (List.mem_map_of_mem hc))
      rw [← hinj (hg _ h1) (h.desc.has _ hc) h2]; exact h1
    · obtain ⟨c', h1, h2⟩ := List.mem_map.mp (hp.mem_iff.mp (List.mem_map_of_mem hc))
      rw [← hinj (h.desc.has _ h1) (hg _ hc) h2]; exact h1
  · rintro ⟨hm, hnd⟩
    exact ((List.perm_ext_iff_of_nodup hnd h.nodup).mpr (fun c => (hm c).symm)).map _

theorem keeps_createEntry {er : EntityRegistry} (h : EntInv env er) (iia : IndexInArchetype) (ai : ArchetypeIndex) :
    Keeps Good (createEntry env er iia ai) := by
  have hM : MAX_ENTITY_HANDLE_VALUE = 16777215 := rfl
  have hl := h.len_le
  obtain ⟨fl, hf⟩ := h.free
  have hx := hf.1.head_lt hl
  unfold createEntry
  split
  · exact Keeps.lift _
  · split
    · refine Keeps.leaf (fun _ => ?_)
      show (UInt32.ofNat _).toNat < _
      rw [UInt32.toNat_ofNat']
      omega
    · exact Keeps.lift_bind fun _ _ => Keeps.leaf (fun _ => hx)

theorem keeps_destroyEntry {er : EntityRegistry} (h : EntInv env er) (e : Entity) : Keeps Good (destroyEntry env er e) := by
  obtain ⟨fl, hf⟩ := h.free
  have hx := hf.1.head_lt h.len_le
  unfold destroyEntry
  split
  · exact Keeps.step (fun _ => hx) (Keeps.step (fun ho => ho.elim) (Keeps.pure _))
  · exact Keeps.pure _

theorem keeps_iterEntries {er : EntityRegistry} (h : EntInv env er) : Keeps Good (iterEntries env er) := by
  have hM : MAX_ENTITY_HANDLE_VALUE = 16777215 := rfl
  have hl := h.len_le
  intro u hu _
  obtain ⟨x, hx, rfl⟩ := List.mem_map.mp hu
  obtain ⟨hx, _⟩ := List.mem_filter.mp hx
  have := (List.mem_zipIdx' hx).1
  show (UInt32.ofNat _).toNat < _
  rw [UInt32.toNat_ofNat']
  omega

end

/-! ## The iterators -/

section
variable {env : Env} {W : World env} {ar : ArchetypeRegistry} {cs : List Content}

theorem keeps_collect {α : Type} (h : ARInv W ar cs) {g : Group} (hv : (g.descriptor env).isValid = true)
    {filter : ArchetypeDescriptor → Bool} {f : Archetype → T α}
    (hf : ∀ (i : Nat) (a : Archetype), ar.archetypes[i]? = some a →
      a.descriptor.containsSubset (g.descriptor env).archetype = true → Keeps Good (f a)) :
    ∀ (n : Nat) (it : ArchIter), Keeps Good (collect env g filter ar f n it)
  | 0, _ => fun _ hu => by cases hu
  | n + 1, it => by
    unfold collect
    refine Keeps.lift_bind fun s hs => ?_
    obtain ⟨o, it', h1, h2⟩ := ArchIter.next_spec h hv (filter := filter) it
    rw [h1] at hs
    injection hs with hs
    subst hs
    rcases h2 with ⟨rfl, _⟩ | ⟨i, rfl, h2⟩
    · exact Keeps.pure _
    · refine Keeps.lift_bind fun a ha => ?_
      have hi : i ∈ selected (g.descriptor env).archetype filter ar (it.ahead ar) := by rw [h2]; exact List.mem_cons_self
      obtain ⟨b, hb, hsub, _⟩ := accepts_iff.mp (List.mem_filter.mp hi).2
      simp only [indexUnchecked, hb] at ha
      injection ha with ha
      subst ha
      exact Keeps.bind (hf i b hb hsub) (fun _ _ => Keeps.bind (keeps_collect h hv hf n it') (fun _ _ => Keeps.pure _))

theorem calls_collect_invalid {α : Type} {g : Group} (hv : (g.descriptor env).isValid = false)
    {filter : ArchetypeDescriptor → Bool} {f : Archetype → T α} :
    ∀ (n : Nat) (it : ArchIter), (collect env g filter ar f n it).calls = []
  | 0, _ => rfl
  | n + 1, it => by
    unfold collect
    have h1 : ∃ it', ArchIter.next env g filter ar it = .ok (none, it') := by
      unfold ArchIter.next
      rw [if_pos (by simp [hv])]
      exact ⟨_, rfl⟩
    obtain ⟨it', h1⟩ := h1
    rw [h1]
    rfl

theorem keeps_iterate {α : Type} (h : ARInv W ar cs) {g : Group} (hg : ∀ c ∈ g, W.Has c)
    {filter : ArchetypeDescriptor → Bool} {f : Archetype → T α}
    (hf : ∀ (a : Archetype) (ct : Content), Rep W a ct → ValidGroup g → (∀ c ∈ g, c ∈ ct.cts) → Keeps Good (f a)) :
    Keeps Good (iterate env ar g filter f) := by
  refine Keeps.lift_bind fun it _ => ?_
  cases hv : (g.descriptor env).isValid with
  | false =>
    intro u hu
    rw [calls_collect_invalid hv] at hu
    cases hu
  | true =>
    refine keeps_collect h hv (fun i a ha hs => ?_) _ _
    obtain ⟨ct, hc, hr⟩ := h.content ha
    exact hf a ct hr (validGroup (Group.spec hv)) (hr.subset_of_contains hg hv hs)

end

/-! ## `registry.rs` -/

section
variable {env : Env} {W : World env} {r : Registry} {cs : List Content}

theorem keeps_createEntity (h : RInv W r cs) {g : Group} {vals : List Val}
    (hg : (g.descriptor env).isValid = true → W.OkGroup g)
    (hfull : r.entities.entities.length < 16777215 → ∀ a ∈ r.archetypes.archetypes, Exact a g →
      a.descriptor.archetypeId = (g.descriptor env).archetype.archetypeId → a.entityCount < 8388608) :
    Keeps Good (createEntity env r g vals) := by
  unfold createEntity
  split
  · exact Keeps.lift _
  · next hv =>
    replace hv : (g.descriptor env).isValid = true := by simpa using hv
    have hg := hg hv
    have gs := Group.spec hv
    refine Keeps.lift_bind fun f hf => ?_
    rcases h.arch.focus (Group.descOK hg hv) with ⟨h1, _⟩ | ⟨ar', cs', ai, a, ct, h1, h2, h3, h4, h5, h6, h7, h8, h9, _⟩
    · rw [h1] at hf
      injection hf with hf
      subst hf
      exact Keeps.pure _
    · rw [h1] at hf
      injection hf with hf
      subst hf
      refine Keeps.lift_bind fun b hb => ?_
      rw [index_of_getElem? h4] at hb
      injection hb with hb
      subst hb
      refine Keeps.lift_bind fun iia _ => Keeps.lift_bind fun aix _ => Keeps.bind (keeps_createEntry h.ents _ _) fun c hce => ?_
      split
      · exact Keeps.pure _
      · next e hsome =>
        have hroom : r.entities.entities.length < 16777215 := by
          refine Nat.lt_of_not_le fun hge => ?_
          have hM : EntityRegistry.MAX_ENTITY_COUNT = 16777215 := rfl
          rw [createEntry_res] at hce
          unfold EntityRegistry.createEntity at hce
          rw [if_pos (by omega)] at hce
          injection hce with hce
          rw [← hce] at hsome
          cases hsome
        replace hfull := hfull hroom
        refine Keeps.bind (keeps_pushEntity h6 gs h7 ?_ _ _) (fun _ _ => Keeps.pure _)
        rw [← h6.count]
        rcases h3 with ⟨rfl, rfl⟩ | ⟨b, cts, e1, _, e3, _⟩
        · exact hfull _ (List.mem_of_getElem? h4) (exact_of h6 gs h7) h9
        · have hm := List.mem_of_getElem? h4
          rw [e1] at hm
          rcases List.mem_append.mp hm with hm | hm
          · exact hfull _ hm (exact_of h6 gs h7) h9
          · rw [List.mem_singleton.mp hm, e3]; decide

theorem keeps_destroyEntity (h : RInv W r cs) (e : Entity) : Keeps Good (destroyEntity env r e) := by
  unfold destroyEntity
  cases he : r.entities.entityEntry env e with
  | none => exact Keeps.lift _
  | some en =>
    obtain ⟨a, ct, ha, hc, hr, hk, _⟩ := h.entry he
    have hkl := (List.getElem?_eq_some_iff.mp hk).1
    refine Keeps.bind (keeps_getUnchecked ha) fun b hb => ?_
    cases getUnchecked_eq ha hb
    refine Keeps.bind (keeps_swapDrop hr hkl) fun s hs => ?_
    obtain ⟨a', q1, _, _, q4⟩ := hr.swapDrop_spec (env := env) hkl
    rw [swapDrop_res, q1] at hs
    injection hs with hs
    subst hs
    refine Keeps.lift_bind fun m hm => ?_
    obtain ⟨m', m1, m2, _⟩ := h.fixSwap he hc (a'.entityAtUnchecked en.indexInArchetype.value.toNat) (by
      intro hne sw hsw
      refine q4.entityAtUnchecked_ok ?_
      rw [swapPop_ents hkl, if_neg (by omega), if_pos rfl]
      exact hsw)
    rw [m1] at hm
    injection hm with hm
    subst hm
    exact Keeps.bind (keeps_destroyEntry m2 e) fun _ _ => Keeps.lift_bind fun _ _ => Keeps.pure _

/-- The content of a removed row. -/
theorem fixSwap_removed (h : RInv W r cs) {e : Entity} {en : EntityEntry} (he : r.entities.entityEntry env e = some en)
    {ct : Content} (hc : cs[(en.archetypeIndex env).toNat]? = some ct) {a' : Archetype}
    (hk : en.indexInArchetype.value.toNat < ct.ents.length) (hr : Rep W a' (ct.swapPop en.indexInArchetype.value.toNat)) :
    ∃ m, ((if decide (en.indexInArchetype.value.toNat ≠ ct.ents.length - 1) = true then do
        let sw ← a'.entityAt en.indexInArchetype.value.toNat
        unwrap (r.entities.updateEntry env sw (fun x => x.setIndexInArchetype en.indexInArchetype))
      else .ok r.entities) : M EntityRegistry) = .ok m ∧ EntInv env m ∧ m.nextFreeSlot = r.entities.nextFreeSlot ∧
      m.entityEntry env e = some en := by
  obtain ⟨m, m1, m2, m3, m4, _⟩ := h.fixSwap he hc (a'.entityAt en.indexInArchetype.value.toNat) (by
    intro hne sw hsw
    refine hr.entityAt_ok ?_
    rw [swapPop_ents hk, if_neg (by omega), if_pos rfl]
    exact hsw)
  exact ⟨m, m1, m2, m3.next, m4⟩

theorem keeps_removeEntity (h : RInv W r cs) {g : Group} {e : Entity}
    (hg : ∀ c ∈ g, W.Has c) (hm : Live env r e → HasExactly W r e g ∧ g.Nodup) :
    Keeps Good (removeEntity env r g e) := by
  unfold removeEntity
  cases he : r.entities.entityEntry env e with
  | none => exact Keeps.lift _
  | some en =>
    obtain ⟨a, ct, ha, hc, hr, hk, _, hlook⟩ := h.entry he
    have hkl := (List.getElem?_eq_some_iff.mp hk).1
    obtain ⟨hx, hnd⟩ := hm (h.live_iff.mpr ⟨_, hlook⟩)
    obtain ⟨en', a0, ct0, he', ha', hc', hr', hf, hm'⟩ := h.stored_at hlook
    rw [he] at he'; cases he'
    rw [hc] at hc'; cases hc'
    have hmem : ∀ c, c ∈ ct.cts ↔ c ∈ g := fun c => by rw [← hm' c]; exact (h.hasExactly_iff hlook hg).mp hx c
    refine Keeps.bind (keeps_getUnchecked ha) fun b hb => ?_
    cases getUnchecked_eq ha hb
    refine Keeps.bind (keeps_swapRemove hr ((exact_iff hr hg).mpr ⟨hmem, hnd⟩) hkl) fun s hs => ?_
    obtain ⟨_, _, a', _, _, _, _, q1, _, _, q4⟩ := hr.swapRemove_core (env := env) hkl
    rw [swapRemove_res, q1] at hs
    obtain ⟨data, _, hs⟩ := okInv hs
    injection hs with hs
    subst hs
    refine Keeps.lift_bind fun m hm => ?_
    obtain ⟨m', m1, m2, _⟩ := fixSwap_removed h he hc hkl q4
    rw [m1] at hm
    injection hm with hm
    subst hm
    exact Keeps.bind (keeps_destroyEntry m2 e) fun _ _ => Keeps.lift_bind fun _ _ => Keeps.pure _

theorem keeps_hasComponent (h : RInv W r cs) (c : CompTy) (e : Entity) : Keeps Good (hasComponent env r c e) := by
  unfold hasComponent
  cases he : r.entities.entityEntry env e with
  | none => exact Keeps.lift _
  | some en =>
    obtain ⟨a, ct, ha, _⟩ := h.entry he
    exact Keeps.bind (keeps_getUnchecked ha) fun _ _ => Keeps.pure _

theorem keeps_hasComponents (h : RInv W r cs) (g : Group) (e : Entity) : Keeps Good (hasComponents env r g e) := by
  unfold hasComponents
  cases he : r.entities.entityEntry env e with
  | none => exact Keeps.lift _
  | some en =>
    obtain ⟨a, ct, ha, _⟩ := h.entry he
    exact Keeps.bind (keeps_getUnchecked ha) fun _ _ => Keeps.pure _

theorem keeps_getComponentOf (h : RInv W r cs) {c : CompTy} (hW : W.Has c) (e : Entity) :
    Keeps Good (getComponentOf env r c e) := by
  unfold getComponentOf
  cases he : r.entities.entityEntry env e with
  | none => exact Keeps.lift _
  | some en =>
    obtain ⟨a, ct, ha, hc, hr, hk, _⟩ := h.entry he
    have hkl := (List.getElem?_eq_some_iff.mp hk).1
    refine Keeps.bind (keeps_getUnchecked ha) fun b hb => ?_
    cases getUnchecked_eq ha hb
    split
    · exact Keeps.pure _
    · next hh =>
      have hm := (hr.desc.hasComponent_iff hW).mp (by simpa using hh)
      exact Keeps.bind (Keeps.leaf (fun _ => ⟨present hr hm, by rw [hr.count]; exact hkl⟩)) fun _ _ => Keeps.pure _

theorem keeps_getComponentMutOf (h : RInv W r cs) {c : CompTy} (hW : W.Has c) (e : Entity) :
    Keeps Good (getComponentMutOf env r c e) := by
  unfold getComponentMutOf
  cases he : r.entities.entityEntry env e with
  | none => exact Keeps.lift _
  | some en =>
    obtain ⟨a, ct, ha, hc, hr, hk, _⟩ := h.entry he
    have hkl := (List.getElem?_eq_some_iff.mp hk).1
    refine Keeps.bind (keeps_getUnchecked ha) fun b hb => ?_
    cases getUnchecked_eq ha hb
    split
    · exact Keeps.pure _
    · next hh =>
      have hm := (hr.desc.hasComponent_iff hW).mp (by simpa using hh)
      exact Keeps.bind (Keeps.leaf (fun _ => ⟨present hr hm, by rw [hr.count]; exact hkl⟩)) fun _ _ => Keeps.pure _

/-- With a group the entity has all types of, or a valid one. -/
theorem keeps_getComponentsOf (h : RInv W r cs) {g : Group} {e : Entity}
    (hg : ∀ en a ct, r.entities.entityEntry env e = some en → r.archetypes.archetypes[(en.archetypeIndex env).toNat]? = some a →
      Rep W a ct → a.descriptor.containsSubset (g.descriptor env).archetype = true → ∀ c ∈ g, c ∈ ct.cts) :
    Keeps Good (getComponentsOf env r g e) ∧ Keeps Good (getComponentsMutOf env r g e) := by
  unfold getComponentsOf getComponentsMutOf
  cases he : r.entities.entityEntry env e with
  | none => exact ⟨Keeps.lift _, Keeps.lift _⟩
  | some en =>
    obtain ⟨a, ct, ha, hc, hr, hk, _⟩ := h.entry he
    have hkl := (List.getElem?_eq_some_iff.mp hk).1
    constructor
    · refine Keeps.bind (keeps_getUnchecked ha) fun b hb => ?_
      cases getUnchecked_eq ha hb
      split
      · exact Keeps.pure _
      · next hh =>
        exact Keeps.bind (keeps_fuzzyComponents hr (hg _ _ _ he ha hr (by simpa using hh)) hkl) fun _ _ => Keeps.pure _
    · refine Keeps.bind (keeps_getUnchecked ha) fun b hb => ?_
      cases getUnchecked_eq ha hb
      split
      · exact Keeps.pure _
      · next hh =>
        exact Keeps.bind (keeps_fuzzyComponentsMut hr (hg _ _ _ he ha hr (by simpa using hh)) hkl) fun _ _ => Keeps.pure _

theorem present_iff {a : Archetype} {ct : Content} (h : Rep W a ct) {c : CompTy} (hW : W.Has c) : Present a c ↔ c ∈ ct.cts := by
  refine ⟨fun hp => ?_, present h⟩
  unfold Present at hp
  rw [h.desc.comps] at hp
  obtain ⟨c', h1, h2⟩ := List.mem_map.mp hp
  rw [← W.id_inj (h.desc.has _ h1) hW (by rw [← CompTy.descriptor_id, h2, CompTy.descriptor_id])]
  exact h1

theorem nodup_length_le {l1 l2 : List CompTy} (hn : l1.Nodup) (hs : ∀ x ∈ l1, x ∈ l2) : l1.length ≤ l2.length := by
  induction l1 generalizing l2 with
  | nil => simp
  | cons a t ih =>
    obtain ⟨h1, h2⟩ := List.nodup_cons.mp hn
    have ha := hs a (by simp)
    have := ih (l2 := l2.erase a) h2 (fun x hx => (List.mem_erase_of_ne (fun he => h1 (by rw [← he]; exact hx))).mpr (hs x (by simp [hx])))
    rw [List.length_erase_of_mem ha] at this
    have := List.length_pos_of_mem ha
    simp only [List.length_cons]
    omega

theorem target_room {ar' : ArchetypeRegistry} {cs' : List Content} {P Q : CompTy → Prop} {si n : Nat} {dai : UInt16}
    {b : Archetype} {ctD : Content} (hT : Target W r.archetypes cs si P ar' cs' dai b ctD)
    (hPQ : ∀ c, W.Has c → (P c ↔ Q c)) (hl : ctD.cts.length ≤ n)
    (hn : ∀ a ∈ r.archetypes.archetypes, Takes W a Q → a.descriptor.len ≤ n → a.entityCount < 8388608) :
    ctD.ents.length < 8388608 := by
  rw [← hT.rep.count]
  have ht : Takes W b Q := ⟨fun c hc => by rw [present_iff hT.rep hc, hT.cts c, hPQ c hc], hT.id⟩
  have hl' : b.descriptor.len ≤ n := by rw [← hT.rep.desc.length]; exact hl
  have hm := List.mem_of_getElem? hT.arch
  rcases hT.grown with ⟨rfl, _⟩ | ⟨x, cts, e1, _, e3, _⟩
  · exact hn _ hm ht hl'
  · rw [e1] at hm
    rcases List.mem_append.mp hm with hm | hm
    · exact hn _ hm ht hl'
    · rw [List.mem_singleton.mp hm, e3]; decide

theorem keeps_addComponent (h : RInv W r cs) {e : Entity} {c : CompTy} (v : Val) (hW : W.Has c)
    (hu : Live env r e → ∀ s, AscSet s (fun i => i = c.id ∨ HasId W r e i) → W.Used s)
    (hn : Live env r e → r.hasComponent env c e ≠ .ok true → ∀ a ∈ r.archetypes.archetypes,
      Takes W a (fun c' => c' = c ∨ r.hasComponent env c' e = .ok true) → a.descriptor.len ≤ 13 → a.entityCount < 8388608) :
    Keeps Good (addComponent env r e c v) := by
  unfold addComponent
  cases he : r.entities.entityEntry env e with
  | none => exact Keeps.lift _
  | some en =>
    obtain ⟨a, ct, ha, hc, hr, hk, _, hlook⟩ := h.entry he
    have hkl := (List.getElem?_eq_some_iff.mp hk).1
    obtain ⟨en', a0, ct0, he', ha', hc', hr', hf, hm⟩ := h.stored_at hlook
    rw [he] at he'; cases he'
    rw [hc] at hc'; cases hc'
    have hadd : ∀ i, AddedIds ct.cts c i ↔ (i = c.id ∨ HasId W r e i) := by
      intro i
      unfold AddedIds
      rw [h.hasId_iff hlook]
      constructor
      · rintro (hi | ⟨c', h1, h2⟩)
        · exact Or.inl hi
        · exact Or.inr ⟨c', h2, (hm c').mpr h1⟩
      · rintro (hi | ⟨c', h1, h2⟩)
        · exact Or.inl hi
        · exact Or.inr ⟨c', (hm c').mp h2, h1⟩
    refine Keeps.lift_bind fun f hf => ?_
    rcases h.arch.adding_spec ha hc hW (fun _ _ s hs => hu (h.live_iff.mpr ⟨_, hlook⟩) s (hs.congr hadd)) with
      ⟨f1, _⟩ | ⟨f1, _⟩ | ⟨f1, f2, f4, ar', cs', dai, b, ctD, f3, hT⟩
    · rw [f1] at hf
      injection hf with hf
      subst hf
      exact Keeps.pure _
    · rw [f1] at hf; cases hf
    · rw [f3] at hf
      injection hf with hf
      subst hf
      refine Keeps.lift_bind fun src hs => Keeps.lift_bind fun dst hd => ?_
      rw [index_of_getElem? (hT.grown.getA ha)] at hs
      injection hs with hs
      subst hs
      rw [index_of_getElem? hT.arch] at hd
      injection hd with hd
      subst hd
      refine Keeps.bind (keeps_swapToLast hr hkl) fun s hs => ?_
      obtain ⟨a1, s1, s2, s3, s4⟩ := hr.swapToLast_spec (env := env) hkl
      rw [swapToLast_res, s1] at hs
      injection hs with hs
      subst hs
      have hl1 : (ct.swap en.indexInArchetype.value.toNat (ct.ents.length - 1)).ents.length = ct.ents.length := by
        simp [Content.swap, swapAt_length]
      have hcnt := s4.count
      have hel := s4.ents.len
      refine Keeps.lift_bind fun ents _ => Keeps.lift_bind fun p hp => ?_
      have hroom : ctD.ents.length < 8388608 := by
        refine target_room hT (fun c' hc' => ?_) ?_
          (hn (h.live_iff.mpr ⟨_, hlook⟩) (fun hx => f1 ((hm c).mp ((h.has_iff hlook hW).mp hx))))
        · rw [h.has_iff hlook hc', hm c']
        · have := nodup_length_le (l1 := ctD.cts) (l2 := c :: ct.cts) hT.rep.nodup (fun c' hc' => List.mem_cons.mpr ((hT.cts c').mp hc'))
          simp only [List.length_cons] at this
          omega
      obtain ⟨d1, p1, p2, p3, p4, _⟩ := hT.rep.pushUninit_spec (env := env) hroom
      rw [p1] at hp
      injection hp with hp
      subst hp
      have hcnt1 := p2.count
      refine Keeps.lift_bind fun si hsi => Keeps.lift_bind fun di hdi => ?_
      replace hsi : subU32 env a1.entityCount 1 = .ok si := hsi
      replace hdi : subU32 env (d1.entityCount + 1) 1 = .ok di := hdi
      rw [subU32_le (by omega)] at hsi hdi
      injection hsi with hsi
      injection hdi with hdi
      have hdi' : di = ctD.ents.length := by
        omega
      have hsi' : si = ct.ents.length - 1 := by rw [← hsi, hcnt, hl1]
      refine Keeps.bind (Keeps.leaf (fun _ => ⟨by show si < a1.entityCount; omega, by show a1.entityCount ≤ a1.capacity; omega,
        by show di < d1.capacity; omega⟩)) fun d2 hd2 => ?_
      obtain ⟨ptrs, c1, c2⟩ := s4.copyCommon_spec (k := si) (by omega)
        (dst := { d1 with entityCount := d1.entityCount + 1 }) p2.desc p2.cols p2.lens p4
      rw [copyCommon_res, hdi', c1] at hd2
      injection hd2 with hd2
      subst hd2
      refine Keeps.bind (Keeps.leaf (fun _ => ⟨?_, by show di < d1.capacity; omega⟩)) fun d3 _ => ?_
      · show c.descriptor ∈ d1.descriptor.components
        exact present p2 ((hT.cts c).mpr (Or.inl rfl))
      · refine Keeps.lift_bind fun _ _ => Keeps.lift_bind fun _ _ =>
          Keeps.bind (Keeps.leaf (fun _ => by show 0 < a1.entityCount; omega)) fun _ _ => ?_
        exact Keeps.lift_bind fun _ _ => Keeps.lift_bind fun _ _ => Keeps.pure _

theorem keeps_removeComponent (h : RInv W r cs) {e : Entity} {c : CompTy} (hW : W.Has c)
    (hu : Live env r e → ∀ s, s ≠ [] → AscSet s (fun i => i ≠ c.id ∧ HasId W r e i) → W.Used s)
    (hn : Live env r e → r.hasComponent env c e = .ok true → ∀ a ∈ r.archetypes.archetypes,
      Takes W a (fun c' => c' ≠ c ∧ r.hasComponent env c' e = .ok true) → a.descriptor.len ≤ 12 → a.entityCount < 8388608) :
    Keeps Good (removeComponent env r e c) := by
  unfold removeComponent
  cases he : r.entities.entityEntry env e with
  | none => exact Keeps.lift _
  | some en =>
    obtain ⟨a, ct, ha, hc, hr, hk, _, hlook⟩ := h.entry he
    have hkl := (List.getElem?_eq_some_iff.mp hk).1
    obtain ⟨en', a0, ct0, he', ha', hc', hr', hf, hm⟩ := h.stored_at hlook
    rw [he] at he'; cases he'
    rw [hc] at hc'; cases hc'
    have hrem : ∀ i, RemovedIds ct.cts c i ↔ (i ≠ c.id ∧ HasId W r e i) := by
      intro i
      unfold RemovedIds
      rw [h.hasId_iff hlook]
      constructor
      · rintro ⟨c', h1, h2, rfl⟩
        refine ⟨fun hid => h2 (W.id_inj (hr.desc.has _ h1) hW hid), c', rfl, (hm c').mpr h1⟩
      · rintro ⟨h1, c', rfl, h2⟩
        exact ⟨c', (hm c').mp h2, fun hc => h1 (congrArg _ hc), rfl⟩
    refine Keeps.lift_bind fun f hf => ?_
    rcases h.arch.removing_spec ha hc hW (fun _ h2 _ s hs => by
      refine hu (h.live_iff.mpr ⟨_, hlook⟩) s ?_ (hs.congr hrem)
      intro hnil
      obtain ⟨c', m1, m2⟩ := exists_ne_of_two hr.nodup h2 c
      have := (hs.2 c'.id).mpr ⟨c', m1, m2, rfl⟩
      rw [hnil] at this
      cases this) with ⟨f1, _⟩ | ⟨f1, _⟩ | ⟨f1, f2, f5, f4, ar', cs', dai, b, ctD, f3, hT⟩
    · rw [f1] at hf
      injection hf with hf
      subst hf
      exact Keeps.pure _
    · rw [f1] at hf; cases hf
    · rw [f3] at hf
      injection hf with hf
      subst hf
      refine Keeps.lift_bind fun src hs => Keeps.lift_bind fun dst hd => ?_
      rw [index_of_getElem? (hT.grown.getA ha)] at hs
      injection hs with hs
      subst hs
      rw [index_of_getElem? hT.arch] at hd
      injection hd with hd
      subst hd
      refine Keeps.bind (keeps_swapToLast hr hkl) fun s hs => ?_
      obtain ⟨a1, s1, s2, s3, s4⟩ := hr.swapToLast_spec (env := env) hkl
      rw [swapToLast_res, s1] at hs
      injection hs with hs
      subst hs
      have hl1 : (ct.swap en.indexInArchetype.value.toNat (ct.ents.length - 1)).ents.length = ct.ents.length := by
        simp [Content.swap, swapAt_length]
      have hcnt := s4.count
      have hel := s4.ents.len
      refine Keeps.lift_bind fun ents _ => Keeps.lift_bind fun p hp => ?_
      have hroom : ctD.ents.length < 8388608 := by
        refine target_room hT (fun c' hc' => ?_) ?_
          (hn (h.live_iff.mpr ⟨_, hlook⟩) ((h.has_iff hlook hW).mpr ((hm c).mpr f1)))
        · rw [h.has_iff hlook hc', hm c']
        · have := nodup_length_le (l1 := c :: ctD.cts) (l2 := ct.cts)
            (List.nodup_cons.mpr ⟨fun hx => ((hT.cts c).mp hx).1 rfl, hT.rep.nodup⟩) (fun c' hc' => by
              rcases List.mem_cons.mp hc' with rfl | hc'
              · exact f1
              · exact ((hT.cts c').mp hc').2)
          simp only [List.length_cons] at this
          omega
      obtain ⟨d1, p1, p2, p3, p4, _⟩ := hT.rep.pushUninit_spec (env := env) hroom
      rw [p1] at hp
      injection hp with hp
      subst hp
      have hcnt1 := p2.count
      refine Keeps.lift_bind fun si hsi => Keeps.lift_bind fun di hdi => ?_
      replace hsi : subU32 env a1.entityCount 1 = .ok si := hsi
      replace hdi : subU32 env (d1.entityCount + 1) 1 = .ok di := hdi
      rw [subU32_le (by omega)] at hsi hdi
      injection hsi with hsi
      injection hdi with hdi
      have hdi' : di = ctD.ents.length := by
        omega
      have hsi' : si = ct.ents.length - 1 := by rw [← hsi, hcnt, hl1]
      refine Keeps.bind (Keeps.leaf (fun _ => ⟨by show si < a1.entityCount; omega, by show a1.entityCount ≤ a1.capacity; omega,
        by show di < d1.capacity; omega⟩)) fun d2 hd2 => ?_
      refine Keeps.bind (Keeps.leaf (fun _ => ⟨present s4 f1, by show si < a1.entityCount; omega⟩)) fun v _ => ?_
      refine Keeps.lift_bind fun _ _ => Keeps.lift_bind fun _ _ =>
        Keeps.bind (Keeps.leaf (fun _ => by show 0 < a1.entityCount; omega)) fun _ _ => ?_
      exact Keeps.lift_bind fun _ _ => Keeps.lift_bind fun _ _ => Keeps.pure _

theorem keeps_exact (h : RInv W r cs) {g : Group} (hg : (g.descriptor env).isValid = true → W.OkGroup g) (b : Bool) :
    Keeps Good (UnsafeCalls.exact env r g b) ∧ Keeps Good (UnsafeCalls.exactMut env r g b) := by
  have key : ∀ i a, r.archetypes.findArchetype env (g.descriptor env).archetype = .ok (some i) →
      index r.archetypes.archetypes i = .ok a → Exact a g ∧ ValidGroup g := by
    intro i a hi ha
    cases hv : (g.descriptor env).isValid with
    | false =>
      unfold ArchetypeRegistry.findArchetype at hi
      rw [if_pos (Or.inr (by rw [show (g.descriptor env).archetype.isValid = false from hv]; simp))] at hi
      injection hi with hi
      cases hi
    | true =>
      have gs := Group.spec hv
      rcases h.arch.findArchetype_spec (env := env) gs.desc hv with ⟨j, a', q1, q2, q3, q4⟩ | ⟨q1, _⟩
      · rw [q1] at hi
        injection hi with hi
        injection hi with hi
        subst hi
        rw [index_of_getElem? q2] at ha
        injection ha with ha
        subst ha
        obtain ⟨ct, hc, hr⟩ := h.arch.content q2
        exact ⟨exact_of hr gs (hr.desc.unique (Group.descOK (hg hv) hv) q3 q4), validGroup gs⟩
      · rw [q1] at hi
        injection hi with hi
        cases hi
  constructor
  · refine Keeps.lift_bind fun o ho => ?_
    split
    · refine Keeps.lift_bind fun a ha => Keeps.lift_bind fun _ _ => Keeps.bind (Keeps.leaf fun _ => ?_) fun _ _ => Keeps.pure _
      exact key _ _ ho ha
    · exact Keeps.pure _
  · refine Keeps.lift_bind fun o ho => ?_
    split
    · refine Keeps.lift_bind fun a ha => Keeps.lift_bind fun _ _ => Keeps.bind (Keeps.leaf fun _ => ?_) fun _ _ => Keeps.pure _
      exact key _ _ ho ha
    · exact Keeps.pure _

/-- `remove_entity` with another group breaks the contract of `swap_remove_unchecked`. -/
theorem removeEntity_breaks (h : RInv W r cs) {g : Group} {e : Entity} (hg : ∀ c ∈ g, W.Has c)
    (hk : Keeps Good (removeEntity env r g e)) (hl : Live env r e) : HasExactly W r e g ∧ g.Nodup := by
  obtain ⟨f, hlook⟩ := h.live_iff.mp hl
  obtain ⟨en, a, ct, he, ha, hc, hr, hf, hm⟩ := h.stored_at hlook
  have hu : UCall.swapRemove a g en.indexInArchetype.value.toNat ∈ (removeEntity env r g e).calls := by
    unfold removeEntity
    rw [he]
    refine mem_bind.mpr (Or.inr ⟨a, ?_, mem_bind.mpr (Or.inl (mem_bind.mpr (Or.inl (List.mem_singleton.mpr rfl))))⟩)
    rw [getUnchecked_res]
    simp only [ArchetypeRegistry.getUnchecked, indexUnchecked, ha]
  obtain ⟨h1, h2⟩ := (exact_iff hr hg).mp (hk _ hu trivial).2
  exact ⟨(h.hasExactly_iff hlook hg).mpr fun c => by rw [hm c]; exact h1 c, h2⟩

/-- `get_components` breaks the contract with an invalid group of which the entity lacks a type. -/
theorem getComponents_breaks (h : RInv W r cs) {g : Group} {e : Entity} (hg : ∀ c ∈ g, W.Has c)
    (hk : Keeps Good (getComponentsOf env r g e) ∨ Keeps Good (getComponentsMutOf env r g e)) (hl : Live env r e)
    (hv : (g.descriptor env).isValid = false) : ∀ c ∈ g, r.hasComponent env c e = .ok true := by
  obtain ⟨f, hlook⟩ := h.live_iff.mp hl
  obtain ⟨en, a, ct, he, ha, hc, hr, hf, hm⟩ := h.stored_at hlook
  have hsub : a.descriptor.containsSubset (g.descriptor env).archetype = true := by
    rw [Group.descriptor_invalid_or hv]; rfl
  have hgu : (getUnchecked r.archetypes (en.archetypeIndex env)).res = .ok a := by
    rw [getUnchecked_res]
    simp only [ArchetypeRegistry.getUnchecked, indexUnchecked, ha]
  have hS : Subset a g := by
    rcases hk with hk | hk
    · have hu : UCall.fuzzyComponents a g en.indexInArchetype.value.toNat ∈ (getComponentsOf env r g e).calls := by
        unfold getComponentsOf
        rw [he]
        refine mem_bind.mpr (Or.inr ⟨a, hgu, ?_⟩)
        rw [if_neg (by simp [hsub])]
        exact mem_bind.mpr (Or.inl (mem_bind.mpr (Or.inl (List.mem_singleton.mpr rfl))))
      exact (hk _ hu trivial).1
    · have hu : UCall.fuzzyComponents a g en.indexInArchetype.value.toNat ∈ (getComponentsMutOf env r g e).calls := by
        unfold getComponentsMutOf
        rw [he]
        refine mem_bind.mpr (Or.inr ⟨a, hgu, ?_⟩)
        rw [if_neg (by simp [hsub])]
        exact mem_bind.mpr (Or.inl (mem_bind.mpr (Or.inl (List.mem_singleton.mpr rfl))))
      exact (hk _ hu trivial).1
  intro c hcg
  rw [h.has_iff hlook (hg c hcg), hm c]
  have := hS c hcg
  unfold Present at this
  rw [hr.desc.comps] at this
  obtain ⟨c', h1, h2⟩ := List.mem_map.mp this
  rw [← W.id_inj (hr.desc.has _ h1) (hg c hcg) (by rw [← CompTy.descriptor_id, h2, CompTy.descriptor_id])]
  exact h1

/-- `create_entity` into an archetype that is full breaks the contract of `write_entity_unchecked`. -/
theorem createEntity_breaks (h : RInv W r cs) {g : Group} {vals : List Val} (hg : W.OkGroup g)
    (hv : (g.descriptor env).isValid = true) (hk : Keeps Good (createEntity env r g vals))
    (hroom : r.entities.entities.length < 16777215) {a : Archetype} (ha : a ∈ r.archetypes.archetypes)
    (hx : Exact a g) (hid : a.descriptor.archetypeId = (g.descriptor env).archetype.archetypeId) : a.entityCount < 8388608 := by
  have gs := Group.spec hv
  have hM : MAX_ENTITY_HANDLE_VALUE = 16777215 := rfl
  obtain ⟨j, hj⟩ := List.mem_iff_getElem?.mp ha
  obtain ⟨ct, hc, hr⟩ := h.arch.content hj
  have hlen : a.descriptor.len = (g.descriptor env).archetype.len := by
    rw [gs.len, ← hr.desc.wf.components_length, ← hx.length_eq, List.length_map]
  have hle := hr.ents.len
  have hcap := hr.cap.le
  have hcnt := hr.count
  rcases Nat.lt_or_ge a.entityCount 8388608 with hlt | hge
  · exact hlt
  · exfalso
    rcases h.arch.findOrCreate_spec (Group.descOK hg hv) with ⟨i, b, h1, h2, h3, h4⟩ | ⟨hno, _⟩
    · have hij : b = a := by
        obtain ⟨ctb, hcb, hrb⟩ := h.arch.content h2
        have := h.arch.unique_index h2 hj (h3.trans hlen.symm) (h4.trans hid.symm)
        rw [this, hj] at h2
        cases h2; rfl
      subst hij
      have hn : ct.ents.length < 16777215 := by omega
      obtain ⟨n1, n2⟩ := IndexInArchetype.new_ofNat hn
      have hne : i ≠ 65535 := by
        rintro rfl
        have h5 := (List.getElem?_eq_some_iff.mp h2).1
        have h6 := h.arch.le
        have : (65535 : UInt16).toNat = 65535 := rfl
        omega
      obtain ⟨re', e, c1, c2⟩ := EntityRegistry.createEntity_ok (env := env) (iia := ⟨UInt32.ofNat ct.ents.length⟩) (ai := ⟨i⟩) h.ents
        (by omega) (by show (UInt32.ofNat ct.ents.length).toNat < _; rw [n2]; omega) hne
      obtain ⟨a', z1, z2⟩ := hr.resize_full (env := env) (by omega)
      have hu : UCall.writeEntity { a' with entityCount := a'.entityCount + 1 } g a'.entityCount ∈
          (createEntity env r g vals).calls := by
        unfold createEntity
        rw [if_neg (by simp [hv])]
        refine mem_bind.mpr (Or.inr ⟨_, h1, ?_⟩)
        refine mem_bind.mpr (Or.inr ⟨_, index_of_getElem? h2, ?_⟩)
        refine mem_bind.mpr (Or.inr ⟨⟨UInt32.ofNat ct.ents.length⟩, by rw [res_lift, hcnt, n1]; rfl, ?_⟩)
        refine mem_bind.mpr (Or.inr ⟨⟨i⟩, by rw [res_lift, ArchetypeIndex.new_ok hne]; rfl, ?_⟩)
        refine mem_bind.mpr (Or.inr ⟨_, (createEntry_res env _ _ _).trans c1, ?_⟩)
        refine mem_bind.mpr (Or.inl ?_)
        refine mem_bind.mpr (Or.inr ⟨(), rfl, ?_⟩)
        refine mem_bind.mpr (Or.inr ⟨(), debugAssert_true hv, ?_⟩)
        refine mem_bind.mpr (Or.inr ⟨(), debugAssert_true (by rw [hid]; simp), ?_⟩)
        refine mem_bind.mpr (Or.inr ⟨a', z1, ?_⟩)
        exact mem_bind.mpr (Or.inl (mem_bind.mpr (Or.inl (List.mem_singleton.mpr rfl))))
      have := (hk _ hu trivial).2
      replace this : a'.entityCount < a'.capacity := this
      rw [z2.cap] at this
      omega
    · exact hno _ _ hj hlen hid

end

/-! ## `IndexInArchetype::new_unchecked` -/

section
variable {env : Env} {W : World env} {r : Registry} {cs : List Content}

/-- A computation that does not call `new_unchecked`, whatever it is run on. -/
macro "no_new_index" : tactic => `(tactic|
  repeat' (first
    | exact Keeps.lift _
    | exact Keeps.pure _
    | exact Keeps.note trivial
    | refine Keeps.bind ?_ (fun _ _ => ?_)
    | split))

theorem plain_getUnchecked (ar : ArchetypeRegistry) (i : UInt16) : Keeps UCall.Ordinary (getUnchecked ar i) := by
  unfold getUnchecked; no_new_index

theorem plain_swapDrop (a : Archetype) (i : Nat) : Keeps UCall.Ordinary (swapDrop env a i) := by
  unfold swapDrop swapEntities dropEntity; no_new_index

theorem plain_swapToLast (a : Archetype) (i : Nat) : Keeps UCall.Ordinary (swapToLast env a i) := by
  unfold swapToLast swapEntities; no_new_index

theorem plain_swapRemove (a : Archetype) (g : Group) (i : Nat) : Keeps UCall.Ordinary (swapRemove env a g i) := by
  unfold swapRemove swapEntities readExact; no_new_index

theorem plain_createEntity (g : Group) (vals : List Val) : Keeps UCall.Ordinary (createEntity env r g vals) := by
  unfold createEntity createEntry pushEntity writeEntity; no_new_index

theorem plain_hasComponent (c : CompTy) (e : Entity) : Keeps UCall.Ordinary (hasComponent env r c e) := by
  unfold hasComponent getUnchecked; no_new_index

theorem plain_hasComponents (g : Group) (e : Entity) : Keeps UCall.Ordinary (hasComponents env r g e) := by
  unfold hasComponents getUnchecked; no_new_index

theorem plain_getComponentOf (c : CompTy) (e : Entity) : Keeps UCall.Ordinary (getComponentOf env r c e) := by
  unfold getComponentOf getUnchecked getComponent; no_new_index

theorem plain_getComponentMutOf (c : CompTy) (e : Entity) : Keeps UCall.Ordinary (getComponentMutOf env r c e) := by
  unfold getComponentMutOf getUnchecked getComponentMut; no_new_index

theorem plain_getComponentsOf (g : Group) (e : Entity) : Keeps UCall.Ordinary (getComponentsOf env r g e) := by
  unfold getComponentsOf getUnchecked fuzzyComponents fuzzyPointers; no_new_index

theorem plain_getComponentsMutOf (g : Group) (e : Entity) : Keeps UCall.Ordinary (getComponentsMutOf env r g e) := by
  unfold getComponentsMutOf getUnchecked fuzzyComponentsMut fuzzyPointers; no_new_index

theorem plain_addComponent (e : Entity) (c : CompTy) (v : Val) : Keeps UCall.Ordinary (addComponent env r e c v) := by
  unfold addComponent swapToLast swapEntities copyCommon writeComponent decrementLen; no_new_index

theorem plain_removeComponent (e : Entity) (c : CompTy) : Keeps UCall.Ordinary (removeComponent env r e c) := by
  unfold removeComponent swapToLast swapEntities copyCommon readComponent decrementLen; no_new_index

theorem plain_iterEntries (er : EntityRegistry) : Keeps UCall.Ordinary (iterEntries env er) := by
  intro u hu
  obtain ⟨x, _, rfl⟩ := List.mem_map.mp hu
  trivial

theorem plain_collect {α : Type} {g : Group} {filter : ArchetypeDescriptor → Bool} {ar : ArchetypeRegistry} {f : Archetype → T α}
    (hf : ∀ a, Keeps UCall.Ordinary (f a)) : ∀ (n : Nat) (it : ArchIter), Keeps UCall.Ordinary (collect env g filter ar f n it)
  | 0, _ => fun _ hu => by cases hu
  | n + 1, it => by
    unfold collect
    refine Keeps.lift_bind fun s _ => ?_
    split
    · exact Keeps.pure _
    · exact Keeps.lift_bind fun a _ => Keeps.bind (hf a) fun _ _ => Keeps.bind (plain_collect hf n _) fun _ _ => Keeps.pure _

theorem plain_iterate {α : Type} {g : Group} {filter : ArchetypeDescriptor → Bool} {ar : ArchetypeRegistry} {f : Archetype → T α}
    (hf : ∀ a, Keeps UCall.Ordinary (f a)) : Keeps UCall.Ordinary (iterate env ar g filter f) :=
  Keeps.lift_bind fun _ _ => plain_collect hf _ _

theorem plain_exact (g : Group) (b : Bool) : Keeps UCall.Ordinary (UnsafeCalls.exact env r g b) := by
  unfold UnsafeCalls.exact
  refine Keeps.lift_bind fun o _ => ?_
  split
  · exact Keeps.lift_bind fun a _ => Keeps.lift_bind fun _ _ => Keeps.bind (Keeps.leaf trivial) fun _ _ => Keeps.pure _
  · exact Keeps.pure _

theorem plain_exactMut (g : Group) (b : Bool) : Keeps UCall.Ordinary (UnsafeCalls.exactMut env r g b) := by
  unfold UnsafeCalls.exactMut
  refine Keeps.lift_bind fun o _ => ?_
  split
  · exact Keeps.lift_bind fun a _ => Keeps.lift_bind fun _ _ => Keeps.bind (Keeps.leaf trivial) fun _ _ => Keeps.pure _
  · exact Keeps.pure _

/-- A call of `new_unchecked` gets the head of the free list. -/
def Head (r : Registry) (u : UCall) : Prop := ∀ v, u = .newIndex v → v = r.entities.nextFreeSlot

theorem head_of_plain {α : Type} {x : T α} (h : Keeps UCall.Ordinary x) : Keeps (Head r) x := by
  intro u hu v hv
  have := h u hu
  rw [hv] at this
  exact this.elim

theorem head_destroyEntry {er : EntityRegistry} (hn : er.nextFreeSlot = r.entities.nextFreeSlot) (e : Entity) :
    Keeps (Head r) (destroyEntry env er e) := by
  unfold destroyEntry
  split
  · refine Keeps.step (fun v hv => by cases hv) (Keeps.step (fun v hv => ?_) (Keeps.pure _))
    injection hv with hv
    rw [← hv, hn]
  · exact Keeps.pure _

theorem destroyEntity_newIndex (h : RInv W r cs) (e : Entity) (v : UInt32) :
    UCall.newIndex v ∈ (destroyEntity env r e).calls ↔ (∃ en, r.entities.entityEntry env e = some en) ∧ v = r.entities.nextFreeSlot := by
  unfold destroyEntity
  cases he : r.entities.entityEntry env e with
  | none =>
    simp only
    constructor
    · intro hx; cases hx
    · rintro ⟨⟨en, hx⟩, _⟩; cases hx
  | some en =>
    obtain ⟨a, ct, ha, hc, hr, hk, _⟩ := h.entry he
    have hkl := (List.getElem?_eq_some_iff.mp hk).1
    obtain ⟨a', q1, _, _, q4⟩ := hr.swapDrop_spec (env := env) hkl
    obtain ⟨m', m1, m2, m3, m4, _⟩ := h.fixSwap he hc (a'.entityAtUnchecked en.indexInArchetype.value.toNat) (by
      intro hne sw hsw
      refine q4.entityAtUnchecked_ok ?_
      rw [swapPop_ents hkl, if_neg (by omega), if_pos rfl]
      exact hsw)
    obtain ⟨r2, d1, _⟩ := EntityRegistry.destroyEntity_live m2 m4
    constructor
    · intro hu
      refine ⟨⟨en, rfl⟩, ?_⟩
      refine (?_ : Keeps (Head r) _) _ hu v rfl
      refine Keeps.bind (head_of_plain (plain_getUnchecked _ _)) fun b hb => ?_
      cases getUnchecked_eq ha hb
      refine Keeps.bind (head_of_plain (plain_swapDrop _ _)) fun s hs => ?_
      rw [swapDrop_res, q1] at hs
      injection hs with hs
      subst hs
      refine Keeps.lift_bind fun m hm => ?_
      rw [m1] at hm
      injection hm with hm
      subst hm
      exact Keeps.bind (head_destroyEntry m3.next e) fun _ _ => Keeps.lift_bind fun _ _ => Keeps.pure _
    · rintro ⟨_, rfl⟩
      refine mem_bind.mpr (Or.inr ⟨a, ?_, ?_⟩)
      · rw [getUnchecked_res]
        simp only [ArchetypeRegistry.getUnchecked, indexUnchecked, ha]
      refine mem_bind.mpr (Or.inr ⟨_, (swapDrop_res env a _).trans q1, ?_⟩)
      refine mem_bind.mpr (Or.inr ⟨m', m1, mem_bind.mpr (Or.inl ?_)⟩)
      unfold destroyEntry
      rw [if_pos (by rw [d1])]
      refine mem_bind.mpr (Or.inr ⟨(), rfl, mem_bind.mpr (Or.inl ?_)⟩)
      rw [← m3.next]
      exact List.mem_singleton.mpr rfl

/-- `remove_entity` calls `new_unchecked` with the head of the free list, if at all. -/
theorem removeEntity_newIndex (h : RInv W r cs) {g : Group} {e : Entity} {v : UInt32}
    (hu : UCall.newIndex v ∈ (removeEntity env r g e).calls) :
    (∃ en, r.entities.entityEntry env e = some en) ∧ v = r.entities.nextFreeSlot := by
  unfold removeEntity at hu
  cases he : r.entities.entityEntry env e with
  | none => rw [he] at hu; cases hu
  | some en =>
    obtain ⟨a, ct, ha, hc, hr, hk, _⟩ := h.entry he
    have hkl := (List.getElem?_eq_some_iff.mp hk).1
    obtain ⟨_, _, a', _, _, _, _, q1, _, _, q4⟩ := hr.swapRemove_core (env := env) hkl
    obtain ⟨m', m1, m2, m3, m4⟩ := fixSwap_removed h he hc hkl q4
    rw [he] at hu
    refine ⟨⟨en, rfl⟩, ?_⟩
    refine (?_ : Keeps (Head r) _) _ hu v rfl
    refine Keeps.bind (head_of_plain (plain_getUnchecked _ _)) fun b hb => ?_
    cases getUnchecked_eq ha hb
    refine Keeps.bind (head_of_plain (plain_swapRemove _ _ _)) fun s hs => ?_
    rw [swapRemove_res, q1] at hs
    obtain ⟨data, _, hs⟩ := okInv hs
    injection hs with hs
    subst hs
    refine Keeps.lift_bind fun m hm => ?_
    rw [m1] at hm
    injection hm with hm
    subst hm
    exact Keeps.bind (head_destroyEntry m3 e) fun _ _ => Keeps.lift_bind fun _ _ => Keeps.pure _

end

end Shard.UnsafeCalls
