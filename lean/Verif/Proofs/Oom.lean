import Verif.Model.Oom
import Verif.Proofs.RegistryRead
import Verif.Proofs.RegistryCreate
import Verif.Proofs.Unwind
/-!
# Allocation failures inside `create_entity`
-/

namespace Shard

open Archetype

variable {env : Env} {W : World env} {r : Registry} {cs : List Content} {a : Archetype} {ct : Content} {fail : Nat → Bool}

/-! ## Loops -/

theorem forFail_calm {σ : Type} {good bad : Nat → σ → M σ} : ∀ (n i : Nat) (s : σ),
    (∀ j, i ≤ j → j < i + n → fail (j + 1) = false) →
    forFail fail good bad n i s = (forRange i n good s).map (fun s => (s, false))
  | 0, _, _, _ => rfl
  | n + 1, i, s, h => by
    simp only [forFail, forRange, h i (Nat.le_refl _) (by omega), Bool.false_eq_true, if_false]
    cases good i s with
    | error e => rfl
    | ok s' => exact forFail_calm n (i + 1) s' (fun j h1 h2 => h j (by omega) (by omega))

theorem forFail_first {σ : Type} {good bad : Nat → σ → M σ} : ∀ (k n i : Nat) (s : σ) {s' s'' : σ}, k < n →
    (∀ j, i ≤ j → j < i + k → fail (j + 1) = false) → fail (i + k + 1) = true →
    forRange i k good s = .ok s' → bad (i + k) s' = .ok s'' → forFail fail good bad n i s = .ok (s'', true)
  | 0, n + 1, i, s, s', s'', _, _, hf, h1, h2 => by
    cases h1
    simp only [Nat.add_zero] at hf h2
    simp only [forFail, hf, if_true, h2]
  | k + 1, n + 1, i, s, s', s'', hk, h, hf, h1, h2 => by
    simp only [forFail, h i (Nat.le_refl _) (by omega), Bool.false_eq_true, if_false]
    simp only [forRange] at h1
    cases hg : good i s with
    | error e => rw [hg] at h1; cases h1
    | ok t =>
      rw [hg] at h1
      exact forFail_first k n (i + 1) t (by omega) (fun j h1 h2 => h j (by omega) (by omega))
        (by rw [show i + 1 + k + 1 = i + (k + 1) + 1 by omega]; exact hf) h1
        (by rw [show i + 1 + k = i + (k + 1) by omega]; exact h2)

/-- A loop whose step `lo + m` faults. -/
theorem forRange_fault {σ : Type} {f : Nat → σ → M σ} {e : Fault} (I : Nat → σ → Prop) :
    ∀ (m n lo : Nat) (s : σ), m < n → I lo s →
      (∀ i s, lo ≤ i → i < lo + m → I i s → ∃ s', f i s = .ok s' ∧ I (i + 1) s') →
      (∀ s, I (lo + m) s → f (lo + m) s = .error e) → forRange lo n f s = .error e
  | 0, n + 1, lo, s, _, h, _, hf => by
    have := hf s h
    simp only [Nat.add_zero] at this
    simp only [forRange, this]
  | m + 1, n + 1, lo, s, hm, h, hs, hf => by
    obtain ⟨s1, h1, hI⟩ := hs lo s (Nat.le_refl _) (by omega) h
    simp only [forRange, h1]
    exact forRange_fault I m n (lo + 1) s1 (by omega) hI (fun i s hi hi' hI => hs i s (by omega) (by omega) hI)
      (by rw [show lo + 1 + m = lo + (m + 1) by omega]; exact hf)

/-- The first failing allocation. -/
theorem first_failing : ∀ (n : Nat), (∃ k, k ≤ n ∧ fail k = true) →
    ∃ k, k ≤ n ∧ fail k = true ∧ ∀ j, j < k → fail j = false
  | 0, ⟨k, hk, hf⟩ => ⟨k, hk, hf, by intro j hj; omega⟩
  | n + 1, ⟨k, hk, hf⟩ => by
    by_cases h : ∃ k, k ≤ n ∧ fail k = true
    · obtain ⟨k', h1, h2, h3⟩ := first_failing n h
      exact ⟨k', by omega, h2, h3⟩
    · have hkn : k = n + 1 := by
        rcases Nat.lt_or_ge k (n + 1) with hlt | hge
        · exact absurd ⟨k, by omega, hf⟩ h
        · omega
      subst hkn
      refine ⟨n + 1, Nat.le_refl _, hf, fun j hj => ?_⟩
      cases hb : fail j with
      | false => rfl
      | true => exact absurd ⟨j, by omega, hb⟩ h

/-! ## No failure -/

theorem withCapacityOom_calm {d : ArchetypeDescriptor} {cap : Nat} (h : ∀ k, k ≤ d.components.length → fail k = false) :
    withCapacityOom fail env d cap = (withCapacity env d cap).map some := by
  unfold withCapacityOom withCapacity allocColumns
  cases ensure d.isValid (.panic .assertFailed) with
  | error e => rfl
  | ok u =>
    simp only [ok_bind]
    split
    · rw [forFail_calm _ _ _ (fun j _ hj => h (j + 1) (by omega)), h 0 (Nat.zero_le _)]
      simp only [Bool.false_eq_true, if_false]
      generalize forRange 0 _ _ _ = m
      cases m <;> rfl
    · rfl

theorem findOrCreateOom_calm {ar : ArchetypeRegistry} {d : ArchetypeDescriptor}
    (h : ∀ k, k ≤ d.components.length → fail k = false) :
    ar.findOrCreateOom fail env d = (ar.findOrCreateArchetype env d).map some := by
  unfold ArchetypeRegistry.findOrCreateOom ArchetypeRegistry.findOrCreateArchetype
  rw [withCapacityOom_calm h]
  split
  · rfl
  · cases ar.searchLevel env d with
    | error e => rfl
    | ok s =>
      simp only [ok_bind]
      cases s.2 with
      | found i =>
        simp only []
        cases index s.1 i with
        | error e => rfl
        | ok k =>
          simp only [ok_bind]
          cases index ar.archetypes k.archetypeIndex.toNat <;> rfl
      | insertAt i =>
        simp only []
        split
        · rfl
        · cases withCapacity env d DEFAULT_ARCHETYPE_ALLOCATION_SIZE with
          | error e => rfl
          | ok a =>
            simp only [Except.map, ok_bind]
            cases ensure (decide (i ≤ s.1.length)) (.panic .indexOutOfBounds) <;> rfl

theorem resizeCapacityOom_calm {change : Int} (h : 0 < (a.capacity : Int) + change →
    (a.capacity : Int) + change < (MAX_ENTITIES_PER_ARCHETYPE : Int) → ∀ k, k ≤ a.descriptor.len → fail k = false) :
    a.resizeCapacityOom fail env change = (a.resizeCapacity env change).map (fun a => (a, false)) := by
  unfold resizeCapacityOom resizeCapacity
  simp only []
  split
  · cases a.dealloc <;> rfl
  · next hn =>
    replace h := h (by omega) (by omega)
    cases a.entityAssociations with
    | none => rfl
    | some l =>
      simp only []
      split
      · rfl
      · rw [forFail_calm _ _ _ (fun j _ hj => h (j + 1) (by omega)), h 0 (Nat.zero_le _)]
        unfold reallocColumns
        simp only [Bool.false_eq_true, if_false]
        generalize forRange 0 _ _ _ = m
        cases m <;> rfl

theorem resizeIfNecessaryOom_calm (h0 : 0 < a.capacity)
    (h : a.entityCount = a.capacity → a.capacity < 8388608 → ∀ k, k ≤ a.descriptor.len → fail k = false) :
    a.resizeIfNecessaryOom fail env = (a.resizeIfNecessary env).map (fun a => (a, false)) := by
  unfold resizeIfNecessaryOom resizeIfNecessary
  cases hf : a.isFull with
  | false => rfl
  | true =>
    have hM : MAX_ENTITIES_PER_ARCHETYPE = 16777215 := rfl
    simp only [if_true]
    rw [if_neg (by omega)]
    exact resizeCapacityOom_calm (fun _ h2 => h (by simpa [isFull] using hf) (by omega))

theorem pushEntityOom_calm {e : Entity} {g : Group} {vals : List Val} (h0 : 0 < a.capacity)
    (h : a.entityCount = a.capacity → a.capacity < 8388608 → ∀ k, k ≤ a.descriptor.len → fail k = false) :
    a.pushEntityOom fail env e g vals = (a.pushEntityUnchecked env e g vals).map (fun x => (x.1, some x.2)) := by
  unfold pushEntityOom pushEntityUnchecked
  rw [resizeIfNecessaryOom_calm h0 h]
  cases debugAssert env (g.descriptor env).isValid with
  | error e => rfl
  | ok u =>
    simp only [ok_bind]
    cases debugAssert env ((g.descriptor env).archetype.archetypeId == a.descriptor.archetypeId) with
    | error e => rfl
    | ok u =>
      simp only [ok_bind]
      cases a.resizeIfNecessary env with
      | error e => rfl
      | ok a =>
        simp only [Except.map, ok_bind, Bool.false_eq_true, if_false]
        cases writeEntityUnchecked env { a with entityCount := a.entityCount + 1 } a.entityCount e g vals <;> rfl

/-! ## A failure while a new archetype is allocated -/

theorem withCapacityOom_fail {d : ArchetypeDescriptor} {cts : List CompTy} (h : DescOK W d cts) {cap : Nat}
    (hc : CapOK cap) (hf : ∃ k, k ≤ cts.length ∧ fail k = true) : withCapacityOom fail env d cap = .ok none := by
  have hpos := hc.pos
  have hle := hc.le
  have hM : MAX_ENTITIES_PER_ARCHETYPE = 16777215 := rfl
  have h14 : MAX_COMPONENTS_PER_ENTITY = 14 := rfl
  have h14' := h.le
  obtain ⟨k, k1, k2, k3⟩ := first_failing _ hf
  unfold withCapacityOom
  rw [ensure_true h.valid]
  simp only [ok_bind]
  rw [if_pos ⟨hpos, by omega⟩]
  cases k with
  | zero => rw [k2]; rfl
  | succ m =>
    rw [k3 0 (by omega)]
    simp only [Bool.false_eq_true, if_false]
    obtain ⟨s, s1, s2⟩ := forRange_inv
      (f := fun i ptrs => do
        let c ← index d.components i
        let b ← allocBlock env (c.size * cap) c.align
        setIndex ptrs i (some b))
      (fun _ s => s.length = 14) m 0 (List.replicate MAX_COMPONENTS_PER_ENTITY none) (by simp [h14]) (by
        intro i s _ hi hs
        have hci := List.getElem?_eq_getElem (show i < cts.length by omega)
        have hW := h.world_of hci
        rw [h.index_comp hci]
        simp only [ok_bind, W.desc_size hW, W.desc_align hW]
        rw [allocBlock_ok (W.align_ok hW) ((W.zst hW).imp (fun h => Nat.mul_pos h hpos) id)]
        simp only [ok_bind]
        rw [setIndex_lt (by omega)]
        exact ⟨_, rfl, by simpa using hs⟩)
    have hci := List.getElem?_eq_getElem (show m < cts.length by omega)
    have hW := h.world_of hci
    rw [forFail_first (s' := s) (s'' := s.set m none) m _ 0 _ (by rw [h.clen]; omega)
      (fun j _ hj => k3 (j + 1) (by omega)) (by rw [Nat.zero_add]; exact k2) s1 (by
        rw [Nat.zero_add, h.index_comp hci]
        simp only [ok_bind, W.desc_size hW, W.desc_align hW]
        rw [allocBlock_ok (W.align_ok hW) ((W.zst hW).imp (fun h => Nat.mul_pos h hpos) id)]
        simp only [ok_bind]
        rw [setIndex_lt (by omega)])]
    rfl

/-- The archetype is missing, and one of the allocations for it fails. -/
theorem ARInv.findOrCreateOom_fail {ar : ArchetypeRegistry} (h : ARInv W ar cs) {d : ArchetypeDescriptor}
    {cts : List CompTy} (hd : DescOK W d cts) (hn : ¬ HasArchetype ar d.len d.archetypeId)
    (hl : ar.archetypes.length < 65534) (hf : ∃ k, k ≤ cts.length ∧ fail k = true) :
    ar.findOrCreateOom fail env d = .ok none := by
  have h2 := hd.wf.len_le
  have hM : MAX_ARCHETYPE_COUNT = 65534 := rfl
  obtain ⟨keys, k1, k2, k3⟩ := h.searchLevel_spec hd.wf
  unfold ArchetypeRegistry.findOrCreateOom
  rw [if_neg (by rw [hd.valid]; simp; exact h2), k3]
  simp only [ok_bind]
  rcases h.search_cases hd.wf k1 with ⟨i, k, a, s1, s2, s3, s4, s5⟩ | ⟨i, s1, s2, s3, s4, s5⟩
  · exact absurd ⟨a, List.mem_of_getElem? s3, s4, s5⟩ hn
  · rw [s1]
    simp only []
    rw [if_neg (by omega), show DEFAULT_ARCHETYPE_ALLOCATION_SIZE = 128 from rfl,
      withCapacityOom_fail hd CapOK.default hf]
    rfl

/-- No allocation is made when the archetype is there or cannot be created. -/
theorem ARInv.findOrCreateOom_none {ar : ArchetypeRegistry} (h : ARInv W ar cs) {d : ArchetypeDescriptor}
    {cts : List CompTy} (hd : DescOK W d cts) (hn : HasArchetype ar d.len d.archetypeId ∨ ar.archetypes.length = 65534) :
    ar.findOrCreateOom fail env d = (ar.findOrCreateArchetype env d).map some := by
  have h2 := hd.wf.len_le
  have hM : MAX_ARCHETYPE_COUNT = 65534 := rfl
  obtain ⟨keys, k1, k2, k3⟩ := h.searchLevel_spec hd.wf
  unfold ArchetypeRegistry.findOrCreateOom ArchetypeRegistry.findOrCreateArchetype
  rw [if_neg (by rw [hd.valid]; simp; exact h2), if_neg (by rw [hd.valid]; simp; exact h2), k3]
  simp only [ok_bind]
  rcases h.search_cases hd.wf k1 with ⟨i, k, a, s1, s2, s3, s4, s5⟩ | ⟨i, s1, s2, s3, s4, s5⟩
  · rw [s1]
    simp only []
    rw [index_of_getElem? s2]
    simp only [ok_bind]
    rw [index_of_getElem? s3]
    rfl
  · rw [s1]
    simp only []
    have hl : ar.archetypes.length = 65534 := by
      rcases hn with ⟨a, ha, q1, q2⟩ | hl
      · obtain ⟨j, hj⟩ := List.mem_iff_getElem?.mp ha
        exact absurd q2 (s5 j a hj q1)
      · exact hl
    rw [if_pos (by omega), if_pos (by omega)]
    rfl

/-! ## A failure while an archetype is grown -/

/-- A block after a successful doubling. -/
def Block.dbl (b : Block) : Block := ⟨b.align, b.bytes ++ List.replicate b.bytes.length none⟩

/-- What a failing `resize_capacity` makes of a full archetype `a`: allocation number `k` was the one that failed. -/
structure Broken (a : Archetype) (k : Nat) (a' : Archetype) : Prop where
  desc : a'.descriptor = a.descriptor
  count : a'.entityCount = a.entityCount
  cap : a'.capacity = a.capacity
  table : k = 0 → a'.entityAssociations = none
  ptrs : ∀ j, a'.pointers[j]? = if j + 1 < k then (a.pointers[j]?).map (Option.map Block.dbl)
    else if j + 1 = k then some none else a.pointers[j]?

theorem ColOK.dbl {c : CompTy} {cap : Nat} {b : Block} {vs : List Val} (h : ColOK c cap b vs) :
    ColOK c (2 * cap) b.dbl vs := by
  refine ⟨h.align, h.mult, ?_, by have := h.len; omega, ?_⟩
  · simp only [Block.dbl, List.length_append, List.length_replicate, h.size]
    rw [Nat.mul_left_comm]; omega
  · intro k v hk
    obtain ⟨p, q, r⟩ := h.cells k v hk
    refine ⟨p, q, ?_⟩
    rw [← r]
    have hlt := (List.getElem?_eq_some_iff.mp hk).1
    have hb := h.bound (show k < cap by have := h.len; omega)
    unfold cell Block.dbl
    simp only []
    rw [List.drop_append_of_le_length (by omega), List.take_append_of_le_length (by rw [List.length_drop]; omega)]

theorem reallocBlock_dbl {c : CompTy} {cap : Nat} {b : Block} {vs : List Val} (h : ColOK c cap b vs) (hpos : 0 < cap)
    (hs : 0 < c.size ∨ env.zstAllocOk = true) :
    reallocBlock env (some b) (c.size * cap) c.align (c.size * (2 * cap)) = .ok b.dbl := by
  have hl := h.size
  have h2 : c.size * (2 * cap) = 2 * (c.size * cap) := Nat.mul_left_comm _ _ _
  unfold reallocBlock
  simp only
  rw [if_neg (by rw [hl, h.align]; simp), if_neg]
  · unfold Block.dbl
    rw [List.take_of_length_le (by omega), h.align, hl]
    congr 4
    omega
  · rintro ⟨h1, h2⟩
    rcases hs with hs | hs
    · have := Nat.mul_pos hs hpos; omega
    · exact h2 hs

theorem Rep.resizeOom_fail (h : Rep W a ct) (hfull : ct.ents.length = a.capacity) (hlt : a.capacity < 8388608) {k : Nat}
    (hk : k ≤ ct.cts.length) (hf : fail k = true) (hb : ∀ j, j < k → fail j = false) :
    ∃ a', a.resizeIfNecessaryOom fail env = .ok (a', true) ∧ Broken a k a' := by
  have hpos := h.cap.pos
  have hcnt := h.count
  have hM : MAX_ENTITIES_PER_ARCHETYPE = 16777215 := rfl
  have hpl := h.cols.ptrs_len
  have hcl := h.cols.cts_le
  unfold Archetype.resizeIfNecessaryOom Archetype.isFull
  rw [if_pos (by rw [hcnt, hfull]; simp), if_neg (by omega)]
  unfold Archetype.resizeCapacityOom
  simp only []
  rw [if_neg (by omega)]
  obtain ⟨l, hl, hll, hle2⟩ := h.ents.arr
  rw [hl]
  simp only []
  rw [if_neg (by simp [hll])]
  have htn : ((a.capacity : Int) + (a.capacity : Int)).toNat = 2 * a.capacity := by omega
  rw [htn]
  cases k with
  | zero =>
    rw [hf]
    refine ⟨_, rfl, rfl, rfl, rfl, fun _ => rfl, fun j => ?_⟩
    rw [if_neg (by omega), if_neg (by omega)]
  | succ m =>
    rw [hb 0 (by omega)]
    simp only [Bool.false_eq_true, if_false]
    obtain ⟨s, s1, s2, s3⟩ := forRange_inv
      (f := fun i ptrs => do
        let p ← index ptrs i
        let c ← index a.descriptor.components i
        let b ← reallocBlock env p (c.size * a.capacity) c.align (c.size * (2 * a.capacity))
        setIndex ptrs i (some b))
      (fun i s => s.length = 14 ∧ ∀ j, s[j]? = if j < i then (a.pointers[j]?).map (Option.map Block.dbl) else a.pointers[j]?)
      m 0 a.pointers ⟨hpl, fun j => by rw [if_neg (by omega)]⟩ (by
        rintro i s _ hi ⟨hs, hs'⟩
        have hci := List.getElem?_eq_getElem (show i < ct.cts.length by omega)
        have hW := h.desc.world_of hci
        obtain ⟨vs, b, q1, q2, q3, q4⟩ := h.column hci
        have hp : s[i]? = some (some b) := by rw [hs', if_neg (by omega), q2]
        rw [index_of_getElem? hp, h.desc.index_comp hci]
        simp only [ok_bind, W.desc_size hW, W.desc_align hW]
        rw [reallocBlock_dbl q3 hpos (W.zst hW)]
        simp only [ok_bind]
        rw [setIndex_lt (by omega)]
        refine ⟨_, rfl, by simpa using hs, fun j => ?_⟩
        rw [List.getElem?_set]
        by_cases hij : i = j
        · subst hij
          rw [if_pos rfl, if_pos (by omega), if_pos (by omega), q2]
          rfl
        · rw [if_neg hij, hs']
          by_cases hj : j < i
          · rw [if_pos hj, if_pos (by omega)]
          · rw [if_neg hj, if_neg (by omega)])
    have hci := List.getElem?_eq_getElem (show m < ct.cts.length by omega)
    have hW := h.desc.world_of hci
    obtain ⟨vs, b, q1, q2, q3, q4⟩ := h.column hci
    have hp : s[m]? = some (some b) := by rw [s3, if_neg (by omega), q2]
    rw [← h.desc.length, forFail_first (s' := s) (s'' := s.set m none) m _ 0 _ (by omega)
      (fun j _ hj => hb (j + 1) (by omega)) (by rw [Nat.zero_add]; exact hf) s1 (by
        rw [Nat.zero_add, index_of_getElem? hp, h.desc.index_comp hci]
        simp only [ok_bind, W.desc_size hW, W.desc_align hW]
        rw [reallocBlock_dbl q3 hpos (W.zst hW)]
        simp only [ok_bind]
        rw [setIndex_lt (by omega)])]
    refine ⟨_, rfl, rfl, rfl, rfl, fun h0 => by omega, fun j => ?_⟩
    show (s.set m none)[j]? = _
    rw [List.getElem?_set]
    by_cases hmj : m = j
    · subst hmj
      rw [if_pos rfl, if_pos (by omega), if_neg (by omega), if_pos rfl]
    · rw [if_neg hmj, s3]
      by_cases hj : j < m
      · rw [if_pos (by omega), if_pos (by omega)]
      · rw [if_neg (by omega), if_neg (by omega), if_neg (by omega)]

/-! ## The archetype after a failure -/

namespace Broken

variable {k : Nat} {a' : Archetype}

/-- A column whose allocation did not fail. -/
theorem column (hb : Broken a k a') (h : Rep W a ct) {j : Nat} {c : CompTy} (hc : ct.cts[j]? = some c) (hj : j + 1 ≠ k) :
    ∃ vs b cap, ct.cols[j]? = some vs ∧ a'.pointers[j]? = some (some b) ∧ ColOK c cap b vs ∧ vs.length = ct.ents.length := by
  obtain ⟨vs, b, h1, h2, h3, h4⟩ := h.column hc
  have hp := hb.ptrs j
  rw [h2, if_neg hj] at hp
  by_cases hlt : j + 1 < k
  · rw [if_pos hlt] at hp
    exact ⟨vs, b.dbl, _, h1, hp, h3.dbl, h4⟩
  · rw [if_neg hlt] at hp
    exact ⟨vs, b, _, h1, hp, h3, h4⟩

theorem null (hb : Broken a k a') {j : Nat} (hj : j + 1 = k) : a'.pointers[j]? = some none := by
  have := hb.ptrs j
  rw [if_neg (by omega), if_pos hj] at this
  exact this

theorem componentRef (hb : Broken a k a') (h : Rep W a ct) {j n : Nat} {c : CompTy} (hc : ct.cts[j]? = some c) :
    a'.componentRef c n = .ok ⟨j, c.size * n⟩ := by
  unfold Archetype.componentRef
  rw [hb.desc, h.desc.search hc]

/-- A row that was there, in a column whose allocation did not fail. -/
theorem get_ok (hb : Broken a k a') (h : Rep W a ct) {j n : Nat} {c : CompTy} {v : Val} (hc : ct.cts[j]? = some c)
    (hj : j + 1 ≠ k) (hv : ct.get c n = some v) : a'.getComponentUnchecked c n = .ok v := by
  obtain ⟨vs, b, cap, h1, h2, h3, h4⟩ := hb.column h hc hj
  unfold Content.get at hv
  rw [h.lookupTy_eq hc h1] at hv
  unfold Archetype.getComponentUnchecked
  rw [hb.componentRef h hc]
  simp only [ok_bind]
  unfold Archetype.readRef
  simp only []
  rw [index_of_getElem? h2]
  exact h3.read hv

/-- The column whose allocation failed. -/
theorem get_null (hb : Broken a k a') (h : Rep W a ct) {j n : Nat} {c : CompTy} (hc : ct.cts[j]? = some c)
    (hj : j + 1 = k) : a'.getComponentUnchecked c n = .error (.ub .nullDeref) := by
  unfold Archetype.getComponentUnchecked
  rw [hb.componentRef h hc]
  simp only [ok_bind]
  unfold Archetype.readRef
  simp only []
  rw [index_of_getElem? (hb.null hj)]
  rfl

/-- The row that was to be written. -/
theorem get_new (hb : Broken a k a') (h : Rep W a ct) (hfull : ct.ents.length = a.capacity) {c : CompTy} (hc : c ∈ ct.cts)
    (hs : 0 < c.size) : ∃ u, a'.getComponentUnchecked c ct.ents.length = .error (.ub u) := by
  obtain ⟨j, hj, hje⟩ := List.mem_iff_getElem.mp hc
  have hc : ct.cts[j]? = some c := by rw [List.getElem?_eq_getElem hj, hje]
  by_cases hjk : j + 1 = k
  · exact ⟨_, hb.get_null h hc hjk⟩
  · obtain ⟨vs, b, h1, h2, h3, h4⟩ := h.column hc
    have hp := hb.ptrs j
    rw [h2, if_neg hjk] at hp
    unfold Archetype.getComponentUnchecked
    rw [hb.componentRef h hc]
    simp only [ok_bind]
    unfold Archetype.readRef
    simp only []
    by_cases hlt : j + 1 < k
    · rw [if_pos hlt] at hp
      refine ⟨.uninit, ?_⟩
      rw [index_of_getElem? hp]
      simp only [ok_bind, Option.map_some]
      unfold readVal
      have hd := h3.dbl
      rw [hd.aligned]
      simp only [ok_bind]
      rw [readBytes_cell (hd.bound (by have := h.cap.pos; omega))]
      simp only [ok_bind]
      have hcell : ∃ n, cell b.dbl c.size ct.ents.length = List.replicate (n + 1) none := by
        refine ⟨c.size - 1, ?_⟩
        unfold cell Block.dbl
        simp only []
        rw [hfull, ← h3.size, List.drop_left, List.take_replicate]
        congr 1
        have := h3.size
        have := Nat.le_mul_of_pos_right c.size h.cap.pos
        omega
      obtain ⟨n, hn⟩ := hcell
      rw [hn]
      rfl
    · rw [if_neg hlt] at hp
      refine ⟨.outOfBounds, ?_⟩
      rw [index_of_getElem? hp]
      simp only [ok_bind]
      unfold readVal
      rw [h3.aligned]
      simp only [ok_bind]
      unfold readBytes
      simp only []
      rw [if_neg (by rw [h3.size, hfull]; omega)]
      rfl

/-- Dropping the archetype is undefined behaviour. -/
theorem drop_ub (hb : Broken a k a') (h : Rep W a ct) (hk : k ≤ ct.cts.length) : ∃ u, a'.drop = .error (.ub u) := by
  have hpos := h.cap.pos
  have hcap := hb.cap
  unfold Archetype.drop
  rw [if_neg (by omega)]
  have step : ∀ i, i < ct.cts.length → i + 1 ≠ k → ∀ dropped : List Val, ∃ s', (do
      let d ← index a'.descriptor.components i
      let p ← index a'.pointers i
      let vs ← runDropHandler d p 0 a'.entityCount
      return dropped ++ vs : M (List Val)) = .ok s' ∧ True := by
    intro i hi hik dropped
    have hci := List.getElem?_eq_getElem hi
    obtain ⟨vs, b, cap, h1, h2, h3, h4⟩ := hb.column h hci hik
    rw [hb.desc, h.desc.index_comp hci, index_of_getElem? h2]
    simp only [ok_bind, runDropHandler, CompTy.descriptor]
    have := h3.readSlice_ok 0 a'.entityCount (by rw [hb.count, h.count]; omega)
    rw [Nat.mul_zero] at this
    rw [this]
    exact ⟨_, rfl, trivial⟩
  cases k with
  | succ m =>
    refine ⟨.nullDeref, ?_⟩
    have : a'.dropEntities = .error (.ub .nullDeref) := by
      unfold Archetype.dropEntities
      have hci := List.getElem?_eq_getElem (show m < ct.cts.length by omega)
      refine forRange_fault (fun _ _ => True) m _ 0 [] (by rw [hb.desc, h.desc.clen]; omega) trivial
        (fun i s _ hi _ => step i (by omega) (by omega) s) (fun s _ => ?_)
      rw [Nat.zero_add, hb.desc, h.desc.index_comp hci, index_of_getElem? (hb.null rfl)]
      rfl
    rw [this]
    rfl
  | zero =>
    refine ⟨.badRealloc, ?_⟩
    obtain ⟨s, hs, _⟩ := forRange_inv (fun _ _ => True) ct.cts.length 0 ([] : List Val) trivial
      (fun i s _ hi _ => step i (by omega) (by omega) s)
    unfold Archetype.dropEntities
    rw [hb.desc, h.desc.clen]
    rw [hb.desc] at hs
    rw [hs]
    simp only [ok_bind]
    obtain ⟨ptrs, hp, hn⟩ := deallocLoop_ok h ct.cts.length 0 a.pointers (by omega) h.cols.ptrs_len (by intros; rfl)
      (by intros; omega)
    have hpe : a'.pointers = a.pointers := by
      apply List.ext_getElem?
      intro j
      rw [hb.ptrs j, if_neg (by omega), if_neg (by omega)]
    have hloop : ∀ (n i : Nat) (ps : List (Option Block)), a'.deallocLoop n i ps = a.deallocLoop n i ps := by
      intro n
      induction n with
      | zero => intros; rfl
      | succ n ih =>
        intro i ps
        unfold Archetype.deallocLoop
        rw [hb.desc, hb.cap]
        cases index ps i with
        | error e => rfl
        | ok p =>
          cases p with
          | none => rfl
          | some b =>
            simp only [ok_bind]
            cases index a.descriptor.components i with
            | error e => rfl
            | ok c =>
              simp only [ok_bind]
              cases deallocBlock (some b) (c.size * a.capacity) c.align with
              | error e => rfl
              | ok u => simp only [ok_bind]; exact ih _ _
    unfold Archetype.dealloc
    rw [hloop, hb.desc, hpe, ← h.desc.length, hp]
    simp only [ok_bind, Bool.false_eq_true, if_false, hb.table rfl]
    rfl

end Broken

/-! ## The registry -/

/-- Nothing fails that is needed. -/
theorem createEntityOom_calm {g : Group} {vals : List Val}
    (hf : r.archetypes.findOrCreateOom fail env (g.descriptor env).archetype =
      (r.archetypes.findOrCreateArchetype env (g.descriptor env).archetype).map some)
    (h : ∀ ar' ai a e, r.archetypes.findOrCreateArchetype env (g.descriptor env).archetype = .ok (ar', some ai) →
      ar'.archetypes[ai.toNat]? = some a → r.entities.entities.length < MAX_ENTITY_HANDLE_VALUE →
      a.pushEntityOom fail env e g vals = (a.pushEntityUnchecked env e g vals).map (fun x => (x.1, some x.2))) :
    r.createEntityOom fail env g vals = (r.createEntity env g vals).map (fun x => (x.1, some x.2)) := by
  unfold Registry.createEntityOom Registry.createEntity
  split
  · rfl
  · rw [hf]
    cases hc : r.archetypes.findOrCreateArchetype env (g.descriptor env).archetype with
    | error e => rfl
    | ok f =>
      obtain ⟨ar', o⟩ := f
      simp only [Except.map, ok_bind]
      cases o with
      | none => rfl
      | some ai =>
        simp only []
        cases ha : ar'.archetypes[ai.toNat]? with
        | none => unfold index; rw [ha]; rfl
        | some a =>
          rw [index_of_getElem? ha]
          simp only [ok_bind]
          cases unwrap (IndexInArchetype.new (UInt32.ofNat a.entityCount)) with
          | error e => rfl
          | ok iia =>
            simp only [ok_bind]
            cases unwrap (ArchetypeIndex.new ai) with
            | error e => rfl
            | ok aix =>
              simp only [ok_bind]
              cases hr : r.entities.createEntity env iia aix with
              | error e => rfl
              | ok c =>
                obtain ⟨re, oe⟩ := c
                simp only [ok_bind]
                cases oe with
                | none => rfl
                | some e =>
                  simp only []
                  have hlt : r.entities.entities.length < MAX_ENTITY_HANDLE_VALUE := by
                    rcases Nat.lt_or_ge r.entities.entities.length MAX_ENTITY_HANDLE_VALUE with hlt | hge
                    · exact hlt
                    · rw [EntityRegistry.createEntity_full hge] at hr
                      cases hr
                  rw [h ar' ai a e hc ha hlt]
                  cases a.pushEntityUnchecked env e g vals <;> rfl

/-- The archetype for `g` is missing and may be created. -/
def Missing (env : Env) (r : Registry) (g : Group) : Prop :=
  ¬ HasArchetype r.archetypes g.length (groupId env g.idSet) ∧ r.archetypes.archetypes.length < 65534

/-- The archetype for `g` is there, all its rows are in use, it may still be doubled, and a handle is left. -/
def MustGrow (env : Env) (r : Registry) (g : Group) : Prop :=
  (∃ a ∈ r.archetypes.archetypes, a.descriptor.len = g.length ∧ a.descriptor.archetypeId = groupId env g.idSet ∧
    a.entityCount = a.capacity ∧ a.capacity < 8388608) ∧ r.entities.entities.length < MAX_ENTITY_HANDLE_VALUE

theorem RInv.createOom_calm (h : RInv W r cs) {g : Group} (hg : W.OkGroup g) (hv : (g.descriptor env).isValid = true)
    {vals : List Val} (hc : Missing env r g ∨ MustGrow env r g → ∀ k, k ≤ g.length → fail k = false) :
    r.createEntityOom fail env g vals = (r.createEntity env g vals).map (fun x => (x.1, some x.2)) := by
  have gs := Group.spec hv
  have hd := Group.descOK (W := W) hg hv
  have hlen : (g.descriptor env).archetype.len = g.length := gs.len
  have hid : (g.descriptor env).archetype.archetypeId = groupId env g.idSet := by rw [gs.archetypeId_eq, gs.ids_eq]
  have hcl : (g.descriptor env).archetype.components.length = g.length := by rw [hd.clen, hd.length, hlen]
  have hle := h.arch.le
  refine createEntityOom_calm ?_ ?_
  · by_cases hm : Missing env r g
    · exact findOrCreateOom_calm (fun k hk => hc (Or.inl hm) k (by omega))
    · refine h.arch.findOrCreateOom_none hd ?_
      rw [hlen, hid]
      by_cases hx : HasArchetype r.archetypes g.length (groupId env g.idSet)
      · exact Or.inl hx
      · right
        refine Classical.byContradiction fun hne => hm ⟨hx, by omega⟩
  · intro ar' ai a e hf ha hlt
    rcases h.arch.findOrCreate_spec hd with ⟨i, b, h1, h2, h3, h4⟩ | ⟨hno, ⟨h1, h2⟩ | ⟨ar2, b, i, h1, h2, h3, h4⟩⟩
    · rw [h1] at hf
      cases hf
      rw [h2] at ha
      cases ha
      obtain ⟨ct, _, hr⟩ := h.arch.content h2
      refine pushEntityOom_calm hr.cap.pos (fun q1 q2 k hk => ?_)
      refine hc (Or.inr ⟨⟨a, List.mem_of_getElem? h2, by rw [h3, hlen], by rw [h4, hid], q1, q2⟩, hlt⟩) k (by omega)
    · rw [h2] at hf; cases hf
    · rw [h2] at hf
      cases hf
      have hb : ar'.archetypes[ai.toNat]? = some b := by
        rw [h4.archetypes, h3, List.getElem?_append_right (Nat.le_refl _)]; simp
      rw [hb] at ha
      cases ha
      have hcap := h4.cap
      have hcnt : a.entityCount = 0 := h4.rep.count
      exact pushEntityOom_calm (by omega) (fun q1 _ => by omega)

theorem RInv.createOom_missing (h : RInv W r cs) {g : Group} (hg : W.OkGroup g) (hv : (g.descriptor env).isValid = true)
    {vals : List Val} (hm : Missing env r g) (hf : ∃ k, k ≤ g.length ∧ fail k = true) :
    r.createEntityOom fail env g vals = .ok (r, none) := by
  have gs := Group.spec hv
  have hd := Group.descOK (W := W) hg hv
  have hlen : (g.descriptor env).archetype.len = g.length := gs.len
  have hid : (g.descriptor env).archetype.archetypeId = groupId env g.idSet := by rw [gs.archetypeId_eq, gs.ids_eq]
  unfold Registry.createEntityOom
  rw [if_neg (by simp [hv]), h.arch.findOrCreateOom_fail hd (by rw [hlen, hid]; exact hm.1) hm.2 (by rw [hd.length, hlen]; exact hf)]
  rfl

/-- The state after a failure to grow: entity `e` is in the entity registry, the archetype `a` has become `a'`. -/
structure HalfCreated (W : World env) (r : Registry) (cs : List Content) (g : Group) (k : Nat) (r' : Registry) (e : Entity)
    (ai : Nat) (a a' : Archetype) (ct : Content) : Prop where
  arch : r.archetypes.archetypes[ai]? = some a
  content : cs[ai]? = some ct
  rep : Rep W a ct
  cts : ct.cts = g.cts env
  id : a.descriptor.archetypeId = groupId env g.idSet
  full : ct.ents.length = a.capacity
  inv : EntInv env r'.entities
  dead : r.entities.entityEntry env e = none
  entry : r'.entities.loc env e = some (ai, ct.ents.length)
  others : ∀ x, x ≠ e → r'.entities.entityEntry env x = r.entities.entityEntry env x
  broken : Broken a k a'
  archs : r'.archetypes.archetypes = r.archetypes.archetypes.set ai a'

theorem RInv.createOom_grow (h : RInv W r cs) {g : Group} (hg : W.OkGroup g) (hv : (g.descriptor env).isValid = true)
    {vals : List Val} (hm : MustGrow env r g) {k : Nat} (hk : k ≤ g.length) (hf : fail k = true)
    (hb : ∀ j, j < k → fail j = false) :
    ∃ r' e ai a a' ct, r.createEntityOom fail env g vals = .ok (r', none) ∧ HalfCreated W r cs g k r' e ai a a' ct := by
  have gs := Group.spec hv
  have hd := Group.descOK (W := W) hg hv
  have hlen : (g.descriptor env).archetype.len = g.length := gs.len
  have hid : (g.descriptor env).archetype.archetypeId = groupId env g.idSet := by rw [gs.archetypeId_eq, gs.ids_eq]
  obtain ⟨⟨b, hb1, hb2, hb3, hb4, hb5⟩, hlt⟩ := hm
  have hhas : HasArchetype r.archetypes (g.descriptor env).archetype.len (g.descriptor env).archetype.archetypeId :=
    ⟨b, hb1, by rw [hb2, hlen], by rw [hb3, hid]⟩
  have hno := h.arch.findOrCreateOom_none (fail := fail) hd (Or.inl hhas)
  rcases h.arch.focus hd with ⟨h1, h2⟩ | ⟨ar', cs', ai, a, ct, h1, h2, h3, h4, h5, h6, h7, h8, h9, h10, hroom, hfound⟩
  · exact absurd ⟨fun he => by
      have := hd.valid
      unfold ArchetypeDescriptor.isValid at this
      simp [he] at this, Or.inl hhas⟩ h2
  · have hae := hfound hhas
    subst hae
    rw [h1] at hno
    obtain ⟨j, hj⟩ := List.mem_iff_getElem?.mp hb1
    have hji := h.arch.unique_index hj h4 (by rw [hb2, h8, hlen]) (by rw [hb3, h9, hid])
    subst hji
    rw [h4] at hj
    cases hj
    obtain ⟨ct0, hct0, hr0⟩ := h.arch.content h4
    have hcnt := hr0.count
    have hcap := hr0.cap.le
    have hn : ct0.ents.length < 16777215 := by omega
    obtain ⟨n1, n2⟩ := IndexInArchetype.new_ofNat hn
    obtain ⟨re', e, c1, c2⟩ := EntityRegistry.createEntity_ok (iia := ⟨UInt32.ofNat ct0.ents.length⟩) (ai := ⟨ai⟩) h.ents hlt
      (by show (UInt32.ofNat ct0.ents.length).toNat < _; rw [n2]; omega) h10
    have hcts : ct0.cts = g.cts env := by rw [← h7]; exact hr0.desc.unique h6.desc rfl rfl
    obtain ⟨a', p1, p2⟩ := hr0.resizeOom_fail (env := env) (by omega) hb5 (k := k)
      (by rw [hr0.desc.length, hb2]; exact hk) hf hb
    obtain ⟨d1, d2, d3⟩ := c2.entry h.ents
    refine ⟨⟨re', r.archetypes.setArchetype ai.toNat a'⟩, e, ai.toNat, b, a', ct0, ?_, h4, hct0, hr0, hcts, hb3, by omega, c2.inv,
      d1, ?_, d3, p2, rfl⟩
    · unfold Registry.createEntityOom
      rw [if_neg (by simp [hv]), hno]
      simp only [Except.map, ok_bind]
      rw [index_of_getElem? h4]
      simp only [ok_bind]
      rw [hcnt, n1, ArchetypeIndex.new_ok h10]
      simp only [unwrap, ok_bind]
      rw [c1]
      simp only [ok_bind]
      unfold Archetype.pushEntityOom
      rw [debugAssert_true hv, debugAssert_true (by rw [hb3, hid]; simp)]
      simp only [ok_bind]
      rw [p1]
      rfl
    · rw [d2]
      show some (ai.toNat, (UInt32.ofNat ct0.ents.length).toNat) = _
      rw [n2]

namespace HalfCreated

variable {g : Group} {k : Nat} {r' : Registry} {e : Entity} {ai : Nat} {a' : Archetype}

theorem self (h : HalfCreated W r cs g k r' e ai a a' ct) : r'.archetypes.archetypes[ai]? = some a' := by
  rw [h.archs, List.getElem?_set_self (List.getElem?_eq_some_iff.mp h.arch).1]

theorem other (h : HalfCreated W r cs g k r' e ai a a' ct) {j : Nat} (hj : j ≠ ai) :
    r'.archetypes.archetypes[j]? = r.archetypes.archetypes[j]? := by
  rw [h.archs, List.getElem?_set_ne (Ne.symm hj)]

theorem drop_ub (h : HalfCreated W r cs g k r' e ai a a' ct) (hi : RInv W r cs) (hk : k ≤ ct.cts.length) :
    ∃ u, r'.drop = .error (.ub u) := by
  obtain ⟨u, hu⟩ := h.broken.drop_ub h.rep hk
  refine ⟨u, ?_⟩
  have hlt := (List.getElem?_eq_some_iff.mp h.arch).1
  unfold Registry.drop ArchetypeRegistry.drop
  refine forRange_fault (fun _ _ => True) ai _ 0 ([], []) (by rw [h.archs, List.length_set]; exact hlt) trivial ?_ ?_
  · intro i s _ hi' _
    have hil : i < r.archetypes.archetypes.length := by omega
    have hai := List.getElem?_eq_getElem hil
    obtain ⟨ct', _, hr'⟩ := hi.arch.content hai
    obtain ⟨b, hb, _⟩ := hr'.drop_spec
    rw [index_of_getElem? (by rw [h.other (by omega)]; exact hai)]
    simp only [ok_bind]
    rw [hb]
    exact ⟨_, rfl, trivial⟩
  · intro s _
    rw [Nat.zero_add, index_of_getElem? h.self]
    simp only [ok_bind]
    rw [hu]
    rfl

/-- Reading a component of the entity that was being created. -/
theorem get_new (h : HalfCreated W r cs g k r' e ai a a' ct) {c : CompTy} (hW : W.Has c) (hc : c ∈ ct.cts)
    (hs : 0 < c.size) : ∃ u, r'.getComponent env c e = .error (.ub u) := by
  obtain ⟨u, hu⟩ := h.broken.get_new h.rep h.full hc hs
  obtain ⟨en, he, h1, h2⟩ := EntityRegistry.entry_of_loc h.entry
  simp only [] at h1 h2
  refine ⟨u, ?_⟩
  unfold Registry.getComponent
  rw [he]
  simp only []
  unfold ArchetypeRegistry.getUnchecked
  rw [indexUnchecked_of_getElem? (by rw [h1]; exact h.self)]
  simp only [ok_bind]
  rw [if_neg (by rw [h.broken.desc, (h.rep.desc.hasComponent_iff hW).mpr hc]; simp), h2, hu]
  rfl

theorem has_new (h : HalfCreated W r cs g k r' e ai a a' ct) {c : CompTy} (hW : W.Has c) :
    r'.hasComponent env c e = .ok (decide (c ∈ ct.cts)) := by
  obtain ⟨en, he, h1, h2⟩ := EntityRegistry.entry_of_loc h.entry
  simp only [] at h1 h2
  unfold Registry.hasComponent
  rw [he]
  simp only []
  unfold ArchetypeRegistry.getUnchecked
  rw [indexUnchecked_of_getElem? (by rw [h1]; exact h.self)]
  simp only [ok_bind, pure_eq_ok]
  rw [h.broken.desc]
  congr 1
  rw [Bool.eq_iff_iff, h.rep.desc.hasComponent_iff hW, decide_eq_true_iff]

theorem has_other (h : HalfCreated W r cs g k r' e ai a a' ct) {x : Entity} (hx : x ≠ e) (c : CompTy) :
    r'.hasComponent env c x = r.hasComponent env c x := by
  unfold Registry.hasComponent
  rw [h.others x hx]
  cases r.entities.entityEntry env x with
  | none => rfl
  | some en =>
    simp only []
    unfold ArchetypeRegistry.getUnchecked indexUnchecked
    by_cases hj : (en.archetypeIndex env).toNat = ai
    · rw [hj, h.self, h.arch]
      simp only [ok_bind, h.broken.desc]
    · rw [h.other hj]

/-- Reading a component of another entity. -/
theorem get_other (h : HalfCreated W r cs g k r' e ai a a' ct) (hi : RInv W r cs) {x : Entity} (hx : x ≠ e) {c : CompTy}
    (hW : W.Has c) :
    (∀ (j : Nat), j + 1 = k → ct.cts[j]? = some c → (r.entities.loc env x).map Prod.fst = some ai →
      r'.getComponent env c x = .error (.ub .nullDeref)) ∧
    ((∀ (j : Nat), j + 1 = k → ct.cts[j]? = some c → (r.entities.loc env x).map Prod.fst ≠ some ai) →
      r'.getComponent env c x = r.getComponent env c x) := by
  have hox := h.others x hx
  cases he : r.entities.entityEntry env x with
  | none =>
    have hl := EntityRegistry.loc_eq_none.mpr he
    refine ⟨fun j _ _ hl' => (by rw [hl] at hl'; cases hl'), fun _ => ?_⟩
    unfold Registry.getComponent
    rw [hox, he]
  | some en =>
    have hl := EntityRegistry.loc_of_entry he
    rw [he] at hox
    rw [hl, Option.map_some]
    by_cases hj : (en.archetypeIndex env).toNat = ai
    · have hhas : c ∈ ct.cts ↔ a'.descriptor.hasComponent c = true := by
        rw [h.broken.desc, h.rep.desc.hasComponent_iff hW]
      have hred : r'.getComponent env c x = if c ∈ ct.cts then
          (a'.getComponentUnchecked c en.indexInArchetype.value.toNat).map some else .ok none := by
        unfold Registry.getComponent
        rw [hox]
        simp only []
        unfold ArchetypeRegistry.getUnchecked
        rw [indexUnchecked_of_getElem? (by rw [hj]; exact h.self)]
        simp only [ok_bind]
        by_cases hm : c ∈ ct.cts
        · rw [if_pos hm, if_neg (by rw [hhas.mp hm]; simp)]
          cases a'.getComponentUnchecked c en.indexInArchetype.value.toNat <;> rfl
        · rw [if_neg hm, if_pos (fun hx => hm (hhas.mpr hx))]
          rfl
      obtain ⟨a0, ct0, q1, q2, q3, q4, q5, q6⟩ := hi.entry he
      have hrd := getComponent_at he q1 q3 (List.getElem?_eq_some_iff.mp q4).1 hW
      rw [hj] at q1 q2
      rw [h.arch] at q1; cases q1
      rw [h.content] at q2; cases q2
      have hk := (List.getElem?_eq_some_iff.mp q4).1
      refine ⟨fun j hjk hcj _ => ?_, fun hno => ?_⟩
      · rw [hred, if_pos (List.mem_of_getElem? hcj), h.broken.get_null h.rep hcj hjk]
        rfl
      · rw [hred, hrd]
        by_cases hm : c ∈ ct.cts
        · rw [if_pos hm]
          obtain ⟨j, hjl, hje⟩ := List.mem_iff_getElem.mp hm
          have hcj : ct.cts[j]? = some c := by rw [List.getElem?_eq_getElem hjl, hje]
          obtain ⟨v, hv, _⟩ := h.rep.get_some hm hk
          rw [h.broken.get_ok h.rep hcj (fun hjk => hno j hjk hcj (congrArg some hj)) hv, hv]
          rfl
        · rw [if_neg hm, h.rep.get_none hm]
    · refine ⟨fun _ _ _ hx => absurd (Option.some.inj hx) hj, fun _ => ?_⟩
      unfold Registry.getComponent
      rw [hox, he]
      simp only []
      unfold ArchetypeRegistry.getUnchecked indexUnchecked
      rw [h.other hj]

end HalfCreated

end Shard
