import Verif.Props.Capacity
import Verif.Props.Limits
import Verif.Props.Oversized
import Verif.Proofs.SingleIds
/-!
# C27: a program that reaches the archetype limit

`C27_archetype_limit` says what happens with 65,534 archetypes. Here is a program that gets there: it creates one entity
for each of 65,534 single-component types. (The 16-bit ids leave 65,536 such types. Two are left out: on a little-endian
target the archetype ids of the groups of 20339 and of 52513 are smaller than 65536, and so are ids that
`remove_component` computes for other types.)
-/

set_option autoImplicit false

namespace Shard

/-! ## The program -/

/-- A one-byte component type for each id. -/
def limTy (i : UInt16) : CompTy := ⟨i.toNat, i, 1, 1⟩
def limVal (i : UInt16) : Val := ⟨i.toNat, [0]⟩

/-- The program forms the component sets of one type, and one set of two types. -/
def limWorld : World limEnv where
  Has c := c = limTy c.id
  Used s := (∃ i : UInt16, i ≠ 20339 ∧ i ≠ 52513 ∧ s = [i]) ∨ s = [0, 1]
  id_inj := by
    intro c c' h h' he
    rw [h, h', he]
  size_lt := by intro c h; rw [h]; show 1 < 65536; decide
  align_lt := by intro c h; rw [h]; show 1 < 65536; decide
  align_pow := by intro c h; rw [h]; exact ⟨0, rfl⟩
  mult := by intro c h; rw [h]; show 1 % 1 = 0; rfl
  zst := by intro c h; left; rw [h]; show 0 < 1; decide
  noClash := by
    have key : ∀ {i j : UInt16}, j ≠ 20339 → j ≠ 52513 → plainId limEnv [i] ≠ groupId limEnv [j] := by
      intro i j h1 h2 h
      have := groupId_large h1 h2
      rw [← h, plainId_single, UInt16.toNat_toUInt32] at this
      have := i.toNat_lt
      omega
    rintro s t (⟨i, h1, h2, rfl⟩ | rfl) (⟨j, h3, h4, rfl⟩ | rfl) hl hc
    · rcases hc with hc | hc | hc
      · rw [plainId_single, plainId_single] at hc
        have := congrArg UInt32.toNat hc
        rw [UInt16.toNat_toUInt32, UInt16.toNat_toUInt32] at this
        rw [UInt16.toNat_inj.mp this]
      · exact absurd hc (key h3 h4)
      · rw [groupId_single_inj limEnv hc]
    · cases hl
    · cases hl
    · rfl

theorem idSet_single (c : CompTy) : Group.idSet [c] = [c.id] := by
  unfold Group.idSet
  simp

theorem lim_admissible {i : UInt16} (h1 : i ≠ 20339) (h2 : i ≠ 52513) (r : Registry) :
    (Call.create [limTy i] [limVal i]).Admissible limWorld r := by
  refine ⟨?_, fun _ => ⟨?_, ?_⟩⟩
  · refine ⟨rfl, ?_⟩
    intro k c v hc hv
    cases k with
    | zero => cases hc; cases hv; exact ⟨rfl, rfl⟩
    | succ k => cases hc
  · intro c hc
    rw [List.mem_singleton] at hc
    subst hc
    rfl
  · exact .inl ⟨i, h1, h2, idSet_single _⟩

theorem lim_valid (i : UInt16) : (Group.descriptor limEnv [limTy i]).isValid = true :=
  (single_descriptor limEnv (limTy i)).2


/-- One entity for each type with an id in `l`. -/
theorem lim_fill : ∀ l : List UInt16, l.Nodup → (∀ i ∈ l, i ≠ 20339 ∧ i ≠ 52513) → l.length ≤ 65534 →
    ∃ r, AllLive limWorld r l.length ∧ r.archetypes.archetypes.length ≤ l.length ∧
      (∀ i ∈ l, HasArchetype r.archetypes 1 (groupId limEnv [i])) ∧ (∀ i ∈ l, Bounded limWorld r [limTy i] 1) ∧
      ∀ i, i ∉ l → Bounded limWorld r [limTy i] 0
  | [], _, _, _ => ⟨Registry.default, AllLive.start _, Nat.le_refl _, fun i hi => (by cases hi), fun i hi => (by cases hi),
      fun i _ => Bounded.default _ _⟩
  | j :: l, hn, hok, hl => by
    rw [List.length_cons] at hl
    obtain ⟨hj, hn'⟩ := List.nodup_cons.mp hn
    obtain ⟨r, h1, h2, h3, h4, h5⟩ := lim_fill l hn' (fun i hi => hok i (List.mem_cons_of_mem _ hi)) (by omega)
    obtain ⟨ho1, ho2⟩ := hok j List.mem_cons_self
    have hM : MAX_ENTITY_HANDLE_VALUE = 16777215 := rfl
    obtain ⟨r', q1, q2, q3, q4, _, q6, q7⟩ := h1.create (lim_admissible ho1 ho2 r) (lim_valid j) (by omega) (by omega)
      (h5 j hj) (by decide)
    have hmem : ∀ i, i ≠ j → ∃ c ∈ [limTy j], limWorld.Has c ∧ c ∉ [limTy i] := by
      intro i hij
      refine ⟨limTy j, List.mem_singleton.mpr rfl, rfl, fun hx => ?_⟩
      have := congrArg CompTy.id (List.mem_singleton.mp hx)
      exact hij this.symm
    rw [idSet_single] at q3
    refine ⟨r', q1, by rw [List.length_cons]; omega, ?_, ?_, ?_⟩
    · intro i hi
      rcases List.mem_cons.mp hi with rfl | hi
      · exact q3
      · exact q6 _ _ (h3 i hi)
    · intro i hi
      rcases List.mem_cons.mp hi with rfl | hi
      · exact q2
      · exact q7 _ _ (hmem i (fun h => hj (h ▸ hi))) (h4 i hi)
    · intro i hi
      exact q7 _ _ (hmem i (fun h => hi (h ▸ List.mem_cons_self))) (h5 i (fun h => hi (List.mem_cons_of_mem _ h)))

/-- All ids except two. -/
def limIds : List UInt16 := (((List.range 65536).erase 20339).erase 52513).map UInt16.ofNat

theorem limIds_length : limIds.length = 65534 := by
  unfold limIds
  rw [List.length_map, List.length_erase_of_mem, List.length_erase_of_mem, List.length_range]
  · exact List.mem_range.mpr (by decide)
  · exact (List.mem_erase_of_ne (by decide)).mpr (List.mem_range.mpr (by decide))

theorem limIds_mem {n : Nat} (h : n ∈ ((List.range 65536).erase 20339).erase 52513) : n < 65536 ∧ n ≠ 20339 ∧ n ≠ 52513 := by
  obtain ⟨h1, h2⟩ := (List.nodup_range.erase 20339).mem_erase_iff.mp h
  obtain ⟨h3, h4⟩ := List.nodup_range.mem_erase_iff.mp h2
  exact ⟨List.mem_range.mp h4, h3, h1⟩

theorem u16_ofNat_inj {m n : Nat} (hm : m < 65536) (hn : n < 65536) (h : UInt16.ofNat m = UInt16.ofNat n) : m = n := by
  have := congrArg UInt16.toNat h
  rwa [UInt16.toNat_ofNat_of_lt' hm, UInt16.toNat_ofNat_of_lt' hn] at this

theorem limIds_nodup : limIds.Nodup := by
  unfold limIds
  refine List.nodup_iff_pairwise_ne.mpr (List.pairwise_map.mpr ?_)
  refine List.Pairwise.imp_of_mem ?_ ((List.nodup_range.erase 20339).erase 52513)
  intro a b ha hb hne h
  exact hne (u16_ofNat_inj (limIds_mem ha).1 (limIds_mem hb).1 h)

theorem limIds_ok : ∀ i ∈ limIds, i ≠ 20339 ∧ i ≠ 52513 := by
  intro i hi
  obtain ⟨n, hn, rfl⟩ := List.mem_map.mp hi
  obtain ⟨h1, h2, h3⟩ := limIds_mem hn
  exact ⟨fun h => h2 (u16_ofNat_inj h1 (by decide) h), fun h => h3 (u16_ofNat_inj h1 (by decide) h)⟩

/-- **C27 (the limit can be reached)** There is a reachable registry with 65,534 archetypes. In it, creating an entity
with two components fails cleanly, and creating one more entity with one of the single components succeeds. -/
theorem C27_limit_reached : ∃ r, Reachable limWorld r ∧ r.archetypes.archetypes.length = 65534 ∧
    r.createEntity limEnv [limTy 0, limTy 1] [limVal 0, limVal 1] = .ok (r, .err [limVal 0, limVal 1]) ∧
    ∃ r' e, r.createEntity limEnv [limTy 0] [limVal 0] = .ok (r', .ok e) := by
  obtain ⟨r, h1, h2, h3, h4, _⟩ := lim_fill limIds limIds_nodup limIds_ok (Nat.le_of_eq limIds_length)
  have hC := C27_archetype_limit h1.reach
  have hones : 65534 ≤ (r.archetypes.archetypes.filter (fun a => a.descriptor.len == 1)).length := by
    have hnd : (limIds.map (fun i => groupId limEnv [i])).Nodup := by
      refine List.nodup_iff_pairwise_ne.mpr (List.pairwise_map.mpr ?_)
      exact limIds_nodup.imp (fun hne h => hne (groupId_single_inj limEnv h))
    have hle := hnd.length_le_of_subset (l₂ := (r.archetypes.archetypes.filter (fun a => a.descriptor.len == 1)).map (fun a => a.descriptor.archetypeId)) (by
      intro x hx
      obtain ⟨i, hi, rfl⟩ := List.mem_map.mp hx
      obtain ⟨a, ha, hal, hid⟩ := h3 i hi
      exact List.mem_map.mpr ⟨a, List.mem_filter.mpr ⟨ha, by rw [hal]; rfl⟩, hid⟩)
    rw [List.length_map, List.length_map, limIds_length] at hle
    exact hle
  have hlen : r.archetypes.archetypes.length = 65534 :=
    Nat.le_antisymm hC.1 (Nat.le_trans hones (List.length_filter_le _ _))
  have hlim := (hC.2.2.2 hlen).1
  have h0 : (0 : UInt16) ∈ limIds := by
    refine List.mem_map.mpr ⟨0, ?_, rfl⟩
    exact (List.mem_erase_of_ne (by decide)).mpr ((List.mem_erase_of_ne (by decide)).mpr (List.mem_range.mpr (by decide)))
  refine ⟨r, h1.reach, hlen, ?_, ?_⟩
  · have hset : Group.idSet [limTy 0, limTy 1] = [0, 1] := by
      unfold Group.idSet
      refine List.mergeSort_of_pairwise ?_
      decide
    refine (hlim _ _ ⟨⟨rfl, ?_⟩, fun _ => ⟨?_, .inr hset⟩⟩ (by decide +kernel)).1 ?_
    · intro k c v hc hv
      match k, hc, hv with
      | 0, hc, hv => cases hc; cases hv; exact ⟨rfl, rfl⟩
      | 1, hc, hv => cases hc; cases hv; exact ⟨rfl, rfl⟩
    · intro c hc
      rcases List.mem_cons.mp hc with rfl | hc
      · rfl
      · rw [List.mem_singleton.mp hc]; rfl
    · rintro ⟨a, ha, hl, -⟩
      have hlt := (List.length_filter_lt_length_iff_exists (p := fun a : Archetype => a.descriptor.len == 1)).mpr
        ⟨a, ha, (by rw [hl]; decide : ¬ (a.descriptor.len == 1) = true)⟩
      omega
  · have hadm := lim_admissible (i := 0) (by decide) (by decide) r
    have hM : MAX_ENTITY_HANDLE_VALUE = 16777215 := rfl
    have hS : STORAGE_LIMIT = 8388608 := rfl
    exact (hlim _ _ hadm (lim_valid 0)).2 (by rw [idSet_single]; exact h3 0 h0) (by rw [h1.table, limIds_length]; omega)
      ((h4 0 h0).few (by omega))

end Shard
