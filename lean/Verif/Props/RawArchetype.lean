import Verif.Model.Raw
import Verif.Proofs.Memory
import Verif.Props.Example
/-!
# C68: the safe functions of `Archetype`

`Archetype::new`, `Archetype::with_capacity`, `len`, `capacity`, `is_full`, `descriptor`, `entities`, `entities_mut` and
`drop` are safe functions; no `unsafe` is needed to call them with any descriptor and any capacity.
-/

set_option autoImplicit false

namespace Shard

variable {env : Env}

/-! ## What the descriptor must satisfy -/

/-- The layout of a column of `c` may be passed to the allocator: the alignment is a power of two, and the size is not
zero (unless the allocator tolerates that). -/
def GoodLayout (env : Env) (c : ComponentDescriptor) : Prop :=
  (∃ k, c.align = 2 ^ k) ∧ (0 < c.size ∨ env.zstAllocOk = true)

/-- The drop handler of `c` may be called on a column of `c`: the column is aligned for the handler's type. -/
def GoodDrop (c : ComponentDescriptor) : Prop := ∀ f, c.drop = some f → c.align % f.align = 0

/-- The capacities for which `with_capacity` allocates. -/
def CapInRange (cap : Nat) : Prop := 0 < cap ∧ cap ≤ MAX_ENTITIES_PER_ARCHETYPE

instance (cap : Nat) : Decidable (CapInRange cap) := by unfold CapInRange; infer_instance

/-- The full claim: whatever the descriptor and the capacity, creating an archetype, looking at its entities and
dropping it have no undefined behaviour. -/
def C68_statement : Prop :=
  ∀ (env : Env) (d : ArchetypeDescriptor) (cap : Nat), d.comps.length = 14 → d.len < 256 →
    (∀ c ∈ d.comps, c.size < 65536 ∧ c.align < 65536) → cap < 4294967296 →
    ∀ u, Archetype.withCapacityAny env d cap ≠ .error (.ub u) ∧
      ∀ a, Archetype.withCapacityAny env d cap = .ok a → a.entities ≠ .error (.ub u) ∧ a.drop ≠ .error (.ub u)

/-! ## The allocation loop for any descriptors -/

/-- The block of a new column. -/
def freshBlock (cap : Nat) (c : ComponentDescriptor) : Block := ⟨c.align, List.replicate (c.size * cap) none⟩

theorem allocBlock_good {c : ComponentDescriptor} {cap : Nat} (hal : c.align < 65536) (hg : GoodLayout env c)
    (hcap : 0 < cap) : allocBlock env (c.size * cap) c.align = .ok (freshBlock cap c) :=
  allocBlock_ok (powerOfTwo_iff.2 ⟨hal, hg.1⟩) (hg.2.imp (fun h => Nat.mul_pos h hcap) id)

theorem allocBlock_bad {c : ComponentDescriptor} {cap : Nat} (hg : ¬ GoodLayout env c) :
    ∃ u, allocBlock env (c.size * cap) c.align = .error (.ub u) := by
  unfold allocBlock
  by_cases hp : powerOfTwo c.align = false
  · exact ⟨_, by rw [if_pos hp]⟩
  · rw [if_neg hp]
    by_cases hz : c.size * cap = 0 ∧ ¬ env.zstAllocOk = true
    · exact ⟨_, by rw [if_pos hz]⟩
    · exfalso
      have hp' : powerOfTwo c.align = true := by simpa using hp
      refine hg ⟨(powerOfTwo_iff.1 hp').2, ?_⟩
      by_cases hz' : env.zstAllocOk = true
      · exact .inr hz'
      · left
        refine Nat.pos_of_ne_zero fun h0 => hz ⟨by rw [h0, Nat.zero_mul], hz'⟩

theorem allocLoop_any {ds : List ComponentDescriptor} {cap : Nat} (hcap : 0 < cap) (hal : ∀ d ∈ ds, d.align < 65536) :
    ∀ (n lo : Nat) (ptrs : List (Option Block)), lo + n = ds.length → ds.length ≤ ptrs.length →
    ((∀ d ∈ ds.drop lo, GoodLayout env d) →
      forRange lo n (fun i ptrs => do
        let c ← index ds i
        let b ← allocBlock env (c.size * cap) c.align
        setIndex ptrs i (some b)) ptrs =
        .ok (ptrs.take lo ++ (ds.drop lo).map (fun c => some (freshBlock cap c)) ++ ptrs.drop ds.length)) ∧
    ((∃ d ∈ ds.drop lo, ¬ GoodLayout env d) →
      ∃ u, forRange lo n (fun i ptrs => do
        let c ← index ds i
        let b ← allocBlock env (c.size * cap) c.align
        setIndex ptrs i (some b)) ptrs = .error (.ub u))
  | 0, lo, ptrs, hn, hl => by
    have hlo : lo = ds.length := by omega
    subst hlo
    refine ⟨fun _ => ?_, fun ⟨d, hd, _⟩ => ?_⟩
    · unfold forRange
      simp
    · simp at hd
  | n + 1, lo, ptrs, hn, hl => by
    have hlo : lo < ds.length := by omega
    have hdrop : ds.drop lo = ds[lo] :: ds.drop (lo + 1) := List.drop_eq_getElem_cons hlo
    unfold forRange
    simp only [index_lt hlo, ok_bind]
    by_cases hg : GoodLayout env ds[lo]
    · have hb := allocBlock_good (hal _ (List.getElem_mem hlo)) hg hcap
      rw [hb]
      simp only [ok_bind]
      rw [setIndex_lt (by omega)]
      simp only []
      obtain ⟨ih1, ih2⟩ := allocLoop_any hcap hal n (lo + 1) (ptrs.set lo (some (freshBlock cap ds[lo]))) (by omega) (by simpa using hl)
      refine ⟨fun h => ?_, fun h => ?_⟩
      · rw [ih1 (fun d hd => h d (by rw [hdrop]; exact List.mem_cons_of_mem _ hd)), hdrop, List.map_cons]
        have ht : (ptrs.set lo (some (freshBlock cap ds[lo]))).take (lo + 1) = ptrs.take lo ++ [some (freshBlock cap ds[lo])] := by
          rw [List.take_add_one, List.getElem?_set_self (by omega)]
          rw [List.take_set_of_le (Nat.le_refl lo)]
          rfl
        have hd : (ptrs.set lo (some (freshBlock cap ds[lo]))).drop ds.length = ptrs.drop ds.length :=
          List.drop_set_of_lt hlo
        rw [ht, hd]
        simp
      · refine ih2 ?_
        obtain ⟨d, hd, hbad⟩ := h
        rw [hdrop, List.mem_cons] at hd
        rcases hd with rfl | hd
        · exact absurd hg hbad
        · exact ⟨d, hd, hbad⟩
    · obtain ⟨u, hu⟩ := allocBlock_bad (cap := cap) hg
      rw [hu]
      refine ⟨fun h => absurd (h ds[lo] (by rw [hdrop]; exact List.mem_cons_self)) hg, fun _ => ⟨u, rfl⟩⟩

/-! ## `with_capacity` -/

/-- A new archetype without memory. -/
def unallocated (d : ArchetypeDescriptor) : Archetype := ⟨d, List.replicate 14 none, none, 0, 0⟩

/-- A new archetype with memory for `cap` rows. -/
def allocated (d : ArchetypeDescriptor) (cap : Nat) : Archetype :=
  ⟨d, d.components.map (fun c => some (freshBlock cap c)) ++ List.replicate (14 - d.len) none,
    some (List.replicate cap none), 0, cap⟩

theorem withCapacityAny_invalid {d : ArchetypeDescriptor} {cap : Nat} (hv : d.isValid = false) :
    Archetype.withCapacityAny env d cap = .error (.panic .assertFailed) := by
  unfold Archetype.withCapacityAny ensure
  rw [if_neg (by rw [hv]; decide)]
  rfl

theorem withCapacityAny_out {d : ArchetypeDescriptor} {cap : Nat} (hv : d.isValid = true) (hc : ¬ CapInRange cap) :
    Archetype.withCapacityAny env d cap = .ok (unallocated d) := by
  unfold Archetype.withCapacityAny
  rw [ensure_true hv]
  simp only [ok_bind]
  rw [if_neg (show ¬ (cap > 0 ∧ cap ≤ MAX_ENTITIES_PER_ARCHETYPE) from hc)]
  unfold Archetype.withCapacity
  rw [ensure_true hv]
  simp only [ok_bind]
  rw [if_neg (show ¬ (cap > 0 ∧ cap ≤ MAX_ENTITIES_PER_ARCHETYPE) from hc)]
  rfl

theorem withCapacityAny_long {d : ArchetypeDescriptor} {cap : Nat} (hv : d.isValid = true) (hc : CapInRange cap)
    (h14 : d.comps.length = 14) (hl : 14 < d.len) :
    Archetype.withCapacityAny env d cap = .error (.panic .indexOutOfBounds) := by
  unfold Archetype.withCapacityAny
  rw [ensure_true hv]
  simp only [ok_bind]
  rw [if_pos (show cap > 0 ∧ cap ≤ MAX_ENTITIES_PER_ARCHETYPE from hc)]
  unfold ArchetypeDescriptor.componentsAny
  rw [if_neg (by omega)]
  rfl

theorem withCapacityAny_in {d : ArchetypeDescriptor} {cap : Nat} (hv : d.isValid = true) (hc : CapInRange cap)
    (h14 : d.comps.length = 14) (hal' : ∀ c ∈ d.components, c.align < 65536) (hl : d.len ≤ 14) :
    ((∀ c ∈ d.components, GoodLayout env c) → Archetype.withCapacityAny env d cap = .ok (allocated d cap)) ∧
    ((∃ c ∈ d.components, ¬ GoodLayout env c) → ∃ u, Archetype.withCapacityAny env d cap = .error (.ub u)) := by
  have hM : MAX_COMPONENTS_PER_ENTITY = 14 := rfl
  have hcl : d.components.length = d.len := by
    unfold ArchetypeDescriptor.components
    rw [List.length_take, h14]
    omega
  obtain ⟨h1, h2⟩ := allocLoop_any (env := env) hc.1 hal' d.components.length 0 (List.replicate 14 none) (by omega)
    (by rw [List.length_replicate]; omega)
  rw [List.drop_zero] at h1 h2
  unfold Archetype.withCapacityAny
  rw [ensure_true hv]
  simp only [ok_bind]
  rw [if_pos (show cap > 0 ∧ cap ≤ MAX_ENTITIES_PER_ARCHETYPE from hc)]
  unfold ArchetypeDescriptor.componentsAny
  rw [if_pos (by omega)]
  simp only [ok_bind]
  unfold Archetype.withCapacity
  rw [ensure_true hv]
  simp only [ok_bind]
  rw [if_pos (show cap > 0 ∧ cap ≤ MAX_ENTITIES_PER_ARCHETYPE from hc)]
  unfold Archetype.allocColumns
  rw [hM]
  refine ⟨fun h => ?_, fun h => ?_⟩
  · rw [h1 h]
    simp only [ok_bind, pure_eq_ok, List.take_zero, List.nil_append, List.drop_replicate, hcl]
    rfl
  · obtain ⟨u, hu⟩ := h2 h
    exact ⟨u, by rw [hu]; rfl⟩

/-! ## `entities` and `drop` on a new archetype -/

theorem unallocated_entities (d : ArchetypeDescriptor) : (unallocated d).entities = .error (.ub .nullDeref) := rfl

theorem unallocated_drop (d : ArchetypeDescriptor) : (unallocated d).drop = .ok ([], unallocated d) := rfl

theorem allocated_entities (d : ArchetypeDescriptor) (cap : Nat) : (allocated d cap).entities = .ok [] := by
  unfold Archetype.entities Archetype.entitiesRaw allocated
  simp only []
  rw [if_pos (Nat.zero_le _)]
  rfl

theorem runDropHandler_empty {c : ComponentDescriptor} {b : Block} (hb : b.align = c.align) :
    (GoodDrop c → Archetype.runDropHandler c (some b) 0 0 = .ok []) ∧
    (¬ GoodDrop c → Archetype.runDropHandler c (some b) 0 0 = .error (.ub .misaligned)) := by
  unfold Archetype.runDropHandler GoodDrop
  cases hd : c.drop with
  | none => exact ⟨fun _ => rfl, fun h => absurd (fun f hf => by cases hf) h⟩
  | some f =>
    simp only [readSlice, checkAligned, hb, Nat.zero_mod, and_true]
    refine ⟨fun h => ?_, fun h => ?_⟩
    · rw [if_pos (h f rfl)]
      rfl
    · rw [if_neg (fun h' => h (fun f' hf' => by cases hf'; exact h'))]
      rfl

theorem allocated_pointer {d : ArchetypeDescriptor} {cap i : Nat} (hi : i < d.components.length) :
    (allocated d cap).pointers[i]? = some (some (freshBlock cap d.components[i])) := by
  unfold allocated
  rw [List.getElem?_append_left (by simpa using hi), List.getElem?_map, List.getElem?_eq_getElem hi]
  rfl

theorem dropLoop_any {ds : List ComponentDescriptor} {ptrs : List (Option Block)} {cap : Nat}
    (hp : ∀ i (hi : i < ds.length), ptrs[i]? = some (some (freshBlock cap ds[i]))) :
    ∀ (n lo : Nat), lo + n = ds.length →
    ((∀ c ∈ ds.drop lo, GoodDrop c) →
      forRange lo n (fun i dropped => do
        let d ← index ds i
        let p ← index ptrs i
        let vs ← Archetype.runDropHandler d p 0 0
        return dropped ++ vs) ([] : List Val) = .ok []) ∧
    ((∃ c ∈ ds.drop lo, ¬ GoodDrop c) →
      forRange lo n (fun i dropped => do
        let d ← index ds i
        let p ← index ptrs i
        let vs ← Archetype.runDropHandler d p 0 0
        return dropped ++ vs) ([] : List Val) = .error (.ub .misaligned))
  | 0, lo, hn => by
    have hlo : lo = ds.length := by omega
    subst hlo
    exact ⟨fun _ => rfl, fun ⟨d, hd, _⟩ => by simp at hd⟩
  | n + 1, lo, hn => by
    have hlo : lo < ds.length := by omega
    have hdrop : ds.drop lo = ds[lo] :: ds.drop (lo + 1) := List.drop_eq_getElem_cons hlo
    have hpt : index ptrs lo = .ok (some (freshBlock cap ds[lo])) := by
      unfold index
      rw [hp lo hlo]
    unfold forRange
    simp only [index_lt hlo, hpt, ok_bind]
    obtain ⟨h1, h2⟩ := runDropHandler_empty (c := ds[lo]) (b := freshBlock cap ds[lo]) rfl
    by_cases hg : GoodDrop ds[lo]
    · rw [h1 hg]
      simp only [ok_bind, pure_eq_ok, List.append_nil]
      obtain ⟨ih1, ih2⟩ := dropLoop_any hp n (lo + 1) (by omega)
      refine ⟨fun h => ih1 (fun c hc => h c (by rw [hdrop]; exact List.mem_cons_of_mem _ hc)), fun ⟨c, hc, hb⟩ => ih2 ?_⟩
      rw [hdrop, List.mem_cons] at hc
      rcases hc with rfl | hc
      · exact absurd hg hb
      · exact ⟨c, hc, hb⟩
    · rw [h2 hg]
      exact ⟨fun h => absurd (h _ (by rw [hdrop]; exact List.mem_cons_self)) hg, fun _ => rfl⟩

theorem allocated_dealloc_loop {d : ArchetypeDescriptor} {cap : Nat} (h14 : d.comps.length = 14) (hl : d.len ≤ 14) :
    ∀ (n i : Nat) (ptrs : List (Option Block)), i + n = d.len → ptrs.length = 14 →
    (∀ j, i ≤ j → ptrs[j]? = (allocated d cap).pointers[j]?) →
    ∃ ptrs', (allocated d cap).deallocLoop n i ptrs = .ok (ptrs', false)
  | 0, i, ptrs, _, _, _ => ⟨ptrs, rfl⟩
  | n + 1, i, ptrs, hn, hpl, hp => by
    have hcl : d.components.length = d.len := by
      unfold ArchetypeDescriptor.components
      rw [List.length_take, h14]
      omega
    have hi : i < d.components.length := by omega
    unfold Archetype.deallocLoop
    have hpt : index ptrs i = .ok (some (freshBlock cap d.components[i])) := by
      unfold index
      rw [hp i (Nat.le_refl i), allocated_pointer hi]
    have hci : index (allocated d cap).descriptor.components i = .ok d.components[i] := index_lt hi
    have hb : deallocBlock (some (freshBlock cap d.components[i])) (d.components[i].size * (allocated d cap).capacity)
        d.components[i].align = .ok () := by
      unfold deallocBlock freshBlock allocated
      simp
    rw [hpt]
    simp only [ok_bind]
    rw [hci]
    simp only [ok_bind]
    rw [hb]
    simp only [ok_bind]
    refine allocated_dealloc_loop h14 hl n (i + 1) _ (by omega) (by simpa using hpl) (fun j hj => ?_)
    rw [List.getElem?_set_ne (by omega)]
    exact hp j (by omega)

theorem allocated_drop {d : ArchetypeDescriptor} {cap : Nat} (h14 : d.comps.length = 14) (hl : d.len ≤ 14) (hc : 0 < cap) :
    ((∀ c ∈ d.components, GoodDrop c) → ∃ a', (allocated d cap).drop = .ok ([], a')) ∧
    ((∃ c ∈ d.components, ¬ GoodDrop c) → (allocated d cap).drop = .error (.ub .misaligned)) := by
  have hcl : d.components.length = d.len := by
    unfold ArchetypeDescriptor.components
    rw [List.length_take, h14]
    omega
  obtain ⟨h1, h2⟩ := dropLoop_any (ds := d.components) (ptrs := (allocated d cap).pointers) (cap := cap)
    (fun i hi => allocated_pointer hi) d.components.length 0 (by omega)
  rw [List.drop_zero] at h1 h2
  have hpl : (allocated d cap).pointers.length = 14 := by
    unfold allocated
    simp only [List.length_append, List.length_map, List.length_replicate]
    omega
  obtain ⟨ptrs', hd⟩ := allocated_dealloc_loop (cap := cap) h14 hl d.len 0 (allocated d cap).pointers (by omega) hpl (fun _ _ => rfl)
  have hdd : ∃ a', (allocated d cap).dealloc = .ok a' := by
    unfold Archetype.dealloc
    rw [show (allocated d cap).deallocLoop (allocated d cap).descriptor.len 0 (allocated d cap).pointers = _ from hd]
    simp only [ok_bind]
    refine ⟨{ (allocated d cap) with pointers := ptrs', entityAssociations := none, capacity := 0 }, ?_⟩
    show (if (List.replicate cap (none : Option Entity)).length ≠ cap then _ else _) = _
    rw [if_neg (by simp)]
    rfl
  have hcap : ¬ (allocated d cap).capacity = 0 := by
    show ¬ cap = 0
    omega
  unfold Archetype.drop
  rw [if_neg hcap]
  refine ⟨fun h => ?_, fun h => ?_⟩
  · obtain ⟨a', ha'⟩ := hdd
    have : (allocated d cap).dropEntities = .ok [] := h1 h
    rw [this, ok_bind, ha']
    exact ⟨a', rfl⟩
  · have : (allocated d cap).dropEntities = .error (.ub .misaligned) := h2 h
    rw [this]
    rfl

/-! ## C68 -/

/-- `ComponentDescriptor::INVALID.into()`, a valid archetype descriptor. -/
theorem invalid_into_valid : ComponentDescriptor.INVALID.intoArchetype.isValid = true := by decide

/-- **C68** is false in three ways, for every environment: an archetype without memory has a null entity slice; the
archetype of the conversion of `ComponentDescriptor::INVALID` asks the allocator for the alignment 0; dropping the
archetype of a descriptor whose alignment is smaller than that of its type forms a misaligned slice. -/
theorem C68_violated : ¬ C68_statement := by
  intro h
  have h1 := (h ⟨true, false, true⟩ (exA.descriptor.intoArchetype) 0 (by decide) (by decide) (by decide) (by decide) .nullDeref).2
    (unallocated exA.descriptor.intoArchetype) (withCapacityAny_out (by decide) (by unfold CapInRange; omega))
  exact h1.1 (unallocated_entities _)

theorem C68_null_entities_violated (env : Env) : ∃ a, Archetype.withCapacityAny env exA.descriptor.intoArchetype 0 = .ok a ∧
    a.entities = .error (.ub .nullDeref) :=
  ⟨_, withCapacityAny_out (by decide) (by unfold CapInRange; omega), unallocated_entities _⟩

theorem C68_invalid_component_violated (env : Env) :
    Archetype.newAny env ComponentDescriptor.INVALID.intoArchetype = .error (.ub .layoutMismatch) := by
  obtain ⟨d, b, z⟩ := env
  revert d b z
  decide +kernel

/-- A descriptor of `exA` (alignment 4) with a lowered alignment. -/
def exLowered : ComponentDescriptor := { exA.descriptor with align := 2 }

theorem C68_misaligned_drop_violated (env : Env) : ∃ a, Archetype.newAny env exLowered.intoArchetype = .ok a ∧
    a.drop = .error (.ub .misaligned) := by
  refine ⟨allocated exLowered.intoArchetype 128, ?_, ?_⟩
  · unfold Archetype.newAny
    rw [ensure_true (by decide)]
    exact (withCapacityAny_in (env := env) (d := exLowered.intoArchetype) (cap := 128) (by decide) (by decide) (by decide) (by decide)
      (by decide)).1 (by
      intro c hc
      have : c = exLowered := by simpa [ArchetypeDescriptor.components, ComponentDescriptor.intoArchetype,
        ArchetypeDescriptor.new, exLowered, exA, CompTy.descriptor, ARCHETYPE_ID_INVALID] using hc
      subst this
      exact ⟨⟨1, rfl⟩, .inl (by decide)⟩)
  · refine (allocated_drop (by decide) (by decide) (by decide)).2 ⟨exLowered, by decide, fun h => ?_⟩
    exact absurd (h _ rfl) (by decide)

/-- **C68 (exact, partial)** What the safe functions of `Archetype` do for any descriptor and any capacity. They panic
exactly for descriptors with the reserved id or, if memory is allocated, with more than 14 components. Creating an
archetype has undefined behaviour exactly if memory is allocated for a component whose layout the allocator does not
accept; `entities` exactly if no memory was allocated; `drop` exactly if a drop handler meets a column that is not
aligned for it. Missing from the full claim: exactly those cases. -/
theorem C68_safe_archetype_partial (d : ArchetypeDescriptor) (cap : Nat) (h14 : d.comps.length = 14)
    (hal : ∀ c ∈ d.comps, c.align < 65536) :
    ((∃ p, Archetype.withCapacityAny env d cap = .error (.panic p)) ↔
      d.isValid = false ∨ (CapInRange cap ∧ 14 < d.len)) ∧
    ((∃ u, Archetype.withCapacityAny env d cap = .error (.ub u)) ↔
      d.isValid = true ∧ CapInRange cap ∧ d.len ≤ 14 ∧ ∃ c ∈ d.components, ¬ GoodLayout env c) ∧
    (∀ a, Archetype.withCapacityAny env d cap = .ok a →
      a.descriptor = d ∧ a.entityCount = 0 ∧ (CapInRange cap → a.capacity = cap) ∧ (¬ CapInRange cap → a.capacity = 0) ∧
      (CapInRange cap → a.entities = .ok []) ∧ (¬ CapInRange cap → a.entities = .error (.ub .nullDeref)) ∧
      ((∃ a', a.drop = .ok ([], a')) ↔ (CapInRange cap → ∀ c ∈ d.components, GoodDrop c)) ∧
      (CapInRange cap → (∃ c ∈ d.components, ¬ GoodDrop c) → a.drop = .error (.ub .misaligned))) := by
  have hex : ∀ {P : ComponentDescriptor → Prop}, ¬ (∀ c ∈ d.components, P c) → ∃ c ∈ d.components, ¬ P c := by
    intro P hn
    refine Classical.byContradiction fun hne => hn fun c hc => Classical.byContradiction fun hp => hne ⟨c, hc, hp⟩
  by_cases hv : d.isValid = true
  rotate_left
  · have hv' : d.isValid = false := by simpa using hv
    rw [withCapacityAny_invalid hv']
    refine ⟨⟨fun _ => .inl hv', fun _ => ⟨_, rfl⟩⟩, ⟨fun ⟨u, hu⟩ => (by cases hu), fun h => absurd h.1 hv⟩, fun a ha => (by cases ha)⟩
  have hvn : ¬ d.isValid = false := by rw [hv]; decide
  by_cases hc : CapInRange cap
  rotate_left
  · rw [withCapacityAny_out hv hc]
    refine ⟨⟨fun ⟨u, hu⟩ => (by cases hu), fun h => h.elim (fun h => absurd h hvn) (fun h => absurd h.1 hc)⟩,
      ⟨fun ⟨u, hu⟩ => (by cases hu), fun h => absurd h.2.1 hc⟩, fun a ha => ?_⟩
    cases ha
    exact ⟨rfl, rfl, fun h => absurd h hc, fun _ => rfl, fun h => absurd h hc, fun _ => unallocated_entities d,
      ⟨fun _ h => absurd h hc, fun _ => ⟨_, unallocated_drop d⟩⟩, fun h => absurd h hc⟩
  by_cases hl : 14 < d.len
  · rw [withCapacityAny_long hv hc h14 hl]
    refine ⟨⟨fun _ => .inr ⟨hc, hl⟩, fun _ => ⟨_, rfl⟩⟩, ⟨fun ⟨u, hu⟩ => (by cases hu), fun h => absurd hl (by omega)⟩,
      fun a ha => (by cases ha)⟩
  obtain ⟨h1, h2⟩ := withCapacityAny_in (env := env) hv hc h14 (fun c hcm => hal c (List.mem_of_mem_take hcm)) (by omega)
  by_cases hg : ∀ c ∈ d.components, GoodLayout env c
  rotate_left
  · obtain ⟨u, hu⟩ := h2 (hex hg)
    rw [hu]
    refine ⟨⟨fun ⟨p, hp⟩ => (by cases hp), fun h => h.elim (fun h => absurd h hvn) (fun h => absurd h.2 hl)⟩,
      ⟨fun _ => ⟨hv, hc, by omega, hex hg⟩, fun _ => ⟨u, rfl⟩⟩, fun a ha => (by cases ha)⟩
  rw [h1 hg]
  refine ⟨⟨fun ⟨u, hu⟩ => (by cases hu), fun h => h.elim (fun h => absurd h hvn) (fun h => absurd h.2 hl)⟩,
    ⟨fun ⟨u, hu⟩ => (by cases hu), fun ⟨_, _, _, c, hcm, hb⟩ => absurd (hg c hcm) hb⟩, fun a ha => ?_⟩
  cases ha
  obtain ⟨k1, k2⟩ := allocated_drop (cap := cap) h14 (by omega) hc.1
  refine ⟨rfl, rfl, fun _ => rfl, fun h => absurd hc h, fun _ => allocated_entities d cap, fun h => absurd hc h,
    ⟨fun ⟨a', ha'⟩ _ => ?_, fun h => k1 (h hc)⟩, fun _ => k2⟩
  refine Classical.byContradiction fun hn => ?_
  rw [k2 (hex hn)] at ha'
  cases ha'

/-- The good case occurs: the descriptor of a group, with room for 5 rows. -/
example (env : Env) : ∃ a a', Archetype.withCapacityAny env exA.descriptor.intoArchetype 5 = .ok a ∧ a.capacity = 5 ∧
    a.entities = .ok [] ∧ a.drop = .ok ([], a') := by
  have hg : ∀ c ∈ exA.descriptor.intoArchetype.components, GoodLayout env c ∧ GoodDrop c := by
    intro c hc
    have : c = exA.descriptor := by simpa [ArchetypeDescriptor.components, ComponentDescriptor.intoArchetype,
        ArchetypeDescriptor.new, exA, CompTy.descriptor, ARCHETYPE_ID_INVALID] using hc
    subst this
    exact ⟨⟨⟨2, rfl⟩, .inl (by decide)⟩, fun f hf => by cases hf; decide⟩
  have hw := (withCapacityAny_in (env := env) (d := exA.descriptor.intoArchetype) (cap := 5) (by decide) (by decide) (by decide)
    (by decide) (by decide)).1 (fun c hc => (hg c hc).1)
  obtain ⟨_, _, h⟩ := C68_safe_archetype_partial (env := env) exA.descriptor.intoArchetype 5 (by decide) (by decide)
  obtain ⟨_, _, h1, _, h2, _, h3, _⟩ := h _ hw
  obtain ⟨a', ha'⟩ := h3.2 (fun _ c hc => (hg c hc).2)
  exact ⟨_, a', hw, h1 (by decide), h2 (by decide), ha'⟩

end Shard
