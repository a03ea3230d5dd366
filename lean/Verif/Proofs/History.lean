import Verif.Proofs.Step
import Verif.Spec.History
/-!
# Facts about whole histories
-/

namespace Shard

variable {env : Env} {W : World env} {r r' : Registry} {cs cs' : List Content}

/-! ## Dead handles -/

/-- No operation on a handle that is not live does anything. -/
theorem dead_ops {e : Entity} (he : r.entities.entityEntry env e = none) :
    (∀ c, r.hasComponent env c e = .ok false) ∧ (∀ g, r.hasComponents env g e = .ok false) ∧
    (∀ c, r.getComponent env c e = .ok none) ∧ (∀ g, r.getComponents env g e = .ok none) ∧
    (∀ c, r.getComponentMut env c e = .ok none) ∧ (∀ g, r.getComponentsMut env g e = .ok none) ∧
    (∀ c v, r.addComponent env e c v = .ok (r, .err v)) ∧ (∀ c, r.removeComponent env e c = .ok (r, .err ())) ∧
    (∀ g, r.removeEntity env g e = .ok (r, none)) ∧ r.destroyEntity env e = .ok (r, false, []) := by
  refine ⟨?_, ?_, ?_, ?_, ?_, ?_, fun c v => addComponent_dead he, fun c => removeComponent_dead he,
    fun g => removeEntity_dead he, destroyEntity_dead he⟩
  · intro c; unfold Registry.hasComponent; rw [he]
  · intro g; unfold Registry.hasComponents; rw [he]
  · intro c; unfold Registry.getComponent; rw [he]
  · intro g; unfold Registry.getComponents; rw [he]
  · intro c; unfold Registry.getComponentMut; rw [he]
  · intro g; unfold Registry.getComponentsMut; rw [he]

theorem RInv.entry_none (h : RInv W r cs) {e : Entity} (hd : ¬ Live env r e) : r.entities.entityEntry env e = none :=
  h.look_none.mp (h.dead_iff.mp hd)

theorem RInv.live_entry (h : RInv W r cs) {e : Entity} : Live env r e ↔ ∃ en, r.entities.entityEntry env e = some en := by
  unfold Live Registry.iterEntities
  exact mem_iter h.ents

theorem RInv.invalid_dead (h : RInv W r cs) : ¬ Live env r Entity.INVALID := by
  rw [h.live_entry]
  rintro ⟨en, he⟩
  have h1 := ((EntityRegistry.entityEntry_iff h.ents.len_le _ _).mp he).1
  have h2 := (List.getElem?_eq_some_iff.mp h1).1
  have h3 := h.ents.len_le
  have hM : MAX_ENTITY_HANDLE_VALUE = 16777215 := rfl
  rw [Entity.INVALID_index] at h2
  omega

/-! ## Versions -/

/-- The call vacates the slot `i`. -/
def Outcome.vacates (out : Outcome) (i : UInt32) : Bool := out.vacated.any (fun e => e.index == i)

theorem Outcome.vacates_none {out : Outcome} (h : out.vacated = none) (i : UInt32) : out.vacates i = false := by
  unfold Outcome.vacates; rw [h]; rfl

theorem Outcome.vacates_some {out : Outcome} {e : Entity} (h : out.vacated = some e) (i : UInt32) :
    out.vacates i = true ↔ e.index = i := by
  unfold Outcome.vacates; rw [h]; simp

theorem TableStep.version {t t' : EntityRegistry} {out : Outcome} (h : TableStep env t t' out) (hle : t.entities.length ≤ MAX_ENTITY_HANDLE_VALUE)
    {i : UInt32} {en : EntityEntry} (he : t.entities[i.toNat]? = some en) :
    ∃ en', t'.entities[i.toNat]? = some en' ∧
      (out.vacates i = true ∧ en'.version = en.version + 1 ∨ out.vacates i = false ∧ en'.version = en.version) := by
  have hi := (List.getElem?_eq_some_iff.mp he).1
  unfold TableStep at h
  cases hc : out.created with
  | some e =>
    cases hv : out.vacated with
    | some e' => rw [hc, hv] at h; exact h.elim
    | none =>
      rw [hc, hv] at h
      obtain ⟨iia, ai, hcr⟩ := h
      by_cases hie : i.toNat = e.index.toNat
      · obtain ⟨en', n1, n2, n3, _⟩ := hcr.new
        rcases hcr.old with ⟨o1, _⟩ | ⟨en0, o1, o2, o3⟩
        · rw [← hie, he] at o1; cases o1
        · rw [← hie, he] at o1; cases o1
          exact ⟨en', by rw [hie]; exact n1, Or.inr ⟨Outcome.vacates_none hv i, by rw [n2, o3]⟩⟩
      · exact ⟨en, by rw [hcr.frame _ hie]; exact he, Or.inr ⟨Outcome.vacates_none hv i, rfl⟩⟩
  | none =>
    cases hv : out.vacated with
    | some e =>
      rw [hc, hv] at h
      obtain ⟨⟨en0, hen0⟩, m, hu, hd⟩ := h
      obtain ⟨e1, e2, _⟩ := (EntityRegistry.entityEntry_iff hle _ _).mp hen0
      by_cases hie : e.index = i
      · rw [hie, he] at e1
        cases e1
        obtain ⟨en', n1, n2, _⟩ := hd.new
        exact ⟨en', by rw [← hie]; exact n1, Or.inl ⟨(Outcome.vacates_some hv i).mpr hie, by rw [n2, e2]⟩⟩
      · obtain ⟨en1, u1, u2, _⟩ := hu.slot _ _ he
        refine ⟨en1, ?_, Or.inr ⟨?_, u2⟩⟩
        · rw [hd.frame _ (fun hc => hie (UInt32.toNat_inj.mp hc).symm)]; exact u1
        · rw [Bool.eq_false_iff]
          exact fun hx => hie ((Outcome.vacates_some hv i).mp hx)
    | none =>
      rw [hc, hv] at h
      obtain ⟨en1, u1, u2, _⟩ := h.slot _ _ he
      exact ⟨en1, u1, Or.inr ⟨Outcome.vacates_none hv i, u2⟩⟩

theorem vacations_snoc (h : List (Call × Outcome)) (x : Call × Outcome) (i : UInt32) :
    vacations (h ++ [x]) i = vacations h i + if x.2.vacates i then 1 else 0 := by
  unfold vacations
  rw [List.countP_append, List.countP_singleton]
  rfl

theorem Steps.versions {ok : Registry → Call → Prop} (hok : ∀ r call, ok r call → call.Admissible W r) {r0 : Registry}
    {cs0 : List Content} (h0 : RInv W r0 cs0) {hist : List (Call × Outcome)} {r : Registry} (hs : Steps env ok r0 hist r)
    {i : UInt32} {en : EntityEntry} (he : r0.entities.entities[i.toNat]? = some en) :
    ∃ en', r.entities.entities[i.toNat]? = some en' ∧ en'.version = en.version + UInt8.ofNat (vacations hist i) := by
  induction hs with
  | nil =>
    refine ⟨en, he, ?_⟩
    have h0 : UInt8.ofNat (vacations [] i) = 0 := rfl
    rw [h0, UInt8.add_zero]
  | snoc h1 h2 h3 ih =>
    rename_i r1 r2 call out
    obtain ⟨en1, a1, a2⟩ := ih
    obtain ⟨cs1, hcs⟩ := h1.inv hok h0
    obtain ⟨cs2, hst⟩ := hcs.step (hok _ _ h2) h3
    obtain ⟨en2, b1, b2⟩ := hst.table.version hcs.ents.len_le a1
    refine ⟨en2, b1, ?_⟩
    rw [vacations_snoc]
    rcases b2 with ⟨b2, b3⟩ | ⟨b2, b3⟩
    · rw [if_pos b2, b3, a2, UInt8.ofNat_add, ← UInt8.add_assoc]
      rfl
    · rw [if_neg (by show ¬ out.vacates i = true; rw [b2]; simp), b3, a2]
      rfl

/-- The entry behind a live handle. -/
theorem RInv.live_version (h : RInv W r cs) {e : Entity} (hl : Live env r e) :
    ∃ en, r.entities.entities[e.index.toNat]? = some en ∧ en.version = e.version ∧ en.isValid env = true := by
  obtain ⟨en, he⟩ := h.live_entry.mp hl
  exact ⟨en, (EntityRegistry.entityEntry_iff h.ents.len_le _ _).mp he⟩

/-- A retired handle that is live again: its slot has been vacated 255 more times, modulo 256. -/
theorem Steps.stale {r0 r1 : Registry} {cs0 : List Content} (h0 : RInv W r0 cs0) {call : Call} {out : Outcome}
    (hadm : call.Admissible W r0) (hrun : call.run env r0 = .ok (r1, out)) {e : Entity} (hv : out.vacated = some e)
    {hist : List (Call × Outcome)} {r : Registry} (hs : Steps env (Call.Admissible W) r1 hist r) :
    ∃ en, r.entities.entities[e.index.toNat]? = some en ∧
      en.version = e.version + 1 + UInt8.ofNat (vacations hist e.index) := by
  obtain ⟨cs1, hst⟩ := h0.step hadm hrun
  have ht := hst.table
  unfold TableStep at ht
  rw [hv] at ht
  cases hc : out.created with
  | some x => rw [hc] at ht; exact ht.elim
  | none =>
    rw [hc] at ht
    obtain ⟨_, m, hu, hd⟩ := ht
    obtain ⟨en', n1, n2, _⟩ := hd.new
    obtain ⟨en2, a1, a2⟩ := hs.versions (fun _ _ h => h) hst.inv n1
    exact ⟨en2, a1, by rw [a2, n2]⟩

theorem u8_ofNat_eq {v : UInt8} {n : Nat} (h : v + 1 + UInt8.ofNat n = v) : n % 256 = 255 := by
  have := congrArg UInt8.toNat h
  simp only [UInt8.toNat_add, UInt8.toNat_ofNat', UInt8.toNat_one] at this
  have hlt := Shard.UInt8.toNat_lt256 v
  omega

theorem u8_wrap (v : UInt8) : v + 1 + UInt8.ofNat 255 = v := by
  apply UInt8.toNat_inj.mp
  have h1 : (UInt8.ofNat 255).toNat = 255 := rfl
  simp only [UInt8.toNat_add, UInt8.toNat_one, h1]
  have hlt := Shard.UInt8.toNat_lt256 v
  omega

/-! ## Slots -/

/-- The table of entries is what the stack allocator says. -/
structure SlotInv (env : Env) (t : EntityRegistry) (s : List UInt32 × Nat) (n : Nat × Nat) : Prop where
  free : FreeList env t (s.1.map UInt32.toNat)
  len : t.entities.length = s.2
  count : n.1 + s.1.length = s.2
  peak : s.2 = n.2
  cur : n.1 ≤ n.2

theorem SlotInv.start : SlotInv env EntityRegistry.default (slotState []) (liveCount []) := by
  refine ⟨⟨rfl, List.nodup_nil, ?_⟩, rfl, rfl, rfl, Nat.le_refl _⟩
  intro i en h
  simp [EntityRegistry.default] at h

theorem slotState_snoc (h : List (Call × Outcome)) (x : Call × Outcome) : slotState (h ++ [x]) =
    match x.2.created, x.2.vacated with
    | some _, _ => (match (slotState h).1 with
      | _ :: rest => (rest, (slotState h).2)
      | [] => ([], (slotState h).2 + 1))
    | none, some e => (e.index :: (slotState h).1, (slotState h).2)
    | none, none => slotState h := by
  unfold slotState
  rw [List.foldl_append]
  rfl

theorem liveCount_snoc (h : List (Call × Outcome)) (x : Call × Outcome) : liveCount (h ++ [x]) =
    match x.2.created, x.2.vacated with
    | some _, _ => ((liveCount h).1 + 1, max (liveCount h).2 ((liveCount h).1 + 1))
    | none, some _ => ((liveCount h).1 - 1, (liveCount h).2)
    | none, none => liveCount h := by
  unfold liveCount
  rw [List.foldl_append]
  rfl

theorem FreeList.length_le {t : EntityRegistry} {fl : List Nat} (h : FreeList env t fl) : fl.length ≤ t.entities.length := by
  have := h.2.1.length_le_of_subset (l₂ := List.range t.entities.length)
    (fun i hi => List.mem_range.mpr (h.1.mem_lt i hi))
  simpa using this

theorem SlotInv.step {t t' : EntityRegistry} {hist : List (Call × Outcome)} {call : Call} {out : Outcome}
    (hle : t.entities.length ≤ MAX_ENTITY_HANDLE_VALUE)
    (hi : SlotInv env t (slotState hist) (liveCount hist)) (h : TableStep env t t' out) :
    SlotInv env t' (slotState (hist ++ [(call, out)])) (liveCount (hist ++ [(call, out)])) ∧
      ∀ e, out.created = some e → e.index.toNat = nextSlot (slotState hist) := by
  obtain ⟨i1, i2, i3, i4, i5⟩ := hi
  rw [slotState_snoc, liveCount_snoc]
  unfold TableStep at h
  cases hc : out.created with
  | some e =>
    cases hv : out.vacated with
    | some e' => rw [hc, hv] at h; exact h.elim
    | none =>
      rw [hc, hv] at h
      obtain ⟨iia, ai, hcr⟩ := h
      have hpop := hcr.pop _ i1
      have hlen := hcr.length
      simp only []
      cases hst : (slotState hist).1 with
      | nil =>
        rw [hst] at i1 hpop i3
        have hn : t.nextFreeSlot = IndexInArchetype.INVALID_VALUE := i1.1
        have hidx := hcr.fresh hn
        refine ⟨⟨hpop, ?_, ?_, ?_, ?_⟩, ?_⟩
        · simp only []; omega
        · simp only [List.length_nil] at i3 ⊢; omega
        · simp only [List.length_nil] at i3 ⊢; omega
        · simp only []; omega
        · intro e' he'; cases he'
          unfold nextSlot; rw [hst]; simp only []; omega
      | cons i rest =>
        rw [hst] at i1 hpop i3
        have hlt := i1.1.mem_lt i.toNat (by simp)
        have hch : t.nextFreeSlot.toNat = i.toNat := i1.1.1
        have hidx : e.index = t.nextFreeSlot := by
          apply hcr.lifo
          intro hx
          have : t.nextFreeSlot.toNat = IndexInArchetype.INVALID_VALUE.toNat := congrArg _ hx
          have h2 : IndexInArchetype.INVALID_VALUE.toNat ≥ 16777215 := by decide
          have hM : MAX_ENTITY_HANDLE_VALUE = 16777215 := rfl
          omega
        have hidx' : e.index.toNat = i.toNat := by rw [hidx, hch]
        refine ⟨⟨hpop, ?_, ?_, ?_, ?_⟩, ?_⟩
        · simp only []; omega
        · simp only [List.length_cons] at i3 ⊢; omega
        · simp only [List.length_cons] at i3 ⊢; rw [Nat.max_def]; split <;> omega
        · simp only []; omega
        · intro e' he'; cases he'
          unfold nextSlot; rw [hst]; exact hidx'
  | none =>
    cases hv : out.vacated with
    | some e =>
      rw [hc, hv] at h
      obtain ⟨⟨en0, hen0⟩, m, hu, hd⟩ := h
      have hpush := hd.push _ (hu.freeList i1)
      have hl := FreeList.length_le hpush
      simp only [List.length_cons, List.length_map] at hl
      have h1 := hd.length
      have h2 := hu.length
      refine ⟨⟨hpush, ?_, ?_, ?_, ?_⟩, fun e he => by cases he⟩
      · simp only []; omega
      · simp only [List.length_cons]; omega
      · simp only []; omega
      · simp only []; omega
    | none =>
      rw [hc, hv] at h
      refine ⟨⟨h.freeList i1, ?_, i3, i4, i5⟩, fun e he => by cases he⟩
      rw [h.length]; exact i2

theorem Steps.slots {ok : Registry → Call → Prop} (hok : ∀ r call, ok r call → call.Admissible W r)
    {hist : List (Call × Outcome)} {r : Registry} (hs : Steps env ok Registry.default hist r) :
    SlotInv env r.entities (slotState hist) (liveCount hist) := by
  induction hs with
  | nil => exact SlotInv.start
  | snoc h1 h2 h3 ih =>
    obtain ⟨cs1, hcs⟩ := h1.inv hok (RInv.empty W)
    obtain ⟨cs2, hst⟩ := hcs.step (hok _ _ h2) h3
    exact (ih.step hcs.ents.len_le hst.table).1

/-- The number of entities iteration yields. -/
theorem liveFrom_length (l : List EntityEntry) : ∀ (n cur : Nat), l.length = cur + n →
    (liveFrom env l cur).length = (l.drop cur).countP (fun en => en.isValid env)
  | 0, cur, h => by rw [liveFrom_end (by omega), List.drop_eq_nil_of_le (by omega)]; rfl
  | n + 1, cur, h => by
    have hlt : cur < l.length := by omega
    rw [liveFrom_cons (List.getElem?_eq_getElem hlt), List.drop_eq_getElem_cons hlt, List.countP_cons]
    have ih := liveFrom_length l n (cur + 1) (by omega)
    split <;> simp_all

theorem count_free {t : EntityRegistry} {fl : List Nat} (h : FreeList env t fl) :
    (t.iter env).length + fl.length = t.entities.length := by
  rw [iter_eq, liveFrom_length _ t.entities.length 0 (by omega), List.drop_zero]
  have hfl : fl.length = t.entities.countP (fun en => !en.isValid env) := by
    have hp : fl.Perm ((List.range t.entities.length).filter (fun i => (t.entities[i]?).any (fun en => !en.isValid env))) := by
      rw [List.perm_ext_iff_of_nodup h.2.1 (List.nodup_range.filter _)]
      intro i
      rw [List.mem_filter, List.mem_range]
      constructor
      · intro hi
        have hlt := h.1.mem_lt i hi
        refine ⟨hlt, ?_⟩
        rw [List.getElem?_eq_getElem hlt]
        simpa using (h.2.2 i _ (List.getElem?_eq_getElem hlt)).mpr hi
      · rintro ⟨hlt, hx⟩
        rw [List.getElem?_eq_getElem hlt] at hx
        exact (h.2.2 i _ (List.getElem?_eq_getElem hlt)).mp (by simpa using hx)
    rw [hp.length_eq, ← List.countP_eq_length_filter]
    have : t.entities = (List.range t.entities.length).map (fun i => (t.entities[i]?).getD ⟨0, 0, 0, 0, 0, 0⟩) := by
      apply List.ext_getElem?
      intro i
      rw [List.getElem?_map]
      rcases Nat.lt_or_ge i t.entities.length with hlt | hge
      · rw [List.getElem?_eq_getElem hlt, List.getElem?_range hlt]; simp [hlt]
      · rw [List.getElem?_eq_none hge, List.getElem?_eq_none (by simpa using hge)]; rfl
    conv => rhs; rw [this]
    rw [List.countP_map]
    apply List.countP_congr
    intro i hi
    have hlt := List.mem_range.mp hi
    simp [hlt]
  rw [hfl, List.length_eq_countP_add_countP (fun en : EntityEntry => en.isValid env)]
  congr 1
  apply List.countP_congr
  intro en _
  simp

/-! ## Live handles -/

theorem Updated.live_slot {t t' : EntityRegistry} (h : Updated env t t') (x : Entity) :
    (∃ en, t'.entities[x.index.toNat]? = some en ∧ en.version = x.version ∧ en.isValid env = true) ↔
      ∃ en, t.entities[x.index.toNat]? = some en ∧ en.version = x.version ∧ en.isValid env = true := by
  constructor
  · rintro ⟨en', e1, e2, e3⟩
    have hlt := (List.getElem?_eq_some_iff.mp e1).1
    rw [h.length] at hlt
    obtain ⟨en1, u1, u2, u3, _⟩ := h.slot _ _ (List.getElem?_eq_getElem hlt)
    rw [u1] at e1; cases e1
    exact ⟨_, List.getElem?_eq_getElem hlt, by rw [← u2, e2], by rw [← u3, e3]⟩
  · rintro ⟨en, e1, e2, e3⟩
    obtain ⟨en1, u1, u2, u3, _⟩ := h.slot _ _ e1
    exact ⟨en1, u1, by rw [u2, e2], by rw [u3, e3]⟩

theorem RInv.live_slot (h : RInv W r cs) {e : Entity} : Live env r e ↔
    ∃ en, r.entities.entities[e.index.toNat]? = some en ∧ en.version = e.version ∧ en.isValid env = true := by
  rw [h.live_entry]
  constructor
  · rintro ⟨en, he⟩
    exact ⟨en, (EntityRegistry.entityEntry_iff h.ents.len_le _ _).mp he⟩
  · rintro ⟨en, he⟩
    exact ⟨en, (EntityRegistry.entityEntry_iff h.ents.len_le _ _).mpr he⟩

/-- The live handles after a call, in terms of those before it. -/
theorem StepInv.live {call : Call} {out : Outcome} (h : RInv W r cs) (hs : StepInv W r cs call out r' cs') (x : Entity) :
    Live env r' x ↔
      match out.created, out.vacated with
      | some e, _ => x = e ∨ Live env r x
      | none, some e => x ≠ e ∧ Live env r x
      | none, none => Live env r x := by
  have ht := hs.table
  unfold TableStep at ht
  rw [hs.inv.live_slot, h.live_slot]
  cases hc : out.created with
  | some e =>
    cases hv : out.vacated with
    | some e' => rw [hc, hv] at ht; exact ht.elim
    | none =>
      rw [hc, hv] at ht
      obtain ⟨iia, ai, hcr⟩ := ht
      simp only []
      by_cases hx : x.index = e.index
      · rw [hx]
        obtain ⟨en, n1, n2, n3, _⟩ := hcr.new
        rw [n1]
        constructor
        · rintro ⟨_, e1, e2, _⟩
          cases e1
          exact Or.inl (Entity.ext_iff.mpr ⟨hx, by rw [← e2, n2]⟩)
        · rintro (rfl | ⟨en0, o1, _, o3⟩)
          · exact ⟨en, rfl, n2, n3⟩
          · rcases hcr.old with ⟨o, _⟩ | ⟨en1, o, o', _⟩
            · rw [o] at o1; cases o1
            · rw [o] at o1; cases o1
              rw [o'] at o3; cases o3
      · rw [hcr.frame _ (fun hh => hx (UInt32.toNat_inj.mp hh))]
        constructor
        · exact fun hh => Or.inr hh
        · rintro (rfl | hh)
          · exact absurd rfl hx
          · exact hh
  | none =>
    cases hv : out.vacated with
    | some e =>
      rw [hc, hv] at ht
      obtain ⟨⟨en0, hen0⟩, m, hu, hd⟩ := ht
      obtain ⟨b1, b2, b3⟩ := (EntityRegistry.entityEntry_iff h.ents.len_le _ _).mp hen0
      simp only []
      by_cases hx : x.index = e.index
      · rw [hx]
        obtain ⟨en, n1, n2, n3⟩ := hd.new
        rw [n1, b1]
        constructor
        · rintro ⟨_, e1, _, e3⟩
          cases e1
          rw [n3] at e3; cases e3
        · rintro ⟨hne, _, e1, e2, _⟩
          cases e1
          exact absurd (Entity.ext_iff.mpr ⟨hx, by rw [← e2, b2]⟩) hne
      · rw [hd.frame _ (fun hh => hx (UInt32.toNat_inj.mp hh)), hu.live_slot]
        exact ⟨fun hh => ⟨fun hh' => hx (by rw [hh']), hh⟩, fun hh => hh.2⟩
    | none =>
      rw [hc, hv] at ht
      exact ht.live_slot x

theorem liveHandles_snoc (h : List (Call × Outcome)) (x : Call × Outcome) : liveHandles (h ++ [x]) =
    match x.2.created, x.2.vacated with
    | some e, _ => e :: liveHandles h
    | none, some e => (liveHandles h).erase e
    | none, none => liveHandles h := by
  unfold liveHandles
  rw [List.foldl_append]
  rfl

theorem StepInv.created_dead {call : Call} {out : Outcome} (h : RInv W r cs) (hs : StepInv W r cs call out r' cs')
    {e : Entity} (hc : out.created = some e) : ¬ Live env r e ∧ e ≠ Entity.INVALID := by
  have ht := hs.table
  have hl := hs.live h e
  unfold TableStep at ht
  rw [hc] at ht hl
  refine ⟨?_, ?_⟩
  · cases hv : out.vacated with
    | some e' => rw [hv] at ht; exact ht.elim
    | none =>
      rw [hv] at ht
      obtain ⟨iia, ai, hcr⟩ := ht
      rw [h.live_slot]
      rintro ⟨en, o1, _, o3⟩
      rcases hcr.old with ⟨o, _⟩ | ⟨en1, o, o', _⟩
      · rw [o] at o1; cases o1
      · rw [o] at o1; cases o1
        rw [o'] at o3; cases o3
  · rintro rfl
    exact hs.inv.invalid_dead (hl.mpr (Or.inl rfl))

theorem Steps.liveHandles {ok : Registry → Call → Prop} (hok : ∀ r call, ok r call → call.Admissible W r)
    {hist : List (Call × Outcome)} {r : Registry} (hs : Steps env ok Registry.default hist r) :
    (Shard.liveHandles hist).Nodup ∧ ∀ e, Live env r e ↔ e ∈ Shard.liveHandles hist := by
  induction hs with
  | nil =>
    refine ⟨List.nodup_nil, fun e => ?_⟩
    rw [(RInv.empty W).live_slot]
    simp [Registry.default, EntityRegistry.default, Shard.liveHandles]
  | snoc h1 h2 h3 ih =>
    rename_i r1 r2 call out
    obtain ⟨ih1, ih2⟩ := ih
    obtain ⟨cs1, hcs⟩ := h1.inv hok (RInv.empty W)
    obtain ⟨cs2, hst⟩ := hcs.step (hok _ _ h2) h3
    have hl := hst.live hcs
    rw [liveHandles_snoc]
    simp only []
    cases hc : out.created with
    | some e =>
      rw [hc] at hl
      simp only [] at hl ⊢
      refine ⟨List.nodup_cons.mpr ⟨fun hm => (hst.created_dead hcs hc).1 ((ih2 e).mpr hm), ih1⟩, fun x => ?_⟩
      rw [hl, ih2, List.mem_cons]
    | none =>
      rw [hc] at hl
      cases hv : out.vacated with
      | some e =>
        rw [hv] at hl
        simp only [] at hl ⊢
        refine ⟨ih1.erase e, fun x => ?_⟩
        rw [hl, ih2, ih1.mem_erase_iff]
      | none =>
        rw [hv] at hl
        exact ⟨ih1, fun x => (hl x).trans (ih2 x)⟩

end Shard
