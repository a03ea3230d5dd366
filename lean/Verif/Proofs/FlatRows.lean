import Verif.Proofs.FlatArchetype
/-!
# Flat memory: the functions that change, move and free the rows of an archetype
-/

set_option autoImplicit false

namespace Shard.Flat

variable {A : Allocator} {env : Env} {h h' h'' : Heap}

theorem setIndex_inv {α : Type} {l l' : List α} {i : Nat} {x : α} (hs : setIndex l i x = .ok l') :
    i < l.length ∧ l' = l.set i x := by
  unfold setIndex at hs
  split at hs
  · cases hs; exact ⟨by assumption, rfl⟩
  · cases hs

theorem setIndex_ok' {α : Type} {l : List α} {i : Nat} (hi : i < l.length) (x : α) : setIndex l i x = .ok (l.set i x) := by
  unfold setIndex; rw [if_pos hi]

theorem lt_of_get {α : Type} {l : List α} {i : Nat} {x : α} (hi : l[i]? = some x) : i < l.length := by
  rcases Nat.lt_or_ge i l.length with h1 | h1
  · exact h1
  · rw [List.getElem?_eq_none h1] at hi; cases hi

/-! ## The columns as a list -/

/-- The pointers `ea` and `ps` own blocks with the contents `oe` and `bs`. -/
def OwnC (h : Heap) (ea : Ptr) (oe : Option Obj) (ps : List Ptr) (bs : List (Option Block)) : Prop :=
  Own h (ea :: ps) (oe :: bs.map (Option.map blockObj))

theorem OwnC.col {ea : Ptr} {oe : Option Obj} {ps : List Ptr} {bs : List (Option Block)} (ho : OwnC h ea oe ps bs)
    {i : Nat} {ob : Option Block} (hi : bs[i]? = some ob) : ∃ p, ps[i]? = some p ∧ PRep h p (ob.map blockObj) := by
  obtain ⟨p, hp, hr⟩ := Own.ptr ho (i := i + 1) (o := ob.map blockObj) (by simp [hi])
  exact ⟨p, by simpa using hp, hr⟩

theorem OwnC.length {ea : Ptr} {oe : Option Obj} {ps : List Ptr} {bs : List (Option Block)} (ho : OwnC h ea oe ps bs) :
    ps.length = bs.length := by
  have := Own.len ho
  simpa using this

theorem OwnC.slot {ea : Ptr} {oe : Option Obj} {ps : List Ptr} {bs : List (Option Block)} (hw : h.WF)
    (ho : OwnC h ea oe ps bs) {i : Nat} {p q : Ptr} {ob : Option Block} (hi : ps[i]? = some p)
    (hs : Step h (Slot p) h' (Slot q)) (hq : PRep h' q (ob.map blockObj)) :
    OwnC h' ea oe (ps.set i q) (bs.set i ob) ∧ Step h (Fp (ea :: ps)) h' (Fp (ea :: ps.set i q)) := by
  have := Own.slot hw ho (i := i + 1) (by simpa using hi) hs hq
  simp only [List.set_cons_succ] at this
  refine ⟨?_, this.2⟩
  unfold OwnC
  rw [List.map_set]
  exact this.1

theorem OwnC.inPlace {ea : Ptr} {oe : Option Obj} {ps : List Ptr} {bs : List (Option Block)} (hw : h.WF)
    (ho : OwnC h ea oe ps bs) {i : Nat} {p : Ptr} {ob : Option Block} (hi : ps[i]? = some p)
    (hs : Step h (Slot p) h' (Slot p)) (hq : PRep h' p (ob.map blockObj)) :
    OwnC h' ea oe ps (bs.set i ob) ∧ Step h (Fp (ea :: ps)) h' (Fp (ea :: ps)) := by
  have := ho.slot hw hi hs hq
  rw [set_self hi] at this
  exact this

theorem ARep.ownC {fa : FArch} {a : Archetype} (hA : ARep h fa a) :
    OwnC h fa.entityAssociations (a.entityAssociations.map entObj) fa.pointers a.pointers := hA.own

/-- What the functions need of an archetype besides what they check. -/
structure Side (a : Archetype) : Prop where
  plen : a.pointers.length = MAX_COMPONENTS_PER_ENTITY
  col : ∀ {i : Nat} {d : ComponentDescriptor}, a.descriptor.components[i]? = some d →
    ∃ b, a.pointers[i]? = some (some b) ∧ b.bytes.length = d.size * a.capacity ∧ powerOfTwo b.align = true

/-! ## Writing rows -/

section
variable {fa : FArch} {a : Archetype}

theorem writeColumns_spec (hw : h.WF) (hA : ARep h fa a) {gd : ArchetypeDescriptor} {idx : Nat} {srcs : List (Option Val)}
    {ptrs : List (Option Block)} (hr : Archetype.writeColumns gd idx srcs a.pointers = .ok ptrs) :
    wp A (FArch.writeColumns gd idx srcs fa.pointers) h
      (fun _ h' => ARep h' fa { a with pointers := ptrs } ∧ Step h (Fp fa.all) h' (Fp fa.all)) := by
  refine wp_mono (wp_loop (τ := Unit) (R := fun _ bs _ h' => OwnC h' fa.entityAssociations
    (a.entityAssociations.map entObj) fa.pointers bs ∧ Step h (Fp fa.all) h' (Fp fa.all)) ?_ hr
    ⟨hA.ownC, Step.refl hw _⟩) (fun _ h' hR => ⟨⟨hA.desc, hA.count, hA.cap, hR.1⟩, hR.2⟩)
  intro i bs bs' _ h1 _ _ hR hf
  obtain ⟨ho, hs⟩ := hR
  obtain ⟨c, h2, hf2⟩ := ebind_inv hf
  obtain ⟨dst, h3, hf3⟩ := ebind_inv hf2
  obtain ⟨src, h4, hf4⟩ := ebind_inv hf3
  obtain ⟨cs, h5, hf5⟩ := ebind_inv hf4
  obtain ⟨b', h6, hf6⟩ := ebind_inv hf5
  obtain ⟨_, rfl⟩ := setIndex_inv hf6
  obtain ⟨b, rfl, h7, _⟩ := writeBytes_inv h6
  obtain ⟨p, hp, hrep⟩ := ho.col (indexUnchecked_inv h3)
  refine wp_then h2 (wp_then (indexUnchecked_ok' hp) (wp_bind (wp_mono (offset_spec hrep (n := c.size * idx)
    (by simp only [blockObj]; omega)) ?_)))
  rintro q hq ⟨rfl, rfl⟩
  refine wp_then h4 (wp_then h5 (wp_mono (writeBytes_spec hs.wf hrep h6) ?_))
  rintro _ h8 ⟨h9, h10⟩
  obtain ⟨h11, h12⟩ := ho.inPlace hs.wf hp h10 (ob := some b') h9
  exact ⟨h11, hs.trans h12⟩

theorem writeEntity_spec (hw : h.WF) (hA : ARep h fa a) {idx : Nat} {e : Entity} {g : Group} {vals : List Val}
    {a' : Archetype} (hr : a.writeEntityUnchecked env idx e g vals = .ok a') :
    wp A (fa.writeEntityUnchecked env idx e g vals) h
      (fun _ h' => ARep h' fa a' ∧ Step h (Fp fa.all) h' (Fp fa.all)) := by
  obtain ⟨_, h1, hr1⟩ := ebind_inv hr
  obtain ⟨_, h2, hr2⟩ := ebind_inv hr1
  obtain ⟨_, h3, hr3⟩ := ebind_inv hr2
  obtain ⟨ptrs, h4, hr4⟩ := ebind_inv hr3
  refine wp_then (by rw [hA.cap]; exact h1) (wp_then h2 (wp_then (by rw [hA.desc]; exact h3)
    (wp_bind (wp_mono (writeColumns_spec hw hA h4) ?_))))
  rintro _ h5 ⟨h6, h7⟩
  refine wp_mono (setEntityAt_spec h7.wf h6 hr4) ?_
  rintro _ h8 ⟨h9, h10⟩
  exact ⟨h9, h7.trans h10⟩

/-! ## Allocating, growing and freeing -/

theorem reallocBlock_spec (hA : A.Ok) (hw : h.WF) {p : Ptr} {b b' : Block} (hp : PRep h p (some (blockObj b)))
    (hal : powerOfTwo b.align = true) {old align new : Nat} (hr : reallocBlock env (some b) old align new = .ok b') :
    wp A (realloc A env p old align new) h (fun q h' => (q = Ptr.null ∧ Refusal A h') ∨
      (PRep h' q (some (blockObj b')) ∧ Step h (Slot p) h' (Slot q))) := by
  unfold reallocBlock at hr
  simp only at hr
  by_cases h1 : b.bytes.length ≠ old ∨ b.align ≠ align
  · rw [if_pos h1] at hr; cases hr
  rw [if_neg h1] at hr
  by_cases h2 : new = 0 ∧ ¬ env.zstAllocOk
  · rw [if_pos h2] at hr; cases hr
  rw [if_neg h2] at hr
  cases hr
  have h3 : b.bytes.length = old ∧ b.align = align :=
    ⟨Classical.byContradiction fun x => h1 (.inl x), Classical.byContradiction fun x => h1 (.inr x)⟩
  obtain ⟨rfl, rfl⟩ := h3
  refine wp_mono (realloc_spec hA hw hp hal h2) ?_
  rintro q h' (h4 | ⟨h4, h5, h6⟩)
  · exact .inl h4
  · refine .inr ⟨h4.congr rfl ?_ (fun k hk => ?_), ?_⟩
    · simp only [blockObj, List.length_append, List.length_take, List.length_replicate]; omega
    · have hk : k < new := hk
      show (if k < b.bytes.length then (b.bytes[k]?.join).map Cell.comp else none) =
        ((b.bytes.take new ++ List.replicate (new - b.bytes.length) none)[k]?.join).map Cell.comp
      by_cases hb : k < b.bytes.length
      · rw [if_pos hb, List.getElem?_append_left (by simp; omega), List.getElem?_take_of_lt hk]
      · rw [if_neg hb, List.getElem?_append_right (by simp; omega), List.getElem?_replicate]
        split <;> rfl
    · rw [slot_eq hp.1, slot_eq h4.1, h5]
      exact h6

theorem reallocEnts_spec (hA : A.Ok) (hw : h.WF) {p : Ptr} {l : List (Option Entity)} (hp : PRep h p (some (entObj l)))
    {new : Nat} (hn : 0 < new) :
    wp A (realloc A env p (4 * l.length) 4 (4 * new)) h (fun q h' => (q = Ptr.null ∧ Refusal A h') ∨
      (PRep h' q (some (entObj (l.take new ++ List.replicate (new - l.length) none))) ∧
        Step h (Slot p) h' (Slot q))) := by
  refine wp_mono (realloc_spec (env := env) (newSize := 4 * new) hA hw hp (show powerOfTwo 4 = true by decide) (by omega)) ?_
  rintro q h' (h4 | ⟨h4, h5, h6⟩)
  · exact .inl h4
  · refine .inr ⟨h4.congr rfl ?_ (fun k hk => ?_), ?_⟩
    · simp only [entObj, List.length_append, List.length_take, List.length_replicate]; omega
    · have hk : k < 4 * new := hk
      show (if k < 4 * l.length then (l[k / 4]?.join).map (fun e => Cell.ent e (k % 4)) else none) =
        ((l.take new ++ List.replicate (new - l.length) none)[k / 4]?.join).map (fun e => Cell.ent e (k % 4))
      by_cases hb : k < 4 * l.length
      · rw [if_pos hb, List.getElem?_append_left (by simp; omega), List.getElem?_take_of_lt (by omega)]
      · rw [if_neg hb, List.getElem?_append_right (by simp; omega), List.getElem?_replicate]
        split <;> rfl
    · rw [slot_eq hp.1, slot_eq h4.1, h5]
      exact h6

theorem deallocBlock_spec (hw : h.WF) {p : Ptr} {b : Block} (hp : PRep h p (some (blockObj b))) {size align : Nat}
    {u : Unit} (hr : deallocBlock (some b) size align = .ok u) :
    wp A (dealloc p size align) h (fun _ h' => Step h (Slot p) h' (Slot Ptr.null)) := by
  unfold deallocBlock at hr
  simp only at hr
  by_cases h1 : b.bytes.length ≠ size ∨ b.align ≠ align
  · rw [if_pos h1] at hr; cases hr
  have h3 : b.bytes.length = size ∧ b.align = align :=
    ⟨Classical.byContradiction fun x => h1 (.inl x), Classical.byContradiction fun x => h1 (.inr x)⟩
  obtain ⟨rfl, rfl⟩ := h3
  refine wp_mono (dealloc_spec hw hp) ?_
  intro _ h' h2
  rw [slot_eq hp.1, slot_null]
  exact h2

theorem prep_null {o : Option Obj} {p : Ptr} (hp : PRep h p o) : p.addr = 0 ↔ o = none := by
  cases o with
  | none => rw [show p = Ptr.null from hp]; simp [Ptr.null]
  | some o => simp [hp.1]

theorem deallocLoop_spec (hA : ARep h fa a) {oe : Option Obj} :
    ∀ (n i : Nat) {h1 : Heap} {ps : List Ptr} {bs : List (Option Block)} {r : List (Option Block) × Bool}, h1.WF →
    OwnC h1 fa.entityAssociations oe ps bs → a.deallocLoop n i bs = .ok r →
    wp A (fa.deallocLoop n i ps) h1 (fun r' h' => r'.2 = r.2 ∧ OwnC h' fa.entityAssociations oe r'.1 r.1 ∧
      Step h1 (Fp (fa.entityAssociations :: ps)) h' (Fp (fa.entityAssociations :: r'.1)))
  | 0, i, h1, ps, bs, r, hw1, ho, hr => by
    cases hr
    exact wp_pure ⟨rfl, ho, Step.refl hw1 _⟩
  | n + 1, i, h1, ps, bs, r, hw1, ho, hr => by
    unfold Archetype.deallocLoop at hr
    obtain ⟨ob, h2, hr2⟩ := ebind_inv hr
    obtain ⟨p, hp, hrep⟩ := ho.col (index_inv h2)
    unfold FArch.deallocLoop
    refine wp_then (index_ok' hp) ?_
    cases ob with
    | none =>
      cases hr2
      rw [if_pos ((prep_null hrep).2 rfl)]
      exact wp_pure ⟨rfl, ho, Step.refl hw1 _⟩
    | some b =>
      simp only at hr2
      obtain ⟨c, h3, hr3⟩ := ebind_inv hr2
      obtain ⟨u, h4, hr4⟩ := ebind_inv hr3
      rw [if_neg (fun x => by cases (prep_null hrep).1 x)]
      refine wp_then (by rw [hA.desc]; exact h3) (wp_bind (wp_mono (deallocBlock_spec hw1 hrep
        (by rw [hA.cap]; exact h4)) ?_))
      intro _ h5 h6
      obtain ⟨h7, h8⟩ := ho.slot hw1 hp h6 (ob := none) rfl
      refine wp_mono (deallocLoop_spec hA n (i + 1) h6.wf h7 hr4) ?_
      rintro r' h9 ⟨h10, h11, h12⟩
      exact ⟨h10, h11, h8.trans h12⟩

theorem dealloc_arch_spec (hw : h.WF) (hA : ARep h fa a) {a' : Archetype} (hr : a.dealloc = .ok a') :
    wp A fa.dealloc h (fun fa' h' => ARep h' fa' a' ∧ Step h (Fp fa.all) h' (Fp fa'.all)) := by
  unfold Archetype.dealloc at hr
  obtain ⟨r, h1, hr1⟩ := ebind_inv hr
  unfold FArch.dealloc
  refine wp_bind (wp_mono (deallocLoop_spec hA _ _ hw hA.ownC (by rw [hA.desc]; exact h1)) ?_)
  rintro r' h2 ⟨h3, h4, h5⟩
  rw [h3]
  by_cases hb : r.2 = true
  · rw [if_pos hb] at hr1 ⊢
    cases hr1
    exact wp_pure ⟨⟨hA.desc, hA.count, hA.cap, h4⟩, h5⟩
  · rw [if_neg hb] at hr1 ⊢
    cases he : a.entityAssociations with
    | none => rw [he] at hr1; cases hr1
    | some l =>
      rw [he] at hr1 h4
      simp only at hr1
      by_cases hl : l.length ≠ a.capacity
      · rw [if_pos hl] at hr1; cases hr1
      rw [if_neg hl] at hr1
      cases hr1
      have hl' : l.length = a.capacity := Classical.byContradiction hl
      have hp : PRep h2 fa.entityAssociations (some (entObj l)) := Own.rep h4 (i := 0) rfl rfl
      have hd := dealloc_spec (A := A) h5.wf hp
      simp only [entObj, hl', ← hA.cap] at hd
      refine wp_bind (wp_mono hd ?_)
      intro _ h6 h7
      have h8 : Step h2 (Slot fa.entityAssociations) h6 (Slot Ptr.null) := by
        rw [slot_eq hp.1, slot_null]; exact h7
      obtain ⟨h9, h10⟩ := Own.slot h5.wf h4 (i := 0) (p := fa.entityAssociations) (o := none) rfl h8 rfl
      exact wp_pure ⟨⟨hA.desc, hA.count, rfl, h9⟩, h5.trans h10⟩

theorem reallocColumns_spec (hAl : A.Ok) (hA : ARep h fa a) (hside : Side a) {h1 : Heap} {ea : Ptr} {oe : Option Obj}
    (hw1 : h1.WF) (ho : OwnC h1 ea oe fa.pointers a.pointers) {new : Nat} {ptrs : List (Option Block)}
    (hr : a.reallocColumns env new = .ok ptrs) :
    wp A (fa.reallocColumns A env new) h1 (fun ps h' => OwnC h' ea oe ps ptrs ∧
      Step h1 (Fp (ea :: fa.pointers)) h' (Fp (ea :: ps))) := by
  unfold FArch.reallocColumns
  rw [hA.desc, hA.cap]
  refine wp_mono (wp_loop (R := fun i bs ps h' => OwnC h' ea oe ps bs ∧
    Step h1 (Fp (ea :: fa.pointers)) h' (Fp (ea :: ps)) ∧ ∀ j, i ≤ j → bs[j]? = a.pointers[j]?) ?_ hr
    ⟨ho, Step.refl hw1 _, fun _ _ => rfl⟩) (fun _ _ hR => ⟨hR.1, hR.2.1⟩)
  rintro i bs bs' ps h2 _ _ ⟨ho, hs, hun⟩ hf
  obtain ⟨ob, h3, hf2⟩ := ebind_inv hf
  obtain ⟨c, h4, hf3⟩ := ebind_inv hf2
  obtain ⟨b', h5, hf4⟩ := ebind_inv hf3
  obtain ⟨hlt, rfl⟩ := setIndex_inv hf4
  obtain ⟨p, hp, hrep⟩ := ho.col (index_inv h3)
  cases ob with
  | none => cases h5
  | some b =>
    have hal : powerOfTwo b.align = true := by
      obtain ⟨b0, h6, _, h7⟩ := hside.col (index_inv h4)
      rw [← hun i (Nat.le_refl _), index_inv h3] at h6
      cases h6
      exact h7
    refine wp_then (index_ok' hp) (wp_then h4 (wp_bind (wp_mono (reallocBlock_spec hAl hs.wf hrep hal h5) ?_)))
    rintro q h6 (⟨rfl, hfail⟩ | ⟨h7, h8⟩)
    · exact wp_then (setIndex_ok' (lt_of_get hp) _) (wp_bind (wp_assert (fun x => absurd rfl x) (fun _ => hfail)))
    · refine wp_then (setIndex_ok' (lt_of_get hp) _) (wp_bind (wp_assert (fun _ => ?_) (fun x => absurd x h7.1)))
      obtain ⟨h9, h10⟩ := ho.slot hs.wf hp h8 (ob := some b') h7
      refine wp_pure ⟨h9, hs.trans h10, fun j hj => ?_⟩
      rw [List.getElem?_set_ne (by omega)]
      exact hun j (by omega)

theorem resizeCapacity_spec (hAl : A.Ok) (hw : h.WF) (hA : ARep h fa a) (hside : Side a) {change : Int} {a' : Archetype}
    (hr : a.resizeCapacity env change = .ok a') :
    wp A (fa.resizeCapacity A env change) h (fun fa' h' => ARep h' fa' a' ∧ Step h (Fp fa.all) h' (Fp fa'.all)) := by
  unfold Archetype.resizeCapacity at hr
  unfold FArch.resizeCapacity
  rw [hA.cap]
  simp only at hr ⊢
  by_cases hn : (a.capacity : Int) + change ≤ 0 ∨ (a.capacity : Int) + change ≥ (MAX_ENTITIES_PER_ARCHETYPE : Int)
  · rw [if_pos hn] at hr ⊢
    exact dealloc_arch_spec hw hA hr
  · rw [if_neg hn] at hr ⊢
    have hpos : 0 < ((a.capacity : Int) + change).toNat := by omega
    generalize ((a.capacity : Int) + change).toNat = new at hr hpos ⊢
    cases he : a.entityAssociations with
    | none => rw [he] at hr; cases hr
    | some l =>
      rw [he] at hr
      simp only at hr
      by_cases hl : l.length ≠ a.capacity
      · rw [if_pos hl] at hr; cases hr
      rw [if_neg hl] at hr
      have hl' : l.length = a.capacity := Classical.byContradiction hl
      obtain ⟨ptrs, h1, hr1⟩ := ebind_inv hr
      cases hr1
      have hp := hA.ents
      rw [he] at hp
      have hre := reallocEnts_spec (A := A) (env := env) hAl hw hp hpos
      rw [hl'] at hre
      refine wp_bind (wp_mono hre ?_)
      rintro q h2 (⟨rfl, hfail⟩ | ⟨h3, h4⟩)
      · exact wp_bind (wp_assert (fun x => absurd rfl x) (fun _ => hfail))
      · refine wp_bind (wp_assert (fun _ => ?_) (fun x => absurd x h3.1))
        obtain ⟨h5, h6⟩ := Own.slot hw hA.own (i := 0) (p := fa.entityAssociations) rfl h4 h3
        refine wp_bind (wp_mono (reallocColumns_spec hAl hA hside h4.wf h5 h1) ?_)
        rintro ps h7 ⟨h8, h9⟩
        exact wp_pure ⟨⟨hA.desc, hA.count, rfl, h8⟩, h6.trans h9⟩

theorem resizeIfNecessary_spec (hAl : A.Ok) (hw : h.WF) (hA : ARep h fa a) (hside : Side a) {a' : Archetype}
    (hr : a.resizeIfNecessary env = .ok a') :
    wp A (fa.resizeIfNecessary A env) h (fun fa' h' => ARep h' fa' a' ∧ Step h (Fp fa.all) h' (Fp fa'.all)) := by
  unfold Archetype.resizeIfNecessary Archetype.isFull at hr
  unfold FArch.resizeIfNecessary
  rw [hA.count, hA.cap]
  by_cases hf : (a.entityCount == a.capacity) = true
  · rw [if_pos hf] at hr ⊢
    exact resizeCapacity_spec hAl hw hA hside hr
  · rw [if_neg hf] at hr ⊢
    cases hr
    exact wp_pure ⟨hA, Step.refl hw _⟩

/-- The number of rows is not in memory. -/
theorem ARep.setCount (hA : ARep h fa a) (n : Nat) :
    ARep h { fa with entityCount := n } { a with entityCount := n } := ⟨hA.desc, rfl, hA.cap, hA.own⟩

theorem pushEntity_spec (hAl : A.Ok) (hw : h.WF) (hA : ARep h fa a) (hside : Side a) {e : Entity} {g : Group}
    {vals : List Val} {x : Archetype × Nat} (hr : a.pushEntityUnchecked env e g vals = .ok x) :
    wp A (fa.pushEntityUnchecked A env e g vals) h
      (fun y h' => y.2 = x.2 ∧ ARep h' y.1 x.1 ∧ Step h (Fp fa.all) h' (Fp y.1.all)) := by
  obtain ⟨_, h1, hr1⟩ := ebind_inv hr
  obtain ⟨_, h2, hr2⟩ := ebind_inv hr1
  obtain ⟨a1, h3, hr3⟩ := ebind_inv hr2
  obtain ⟨a2, h4, hr4⟩ := ebind_inv hr3
  cases hr4
  refine wp_then h1 (wp_then (by rw [hA.desc]; exact h2) (wp_bind (wp_mono (resizeIfNecessary_spec hAl hw hA hside h3) ?_)))
  rintro fa1 h5 ⟨h6, h7⟩
  have h8 := h6.setCount (fa1.entityCount + 1)
  rw [h6.count] at h8
  have h9 := writeEntity_spec (A := A) h7.wf h8 h4
  rw [← h6.count] at h9
  refine wp_bind (wp_mono h9 ?_)
  rintro _ h10 ⟨h11, h12⟩
  exact wp_pure ⟨h6.count, h11, h7.trans h12⟩

theorem pushUninitialized_spec (hAl : A.Ok) (hw : h.WF) (hA : ARep h fa a) (hside : Side a) {x : Archetype × Nat}
    (hr : a.pushUninitializedEntity env = .ok x) :
    wp A (fa.pushUninitializedEntity A env) h
      (fun y h' => y.2 = x.2 ∧ ARep h' y.1 x.1 ∧ Step h (Fp fa.all) h' (Fp y.1.all)) := by
  obtain ⟨a1, h3, hr3⟩ := ebind_inv hr
  cases hr3
  refine wp_bind (wp_mono (resizeIfNecessary_spec hAl hw hA hside h3) ?_)
  rintro fa1 h5 ⟨h6, h7⟩
  refine wp_pure ⟨h6.count, ?_, h7⟩
  have := h6.setCount (fa1.entityCount + 1)
  rw [h6.count] at this ⊢
  exact this

theorem decrementLen_spec (hA : ARep h fa a) {a' : Archetype} (hr : a.decrementLenUnchecked env = .ok a') :
    wp A (fa.decrementLenUnchecked env) h (fun fa' h' => (ARep h' fa' a' ∧ fa'.all = fa.all) ∧ h' = h) := by
  obtain ⟨n, h1, hr1⟩ := ebind_inv hr
  cases hr1
  exact wp_then (by rw [hA.count]; exact h1) (wp_pure ⟨⟨hA.setCount n, rfl⟩, rfl⟩)

theorem allocColumns_spec (hAl : A.Ok) {h1 : Heap} {d : ArchetypeDescriptor} {cap : Nat} {ea : Ptr} {oe : Option Obj}
    (hw1 : h1.WF) {ps : List Ptr} {bs ptrs : List (Option Block)} (ho : OwnC h1 ea oe ps bs)
    (hnone : ∀ i, i < bs.length → bs[i]? = some none)
    (hr : Archetype.allocColumns env d cap bs = .ok ptrs) :
    wp A (FArch.allocColumns A env d cap ps) h1 (fun ps' h' => OwnC h' ea oe ps' ptrs ∧
      Step h1 (Fp (ea :: ps)) h' (Fp (ea :: ps'))) := by
  refine wp_mono (wp_loop (R := fun i bs' ps' h' => OwnC h' ea oe ps' bs' ∧
    Step h1 (Fp (ea :: ps)) h' (Fp (ea :: ps')) ∧ bs'.length = bs.length ∧ ∀ j, i ≤ j → bs'[j]? = bs[j]?) ?_ hr
    ⟨ho, Step.refl hw1 _, rfl, fun _ _ => rfl⟩) (fun _ _ hR => ⟨hR.1, hR.2.1⟩)
  rintro i bs1 bs' ps1 h2 _ _ ⟨ho, hs, hlen, hun⟩ hf
  obtain ⟨c, h4, hf3⟩ := ebind_inv hf
  obtain ⟨b', h5, hf4⟩ := ebind_inv hf3
  obtain ⟨hlt, rfl⟩ := setIndex_inv hf4
  have hi : bs1[i]? = some none := by rw [hun i (Nat.le_refl _)]; exact hnone i (by omega)
  obtain ⟨p, hp, hrep⟩ := ho.col hi
  refine wp_then h4 (wp_bind (wp_mono (alloc_spec hAl hs.wf h5) ?_))
  rintro q h6 (⟨rfl, hfail⟩ | ⟨h7, h8, h8'⟩)
  · exact wp_then (setIndex_ok' (lt_of_get hp) _) (wp_bind (wp_assert (fun x => absurd rfl x) (fun _ => hfail)))
  · refine wp_then (setIndex_ok' (lt_of_get hp) _) (wp_bind (wp_assert (fun _ => ?_) (fun x => absurd x h7.1)))
    have hst : Step h2 (Slot p) h6 (Slot q) := by
      rw [show p = Ptr.null from hrep, slot_null, slot_eq h7.1, h8]; exact h8'
    obtain ⟨h9, h10⟩ := ho.slot hs.wf hp hst (ob := some b') h7
    refine wp_pure ⟨h9, hs.trans h10, by simp [hlen], fun j hj => ?_⟩
    rw [List.getElem?_set_ne (by omega)]
    exact hun j (by omega)

theorem fp_null (n : Nat) : Fp (Ptr.null :: List.replicate n Ptr.null) = fun _ => False := by
  funext id
  refine propext ⟨?_, False.elim⟩
  rintro ⟨p, hp, h0, _⟩
  rcases List.mem_cons.mp hp with rfl | hp
  · exact h0 rfl
  · rw [(List.mem_replicate.mp hp).2] at h0; exact h0 rfl

theorem own_null (h : Heap) (n : Nat) : Own h (Ptr.null :: List.replicate n Ptr.null)
    (none :: (List.replicate n none).map (Option.map blockObj)) := by
  have key : ∀ (i : Nat) (p : Ptr), (Ptr.null :: List.replicate n Ptr.null)[i]? = some p → p = Ptr.null := by
    intro i p hp
    rcases List.mem_cons.mp (List.mem_of_getElem? hp) with rfl | hp
    · rfl
    · exact (List.mem_replicate.mp hp).2
  refine ⟨by simp, ?_, ?_⟩
  · intro i p o hp ho
    rw [key i p hp]
    rcases List.mem_cons.mp (List.mem_of_getElem? ho) with rfl | ho
    · rfl
    · rw [List.map_replicate] at ho
      rw [(List.mem_replicate.mp ho).2]
      rfl
  · intro i j p q hp _ h0
    rw [key i p hp] at h0
    exact absurd rfl h0

theorem withCapacity_spec (hAl : A.Ok) (hw : h.WF) {d : ArchetypeDescriptor} {cap : Nat}
    (hr : Archetype.withCapacity env d cap = .ok a) :
    wp A (FArch.withCapacity A env d cap) h (fun fa h' => ARep h' fa a ∧ Step h (fun _ => False) h' (Fp fa.all)) := by
  obtain ⟨_, h1, hr1⟩ := ebind_inv hr
  unfold FArch.withCapacity
  refine wp_then h1 ?_
  simp only at hr1 ⊢
  have hs0 : Step h (fun _ => False) h (Fp (Ptr.null :: List.replicate MAX_COMPONENTS_PER_ENTITY Ptr.null)) := by
    rw [fp_null]; exact Step.refl hw _
  by_cases hc : cap > 0 ∧ cap ≤ MAX_ENTITIES_PER_ARCHETYPE
  · rw [if_pos hc] at hr1 ⊢
    obtain ⟨ptrs, h2, hr2⟩ := ebind_inv hr1
    cases hr2
    have hb : allocBlock env (4 * cap) 4 = .ok ⟨4, List.replicate (4 * cap) none⟩ := by
      unfold allocBlock
      rw [if_neg (by decide), if_neg (by omega)]
    refine wp_bind (wp_mono (alloc_spec hAl hw hb) ?_)
    rintro q h6 (⟨rfl, hfail⟩ | ⟨h7, h8, h8'⟩)
    · exact wp_bind (wp_assert (fun x => absurd rfl x) (fun _ => hfail))
    · refine wp_bind (wp_assert (fun _ => ?_) (fun x => absurd x h7.1))
      have h9 : PRep h6 q (some (entObj (List.replicate cap none))) := by
        refine h7.congr rfl (by simp [blockObj, entObj]) (fun k hk => ?_)
        simp only [blockObj, entObj, List.getElem?_replicate, List.length_replicate] at hk ⊢
        rw [if_pos hk, if_pos (by omega)]
        rfl
      have hst : Step h (Slot Ptr.null) h6 (Slot q) := by rw [slot_null, slot_eq h7.1, h8]; exact h8'
      obtain ⟨h10, h11⟩ := Own.slot hw (own_null h MAX_COMPONENTS_PER_ENTITY) (i := 0) (p := Ptr.null) rfl hst h9
      refine wp_bind (wp_mono (allocColumns_spec hAl h8'.wf h10 (fun i hi => ?_) h2) ?_)
      · rw [List.getElem?_replicate, if_pos (by simpa using hi)]
      · rintro ps h12 ⟨h13, h14⟩
        exact wp_pure ⟨⟨rfl, rfl, rfl, h13⟩, (hs0.trans h11).trans h14⟩
  · rw [if_neg hc] at hr1 ⊢
    cases hr1
    exact wp_pure ⟨⟨rfl, rfl, rfl, own_null h _⟩, hs0⟩

/-! ## Swapping and dropping rows -/

theorem swapColumns_spec (hw : h.WF) (hA : ARep h fa a) {i j : Nat} {ptrs : List (Option Block)}
    (hr : a.swapColumns i j = .ok ptrs) :
    wp A (fa.swapColumns i j) h
      (fun _ h' => ARep h' fa { a with pointers := ptrs } ∧ Step h (Fp fa.all) h' (Fp fa.all)) := by
  unfold FArch.swapColumns
  rw [hA.desc]
  refine wp_mono (wp_loop (τ := Unit) (R := fun _ bs _ h' => OwnC h' fa.entityAssociations
    (a.entityAssociations.map entObj) fa.pointers bs ∧ Step h (Fp fa.all) h' (Fp fa.all)) ?_ hr
    ⟨hA.ownC, Step.refl hw _⟩) (fun _ h' hR => ⟨⟨hA.desc, hA.count, hA.cap, hR.1⟩, hR.2⟩)
  intro k bs bs' _ h1 _ _ hR hf
  obtain ⟨ho, hs⟩ := hR
  obtain ⟨c, h2, hf2⟩ := ebind_inv hf
  obtain ⟨ob, h3, hf3⟩ := ebind_inv hf2
  obtain ⟨b', h4, hf4⟩ := ebind_inv hf3
  obtain ⟨_, rfl⟩ := setIndex_inv hf4
  obtain ⟨p, hp, hrep⟩ := ho.col (index_inv h3)
  have h4' := h4
  unfold Archetype.swapBytes at h4'
  by_cases hov : c.size ≠ 0 ∧ i * c.size < j * c.size + c.size ∧ j * c.size < i * c.size + c.size
  · rw [if_pos hov] at h4'; cases h4'
  rw [if_neg hov] at h4'
  obtain ⟨b1, h5, h6⟩ := ebind_inv h4'
  obtain ⟨b2, h7, _⟩ := ebind_inv h6
  obtain ⟨b, rfl, h8, _⟩ := readBytes_inv h5
  obtain ⟨_, hb, h9, _⟩ := readBytes_inv h7
  cases hb
  refine wp_then h2 (wp_then (index_ok' hp) (wp_bind (wp_mono (offset_spec hrep (n := i * c.size)
    (by simp only [blockObj]; omega)) ?_)))
  rintro q1 hq ⟨rfl, rfl⟩
  refine wp_bind (wp_mono (offset_spec hrep (n := j * c.size) (by simp only [blockObj]; omega)) ?_)
  rintro q2 hq' ⟨rfl, rfl⟩
  refine wp_mono (swapBytes_spec hs.wf hrep h4) ?_
  rintro _ h10 ⟨h11, h12⟩
  obtain ⟨h13, h14⟩ := ho.inPlace hs.wf hp h12 (ob := some b') h11
  exact ⟨h13, hs.trans h14⟩

theorem swapEntities_spec (hw : h.WF) (hA : ARep h fa a) {i j : Nat} {a' : Archetype} (hr : a.swapEntities i j = .ok a') :
    wp A (fa.swapEntities i j) h (fun _ h' => ARep h' fa a' ∧ Step h (Fp fa.all) h' (Fp fa.all)) := by
  obtain ⟨ptrs, h1, hr1⟩ := ebind_inv hr
  refine wp_bind (wp_mono (swapColumns_spec hw hA h1) ?_)
  rintro _ h2 ⟨h3, h4⟩
  refine wp_mono (swapEntityAt_spec h4.wf h3 hr1) ?_
  rintro _ h5 ⟨h6, h7⟩
  exact ⟨h6, h4.trans h7⟩

theorem forRange_ind {σ : Type} {R : σ → Prop} {f : Nat → σ → M σ} (hstep : ∀ i s s', R s → f i s = .ok s' → R s') :
    ∀ {n lo : Nat} {s s' : σ}, forRange lo n f s = .ok s' → R s → R s'
  | 0, _, s, s', hf, hR => by cases hf; exact hR
  | n + 1, lo, s, s', hf, hR => by
    unfold forRange at hf
    cases h1 : f lo s with
    | error e => rw [h1] at hf; cases hf
    | ok s1 =>
      rw [h1] at hf
      exact forRange_ind hstep hf (hstep _ _ _ hR h1)

/-- The columns have the same sizes and alignments. -/
def Shape (bs bs' : List (Option Block)) : Prop :=
  bs'.length = bs.length ∧ ∀ (i : Nat) (b : Block), bs[i]? = some (some b) →
    ∃ b', bs'[i]? = some (some b') ∧ b'.bytes.length = b.bytes.length ∧ b'.align = b.align

theorem Shape.refl (bs : List (Option Block)) : Shape bs bs := ⟨rfl, fun _ b hb => ⟨b, hb, rfl, rfl⟩⟩

theorem Shape.set {bs bs' : List (Option Block)} (hs : Shape bs bs') {i : Nat} {b b' : Block} (hi : bs'[i]? = some (some b))
    (hl : b'.bytes.length = b.bytes.length) (ha : b'.align = b.align) : Shape bs (bs'.set i (some b')) := by
  refine ⟨by rw [List.length_set]; exact hs.1, fun j c hc => ?_⟩
  obtain ⟨c', h1, h2, h3⟩ := hs.2 j c hc
  by_cases hj : j = i
  · subst hj
    rw [hi] at h1; cases h1
    exact ⟨b', List.getElem?_set_self (lt_of_get hi), hl.trans h2, ha.trans h3⟩
  · exact ⟨c', by rw [List.getElem?_set_ne (fun e => hj e.symm)]; exact h1, h2, h3⟩

theorem writeBytes_shape {b b' : Block} {off : Nat} {bs : List (Option TByte)} (hr : writeBytes (some b) off bs = .ok b') :
    b'.bytes.length = b.bytes.length ∧ b'.align = b.align := by
  obtain ⟨_, hb, h1, rfl⟩ := writeBytes_inv hr
  cases hb
  refine ⟨?_, rfl⟩
  simp only [List.length_append, List.length_take, List.length_drop]; omega

theorem swapBytes_shape {b b' : Block} {i j n : Nat} (hr : Archetype.swapBytes (some b) i j n = .ok b') :
    b'.bytes.length = b.bytes.length ∧ b'.align = b.align := by
  unfold Archetype.swapBytes at hr
  by_cases hov : n ≠ 0 ∧ i < j + n ∧ j < i + n
  · rw [if_pos hov] at hr; cases hr
  rw [if_neg hov] at hr
  obtain ⟨_, _, h2⟩ := ebind_inv hr
  obtain ⟨_, _, h3⟩ := ebind_inv h2
  obtain ⟨q, h4, h5⟩ := ebind_inv h3
  obtain ⟨e1, e2⟩ := writeBytes_shape h4
  obtain ⟨e3, e4⟩ := writeBytes_shape h5
  exact ⟨e3.trans e1, e4.trans e2⟩

theorem Side.shape (hside : Side a) {a' : Archetype} (hd : a'.descriptor = a.descriptor) (hc : a'.capacity = a.capacity)
    (hs : Shape a.pointers a'.pointers) : Side a' := by
  refine ⟨hs.1.trans hside.plen, fun {i d} hi => ?_⟩
  rw [hd] at hi
  obtain ⟨b, h1, h2, h3⟩ := hside.col hi
  obtain ⟨b', h4, h5, h6⟩ := hs.2 i b h1
  exact ⟨b', h4, by rw [h5, h2, hc], by rw [h6]; exact h3⟩

theorem swapEntities_side (hside : Side a) {i j : Nat} {a' : Archetype} (hr : a.swapEntities i j = .ok a') :
    Side a' ∧ a'.capacity = a.capacity ∧ a'.entityCount = a.entityCount := by
  obtain ⟨ptrs, h1, hr1⟩ := ebind_inv hr
  have hshape : Shape a.pointers ptrs := by
    refine forRange_ind (R := fun bs => Shape a.pointers bs) ?_ h1 (Shape.refl _)
    intro k bs bs' hs hf
    obtain ⟨c, h2, hf2⟩ := ebind_inv hf
    obtain ⟨ob, h3, hf3⟩ := ebind_inv hf2
    obtain ⟨b', h4, hf4⟩ := ebind_inv hf3
    obtain ⟨_, rfl⟩ := setIndex_inv hf4
    cases ob with
    | none =>
      unfold Archetype.swapBytes at h4
      split at h4 <;> cases h4
    | some b =>
      obtain ⟨e1, e2⟩ := swapBytes_shape h4
      exact hs.set (index_inv h3) e1 e2
  unfold Archetype.swapEntityAt at hr1
  cases he : a.entityAssociations with
  | none => simp only [he] at hr1; cases hr1
  | some l =>
    simp only [he] at hr1
    split at hr1
    · split at hr1
      · cases hr1
        exact ⟨hside.shape rfl rfl hshape, rfl, rfl⟩
      · cases hr1
    · cases hr1

theorem runDropHandler_spec (hw : h.WF) {p : Ptr} {b : Block} (hp : PRep h p (some (blockObj b))) {d : ComponentDescriptor}
    {off len : Nat} {vs : List Val} (hoff : off ≤ b.bytes.length)
    (hr : Archetype.runDropHandler d (some b) off len = .ok vs) :
    wp A (FArch.runDropHandler d (p.plus off) len) h (fun ws h' => ws = vs ∧ h' = h) := by
  unfold Archetype.runDropHandler at hr
  unfold FArch.runDropHandler
  cases hd : d.drop with
  | none =>
    rw [hd] at hr
    cases hr
    exact wp_pure ⟨rfl, rfl⟩
  | some f =>
    rw [hd] at hr
    exact readSlice_spec hw hp hoff hr

theorem dropEntity_spec (hw : h.WF) (hA : ARep h fa a) (hside : Side a) {idx : Nat} (hidx : idx ≤ a.capacity)
    {vs : List Val} (hr : a.dropEntity idx = .ok vs) :
    wp A (fa.dropEntity idx) h (fun ws h' => ws = vs ∧ h' = h) := by
  unfold FArch.dropEntity
  rw [hA.desc]
  refine wp_mono (wp_loop (R := fun _ xs ys h' => ys = xs ∧ h' = h) ?_ hr ⟨rfl, rfl⟩) (fun _ _ hR => hR)
  rintro i xs xs' ys h1 _ _ ⟨rfl, rfl⟩ hf
  obtain ⟨d, h2, hf2⟩ := ebind_inv hf
  obtain ⟨ob, h3, hf3⟩ := ebind_inv hf2
  obtain ⟨vs', h4, hf4⟩ := ebind_inv hf3
  cases hf4
  obtain ⟨b, h5, h6, _⟩ := hside.col (index_inv h2)
  rw [index_inv h3] at h5
  cases h5
  obtain ⟨p, hp, hrep⟩ := hA.col (index_inv h3)
  have hle : idx * d.size ≤ b.bytes.length := by rw [h6, Nat.mul_comm]; exact Nat.mul_le_mul_left _ hidx
  refine wp_then h2 (wp_then (index_ok' hp) (wp_bind (wp_mono (offset_spec hrep (n := idx * d.size) hle) ?_)))
  rintro q h7 ⟨rfl, rfl⟩
  refine wp_bind (wp_mono (runDropHandler_spec hw hrep hle h4) ?_)
  rintro ws h8 ⟨rfl, rfl⟩
  exact wp_pure ⟨rfl, rfl⟩

theorem dropEntities_spec (hw : h.WF) (hA : ARep h fa a) (hside : Side a)
    {vs : List Val} (hr : a.dropEntities = .ok vs) :
    wp A fa.dropEntities h (fun ws h' => ws = vs ∧ h' = h) := by
  unfold FArch.dropEntities
  rw [hA.desc, hA.count]
  refine wp_mono (wp_loop (R := fun _ xs ys h' => ys = xs ∧ h' = h) ?_ hr ⟨rfl, rfl⟩) (fun _ _ hR => hR)
  rintro i xs xs' ys h1 _ _ ⟨rfl, rfl⟩ hf
  obtain ⟨d, h2, hf2⟩ := ebind_inv hf
  obtain ⟨ob, h3, hf3⟩ := ebind_inv hf2
  obtain ⟨vs', h4, hf4⟩ := ebind_inv hf3
  cases hf4
  obtain ⟨b, h5, h6, _⟩ := hside.col (index_inv h2)
  rw [index_inv h3] at h5
  cases h5
  obtain ⟨p, hp, hrep⟩ := hA.col (index_inv h3)
  refine wp_then h2 (wp_then (index_ok' hp) ?_)
  refine wp_bind (wp_mono (runDropHandler_spec (off := 0) hw hrep (Nat.zero_le _) h4) ?_)
  rintro ws h8 ⟨rfl, rfl⟩
  exact wp_pure ⟨rfl, rfl⟩

theorem subU32_inv {m n k : Nat} (hr : subU32 env m n = .ok k) (hn : n ≤ m) : k = m - n := by
  unfold subU32 at hr
  rw [if_pos hn] at hr
  cases hr; rfl

theorem swapDrop_spec (hw : h.WF) (hA : ARep h fa a) (hside : Side a) {idx : Nat} (hidx : idx < a.entityCount)
    (hcap : a.entityCount ≤ a.capacity) {x : Archetype × Bool × List Val} (hr : a.swapDropUnchecked env idx = .ok x) :
    wp A (fa.swapDropUnchecked env idx) h (fun y h' => y.2 = x.2 ∧ ARep h' y.1 x.1 ∧ y.1.all = fa.all ∧
      Step h (Fp fa.all) h' (Fp fa.all)) := by
  obtain ⟨_, h1, hr1⟩ := ebind_inv hr
  obtain ⟨last, h2, hr2⟩ := ebind_inv hr1
  have hl := subU32_inv h2 (by omega)
  refine wp_then (by rw [hA.count]; exact h1) (wp_then (by rw [hA.count]; exact h2) ?_)
  by_cases hi : idx = last
  · rw [if_pos hi] at hr2 ⊢
    obtain ⟨vs, h3, hr3⟩ := ebind_inv hr2
    obtain ⟨n, h4, hr4⟩ := ebind_inv hr3
    cases hr4
    refine wp_bind (wp_mono (dropEntity_spec hw hA hside (by omega) h3) ?_)
    rintro ws h5 ⟨rfl, rfl⟩
    exact wp_then (by rw [hA.count]; exact h4) (wp_pure ⟨rfl, hA.setCount n, rfl, Step.refl hw _⟩)
  · rw [if_neg hi] at hr2 ⊢
    obtain ⟨a1, h3, hr3⟩ := ebind_inv hr2
    obtain ⟨last', h4, hr4⟩ := ebind_inv hr3
    obtain ⟨vs, h5, hr5⟩ := ebind_inv hr4
    obtain ⟨n, h6, hr6⟩ := ebind_inv hr5
    cases hr6
    obtain ⟨hs1, hs2, hs3⟩ := swapEntities_side hside h3
    have hl' := subU32_inv h4 (by omega)
    refine wp_bind (wp_mono (swapEntities_spec hw hA h3) ?_)
    rintro _ h7 ⟨h8, h9⟩
    refine wp_then (by rw [h8.count]; exact h4) (wp_bind (wp_mono (dropEntity_spec h9.wf h8 hs1 (by omega) h5) ?_))
    rintro ws h10 ⟨rfl, rfl⟩
    exact wp_then (by rw [h8.count]; exact h6) (wp_pure ⟨rfl, h8.setCount n, rfl, h9⟩)

theorem swapToLast_spec (hw : h.WF) (hA : ARep h fa a) {idx : Nat} {x : Archetype × Bool}
    (hr : a.swapToLastUnchecked env idx = .ok x) :
    wp A (fa.swapToLastUnchecked env idx) h (fun y h' => y = x.2 ∧ ARep h' fa x.1 ∧ Step h (Fp fa.all) h' (Fp fa.all)) := by
  obtain ⟨_, h1, hr1⟩ := ebind_inv hr
  obtain ⟨last, h2, hr2⟩ := ebind_inv hr1
  refine wp_then (by rw [hA.count]; exact h1) (wp_then (by rw [hA.count]; exact h2) ?_)
  by_cases hi : idx = last
  · rw [if_pos hi] at hr2 ⊢
    cases hr2
    exact wp_pure ⟨rfl, hA, Step.refl hw _⟩
  · rw [if_neg hi] at hr2 ⊢
    obtain ⟨a1, h3, hr3⟩ := ebind_inv hr2
    cases hr3
    refine wp_bind (wp_mono (swapEntities_spec hw hA h3) ?_)
    rintro _ h7 ⟨h8, h9⟩
    exact wp_pure ⟨rfl, h8, h9⟩

theorem offsetSorted_inB (hside : Side a) {idx : Nat} (hidx : idx ≤ a.capacity)
    (hcomps : a.descriptor.len ≤ a.descriptor.comps.length) :
    (∀ r, some r ∈ a.offsetSortedPointersUnchecked idx → InB a r) ∧
    (∀ i, i < a.descriptor.len → a.pointers.getD i none = none →
      (a.descriptor.comps.getD i ComponentDescriptor.INVALID).size * idx = 0) := by
  have key : ∀ i, i < a.descriptor.len → ∃ b, a.pointers[i]? = some (some b) ∧
      b.bytes.length = (a.descriptor.comps.getD i ComponentDescriptor.INVALID).size * a.capacity := by
    intro i hi
    have hd : a.descriptor.comps[i]? = some (a.descriptor.comps.getD i ComponentDescriptor.INVALID) := by
      rw [List.getD_eq_getElem?_getD, List.getElem?_eq_getElem (by omega)]; rfl
    obtain ⟨b, h1, h2, _⟩ := hside.col (i := i) (d := a.descriptor.comps.getD i ComponentDescriptor.INVALID) (by
      unfold ArchetypeDescriptor.components
      rw [List.getElem?_take_of_lt hi]
      exact hd)
    exact ⟨b, h1, h2⟩
  constructor
  · intro r hr
    unfold Archetype.offsetSortedPointersUnchecked at hr
    obtain ⟨i, _, h1⟩ := List.mem_map.mp hr
    by_cases hi : i < a.descriptor.len
    · rw [if_pos hi] at h1
      obtain ⟨b, h2, h3⟩ := key i hi
      rw [List.getD_eq_getElem?_getD, h2] at h1
      simp only [Option.getD_some, Option.some.injEq] at h1
      subst h1
      exact ⟨b, h2, by simp only; rw [h3]; exact Nat.mul_le_mul_left _ hidx⟩
    · rw [if_neg hi] at h1; cases h1
  · intro i hi h0
    obtain ⟨b, h2, h3⟩ := key i hi
    rw [List.getD_eq_getElem?_getD, h2] at h0
    cases h0

theorem swapRemove_spec (hw : h.WF) (hA : ARep h fa a) (hside : Side a) {idx : Nat} (hidx : idx < a.entityCount)
    (hcap : a.entityCount ≤ a.capacity) (hcomps : a.descriptor.len ≤ a.descriptor.comps.length) {g : Group}
    {x : Archetype × List Val × Bool} (hr : a.swapRemoveUnchecked env g idx = .ok x) :
    wp A (fa.swapRemoveUnchecked env g idx) h (fun y h' => y.2 = x.2 ∧ ARep h' y.1 x.1 ∧ y.1.all = fa.all ∧
      Step h (Fp fa.all) h' (Fp fa.all)) := by
  obtain ⟨_, h1, hr1⟩ := ebind_inv hr
  obtain ⟨last, h2, hr2⟩ := ebind_inv hr1
  have hl := subU32_inv h2 (by omega)
  refine wp_then (by rw [hA.count]; exact h1) (wp_then (by rw [hA.count]; exact h2) ?_)
  by_cases hi : idx = last
  · rw [if_pos hi] at hr2 ⊢
    obtain ⟨vs, h3, hr3⟩ := ebind_inv hr2
    obtain ⟨n, h4, hr4⟩ := ebind_inv hr3
    cases hr4
    obtain ⟨hb1, hb2⟩ := offsetSorted_inB hside (idx := idx) (by omega) hcomps
    refine wp_bind (wp_mono (readComponentsExact_spec hw hA hside.plen hb1 hb2 h3) ?_)
    rintro ws h5 ⟨rfl, rfl⟩
    exact wp_then (by rw [hA.count]; exact h4) (wp_pure ⟨rfl, hA.setCount n, rfl, Step.refl hw _⟩)
  · rw [if_neg hi] at hr2 ⊢
    obtain ⟨a1, h3, hr3⟩ := ebind_inv hr2
    obtain ⟨last', h4, hr4⟩ := ebind_inv hr3
    obtain ⟨vs, h5, hr5⟩ := ebind_inv hr4
    obtain ⟨n, h6, hr6⟩ := ebind_inv hr5
    cases hr6
    obtain ⟨hs1, hs2, hs3⟩ := swapEntities_side hside h3
    have hl' := subU32_inv h4 (by omega)
    refine wp_bind (wp_mono (swapEntities_spec hw hA h3) ?_)
    rintro _ h7 ⟨h8, h9⟩
    have hd : a1.descriptor = a.descriptor := by rw [← h8.desc, hA.desc]
    obtain ⟨hb1, hb2⟩ := offsetSorted_inB hs1 (idx := last') (by omega) (by rw [hd]; exact hcomps)
    refine wp_then (by rw [h8.count]; exact h4)
      (wp_bind (wp_mono (readComponentsExact_spec h9.wf h8 hs1.plen hb1 hb2 h5) ?_))
    rintro ws h10 ⟨rfl, rfl⟩
    exact wp_then (by rw [h8.count]; exact h6) (wp_pure ⟨rfl, h8.setCount n, rfl, h9⟩)

/-! ## Moving a row to another archetype -/

theorem copyCommonInner_spec {fs fd : FArch} {src dst : Archetype} (hd : fd.descriptor = dst.descriptor)
    (hdis : ∀ id, Fp fs.all id → ¬ Fp fd.all id) {si di : Nat} {sc : ComponentDescriptor} {srcIdx : Nat} {h0 : Heap}
    {oe : Option Obj} {bs0 bs1 : List (Option Block)} (hw : h.WF) (hS : ARep h fs src)
    (ho : OwnC h fd.entityAssociations oe fd.pointers bs0) (hs0 : Step h0 (Fp fd.all) h (Fp fd.all))
    (hr : Archetype.copyCommonInner src srcIdx dst di si sc bs0 = .ok bs1) :
    wp A (FArch.copyCommonInner fs srcIdx fd di si sc) h (fun _ h' => ARep h' fs src ∧
      OwnC h' fd.entityAssociations oe fd.pointers bs1 ∧ Step h0 (Fp fd.all) h' (Fp fd.all)) := by
  unfold FArch.copyCommonInner
  rw [hd]
  refine wp_loop (τ := Unit) (R := fun _ bs _ h' => ARep h' fs src ∧
    OwnC h' fd.entityAssociations oe fd.pointers bs ∧ Step h0 (Fp fd.all) h' (Fp fd.all)) ?_ hr ⟨hS, ho, hs0⟩
  rintro i bs bs' _ h1 _ _ ⟨hS, ho, hs⟩ hf
  obtain ⟨dc, h2, hf2⟩ := ebind_inv hf
  refine wp_then h2 ?_
  by_cases hid : sc.id ≠ dc.id
  · rw [if_pos hid] at hf2 ⊢
    cases hf2
    exact wp_pure ⟨hS, ho, hs⟩
  · rw [if_neg hid] at hf2 ⊢
    obtain ⟨sp, h3, hf3⟩ := ebind_inv hf2
    obtain ⟨dp, h4, hf4⟩ := ebind_inv hf3
    obtain ⟨cs, h5, hf5⟩ := ebind_inv hf4
    obtain ⟨b', h6, hf6⟩ := ebind_inv hf5
    obtain ⟨_, rfl⟩ := setIndex_inv hf6
    obtain ⟨b, rfl, h7, _⟩ := readBytes_inv h5
    obtain ⟨c, rfl, h8, _⟩ := writeBytes_inv h6
    obtain ⟨p, hp, hrp⟩ := hS.col (index_inv h3)
    obtain ⟨q, hq, hrq⟩ := ho.col (index_inv h4)
    have hne : p.prov ≠ q.prov := by
      intro he
      exact hdis p.prov ⟨p, List.mem_cons_of_mem _ (List.mem_of_getElem? hp), hrp.1, rfl⟩
        ⟨q, List.mem_cons_of_mem _ (List.mem_of_getElem? hq), hrq.1, he⟩
    refine wp_then (index_ok' hp) (wp_bind (wp_mono (offset_spec hrp (n := sc.size * srcIdx)
      (by simp only [blockObj]; omega)) ?_))
    rintro q1 hq1 ⟨rfl, rfl⟩
    refine wp_then (index_ok' hq) (wp_bind (wp_mono (offset_spec hrq (n := dc.size * di)
      (by simp only [blockObj]; omega)) ?_))
    rintro q2 hq2 ⟨rfl, rfl⟩
    refine wp_mono (copyBytes_spec hs.wf hrp hrq hne h5 h6) ?_
    rintro _ h9 ⟨h10, h11⟩
    obtain ⟨h12, h13⟩ := ho.inPlace hs.wf hq h11 (ob := some b') h10
    exact ⟨⟨hS.desc, hS.count, hS.cap, hS.own.frame hs.wf h13 hdis⟩, h12, hs.trans h13⟩

theorem copyCommon_spec {fs fd : FArch} {src dst dst' : Archetype} (hw : h.WF) (hS : ARep h fs src) (hD : ARep h fd dst)
    (hdis : ∀ id, Fp fs.all id → ¬ Fp fd.all id) {i j : Nat} (hr : Archetype.copyCommonComponents src i dst j = .ok dst') :
    wp A (FArch.copyCommonComponents fs i fd j) h (fun _ h' => ARep h' fs src ∧ ARep h' fd dst' ∧
      Step h (Fp fd.all) h' (Fp fd.all)) := by
  obtain ⟨ptrs, h1, hr1⟩ := ebind_inv hr
  cases hr1
  unfold FArch.copyCommonComponents
  rw [hS.desc]
  refine wp_mono (wp_loop (τ := Unit) (R := fun _ bs _ h' => ARep h' fs src ∧
    OwnC h' fd.entityAssociations (dst.entityAssociations.map entObj) fd.pointers bs ∧
    Step h (Fp fd.all) h' (Fp fd.all)) ?_ h1 ⟨hS, hD.ownC, Step.refl hw _⟩)
    (fun _ h' hR => ⟨hR.1, ⟨hD.desc, hD.count, hD.cap, hR.2.1⟩, hR.2.2⟩)
  rintro k bs bs' _ h2 _ _ ⟨hS, ho, hs⟩ hf
  obtain ⟨sc, h3, hf2⟩ := ebind_inv hf
  exact wp_then h3 (copyCommonInner_spec hD.desc hdis hs.wf hS ho hs hf2)

/-! ## Dropping an archetype -/

theorem drop_arch_spec (hw : h.WF) (hA : ARep h fa a) (hside : Side a) (hcap : a.capacity ≠ 0)
    {x : List Val × Archetype} (hr : a.drop = .ok x) (hnull : ∀ o ∈ objs x.2, o = none) :
    wp A fa.drop h (fun ws h' => ws = x.1 ∧ Step h (Fp fa.all) h' (fun _ => False)) := by
  unfold Archetype.drop at hr
  unfold FArch.drop
  rw [hA.cap]
  rw [if_neg hcap] at hr ⊢
  obtain ⟨vs, h1, hr1⟩ := ebind_inv hr
  obtain ⟨a1, h2, hr2⟩ := ebind_inv hr1
  cases hr2
  refine wp_bind (wp_mono (dropEntities_spec hw hA hside h1) ?_)
  rintro ws h3 ⟨rfl, rfl⟩
  refine wp_bind (wp_mono (dealloc_arch_spec hw hA h2) ?_)
  rintro fa' h4 ⟨h5, h6⟩
  refine wp_pure ⟨rfl, h6.congr (fun _ => Iff.rfl) (fun id => ⟨?_, False.elim⟩)⟩
  rintro ⟨p, hp, h0, _⟩
  obtain ⟨i, hi⟩ := List.getElem?_of_mem hp
  obtain ⟨o, ho, hrep⟩ := h5.own.obj hi
  rw [hnull o (List.mem_of_getElem? ho)] at hrep
  rw [show p = Ptr.null from hrep] at h0
  exact h0 rfl

end

end Shard.Flat
