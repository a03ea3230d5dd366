import Verif.Spec.Ordinary
import Verif.Proofs.FlatRegistry
/-!
# Which calls move blocks

Facts about successful runs on addresses that hold for all inputs: what leaves the allocator alone, and what happens to the
pointers of every archetype.
-/

set_option autoImplicit false

namespace Shard.Flat

variable {α β σ : Type} {A : Allocator} {env : Env} {h h' : Heap}

/-! ## Runs that succeed -/

/-- If `x` succeeds, `Q` holds of its result. -/
def Tri (x : FM α) (h : Heap) (Q : α → Heap → Prop) : Prop := ∀ a h', x h = (.ok a, h') → Q a h'

theorem Tri.pure {a : α} {Q : α → Heap → Prop} (hq : Q a h) : Tri (Pure.pure a) h Q := by
  intro b k hb
  cases hb
  exact hq

theorem Tri.bind {x : FM α} {f : α → FM β} {Q : β → Heap → Prop} (hx : Tri x h (fun a k => Tri (f a) k Q)) :
    Tri (x >>= f) h Q := by
  intro b k hb
  rcases hr : x h with ⟨_ | a, k1⟩
  · rw [bind_error hr] at hb; cases hb
  · rw [bind_ok hr] at hb
    exact hx _ _ hr _ _ hb

theorem Tri.mono {x : FM α} {P Q : α → Heap → Prop} (hx : Tri x h P) (hpq : ∀ a k, P a k → Q a k) : Tri x h Q :=
  fun a k ha => hpq a k (hx a k ha)

theorem Tri.lift {m : M α} {Q : α → Heap → Prop} (hq : ∀ a, m = .ok a → Q a h) : Tri (liftM m : FM α) h Q := by
  intro a k ha
  cases m with
  | error e => cases ha
  | ok b => cases ha; exact hq _ rfl

/-- Nothing is requested from the allocator or given back. -/
def Idle (h h' : Heap) : Prop := h'.next = h.next ∧ h'.allocs = h.allocs

theorem Idle.refl (h : Heap) : Idle h h := ⟨rfl, rfl⟩

theorem Idle.trans {h'' : Heap} (a : Idle h h') (b : Idle h' h'') : Idle h h'' := ⟨b.1.trans a.1, b.2.trans a.2⟩

/-- A computation that leaves the allocator alone. -/
def Quiet (x : FM α) : Prop := ∀ h, Tri x h (fun _ h' => Idle h h')

theorem Quiet.pure (a : α) : Quiet (Pure.pure a : FM α) := fun _ => Tri.pure (Idle.refl _)

theorem Quiet.lift (m : M α) : Quiet (liftM m : FM α) := fun _ => Tri.lift (fun _ _ => Idle.refl _)

theorem Quiet.bind {x : FM α} {f : α → FM β} (hx : Quiet x) (hf : ∀ a, Quiet (f a)) : Quiet (x >>= f) := fun h =>
  Tri.bind ((hx h).mono (fun a k hk => (hf a k).mono (fun _ _ hk' => hk.trans hk')))

theorem Quiet.ite {p : Prop} [Decidable p] {x y : FM α} (hx : Quiet x) (hy : Quiet y) : Quiet (if p then x else y) := by
  split
  · exact hx
  · exact hy

theorem Quiet.loop {f : Nat → σ → FM σ} (hf : ∀ i s, Quiet (f i s)) : ∀ (n lo : Nat) (s : σ), Quiet (loop lo n f s)
  | 0, _, s => Quiet.pure s
  | n + 1, lo, s => Quiet.bind (hf lo s) (fun s' => Quiet.loop hf n (lo + 1) s')

theorem Quiet.mapLoop {f : Nat → FM α} (hf : ∀ i, Quiet (f i)) : ∀ (n lo : Nat), Quiet (mapLoop lo n f)
  | 0, _ => Quiet.pure []
  | n + 1, lo => Quiet.bind (hf lo) (fun _ => Quiet.bind (Quiet.mapLoop hf n (lo + 1)) (fun _ => Quiet.pure _))

/-- Stuck by a fault. -/
theorem Quiet.fault (e : Fault) : Quiet (fun h => (.error e, h) : FM α) := by
  intro h a k ha
  cases ha

theorem Quiet.offset (p : Ptr) (n : Nat) : Quiet (offset p n) := by
  intro h a k ha
  unfold Flat.offset at ha
  split at ha <;> cases ha
  exact Idle.refl _

theorem Quiet.readCells (p : Ptr) (n : Nat) : Quiet (readCells p n) := by
  intro h a k ha
  unfold Flat.readCells at ha
  split at ha
  · cases ha
  · split at ha <;> cases ha
    exact Idle.refl _

theorem Quiet.writeCells (p : Ptr) (cs : List (Option Cell)) : Quiet (writeCells p cs) := by
  intro h a k ha
  unfold Flat.writeCells at ha
  split at ha
  · cases ha
  · split at ha <;> cases ha
    exact ⟨rfl, rfl⟩

theorem Quiet.assertNonNull (p : Ptr) : Quiet (assertNonNull p) := Quiet.lift _

theorem Quiet.checkRef (p : Ptr) (n : Nat) : Quiet (checkRef p n) := Quiet.bind (Quiet.lift _) (fun _ => Quiet.lift _)

theorem Quiet.copy (p q : Ptr) (n : Nat) : Quiet (copyNonoverlapping p q n) :=
  Quiet.bind (Quiet.lift _) (fun _ => Quiet.bind (Quiet.readCells _ _) (fun _ => Quiet.writeCells _ _))

theorem Quiet.swap (p q : Ptr) (n : Nat) : Quiet (swapNonoverlapping p q n) :=
  Quiet.bind (Quiet.lift _) (fun _ => Quiet.bind (Quiet.readCells _ _) (fun _ => Quiet.bind (Quiet.readCells _ _) (fun _ =>
    Quiet.bind (Quiet.writeCells _ _) (fun _ => Quiet.writeCells _ _))))

theorem Quiet.readVal (p : Ptr) (ty size align : Nat) : Quiet (readVal p ty size align) :=
  Quiet.bind (Quiet.checkRef _ _) (fun _ => Quiet.bind (Quiet.readCells _ _) (fun _ =>
    Quiet.bind (Quiet.lift _) (fun _ => Quiet.lift _)))

theorem Quiet.writeVal (p : Ptr) (align : Nat) (v : Val) : Quiet (writeVal p align v) :=
  Quiet.bind (Quiet.checkRef _ _) (fun _ => Quiet.writeCells _ _)

theorem Quiet.rawSlice (p : Ptr) (size align len : Nat) : Quiet (rawSlice p size align len) := by
  refine Quiet.bind (Quiet.checkRef _ _) (fun _ => ?_)
  intro h a k ha
  simp only at ha
  split at ha <;> cases ha
  exact Idle.refl _

theorem Quiet.readSlice (p : Ptr) (ty size align len : Nat) : Quiet (readSlice p ty size align len) :=
  Quiet.bind (Quiet.rawSlice _ _ _ _) (fun _ => Quiet.mapLoop (fun _ => Quiet.readVal _ _ _ _) _ _)

/-! ## The functions of an archetype that leave the allocator alone -/

namespace FArch

theorem componentPtr_quiet (a : FArch) (c : CompTy) (i : Nat) : Quiet (a.componentPtr c i) := by
  unfold componentPtr
  split
  · exact Quiet.bind (Quiet.lift _) (fun _ => Quiet.offset _ _)
  · exact Quiet.fault _

theorem readComponentUnchecked_quiet (a : FArch) (c : CompTy) (i : Nat) : Quiet (a.readComponentUnchecked c i) :=
  Quiet.bind (componentPtr_quiet _ _ _) (fun _ => Quiet.readVal _ _ _ _)

theorem getComponentUncheckedMut_quiet (a : FArch) (c : CompTy) (i : Nat) : Quiet (a.getComponentUncheckedMut c i) :=
  Quiet.bind (componentPtr_quiet _ _ _) (fun _ => Quiet.bind (Quiet.readVal _ _ _ _) (fun _ => Quiet.pure _))

theorem writeSingleComponentUnchecked_quiet (a : FArch) (c : CompTy) (i : Nat) (v : Val) :
    Quiet (a.writeSingleComponentUnchecked c i v) :=
  Quiet.bind (componentPtr_quiet _ _ _) (fun _ => Quiet.writeVal _ _ _)

theorem getFuzzyPointersUnchecked_quiet (a : FArch) (g : Group) (off : Nat) :
    Quiet (a.getFuzzyPointersUnchecked env g off) := by
  refine Quiet.mapLoop (fun i => ?_) _ _
  split
  · exact Quiet.pure _
  · split
    · exact Quiet.pure _
    · exact Quiet.bind (Quiet.lift _) (fun _ => Quiet.offset _ _)

theorem derefTuple_quiet : ∀ l : List (CompTy × Ptr), Quiet (derefTuple l)
  | [] => Quiet.pure _
  | (_, _) :: l => Quiet.bind (Quiet.readVal _ _ _ _) (fun _ => Quiet.bind (derefTuple_quiet l) (fun _ => Quiet.pure _))

theorem readSlices_quiet : ∀ l : List FSlice, Quiet (readSlices l)
  | [] => Quiet.pure _
  | _ :: l => Quiet.bind (Quiet.readSlice _ _ _ _ _) (fun _ => Quiet.bind (readSlices_quiet l) (fun _ => Quiet.pure _))

theorem getFuzzyComponentsUncheckedMut_quiet (a : FArch) (g : Group) (i : Nat) :
    Quiet (a.getFuzzyComponentsUncheckedMut env g i) :=
  Quiet.bind (Quiet.lift _) (fun _ => Quiet.bind (getFuzzyPointersUnchecked_quiet _ _ _) (fun _ =>
    Quiet.bind (derefTuple_quiet _) (fun _ => Quiet.pure _)))

theorem getSlicesUncheckedExactMut_quiet (a : FArch) (g : Group) : Quiet (a.getSlicesUncheckedExactMut env g) :=
  Quiet.bind (Quiet.lift _) (fun _ => Quiet.bind (readSlices_quiet _) (fun _ => Quiet.pure _))

theorem getFuzzySlicesUncheckedMut_quiet (a : FArch) (g : Group) : Quiet (a.getFuzzySlicesUncheckedMut env g) :=
  Quiet.bind (Quiet.lift _) (fun _ => Quiet.bind (getFuzzyPointersUnchecked_quiet _ _ _) (fun _ =>
    Quiet.bind (readSlices_quiet _) (fun _ => Quiet.pure _)))

theorem readEntity_quiet (a : FArch) (i : Nat) : Quiet (a.readEntity i) :=
  Quiet.bind (Quiet.readCells _ _) (fun _ => Quiet.lift _)

theorem entities_quiet (a : FArch) : Quiet a.entities :=
  Quiet.bind (Quiet.rawSlice _ _ _ _) (fun _ => Quiet.mapLoop (readEntity_quiet a) _ _)

theorem entityAt_quiet (a : FArch) (i : Nat) : Quiet (a.entityAt i) :=
  Quiet.bind (Quiet.rawSlice _ _ _ _) (fun _ => Quiet.bind (Quiet.lift _) (fun _ => readEntity_quiet a i))

theorem entityAtUnchecked_quiet (a : FArch) (i : Nat) : Quiet (a.entityAtUnchecked i) :=
  Quiet.bind (Quiet.rawSlice _ _ _ _) (fun _ => Quiet.bind (Quiet.lift _) (fun _ => readEntity_quiet a i))

theorem setEntityAt_quiet (a : FArch) (i : Nat) (e : Entity) : Quiet (a.setEntityAt i e) :=
  Quiet.bind (Quiet.rawSlice _ _ _ _) (fun _ => Quiet.bind (Quiet.lift _) (fun _ => Quiet.writeCells _ _))

theorem swapEntityAt_quiet (a : FArch) (i j : Nat) : Quiet (a.swapEntityAt i j) :=
  Quiet.bind (Quiet.rawSlice _ _ _ _) (fun _ => Quiet.bind (Quiet.lift _) (fun _ => Quiet.bind (Quiet.readCells _ _) (fun _ =>
    Quiet.bind (Quiet.readCells _ _) (fun _ => Quiet.bind (Quiet.writeCells _ _) (fun _ => Quiet.writeCells _ _)))))

theorem getEntityFuzzySlicesUncheckedMut_quiet (a : FArch) (g : Group) :
    Quiet (a.getEntityFuzzySlicesUncheckedMut env g) :=
  Quiet.bind (Quiet.lift _) (fun _ => Quiet.bind (entities_quiet a) (fun _ =>
    Quiet.bind (getFuzzyPointersUnchecked_quiet _ _ _) (fun _ => Quiet.bind (readSlices_quiet _) (fun _ => Quiet.pure _))))

theorem writeColumns_quiet (d : ArchetypeDescriptor) (i : Nat) (srcs : List (Option Val)) (ps : List Ptr) :
    Quiet (writeColumns d i srcs ps) :=
  Quiet.loop (fun _ _ => Quiet.bind (Quiet.lift _) (fun _ => Quiet.bind (Quiet.lift _) (fun _ =>
    Quiet.bind (Quiet.offset _ _) (fun _ => Quiet.bind (Quiet.lift _) (fun _ => Quiet.bind (Quiet.lift _) (fun _ =>
      Quiet.writeCells _ _)))))) _ _ _

theorem writeEntityUnchecked_quiet (a : FArch) (i : Nat) (e : Entity) (g : Group) (vals : List Val) :
    Quiet (a.writeEntityUnchecked env i e g vals) :=
  Quiet.bind (Quiet.lift _) (fun _ => Quiet.bind (Quiet.lift _) (fun _ => Quiet.bind (Quiet.lift _) (fun _ =>
    Quiet.bind (writeColumns_quiet _ _ _ _) (fun _ => setEntityAt_quiet _ _ _))))

theorem swapEntities_quiet (a : FArch) (i j : Nat) : Quiet (a.swapEntities i j) :=
  Quiet.bind (Quiet.loop (fun _ _ => Quiet.bind (Quiet.lift _) (fun _ => Quiet.bind (Quiet.lift _) (fun _ =>
    Quiet.bind (Quiet.offset _ _) (fun _ => Quiet.bind (Quiet.offset _ _) (fun _ => Quiet.swap _ _ _))))) _ _ _)
    (fun _ => swapEntityAt_quiet _ _ _)

theorem runDropHandler_quiet (d : ComponentDescriptor) (p : Ptr) (n : Nat) : Quiet (runDropHandler d p n) := by
  unfold runDropHandler
  split
  · exact Quiet.pure _
  · exact Quiet.readSlice _ _ _ _ _

theorem dropEntity_quiet (a : FArch) (i : Nat) : Quiet (a.dropEntity i) :=
  Quiet.loop (fun _ _ => Quiet.bind (Quiet.lift _) (fun _ => Quiet.bind (Quiet.lift _) (fun _ =>
    Quiet.bind (Quiet.offset _ _) (fun _ => Quiet.bind (runDropHandler_quiet _ _ _) (fun _ => Quiet.pure _))))) _ _ _

theorem readComponentsExactUnchecked_quiet (a : FArch) (g : Group) (i : Nat) :
    Quiet (a.readComponentsExactUnchecked env g i) := by
  refine Quiet.bind (Quiet.mapLoop (fun k => ?_) _ _) (fun _ => derefTuple_quiet _)
  exact Quiet.ite (Quiet.offset _ _) (Quiet.pure _)

theorem swapToLastUnchecked_quiet (a : FArch) (i : Nat) : Quiet (a.swapToLastUnchecked env i) :=
  Quiet.bind (Quiet.lift _) (fun _ => Quiet.bind (Quiet.lift _) (fun _ =>
    Quiet.ite (Quiet.pure _) (Quiet.bind (swapEntities_quiet _ _ _) (fun _ => Quiet.pure _))))

theorem copyCommonComponents_quiet (src : FArch) (i : Nat) (dst : FArch) (j : Nat) :
    Quiet (copyCommonComponents src i dst j) :=
  Quiet.loop (fun _ _ => Quiet.bind (Quiet.lift _) (fun _ => Quiet.loop (fun _ _ => Quiet.bind (Quiet.lift _) (fun _ =>
    Quiet.ite (Quiet.pure _) (Quiet.bind (Quiet.lift _) (fun _ => Quiet.bind (Quiet.offset _ _) (fun _ =>
      Quiet.bind (Quiet.lift _) (fun _ => Quiet.bind (Quiet.offset _ _) (fun _ => Quiet.copy _ _ _))))))) _ _ _)) _ _ _

end FArch

/-! ## What happens to the pointers of an archetype -/

/-- The pointers and the capacity are the same. -/
structure Kept (fa fa' : FArch) : Prop where
  desc : fa'.descriptor = fa.descriptor
  ptrs : fa'.pointers = fa.pointers
  ents : fa'.entityAssociations = fa.entityAssociations
  cap : fa'.capacity = fa.capacity

theorem Kept.refl (fa : FArch) : Kept fa fa := ⟨rfl, rfl, rfl, rfl⟩

theorem Kept.trans {a b c : FArch} (h1 : Kept a b) (h2 : Kept b c) : Kept a c :=
  ⟨h2.desc.trans h1.desc, h2.ptrs.trans h1.ptrs, h2.ents.trans h1.ents, h2.cap.trans h1.cap⟩

/-- All pointers of the archetype are null or were handed out from number `n` on. -/
def Recent (n : Nat) (fa : FArch) : Prop :=
  (fa.entityAssociations.addr ≠ 0 → n ≤ fa.entityAssociations.prov) ∧
  ∀ {i : Nat} {p : Ptr}, fa.pointers[i]? = some p → p.addr ≠ 0 → n ≤ p.prov

/-- The array of handles and all columns were handed out from number `n` on. -/
def Renewed (n : Nat) (fa fa' : FArch) : Prop :=
  n ≤ fa'.entityAssociations.prov ∧
  ∀ {i : Nat} {p : Ptr}, fa'.pointers[i]? = some p → n ≤ p.prov ∨ (fa.descriptor.len ≤ i ∧ fa.pointers[i]? = some p)

theorem Tri.loop {R : Nat → σ → Heap → Prop} {f : Nat → σ → FM σ}
    (hf : ∀ i s h, R i s h → Tri (f i s) h (fun s' h' => R (i + 1) s' h')) :
    ∀ (n lo : Nat) (s : σ) (h : Heap), R lo s h → Tri (loop lo n f s) h (fun s' h' => R (lo + n) s' h')
  | 0, _, _, _, hR => Tri.pure hR
  | n + 1, lo, s, h, hR => by
    refine Tri.bind ((hf lo s h hR).mono (fun s' k hk => ?_))
    have := Tri.loop hf n (lo + 1) s' k hk
    rw [Nat.add_assoc, Nat.add_comm 1 n] at this
    exact this

theorem alloc_tri {size align : Nat} : Tri (alloc A env size align) h (fun p h' => h.next ≤ h'.next ∧
    (p.addr ≠ 0 → h.next ≤ p.prov)) := by
  intro p k hp
  unfold alloc at hp
  split at hp
  · cases hp
  · split at hp
    · cases hp
    · split at hp
      · cases hp
        exact ⟨Nat.le_refl _, fun hn => absurd rfl hn⟩
      · cases hp
        exact ⟨Nat.le_succ _, fun _ => Nat.le_refl _⟩

theorem realloc_tri {p : Ptr} {old align new : Nat} : Tri (realloc A env p old align new) h (fun q h' => h.next ≤ h'.next ∧
    (q.addr ≠ 0 → h.next ≤ q.prov)) := by
  intro q k hq
  unfold realloc at hq
  split at hq
  · cases hq
  · split at hq
    · cases hq
    · split at hq
      · cases hq
      · split at hq
        · cases hq
        · split at hq
          · cases hq
            exact ⟨Nat.le_refl _, fun hn => absurd rfl hn⟩
          · cases hq
            exact ⟨Nat.le_succ _, fun _ => Nat.le_refl _⟩

theorem assertNonNull_tri {p : Ptr} {Q : Unit → Heap → Prop} (hq : p.addr ≠ 0 → Q () h) : Tri (assertNonNull p) h Q := by
  refine Tri.lift (fun a ha => hq ?_)
  intro h0
  unfold ensure at ha
  simp [h0] at ha

theorem dealloc_tri {p : Ptr} {size align : Nat} : Tri (dealloc p size align) h (fun _ h' => h'.next = h.next) := by
  intro q k hq
  unfold dealloc at hq
  split at hq
  · cases hq
  · split at hq
    · cases hq
    · split at hq
      · cases hq
      · cases hq
        rfl

namespace FArch

theorem withCapacity_tri {d : ArchetypeDescriptor} {n : Nat} (hn : n > 0 ∧ n ≤ MAX_ENTITIES_PER_ARCHETYPE) :
    Tri (withCapacity A env d n) h (fun fa h' => h.next ≤ h'.next ∧ Recent h.next fa ∧ fa.entityCount = 0 ∧
      fa.capacity = n ∧ fa.descriptor = d) := by
  refine Tri.bind (Tri.lift (fun _ _ => ?_))
  simp only []
  rw [if_pos hn]
  refine Tri.bind (alloc_tri.mono ?_)
  rintro ea k ⟨h1, h2⟩
  refine Tri.bind (assertNonNull_tri (fun h3 => ?_))
  refine Tri.bind (Tri.mono (Tri.loop (R := fun _ ptrs k' => h.next ≤ k'.next ∧ ∀ {i : Nat} {p : Ptr}, ptrs[i]? = some p →
    p.addr ≠ 0 → h.next ≤ p.prov) ?_ d.components.length 0 _ k ?_) ?_)
  · rintro i ptrs k' ⟨h4, h5⟩
    refine Tri.bind (Tri.lift (fun c _ => ?_))
    refine Tri.bind (alloc_tri.mono ?_)
    rintro p k2 ⟨h6, h7⟩
    refine Tri.bind (Tri.lift (fun ptrs' h8 => ?_))
    refine Tri.bind (assertNonNull_tri (fun _ => ?_))
    refine Tri.pure ⟨Nat.le_trans h4 h6, fun {j} {q} hj hq => ?_⟩
    rw [(setIndex_inv h8).2] at hj
    by_cases hij : i = j
    · subst hij
      rw [List.getElem?_set] at hj
      simp only [if_true] at hj
      split at hj
      · cases hj
        exact Nat.le_trans h4 (h7 hq)
      · cases hj
    · rw [List.getElem?_set_ne hij] at hj
      exact h5 hj hq
  · refine ⟨h1, fun {i} {p} hp hz => ?_⟩
    have := List.mem_of_getElem? hp
    rw [List.mem_replicate] at this
    exact absurd (by rw [this.2]; rfl) hz
  · rintro ptrs k' ⟨h4, h5⟩
    exact Tri.pure ⟨h4, ⟨fun _ => h2 h3, h5⟩, rfl, rfl, rfl⟩

theorem deallocLoop_tri (a : FArch) : ∀ (n i : Nat) (ptrs : List Ptr) (h : Heap),
    Tri (a.deallocLoop n i ptrs) h (fun _ h' => h'.next = h.next)
  | 0, _, _, _ => Tri.pure rfl
  | n + 1, i, ptrs, h => by
    unfold deallocLoop
    refine Tri.bind (Tri.lift (fun p _ => ?_))
    split
    · exact Tri.pure rfl
    · refine Tri.bind (Tri.lift (fun c _ => ?_))
      refine Tri.bind (dealloc_tri.mono (fun _ k hk => ?_))
      rw [← hk]
      exact deallocLoop_tri a n (i + 1) _ k

theorem dealloc_tri (a : FArch) : Tri a.dealloc h (fun a' h' => h'.next = h.next ∧ a'.entityCount = a.entityCount ∧
    a'.descriptor = a.descriptor) := by
  unfold FArch.dealloc
  refine Tri.bind ((deallocLoop_tri a _ _ _ h).mono (fun r k hk => ?_))
  split
  · exact Tri.pure ⟨hk, rfl, rfl⟩
  · exact Tri.bind (Flat.dealloc_tri.mono (fun _ k' hk' => Tri.pure ⟨hk'.trans hk, rfl, rfl⟩))

theorem resizeIfNecessary_tri (a : FArch) : Tri (a.resizeIfNecessary A env) h (fun a' h' =>
    a'.entityCount = a.entityCount ∧ a'.descriptor = a.descriptor ∧ h.next ≤ h'.next ∧
    ((a' = a ∧ Idle h h' ∧ a.entityCount ≠ a.capacity) ∨ (a.entityCount = a.capacity ∧
      (0 < a.capacity → 2 * a.capacity < MAX_ENTITIES_PER_ARCHETYPE → Renewed h.next a a')))) := by
  unfold resizeIfNecessary
  split
  · next hc =>
    have hc' : a.entityCount = a.capacity := by simpa using hc
    unfold resizeCapacity
    simp only []
    generalize hadd : (if a.capacity = 0 then DEFAULT_ARCHETYPE_ALLOCATION_SIZE else a.capacity) = add
    generalize MAX_ENTITIES_PER_ARCHETYPE = top
    split
    · next hx =>
      refine (dealloc_tri a).mono ?_
      rintro a' k ⟨h1, h2, h3⟩
      refine ⟨h2, h3, by omega, .inr ⟨hc', fun h4 h5 => ?_⟩⟩
      rw [if_neg (by omega)] at hadd
      omega
    · refine Tri.bind (realloc_tri.mono ?_)
      rintro ea k ⟨h1, h2⟩
      refine Tri.bind (assertNonNull_tri (fun h3 => ?_))
      refine Tri.bind (Tri.mono (Tri.loop (R := fun n ptrs k' => h.next ≤ k'.next ∧ ∀ {i : Nat} {p : Ptr},
        ptrs[i]? = some p → h.next ≤ p.prov ∨ (n ≤ i ∧ a.pointers[i]? = some p)) ?_ a.descriptor.len 0 _ k ?_) ?_)
      · rintro i ptrs k' ⟨h4, h5⟩
        refine Tri.bind (Tri.lift (fun p _ => ?_))
        refine Tri.bind (Tri.lift (fun c _ => ?_))
        refine Tri.bind (realloc_tri.mono ?_)
        rintro q k2 ⟨h6, h7⟩
        refine Tri.bind (Tri.lift (fun ptrs' h8 => ?_))
        refine Tri.bind (assertNonNull_tri (fun hq => ?_))
        refine Tri.pure ⟨Nat.le_trans h4 h6, fun {j} {p'} hj => ?_⟩
        rw [(setIndex_inv h8).2] at hj
        by_cases hij : i = j
        · subst hij
          rw [List.getElem?_set] at hj
          simp only [if_true] at hj
          split at hj
          · cases hj
            exact .inl (Nat.le_trans h4 (h7 hq))
          · cases hj
        · rw [List.getElem?_set_ne hij] at hj
          rcases h5 hj with h9 | ⟨h9, h10⟩
          · exact .inl h9
          · exact .inr ⟨by omega, h10⟩
      · exact ⟨h1, fun {i} {p} hp => .inr ⟨Nat.zero_le _, hp⟩⟩
      · rintro ptrs k' ⟨h4, h5⟩
        refine Tri.pure ⟨rfl, rfl, h4, .inr ⟨hc', fun _ _ => ⟨h2 h3, fun {i} {p} hp => ?_⟩⟩⟩
        have := h5 hp
        rwa [Nat.zero_add] at this
  · next hc =>
    exact Tri.pure ⟨rfl, rfl, Nat.le_refl _, .inl ⟨rfl, Idle.refl _, by simpa using hc⟩⟩

end FArch

/-- The archetype keeps its pointers, or was full, got an entity and (unless it gave up its memory) has new blocks. -/
def Grows (n : Nat) (fa fa' : FArch) : Prop :=
  fa.entityCount = fa.capacity ∧ fa'.entityCount = fa.entityCount + 1 ∧ fa'.descriptor = fa.descriptor ∧
    (0 < fa.capacity → 2 * fa.capacity < MAX_ENTITIES_PER_ARCHETYPE → Renewed n fa fa')

namespace FArch

theorem pushUninitializedEntity_tri (a : FArch) : Tri (a.pushUninitializedEntity A env) h (fun x h' =>
    h.next ≤ h'.next ∧ ((Kept a x.1 ∧ Idle h h') ∨ Grows h.next a x.1)) := by
  refine Tri.bind ((resizeIfNecessary_tri a).mono ?_)
  rintro a' k ⟨h1, hd, h2, h3⟩
  refine Tri.pure ⟨h2, ?_⟩
  rcases h3 with ⟨rfl, h4, _⟩ | ⟨h4, h5⟩
  · exact .inl ⟨⟨rfl, rfl, rfl, rfl⟩, h4⟩
  · exact .inr ⟨h4, by simp only [h1], hd, h5⟩

theorem pushEntityUnchecked_tri (a : FArch) (e : Entity) (g : Group) (vals : List Val) :
    Tri (a.pushEntityUnchecked A env e g vals) h (fun x h' =>
    h.next ≤ h'.next ∧ ((Kept a x.1 ∧ Idle h h') ∨ Grows h.next a x.1)) := by
  refine Tri.bind (Tri.lift (fun _ _ => ?_))
  refine Tri.bind (Tri.lift (fun _ _ => ?_))
  refine Tri.bind ((resizeIfNecessary_tri a).mono ?_)
  rintro a' k ⟨h1, hd, h2, h3⟩
  refine Tri.bind ((writeEntityUnchecked_quiet _ _ _ _ _ k).mono ?_)
  intro _ k' hi
  refine Tri.pure ⟨by rw [hi.1]; exact h2, ?_⟩
  rcases h3 with ⟨rfl, h4, _⟩ | ⟨h4, h5⟩
  · exact .inl ⟨⟨rfl, rfl, rfl, rfl⟩, h4.trans hi⟩
  · exact .inr ⟨h4, by simp only [h1], hd, h5⟩

theorem swapDropUnchecked_tri (a : FArch) (i : Nat) : Tri (a.swapDropUnchecked env i) h (fun x h' => Kept a x.1 ∧ Idle h h') := by
  refine Tri.bind (Tri.lift (fun _ _ => ?_))
  refine Tri.bind (Tri.lift (fun _ _ => ?_))
  split
  · refine Tri.bind ((dropEntity_quiet _ _ h).mono (fun _ k hk => ?_))
    exact Tri.bind (Tri.lift (fun _ _ => Tri.pure ⟨⟨rfl, rfl, rfl, rfl⟩, hk⟩))
  · refine Tri.bind ((swapEntities_quiet _ _ _ h).mono (fun _ k hk => ?_))
    refine Tri.bind (Tri.lift (fun _ _ => ?_))
    refine Tri.bind ((dropEntity_quiet _ _ k).mono (fun _ k' hk' => ?_))
    exact Tri.bind (Tri.lift (fun _ _ => Tri.pure ⟨⟨rfl, rfl, rfl, rfl⟩, hk.trans hk'⟩))

theorem swapRemoveUnchecked_tri (a : FArch) (g : Group) (i : Nat) :
    Tri (a.swapRemoveUnchecked env g i) h (fun x h' => Kept a x.1 ∧ Idle h h') := by
  refine Tri.bind (Tri.lift (fun _ _ => ?_))
  refine Tri.bind (Tri.lift (fun _ _ => ?_))
  split
  · refine Tri.bind ((readComponentsExactUnchecked_quiet _ _ _ h).mono (fun _ k hk => ?_))
    exact Tri.bind (Tri.lift (fun _ _ => Tri.pure ⟨⟨rfl, rfl, rfl, rfl⟩, hk⟩))
  · refine Tri.bind ((swapEntities_quiet _ _ _ h).mono (fun _ k hk => ?_))
    refine Tri.bind (Tri.lift (fun _ _ => ?_))
    refine Tri.bind ((readComponentsExactUnchecked_quiet _ _ _ k).mono (fun _ k' hk' => ?_))
    exact Tri.bind (Tri.lift (fun _ _ => Tri.pure ⟨⟨rfl, rfl, rfl, rfl⟩, hk.trans hk'⟩))

theorem decrementLenUnchecked_tri (a : FArch) : Tri (a.decrementLenUnchecked env) h (fun x h' => Kept a x ∧ Idle h h') :=
  Tri.bind (Tri.lift (fun _ _ => Tri.pure ⟨⟨rfl, rfl, rfl, rfl⟩, Idle.refl _⟩))

end FArch

/-! ## What happens to the pointers of a registry -/

theorem Renewed.mono {n m : Nat} {fa fa' : FArch} (hnm : n ≤ m) (hr : Renewed m fa fa') : Renewed n fa fa' :=
  ⟨Nat.le_trans hnm hr.1, fun hp => (hr.2 hp).imp (Nat.le_trans hnm) id⟩

theorem Grows.mono {n m : Nat} {fa fa' : FArch} (hnm : n ≤ m) (hr : Grows m fa fa') : Grows n fa fa' :=
  ⟨hr.1, hr.2.1, hr.2.2.1, fun h1 h2 => (hr.2.2.2 h1 h2).mono hnm⟩

/-- What a call does to the blocks of all archetypes. -/
structure Change (h : Heap) (fr : FReg) (h' : Heap) (fr' : FReg) : Prop where
  le : h.next ≤ h'.next
  old : ∀ {k : Nat} {fa : FArch}, fr.archetypes[k]? = some fa → ∃ fa', fr'.archetypes[k]? = some fa' ∧
    (Kept fa fa' ∨ Grows h.next fa fa')
  new : ∀ {k : Nat} {fa' : FArch}, fr.archetypes[k]? = none → fr'.archetypes[k]? = some fa' → Recent h.next fa'
  idle : Idle h h' ∨ (∃ (k : Nat) (fa fa' : FArch), fr.archetypes[k]? = some fa ∧ fr'.archetypes[k]? = some fa' ∧ Grows h.next fa fa') ∨
    fr.archetypes.length < fr'.archetypes.length

/-- An archetype may be new. -/
def Found (h : Heap) (fr : FReg) (h' : Heap) (fr' : FReg) : Prop :=
  (fr'.archetypes = fr.archetypes ∧ Idle h h') ∨
  ∃ a, fr'.archetypes = fr.archetypes ++ [a] ∧ Recent h.next a ∧ a.entityCount ≠ a.capacity ∧ h.next ≤ h'.next

theorem Found.le {fr fr' : FReg} (hf : Found h fr h' fr') : h.next ≤ h'.next := by
  rcases hf with ⟨_, hi⟩ | ⟨_, _, _, _, hl⟩
  · rw [hi.1]; exact Nat.le_refl _
  · exact hl

/-- Every archetype keeps its pointers or grows. -/
structure Stage (n : Nat) (l l' : List FArch) : Prop where
  len : l'.length = l.length
  get : ∀ {k : Nat} {fa : FArch}, l[k]? = some fa → ∃ fa', l'[k]? = some fa' ∧ (Kept fa fa' ∨ Grows n fa fa')

theorem Stage.refl (n : Nat) (l : List FArch) : Stage n l l := ⟨rfl, fun hk => ⟨_, hk, .inl (Kept.refl _)⟩⟩

theorem Stage.set {n : Nat} {l : List FArch} {i : Nat} {a a' : FArch} (hi : l[i]? = some a)
    (ha : Kept a a' ∨ Grows n a a') : Stage n l (l.set i a') := by
  refine ⟨List.length_set, fun {k} {fa} hk => ?_⟩
  by_cases hik : i = k
  · subst hik
    rw [hi] at hk; cases hk
    exact ⟨a', List.getElem?_set_self (lt_of_get hi), ha⟩
  · exact ⟨fa, by rw [List.getElem?_set_ne hik]; exact hk, .inl (Kept.refl _)⟩

theorem Stage.set2 {n : Nat} {l : List FArch} {i j : Nat} {a a' b b' : FArch} (hi : l[i]? = some a)
    (ha : Kept a a') (hj : l[j]? = some b) (hb : Kept b b' ∨ Grows n b b') : Stage n l ((l.set i a').set j b') := by
  refine ⟨by simp, fun {k} {fa} hk => ?_⟩
  by_cases hjk : j = k
  · subst hjk
    rw [hj] at hk; cases hk
    exact ⟨b', List.getElem?_set_self (by simpa using lt_of_get hj), hb⟩
  · rw [List.getElem?_set_ne hjk]
    by_cases hik : i = k
    · subst hik
      rw [hi] at hk; cases hk
      exact ⟨a', List.getElem?_set_self (lt_of_get hi), .inl ha⟩
    · exact ⟨fa, by rw [List.getElem?_set_ne hik]; exact hk, .inl (Kept.refl _)⟩

theorem Found.change {fr fr1 fr' : FReg} {h1 : Heap} (hf : Found h fr h1 fr1) (hs : Stage h1.next fr1.archetypes fr'.archetypes)
    (hle : h1.next ≤ h'.next) (hi : Idle h1 h' ∨ ∃ (k : Nat) (fa fa' : FArch), fr1.archetypes[k]? = some fa ∧ fr'.archetypes[k]? = some fa' ∧
      Grows h1.next fa fa') : Change h fr h' fr' := by
  refine ⟨Nat.le_trans hf.le hle, fun {k} {fa} hk => ?_, fun {k} {fa'} hk hk' => ?_, ?_⟩
  · have hk1 : fr1.archetypes[k]? = some fa := by
      rcases hf with ⟨h2, _⟩ | ⟨a, h2, _⟩
      · rw [h2]; exact hk
      · rw [h2, List.getElem?_append_left (lt_of_get hk)]; exact hk
    obtain ⟨fa', q1, q2⟩ := hs.get hk1
    exact ⟨fa', q1, q2.imp id (Grows.mono hf.le)⟩
  · rcases hf with ⟨h2, _⟩ | ⟨a, h2, h3, h4, _⟩
    · exfalso
      have := lt_of_get hk'
      rw [hs.len, h2] at this
      rw [List.getElem?_eq_none_iff] at hk
      omega
    · have hlt := lt_of_get hk'
      rw [hs.len, h2, List.length_append] at hlt
      rw [List.getElem?_eq_none_iff] at hk
      simp only [List.length_cons, List.length_nil] at hlt
      have hkk : k = fr.archetypes.length := by omega
      have hk1 : fr1.archetypes[k]? = some a := by
        rw [h2, hkk, List.getElem?_append_right (Nat.le_refl _), Nat.sub_self]; rfl
      obtain ⟨fb, q1, q2⟩ := hs.get hk1
      rw [hk'] at q1; cases q1
      rcases q2 with q2 | q2
      · unfold Recent
        rw [q2.ptrs, q2.ents]
        exact h3
      · exact absurd q2.1 h4
  · rcases hf with ⟨h2, h3⟩ | ⟨a, h2, _⟩
    · rcases hi with hi | ⟨k, fa, fa', h4, h5, h6⟩
      · exact .inl (h3.trans hi)
      · exact .inr (.inl ⟨k, fa, fa', by rw [← h2]; exact h4, h5, by rw [← h3.1]; exact h6⟩)
    · refine .inr (.inr ?_)
      rw [hs.len, h2]
      simp

theorem Change.refl' {fr fr' : FReg} (he : fr'.archetypes = fr.archetypes) (hi : Idle h h') : Change h fr h' fr' := by
  refine Found.change (h1 := h) (fr1 := fr) (.inl ⟨rfl, Idle.refl _⟩) (by rw [he]; exact Stage.refl _ _) ?_ (.inl hi)
  rw [hi.1]; exact Nat.le_refl _

theorem Found.done {fr fr' fr1 : FReg} (hf : Found h fr h' fr1) (he : fr'.archetypes = fr1.archetypes) : Change h fr h' fr' :=
  hf.change (by rw [he]; exact Stage.refl _ _) (Nat.le_refl _) (.inl (Idle.refl _))

namespace FReg

theorem findOrCreateArchetype_tri (fr : FReg) (d : ArchetypeDescriptor) :
    Tri (fr.findOrCreateArchetype A env d) h (fun x h' => Found h fr h' x.1) := by
  unfold findOrCreateArchetype
  split
  · exact Tri.pure (.inl ⟨rfl, Idle.refl _⟩)
  · refine Tri.bind (Tri.lift (fun s _ => ?_))
    split
    · refine Tri.bind (Tri.lift (fun _ _ => ?_))
      exact Tri.bind (Tri.lift (fun _ _ => Tri.pure (.inl ⟨rfl, Idle.refl _⟩)))
    · split
      · exact Tri.pure (.inl ⟨rfl, Idle.refl _⟩)
      · refine Tri.bind ((FArch.withCapacity_tri (by decide)).mono ?_)
        rintro a k ⟨h1, h2, h3, h4, _⟩
        refine Tri.bind (Tri.lift (fun _ _ => ?_))
        refine Tri.pure (.inr ⟨a, rfl, h2, ?_, h1⟩)
        rw [h3, h4]; decide

theorem findOrCreatePair_tri (fr : FReg) (src : UInt16) (nd : Option ArchetypeDescriptor) :
    Tri (fr.findOrCreatePair A env src nd) h (fun x h' => Found h fr h' x.1) := by
  unfold findOrCreatePair
  split
  · exact Tri.pure (.inl ⟨rfl, Idle.refl _⟩)
  · refine Tri.bind ((findOrCreateArchetype_tri fr _).mono ?_)
    intro f k hf
    split
    · exact Tri.pure hf
    · split <;> exact Tri.pure hf

theorem findOrCreateAdding_tri (fr : FReg) (src : UInt16) (cd : ComponentDescriptor) :
    Tri (fr.findOrCreateAdding A env src cd) h (fun x h' => Found h fr h' x.1) := by
  unfold findOrCreateAdding
  split
  · exact Tri.pure (.inl ⟨rfl, Idle.refl _⟩)
  · exact Tri.bind (Tri.lift (fun _ _ => Tri.bind (Tri.lift (fun _ _ => findOrCreatePair_tri _ _ _))))

theorem findOrCreateRemoving_tri (fr : FReg) (src : UInt16) (cd : ComponentDescriptor) :
    Tri (fr.findOrCreateRemoving A env src cd) h (fun x h' => Found h fr h' x.1) := by
  unfold findOrCreateRemoving
  split
  · exact Tri.pure (.inl ⟨rfl, Idle.refl _⟩)
  · exact Tri.bind (Tri.lift (fun _ _ => Tri.bind (Tri.lift (fun _ _ => findOrCreatePair_tri _ _ _))))

theorem index_inv {l : List FArch} {i : Nat} {a : FArch} (hl : index l i = .ok a) : l[i]? = some a := by
  unfold index at hl
  split at hl
  · next hx => cases hl; exact hx
  · cases hl

theorem indexUnchecked_inv {l : List FArch} {i : Nat} {a : FArch} (hl : indexUnchecked l i = .ok a) : l[i]? = some a := by
  unfold indexUnchecked at hl
  split at hl
  · next hx => cases hl; exact hx
  · cases hl

theorem createEntity_tri (fr : FReg) (g : Group) (vals : List Val) :
    Tri (fr.createEntity A env g vals) h (fun x h' => Change h fr h' x.1) := by
  unfold createEntity
  split
  · exact Tri.pure (Change.refl' rfl (Idle.refl _))
  · refine Tri.bind ((findOrCreateArchetype_tri fr _).mono ?_)
    intro f k hf
    split
    · exact Tri.pure (hf.done rfl)
    · refine Tri.bind (Tri.lift (fun a ha => ?_))
      refine Tri.bind (Tri.lift (fun _ _ => ?_))
      refine Tri.bind (Tri.lift (fun _ _ => ?_))
      refine Tri.bind (Tri.lift (fun c _ => ?_))
      split
      · exact Tri.pure (hf.done rfl)
      · refine Tri.bind ((FArch.pushEntityUnchecked_tri a _ _ _).mono ?_)
        rintro p k' ⟨h1, h2⟩
        have ha := index_inv ha
        refine Tri.pure (hf.change (Stage.set ha (h2.imp And.left id)) h1 ?_)
        rcases h2 with ⟨_, h2⟩ | h2
        · exact .inl h2
        · exact .inr ⟨_, a, p.1, ha, List.getElem?_set_self (lt_of_get ha), h2⟩

/-- Finding the swapped entity and correcting its entry. -/
theorem swapped_quiet {b : Bool} {x : FM Entity} {m : Entity → M EntityRegistry} {er : EntityRegistry} (hx : Quiet x) :
    Quiet (if b = true then (do let sw ← x; m sw) else pure er : FM EntityRegistry) :=
  Quiet.ite (Quiet.bind hx (fun _ => Quiet.lift _)) (Quiet.pure _)

theorem destroyEntity_tri (fr : FReg) (e : Entity) :
    Tri (fr.destroyEntity env e) h (fun x h' => Change h fr h' x.1 ∧ Idle h h') := by
  unfold destroyEntity
  split
  · exact Tri.pure ⟨Change.refl' rfl (Idle.refl _), Idle.refl _⟩
  · simp only []
    refine Tri.bind (Tri.lift (fun a ha => ?_))
    refine Tri.bind ((FArch.swapDropUnchecked_tri a _).mono ?_)
    rintro s k ⟨h1, h2⟩
    refine Tri.bind ((swapped_quiet (FArch.entityAtUnchecked_quiet _ _) k).mono ?_)
    intro ents k' h3
    refine Tri.bind (Tri.lift (fun _ _ => ?_))
    have ha := indexUnchecked_inv ha
    refine Tri.pure ⟨Found.change (h1 := h) (fr1 := fr) (.inl ⟨rfl, Idle.refl _⟩) (Stage.set ha (.inl h1)) ?_
      (.inl (h2.trans h3)), h2.trans h3⟩
    rw [(h2.trans h3).1]; exact Nat.le_refl _

theorem removeEntity_tri (fr : FReg) (g : Group) (e : Entity) :
    Tri (fr.removeEntity env g e) h (fun x h' => Change h fr h' x.1 ∧ Idle h h') := by
  unfold removeEntity
  split
  · exact Tri.pure ⟨Change.refl' rfl (Idle.refl _), Idle.refl _⟩
  · simp only []
    refine Tri.bind (Tri.lift (fun a ha => ?_))
    refine Tri.bind ((FArch.swapRemoveUnchecked_tri a _ _).mono ?_)
    rintro s k ⟨h1, h2⟩
    refine Tri.bind ((swapped_quiet (FArch.entityAt_quiet _ _) k).mono ?_)
    intro ents k' h3
    refine Tri.bind (Tri.lift (fun _ _ => ?_))
    have ha := indexUnchecked_inv ha
    refine Tri.pure ⟨Found.change (h1 := h) (fr1 := fr) (.inl ⟨rfl, Idle.refl _⟩) (Stage.set ha (.inl h1)) ?_
      (.inl (h2.trans h3)), h2.trans h3⟩
    rw [(h2.trans h3).1]; exact Nat.le_refl _

theorem addComponent_tri (fr : FReg) (e : Entity) (c : CompTy) (v : Val) :
    Tri (fr.addComponent A env e c v) h (fun x h' => Change h fr h' x.1) := by
  unfold addComponent
  split
  · exact Tri.pure (Change.refl' rfl (Idle.refl _))
  · refine Tri.bind ((findOrCreateAdding_tri fr _ _).mono ?_)
    intro f k hf
    split
    · exact Tri.pure (hf.done rfl)
    · next si dai di _ =>
      refine Tri.bind (Tri.lift (fun src hsrc => ?_))
      refine Tri.bind (Tri.lift (fun dst hdst => ?_))
      simp only []
      refine Tri.bind ((FArch.swapToLastUnchecked_quiet src _ k).mono (fun s k1 i1 => ?_))
      refine Tri.bind ((swapped_quiet (FArch.entityAt_quiet _ _) k1).mono (fun ents k2 i2 => ?_))
      refine Tri.bind ((FArch.pushUninitializedEntity_tri dst).mono ?_)
      rintro p k3 ⟨h1, h2⟩
      refine Tri.bind (Tri.lift (fun sIdx _ => ?_))
      refine Tri.bind (Tri.lift (fun dIdx _ => ?_))
      refine Tri.bind ((FArch.copyCommonComponents_quiet _ _ _ _ k3).mono (fun _ k4 i4 => ?_))
      refine Tri.bind ((FArch.writeSingleComponentUnchecked_quiet _ _ _ _ k4).mono (fun _ k5 i5 => ?_))
      refine Tri.bind ((FArch.entityAt_quiet _ _ k5).mono (fun _ k6 i6 => ?_))
      refine Tri.bind ((FArch.setEntityAt_quiet _ _ _ k6).mono (fun _ k7 i7 => ?_))
      refine Tri.bind ((FArch.decrementLenUnchecked_tri src).mono ?_)
      rintro src' k8 ⟨hk, i8⟩
      refine Tri.bind (Tri.lift (fun _ _ => ?_))
      refine Tri.bind (Tri.lift (fun _ _ => ?_))
      have hsrc := index_inv hsrc
      have hdst := index_inv hdst
      have i12 := i1.trans i2
      have i38 := (((i4.trans i5).trans i6).trans i7).trans i8
      rw [i12.1] at h1 h2
      refine Tri.pure (hf.change (Stage.set2 hsrc hk hdst (h2.imp And.left id)) (by rw [i38.1]; exact h1) ?_)
      rcases h2 with ⟨_, h2⟩ | h2
      · exact .inl ((i12.trans h2).trans i38)
      · refine .inr ⟨di, dst, p.1, hdst, List.getElem?_set_self ?_, h2⟩
        simp only [FReg.setArchetype, List.length_set]
        exact lt_of_get hdst

theorem removeComponent_tri (fr : FReg) (e : Entity) (c : CompTy) :
    Tri (fr.removeComponent A env e c) h (fun x h' => Change h fr h' x.1) := by
  unfold removeComponent
  split
  · exact Tri.pure (Change.refl' rfl (Idle.refl _))
  · refine Tri.bind ((findOrCreateRemoving_tri fr _ _).mono ?_)
    intro f k hf
    split
    · exact Tri.pure (hf.done rfl)
    · next si dai di _ =>
      refine Tri.bind (Tri.lift (fun src hsrc => ?_))
      refine Tri.bind (Tri.lift (fun dst hdst => ?_))
      simp only []
      refine Tri.bind ((FArch.swapToLastUnchecked_quiet src _ k).mono (fun s k1 i1 => ?_))
      refine Tri.bind ((swapped_quiet (FArch.entityAt_quiet _ _) k1).mono (fun ents k2 i2 => ?_))
      refine Tri.bind ((FArch.pushUninitializedEntity_tri dst).mono ?_)
      rintro p k3 ⟨h1, h2⟩
      refine Tri.bind (Tri.lift (fun sIdx _ => ?_))
      refine Tri.bind (Tri.lift (fun dIdx _ => ?_))
      refine Tri.bind ((FArch.copyCommonComponents_quiet _ _ _ _ k3).mono (fun _ k4 i4 => ?_))
      refine Tri.bind ((FArch.readComponentUnchecked_quiet _ _ _ k4).mono (fun _ k5 i5 => ?_))
      refine Tri.bind ((FArch.entityAt_quiet _ _ k5).mono (fun _ k6 i6 => ?_))
      refine Tri.bind ((FArch.setEntityAt_quiet _ _ _ k6).mono (fun _ k7 i7 => ?_))
      refine Tri.bind ((FArch.decrementLenUnchecked_tri src).mono ?_)
      rintro src' k8 ⟨hk, i8⟩
      refine Tri.bind (Tri.lift (fun _ _ => ?_))
      refine Tri.bind (Tri.lift (fun _ _ => ?_))
      have hsrc := index_inv hsrc
      have hdst := index_inv hdst
      have i12 := i1.trans i2
      have i38 := (((i4.trans i5).trans i6).trans i7).trans i8
      rw [i12.1] at h1 h2
      refine Tri.pure (hf.change (Stage.set2 hsrc hk hdst (h2.imp And.left id)) (by rw [i38.1]; exact h1) ?_)
      rcases h2 with ⟨_, h2⟩ | h2
      · exact .inl ((i12.trans h2).trans i38)
      · refine .inr ⟨di, dst, p.1, hdst, List.getElem?_set_self ?_, h2⟩
        simp only [FReg.setArchetype, List.length_set]
        exact lt_of_get hdst

/-! ### Writes -/

theorem getComponentMut_quiet (fr : FReg) (c : CompTy) (e : Entity) : Quiet (fr.getComponentMut env c e) := by
  unfold getComponentMut
  split
  · exact Quiet.pure _
  · exact Quiet.bind (Quiet.lift _) (fun _ => Quiet.ite (Quiet.pure _)
      (Quiet.bind (FArch.getComponentUncheckedMut_quiet _ _ _) (fun _ => Quiet.pure _)))

theorem getComponentsMut_quiet (fr : FReg) (g : Group) (e : Entity) : Quiet (fr.getComponentsMut env g e) := by
  unfold getComponentsMut
  split
  · exact Quiet.pure _
  · exact Quiet.bind (Quiet.lift _) (fun _ => Quiet.ite (Quiet.pure _)
      (Quiet.bind (FArch.getFuzzyComponentsUncheckedMut_quiet _ _ _) (fun _ => Quiet.pure _)))

theorem replaceAt_quiet (c : CompTy) (p : Ptr) (v : Val) : Quiet (replaceAt c p v) :=
  Quiet.bind (Quiet.readVal _ _ _ _) (fun _ => Quiet.bind (Quiet.writeVal _ _ _) (fun _ => Quiet.pure _))

theorem collect_quiet {g : Group} {filter : ArchetypeDescriptor → Bool} {fr : FReg} {f : FArch → FM α}
    (hf : ∀ a, Quiet (f a)) : ∀ (n : Nat) (it : ArchIter), Quiet (collect env g filter fr f n it)
  | 0, _ => Quiet.pure _
  | n + 1, it => by
    unfold collect
    refine Quiet.bind (Quiet.lift _) (fun s => ?_)
    split
    · exact Quiet.pure _
    · exact Quiet.bind (Quiet.lift _) (fun _ => Quiet.bind (hf _) (fun _ => Quiet.bind (collect_quiet hf n _) (fun _ =>
        Quiet.pure _)))

theorem iterate_quiet {g : Group} {filter : ArchetypeDescriptor → Bool} {fr : FReg} {f : FArch → FM α}
    (hf : ∀ a, Quiet (f a)) : Quiet (fr.iterate env g filter f) :=
  Quiet.bind (Quiet.lift _) (fun _ => collect_quiet hf _ _)

theorem items_quiet (fr : FReg) (g : Group) (it : MutIter) : Quiet (fr.items env g it) := by
  cases it with
  | matching => exact iterate_quiet (fun _ => FArch.getFuzzySlicesUncheckedMut_quiet _ _)
  | filtered f => exact iterate_quiet (fun _ => FArch.getFuzzySlicesUncheckedMut_quiet _ _)
  | entityMatching =>
    exact Quiet.bind (iterate_quiet (fun _ => FArch.getEntityFuzzySlicesUncheckedMut_quiet _ _)) (fun _ => Quiet.pure _)
  | entityFiltered f =>
    exact Quiet.bind (iterate_quiet (fun _ => FArch.getEntityFuzzySlicesUncheckedMut_quiet _ _)) (fun _ => Quiet.pure _)
  | exact =>
    refine Quiet.bind (Quiet.bind (Quiet.lift _) (fun o => ?_)) (fun _ => Quiet.pure _)
    split
    · exact Quiet.bind (Quiet.lift _) (fun _ => Quiet.bind (FArch.getSlicesUncheckedExactMut_quiet _ _) (fun _ => Quiet.pure _))
    · exact Quiet.pure _
  | entityExact =>
    refine Quiet.bind (Quiet.bind (Quiet.lift _) (fun o => ?_)) (fun _ => Quiet.pure _)
    split
    · exact Quiet.bind (Quiet.lift _) (fun _ => Quiet.bind (FArch.entities_quiet _) (fun _ =>
        Quiet.bind (FArch.getSlicesUncheckedExactMut_quiet _ _) (fun _ => Quiet.pure _)))
    · exact Quiet.pure _

/-! ### Calls -/

theorem call_tri (fr : FReg) (c : Call) : Tri (fr.call A env c) h (fun x h' => Change h fr h' x.1 ∧
    (c.reshapes = false → Idle h h')) := by
  cases c with
  | create g vals =>
    refine Tri.bind ((createEntity_tri fr g vals).mono (fun x k hk => ?_))
    split <;> exact Tri.pure ⟨hk, fun hn => by cases hn⟩
  | add e c v =>
    refine Tri.bind ((addComponent_tri fr e c v).mono (fun x k hk => ?_))
    split <;> exact Tri.pure ⟨hk, fun hn => by cases hn⟩
  | remove e c =>
    refine Tri.bind ((removeComponent_tri fr e c).mono (fun x k hk => ?_))
    split <;> exact Tri.pure ⟨hk, fun hn => by cases hn⟩
  | destroy e =>
    refine Tri.bind ((destroyEntity_tri fr e).mono (fun x k hk => ?_))
    exact Tri.pure ⟨hk.1, fun _ => hk.2⟩
  | removeEntity g e =>
    refine Tri.bind ((removeEntity_tri fr g e).mono (fun x k hk => ?_))
    split <;> exact Tri.pure ⟨hk.1, fun _ => hk.2⟩
  | write e c v =>
    refine Tri.bind ((getComponentMut_quiet fr c e h).mono (fun o k hk => ?_))
    split
    · refine Tri.bind ((replaceAt_quiet _ _ _ k).mono (fun _ k' hk' => ?_))
      exact Tri.pure ⟨Change.refl' rfl (hk.trans hk'), fun _ => hk.trans hk'⟩
    · exact Tri.pure ⟨Change.refl' rfl hk, fun _ => hk⟩
  | writeIn g e j v =>
    refine Tri.bind ((getComponentsMut_quiet fr g e h).mono (fun o k hk => ?_))
    split
    · exact Tri.pure ⟨Change.refl' rfl hk, fun _ => hk⟩
    · split
      · refine Tri.bind ((replaceAt_quiet _ _ _ k).mono (fun _ k' hk' => ?_))
        exact Tri.pure ⟨Change.refl' rfl (hk.trans hk'), fun _ => hk.trans hk'⟩
      · exact Tri.pure ⟨Change.refl' rfl hk, fun _ => hk⟩
  | writeIter it g n j k v =>
    refine Tri.bind ((items_quiet fr g it h).mono (fun o k hk => ?_))
    split
    · exact Tri.pure ⟨Change.refl' rfl hk, fun _ => hk⟩
    · split
      · exact Tri.pure ⟨Change.refl' rfl hk, fun _ => hk⟩
      · split
        · refine Tri.bind ((replaceAt_quiet _ _ _ k).mono (fun _ k' hk' => ?_))
          exact Tri.pure ⟨Change.refl' rfl (hk.trans hk'), fun _ => hk.trans hk'⟩
        · exact Tri.pure ⟨Change.refl' rfl hk, fun _ => hk⟩

end FReg

end Shard.Flat
