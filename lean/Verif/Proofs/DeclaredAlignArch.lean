import Verif.Proofs.DeclaredAlign
/-!
# Archetypes whose columns are aligned more strictly
-/

set_option autoImplicit false

namespace Shard.Align

variable {env : Env} {q : Bool}

/-- The alignment in column `i`. -/
abbrev al (d : ArchetypeDescriptor) (i : Nat) : Nat := (d.comps.getD i ComponentDescriptor.INVALID).align

/-- The columns of two archetypes. -/
abbrev Ptrs (d d' : ArchetypeDescriptor) := LRel (fun i => Ptr2 (al d i) (al d' i))

/-- Archetypes that differ in alignments only. -/
structure Arch (q : Bool) (a b : Archetype) : Prop where
  desc : Desc q a.descriptor b.descriptor
  ptrs : Ptrs a.descriptor b.descriptor a.pointers b.pointers
  assoc : b.entityAssociations = a.entityAssociations
  count : b.entityCount = a.entityCount
  cap : b.capacity = a.capacity

theorem Desc.indexC {d d' : ArchetypeDescriptor} (h : Desc q d d') (i : Nat) :
    Sim (fun c c' => Like q c c' ∧ c.align = al d i ∧ c'.align = al d' i) (index d.components i) (index d'.components i) := by
  unfold Shard.index
  cases hx : d.components[i]? with
  | none => rw [h.components.none hx]; exact .error _
  | some x =>
    obtain ⟨y, h1, h2⟩ := h.components.get hx
    rw [h1]
    refine .ok ⟨h2, ?_, ?_⟩
    · unfold ArchetypeDescriptor.components at hx
      rw [List.getElem?_take] at hx
      split at hx
      · simp [al, List.getD_eq_getElem?_getD, hx]
      · cases hx
    · unfold ArchetypeDescriptor.components at h1
      rw [List.getElem?_take] at h1
      split at h1
      · simp [al, List.getD_eq_getElem?_getD, h1]
      · cases h1

theorem allocColumns {d d' : ArchetypeDescriptor} (h : Desc q d d') (n : Nat) {ps ps' : List (Option Block)} (hp : Ptrs d d' ps ps') :
    Sim (Ptrs d d') (Archetype.allocColumns env d n ps) (Archetype.allocColumns env d' n ps') := by
  unfold Archetype.allocColumns
  rw [h.components.1]
  refine Sim.forRange (fun i s t hst => ?_) _ _ _ _ hp
  refine Sim.bind (h.indexC i) (fun c c' hc => ?_)
  rw [hc.1.size]
  exact Sim.bind (hc.1.alloc _) (fun b b' hb => hst.setIndex (by rw [hc.2.1, hc.2.2] at hb; exact hb))

theorem withCapacity {d d' : ArchetypeDescriptor} (h : Desc q d d') (n : Nat) :
    Sim (Arch q) (Archetype.withCapacity env d n) (Archetype.withCapacity env d' n) := by
  unfold Archetype.withCapacity
  have hnull : Ptrs d d' (List.replicate MAX_COMPONENTS_PER_ENTITY none) (List.replicate MAX_COMPONENTS_PER_ENTITY none) := by
    refine ⟨rfl, fun i x y hx hy => ?_⟩
    rw [List.getElem?_replicate] at hx hy
    split at hx
    · rename_i hi
      rw [if_pos hi] at hy
      cases hx; cases hy; trivial
    · cases hx
  refine Sim.same (by unfold ArchetypeDescriptor.isValid; rw [h.id]) (fun _ => ?_)
  simp only []
  split
  · exact Sim.bind (allocColumns h n hnull) (fun ps ps' hp => .pure ⟨h, hp, rfl, rfl, rfl⟩)
  · exact .pure ⟨h, hnull, rfl, rfl, rfl⟩

section
variable {a b : Archetype}

theorem Arch.readRef (h : Arch q a b) (c : CompTy) (r : Ref) : Sim (fun x y => y = x) (a.readRef c r) (b.readRef c r) := by
  unfold Archetype.readRef
  exact Sim.bind (h.ptrs.index _) (fun p p' hp => Ptr2.readVal hp _ _ _ _)

theorem Arch.writeRef (h : Arch q a b) (c : CompTy) (r : Ref) (v : Val) : Sim (Arch q) (a.writeRef c r v) (b.writeRef c r v) := by
  unfold Archetype.writeRef
  refine Sim.bind (h.ptrs.index _) (fun p p' hp => Sim.bind (Ptr2.checkAligned hp _ _) (fun _ _ _ =>
    Sim.bind (Ptr2.writeBytes hp _ _) (fun q q' hq => .pure ⟨h.desc, h.ptrs.set hq, h.assoc, h.count, h.cap⟩)))

theorem Arch.derefPtr (h : Arch q a b) (c : CompTy) (p : Option Ref) : Sim (fun x y => y = x) (a.derefPtr c p) (b.derefPtr c p) := by
  cases p with
  | none => exact .error _
  | some r => exact h.readRef c r

theorem Arch.componentRef (h : Arch q a b) (c : CompTy) (i : Nat) : b.componentRef c i = a.componentRef c i := by
  unfold Archetype.componentRef
  rw [Comps.search h.desc.components]

theorem Arch.getComponentUnchecked (h : Arch q a b) (c : CompTy) (i : Nat) :
    Sim (fun x y => y = x) (a.getComponentUnchecked c i) (b.getComponentUnchecked c i) := by
  unfold Archetype.getComponentUnchecked
  exact Sim.same (h.componentRef c i).symm (fun r => h.readRef c r)

theorem Arch.getComponentUncheckedMut (h : Arch q a b) (c : CompTy) (i : Nat) :
    Sim (fun x y => y = x) (a.getComponentUncheckedMut c i) (b.getComponentUncheckedMut c i) := by
  unfold Archetype.getComponentUncheckedMut
  exact Sim.same (h.componentRef c i).symm (fun r => Sim.bind (h.readRef c r) (fun _ _ _ => .pure rfl))

theorem Arch.readComponentUnchecked (h : Arch q a b) (c : CompTy) (i : Nat) :
    Sim (fun x y => y = x) (a.readComponentUnchecked c i) (b.readComponentUnchecked c i) := by
  unfold Archetype.readComponentUnchecked
  exact Sim.same (h.componentRef c i).symm (fun r => h.readRef c r)

theorem Arch.writeSingleComponentUnchecked (h : Arch q a b) (c : CompTy) (i : Nat) (v : Val) :
    Sim (Arch q) (a.writeSingleComponentUnchecked c i v) (b.writeSingleComponentUnchecked c i v) := by
  unfold Archetype.writeSingleComponentUnchecked
  exact Sim.same (h.componentRef c i).symm (fun r => h.writeRef c r v)

theorem Arch.fuzzyFind (h : Arch q a b) (i : UInt16) : ∀ (n k : Nat), b.fuzzyFind i n k = a.fuzzyFind i n k
  | 0, _ => rfl
  | n + 1, k => by
    unfold Archetype.fuzzyFind
    rw [(h.desc.comps.getD k).id, Arch.fuzzyFind h i n (k + 1)]

theorem Arch.fuzzyPointers (h : Arch q a b) (g : Group) (k : Nat) :
    b.getFuzzyPointersUnchecked env g k = a.getFuzzyPointersUnchecked env g k := by
  unfold Archetype.getFuzzyPointersUnchecked
  simp only [h.fuzzyFind, h.desc.len]

theorem Arch.derefTuple (h : Arch q a b) : ∀ (l : List (CompTy × Option Ref)), Sim (fun x y => y = x) (a.derefTuple l) (b.derefTuple l)
  | [] => .ok rfl
  | (c, p) :: l => by
    unfold Archetype.derefTuple
    exact Sim.bind (h.derefPtr c p) (fun v w hv => Sim.bind (Arch.derefTuple h l) (fun x y hx => by subst hv; subst hx; exact .pure rfl))

theorem Arch.getFuzzyComponentsUnchecked (h : Arch q a b) (g : Group) (i : Nat) :
    Sim (fun x y => y = x) (a.getFuzzyComponentsUnchecked env g i) (b.getFuzzyComponentsUnchecked env g i) := by
  unfold Archetype.getFuzzyComponentsUnchecked
  rw [h.fuzzyPointers]
  exact Sim.same rfl (fun _ => h.derefTuple _)

theorem Arch.getFuzzyComponentsUncheckedMut (h : Arch q a b) (g : Group) (i : Nat) :
    Sim (fun x y => y = x) (a.getFuzzyComponentsUncheckedMut env g i) (b.getFuzzyComponentsUncheckedMut env g i) := by
  unfold Archetype.getFuzzyComponentsUncheckedMut
  rw [h.fuzzyPointers]
  exact Sim.same rfl (fun _ => Sim.bind (h.derefTuple _) (fun _ _ _ => .pure rfl))

theorem Arch.readSliceRef (h : Arch q a b) (s : SliceRef) : Sim (fun x y => y = x) (a.readSliceRef s) (b.readSliceRef s) := by
  unfold Archetype.readSliceRef
  exact Sim.bind (h.ptrs.index _) (fun p p' hp => Ptr2.readSlice hp _ _ _ _ _)

theorem Arch.basePointers (h : Arch q a b) : b.basePointers = a.basePointers := by
  unfold Archetype.basePointers
  apply List.ext_getElem?
  intro i
  rw [List.getElem?_mapIdx, List.getElem?_mapIdx]
  cases hx : a.pointers[i]? with
  | none => rw [h.ptrs.none hx]
  | some p =>
    obtain ⟨q, h1, h2⟩ := h.ptrs.get hx
    rw [h1]
    match p, q, h2 with
    | none, none, _ => rfl
    | some _, some _, _ => rfl

theorem Arch.getSlicesUncheckedExactMut (h : Arch q a b) (g : Group) :
    Sim (fun x y => y = x) (a.getSlicesUncheckedExactMut env g) (b.getSlicesUncheckedExactMut env g) := by
  unfold Archetype.getSlicesUncheckedExactMut
  rw [h.desc.id, h.basePointers, h.count]
  exact Sim.same rfl (fun _ => Sim.same rfl (fun s => Sim.bind (Sim.mapM h.readSliceRef s) (fun _ _ _ => .pure rfl)))

theorem Arch.getSlicesUncheckedExact (h : Arch q a b) (g : Group) :
    Sim (fun x y => y = x) (a.getSlicesUncheckedExact env g) (b.getSlicesUncheckedExact env g) := by
  unfold Archetype.getSlicesUncheckedExact
  rw [h.desc.id, h.basePointers, h.count]
  exact Sim.same rfl (fun _ => Sim.same rfl (fun s => Sim.mapM h.readSliceRef s))

theorem Arch.getFuzzySlicesUnchecked (h : Arch q a b) (g : Group) :
    Sim (fun x y => y = x) (a.getFuzzySlicesUnchecked env g) (b.getFuzzySlicesUnchecked env g) := by
  unfold Archetype.getFuzzySlicesUnchecked
  rw [h.fuzzyPointers, h.count]
  exact Sim.same rfl (fun _ => Sim.same rfl (fun s => Sim.mapM h.readSliceRef s))

theorem Arch.getFuzzySlicesUncheckedMut (h : Arch q a b) (g : Group) :
    Sim (fun x y => y = x) (a.getFuzzySlicesUncheckedMut env g) (b.getFuzzySlicesUncheckedMut env g) := by
  unfold Archetype.getFuzzySlicesUncheckedMut
  rw [h.fuzzyPointers, h.count]
  exact Sim.same rfl (fun _ => Sim.same rfl (fun s => Sim.bind (Sim.mapM h.readSliceRef s) (fun _ _ _ => .pure rfl)))

theorem Arch.entitiesRaw (h : Arch q a b) : b.entitiesRaw = a.entitiesRaw := by
  unfold Archetype.entitiesRaw
  rw [h.assoc, h.count]

theorem Arch.entities (h : Arch q a b) : b.entities = a.entities := by unfold Archetype.entities; rw [h.entitiesRaw]
theorem Arch.entityAt (h : Arch q a b) (i : Nat) : b.entityAt i = a.entityAt i := by unfold Archetype.entityAt; rw [h.entitiesRaw]
theorem Arch.entityAtUnchecked (h : Arch q a b) (i : Nat) : b.entityAtUnchecked i = a.entityAtUnchecked i := by
  unfold Archetype.entityAtUnchecked; rw [h.entitiesRaw]

theorem Arch.setEntityAt (h : Arch q a b) (i : Nat) (e : Entity) : Sim (Arch q) (a.setEntityAt i e) (b.setEntityAt i e) := by
  unfold Archetype.setEntityAt
  rw [h.assoc, h.count]
  split
  · exact .error _
  · split
    · split
      · exact .ok ⟨h.desc, h.ptrs, rfl, rfl, h.cap⟩
      · exact .error _
    · exact .error _

theorem Arch.swapEntityAt (h : Arch q a b) (i j : Nat) : Sim (Arch q) (a.swapEntityAt i j) (b.swapEntityAt i j) := by
  unfold Archetype.swapEntityAt
  rw [h.assoc, h.count]
  split
  · exact .error _
  · split
    · split
      · exact .ok ⟨h.desc, h.ptrs, rfl, rfl, h.cap⟩
      · exact .error _
    · exact .error _

theorem Arch.getEntityFuzzySlicesUnchecked (h : Arch q a b) (g : Group) :
    Sim (fun x y => y = x) (a.getEntityFuzzySlicesUnchecked env g) (b.getEntityFuzzySlicesUnchecked env g) := by
  unfold Archetype.getEntityFuzzySlicesUnchecked
  rw [h.fuzzyPointers, h.count, h.entities]
  exact Sim.same rfl (fun _ => Sim.same rfl (fun es => Sim.same rfl (fun s => Sim.bind (Sim.mapM h.readSliceRef s) (fun _ _ hx => by
    subst hx; exact .pure rfl))))

theorem Arch.getEntityFuzzySlicesUncheckedMut (h : Arch q a b) (g : Group) :
    Sim (fun x y => y = x) (a.getEntityFuzzySlicesUncheckedMut env g) (b.getEntityFuzzySlicesUncheckedMut env g) := by
  unfold Archetype.getEntityFuzzySlicesUncheckedMut
  rw [h.fuzzyPointers, h.count, h.entities]
  exact Sim.same rfl (fun _ => Sim.same rfl (fun es => Sim.same rfl (fun s => Sim.bind (Sim.mapM h.readSliceRef s) (fun _ _ _ => .pure rfl))))

/-! ## Capacity -/

theorem Arch.deallocLoop (h : Arch q a b) : ∀ (n i : Nat) (ps ps' : List (Option Block)), Ptrs a.descriptor b.descriptor ps ps' →
    Sim (fun x y => Ptrs a.descriptor b.descriptor x.1 y.1 ∧ y.2 = x.2) (a.deallocLoop n i ps) (b.deallocLoop n i ps')
  | 0, _, _, _, hp => .ok ⟨hp, rfl⟩
  | n + 1, i, ps, ps', hp => by
    unfold Archetype.deallocLoop
    refine Sim.bind (hp.index i) (fun p p' hpp => ?_)
    match p, p', hpp with
    | none, none, _ => exact .pure ⟨hp, rfl⟩
    | some q, some q', hpp =>
      refine Sim.bind (h.desc.indexC i) (fun c c' hc => ?_)
      rw [hc.1.size, h.cap]
      refine Sim.bind (Like.dealloc (p := some q) (p' := some q') (c := c) (c' := c') (by rw [hc.2.1, hc.2.2]; exact hpp) _) (fun _ _ _ => ?_)
      exact Arch.deallocLoop h n (i + 1) _ _ (hp.set trivial)

theorem Arch.dealloc (h : Arch q a b) : Sim (Arch q) a.dealloc b.dealloc := by
  unfold Archetype.dealloc
  rw [h.desc.len, h.assoc, h.cap]
  refine Sim.bind (h.deallocLoop _ _ _ _ h.ptrs) (fun x y hxy => ?_)
  rw [hxy.2]
  split
  · exact .pure ⟨h.desc, hxy.1, rfl, h.count, rfl⟩
  · split
    · exact .error _
    · split
      · exact .error _
      · exact .pure ⟨h.desc, hxy.1, rfl, h.count, rfl⟩

theorem Arch.reallocColumns (h : Arch q a b) (n : Nat) :
    Sim (Ptrs a.descriptor b.descriptor) (Archetype.reallocColumns env a n) (Archetype.reallocColumns env b n) := by
  unfold Archetype.reallocColumns
  rw [h.desc.len]
  refine Sim.forRange (fun i s t hst => ?_) _ _ _ _ h.ptrs
  refine Sim.bind (hst.index i) (fun p p' hp => Sim.bind (h.desc.indexC i) (fun c c' hc => ?_))
  rw [hc.1.size, h.cap]
  refine Sim.bind (hc.1.realloc (by rw [hc.2.1, hc.2.2]; exact hp) _ _) (fun q q' hq => hst.setIndex ?_)
  rw [hc.2.1, hc.2.2] at hq
  exact hq

theorem Arch.resizeCapacity (h : Arch q a b) (n : Int) : Sim (Arch q) (a.resizeCapacity env n) (b.resizeCapacity env n) := by
  unfold Archetype.resizeCapacity
  simp only []
  rw [h.cap, h.assoc]
  split
  · exact h.dealloc
  · split
    · exact .error _
    · split
      · exact .error _
      · exact Sim.bind (h.reallocColumns _) (fun ps ps' hp => .pure ⟨h.desc, hp, rfl, h.count, rfl⟩)

theorem Arch.resizeIfNecessary (h : Arch q a b) : Sim (Arch q) (a.resizeIfNecessary env) (b.resizeIfNecessary env) := by
  unfold Archetype.resizeIfNecessary Archetype.isFull
  rw [h.cap, h.count]
  split
  · exact h.resizeCapacity _
  · exact .ok h

/-! ## Rows -/

theorem writeColumns (gd : ArchetypeDescriptor) (i : Nat) (srcs : List (Option Val)) {d d' : ArchetypeDescriptor}
    {ps ps' : List (Option Block)} (hp : Ptrs d d' ps ps') :
    Sim (Ptrs d d') (Archetype.writeColumns gd i srcs ps) (Archetype.writeColumns gd i srcs ps') := by
  unfold Archetype.writeColumns
  refine Sim.forRange (fun k s t hst => ?_) _ _ _ _ hp
  refine Sim.same rfl (fun c => Sim.bind (hst.indexUnchecked k) (fun p p' hpp => Sim.same rfl (fun src => Sim.same rfl (fun bs => ?_))))
  exact Sim.bind (Ptr2.writeBytes hpp _ _) (fun q q' hq => hst.setIndex hq)

theorem Arch.writeEntityUnchecked (h : Arch q a b) (i : Nat) (e : Entity) (g : Group) (vals : List Val) :
    Sim (Arch q) (a.writeEntityUnchecked env i e g vals) (b.writeEntityUnchecked env i e g vals) := by
  unfold Archetype.writeEntityUnchecked
  rw [h.cap, h.desc.id]
  refine Sim.same rfl (fun _ => Sim.same rfl (fun _ => Sim.same rfl (fun _ => Sim.bind (writeColumns _ _ _ h.ptrs) (fun ps ps' hp => ?_))))
  exact Arch.setEntityAt (a := { a with pointers := ps }) (b := { b with pointers := ps', capacity := a.capacity })
    ⟨h.desc, hp, h.assoc, h.count, rfl⟩ i e

theorem Arch.pushEntityUnchecked (h : Arch q a b) (e : Entity) (g : Group) (vals : List Val) :
    Sim (fun x y => Arch q x.1 y.1 ∧ y.2 = x.2) (a.pushEntityUnchecked env e g vals) (b.pushEntityUnchecked env e g vals) := by
  unfold Archetype.pushEntityUnchecked
  rw [h.desc.id]
  refine Sim.same rfl (fun _ => Sim.same rfl (fun _ => Sim.bind h.resizeIfNecessary (fun a1 b1 h1 => ?_)))
  simp only []
  rw [h1.count]
  exact Sim.bind (Arch.writeEntityUnchecked (a := { a1 with entityCount := a1.entityCount + 1 })
    (b := { b1 with entityCount := a1.entityCount + 1 }) ⟨h1.desc, h1.ptrs, h1.assoc, rfl, h1.cap⟩ _ _ _ _) (fun a2 b2 h2 => .pure ⟨h2, rfl⟩)

theorem Arch.pushUninitializedEntity (h : Arch q a b) :
    Sim (fun x y => Arch q x.1 y.1 ∧ y.2 = x.2) (a.pushUninitializedEntity env) (b.pushUninitializedEntity env) := by
  unfold Archetype.pushUninitializedEntity
  refine Sim.bind h.resizeIfNecessary (fun a1 b1 h1 => ?_)
  rw [h1.count]
  exact .pure ⟨⟨h1.desc, h1.ptrs, h1.assoc, rfl, h1.cap⟩, rfl⟩

theorem Arch.decrementLenUnchecked (h : Arch q a b) : Sim (Arch q) (a.decrementLenUnchecked env) (b.decrementLenUnchecked env) := by
  unfold Archetype.decrementLenUnchecked
  rw [h.count]
  exact Sim.same rfl (fun n => .pure ⟨h.desc, h.ptrs, h.assoc, rfl, h.cap⟩)

theorem Arch.swapColumns (h : Arch q a b) (i j : Nat) : Sim (Ptrs a.descriptor b.descriptor) (a.swapColumns i j) (b.swapColumns i j) := by
  unfold Archetype.swapColumns
  rw [h.desc.components.1]
  refine Sim.forRange (fun k s t hst => ?_) _ _ _ _ h.ptrs
  refine Sim.bind (h.desc.indexC k) (fun c c' hc => Sim.bind (hst.index k) (fun p p' hp => ?_))
  rw [hc.1.size]
  exact Sim.bind (Ptr2.swapBytes hp _ _ _) (fun q q' hq => hst.setIndex hq)

theorem Arch.swapEntities (h : Arch q a b) (i j : Nat) : Sim (Arch q) (a.swapEntities i j) (b.swapEntities i j) := by
  unfold Archetype.swapEntities
  refine Sim.bind (h.swapColumns i j) (fun ps ps' hp => ?_)
  exact Arch.swapEntityAt (a := { a with pointers := ps }) (b := { b with pointers := ps' }) ⟨h.desc, hp, h.assoc, h.count, h.cap⟩ i j

/-- The values dropped: the same ones, or, if handlers may do nothing, some of them. -/
def Dropped (q : Bool) (x y : List Val) : Prop := y.Sublist x ∧ (q = false → y = x)

theorem Dropped.refl (x : List Val) : Dropped q x x := ⟨List.Sublist.refl _, fun _ => rfl⟩

theorem Dropped.append {x y x' y' : List Val} (h : Dropped q x y) (h' : Dropped q x' y') : Dropped q (x ++ x') (y ++ y') :=
  ⟨h.1.append h'.1, fun hq => by rw [h.2 hq, h'.2 hq]⟩

theorem decodeFrom_noPanic (ty : Nat) (k : PanicKind) : ∀ (bs : List (Option TByte)) (n : Nat), decodeFrom ty n bs ≠ .error (.panic k)
  | [], _ => by intro h; cases h
  | none :: _, _ => by intro h; cases h
  | some b :: bs, n => by
    have := decodeFrom_noPanic ty k bs (n + 1)
    unfold decodeFrom
    split
    · cases hx : decodeFrom ty (n + 1) bs with
      | ok l => intro h; cases h
      | error e => intro h; rw [hx] at this; cases h; exact this rfl
    · intro h; cases h

theorem readVal_noPanic (p : Option Block) (ty size align off : Nat) (k : PanicKind) : readVal p ty size align off ≠ .error (.panic k) := by
  intro h
  match p with
  | none => cases h
  | some b =>
    unfold readVal checkAligned readBytes at h
    simp only [] at h
    split at h
    · rw [ok_bind] at h
      split at h
      · rw [ok_bind] at h
        unfold decodeVal at h
        split at h
        · cases h
        · rename_i he; cases h; exact decodeFrom_noPanic _ _ _ _ he
      · cases h
    · cases h

theorem mapRange_noPanic {α : Type} {f : Nat → M α} {k : PanicKind} (hf : ∀ i, f i ≠ .error (.panic k)) :
    ∀ (n lo : Nat), mapRange lo n f ≠ .error (.panic k)
  | 0, _ => by intro h; cases h
  | n + 1, lo => by
    have h1 := hf lo
    have h2 := mapRange_noPanic hf n (lo + 1)
    unfold mapRange
    cases hx : f lo with
    | error e => intro h; rw [hx] at h1; cases h; exact h1 rfl
    | ok a =>
      simp only []
      cases hy : mapRange (lo + 1) n f with
      | error e => intro h; rw [hy] at h2; cases h; exact h2 rfl
      | ok l => intro h; cases h

theorem readSlice_noPanic (p : Option Block) (ty size align off n : Nat) (k : PanicKind) :
    readSlice p ty size align off n ≠ .error (.panic k) := by
  intro h
  match p with
  | none => cases h
  | some b =>
    unfold readSlice checkAligned at h
    simp only [] at h
    split at h
    · rw [ok_bind] at h
      exact mapRange_noPanic (fun i => readVal_noPanic _ _ _ _ _ _) _ _ h
    · cases h

theorem runDropHandler {c c' : ComponentDescriptor} (hc : Like q c c') {k k' : Nat} {p p' : Option Block} (hp : Ptr2 k k' p p') (off n : Nat) :
    Sim (Dropped q) (Archetype.runDropHandler c p off n) (Archetype.runDropHandler c' p' off n) := by
  unfold Archetype.runDropHandler
  rcases hc.drop with hd | ⟨hq, hd⟩
  · rw [hd]
    split
    · exact .ok (.refl _)
    · exact (Ptr2.readSlice hp _ _ _ _ _).mono (fun x y hx => by subst hx; exact .refl _)
  · rw [hd]
    split
    · exact .ok (.refl _)
    · rename_i f _
      match hx : readSlice p f.ty f.size f.align off n, Ptr2.readSlice hp f.ty f.size f.align off n with
      | .ok x, _ => exact ⟨[], rfl, List.nil_sublist _, fun h => by rw [hq] at h; cases h⟩
      | .error (.panic k), _ => exact absurd hx (readSlice_noPanic _ _ _ _ _ _ _)
      | .error (.ub _), _ => trivial

theorem Arch.dropEntity (h : Arch q a b) (i : Nat) : Sim (Dropped q) (a.dropEntity i) (b.dropEntity i) := by
  unfold Archetype.dropEntity
  rw [h.desc.components.1]
  refine Sim.forRange (fun k s t hst => ?_) _ _ _ _ (Dropped.refl _)
  refine Sim.bind (h.desc.indexC k) (fun c c' hc => Sim.bind (h.ptrs.index k) (fun p p' hp => ?_))
  rw [hc.1.size]
  exact Sim.bind (runDropHandler hc.1 hp _ _) (fun x y hx => .pure (hst.append hx))

theorem Arch.dropEntities (h : Arch q a b) : Sim (Dropped q) a.dropEntities b.dropEntities := by
  unfold Archetype.dropEntities
  rw [h.desc.components.1, h.count]
  refine Sim.forRange (fun k s t hst => ?_) _ _ _ _ (Dropped.refl _)
  refine Sim.bind (h.desc.indexC k) (fun c c' hc => Sim.bind (h.ptrs.index k) (fun p p' hp => ?_))
  exact Sim.bind (runDropHandler hc.1 hp _ _) (fun x y hx => .pure (hst.append hx))

theorem Arch.setCount (h : Arch q a b) (n : Nat) : Arch q { a with entityCount := n } { b with entityCount := n } :=
  ⟨h.desc, h.ptrs, h.assoc, rfl, h.cap⟩

theorem Arch.swapDropUnchecked (h : Arch q a b) (i : Nat) :
    Sim (fun x y => Arch q x.1 y.1 ∧ y.2.1 = x.2.1 ∧ Dropped q x.2.2 y.2.2) (a.swapDropUnchecked env i) (b.swapDropUnchecked env i) := by
  unfold Archetype.swapDropUnchecked
  rw [h.count]
  refine Sim.same rfl (fun _ => Sim.same rfl (fun last => ?_))
  split
  · exact Sim.bind (h.dropEntity i) (fun x y hx => Sim.same rfl (fun n => by exact .pure ⟨h.setCount n, rfl, hx⟩))
  · refine Sim.bind (h.swapEntities _ _) (fun a1 b1 h1 => ?_)
    rw [h1.count]
    exact Sim.same rfl (fun last => Sim.bind (h1.dropEntity _) (fun x y hx => Sim.same rfl (fun n => by
      exact .pure ⟨h1.setCount n, rfl, hx⟩)))

theorem Arch.swapToLastUnchecked (h : Arch q a b) (i : Nat) :
    Sim (fun x y => Arch q x.1 y.1 ∧ y.2 = x.2) (a.swapToLastUnchecked env i) (b.swapToLastUnchecked env i) := by
  unfold Archetype.swapToLastUnchecked
  rw [h.count]
  refine Sim.same rfl (fun _ => Sim.same rfl (fun last => ?_))
  split
  · exact .pure ⟨h, rfl⟩
  · exact Sim.bind (h.swapEntities _ _) (fun a1 b1 h1 => .pure ⟨h1, rfl⟩)

theorem Arch.offsetSorted (h : Arch q a b) (i : Nat) : b.offsetSortedPointersUnchecked i = a.offsetSortedPointersUnchecked i := by
  unfold Archetype.offsetSortedPointersUnchecked
  apply List.map_congr_left
  intro k _
  rw [h.desc.len]
  split
  · simp only [List.getD_eq_getElem?_getD (l := a.pointers), List.getD_eq_getElem?_getD (l := b.pointers)]
    rw [(h.desc.comps.getD k).size]
    cases hx : a.pointers[k]? with
    | none => rw [h.ptrs.none hx]
    | some p =>
      obtain ⟨q, h1, h2⟩ := h.ptrs.get hx
      rw [h1]
      match p, q, h2 with
      | none, none, _ => rfl
      | some _, some _, _ => rfl
  · rfl

theorem Arch.readComponentsExactUnchecked (h : Arch q a b) (g : Group) (i : Nat) :
    Sim (fun x y => y = x) (a.readComponentsExactUnchecked env g i) (b.readComponentsExactUnchecked env g i) := by
  unfold Archetype.readComponentsExactUnchecked
  rw [h.offsetSorted]
  exact h.derefTuple _

theorem Arch.swapRemoveUnchecked (h : Arch q a b) (g : Group) (i : Nat) :
    Sim (fun x y => Arch q x.1 y.1 ∧ y.2 = x.2) (a.swapRemoveUnchecked env g i) (b.swapRemoveUnchecked env g i) := by
  unfold Archetype.swapRemoveUnchecked
  rw [h.count]
  refine Sim.same rfl (fun _ => Sim.same rfl (fun last => ?_))
  split
  · exact Sim.bind (h.readComponentsExactUnchecked g i) (fun x y hx => Sim.same rfl (fun n => by subst hx; exact .pure ⟨h.setCount n, rfl⟩))
  · refine Sim.bind (h.swapEntities _ _) (fun a1 b1 h1 => ?_)
    rw [h1.count]
    exact Sim.same rfl (fun last => Sim.bind (h1.readComponentsExactUnchecked g _) (fun x y hx => Sim.same rfl (fun n => by
      subst hx; exact .pure ⟨h1.setCount n, rfl⟩)))

theorem copyCommonComponents {s s' d d' : Archetype} (hs : Arch q s s') (hd : Arch q d d') (i j : Nat) :
    Sim (Arch q) (Archetype.copyCommonComponents s i d j) (Archetype.copyCommonComponents s' i d' j) := by
  unfold Archetype.copyCommonComponents
  rw [hs.desc.components.1]
  refine Sim.bind (R := Ptrs d.descriptor d'.descriptor) (Sim.forRange (fun si ps ps' hp => ?_) _ _ _ _ hd.ptrs) (fun ps ps' hp =>
    .pure ⟨hd.desc, hp, hd.assoc, hd.count, hd.cap⟩)
  refine Sim.bind (hs.desc.indexC si) (fun sc sc' hsc => ?_)
  unfold Archetype.copyCommonInner
  rw [hd.desc.components.1]
  refine Sim.forRange (fun di ps ps' hp => ?_) _ _ _ _ hp
  refine Sim.bind (hd.desc.indexC di) (fun dc dc' hdc => ?_)
  rw [hsc.1.id, hdc.1.id, hsc.1.size, hdc.1.size]
  split
  · exact .pure hp
  · refine Sim.bind (hs.ptrs.index si) (fun sp sp' hsp => Sim.bind (hp.index di) (fun dp dp' hdp => ?_))
    exact Sim.same (Ptr2.readBytes hsp _ _) (fun bs => Sim.bind (Ptr2.writeBytes hdp _ _) (fun q q' hq => hp.setIndex hq))

theorem Arch.drop (h : Arch q a b) : Sim (fun x y => Dropped q x.1 y.1 ∧ Arch q x.2 y.2) a.drop b.drop := by
  unfold Archetype.drop
  rw [h.cap]
  split
  · exact .pure ⟨.refl _, h⟩
  · exact Sim.bind h.dropEntities (fun x y hx => Sim.bind h.dealloc (fun a1 b1 h1 => .pure ⟨hx, h1⟩))

end

end Shard.Align
