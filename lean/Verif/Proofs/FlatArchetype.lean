import Verif.Proofs.FlatColumns
/-!
# Flat memory: the functions that access the rows of an archetype
-/

set_option autoImplicit false

namespace Shard.Flat

variable {A : Allocator} {env : Env} {h h' h'' : Heap}

/-! ## Lists related element by element -/

/-- The lists are related element by element. -/
inductive All2 {α β : Type} (R : α → β → Prop) : List α → List β → Prop
  | nil : All2 R [] []
  | cons {a : α} {b : β} {as : List α} {bs : List β} : R a b → All2 R as bs → All2 R (a :: as) (b :: bs)

theorem All2.mapIdx {α β γ : Type} {R : α → β → Prop} : ∀ (l : List γ) {f : Nat → γ → α} {g : Nat → γ → β},
    (∀ i x, R (f i x) (g i x)) → All2 R (l.mapIdx f) (l.mapIdx g)
  | [], _, _, _ => .nil
  | x :: l, f, g, hr => by
    rw [List.mapIdx_cons, List.mapIdx_cons]
    exact .cons (hr 0 x) (All2.mapIdx l (fun i x => hr (i + 1) x))

theorem All2.get {α β : Type} {R : α → β → Prop} : ∀ {l : List α} {m : List β}, All2 R l m → ∀ (i : Nat),
    (l[i]? = none ∧ m[i]? = none) ∨ ∃ a b, l[i]? = some a ∧ m[i]? = some b ∧ R a b
  | _, _, .nil, i => .inl ⟨rfl, rfl⟩
  | _, _, .cons hab _, 0 => .inr ⟨_, _, rfl, rfl, hab⟩
  | _, _, .cons _ hr, i + 1 => by simpa using hr.get i

theorem All2.map {α β γ δ : Type} {R : α → β → Prop} {S : γ → δ → Prop} {f : α → γ} {g : β → δ}
    (hrs : ∀ a b, R a b → S (f a) (g b)) : ∀ {l : List α} {m : List β}, All2 R l m → All2 S (l.map f) (m.map g)
  | _, _, .nil => .nil
  | _, _, .cons hab hr => .cons (hrs _ _ hab) (hr.map hrs)

/-! ## Archetypes in memory -/

/-- All pointers of an archetype. -/
def FArch.all (a : FArch) : List Ptr := a.entityAssociations :: a.pointers

/-- The contents of the blocks of an archetype. -/
def objs (a : Archetype) : List (Option Obj) := a.entityAssociations.map entObj :: a.pointers.map (Option.map blockObj)

/-- The archetype `fa` in memory `h` holds what `a` holds. -/
structure ARep (h : Heap) (fa : FArch) (a : Archetype) : Prop where
  desc : fa.descriptor = a.descriptor
  count : fa.entityCount = a.entityCount
  cap : fa.capacity = a.capacity
  own : Own h fa.all (objs a)

/-- The address that a reference into the archetype stands for. -/
def PtrAt (fa : FArch) (r : Ref) (p : Ptr) : Prop := ∃ q, fa.pointers[r.col]? = some q ∧ p = q.plus r.off

/-- The reference lies inside a column, or at its end. -/
def InB (a : Archetype) (r : Ref) : Prop := ∃ b, a.pointers[r.col]? = some (some b) ∧ r.off ≤ b.bytes.length

theorem ARep.col {fa : FArch} {a : Archetype} (hA : ARep h fa a) {i : Nat} {ob : Option Block}
    (hi : a.pointers[i]? = some ob) : ∃ p, fa.pointers[i]? = some p ∧ PRep h p (ob.map blockObj) := by
  obtain ⟨p, hp, hr⟩ := hA.own.ptr (i := i + 1) (o := ob.map blockObj) (by simp [objs, hi])
  exact ⟨p, by simpa [FArch.all] using hp, hr⟩

theorem ARep.colInv {fa : FArch} {a : Archetype} (hA : ARep h fa a) {i : Nat} {p : Ptr}
    (hi : fa.pointers[i]? = some p) : ∃ ob, a.pointers[i]? = some ob ∧ PRep h p (ob.map blockObj) := by
  obtain ⟨o, ho, hr⟩ := hA.own.obj (i := i + 1) (p := p) (by simpa [FArch.all] using hi)
  simp only [objs, List.getElem?_cons_succ, List.getElem?_map, Option.map_eq_some_iff] at ho
  obtain ⟨ob, h1, rfl⟩ := ho
  exact ⟨ob, h1, hr⟩

theorem ARep.ents {fa : FArch} {a : Archetype} (hA : ARep h fa a) :
    PRep h fa.entityAssociations (a.entityAssociations.map entObj) := by
  exact hA.own.rep (i := 0) rfl rfl

theorem readRef_inv {a : Archetype} {c : CompTy} {r : Ref} {v : Val} (hr : a.readRef c r = .ok v) :
    ∃ b, a.pointers[r.col]? = some (some b) ∧ Shard.readVal (some b) c.ty c.size c.align r.off = .ok v ∧
      r.off + c.size ≤ b.bytes.length := by
  unfold Archetype.readRef at hr
  obtain ⟨p, h1, h2⟩ := ebind_inv hr
  obtain ⟨b, bs, rfl, _, _, h3, _⟩ := readVal_inv h2
  obtain ⟨b', hb, h4, _⟩ := readBytes_inv h3
  cases hb
  exact ⟨b, index_inv h1, h2, h4⟩

theorem readRef_inB {a : Archetype} {c : CompTy} {r : Ref} {v : Val} (hr : a.readRef c r = .ok v) : InB a r := by
  obtain ⟨b, h1, _, h2⟩ := readRef_inv hr
  exact ⟨b, h1, by omega⟩

theorem readPtr_spec (hw : h.WF) {fa : FArch} {a : Archetype} (hA : ARep h fa a) {c : CompTy} {r : Ref} {p : Ptr} {v : Val}
    (hp : PtrAt fa r p) (hr : a.readRef c r = .ok v) :
    wp A (readVal p c.ty c.size c.align) h (fun w h' => w = v ∧ h' = h) := by
  obtain ⟨q, hq, rfl⟩ := hp
  obtain ⟨b, hb, h1, _⟩ := readRef_inv hr
  obtain ⟨q', hq', hrep⟩ := hA.col hb
  rw [hq] at hq'; cases hq'
  exact readVal_spec hw hrep h1

/-- The state after one column has been changed in place. -/
theorem ARep.setCol (hw : h.WF) {fa : FArch} {a : Archetype} (hA : ARep h fa a) {i : Nat} {q : Ptr} {b : Block}
    (hq : fa.pointers[i]? = some q) (hs : Step h (Slot q) h' (Slot q)) (hr : PRep h' q (some (blockObj b))) :
    ARep h' fa { a with pointers := a.pointers.set i (some b) } ∧ Step h (Fp fa.all) h' (Fp fa.all) := by
  obtain ⟨h1, h2⟩ := hA.own.inPlace hw (i := i + 1) (p := q) (o := some (blockObj b))
    (by simpa [FArch.all] using hq) hs hr
  refine ⟨⟨hA.desc, hA.count, hA.cap, ?_⟩, h2⟩
  have e : objs { a with pointers := a.pointers.set i (some b) } = (objs a).set (i + 1) (some (blockObj b)) := by
    simp [objs, List.map_set]
  rw [e]
  exact h1

/-- The state after the array of handles has been changed in place. -/
theorem ARep.setEnts (hw : h.WF) {fa : FArch} {a : Archetype} (hA : ARep h fa a) {l : List (Option Entity)}
    (hs : Step h (Slot fa.entityAssociations) h' (Slot fa.entityAssociations))
    (hr : PRep h' fa.entityAssociations (some (entObj l))) :
    ARep h' fa { a with entityAssociations := some l } ∧ Step h (Fp fa.all) h' (Fp fa.all) := by
  obtain ⟨h1, h2⟩ := hA.own.inPlace hw (i := 0) (p := fa.entityAssociations) (o := some (entObj l)) rfl hs hr
  exact ⟨⟨hA.desc, hA.count, hA.cap, h1⟩, h2⟩

theorem writeRef_inv {a a' : Archetype} {c : CompTy} {r : Ref} {v : Val} (hr : a.writeRef c r v = .ok a') :
    ∃ b b', a.pointers[r.col]? = some (some b) ∧ checkAligned (some b) c.align r.off = .ok () ∧
      writeBytes (some b) r.off v.encode = .ok b' ∧ r.off ≤ b.bytes.length ∧
      a' = { a with pointers := a.pointers.set r.col (some b') } := by
  unfold Archetype.writeRef at hr
  obtain ⟨p, h1, h2⟩ := ebind_inv hr
  obtain ⟨u, h3, h4⟩ := ebind_inv h2
  obtain ⟨b', h5, h6⟩ := ebind_inv h4
  obtain ⟨b, rfl, _⟩ := checkAligned_inv h3
  obtain ⟨b0, hb, h7, _⟩ := writeBytes_inv h5
  cases hb
  cases h6
  exact ⟨b, b', index_inv h1, h3, h5, by omega, rfl⟩

theorem writePtr_spec (hw : h.WF) {fa : FArch} {a a' : Archetype} (hA : ARep h fa a) {c : CompTy} {r : Ref} {p : Ptr}
    {v : Val} (hp : PtrAt fa r p) (hr : a.writeRef c r v = .ok a') :
    wp A (writeVal p c.align v) h (fun _ h' => ARep h' fa a' ∧ Step h (Fp fa.all) h' (Fp fa.all)) := by
  obtain ⟨q, hq, rfl⟩ := hp
  obtain ⟨b, b', hb, h1, h2, _, rfl⟩ := writeRef_inv hr
  obtain ⟨q', hq', hrep⟩ := hA.col hb
  rw [hq] at hq'; cases hq'
  refine wp_mono (writeVal_spec hw hrep h1 h2) ?_
  rintro _ h' ⟨h3, h4⟩
  exact hA.setCol hw hq h4 h3

/-! ## One component -/

theorem componentPtr_spec {fa : FArch} {a : Archetype} (hA : ARep h fa a) {c : CompTy} {i : Nat} {r : Ref}
    (hr : a.componentRef c i = .ok r) (hin : InB a r) :
    wp A (fa.componentPtr c i) h (fun p h' => PtrAt fa r p ∧ h' = h) := by
  unfold Archetype.componentRef at hr
  unfold FArch.componentPtr
  rw [hA.desc]
  cases hb : binarySearchByKey a.descriptor.components c.id.toNat (fun e => e.id.toNat) with
  | insertAt k => rw [hb] at hr; cases hr
  | found idx =>
    rw [hb] at hr
    cases hr
    obtain ⟨b, h1, h2⟩ := hin
    obtain ⟨q, hq, hrep⟩ := hA.col h1
    refine wp_then (index_ok' hq) (wp_mono (offset_spec hrep h2) ?_)
    rintro p h' ⟨rfl, rfl⟩
    exact ⟨⟨q, hq, rfl⟩, rfl⟩

theorem getComponentUnchecked_spec (hw : h.WF) {fa : FArch} {a : Archetype} (hA : ARep h fa a) {c : CompTy} {i : Nat}
    {v : Val} (hr : a.getComponentUnchecked c i = .ok v) :
    wp A (fa.getComponentUnchecked c i) h (fun w h' => w = v ∧ h' = h) := by
  obtain ⟨r, h1, h2⟩ := ebind_inv hr
  refine wp_bind (wp_mono (componentPtr_spec hA h1 (readRef_inB h2)) ?_)
  rintro p h' ⟨hp, rfl⟩
  exact readPtr_spec hw hA hp h2

theorem readComponentUnchecked_spec (hw : h.WF) {fa : FArch} {a : Archetype} (hA : ARep h fa a) {c : CompTy} {i : Nat}
    {v : Val} (hr : a.readComponentUnchecked c i = .ok v) :
    wp A (fa.readComponentUnchecked c i) h (fun w h' => w = v ∧ h' = h) :=
  getComponentUnchecked_spec hw hA hr

theorem getComponentUncheckedMut_spec (hw : h.WF) {fa : FArch} {a : Archetype} (hA : ARep h fa a) {c : CompTy} {i : Nat}
    {r : Ref} (hr : a.getComponentUncheckedMut c i = .ok r) :
    wp A (fa.getComponentUncheckedMut c i) h (fun p h' => PtrAt fa r p ∧ h' = h) := by
  obtain ⟨r', h1, h2⟩ := ebind_inv hr
  obtain ⟨v, h3, h4⟩ := ebind_inv h2
  cases h4
  refine wp_bind (wp_mono (componentPtr_spec hA h1 (readRef_inB h3)) ?_)
  rintro p h' ⟨hp, rfl⟩
  refine wp_bind (wp_mono (readPtr_spec hw hA hp h3) ?_)
  rintro w h' ⟨rfl, rfl⟩
  exact wp_pure ⟨hp, rfl⟩

theorem writeSingle_spec (hw : h.WF) {fa : FArch} {a a' : Archetype} (hA : ARep h fa a) {c : CompTy} {i : Nat}
    {v : Val} (hr : a.writeSingleComponentUnchecked c i v = .ok a') :
    wp A (fa.writeSingleComponentUnchecked c i v) h
      (fun _ h' => ARep h' fa a' ∧ Step h (Fp fa.all) h' (Fp fa.all)) := by
  obtain ⟨r, h1, h2⟩ := ebind_inv hr
  obtain ⟨b, b', h3, _, _, h4, _⟩ := writeRef_inv h2
  refine wp_bind (wp_mono (componentPtr_spec hA h1 ⟨b, h3, h4⟩) ?_)
  rintro p h' ⟨hp, rfl⟩
  exact writePtr_spec hw hA hp h2

/-! ## Tuples of pointers -/

/-- The address that a nullable reference stands for. -/
def OPtr (fa : FArch) (o : Option Ref) (p : Ptr) : Prop :=
  match o with
  | none => p = Ptr.null
  | some r => PtrAt fa r p

/-- The pointers stand for the references. -/
def Ptrs (fa : FArch) (refs : List (Option Ref)) (ps : List Ptr) : Prop :=
  ps.length = refs.length ∧ ∀ (i : Nat), OPtr fa (refs.getD i none) (ps.getD i Ptr.null)

/-- The references of a tuple and the pointers for them. -/
def TRel (fa : FArch) (x : CompTy × Option Ref) (y : CompTy × Ptr) : Prop := x.1 = y.1 ∧ OPtr fa x.2 y.2

theorem tuplePointers_rel {fa : FArch} {g : Group} {refs : List (Option Ref)} {ps : List Ptr} (hp : Ptrs fa refs ps) :
    All2 (TRel fa) (Archetype.tuplePointers env g refs) (FArch.tuplePointers env g ps) :=
  All2.mapIdx g (fun i c => ⟨rfl, hp.2 (g.slot env i)⟩)

theorem derefTuple_spec (hw : h.WF) {fa : FArch} {a : Archetype} (hA : ARep h fa a) :
    ∀ {refs : List (CompTy × Option Ref)} {ps : List (CompTy × Ptr)} {vs : List Val}, All2 (TRel fa) refs ps →
    a.derefTuple refs = .ok vs → wp A (FArch.derefTuple ps) h (fun ws h' => ws = vs ∧ h' = h)
  | _, _, vs, .nil, hr => by
    cases hr
    exact wp_pure ⟨rfl, rfl⟩
  | (c, o) :: refs, (c', p) :: ps, vs, .cons hx hrest, hr => by
    obtain ⟨hc, ho⟩ := hx
    cases hc
    unfold Archetype.derefTuple at hr
    obtain ⟨v, h1, h2⟩ := ebind_inv hr
    obtain ⟨vs', h3, h4⟩ := ebind_inv h2
    cases h4
    have ih := derefTuple_spec hw hA hrest h3
    cases o with
    | none => cases h1
    | some r =>
      refine wp_bind (wp_mono (readPtr_spec hw hA ho h1) ?_)
      rintro w h' ⟨rfl, rfl⟩
      refine wp_bind (wp_mono ih ?_)
      rintro ws h' ⟨rfl, rfl⟩
      exact wp_pure ⟨rfl, rfl⟩

theorem mapLoop_ptrs {fa : FArch} {refs : List (Option Ref)} {g : Nat → FM Ptr}
    (hg : ∀ i, i < refs.length → wp A (g i) h (fun p h' => OPtr fa (refs.getD i none) p ∧ h' = h)) :
    wp A (mapLoop 0 refs.length g) h (fun ps h' => Ptrs fa refs ps ∧ h' = h) := by
  have key : ∀ (n lo : Nat), lo + n = refs.length →
      wp A (mapLoop lo n g) h (fun ps h' => (ps.length = n ∧
        ∀ i, i < n → OPtr fa (refs.getD (lo + i) none) (ps.getD i Ptr.null)) ∧ h' = h) := by
    intro n
    induction n with
    | zero => intro lo _; exact wp_pure ⟨⟨rfl, fun i hi => by omega⟩, rfl⟩
    | succ n ih =>
      intro lo hlo
      have ih' := ih (lo + 1) (by omega)
      refine wp_bind (wp_mono (hg lo (by omega)) ?_)
      rintro p h' ⟨hp, rfl⟩
      refine wp_bind (wp_mono ih' ?_)
      rintro ps h' ⟨⟨h1, h2⟩, rfl⟩
      refine wp_pure ⟨⟨by simp [h1], fun i hi => ?_⟩, rfl⟩
      cases i with
      | zero => simpa using hp
      | succ i =>
        have := h2 i (by omega)
        rw [show lo + (i + 1) = lo + 1 + i by omega]
        simpa using this
  refine wp_mono (key refs.length 0 (by omega)) ?_
  rintro ps h' ⟨⟨h1, h2⟩, rfl⟩
  refine ⟨⟨h1, fun i => ?_⟩, rfl⟩
  by_cases hi : i < refs.length
  · have := h2 i hi
    rwa [Nat.zero_add] at this
  · rw [List.getD_eq_getElem?_getD, List.getD_eq_getElem?_getD, List.getElem?_eq_none (by omega),
      List.getElem?_eq_none (by omega)]
    rfl

theorem shell_fuzzyFind {fa : FArch} {a : Archetype} (hd : fa.descriptor = a.descriptor) (id : UInt16) :
    ∀ (n i : Nat), fa.shell.fuzzyFind id n i = a.fuzzyFind id n i
  | 0, _ => rfl
  | n + 1, i => by
    unfold Archetype.fuzzyFind
    rw [shell_fuzzyFind hd id n (i + 1)]
    simp only [FArch.shell, hd]

theorem getFuzzyPointers_spec {fa : FArch} {a : Archetype} (hA : ARep h fa a) {g : Group} {off : Nat}
    (hin : ∀ r, some r ∈ a.getFuzzyPointersUnchecked env g off → InB a r) :
    wp A (fa.getFuzzyPointersUnchecked env g off) h
      (fun ps h' => Ptrs fa (a.getFuzzyPointersUnchecked env g off) ps ∧ h' = h) := by
  have hlen : (a.getFuzzyPointersUnchecked env g off).length = MAX_COMPONENTS_PER_ENTITY := by
    simp [Archetype.getFuzzyPointersUnchecked]
  unfold FArch.getFuzzyPointersUnchecked
  rw [← hlen]
  refine mapLoop_ptrs (fun i hi => ?_)
  rw [hlen] at hi
  have hget : ∀ r, (a.getFuzzyPointersUnchecked env g off).getD i none = some r → InB a r := by
    intro r hr
    refine hin r ?_
    rw [List.getD_eq_getElem?_getD] at hr
    cases hx : (a.getFuzzyPointersUnchecked env g off)[i]? with
    | none => rw [hx] at hr; cases hr
    | some y =>
      rw [hx] at hr
      simp only [Option.getD_some] at hr
      subst hr
      exact List.mem_of_getElem? hx
  have hval : (a.getFuzzyPointersUnchecked env g off).getD i none =
      (match (g.descriptor env).archetype.components[i]? with
      | none => none
      | some d =>
        match a.fuzzyFind d.id (a.descriptor.len - i) i with
        | none => none
        | some k => some ⟨k, d.size * off⟩) := by
    unfold Archetype.getFuzzyPointersUnchecked
    rw [List.getD_eq_getElem?_getD, List.getElem?_map, List.getElem?_range hi]
    rfl
  rw [hval] at hget ⊢
  simp only [shell_fuzzyFind hA.desc, hA.desc]
  cases hd : (g.descriptor env).archetype.components[i]? with
  | none => exact wp_pure ⟨rfl, rfl⟩
  | some d =>
    simp only [hd] at hget
    simp only []
    cases hf : a.fuzzyFind d.id (a.descriptor.len - i) i with
    | none => exact wp_pure ⟨rfl, rfl⟩
    | some k =>
      simp only [hf] at hget
      simp only []
      obtain ⟨b, h1, h2⟩ := hget _ rfl
      obtain ⟨q, hq, hrep⟩ := hA.col h1
      refine wp_then (indexUnchecked_ok' hq) (wp_mono (offset_spec hrep h2) ?_)
      rintro p h' ⟨rfl, rfl⟩
      exact ⟨⟨q, hq, rfl⟩, rfl⟩

theorem offsetSorted_spec {fa : FArch} {a : Archetype} (hA : ARep h fa a) {idx : Nat}
    (hlen : a.pointers.length = MAX_COMPONENTS_PER_ENTITY)
    (hin : ∀ r, some r ∈ a.offsetSortedPointersUnchecked idx → InB a r)
    (hnull : ∀ i, i < a.descriptor.len → a.pointers.getD i none = none →
      (a.descriptor.comps.getD i ComponentDescriptor.INVALID).size * idx = 0) :
    wp A (fa.offsetSortedPointersUnchecked idx) h
      (fun ps h' => Ptrs fa (a.offsetSortedPointersUnchecked idx) ps ∧ h' = h) := by
  have hl : (a.offsetSortedPointersUnchecked idx).length = MAX_COMPONENTS_PER_ENTITY := by
    simp [Archetype.offsetSortedPointersUnchecked]
  unfold FArch.offsetSortedPointersUnchecked
  rw [← hl]
  refine mapLoop_ptrs (fun i hi => ?_)
  rw [hl] at hi
  have hval : (a.offsetSortedPointersUnchecked idx).getD i none =
      (if i < a.descriptor.len then
        match a.pointers.getD i none with
        | none => none
        | some _ => some ⟨i, (a.descriptor.comps.getD i ComponentDescriptor.INVALID).size * idx⟩
      else none) := by
    unfold Archetype.offsetSortedPointersUnchecked
    rw [List.getD_eq_getElem?_getD, List.getElem?_map, List.getElem?_range hi]
    rfl
  have hget : ∀ r, (a.offsetSortedPointersUnchecked idx).getD i none = some r → InB a r := by
    intro r hr
    refine hin r ?_
    rw [List.getD_eq_getElem?_getD] at hr
    cases hx : (a.offsetSortedPointersUnchecked idx)[i]? with
    | none => rw [hx] at hr; cases hr
    | some y =>
      rw [hx] at hr
      simp only [Option.getD_some] at hr
      subst hr
      exact List.mem_of_getElem? hx
  rw [hval] at hget ⊢
  rw [hA.desc]
  by_cases hlt : i < a.descriptor.len
  · rw [if_pos hlt] at hget ⊢
    rw [if_pos hlt]
    have hp : ∃ ob, a.pointers[i]? = some ob := ⟨_, List.getElem?_eq_getElem (by omega)⟩
    obtain ⟨ob, hob⟩ := hp
    obtain ⟨q, hq, hrep⟩ := hA.col hob
    have e1 : a.pointers.getD i none = ob := by rw [List.getD_eq_getElem?_getD, hob]; rfl
    have e2 : fa.pointers.getD i Ptr.null = q := by rw [List.getD_eq_getElem?_getD, hq]; rfl
    rw [e1] at hget ⊢
    rw [e2]
    cases ob with
    | none =>
      rw [hnull i hlt e1]
      refine wp_mono (offset_zero q) ?_
      rintro p h' ⟨rfl, rfl⟩
      exact ⟨hrep, rfl⟩
    | some b =>
      obtain ⟨b', h1, h2⟩ := hget _ rfl
      rw [hob] at h1; cases h1
      refine wp_mono (offset_spec hrep h2) ?_
      rintro p h' ⟨rfl, rfl⟩
      exact ⟨⟨q, hq, rfl⟩, rfl⟩
  · rw [if_neg hlt]
    rw [if_neg hlt]
    exact wp_pure ⟨rfl, rfl⟩

theorem debugAssert_inv {b : Bool} {u : Unit} (hd : debugAssert env b = .ok u) : debugAssert env b = .ok () := hd

theorem getFuzzyComponents_spec (hw : h.WF) {fa : FArch} {a : Archetype} (hA : ARep h fa a) {g : Group} {i : Nat}
    {vs : List Val} (hin : ∀ r, some r ∈ a.getFuzzyPointersUnchecked env g i → InB a r)
    (hr : a.getFuzzyComponentsUnchecked env g i = .ok vs) :
    wp A (fa.getFuzzyComponentsUnchecked env g i) h (fun ws h' => ws = vs ∧ h' = h) := by
  obtain ⟨u, h1, h2⟩ := ebind_inv hr
  refine wp_then h1 (wp_bind (wp_mono (getFuzzyPointers_spec hA hin) ?_))
  rintro ps h' ⟨hp, rfl⟩
  exact derefTuple_spec hw hA (tuplePointers_rel hp) h2

theorem getFuzzyComponentsMut_spec (hw : h.WF) {fa : FArch} {a : Archetype} (hA : ARep h fa a) {g : Group} {i : Nat}
    {refs : List (CompTy × Option Ref)} (hin : ∀ r, some r ∈ a.getFuzzyPointersUnchecked env g i → InB a r)
    (hr : a.getFuzzyComponentsUncheckedMut env g i = .ok refs) :
    wp A (fa.getFuzzyComponentsUncheckedMut env g i) h (fun ps h' => All2 (TRel fa) refs ps ∧ h' = h) := by
  obtain ⟨u, h1, h2⟩ := ebind_inv hr
  obtain ⟨vs, h3, h4⟩ := ebind_inv h2
  cases h4
  refine wp_then h1 (wp_bind (wp_mono (getFuzzyPointers_spec hA hin) ?_))
  rintro ps h' ⟨hp, rfl⟩
  refine wp_bind (wp_mono (derefTuple_spec hw hA (tuplePointers_rel hp) h3) ?_)
  rintro ws h' ⟨rfl, rfl⟩
  exact wp_pure ⟨tuplePointers_rel hp, rfl⟩

theorem readComponentsExact_spec (hw : h.WF) {fa : FArch} {a : Archetype} (hA : ARep h fa a) {g : Group} {idx : Nat}
    (hlen : a.pointers.length = MAX_COMPONENTS_PER_ENTITY)
    (hin : ∀ r, some r ∈ a.offsetSortedPointersUnchecked idx → InB a r)
    (hnull : ∀ i, i < a.descriptor.len → a.pointers.getD i none = none →
      (a.descriptor.comps.getD i ComponentDescriptor.INVALID).size * idx = 0)
    {vs : List Val} (hr : a.readComponentsExactUnchecked env g idx = .ok vs) :
    wp A (fa.readComponentsExactUnchecked env g idx) h (fun ws h' => ws = vs ∧ h' = h) := by
  unfold FArch.readComponentsExactUnchecked
  refine wp_bind (wp_mono (offsetSorted_spec hA hlen hin hnull) ?_)
  rintro ps h' ⟨hp, rfl⟩
  exact derefTuple_spec hw hA (tuplePointers_rel hp) hr

/-! ## Slices -/

/-- A slice and the addresses it stands for. -/
def SRel (fa : FArch) (s : SliceRef) (t : FSlice) : Prop := s.cty = t.cty ∧ s.len = t.len ∧ PtrAt fa s.base t.base

theorem sliceTuple_rel {fa : FArch} {g : Group} {len : Nat} : ∀ {refs : List (CompTy × Option Ref)}
    {ps : List (CompTy × Ptr)} {ss : List SliceRef}, All2 (TRel fa) refs ps →
    refs.mapM (fun cp => match cp.2 with
      | none => (.error (.ub .nullDeref) : M SliceRef)
      | some r => .ok ⟨cp.1, r, len⟩) = .ok ss →
    All2 (SRel fa) ss (ps.map (fun cp => (⟨cp.1, cp.2, len⟩ : FSlice)))
  | _, _, ss, .nil, hr => by
    cases hr
    exact .nil
  | (c, o) :: refs, (c', p) :: ps, ss, .cons hx hrest, hr => by
    rw [List.mapM_cons] at hr
    obtain ⟨s, h1, h2⟩ := ebind_inv hr
    obtain ⟨ss', h3, h4⟩ := ebind_inv h2
    cases h4
    obtain ⟨hc, ho⟩ := hx
    cases hc
    cases o with
    | none => cases h1
    | some r =>
      cases h1
      exact .cons ⟨rfl, rfl, ho⟩ (sliceTuple_rel (g := g) hrest h3)

theorem readSliceRef_inv {a : Archetype} {s : SliceRef} {vs : List Val} (hr : a.readSliceRef s = .ok vs) :
    ∃ b, a.pointers[s.base.col]? = some (some b) ∧
      Shard.readSlice (some b) s.cty.ty s.cty.size s.cty.align s.base.off s.len = .ok vs := by
  obtain ⟨p, h1, h2⟩ := ebind_inv hr
  cases p with
  | none => cases h2
  | some b => exact ⟨b, index_inv h1, h2⟩

theorem readSlices_spec (hw : h.WF) {fa : FArch} {a : Archetype} (hA : ARep h fa a) :
    ∀ {ss : List SliceRef} {ts : List FSlice} {vss : List (List Val)}, All2 (SRel fa) ss ts →
    (∀ s ∈ ss, s.base.off = 0) → ss.mapM a.readSliceRef = .ok vss →
    wp A (FArch.readSlices ts) h (fun wss h' => wss = vss ∧ h' = h)
  | _, _, vss, .nil, _, hr => by
    cases hr
    exact wp_pure ⟨rfl, rfl⟩
  | s :: ss, t :: ts, vss, .cons hx hrest, h0, hr => by
    rw [List.mapM_cons] at hr
    obtain ⟨vs, h1, h2⟩ := ebind_inv hr
    obtain ⟨vss', h3, h4⟩ := ebind_inv h2
    cases h4
    have ih := readSlices_spec hw hA hrest (fun s hs => h0 s (List.mem_cons_of_mem _ hs)) h3
    obtain ⟨e1, e2, q, hq, e3⟩ := hx
    obtain ⟨b, hb, h5⟩ := readSliceRef_inv h1
    obtain ⟨q', hq', hrep⟩ := hA.col hb
    rw [hq] at hq'; cases hq'
    unfold FArch.readSlices
    rw [← e1, ← e2, e3]
    refine wp_bind (wp_mono (readSlice_spec hw hrep (by rw [h0 s (List.mem_cons_self ..)]; omega) h5) ?_)
    rintro w h' ⟨rfl, rfl⟩
    refine wp_bind (wp_mono ih ?_)
    rintro ws h' ⟨rfl, rfl⟩
    exact wp_pure ⟨rfl, rfl⟩

theorem sliceTuple_off {g : Group} {refs : List (Option Ref)} {len : Nat} {ss : List SliceRef}
    (h0 : ∀ r, some r ∈ refs → r.off = 0) (hr : Archetype.sliceTuple env g refs len = .ok ss) :
    ∀ s ∈ ss, s.base.off = 0 := by
  unfold Archetype.sliceTuple at hr
  have hm : ∀ x ∈ Archetype.tuplePointers env g refs, ∀ r, x.2 = some r → r.off = 0 := by
    intro x hx r hr
    obtain ⟨i, hi⟩ := List.getElem?_of_mem hx
    unfold Archetype.tuplePointers at hi
    rw [List.getElem?_mapIdx, Option.map_eq_some_iff] at hi
    obtain ⟨c, _, rfl⟩ := hi
    refine h0 r ?_
    simp only at hr
    rw [List.getD_eq_getElem?_getD] at hr
    cases hx : refs[g.slot env i]? with
    | none => rw [hx] at hr; cases hr
    | some y =>
      rw [hx] at hr
      simp only [Option.getD_some] at hr
      subst hr
      exact List.mem_of_getElem? hx
  revert hm hr
  generalize Archetype.tuplePointers env g refs = l
  intro hr hm
  induction l generalizing ss with
  | nil => cases hr; intro s hs; cases hs
  | cons x l ih =>
    rw [List.mapM_cons] at hr
    obtain ⟨s, h1, h2⟩ := ebind_inv hr
    obtain ⟨ss', h3, h4⟩ := ebind_inv h2
    cases h4
    intro t ht
    rcases List.mem_cons.mp ht with rfl | ht
    · cases ho : x.2 with
      | none => simp only [ho] at h1; cases h1
      | some r =>
        simp only [ho] at h1
        cases h1
        exact hm x (List.mem_cons_self ..) r ho
    · exact ih h3 (fun y hy => hm y (List.mem_cons_of_mem _ hy)) t ht

theorem fuzzy_off {a : Archetype} {g : Group} {r : Ref} (hr : some r ∈ a.getFuzzyPointersUnchecked env g 0) : r.off = 0 := by
  unfold Archetype.getFuzzyPointersUnchecked at hr
  obtain ⟨i, _, h1⟩ := List.mem_map.mp hr
  split at h1
  · cases h1
  · split at h1
    · cases h1
    · cases h1; simp

theorem base_off {a : Archetype} {r : Ref} (hr : some r ∈ a.basePointers) : r.off = 0 := by
  unfold Archetype.basePointers at hr
  obtain ⟨i, hi⟩ := List.getElem?_of_mem hr
  rw [List.getElem?_mapIdx, Option.map_eq_some_iff] at hi
  obtain ⟨p, _, h1⟩ := hi
  cases p with
  | none => cases h1
  | some b => cases h1; rfl

/-- `pointers` as references. -/
theorem basePointers_ptrs {fa : FArch} {a : Archetype} (hA : ARep h fa a) : Ptrs fa a.basePointers fa.pointers := by
  have hlen := hA.own.len
  simp only [FArch.all, objs, List.length_cons, List.length_map, Nat.add_right_cancel_iff] at hlen
  refine ⟨by simp [Archetype.basePointers, hlen], fun i => ?_⟩
  by_cases hi : i < a.pointers.length
  · have hob : a.pointers[i]? = some a.pointers[i] := List.getElem?_eq_getElem hi
    obtain ⟨q, hq, hrep⟩ := hA.col hob
    rw [List.getD_eq_getElem?_getD, List.getD_eq_getElem?_getD, hq]
    unfold Archetype.basePointers
    rw [List.getElem?_mapIdx, hob]
    cases hx : a.pointers[i] with
    | none => rw [hx] at hrep; exact hrep
    | some b => exact ⟨q, hq, rfl⟩
  · rw [List.getD_eq_getElem?_getD, List.getD_eq_getElem?_getD,
      List.getElem?_eq_none (by simp [Archetype.basePointers]; omega), List.getElem?_eq_none (by omega)]
    rfl

section
variable {fa : FArch} {a : Archetype} {g : Group}

theorem getSlicesExactMut_spec (hw : h.WF) (hA : ARep h fa a) {ss : List SliceRef}
    (hr : a.getSlicesUncheckedExactMut env g = .ok ss) :
    wp A (fa.getSlicesUncheckedExactMut env g) h (fun ts h' => All2 (SRel fa) ss ts ∧ h' = h) := by
  obtain ⟨u, h1, h2⟩ := ebind_inv hr
  obtain ⟨s, h3, h4⟩ := ebind_inv h2
  obtain ⟨vs, h5, h6⟩ := ebind_inv h4
  cases h6
  unfold FArch.getSlicesUncheckedExactMut
  have hrel := sliceTuple_rel (g := g) (tuplePointers_rel (env := env) (g := g) (basePointers_ptrs hA)) h3
  rw [← hA.count] at hrel
  refine wp_then (by rw [hA.desc]; exact h1) (wp_bind (wp_mono
    (readSlices_spec hw hA hrel (sliceTuple_off (fun r hr => base_off hr) h3) h5) ?_))
  rintro ws h' ⟨rfl, rfl⟩
  exact wp_pure ⟨hrel, rfl⟩

theorem getSlicesExact_spec (hw : h.WF) (hA : ARep h fa a) {vss : List (List Val)}
    (hr : a.getSlicesUncheckedExact env g = .ok vss) :
    wp A (fa.getSlicesUncheckedExact env g) h (fun wss h' => wss = vss ∧ h' = h) := by
  obtain ⟨u, h1, h2⟩ := ebind_inv hr
  obtain ⟨s, h3, h5⟩ := ebind_inv h2
  have hrel := sliceTuple_rel (g := g) (tuplePointers_rel (env := env) (g := g) (basePointers_ptrs hA)) h3
  rw [← hA.count] at hrel
  exact wp_then (by rw [hA.desc]; exact h1) (readSlices_spec hw hA hrel (sliceTuple_off (fun r hr => base_off hr) h3) h5)

theorem getFuzzySlices_spec (hw : h.WF) (hA : ARep h fa a) {vss : List (List Val)}
    (hin : ∀ r, some r ∈ a.getFuzzyPointersUnchecked env g 0 → InB a r)
    (hr : a.getFuzzySlicesUnchecked env g = .ok vss) :
    wp A (fa.getFuzzySlicesUnchecked env g) h (fun wss h' => wss = vss ∧ h' = h) := by
  obtain ⟨u, h1, h2⟩ := ebind_inv hr
  obtain ⟨s, h3, h5⟩ := ebind_inv h2
  refine wp_then h1 (wp_bind (wp_mono (getFuzzyPointers_spec hA hin) ?_))
  rintro ps h' ⟨hp, rfl⟩
  have hrel := sliceTuple_rel (g := g) (tuplePointers_rel (env := env) (g := g) hp) h3
  rw [← hA.count] at hrel
  exact readSlices_spec hw hA hrel (sliceTuple_off (fun r hr => fuzzy_off hr) h3) h5

theorem getFuzzySlicesMut_spec (hw : h.WF) (hA : ARep h fa a) {ss : List SliceRef}
    (hin : ∀ r, some r ∈ a.getFuzzyPointersUnchecked env g 0 → InB a r)
    (hr : a.getFuzzySlicesUncheckedMut env g = .ok ss) :
    wp A (fa.getFuzzySlicesUncheckedMut env g) h (fun ts h' => All2 (SRel fa) ss ts ∧ h' = h) := by
  obtain ⟨u, h1, h2⟩ := ebind_inv hr
  obtain ⟨s, h3, h4⟩ := ebind_inv h2
  obtain ⟨vs, h5, h6⟩ := ebind_inv h4
  cases h6
  refine wp_then h1 (wp_bind (wp_mono (getFuzzyPointers_spec hA hin) ?_))
  rintro ps h' ⟨hp, rfl⟩
  have hrel := sliceTuple_rel (g := g) (tuplePointers_rel (env := env) (g := g) hp) h3
  rw [← hA.count] at hrel
  refine wp_bind (wp_mono (readSlices_spec hw hA hrel (sliceTuple_off (fun r hr => fuzzy_off hr) h3) h5) ?_)
  rintro ws h' ⟨rfl, rfl⟩
  exact wp_pure ⟨hrel, rfl⟩

/-! ## Handles -/

theorem entitiesRaw_inv {l : List (Option Entity)} (hr : a.entitiesRaw = .ok l) :
    ∃ l0, a.entityAssociations = some l0 ∧ a.entityCount ≤ l0.length ∧ l = l0.take a.entityCount := by
  unfold Archetype.entitiesRaw at hr
  cases he : a.entityAssociations with
  | none => rw [he] at hr; cases hr
  | some l0 =>
    rw [he] at hr
    simp only at hr
    by_cases h1 : a.entityCount ≤ l0.length
    · rw [if_pos h1] at hr; cases hr; exact ⟨l0, rfl, h1, rfl⟩
    · rw [if_neg h1] at hr; cases hr

theorem entitySlice_spec (hw : h.WF) (hA : ARep h fa a) {l0 : List (Option Entity)} (he : a.entityAssociations = some l0)
    (hc : a.entityCount ≤ l0.length) : wp A fa.entitySlice h (fun _ h' => h' = h) := by
  have hp := hA.ents
  rw [he] at hp
  unfold FArch.entitySlice rawSlice
  refine wp_bind (wp_mono (aligned_spec hw hp (off := 0) (align := 4) (by simp [entObj]) (by simp)) ?_)
  rintro _ h' rfl
  refine .inl ⟨(), h', ?_, rfl⟩
  simp only []
  have hb := PRep.inBounds hp (off := 0) (n := 4 * fa.entityCount) (by simp only [entObj]; rw [hA.count]; omega)
  have e0 : fa.entityAssociations.plus 0 = fa.entityAssociations := rfl
  rw [e0] at hb
  rw [if_pos hb]

theorem readEntity_spec (hA : ARep h fa a) {l0 : List (Option Entity)} (he : a.entityAssociations = some l0) {i : Nat}
    {e : Entity} (hi : l0[i]? = some (some e)) : wp A (fa.readEntity i) h (fun x h' => x = e ∧ h' = h) := by
  have hp := hA.ents
  rw [he] at hp
  refine wp_bind (wp_mono (readEnt_spec hp hi) ?_)
  rintro cs h' ⟨rfl, rfl⟩
  exact wp_lift (decodeEntity_cells e) ⟨rfl, rfl⟩

theorem initEntity_inv {o : Option Entity} {e : Entity} (h : Archetype.initEntity o = .ok e) : o = some e := by
  cases o with
  | none => cases h
  | some x => cases h; rfl

theorem take_get {α : Type} {l : List α} {n i : Nat} {x : α} (h : (l.take n)[i]? = some x) : i < n ∧ l[i]? = some x := by
  rw [List.getElem?_take] at h
  split at h
  · exact ⟨by assumption, h⟩
  · cases h

theorem entityAt_spec (hw : h.WF) (hA : ARep h fa a) {i : Nat} {e : Entity} (hr : a.entityAt i = .ok e) :
    wp A (fa.entityAt i) h (fun x h' => x = e ∧ h' = h) := by
  obtain ⟨l, h1, h2⟩ := ebind_inv hr
  obtain ⟨o, h3, h4⟩ := ebind_inv h2
  obtain ⟨l0, he, hc, rfl⟩ := entitiesRaw_inv h1
  obtain ⟨h5, h6⟩ := take_get (index_inv h3)
  rw [initEntity_inv h4] at h6
  refine wp_bind (wp_mono (entitySlice_spec hw hA he hc) ?_)
  rintro _ h' rfl
  exact wp_then (ensure_ok (by simp [hA.count, h5])) (readEntity_spec hA he h6)

theorem entityAtUnchecked_spec (hw : h.WF) (hA : ARep h fa a) {i : Nat} {e : Entity}
    (hr : a.entityAtUnchecked i = .ok e) : wp A (fa.entityAtUnchecked i) h (fun x h' => x = e ∧ h' = h) := by
  obtain ⟨l, h1, h2⟩ := ebind_inv hr
  obtain ⟨o, h3, h4⟩ := ebind_inv h2
  obtain ⟨l0, he, hc, rfl⟩ := entitiesRaw_inv h1
  obtain ⟨h5, h6⟩ := take_get (indexUnchecked_inv h3)
  rw [initEntity_inv h4] at h6
  refine wp_bind (wp_mono (entitySlice_spec hw hA he hc) ?_)
  rintro _ h' rfl
  exact wp_then (ensure_ok (by simp [hA.count, h5])) (readEntity_spec hA he h6)

theorem mapM_init_inv : ∀ {l : List (Option Entity)} {es : List Entity}, l.mapM Archetype.initEntity = .ok es →
    l = es.map some
  | [], es, hr => by cases hr; rfl
  | o :: l, es, hr => by
    rw [List.mapM_cons] at hr
    obtain ⟨e, h1, h2⟩ := ebind_inv hr
    obtain ⟨es', h3, h4⟩ := ebind_inv h2
    cases h4
    rw [initEntity_inv h1, mapM_init_inv h3]; rfl

theorem mapRange_list {α : Type} (l : List α) : ∀ (n lo : Nat), lo + n = l.length →
    mapRange lo n (fun i => index l i) = .ok (l.drop lo)
  | 0, lo, hlo => by
    rw [List.drop_eq_nil_of_le (by omega)]; rfl
  | n + 1, lo, hlo => by
    have hi : index l lo = .ok l[lo] := index_ok' (List.getElem?_eq_getElem (by omega))
    unfold mapRange
    simp only [hi, mapRange_list l n (lo + 1) (by omega)]
    rw [List.drop_eq_getElem_cons (i := lo) (by omega)]

theorem entities_spec (hw : h.WF) (hA : ARep h fa a) {es : List Entity} (hr : a.entities = .ok es) :
    wp A fa.entities h (fun xs h' => xs = es ∧ h' = h) := by
  obtain ⟨l, h1, h2⟩ := ebind_inv hr
  obtain ⟨l0, he, hc, rfl⟩ := entitiesRaw_inv h1
  have h3 := mapM_init_inv h2
  have hlen : es.length = a.entityCount := by
    have := congrArg List.length h3
    simp only [List.length_take, List.length_map] at this
    omega
  refine wp_bind (wp_mono (entitySlice_spec hw hA he hc) ?_)
  rintro _ h' rfl
  rw [hA.count, ← hlen]
  refine wp_mapLoop (f := fun i => index es i) ?_ (by simpa using mapRange_list es es.length 0 (by omega))
  intro i e _ _ hi
  refine readEntity_spec hA he ?_
  have h4 : (l0.take a.entityCount)[i]? = some (some e) := by
    rw [h3, List.getElem?_map, index_inv hi]; rfl
  exact (take_get h4).2

theorem setEntityAt_spec (hw : h.WF) (hA : ARep h fa a) {i : Nat} {e : Entity} {a' : Archetype}
    (hr : a.setEntityAt i e = .ok a') :
    wp A (fa.setEntityAt i e) h (fun _ h' => ARep h' fa a' ∧ Step h (Fp fa.all) h' (Fp fa.all)) := by
  unfold Archetype.setEntityAt at hr
  cases he : a.entityAssociations with
  | none => rw [he] at hr; cases hr
  | some l0 =>
    rw [he] at hr
    simp only at hr
    by_cases h1 : a.entityCount ≤ l0.length
    · rw [if_pos h1] at hr
      by_cases h2 : i < a.entityCount
      · rw [if_pos h2] at hr
        cases hr
        refine wp_bind (wp_mono (entitySlice_spec hw hA he h1) ?_)
        rintro _ h' rfl
        refine wp_then (ensure_ok (by simp [hA.count, h2])) ?_
        have hp := hA.ents
        rw [he] at hp
        refine wp_mono (writeEnt_spec hw hp (o := some e) (i := i) (by omega)) ?_
        rintro _ h2 ⟨h3, h4⟩
        exact hA.setEnts hw h4 h3
      · rw [if_neg h2] at hr; cases hr
    · rw [if_neg h1] at hr; cases hr

theorem swapEntityAt_spec (hw : h.WF) (hA : ARep h fa a) {i j : Nat} {a' : Archetype}
    (hr : a.swapEntityAt i j = .ok a') :
    wp A (fa.swapEntityAt i j) h (fun _ h' => ARep h' fa a' ∧ Step h (Fp fa.all) h' (Fp fa.all)) := by
  unfold Archetype.swapEntityAt at hr
  cases he : a.entityAssociations with
  | none => rw [he] at hr; cases hr
  | some l0 =>
    rw [he] at hr
    simp only at hr
    by_cases h1 : a.entityCount ≤ l0.length
    · rw [if_pos h1] at hr
      by_cases h2 : i < a.entityCount ∧ j < a.entityCount
      · rw [if_pos h2] at hr
        cases hr
        refine wp_bind (wp_mono (entitySlice_spec hw hA he h1) ?_)
        rintro _ h' rfl
        refine wp_then (ensure_ok (by simp [hA.count, h2])) ?_
        have hp := hA.ents
        rw [he] at hp
        have gi : l0[i]? = some (l0.getD i none) := by
          rw [List.getD_eq_getElem?_getD, List.getElem?_eq_getElem (by omega)]; rfl
        have gj : l0[j]? = some (l0.getD j none) := by
          rw [List.getD_eq_getElem?_getD, List.getElem?_eq_getElem (by omega)]; rfl
        refine wp_bind (wp_mono (readEnt_spec hp gi) ?_)
        rintro _ h' ⟨rfl, rfl⟩
        refine wp_bind (wp_mono (readEnt_spec hp gj) ?_)
        rintro _ h' ⟨rfl, rfl⟩
        refine wp_bind (wp_mono (writeEnt_spec hw hp (o := l0.getD j none) (i := i) (by omega)) ?_)
        rintro _ h2 ⟨h3, h4⟩
        refine wp_mono (writeEnt_spec h4.wf h3 (o := l0.getD i none) (i := j) (by rw [List.length_set]; omega)) ?_
        rintro _ h5 ⟨h6, h7⟩
        exact hA.setEnts hw (h4.trans h7) h6
      · rw [if_neg h2] at hr; cases hr
    · rw [if_neg h1] at hr; cases hr

theorem getEntityFuzzySlices_spec (hw : h.WF) (hA : ARep h fa a) {x : List Entity × List (List Val)}
    (hin : ∀ r, some r ∈ a.getFuzzyPointersUnchecked env g 0 → InB a r)
    (hr : a.getEntityFuzzySlicesUnchecked env g = .ok x) :
    wp A (fa.getEntityFuzzySlicesUnchecked env g) h (fun y h' => y = x ∧ h' = h) := by
  obtain ⟨u, h1, h2⟩ := ebind_inv hr
  obtain ⟨es, he, h2⟩ := ebind_inv h2
  obtain ⟨s, h3, h4⟩ := ebind_inv h2
  obtain ⟨vs, h5, h6⟩ := ebind_inv h4
  cases h6
  refine wp_then h1 (wp_bind (wp_mono (entities_spec hw hA he) ?_))
  rintro es h' ⟨rfl, rfl⟩
  refine wp_bind (wp_mono (getFuzzyPointers_spec hA hin) ?_)
  rintro ps h' ⟨hp, rfl⟩
  have hrel := sliceTuple_rel (g := g) (tuplePointers_rel (env := env) (g := g) hp) h3
  rw [← hA.count] at hrel
  refine wp_bind (wp_mono (readSlices_spec hw hA hrel (sliceTuple_off (fun r hr => fuzzy_off hr) h3) h5) ?_)
  rintro ws h' ⟨rfl, rfl⟩
  exact wp_pure ⟨rfl, rfl⟩

theorem getEntityFuzzySlicesMut_spec (hw : h.WF) (hA : ARep h fa a) {x : List Entity × List SliceRef}
    (hin : ∀ r, some r ∈ a.getFuzzyPointersUnchecked env g 0 → InB a r)
    (hr : a.getEntityFuzzySlicesUncheckedMut env g = .ok x) :
    wp A (fa.getEntityFuzzySlicesUncheckedMut env g) h
      (fun y h' => (x.1 = y.1 ∧ All2 (SRel fa) x.2 y.2) ∧ h' = h) := by
  obtain ⟨u, h1, h2⟩ := ebind_inv hr
  obtain ⟨es, he, h2⟩ := ebind_inv h2
  obtain ⟨s, h3, h4⟩ := ebind_inv h2
  obtain ⟨vs, h5, h6⟩ := ebind_inv h4
  cases h6
  refine wp_then h1 (wp_bind (wp_mono (entities_spec hw hA he) ?_))
  rintro es h' ⟨rfl, rfl⟩
  refine wp_bind (wp_mono (getFuzzyPointers_spec hA hin) ?_)
  rintro ps h' ⟨hp, rfl⟩
  have hrel := sliceTuple_rel (g := g) (tuplePointers_rel (env := env) (g := g) hp) h3
  rw [← hA.count] at hrel
  refine wp_bind (wp_mono (readSlices_spec hw hA hrel (sliceTuple_off (fun r hr => fuzzy_off hr) h3) h5) ?_)
  rintro ws h' ⟨rfl, rfl⟩
  exact wp_pure ⟨⟨rfl, hrel⟩, rfl⟩

end

end Shard.Flat
