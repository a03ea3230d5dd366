import Verif.Proofs.Oom
import Verif.Proofs.Home
/-!
# Panics inside `add_component` and `remove_component`
-/

namespace Shard

open Archetype

variable {env : Env} {W : World env} {r : Registry} {cs : List Content} {fail : Nat → Bool}

theorem map_bind_M {α β γ : Type} (x : M α) (g : α → M β) (f : β → γ) :
    Except.map f (x >>= g) = x >>= fun a => Except.map f (g a) := by
  cases x <;> rfl

/-! ## No failure -/

theorem pushUninitializedOom_calm {a : Archetype} (h0 : 0 < a.capacity)
    (h : a.entityCount = a.capacity → a.capacity < 8388608 → ∀ k, k ≤ a.descriptor.len → fail k = false) :
    a.pushUninitializedOom fail env = (a.pushUninitializedEntity env).map (fun x => (x.1, some x.2)) := by
  unfold pushUninitializedOom pushUninitializedEntity
  rw [resizeIfNecessaryOom_calm h0 h]
  cases a.resizeIfNecessary env <;> rfl

theorem findOrCreateAddingOom_calm {ar : ArchetypeRegistry} {src : UInt16} {cd : ComponentDescriptor} {a : Archetype}
    (ha : ar.archetypes[src.toNat]? = some a) {o : Option ArchetypeDescriptor} (hn : a.descriptor.addComponent env cd = .ok o)
    (h : ∀ d, o = some d → ar.findOrCreateOom fail env d = (ar.findOrCreateArchetype env d).map some) :
    ar.findOrCreateAddingOom fail env src cd = (ar.findOrCreateAdding env src cd).map some := by
  have hlt := (List.getElem?_eq_some_iff.mp ha).1
  unfold ArchetypeRegistry.findOrCreateAddingOom ArchetypeRegistry.findOrCreateAdding
  rw [if_neg (by omega), if_neg (by omega), index_of_getElem? ha]
  simp only [ok_bind]
  rw [hn]
  cases o with
  | none => rfl
  | some d =>
    simp only [ok_bind]
    unfold ArchetypeRegistry.findOrCreateWithOom
    simp only []
    rw [h d rfl]
    cases ar.findOrCreateArchetype env d with
    | error e => rfl
    | ok f =>
      obtain ⟨ar', o⟩ := f
      simp only [Except.map, ok_bind]
      cases o with
      | none => rfl
      | some dst =>
        simp only []
        cases disjointMut ar'.archetypes src.toNat dst.toNat <;> rfl

theorem findOrCreateRemovingOom_calm {ar : ArchetypeRegistry} {src : UInt16} {cd : ComponentDescriptor} {a : Archetype}
    (ha : ar.archetypes[src.toNat]? = some a) {o : Option ArchetypeDescriptor} (hn : a.descriptor.removeComponent env cd.id = .ok o)
    (h : ∀ d, o = some d → ar.findOrCreateOom fail env d = (ar.findOrCreateArchetype env d).map some) :
    ar.findOrCreateRemovingOom fail env src cd = (ar.findOrCreateRemoving env src cd).map some := by
  have hlt := (List.getElem?_eq_some_iff.mp ha).1
  unfold ArchetypeRegistry.findOrCreateRemovingOom ArchetypeRegistry.findOrCreateRemoving
  rw [if_neg (by omega), if_neg (by omega), index_of_getElem? ha]
  simp only [ok_bind]
  rw [hn]
  cases o with
  | none => rfl
  | some d =>
    simp only [ok_bind]
    unfold ArchetypeRegistry.findOrCreateWithOom
    simp only []
    rw [h d rfl]
    cases ar.findOrCreateArchetype env d with
    | error e => rfl
    | ok f =>
      obtain ⟨ar', o⟩ := f
      simp only [Except.map, ok_bind]
      cases o with
      | none => rfl
      | some dst =>
        simp only []
        cases disjointMut ar'.archetypes src.toNat dst.toNat <;> rfl

theorem addComponentOom_calm {e : Entity} {en : EntityEntry} {c : CompTy} {v : Val}
    (he : r.entities.entityEntry env e = some en)
    (hf : r.archetypes.findOrCreateAddingOom fail env (en.archetypeIndex env) c.descriptor =
      (r.archetypes.findOrCreateAdding env (en.archetypeIndex env) c.descriptor).map some)
    (hp : ∀ ar' si dai di b, r.archetypes.findOrCreateAdding env (en.archetypeIndex env) c.descriptor =
      .ok (ar', some (si, dai, di)) → ar'.archetypes[di]? = some b →
      b.pushUninitializedOom fail env = (b.pushUninitializedEntity env).map (fun x => (x.1, some x.2))) :
    r.addComponentOom fail env e c v = (r.addComponent env e c v).map (fun x => (x.1, some x.2)) := by
  unfold Registry.addComponentOom Registry.addComponent
  rw [he]
  simp only []
  rw [hf]
  cases hx : r.archetypes.findOrCreateAdding env (en.archetypeIndex env) c.descriptor with
  | error e => rfl
  | ok f =>
    obtain ⟨ar', o⟩ := f
    cases o with
    | none => rfl
    | some q =>
      obtain ⟨si, dai, di⟩ := q
      replace hp := fun b => hp ar' si dai di b hx
      simp only [Except.map, ok_bind]
      cases index ar'.archetypes si with
      | error e => rfl
      | ok src =>
        simp only [ok_bind]
        cases hb : ar'.archetypes[di]? with
        | none => unfold index; rw [hb]; rfl
        | some b =>
          rw [index_of_getElem? hb]
          simp only [ok_bind]
          rw [hp b hb]
          cases src.swapToLastUnchecked env en.indexInArchetype.value.toNat with
          | error e => rfl
          | ok s =>
            simp only [ok_bind]
            generalize (if s.2 = true then _ else _ : M EntityRegistry) = mm
            cases mm with
            | error e => rfl
            | ok m =>
              simp only [ok_bind]
              cases b.pushUninitializedEntity env with
              | error e => rfl
              | ok p =>
                simp only [Except.map, ok_bind]
                have := @map_bind_M
                unfold Except.map at this
                simp only [this]
                rfl

theorem removeComponentOom_calm {e : Entity} {en : EntityEntry} {c : CompTy}
    (he : r.entities.entityEntry env e = some en)
    (hf : r.archetypes.findOrCreateRemovingOom fail env (en.archetypeIndex env) c.descriptor =
      (r.archetypes.findOrCreateRemoving env (en.archetypeIndex env) c.descriptor).map some)
    (hp : ∀ ar' si dai di b, r.archetypes.findOrCreateRemoving env (en.archetypeIndex env) c.descriptor =
      .ok (ar', some (si, dai, di)) → ar'.archetypes[di]? = some b →
      b.pushUninitializedOom fail env = (b.pushUninitializedEntity env).map (fun x => (x.1, some x.2))) :
    r.removeComponentOom fail env e c = (r.removeComponent env e c).map (fun x => (x.1, some x.2)) := by
  unfold Registry.removeComponentOom Registry.removeComponent
  rw [he]
  simp only []
  rw [hf]
  cases hx : r.archetypes.findOrCreateRemoving env (en.archetypeIndex env) c.descriptor with
  | error e => rfl
  | ok f =>
    obtain ⟨ar', o⟩ := f
    cases o with
    | none => rfl
    | some q =>
      obtain ⟨si, dai, di⟩ := q
      replace hp := fun b => hp ar' si dai di b hx
      simp only [Except.map, ok_bind]
      cases index ar'.archetypes si with
      | error e => rfl
      | ok src =>
        simp only [ok_bind]
        cases hb : ar'.archetypes[di]? with
        | none => unfold index; rw [hb]; rfl
        | some b =>
          rw [index_of_getElem? hb]
          simp only [ok_bind]
          rw [hp b hb]
          cases src.swapToLastUnchecked env en.indexInArchetype.value.toNat with
          | error e => rfl
          | ok s =>
            simp only [ok_bind]
            generalize (if s.2 = true then _ else _ : M EntityRegistry) = mm
            cases mm with
            | error e => rfl
            | ok m =>
              simp only [ok_bind]
              cases b.pushUninitializedEntity env with
              | error e => rfl
              | ok p =>
                simp only [Except.map, ok_bind]
                have := @map_bind_M
                unfold Except.map at this
                simp only [this]
                rfl

/-! ## A failure to grow the destination -/

/-- The archetype for the component ids `t` is missing and may be created. -/
def MissingIds (env : Env) (r : Registry) (t : List UInt16) : Prop :=
  plainId env t ≠ ARCHETYPE_ID_INVALID ∧ ¬ HasArchetype r.archetypes t.length (plainId env t) ∧
    r.archetypes.archetypes.length < 65534

/-- The archetype for the component ids `t` is there, all its rows are in use, and it may still be doubled. -/
def MustGrowIds (env : Env) (r : Registry) (t : List UInt16) : Prop :=
  ∃ a ∈ r.archetypes.archetypes, a.descriptor.len = t.length ∧ a.descriptor.archetypeId = plainId env t ∧
    a.entityCount = a.capacity ∧ a.capacity < 8388608

/-- The state after a failure to grow the destination: entity `e` has changed places with the last one of its archetype
`a`, which has become `a1`; the destination `b` has become `b'`. -/
structure HalfMoved (W : World env) (r : Registry) (cs : List Content) (e : Entity) (en : EntityEntry) (a a1 : Archetype)
    (ct : Content) (di : Nat) (b b' : Archetype) (ctD : Content) (k : Nat) (r' : Registry) : Prop where
  entry : r.entities.entityEntry env e = some en
  src : r.archetypes.archetypes[(en.archetypeIndex env).toNat]? = some a
  srcContent : cs[(en.archetypeIndex env).toNat]? = some ct
  desc : a1.descriptor = a.descriptor
  rep : Rep W a1 (ct.swap en.indexInArchetype.value.toNat (ct.ents.length - 1))
  dst : r.archetypes.archetypes[di]? = some b
  dstContent : cs[di]? = some ctD
  ne : (en.archetypeIndex env).toNat ≠ di
  broken : Broken b k b'
  inv : EntInv env r'.entities
  self : r'.entities.entityEntry env e = some en
  others : ∀ x, x ≠ e → r'.entities.loc env x = locSwapPop (r.entities.loc env) e (en.archetypeIndex env).toNat
    en.indexInArchetype.value.toNat (ct.ents.length - 1) x
  archs : r'.archetypes.archetypes = (r.archetypes.archetypes.set (en.archetypeIndex env).toNat a1).set di b'

/-- The second half of both functions, up to the failure. -/
theorem RInv.halfMove (h : RInv W r cs) {e : Entity} {en : EntityEntry} (he : r.entities.entityEntry env e = some en)
    {a : Archetype} {ct : Content} (ha : r.archetypes.archetypes[(en.archetypeIndex env).toNat]? = some a)
    (hc : cs[(en.archetypeIndex env).toNat]? = some ct) {di : Nat} {b : Archetype} {ctD : Content}
    (hb : r.archetypes.archetypes[di]? = some b) (hcD : cs[di]? = some ctD) (hne : (en.archetypeIndex env).toNat ≠ di)
    (hfull : b.entityCount = b.capacity) (hlt : b.capacity < 8388608) {k : Nat} (hk : k ≤ ctD.cts.length)
    (hf : fail k = true) (hbefore : ∀ j, j < k → fail j = false) :
    ∃ a1 m b', a.swapToLastUnchecked env en.indexInArchetype.value.toNat =
        .ok (a1, decide (en.indexInArchetype.value.toNat ≠ ct.ents.length - 1)) ∧
      ((if decide (en.indexInArchetype.value.toNat ≠ ct.ents.length - 1) = true then do
        let sw ← a1.entityAt en.indexInArchetype.value.toNat
        unwrap (r.entities.updateEntry env sw (fun x => x.setIndexInArchetype en.indexInArchetype))
      else .ok r.entities) : M EntityRegistry) = .ok m ∧
      b.pushUninitializedOom fail env = .ok (b', none) ∧
      HalfMoved W r cs e en a a1 ct di b b' ctD k
        ⟨m, (r.archetypes.setArchetype (en.archetypeIndex env).toNat a1).setArchetype di b'⟩ := by
  have hr := h.arch.rep _ _ _ ha hc
  have hrD := h.arch.rep _ _ _ hb hcD
  obtain ⟨ct0, q1, q2⟩ := (h.placed _ _ _).mp (EntityRegistry.loc_of_entry he)
  rw [hc] at q1; cases q1
  have hkl := (List.getElem?_eq_some_iff.mp q2).1
  obtain ⟨a1, s1, s2, s3, s4⟩ := hr.swapToLast_spec (env := env) hkl
  have hswk : ∀ sw, ct.ents[ct.ents.length - 1]? = some sw →
      (ct.swap en.indexInArchetype.value.toNat (ct.ents.length - 1)).ents[en.indexInArchetype.value.toNat]? = some sw := by
    intro sw hsw
    show (swapAt ct.ents _ _)[_]? = _
    rw [getElem?_swapAt hkl (by omega)]
    split
    · next heq => rw [← heq] at hsw; exact hsw
    · rw [if_pos rfl]; exact hsw
  obtain ⟨m, m1, m2, m3, m4, m5⟩ := h.fixSwap he hc (a1.entityAt en.indexInArchetype.value.toNat)
    (fun _ sw hsw => s4.entityAt_ok (hswk sw hsw))
  have hcnt := hrD.count
  obtain ⟨b', p1, p2⟩ := hrD.resizeOom_fail (env := env) (by omega) hlt hk hf hbefore
  refine ⟨a1, m, b', s1, m1, ?_, ⟨he, ha, hc, s2, s4, hb, hcD, hne, p2, m2, m4, m5, rfl⟩⟩
  unfold pushUninitializedOom
  rw [p1]
  rfl

namespace HalfMoved

variable {e : Entity} {en : EntityEntry} {a a1 : Archetype} {ct : Content} {di : Nat} {b b' : Archetype} {ctD : Content}
  {k : Nat} {r' : Registry}

theorem atSrc (h : HalfMoved W r cs e en a a1 ct di b b' ctD k r') :
    r'.archetypes.archetypes[(en.archetypeIndex env).toNat]? = some a1 := by
  rw [h.archs, List.getElem?_set_ne (Ne.symm h.ne), List.getElem?_set_self (List.getElem?_eq_some_iff.mp h.src).1]

theorem atDst (h : HalfMoved W r cs e en a a1 ct di b b' ctD k r') : r'.archetypes.archetypes[di]? = some b' := by
  rw [h.archs, List.getElem?_set_self (by rw [List.length_set]; exact (List.getElem?_eq_some_iff.mp h.dst).1)]

theorem atOther (h : HalfMoved W r cs e en a a1 ct di b b' ctD k r') {j : Nat} (h1 : j ≠ (en.archetypeIndex env).toNat)
    (h2 : j ≠ di) : r'.archetypes.archetypes[j]? = r.archetypes.archetypes[j]? := by
  rw [h.archs, List.getElem?_set_ne (Ne.symm h2), List.getElem?_set_ne (Ne.symm h1)]

theorem drop_ub (h : HalfMoved W r cs e en a a1 ct di b b' ctD k r') (hi : RInv W r cs) (hk : k ≤ ctD.cts.length) :
    ∃ u, r'.drop = .error (.ub u) := by
  have hrD := hi.arch.rep _ _ _ h.dst h.dstContent
  obtain ⟨u, hu⟩ := h.broken.drop_ub hrD hk
  refine ⟨u, ?_⟩
  have hlt := (List.getElem?_eq_some_iff.mp h.dst).1
  unfold Registry.drop ArchetypeRegistry.drop
  refine forRange_fault (fun _ _ => True) di _ 0 ([], []) (by rw [h.archs, List.length_set, List.length_set]; exact hlt)
    trivial ?_ ?_
  · intro i s _ hi' _
    by_cases hs : i = (en.archetypeIndex env).toNat
    · obtain ⟨b, hb, _⟩ := h.rep.drop_spec
      rw [hs, index_of_getElem? h.atSrc]
      simp only [ok_bind]
      rw [hb]
      exact ⟨_, rfl, trivial⟩
    · have hai := List.getElem?_eq_getElem (show i < r.archetypes.archetypes.length by omega)
      obtain ⟨ct', _, hr'⟩ := hi.arch.content hai
      obtain ⟨b, hb, _⟩ := hr'.drop_spec
      rw [index_of_getElem? (by rw [h.atOther hs (by omega)]; exact hai)]
      simp only [ok_bind]
      rw [hb]
      exact ⟨_, rfl, trivial⟩
  · intro s _
    rw [Nat.zero_add, index_of_getElem? h.atDst]
    simp only [ok_bind]
    rw [hu]
    rfl

/-- The entity whose row was the last one of the source. -/
theorem last (h : HalfMoved W r cs e en a a1 ct di b b' ctD k r') (hi : RInv W r cs) :
    ∃ y, ct.ents[ct.ents.length - 1]? = some y ∧ a.entityAt (a.entityCount - 1) = .ok y ∧
      r.entities.loc env y = some ((en.archetypeIndex env).toNat, ct.ents.length - 1) := by
  have hr := hi.arch.rep _ _ _ h.src h.srcContent
  obtain ⟨ct0, q1, q2⟩ := (hi.placed _ _ _).mp (EntityRegistry.loc_of_entry h.entry)
  rw [h.srcContent] at q1; cases q1
  have hkl := (List.getElem?_eq_some_iff.mp q2).1
  have hy := List.getElem?_eq_getElem (show ct.ents.length - 1 < ct.ents.length by omega)
  refine ⟨_, hy, ?_, (hi.placed _ _ _).mpr ⟨ct, h.srcContent, hy⟩⟩
  rw [hr.count]
  exact hr.entityAt_ok hy

/-- The archetype index of an entity does not change. -/
theorem archOf (h : HalfMoved W r cs e en a a1 ct di b b' ctD k r') (x : Entity) :
    (r'.entities.loc env x).map Prod.fst = (r.entities.loc env x).map Prod.fst := by
  by_cases hx : x = e
  · subst hx
    rw [EntityRegistry.loc_of_entry h.self, EntityRegistry.loc_of_entry h.entry]
  · rw [h.others x hx]
    exact locSwapPop_fst hx

theorem live (h : HalfMoved W r cs e en a a1 ct di b b' ctD k r') (hi : RInv W r cs) (x : Entity) :
    Live env r' x ↔ Live env r x := by
  have hl : Live env r' x ↔ ∃ en, r'.entities.entityEntry env x = some en := mem_iter h.inv
  rw [hl, hi.live_entry]
  have := h.archOf x
  cases h1 : r'.entities.entityEntry env x with
  | none =>
    rw [EntityRegistry.loc_eq_none.mpr h1] at this
    cases h2 : r.entities.entityEntry env x with
    | none => simp
    | some en2 => rw [EntityRegistry.loc_of_entry h2] at this; cases this
  | some en1 =>
    cases h2 : r.entities.entityEntry env x with
    | none => rw [EntityRegistry.loc_of_entry h1, EntityRegistry.loc_eq_none.mpr h2] at this; cases this
    | some en2 => simp

theorem has (h : HalfMoved W r cs e en a a1 ct di b b' ctD k r') (x : Entity) (c : CompTy) :
    r'.hasComponent env c x = r.hasComponent env c x := by
  have hl := h.archOf x
  unfold Registry.hasComponent
  cases h1 : r'.entities.entityEntry env x with
  | none =>
    rw [EntityRegistry.loc_eq_none.mpr h1] at hl
    cases h2 : r.entities.entityEntry env x with
    | none => rfl
    | some en2 => rw [EntityRegistry.loc_of_entry h2] at hl; cases hl
  | some en1 =>
    cases h2 : r.entities.entityEntry env x with
    | none => rw [EntityRegistry.loc_of_entry h1, EntityRegistry.loc_eq_none.mpr h2] at hl; cases hl
    | some en2 =>
      rw [EntityRegistry.loc_of_entry h1, EntityRegistry.loc_of_entry h2] at hl
      simp only [Option.map_some, Option.some.injEq] at hl
      simp only []
      unfold ArchetypeRegistry.getUnchecked indexUnchecked
      rw [hl]
      by_cases hs : (en2.archetypeIndex env).toNat = (en.archetypeIndex env).toNat
      · rw [hs, h.atSrc, h.src]
        simp only [ok_bind, h.desc]
      · by_cases hd : (en2.archetypeIndex env).toNat = di
        · rw [hd, h.atDst, h.dst]
          simp only [ok_bind, h.broken.desc]
        · rw [h.atOther hs hd]

/-- The entity that was to be moved now has the row of the entity that was the last one of the archetype. -/
theorem get_self (h : HalfMoved W r cs e en a a1 ct di b b' ctD k r') (hi : RInv W r cs) {y : Entity}
    (hy : r.entities.loc env y = some ((en.archetypeIndex env).toNat, ct.ents.length - 1)) {c : CompTy} (hW : W.Has c) :
    r'.getComponent env c e = r.getComponent env c y := by
  have hr := hi.arch.rep _ _ _ h.src h.srcContent
  obtain ⟨ct0, q1, q2⟩ := (hi.placed _ _ _).mp (EntityRegistry.loc_of_entry h.entry)
  rw [h.srcContent] at q1; cases q1
  have hkl := (List.getElem?_eq_some_iff.mp q2).1
  obtain ⟨eny, e1, e2, e3⟩ := EntityRegistry.entry_of_loc hy
  simp only [] at e2 e3
  rw [getComponent_at h.self h.atSrc h.rep (by simpa [Content.swap, swapAt_length] using hkl) hW,
    getComponent_at e1 (by rw [e2]; exact h.src) hr (by omega) hW, hr.get_swap hkl (by omega), e3]
  split
  · next hx => rw [hx]
  · rw [if_pos rfl]

/-- Every other entity has the row it had, but for the column that was lost. -/
theorem get_other (h : HalfMoved W r cs e en a a1 ct di b b' ctD k r') (hi : RInv W r cs) {x : Entity} (hx : x ≠ e)
    {c : CompTy} (hW : W.Has c) :
    (∀ (j : Nat), j + 1 = k → ctD.cts[j]? = some c → (r.entities.loc env x).map Prod.fst = some di →
      r'.getComponent env c x = .error (.ub .nullDeref)) ∧
    ((∀ (j : Nat), j + 1 = k → ctD.cts[j]? = some c → (r.entities.loc env x).map Prod.fst ≠ some di) →
      r'.getComponent env c x = r.getComponent env c x) := by
  have hox := h.others x hx
  unfold locSwapPop at hox
  rw [if_neg hx] at hox
  cases hl : r.entities.loc env x with
  | none =>
    rw [hl, if_neg (by simp)] at hox
    refine ⟨fun j _ _ hl' => (by cases hl'), fun _ => ?_⟩
    unfold Registry.getComponent
    rw [EntityRegistry.loc_eq_none.mp hox, EntityRegistry.loc_eq_none.mp hl]
  | some p =>
    obtain ⟨ai, n⟩ := p
    obtain ⟨enx, e1, e2, e3⟩ := EntityRegistry.entry_of_loc hl
    obtain ⟨a0, ct0, g1, g2, g3, g4, g5, g6⟩ := hi.entry e1
    have hn := (List.getElem?_eq_some_iff.mp g4).1
    have hrd := getComponent_at e1 g1 g3 hn hW
    simp only [] at e2 e3
    rw [e2] at g1 g2
    rw [e3] at hrd hn g4
    rw [Option.map_some]
    by_cases hs : ai = (en.archetypeIndex env).toNat
    · subst hs
      rw [h.src] at g1; cases g1
      rw [h.srcContent] at g2; cases g2
      obtain ⟨ct1, q1, q2⟩ := (hi.placed _ _ _).mp (EntityRegistry.loc_of_entry h.entry)
      rw [h.srcContent] at q1; cases q1
      have hkl := (List.getElem?_eq_some_iff.mp q2).1
      refine ⟨fun j _ _ hl' => absurd (Option.some.inj hl') h.ne, fun _ => ?_⟩
      rw [hl] at hox
      by_cases hlast : n = ct.ents.length - 1
      · rw [if_pos (by rw [hlast])] at hox
        obtain ⟨eny, f1, f2, f3⟩ := EntityRegistry.entry_of_loc hox
        simp only [] at f2 f3
        rw [getComponent_at f1 (by rw [f2]; exact h.atSrc) h.rep (by rw [f3]; simpa [Content.swap, swapAt_length] using hkl) hW,
          hrd, g3.get_swap hkl (by omega), f3, hlast]
        split
        · next hh => rw [hh]
        · rw [if_pos rfl]
      · rw [if_neg (by intro hh; cases hh; exact hlast rfl)] at hox
        obtain ⟨eny, f1, f2, f3⟩ := EntityRegistry.entry_of_loc hox
        simp only [] at f2 f3
        rw [getComponent_at f1 (by rw [f2]; exact h.atSrc) h.rep (by rw [f3]; simpa [Content.swap, swapAt_length] using hn) hW,
          hrd, g3.get_swap hkl (by omega), f3, if_neg hlast, if_neg]
        intro hnk
        rw [hnk] at hl
        exact hx (hi.placed.inj hl (EntityRegistry.loc_of_entry h.entry))
    · rw [hl, if_neg (by intro hh; cases hh; exact hs rfl)] at hox
      obtain ⟨eny, f1, f2, f3⟩ := EntityRegistry.entry_of_loc hox
      simp only [] at f2 f3
      by_cases hj : ai = di
      · subst hj
        rw [h.dst] at g1; cases g1
        rw [h.dstContent] at g2; cases g2
        have hhas : c ∈ ctD.cts ↔ b'.descriptor.hasComponent c = true := by
          rw [h.broken.desc, g3.desc.hasComponent_iff hW]
        have hred : r'.getComponent env c x = if c ∈ ctD.cts then
            (b'.getComponentUnchecked c n).map some else .ok none := by
          unfold Registry.getComponent
          rw [f1]
          simp only []
          unfold ArchetypeRegistry.getUnchecked
          rw [indexUnchecked_of_getElem? (by rw [f2]; exact h.atDst)]
          simp only [ok_bind, f3]
          by_cases hm : c ∈ ctD.cts
          · rw [if_pos hm, if_neg (by rw [hhas.mp hm]; simp)]
            cases b'.getComponentUnchecked c n <;> rfl
          · rw [if_neg hm, if_pos (fun hx => hm (hhas.mpr hx))]
            rfl
        refine ⟨fun j hjk hcj _ => ?_, fun hno => ?_⟩
        · rw [hred, if_pos (List.mem_of_getElem? hcj), h.broken.get_null g3 hcj hjk]
          rfl
        · rw [hred, hrd]
          by_cases hm : c ∈ ctD.cts
          · rw [if_pos hm]
            obtain ⟨j, hjl, hje⟩ := List.mem_iff_getElem.mp hm
            have hcj : ctD.cts[j]? = some c := by rw [List.getElem?_eq_getElem hjl, hje]
            obtain ⟨v, hv, _⟩ := g3.get_some hm hn
            rw [h.broken.get_ok g3 hcj (fun hjk => hno j hjk hcj rfl) hv, hv]
            rfl
          · rw [if_neg hm, g3.get_none hm]
      · refine ⟨fun _ _ _ hx => absurd (Option.some.inj hx) hj, fun _ => ?_⟩
        rw [getComponent_at f1 (by rw [f2, h.atOther hs hj]; exact g1) g3 (by rw [f3]; exact hn) hW, hrd, f3]

end HalfMoved

/-! ## The destination -/

/-- `nd` is the descriptor, with the component ids `t`, to which an entity of the archetype `a` is to be moved. -/
structure Dest (W : World env) (a : Archetype) (nd : ArchetypeDescriptor) (cts' : List CompTy) (t : List UInt16) : Prop where
  ids : nd.ids = t
  len : nd.len = t.length
  ne : nd.len ≠ a.descriptor.len
  id : nd.archetypeId = plainId env t
  ok : nd.isValid = true → DescOK W nd cts'

theorem findOrCreateOom_invalid {ar : ArchetypeRegistry} {d : ArchetypeDescriptor} (hv : d.isValid = false) :
    ar.findOrCreateOom fail env d = .ok (some (ar, none)) := by
  unfold ArchetypeRegistry.findOrCreateOom
  rw [if_pos (by rw [hv]; simp)]

theorem disjointMut_snd {α : Type} {l : List α} {i j : Nat} {p : Nat × Nat} (h : disjointMut l i j = some p) : p.2 = j := by
  unfold disjointMut at h
  split at h
  · cases h
  · split at h
    · cases h
      simp only []
      omega
    · cases h
      simp only []

theorem isValid_of_ne {d : ArchetypeDescriptor} (hid : d.archetypeId ≠ ARCHETYPE_ID_INVALID) : d.isValid = true := by
  unfold ArchetypeDescriptor.isValid
  simpa using hid

theorem ne_of_isValid {d : ArchetypeDescriptor} (hv : d.isValid = true) : d.archetypeId ≠ ARCHETYPE_ID_INVALID := by
  unfold ArchetypeDescriptor.isValid at hv
  simpa using hv

theorem RInv.dest_calm (h : RInv W r cs) {a : Archetype} {nd : ArchetypeDescriptor} {cts' : List CompTy} {t : List UInt16}
    (hd : Dest W a nd cts' t) (hc : MissingIds env r t ∨ MustGrowIds env r t → ∀ k, k ≤ t.length → fail k = false) :
    r.archetypes.findOrCreateOom fail env nd = (r.archetypes.findOrCreateArchetype env nd).map some ∧
    ∀ ar' dst b, r.archetypes.findOrCreateArchetype env nd = .ok (ar', some dst) → ar'.archetypes[dst.toNat]? = some b →
      b.pushUninitializedOom fail env = (b.pushUninitializedEntity env).map (fun x => (x.1, some x.2)) := by
  cases hv : nd.isValid with
  | false =>
    refine ⟨by rw [findOrCreateOom_invalid hv, ARInv.findOrCreate_invalid hv]; rfl, ?_⟩
    intro ar' dst b hf
    rw [ARInv.findOrCreate_invalid hv] at hf
    cases hf
  | true =>
    have hk := hd.ok hv
    have hcl : nd.components.length = t.length := by rw [hk.clen, hk.length, hd.len]
    have hle := h.arch.le
    refine ⟨?_, ?_⟩
    · by_cases hm : MissingIds env r t
      · exact findOrCreateOom_calm (fun k hk => hc (Or.inl hm) k (by omega))
      · refine h.arch.findOrCreateOom_none hk ?_
        rw [hd.len, hd.id]
        by_cases hx : HasArchetype r.archetypes t.length (plainId env t)
        · exact Or.inl hx
        · right
          refine Classical.byContradiction fun hne => hm ⟨?_, hx, by omega⟩
          rw [← hd.id]
          exact ne_of_isValid hv
    · intro ar' ai b hf hb
      rcases h.arch.findOrCreate_spec hk with ⟨i, b', h1, h2, h3, h4⟩ | ⟨hno, ⟨h1, h2⟩ | ⟨ar2, b', i, h1, h2, h3, h4⟩⟩
      · rw [h1] at hf
        cases hf
        rw [h2] at hb
        cases hb
        obtain ⟨ct, _, hr⟩ := h.arch.content h2
        refine pushUninitializedOom_calm hr.cap.pos (fun q1 q2 k hk => ?_)
        exact hc (Or.inr ⟨b, List.mem_of_getElem? h2, by rw [h3, hd.len], by rw [h4, hd.id], q1, q2⟩) k
          (by rw [h3, hd.len] at hk; exact hk)
      · rw [h2] at hf; cases hf
      · rw [h2] at hf
        cases hf
        have hb' : ar'.archetypes[ai.toNat]? = some b' := by
          rw [h4.archetypes, h3, List.getElem?_append_right (Nat.le_refl _)]; simp
        rw [hb'] at hb
        cases hb
        have hcap := h4.cap
        have hcnt : b.entityCount = 0 := h4.rep.count
        exact pushUninitializedOom_calm (by omega) (fun q1 _ => by omega)

theorem RInv.dest_missing (h : RInv W r cs) {a : Archetype} {nd : ArchetypeDescriptor} {cts' : List CompTy} {t : List UInt16}
    (hd : Dest W a nd cts' t) (hm : MissingIds env r t) (hf : ∃ k, k ≤ t.length ∧ fail k = true) :
    r.archetypes.findOrCreateOom fail env nd = .ok none := by
  have hk := hd.ok (isValid_of_ne (by rw [hd.id]; exact hm.1))
  exact h.arch.findOrCreateOom_fail hk (by rw [hd.len, hd.id]; exact hm.2.1) hm.2.2 (by rw [hk.length, hd.len]; exact hf)

theorem RInv.dest_grow (h : RInv W r cs) {src : UInt16} {a : Archetype} (ha : r.archetypes.archetypes[src.toNat]? = some a)
    {nd : ArchetypeDescriptor} {cts' : List CompTy} {t : List UInt16} (hd : Dest W a nd cts' t) (hm : MustGrowIds env r t) :
    ∃ dai b ctD, r.archetypes.findOrCreateWithOom fail env src (.ok (some nd)) =
        .ok (some (r.archetypes, some (src.toNat, dai, dai.toNat))) ∧
      r.archetypes.archetypes[dai.toNat]? = some b ∧ cs[dai.toNat]? = some ctD ∧ src.toNat ≠ dai.toNat ∧
      b.entityCount = b.capacity ∧ b.capacity < 8388608 ∧ b.descriptor.ids = t ∧
      b.descriptor.archetypeId = plainId env t := by
  obtain ⟨b, hb1, hb2, hb3, hb4, hb5⟩ := hm
  obtain ⟨j, hj⟩ := List.mem_iff_getElem?.mp hb1
  obtain ⟨ctj, _, hrj⟩ := h.arch.content hj
  have hk := hd.ok (isValid_of_ne (by rw [hd.id, ← hb3]; exact ne_of_isValid hrj.desc.valid))
  have hhas : HasArchetype r.archetypes nd.len nd.archetypeId := ⟨b, hb1, by rw [hb2, hd.len], by rw [hb3, hd.id]⟩
  have hno := h.arch.findOrCreateOom_none (fail := fail) hk (Or.inl hhas)
  rcases h.arch.focus hk with ⟨h1, h2⟩ | ⟨ar', cs', ai, b', ct, h1, h2, h3, h4, h5, h6, h7, h8, h9, h10, hroom, hfound⟩
  · exact absurd ⟨ne_of_isValid hk.valid, Or.inl hhas⟩ h2
  · have hae := hfound hhas
    subst hae
    rw [h1] at hno
    have hji := h.arch.unique_index hj h4 (by rw [hb2, h8, hd.len]) (by rw [hb3, h9, hd.id])
    subst hji
    rw [h4] at hj
    cases hj
    obtain ⟨ct0, hct0, hr0⟩ := h.arch.content h4
    have hne : src.toNat ≠ ai.toNat := by
      intro he
      rw [he, h4] at ha
      cases ha
      exact hd.ne h8.symm
    refine ⟨ai, b, ct0, ?_, h4, hct0, hne, hb4, hb5, ?_, hb3⟩
    · unfold ArchetypeRegistry.findOrCreateWithOom
      simp only []
      rw [hno]
      simp only [Except.map, ok_bind]
      rw [disjointMut_ne (List.getElem?_eq_some_iff.mp ha).1 (List.getElem?_eq_some_iff.mp h4).1 hne]
      rfl
    · rw [h6.desc.ids_eq, h7, ← hk.ids_eq, hd.ids]

/-! ## `add_component` -/

/-- Where an entity that is to gain `c` is, and where it goes to. -/
theorem RInv.add_dest (h : RInv W r cs) {e : Entity} {c : CompTy} {v : Val} (hadm : (Call.add e c v).Admissible W r)
    {f : CompTy → Option Val} (hf : r.look env cs e = some f) (hn : f c = none) {s t : List UInt16}
    (hs : AscSet s (HasId W r e)) (ht : AscSet t (WithId W r e c)) :
    ∃ en a ct, r.entities.entityEntry env e = some en ∧
      r.archetypes.archetypes[(en.archetypeIndex env).toNat]? = some a ∧ cs[(en.archetypeIndex env).toNat]? = some ct ∧
      c ∉ ct.cts ∧ ct.cts.length = s.length ∧
      (s.length = 13 → a.descriptor.addComponent env c.descriptor = .error (.panic .indexOutOfBounds)) ∧
      (s.length ≤ 12 → ∃ nd cts', a.descriptor.addComponent env c.descriptor = .ok (some nd) ∧ Dest W a nd cts' t) := by
  obtain ⟨hW, hv, hu⟩ := hadm
  obtain ⟨en, a, ct, he, ha, hct, hr, hfe, hm⟩ := h.stored_at hf
  obtain ⟨hids, hidl⟩ := h.ids_of hf hr hm
  have hsl : ct.cts.length = s.length := by rw [← hidl, hids.unique hs]
  have hadd : ∀ i, AddedIds ct.cts c i ↔ (i = c.id ∨ HasId W r e i) := by
    intro i
    unfold AddedIds
    rw [h.hasId_iff hf]
    constructor
    · rintro (hi | ⟨c', h1, h2⟩)
      · exact Or.inl hi
      · exact Or.inr ⟨c', h2, (hm c').mpr h1⟩
    · rintro (hi | ⟨c', h1, h2⟩)
      · exact Or.inl hi
      · exact Or.inr ⟨c', (hm c').mp h2, h1⟩
  have hnm : c ∉ ct.cts := fun hx => by
    have := (hm c).mpr hx
    rw [hn] at this
    cases this
  refine ⟨en, a, ct, he, ha, hct, hnm, hsl, fun h13 => ?_, fun h12 => ?_⟩
  · exact ArchetypeDescriptor.addComponent_thirteen hr.desc.wf (by rw [← hr.desc.length, hsl]; exact h13)
      (fun hx => hnm ((hr.desc.id_mem hW).mp hx))
  · obtain ⟨nd, cts', n1, n2, n3, n4, n5, n7, n6⟩ := hr.desc.add hW hnm (by omega)
    have hti : nd.ids = t := AscSet.unique (n5.congr hadd) ht
    exact ⟨nd, cts', n1, hti, by rw [← n7, hti], by omega, by rw [n4, hti],
      fun hval => n6 hval (hu (h.live_iff.mpr ⟨f, hf⟩) _ (n5.congr hadd))⟩

theorem RInv.addOom_limit (h : RInv W r cs) {e : Entity} {c : CompTy} {v : Val} (hadm : (Call.add e c v).Admissible W r)
    {f : CompTy → Option Val} (hf : r.look env cs e = some f) (hn : f c = none) {s : List UInt16}
    (hs : AscSet s (HasId W r e)) (h13 : s.length = 13) : r.addComponentOom fail env e c v = .ok (r, none) := by
  obtain ⟨t, ht, _⟩ := withId hadm.1 (by rw [h.hasComponent_eq hadm.1, hf]; simp [hn]) hs
  obtain ⟨en, a, ct, he, ha, hct, hnm, hsl, q1, _⟩ := h.add_dest hadm hf hn hs ht
  have hlt := (List.getElem?_eq_some_iff.mp ha).1
  unfold Registry.addComponentOom
  rw [he]
  simp only []
  unfold ArchetypeRegistry.findOrCreateAddingOom
  rw [if_neg (by omega), index_of_getElem? ha]
  simp only [ok_bind]
  rw [q1 h13]
  rfl

theorem RInv.addOom_missing (h : RInv W r cs) {e : Entity} {c : CompTy} {v : Val} (hadm : (Call.add e c v).Admissible W r)
    {f : CompTy → Option Val} (hf : r.look env cs e = some f) (hn : f c = none) {s t : List UInt16}
    (hs : AscSet s (HasId W r e)) (ht : AscSet t (WithId W r e c)) (h12 : s.length ≤ 12) (hm : MissingIds env r t)
    (hk : ∃ k, k ≤ t.length ∧ fail k = true) : r.addComponentOom fail env e c v = .ok (r, none) := by
  obtain ⟨en, a, ct, he, ha, hct, hnm, hsl, _, q2⟩ := h.add_dest hadm hf hn hs ht
  obtain ⟨nd, cts', n1, n2⟩ := q2 h12
  have hlt := (List.getElem?_eq_some_iff.mp ha).1
  unfold Registry.addComponentOom
  rw [he]
  simp only []
  unfold ArchetypeRegistry.findOrCreateAddingOom
  rw [if_neg (by omega), index_of_getElem? ha]
  simp only [ok_bind]
  rw [n1]
  unfold ArchetypeRegistry.findOrCreateWithOom
  simp only []
  rw [h.dest_missing n2 hm hk]
  rfl

/-- Without a new component or for a handle that is not live, no allocation is made. -/
theorem RInv.addOom_idle (h : RInv W r cs) {e : Entity} {c : CompTy} {v : Val} (hW : W.Has c)
    (hi : ∀ f, r.look env cs e = some f → (f c).isSome) :
    r.addComponentOom fail env e c v = (r.addComponent env e c v).map (fun x => (x.1, some x.2)) := by
  cases hx : r.look env cs e with
  | none =>
    unfold Registry.addComponentOom Registry.addComponent
    rw [h.look_none.mp hx]
    rfl
  | some f =>
    obtain ⟨en, a, ct, he, ha, hct, hr, hfe, hm⟩ := h.stored_at hx
    have hp := ArchetypeDescriptor.addComponent_present (env := env) (cd := c.descriptor) hr.desc.wf
      ((hr.desc.id_mem hW).mpr ((hm c).mp (hi f hx)))
    have hlt := (List.getElem?_eq_some_iff.mp ha).1
    refine addComponentOom_calm he (findOrCreateAddingOom_calm ha hp (fun d hd => by cases hd)) ?_
    intro ar' si dai di b hfc
    unfold ArchetypeRegistry.findOrCreateAdding at hfc
    rw [if_neg (by omega), index_of_getElem? ha] at hfc
    simp only [ok_bind] at hfc
    rw [hp] at hfc
    cases hfc

theorem RInv.addOom_calm (h : RInv W r cs) {e : Entity} {c : CompTy} {v : Val} (hadm : (Call.add e c v).Admissible W r)
    {f : CompTy → Option Val} (hf : r.look env cs e = some f) (hn : f c = none) {s t : List UInt16}
    (hs : AscSet s (HasId W r e)) (ht : AscSet t (WithId W r e c)) (h13 : s.length ≠ 13)
    (hc : s.length ≤ 12 → MissingIds env r t ∨ MustGrowIds env r t → ∀ k, k ≤ t.length → fail k = false) :
    r.addComponentOom fail env e c v = (r.addComponent env e c v).map (fun x => (x.1, some x.2)) := by
  obtain ⟨en, a, ct, he, ha, hct, hnm, hsl, _, q2⟩ := h.add_dest hadm hf hn hs ht
  have hr := h.arch.rep _ _ _ ha hct
  have hle := hr.desc.le
  have hlt := (List.getElem?_eq_some_iff.mp ha).1
  by_cases h12 : s.length ≤ 12
  · obtain ⟨nd, cts', n1, n2⟩ := q2 h12
    obtain ⟨d1, d2⟩ := h.dest_calm n2 (hc h12)
    refine addComponentOom_calm he (findOrCreateAddingOom_calm ha n1 (fun d hd => by cases hd; exact d1)) ?_
    intro ar' si dai di b hfc hb
    unfold ArchetypeRegistry.findOrCreateAdding at hfc
    rw [if_neg (by omega), index_of_getElem? ha] at hfc
    simp only [ok_bind] at hfc
    rw [n1] at hfc
    simp only [ok_bind] at hfc
    cases hy : r.archetypes.findOrCreateArchetype env nd with
    | error x => rw [hy] at hfc; cases hfc
    | ok x =>
      obtain ⟨ar2, o⟩ := x
      rw [hy] at hfc
      simp only [ok_bind] at hfc
      cases o with
      | none => cases hfc
      | some dst =>
        simp only [] at hfc
        cases hz : disjointMut ar2.archetypes (en.archetypeIndex env).toNat dst.toNat with
        | none => rw [hz] at hfc; cases hfc
        | some p =>
          rw [hz] at hfc
          cases hfc
          rw [disjointMut_snd hz] at hb
          exact d2 _ _ _ hy hb
  · have hp := ArchetypeDescriptor.addComponent_full (env := env) (cd := c.descriptor) (d := a.descriptor)
      (by rw [← hr.desc.length]; omega)
    refine addComponentOom_calm he (findOrCreateAddingOom_calm ha hp (fun d hd => by cases hd)) ?_
    intro ar' si dai di b hfc
    unfold ArchetypeRegistry.findOrCreateAdding at hfc
    rw [if_neg (by omega), index_of_getElem? ha] at hfc
    simp only [ok_bind] at hfc
    rw [hp] at hfc
    cases hfc

theorem RInv.addOom_grow (h : RInv W r cs) {e : Entity} {c : CompTy} {v : Val} (hadm : (Call.add e c v).Admissible W r)
    {f : CompTy → Option Val} (hf : r.look env cs e = some f) (hn : f c = none) {s t : List UInt16}
    (hs : AscSet s (HasId W r e)) (ht : AscSet t (WithId W r e c)) (h12 : s.length ≤ 12) (hm : MustGrowIds env r t)
    {k : Nat} (hk : k ≤ t.length) (hfk : fail k = true) (hbefore : ∀ j, j < k → fail j = false) :
    ∃ r' en a a1 ct di b b' ctD, r.addComponentOom fail env e c v = .ok (r', none) ∧
      HalfMoved W r cs e en a a1 ct di b b' ctD k r' ∧ b.descriptor.ids = t ∧ b.descriptor.archetypeId = plainId env t ∧
      ctD.cts.map (fun c => c.id) = t := by
  obtain ⟨en, a, ct, he, ha, hct, hnm, hsl, _, q2⟩ := h.add_dest hadm hf hn hs ht
  obtain ⟨nd, cts', n1, n2⟩ := q2 h12
  obtain ⟨dai, b, ctD, g1, g2, g3, g4, g5, g6, g7, g8⟩ := h.dest_grow (fail := fail) ha n2 hm
  have hrD := h.arch.rep _ _ _ g2 g3
  have hidD : ctD.cts.map (fun c => c.id) = t := by rw [← hrD.desc.ids_eq, g7]
  have hlt := (List.getElem?_eq_some_iff.mp ha).1
  obtain ⟨a1, m, b', w1, w2, w3, w4⟩ := h.halfMove he ha hct g2 g3 g4 g5 g6 (k := k)
    (by rw [← List.length_map (f := fun c : CompTy => c.id), hidD]; exact hk) hfk hbefore
  refine ⟨_, en, a, a1, ct, dai.toNat, b, b', ctD, ?_, w4, g7, g8, hidD⟩
  unfold Registry.addComponentOom
  rw [he]
  simp only []
  unfold ArchetypeRegistry.findOrCreateAddingOom
  rw [if_neg (by omega), index_of_getElem? ha]
  simp only [ok_bind]
  rw [n1, g1]
  simp only [ok_bind]
  rw [index_of_getElem? ha, index_of_getElem? g2]
  simp only [ok_bind]
  rw [w1]
  simp only [ok_bind]
  rw [w2]
  simp only [ok_bind]
  rw [w3]
  rfl

/-! ## `remove_component` -/

/-- Where an entity that is to lose `c` is, and where it goes to. -/
theorem RInv.remove_dest (h : RInv W r cs) {e : Entity} {c : CompTy} (hadm : (Call.remove e c).Admissible W r)
    {f : CompTy → Option Val} (hf : r.look env cs e = some f) (hn : (f c).isSome) {s t : List UInt16}
    (hs : AscSet s (HasId W r e)) (ht : AscSet t (WithoutId W r e c)) :
    ∃ en a ct, r.entities.entityEntry env e = some en ∧
      r.archetypes.archetypes[(en.archetypeIndex env).toNat]? = some a ∧ cs[(en.archetypeIndex env).toNat]? = some ct ∧
      c ∈ ct.cts ∧ ct.cts.length = s.length ∧
      (s.length = 14 → a.descriptor.removeComponent env c.id = .error (.panic .indexOutOfBounds)) ∧
      (2 ≤ s.length → s.length ≤ 13 →
        ∃ nd cts', a.descriptor.removeComponent env c.id = .ok (some nd) ∧ Dest W a nd cts' t) := by
  obtain ⟨hW, hu⟩ := hadm
  obtain ⟨en, a, ct, he, ha, hct, hr, hfe, hm⟩ := h.stored_at hf
  obtain ⟨hids, hidl⟩ := h.ids_of hf hr hm
  have hsl : ct.cts.length = s.length := by rw [← hidl, hids.unique hs]
  have hrem : ∀ i, RemovedIds ct.cts c i ↔ (i ≠ c.id ∧ HasId W r e i) := by
    intro i
    unfold RemovedIds
    rw [h.hasId_iff hf]
    constructor
    · rintro ⟨c', h1, h2, rfl⟩
      refine ⟨fun hid => h2 (W.id_inj (hr.desc.has _ h1) hW hid), c', rfl, (hm c').mpr h1⟩
    · rintro ⟨h1, c', rfl, h2⟩
      exact ⟨c', (hm c').mp h2, fun hc => h1 (congrArg _ hc), rfl⟩
  have hnm : c ∈ ct.cts := (hm c).mp hn
  refine ⟨en, a, ct, he, ha, hct, hnm, hsl, fun h14 => ?_, fun h2 h13 => ?_⟩
  · exact ArchetypeDescriptor.removeComponent_fourteen hr.desc.wf (by rw [← hr.desc.length, hsl]; exact h14)
      ((hr.desc.id_mem hW).mpr hnm)
  · obtain ⟨nd, cts', n1, n2, n3, n4, n5, n7, n6⟩ := hr.desc.remove hnm (by omega) (by omega)
    have hti : nd.ids = t := AscSet.unique (n5.congr hrem) ht
    have hdl := hr.desc.length
    refine ⟨nd, cts', n1, hti, by rw [← n7, hti], by omega, by rw [n4, hti], fun hval => n6 hval ?_⟩
    refine hu (h.live_iff.mpr ⟨f, hf⟩) _ (fun hnil => ?_) (n5.congr hrem)
    rw [hnil] at n7
    simp only [List.length_nil] at n7
    omega

theorem RInv.removeOom_limit (h : RInv W r cs) {e : Entity} {c : CompTy} (hadm : (Call.remove e c).Admissible W r)
    {f : CompTy → Option Val} (hf : r.look env cs e = some f) (hn : (f c).isSome) {s : List UInt16}
    (hs : AscSet s (HasId W r e)) (h14 : s.length = 14) : r.removeComponentOom fail env e c = .ok (r, none) := by
  obtain ⟨t, ht, _⟩ := withoutId hadm.1 ((h.has_iff hf hadm.1).mpr hn) hs
  obtain ⟨en, a, ct, he, ha, hct, hnm, hsl, q1, _⟩ := h.remove_dest hadm hf hn hs ht
  have hlt := (List.getElem?_eq_some_iff.mp ha).1
  unfold Registry.removeComponentOom
  rw [he]
  simp only []
  unfold ArchetypeRegistry.findOrCreateRemovingOom
  rw [if_neg (by omega), index_of_getElem? ha]
  simp only [ok_bind]
  rw [CompTy.descriptor_id, q1 h14]
  rfl

theorem RInv.removeOom_missing (h : RInv W r cs) {e : Entity} {c : CompTy} (hadm : (Call.remove e c).Admissible W r)
    {f : CompTy → Option Val} (hf : r.look env cs e = some f) (hn : (f c).isSome) {s t : List UInt16}
    (hs : AscSet s (HasId W r e)) (ht : AscSet t (WithoutId W r e c)) (h2 : 2 ≤ s.length) (h13 : s.length ≤ 13)
    (hm : MissingIds env r t) (hk : ∃ k, k ≤ t.length ∧ fail k = true) :
    r.removeComponentOom fail env e c = .ok (r, none) := by
  obtain ⟨en, a, ct, he, ha, hct, hnm, hsl, _, q2⟩ := h.remove_dest hadm hf hn hs ht
  obtain ⟨nd, cts', n1, n2⟩ := q2 h2 h13
  have hlt := (List.getElem?_eq_some_iff.mp ha).1
  unfold Registry.removeComponentOom
  rw [he]
  simp only []
  unfold ArchetypeRegistry.findOrCreateRemovingOom
  rw [if_neg (by omega), index_of_getElem? ha]
  simp only [ok_bind]
  rw [CompTy.descriptor_id, n1]
  unfold ArchetypeRegistry.findOrCreateWithOom
  simp only []
  rw [h.dest_missing n2 hm hk]
  rfl

/-- Without the component or for a handle that is not live, no allocation is made. -/
theorem RInv.removeOom_idle (h : RInv W r cs) {e : Entity} {c : CompTy} (hW : W.Has c)
    (hi : ∀ f, r.look env cs e = some f → f c = none) :
    r.removeComponentOom fail env e c = (r.removeComponent env e c).map (fun x => (x.1, some x.2)) := by
  cases hx : r.look env cs e with
  | none =>
    unfold Registry.removeComponentOom Registry.removeComponent
    rw [h.look_none.mp hx]
    rfl
  | some f =>
    obtain ⟨en, a, ct, he, ha, hct, hr, hfe, hm⟩ := h.stored_at hx
    have hp : a.descriptor.removeComponent env c.descriptor.id = .ok none := by
      rw [CompTy.descriptor_id]
      refine ArchetypeDescriptor.removeComponent_absent hr.desc.wf (fun hx' => ?_)
      have := (hm c).mpr ((hr.desc.id_mem hW).mp hx')
      rw [hi f hx] at this
      cases this
    have hlt := (List.getElem?_eq_some_iff.mp ha).1
    refine removeComponentOom_calm he (findOrCreateRemovingOom_calm ha hp (fun d hd => by cases hd)) ?_
    intro ar' si dai di b hfc
    unfold ArchetypeRegistry.findOrCreateRemoving at hfc
    rw [if_neg (by omega), index_of_getElem? ha] at hfc
    simp only [ok_bind] at hfc
    rw [hp] at hfc
    cases hfc

theorem RInv.removeOom_calm (h : RInv W r cs) {e : Entity} {c : CompTy} (hadm : (Call.remove e c).Admissible W r)
    {f : CompTy → Option Val} (hf : r.look env cs e = some f) (hn : (f c).isSome) {s t : List UInt16}
    (hs : AscSet s (HasId W r e)) (ht : AscSet t (WithoutId W r e c)) (h14 : s.length ≠ 14)
    (hc : 2 ≤ s.length → MissingIds env r t ∨ MustGrowIds env r t → ∀ k, k ≤ t.length → fail k = false) :
    r.removeComponentOom fail env e c = (r.removeComponent env e c).map (fun x => (x.1, some x.2)) := by
  obtain ⟨en, a, ct, he, ha, hct, hnm, hsl, _, q2⟩ := h.remove_dest hadm hf hn hs ht
  have hr := h.arch.rep _ _ _ ha hct
  have hle := hr.desc.le
  have hpos := hr.desc.pos
  have hlt := (List.getElem?_eq_some_iff.mp ha).1
  by_cases h2 : 2 ≤ s.length
  · obtain ⟨nd, cts', n1, n2⟩ := q2 h2 (by omega)
    rw [← CompTy.descriptor_id] at n1
    obtain ⟨d1, d2⟩ := h.dest_calm n2 (hc h2)
    refine removeComponentOom_calm he (findOrCreateRemovingOom_calm ha n1 (fun d hd => by cases hd; exact d1)) ?_
    intro ar' si dai di b hfc hb
    unfold ArchetypeRegistry.findOrCreateRemoving at hfc
    rw [if_neg (by omega), index_of_getElem? ha] at hfc
    simp only [ok_bind] at hfc
    rw [n1] at hfc
    simp only [ok_bind] at hfc
    cases hy : r.archetypes.findOrCreateArchetype env nd with
    | error x => rw [hy] at hfc; cases hfc
    | ok x =>
      obtain ⟨ar2, o⟩ := x
      rw [hy] at hfc
      simp only [ok_bind] at hfc
      cases o with
      | none => cases hfc
      | some dst =>
        simp only [] at hfc
        cases hz : disjointMut ar2.archetypes (en.archetypeIndex env).toNat dst.toNat with
        | none => rw [hz] at hfc; cases hfc
        | some p =>
          rw [hz] at hfc
          cases hfc
          rw [disjointMut_snd hz] at hb
          exact d2 _ _ _ hy hb
  · have hp := ArchetypeDescriptor.removeComponent_one (env := env) (id := c.descriptor.id) (d := a.descriptor)
      (by rw [← hr.desc.length]; omega)
    refine removeComponentOom_calm he (findOrCreateRemovingOom_calm ha hp (fun d hd => by cases hd)) ?_
    intro ar' si dai di b hfc
    unfold ArchetypeRegistry.findOrCreateRemoving at hfc
    rw [if_neg (by omega), index_of_getElem? ha] at hfc
    simp only [ok_bind] at hfc
    rw [hp] at hfc
    cases hfc

theorem RInv.removeOom_grow (h : RInv W r cs) {e : Entity} {c : CompTy} (hadm : (Call.remove e c).Admissible W r)
    {f : CompTy → Option Val} (hf : r.look env cs e = some f) (hn : (f c).isSome) {s t : List UInt16}
    (hs : AscSet s (HasId W r e)) (ht : AscSet t (WithoutId W r e c)) (h2 : 2 ≤ s.length) (h13 : s.length ≤ 13)
    (hm : MustGrowIds env r t)
    {k : Nat} (hk : k ≤ t.length) (hfk : fail k = true) (hbefore : ∀ j, j < k → fail j = false) :
    ∃ r' en a a1 ct di b b' ctD, r.removeComponentOom fail env e c = .ok (r', none) ∧
      HalfMoved W r cs e en a a1 ct di b b' ctD k r' ∧ b.descriptor.ids = t ∧ b.descriptor.archetypeId = plainId env t ∧
      ctD.cts.map (fun c => c.id) = t := by
  obtain ⟨en, a, ct, he, ha, hct, hnm, hsl, _, q2⟩ := h.remove_dest hadm hf hn hs ht
  obtain ⟨nd, cts', n1, n2⟩ := q2 h2 h13
  obtain ⟨dai, b, ctD, g1, g2, g3, g4, g5, g6, g7, g8⟩ := h.dest_grow (fail := fail) ha n2 hm
  have hrD := h.arch.rep _ _ _ g2 g3
  have hidD : ctD.cts.map (fun c => c.id) = t := by rw [← hrD.desc.ids_eq, g7]
  have hlt := (List.getElem?_eq_some_iff.mp ha).1
  obtain ⟨a1, m, b', w1, w2, w3, w4⟩ := h.halfMove he ha hct g2 g3 g4 g5 g6 (k := k)
    (by rw [← List.length_map (f := fun c : CompTy => c.id), hidD]; exact hk) hfk hbefore
  refine ⟨_, en, a, a1, ct, dai.toNat, b, b', ctD, ?_, w4, g7, g8, hidD⟩
  unfold Registry.removeComponentOom
  rw [he]
  simp only []
  unfold ArchetypeRegistry.findOrCreateRemovingOom
  rw [if_neg (by omega), index_of_getElem? ha]
  simp only [ok_bind]
  rw [CompTy.descriptor_id, n1, g1]
  simp only [ok_bind]
  rw [index_of_getElem? ha, index_of_getElem? g2]
  simp only [ok_bind]
  rw [w1]
  simp only [ok_bind]
  rw [w2]
  simp only [ok_bind]
  rw [w3]
  rfl

end Shard
