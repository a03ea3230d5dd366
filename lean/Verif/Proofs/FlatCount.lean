import Verif.Proofs.FlatAddress
/-!
# How often the functions ask the allocator
-/

set_option autoImplicit false

namespace Shard.Flat

variable {A : Allocator} {env : Env} {h h' : Heap}

/-- The requests made while the archetype went from `a` to `b`. -/
def cost (a b : FArch) : Nat := if b.capacity = a.capacity ∨ b.capacity = 0 then 0 else a.descriptor.len + 1

/-- The requests made while the archetypes went from the first list to the second. -/
def costs : List FArch → List FArch → Nat
  | _, [] => 0
  | [], b :: l' => (b.descriptor.components.length + 1) + costs [] l'
  | a :: l, b :: l' => cost a b + costs l l'

theorem cost_same {a b : FArch} (hc : b.capacity = a.capacity) : cost a b = 0 := if_pos (.inl hc)

theorem costs_self : ∀ l : List FArch, costs l l = 0
  | [] => rfl
  | a :: l => by
    show cost a a + costs l l = 0
    rw [cost_same rfl, costs_self l]

theorem costs_set : ∀ {l m : List FArch} {j : Nat} {b c d : FArch}, l[j]? = some b → m[j]? = some c →
    costs l (m.set j d) + cost b c = costs l m + cost b d
  | [], _, _, _, _, _, hl, _ => by simp at hl
  | _ :: _, [], _, _, _, _, _, hm => by simp at hm
  | x :: l, y :: m, 0, b, c, d, hl, hm => by
    simp only [List.getElem?_cons_zero, Option.some.injEq] at hl hm
    subst hl hm
    simp only [List.set_cons_zero, costs]
    omega
  | x :: l, y :: m, j + 1, b, c, d, hl, hm => by
    simp only [List.getElem?_cons_succ] at hl hm
    have := costs_set (d := d) hl hm
    simp only [List.set_cons_succ, costs]
    omega

theorem costs_concat : ∀ {l m : List FArch} {b : FArch}, m.length = l.length →
    costs l (m ++ [b]) = costs l m + (b.descriptor.components.length + 1)
  | [], [], b, _ => by simp [costs]
  | [], _ :: _, _, hl => by simp at hl
  | _ :: _, [], _, hl => by simp at hl
  | x :: l, y :: m, b, hl => by
    have := costs_concat (l := l) (m := m) (b := b) (by simpa using hl)
    simp only [List.cons_append, costs]
    omega

theorem costs_concat2 : ∀ {l m : List FArch} {a b : FArch}, m.length = l.length →
    costs (l ++ [a]) (m ++ [b]) = costs l m + cost a b
  | [], [], _, _, _ => by simp [costs]
  | [], _ :: _, _, _, hl => by simp at hl
  | _ :: _, [], _, _, hl => by simp at hl
  | x :: l, y :: m, a, b, hl => by
    have := costs_concat2 (l := l) (m := m) (a := a) (b := b) (by simpa using hl)
    simp only [List.cons_append, costs]
    omega

theorem alloc_count {size align : Nat} : Tri (alloc A env size align) h (fun p h' => p.addr ≠ 0 → h'.next = h.next + 1) := by
  intro p k hp
  unfold alloc at hp
  split at hp
  · cases hp
  · split at hp
    · cases hp
    · split at hp
      · cases hp
        exact fun hn => absurd rfl hn
      · cases hp
        exact fun _ => rfl

theorem realloc_count {p : Ptr} {old align new : Nat} :
    Tri (realloc A env p old align new) h (fun q h' => q.addr ≠ 0 → h'.next = h.next + 1) := by
  intro q k hq
  unfold realloc at hq
  split at hq
  · cases hq
  · split at hq
    · cases hq
    · split at hq
      · cases hq
      · split at hq
        · cases hq
        · split at hq
          · cases hq
            exact fun hn => absurd rfl hn
          · cases hq
            exact fun _ => rfl

namespace FArch

theorem withCapacity_count {d : ArchetypeDescriptor} {n : Nat} (hn : n > 0 ∧ n ≤ MAX_ENTITIES_PER_ARCHETYPE) :
    Tri (withCapacity A env d n) h (fun fa h' => h'.next = h.next + (d.components.length + 1) ∧ fa.entityCount = 0 ∧
      fa.capacity = n ∧ fa.descriptor = d) := by
  refine Tri.bind (Tri.lift (fun _ _ => ?_))
  simp only []
  rw [if_pos hn]
  refine Tri.bind (alloc_count.mono ?_)
  intro ea k h1
  refine Tri.bind (assertNonNull_tri (fun h3 => ?_))
  refine Tri.bind (Tri.mono (Tri.loop (R := fun i _ k' => k'.next = k.next + i) ?_ d.components.length 0 _ k rfl) ?_)
  · intro i ptrs k' h4
    refine Tri.bind (Tri.lift (fun c _ => ?_))
    refine Tri.bind (alloc_count.mono ?_)
    intro p k2 h6
    refine Tri.bind (Tri.lift (fun ptrs' h8 => ?_))
    refine Tri.bind (assertNonNull_tri (fun hp => ?_))
    have := h6 hp
    exact Tri.pure (by omega)
  · intro ptrs k' h4
    have := h1 h3
    exact Tri.pure ⟨by omega, rfl, rfl, rfl⟩

theorem dealloc_count (a : FArch) : Tri a.dealloc h (fun a' h' => h'.next = h.next ∧ a'.entityCount = a.entityCount ∧
    a'.descriptor = a.descriptor ∧ (a'.capacity = a.capacity ∨ a'.capacity = 0)) := by
  unfold FArch.dealloc
  refine Tri.bind ((deallocLoop_tri a _ _ _ h).mono (fun r k hk => ?_))
  split
  · exact Tri.pure ⟨hk, rfl, rfl, .inl rfl⟩
  · exact Tri.bind (Flat.dealloc_tri.mono (fun _ k' hk' => Tri.pure ⟨hk'.trans hk, rfl, rfl, .inr rfl⟩))

theorem resizeIfNecessary_count (a : FArch) : Tri (a.resizeIfNecessary A env) h (fun a' h' =>
    a'.descriptor = a.descriptor ∧ h'.next = h.next + cost a a' ∧ (a.entityCount ≠ a.capacity → a'.capacity = a.capacity)) := by
  unfold resizeIfNecessary
  split
  · next hc =>
    have hc' : a.entityCount = a.capacity := by simpa using hc
    unfold resizeCapacity
    simp only []
    generalize hadd : (if a.capacity = 0 then DEFAULT_ARCHETYPE_ALLOCATION_SIZE else a.capacity) = add
    have hpos : 0 < add := by
      by_cases hz : a.capacity = 0
      · rw [if_pos hz] at hadd
        rw [← hadd]; decide
      · rw [if_neg hz] at hadd
        omega
    generalize MAX_ENTITIES_PER_ARCHETYPE = top
    split
    · refine (dealloc_count a).mono ?_
      rintro a' k ⟨h1, _, h3, h4⟩
      exact ⟨h3, by rw [h1, cost, if_pos h4]; rfl, fun hn => absurd hc' hn⟩
    · next hx =>
      refine Tri.bind (realloc_count.mono ?_)
      intro ea k h1
      refine Tri.bind (assertNonNull_tri (fun h3 => ?_))
      refine Tri.bind (Tri.mono (Tri.loop (R := fun n _ k' => k'.next = k.next + n) ?_ a.descriptor.len 0 _ k rfl) ?_)
      · intro i ptrs k' h4
        refine Tri.bind (Tri.lift (fun p _ => ?_))
        refine Tri.bind (Tri.lift (fun c _ => ?_))
        refine Tri.bind (realloc_count.mono ?_)
        intro q k2 h6
        refine Tri.bind (Tri.lift (fun ptrs' h8 => ?_))
        refine Tri.bind (assertNonNull_tri (fun hq => ?_))
        have := h6 hq
        exact Tri.pure (by omega)
      · intro ptrs k' h4
        have := h1 h3
        refine Tri.pure ⟨rfl, ?_, fun hn => absurd hc' hn⟩
        unfold cost
        rw [if_neg]
        · omega
        · simp only []
          omega
  · exact Tri.pure ⟨rfl, by rw [cost_same rfl]; rfl, fun _ => rfl⟩

theorem pushUninitializedEntity_count (a : FArch) : Tri (a.pushUninitializedEntity A env) h (fun x h' =>
    x.1.descriptor = a.descriptor ∧ h'.next = h.next + cost a x.1 ∧ (a.entityCount ≠ a.capacity → x.1.capacity = a.capacity)) :=
  Tri.bind ((resizeIfNecessary_count a).mono (fun _ _ h1 => Tri.pure h1))

theorem pushEntityUnchecked_count (a : FArch) (e : Entity) (g : Group) (vals : List Val) :
    Tri (a.pushEntityUnchecked A env e g vals) h (fun x h' =>
    x.1.descriptor = a.descriptor ∧ h'.next = h.next + cost a x.1 ∧ (a.entityCount ≠ a.capacity → x.1.capacity = a.capacity)) := by
  refine Tri.bind (Tri.lift (fun _ _ => ?_))
  refine Tri.bind (Tri.lift (fun _ _ => ?_))
  refine Tri.bind ((resizeIfNecessary_count a).mono ?_)
  intro a' k h1
  refine Tri.bind ((writeEntityUnchecked_quiet _ _ _ _ _ k).mono ?_)
  intro _ k' hi
  exact Tri.pure ⟨h1.1, by rw [hi.1]; exact h1.2.1, h1.2.2⟩

end FArch

/-- An archetype may be new. -/
def Asked (h : Heap) (l : List FArch) (h' : Heap) (l' : List FArch) : Prop :=
  (l' = l ∧ h'.next = h.next) ∨
  ∃ a, l' = l ++ [a] ∧ a.entityCount ≠ a.capacity ∧ h'.next = h.next + (a.descriptor.components.length + 1)

/-- The archetypes stay, and those with room keep their capacity. -/
structure Spent (l l' : List FArch) (n : Nat) : Prop where
  len : l'.length = l.length
  eq : costs l l' = n
  get : ∀ {k : Nat} {a b : FArch}, l[k]? = some a → l'[k]? = some b → b.descriptor = a.descriptor ∧
    (a.entityCount ≠ a.capacity → b.capacity = a.capacity)

theorem Spent.refl (l : List FArch) : Spent l l 0 :=
  ⟨rfl, costs_self l, fun h1 h2 => by rw [h1] at h2; cases h2; exact ⟨rfl, fun _ => rfl⟩⟩

theorem Spent.set {l m : List FArch} {n i : Nat} {a a' : FArch} (hs : Spent l m 0) (hi : l[i]? = some a)
    (hd : a'.descriptor = a.descriptor) (hc : a.entityCount ≠ a.capacity → a'.capacity = a.capacity) (hn : cost a a' = n)
    (hz : ∀ c, m[i]? = some c → cost a c = 0) : Spent l (m.set i a') n := by
  have hlt : i < m.length := by rw [hs.len]; exact lt_of_get hi
  refine ⟨by rw [List.length_set]; exact hs.len, ?_, fun {k} {x y} hx hy => ?_⟩
  · have h1 := costs_set (d := a') hi (List.getElem?_eq_getElem hlt)
    have h2 := hz _ (List.getElem?_eq_getElem hlt)
    have h3 := hs.eq
    omega
  · by_cases hik : i = k
    · subst hik
      rw [List.getElem?_set_self hlt] at hy
      rw [hi] at hx
      cases hx; cases hy
      exact ⟨hd, hc⟩
    · rw [List.getElem?_set_ne hik] at hy
      exact hs.get hx hy

theorem Spent.one {l : List FArch} {n i : Nat} {a a' : FArch} (hi : l[i]? = some a)
    (hd : a'.descriptor = a.descriptor) (hc : a.entityCount ≠ a.capacity → a'.capacity = a.capacity) (hn : cost a a' = n) :
    Spent l (l.set i a') n :=
  (Spent.refl l).set hi hd hc hn (fun c h1 => by rw [hi] at h1; cases h1; exact cost_same rfl)

theorem Spent.two {l : List FArch} {n i j : Nat} {a a' b b' : FArch} (hi : l[i]? = some a) (hk : Kept a a') (hj : l[j]? = some b)
    (hd : b'.descriptor = b.descriptor) (hc : b.entityCount ≠ b.capacity → b'.capacity = b.capacity) (hn : cost b b' = n) :
    Spent l ((l.set i a').set j b') n := by
  refine (Spent.one hi hk.desc (fun _ => hk.cap) (cost_same hk.cap)).set hj hd hc hn (fun c h1 => ?_)
  by_cases hij : i = j
  · subst hij
    rw [List.getElem?_set_self (lt_of_get hi)] at h1
    rw [hi] at hj
    cases hj; cases h1
    exact cost_same hk.cap
  · rw [List.getElem?_set_ne hij, hj] at h1
    cases h1
    exact cost_same rfl

theorem Asked.total {l l1 l' : List FArch} {h1 : Heap} {n : Nat} (ha : Asked h l h1 l1) (hs : Spent l1 l' n)
    (hn : h'.next = h1.next + n) : h'.next = h.next + costs l l' := by
  rcases ha with ⟨rfl, h2⟩ | ⟨a, rfl, h2, h3⟩
  · rw [hs.eq, hn, h2]
  · have hne : l' ≠ [] := by
      intro h0
      have := hs.len
      rw [h0, List.length_append] at this
      simp at this
    obtain ⟨m, b, rfl⟩ : ∃ m b, l' = m ++ [b] := ⟨l'.dropLast, l'.getLast hne, (List.dropLast_concat_getLast hne).symm⟩
    have hlen : m.length = l.length := by
      have := hs.len
      simp only [List.length_append, List.length_cons, List.length_nil] at this
      omega
    have hb := hs.get (k := l.length) (a := a) (b := b) (by simp) (by rw [← hlen]; simp)
    have h4 := hs.eq
    rw [costs_concat2 hlen, cost_same (hb.2 h2)] at h4
    rw [costs_concat hlen, hb.1]
    omega

theorem Asked.done {l l' : List FArch} (ha : Asked h l h' l') : h'.next = h.next + costs l l' :=
  ha.total (Spent.refl l') rfl

theorem Asked.same (h : Heap) (l : List FArch) : Asked h l h l := .inl ⟨rfl, rfl⟩

namespace FReg

theorem findOrCreateArchetype_count (fr : FReg) (d : ArchetypeDescriptor) :
    Tri (fr.findOrCreateArchetype A env d) h (fun x h' => Asked h fr.archetypes h' x.1.archetypes) := by
  unfold findOrCreateArchetype
  split
  · exact Tri.pure (Asked.same _ _)
  · refine Tri.bind (Tri.lift (fun s _ => ?_))
    split
    · refine Tri.bind (Tri.lift (fun _ _ => ?_))
      exact Tri.bind (Tri.lift (fun _ _ => Tri.pure (Asked.same _ _)))
    · split
      · exact Tri.pure (Asked.same _ _)
      · refine Tri.bind ((FArch.withCapacity_count (by decide)).mono ?_)
        rintro a k ⟨h1, h3, h4, h5⟩
        refine Tri.bind (Tri.lift (fun _ _ => ?_))
        refine Tri.pure (.inr ⟨a, rfl, ?_, by rw [h1, h5]⟩)
        rw [h3, h4]; decide

theorem findOrCreatePair_count (fr : FReg) (src : UInt16) (nd : Option ArchetypeDescriptor) :
    Tri (fr.findOrCreatePair A env src nd) h (fun x h' => Asked h fr.archetypes h' x.1.archetypes) := by
  unfold findOrCreatePair
  split
  · exact Tri.pure (Asked.same _ _)
  · refine Tri.bind ((findOrCreateArchetype_count fr _).mono ?_)
    intro f k hf
    split
    · exact Tri.pure hf
    · split <;> exact Tri.pure hf

theorem findOrCreateAdding_count (fr : FReg) (src : UInt16) (cd : ComponentDescriptor) :
    Tri (fr.findOrCreateAdding A env src cd) h (fun x h' => Asked h fr.archetypes h' x.1.archetypes) := by
  unfold findOrCreateAdding
  split
  · exact Tri.pure (Asked.same _ _)
  · exact Tri.bind (Tri.lift (fun _ _ => Tri.bind (Tri.lift (fun _ _ => findOrCreatePair_count _ _ _))))

theorem findOrCreateRemoving_count (fr : FReg) (src : UInt16) (cd : ComponentDescriptor) :
    Tri (fr.findOrCreateRemoving A env src cd) h (fun x h' => Asked h fr.archetypes h' x.1.archetypes) := by
  unfold findOrCreateRemoving
  split
  · exact Tri.pure (Asked.same _ _)
  · exact Tri.bind (Tri.lift (fun _ _ => Tri.bind (Tri.lift (fun _ _ => findOrCreatePair_count _ _ _))))

theorem createEntity_count (fr : FReg) (g : Group) (vals : List Val) :
    Tri (fr.createEntity A env g vals) h (fun x h' => h'.next = h.next + costs fr.archetypes x.1.archetypes) := by
  unfold createEntity
  split
  · exact Tri.pure (Asked.same _ _).done
  · refine Tri.bind ((findOrCreateArchetype_count fr _).mono ?_)
    intro f k hf
    split
    · exact Tri.pure hf.done
    · refine Tri.bind (Tri.lift (fun a ha => ?_))
      refine Tri.bind (Tri.lift (fun _ _ => ?_))
      refine Tri.bind (Tri.lift (fun _ _ => ?_))
      refine Tri.bind (Tri.lift (fun c _ => ?_))
      split
      · exact Tri.pure hf.done
      · refine Tri.bind ((FArch.pushEntityUnchecked_count a _ _ _).mono ?_)
        rintro p k' ⟨h1, h2, h3⟩
        exact Tri.pure (hf.total (Spent.one (index_inv ha) h1 h3 rfl) h2)

theorem destroyEntity_count (fr : FReg) (e : Entity) :
    Tri (fr.destroyEntity env e) h (fun x h' => h'.next = h.next + costs fr.archetypes x.1.archetypes) := by
  unfold destroyEntity
  split
  · exact Tri.pure (Asked.same _ _).done
  · simp only []
    refine Tri.bind (Tri.lift (fun a ha => ?_))
    refine Tri.bind ((FArch.swapDropUnchecked_tri a _).mono ?_)
    rintro s k ⟨h1, h2⟩
    refine Tri.bind ((swapped_quiet (FArch.entityAtUnchecked_quiet _ _) k).mono ?_)
    intro ents k' h3
    refine Tri.bind (Tri.lift (fun _ _ => ?_))
    exact Tri.pure ((Asked.same h _).total (Spent.one (indexUnchecked_inv ha) h1.desc (fun _ => h1.cap) (cost_same h1.cap))
      (h2.trans h3).1)

theorem removeEntity_count (fr : FReg) (g : Group) (e : Entity) :
    Tri (fr.removeEntity env g e) h (fun x h' => h'.next = h.next + costs fr.archetypes x.1.archetypes) := by
  unfold removeEntity
  split
  · exact Tri.pure (Asked.same _ _).done
  · simp only []
    refine Tri.bind (Tri.lift (fun a ha => ?_))
    refine Tri.bind ((FArch.swapRemoveUnchecked_tri a _ _).mono ?_)
    rintro s k ⟨h1, h2⟩
    refine Tri.bind ((swapped_quiet (FArch.entityAt_quiet _ _) k).mono ?_)
    intro ents k' h3
    refine Tri.bind (Tri.lift (fun _ _ => ?_))
    exact Tri.pure ((Asked.same h _).total (Spent.one (indexUnchecked_inv ha) h1.desc (fun _ => h1.cap) (cost_same h1.cap))
      (h2.trans h3).1)

theorem addComponent_count (fr : FReg) (e : Entity) (c : CompTy) (v : Val) :
    Tri (fr.addComponent A env e c v) h (fun x h' => h'.next = h.next + costs fr.archetypes x.1.archetypes) := by
  unfold addComponent
  split
  · exact Tri.pure (Asked.same _ _).done
  · refine Tri.bind ((findOrCreateAdding_count fr _ _).mono ?_)
    intro f k hf
    split
    · exact Tri.pure hf.done
    · next si dai di _ =>
      refine Tri.bind (Tri.lift (fun src hsrc => ?_))
      refine Tri.bind (Tri.lift (fun dst hdst => ?_))
      simp only []
      refine Tri.bind ((FArch.swapToLastUnchecked_quiet src _ k).mono (fun s k1 i1 => ?_))
      refine Tri.bind ((swapped_quiet (FArch.entityAt_quiet _ _) k1).mono (fun ents k2 i2 => ?_))
      refine Tri.bind ((FArch.pushUninitializedEntity_count dst).mono ?_)
      rintro p k3 ⟨h1, h2, h3⟩
      refine Tri.bind (Tri.lift (fun sIdx _ => ?_))
      refine Tri.bind (Tri.lift (fun dIdx _ => ?_))
      refine Tri.bind ((FArch.copyCommonComponents_quiet _ _ _ _ k3).mono (fun _ k4 i4 => ?_))
      refine Tri.bind ((FArch.writeSingleComponentUnchecked_quiet _ _ _ _ k4).mono (fun _ k5 i5 => ?_))
      refine Tri.bind ((FArch.entityAt_quiet _ _ k5).mono (fun _ k6 i6 => ?_))
      refine Tri.bind ((FArch.setEntityAt_quiet _ _ _ k6).mono (fun _ k7 i7 => ?_))
      refine Tri.bind ((FArch.decrementLenUnchecked_tri src).mono ?_)
      rintro src' k8 ⟨hk, i8⟩
      refine Tri.bind (Tri.lift (fun _ _ => ?_))
      refine Tri.bind (Tri.lift (fun _ _ => ?_))
      have i12 := i1.trans i2
      have i38 := (((i4.trans i5).trans i6).trans i7).trans i8
      exact Tri.pure (hf.total (Spent.two (index_inv hsrc) hk (index_inv hdst) h1 h3 rfl) (by rw [i38.1, h2, i12.1]))

theorem removeComponent_count (fr : FReg) (e : Entity) (c : CompTy) :
    Tri (fr.removeComponent A env e c) h (fun x h' => h'.next = h.next + costs fr.archetypes x.1.archetypes) := by
  unfold removeComponent
  split
  · exact Tri.pure (Asked.same _ _).done
  · refine Tri.bind ((findOrCreateRemoving_count fr _ _).mono ?_)
    intro f k hf
    split
    · exact Tri.pure hf.done
    · next si dai di _ =>
      refine Tri.bind (Tri.lift (fun src hsrc => ?_))
      refine Tri.bind (Tri.lift (fun dst hdst => ?_))
      simp only []
      refine Tri.bind ((FArch.swapToLastUnchecked_quiet src _ k).mono (fun s k1 i1 => ?_))
      refine Tri.bind ((swapped_quiet (FArch.entityAt_quiet _ _) k1).mono (fun ents k2 i2 => ?_))
      refine Tri.bind ((FArch.pushUninitializedEntity_count dst).mono ?_)
      rintro p k3 ⟨h1, h2, h3⟩
      refine Tri.bind (Tri.lift (fun sIdx _ => ?_))
      refine Tri.bind (Tri.lift (fun dIdx _ => ?_))
      refine Tri.bind ((FArch.copyCommonComponents_quiet _ _ _ _ k3).mono (fun _ k4 i4 => ?_))
      refine Tri.bind ((FArch.readComponentUnchecked_quiet _ _ _ k4).mono (fun _ k5 i5 => ?_))
      refine Tri.bind ((FArch.entityAt_quiet _ _ k5).mono (fun _ k6 i6 => ?_))
      refine Tri.bind ((FArch.setEntityAt_quiet _ _ _ k6).mono (fun _ k7 i7 => ?_))
      refine Tri.bind ((FArch.decrementLenUnchecked_tri src).mono ?_)
      rintro src' k8 ⟨hk, i8⟩
      refine Tri.bind (Tri.lift (fun _ _ => ?_))
      refine Tri.bind (Tri.lift (fun _ _ => ?_))
      have i12 := i1.trans i2
      have i38 := (((i4.trans i5).trans i6).trans i7).trans i8
      exact Tri.pure (hf.total (Spent.two (index_inv hsrc) hk (index_inv hdst) h1 h3 rfl) (by rw [i38.1, h2, i12.1]))

/-- A call asks the allocator once for each array of an archetype that is new or grows. -/
theorem call_count (fr : FReg) (c : Call) :
    Tri (fr.call A env c) h (fun x h' => h'.next = h.next + costs fr.archetypes x.1.archetypes) := by
  have quiet : ∀ {k : Heap}, Idle h k → k.next = h.next + costs fr.archetypes fr.archetypes := fun hi => by
    rw [costs_self, hi.1]; rfl
  cases c with
  | create g vals =>
    refine Tri.bind ((createEntity_count fr g vals).mono (fun x k hk => ?_))
    split <;> exact Tri.pure hk
  | add e c v =>
    refine Tri.bind ((addComponent_count fr e c v).mono (fun x k hk => ?_))
    split <;> exact Tri.pure hk
  | remove e c =>
    refine Tri.bind ((removeComponent_count fr e c).mono (fun x k hk => ?_))
    split <;> exact Tri.pure hk
  | destroy e => exact Tri.bind ((destroyEntity_count fr e).mono (fun x k hk => Tri.pure hk))
  | removeEntity g e =>
    refine Tri.bind ((removeEntity_count fr g e).mono (fun x k hk => ?_))
    split <;> exact Tri.pure hk
  | write e c v =>
    refine Tri.bind ((getComponentMut_quiet fr c e h).mono (fun o k hk => ?_))
    split
    · exact Tri.bind ((replaceAt_quiet _ _ _ k).mono (fun _ k' hk' => Tri.pure (quiet (hk.trans hk'))))
    · exact Tri.pure (quiet hk)
  | writeIn g e j v =>
    refine Tri.bind ((getComponentsMut_quiet fr g e h).mono (fun o k hk => ?_))
    split
    · exact Tri.pure (quiet hk)
    · split
      · exact Tri.bind ((replaceAt_quiet _ _ _ k).mono (fun _ k' hk' => Tri.pure (quiet (hk.trans hk'))))
      · exact Tri.pure (quiet hk)
  | writeIter it g n j k v =>
    refine Tri.bind ((items_quiet fr g it h).mono (fun o k hk => ?_))
    split
    · exact Tri.pure (quiet hk)
    · split
      · exact Tri.pure (quiet hk)
      · split
        · exact Tri.bind ((replaceAt_quiet _ _ _ k).mono (fun _ k' hk' => Tri.pure (quiet (hk.trans hk'))))
        · exact Tri.pure (quiet hk)

end FReg

end Shard.Flat
