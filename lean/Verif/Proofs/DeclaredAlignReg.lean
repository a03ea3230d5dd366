import Verif.Proofs.DeclaredAlignArch
/-!
# Registries whose columns are aligned more strictly
-/

set_option autoImplicit false

namespace Shard.Align

variable {env : Env} {q : Bool}

/-- Archetype registries that differ in alignments only. -/
structure AReg (q : Bool) (r s : ArchetypeRegistry) : Prop where
  maps : s.sortedMappings = r.sortedMappings
  archs : LRel (fun _ => Arch q) r.archetypes s.archetypes

/-- Registries that differ in alignments only. -/
structure Reg (q : Bool) (r s : Registry) : Prop where
  ents : s.entities = r.entities
  archs : AReg q r.archetypes s.archetypes

section
variable {r s : ArchetypeRegistry}

theorem AReg.set (h : AReg q r s) (i : Nat) {a b : Archetype} (hab : Arch q a b) : AReg q (r.setArchetype i a) (s.setArchetype i b) :=
  ⟨h.maps, h.archs.set hab⟩

theorem AReg.searchLevel (h : AReg q r s) {d d' : ArchetypeDescriptor} (hd : Desc q d d') : s.searchLevel env d' = r.searchLevel env d := by
  unfold ArchetypeRegistry.searchLevel
  rw [h.maps, hd.len, hd.id]

theorem AReg.findArchetype (h : AReg q r s) (d : ArchetypeDescriptor) :
    Sim (fun x y => y = x) (r.findArchetype env d) (s.findArchetype env d) := by
  unfold ArchetypeRegistry.findArchetype
  split
  · exact .ok rfl
  · rw [h.searchLevel (.refl d)]
    refine Sim.same rfl (fun x => ?_)
    split
    · exact Sim.same rfl (fun k => Sim.bind (h.archs.index _) (fun _ _ _ => .pure rfl))
    · exact .pure rfl

theorem AReg.findOrCreateArchetype (h : AReg q r s) {d d' : ArchetypeDescriptor} (hd : Desc q d d') :
    Sim (fun x y => AReg q x.1 y.1 ∧ y.2 = x.2) (r.findOrCreateArchetype env d) (s.findOrCreateArchetype env d') := by
  unfold ArchetypeRegistry.findOrCreateArchetype
  have hv : d'.isValid = d.isValid := by unfold ArchetypeDescriptor.isValid; rw [hd.id]
  rw [hd.len, hv]
  split
  · exact .ok ⟨h, rfl⟩
  · rw [h.searchLevel hd]
    refine Sim.same rfl (fun x => ?_)
    split
    · exact Sim.same rfl (fun k => Sim.bind (h.archs.index _) (fun _ _ _ => .pure ⟨h, rfl⟩))
    · rw [h.archs.1]
      split
      · exact .pure ⟨h, rfl⟩
      · refine Sim.bind (withCapacity hd _) (fun a b hab => ?_)
        simp only []
        refine Sim.same rfl (fun _ => ?_)
        rw [h.maps, hd.id]
        have hl := h.archs.append (x := a) (y := b) hab
        refine .pure ⟨⟨rfl, hl⟩, ?_⟩
        simp only [hl.1]

theorem AReg.findOrCreateAdding (h : AReg q r s) (src : UInt16) {c c' : ComponentDescriptor} (hc : Like q c c') :
    Sim (fun x y => AReg q x.1 y.1 ∧ y.2 = x.2) (r.findOrCreateAdding env src c) (s.findOrCreateAdding env src c') := by
  unfold ArchetypeRegistry.findOrCreateAdding
  rw [h.archs.1]
  split
  · exact .ok ⟨h, rfl⟩
  · refine Sim.bind (h.archs.index _) (fun a b hab => Sim.bind (hab.desc.addComponent hc) (fun o o' ho => ?_))
    match o, o', ho with
    | none, none, _ => exact .pure ⟨h, rfl⟩
    | some nd, some nd', ho =>
      refine Sim.bind (h.findOrCreateArchetype (show Desc q nd nd' from ho)) (fun f f' hf => ?_)
      rw [hf.2]
      split
      · exact .pure ⟨hf.1, rfl⟩
      · rename_i dst _
        have hdis : disjointMut f'.1.archetypes src.toNat dst.toNat = disjointMut f.1.archetypes src.toNat dst.toNat := by
          unfold disjointMut
          rw [hf.1.archs.1]
        rw [hdis]
        split
        · exact .pure ⟨hf.1, rfl⟩
        · exact .pure ⟨hf.1, rfl⟩

theorem AReg.findOrCreateRemoving (h : AReg q r s) (src : UInt16) {c c' : ComponentDescriptor} (hc : c'.id = c.id) :
    Sim (fun x y => AReg q x.1 y.1 ∧ y.2 = x.2) (r.findOrCreateRemoving env src c) (s.findOrCreateRemoving env src c') := by
  unfold ArchetypeRegistry.findOrCreateRemoving
  rw [h.archs.1, hc]
  split
  · exact .ok ⟨h, rfl⟩
  · refine Sim.bind (h.archs.index _) (fun a b hab => Sim.bind (hab.desc.removeComponent _) (fun o o' ho => ?_))
    match o, o', ho with
    | none, none, _ => exact .pure ⟨h, rfl⟩
    | some nd, some nd', ho =>
      refine Sim.bind (h.findOrCreateArchetype (show Desc q nd nd' from ho)) (fun f f' hf => ?_)
      rw [hf.2]
      split
      · exact .pure ⟨hf.1, rfl⟩
      · rename_i dst _
        have hdis : disjointMut f'.1.archetypes src.toNat dst.toNat = disjointMut f.1.archetypes src.toNat dst.toNat := by
          unfold disjointMut
          rw [hf.1.archs.1]
        rw [hdis]
        split
        · exact .pure ⟨hf.1, rfl⟩
        · exact .pure ⟨hf.1, rfl⟩

theorem AReg.getUnchecked (h : AReg q r s) (i : UInt16) : Sim (Arch q) (r.getUnchecked i) (s.getUnchecked i) := by
  unfold ArchetypeRegistry.getUnchecked
  exact h.archs.indexUnchecked _

theorem AReg.drop (h : AReg q r s) : Sim (fun x y => Dropped q x.1 y.1) r.drop s.drop := by
  unfold ArchetypeRegistry.drop
  rw [h.archs.1]
  refine Sim.forRange (fun i x y hxy => ?_) _ _ _ _ (Dropped.refl _)
  refine Sim.bind (h.archs.index i) (fun a b hab => Sim.bind hab.drop (fun u v huv => .pure (hxy.append huv.1)))

/-! ## Iterators -/

/-- The filter gives the same answer for descriptors that differ in alignments only. -/
def Blind (q : Bool) (f : ArchetypeDescriptor → Bool) : Prop := ∀ d d', Desc q d d' → f d' = f d

theorem nextInLevel (gd : ArchetypeDescriptor) {f : ArchetypeDescriptor → Bool} (hf : Blind q f) (h : AReg q r s) (lvl : List SortedArchetypeKey) :
    ∀ (n i : Nat), Sim (fun x y => y = x) (ArchIter.nextInLevel gd f r.archetypes lvl n i) (ArchIter.nextInLevel gd f s.archetypes lvl n i)
  | 0, _ => .ok rfl
  | n + 1, i => by
    unfold ArchIter.nextInLevel
    split
    · refine Sim.same rfl (fun k => Sim.bind (h.archs.indexUnchecked _) (fun a b hab => ?_))
      rw [hab.desc.containsSubset, hf _ _ hab.desc]
      split
      · exact .pure rfl
      · exact nextInLevel gd hf h lvl n (i + 1)
    · exact .ok rfl

theorem nextLoop (gd : ArchetypeDescriptor) {f : ArchetypeDescriptor → Bool} (hf : Blind q f) (h : AReg q r s) :
    ∀ (n : Nat) (it : ArchIter), Sim (fun x y => y = x) (ArchIter.nextLoop gd f r n it) (ArchIter.nextLoop gd f s n it)
  | 0, _ => .ok rfl
  | n + 1, it => by
    unfold ArchIter.nextLoop
    split
    · rw [h.maps]
      refine Sim.same rfl (fun lvl => Sim.bind (nextInLevel gd hf h lvl _ _) (fun x y hx => ?_))
      subst hx
      split
      · exact .pure rfl
      · exact nextLoop gd hf h n _
    · exact .ok rfl

theorem next (g : Group) {f : ArchetypeDescriptor → Bool} (hf : Blind q f) (h : AReg q r s) (it : ArchIter) :
    Sim (fun x y => y = x) (it.next env g f r) (it.next env g f s) := by
  unfold ArchIter.next
  split
  · exact .ok rfl
  · exact nextLoop _ hf h _ _

theorem collect {α : Type} (g : Group) {f : ArchetypeDescriptor → Bool} (hf : Blind q f) (h : AReg q r s) {acc : Archetype → M α}
    (hq : ∀ a b, Arch q a b → Sim (fun x y => y = x) (acc a) (acc b)) : ∀ (n : Nat) (it : ArchIter),
    Sim (fun x y => y = x) (it.collect env g f r acc n) (it.collect env g f s acc n)
  | 0, _ => .ok rfl
  | n + 1, it => by
    unfold ArchIter.collect
    refine Sim.bind (next g hf h it) (fun x y hx => ?_)
    subst hx
    split
    · exact .pure rfl
    · refine Sim.bind (h.archs.indexUnchecked _) (fun a b hab => Sim.bind (hq a b hab) (fun u v hu => ?_))
      exact Sim.bind (collect g hf h hq n _) (fun w z hw => by subst hu; subst hw; exact .pure rfl)

theorem iterate {α : Type} (g : Group) {f : ArchetypeDescriptor → Bool} (hf : Blind q f) (h : AReg q r s) {acc : Archetype → M α}
    (hq : ∀ a b, Arch q a b → Sim (fun x y => y = x) (acc a) (acc b)) :
    Sim (fun x y => y = x) (r.iterate env g f acc) (s.iterate env g f acc) := by
  unfold ArchetypeRegistry.iterate
  rw [h.archs.1]
  exact Sim.same rfl (fun it => collect g hf h hq _ it)

end

/-! ## The registry -/

theorem blindTrue : Blind q (fun _ => true) := fun _ _ _ => rfl

section
variable {r s : Registry}

theorem Reg.createEntity (h : Reg q r s) (g : Group) (vals : List Val) :
    Sim (fun x y => Reg q x.1 y.1 ∧ y.2 = x.2) (r.createEntity env g vals) (s.createEntity env g vals) := by
  unfold Registry.createEntity
  split
  · exact .ok ⟨h, rfl⟩
  · rw [h.ents]
    refine Sim.bind (h.archs.findOrCreateArchetype (.refl _)) (fun f f' hf => ?_)
    rw [hf.2]
    split
    · exact .pure ⟨⟨rfl, hf.1⟩, rfl⟩
    · refine Sim.bind (hf.1.archs.index _) (fun a b hab => ?_)
      rw [hab.count]
      refine Sim.same rfl (fun iia => Sim.same rfl (fun aix => Sim.same rfl (fun c => ?_)))
      split
      · exact .pure ⟨⟨rfl, hf.1⟩, rfl⟩
      · exact Sim.bind (hab.pushEntityUnchecked _ g vals) (fun p p' hp => .pure ⟨⟨rfl, hf.1.set _ hp.1⟩, rfl⟩)

theorem Reg.destroyEntity (h : Reg q r s) (e : Entity) :
    Sim (fun x y => Reg q x.1 y.1 ∧ y.2.1 = x.2.1 ∧ Dropped q x.2.2 y.2.2) (r.destroyEntity env e) (s.destroyEntity env e) := by
  unfold Registry.destroyEntity
  rw [h.ents]
  split
  · exact .ok ⟨h, rfl, .refl _⟩
  · refine Sim.bind (h.archs.getUnchecked _) (fun a b hab => Sim.bind (hab.swapDropUnchecked _) (fun x y hxy => ?_))
    simp only []
    rw [hxy.2.1, hxy.1.entityAtUnchecked]
    refine Sim.same rfl (fun ents => Sim.same rfl (fun _ => .pure ⟨⟨rfl, h.archs.set _ hxy.1⟩, rfl, hxy.2.2⟩))

theorem Reg.removeEntity (h : Reg q r s) (g : Group) (e : Entity) :
    Sim (fun x y => Reg q x.1 y.1 ∧ y.2 = x.2) (r.removeEntity env g e) (s.removeEntity env g e) := by
  unfold Registry.removeEntity
  rw [h.ents]
  split
  · exact .ok ⟨h, rfl⟩
  · refine Sim.bind (h.archs.getUnchecked _) (fun a b hab => Sim.bind (hab.swapRemoveUnchecked g _) (fun x y hxy => ?_))
    simp only []
    rw [hxy.2, hxy.1.entityAt]
    refine Sim.same rfl (fun ents => Sim.same rfl (fun _ => .pure ⟨⟨rfl, h.archs.set _ hxy.1⟩, rfl⟩))

theorem Reg.hasComponent (h : Reg q r s) (c : CompTy) (e : Entity) :
    Sim (fun x y => y = x) (r.hasComponent env c e) (s.hasComponent env c e) := by
  unfold Registry.hasComponent
  rw [h.ents]
  split
  · exact .ok rfl
  · exact Sim.bind (h.archs.getUnchecked _) (fun a b hab => .pure (hab.desc.hasComponent c))

theorem Reg.hasComponents (h : Reg q r s) (g : Group) (e : Entity) :
    Sim (fun x y => y = x) (r.hasComponents env g e) (s.hasComponents env g e) := by
  unfold Registry.hasComponents
  rw [h.ents]
  split
  · exact .ok rfl
  · exact Sim.bind (h.archs.getUnchecked _) (fun a b hab => .pure (hab.desc.containsSubset _))

theorem Reg.getComponent (h : Reg q r s) (c : CompTy) (e : Entity) :
    Sim (fun x y => y = x) (r.getComponent env c e) (s.getComponent env c e) := by
  unfold Registry.getComponent
  rw [h.ents]
  split
  · exact .ok rfl
  · refine Sim.bind (h.archs.getUnchecked _) (fun a b hab => ?_)
    rw [hab.desc.hasComponent]
    split
    · exact .pure rfl
    · exact Sim.bind (hab.getComponentUnchecked c _) (fun x y hx => by subst hx; exact .pure rfl)

theorem Reg.getComponents (h : Reg q r s) (g : Group) (e : Entity) :
    Sim (fun x y => y = x) (r.getComponents env g e) (s.getComponents env g e) := by
  unfold Registry.getComponents
  rw [h.ents]
  split
  · exact .ok rfl
  · refine Sim.bind (h.archs.getUnchecked _) (fun a b hab => ?_)
    rw [hab.desc.containsSubset]
    split
    · exact .pure rfl
    · exact Sim.bind (hab.getFuzzyComponentsUnchecked g _) (fun x y hx => by subst hx; exact .pure rfl)

theorem Reg.getComponentMut (h : Reg q r s) (c : CompTy) (e : Entity) :
    Sim (fun x y => y = x) (r.getComponentMut env c e) (s.getComponentMut env c e) := by
  unfold Registry.getComponentMut
  rw [h.ents]
  split
  · exact .ok rfl
  · refine Sim.bind (h.archs.getUnchecked _) (fun a b hab => ?_)
    rw [hab.desc.hasComponent]
    split
    · exact .pure rfl
    · exact Sim.bind (hab.getComponentUncheckedMut c _) (fun x y hx => by subst hx; exact .pure rfl)

theorem Reg.getComponentsMut (h : Reg q r s) (g : Group) (e : Entity) :
    Sim (fun x y => y = x) (r.getComponentsMut env g e) (s.getComponentsMut env g e) := by
  unfold Registry.getComponentsMut
  rw [h.ents]
  split
  · exact .ok rfl
  · refine Sim.bind (h.archs.getUnchecked _) (fun a b hab => ?_)
    rw [hab.desc.containsSubset]
    split
    · exact .pure rfl
    · exact Sim.bind (hab.getFuzzyComponentsUncheckedMut g _) (fun x y hx => by subst hx; exact .pure rfl)

theorem Reg.storeRef (h : Reg q r s) (ai : Nat) (c : CompTy) (p : Ref) (v : Val) : Sim (Reg q) (r.storeRef ai c p v) (s.storeRef ai c p v) := by
  unfold Registry.storeRef
  rw [h.ents]
  exact Sim.bind (h.archs.archs.index _) (fun a b hab => Sim.bind (hab.writeRef c p v) (fun a' b' hab' => .pure ⟨rfl, h.archs.set _ hab'⟩))

theorem Reg.replaceAt (h : Reg q r s) (ai : Nat) (c : CompTy) (p : Ref) (v : Val) :
    Sim (fun x y => Reg q x.1 y.1 ∧ y.2 = x.2) (r.replaceAt ai c p v) (s.replaceAt ai c p v) := by
  unfold Registry.replaceAt
  exact Sim.bind (h.archs.archs.index _) (fun a b hab => Sim.bind (hab.readRef c p) (fun x y hx =>
    Sim.bind (h.storeRef ai c p v) (fun r' s' h' => by subst hx; exact .pure ⟨h', rfl⟩)))

theorem Reg.replaceComponent (h : Reg q r s) (c : CompTy) (e : Entity) (v : Val) :
    Sim (fun x y => Reg q x.1 y.1 ∧ y.2 = x.2) (r.replaceComponent env c e v) (s.replaceComponent env c e v) := by
  unfold Registry.replaceComponent
  refine Sim.bind (h.getComponentMut c e) (fun x y hx => ?_)
  subst hx
  split
  · exact .pure ⟨h, rfl⟩
  · exact Sim.bind (h.archs.archs.index _) (fun a b hab => Sim.bind (hab.readRef c _) (fun x y hx =>
      Sim.bind (h.storeRef _ c _ v) (fun r' s' h' => by subst hx; exact .pure ⟨h', rfl⟩)))

theorem Reg.addComponentWith (h : Reg q r s) (e : Entity) (c : CompTy) {d d' : ComponentDescriptor} (hd : Like q d d') (v : Val) :
    Sim (fun x y => Reg q x.1 y.1 ∧ y.2 = x.2) (r.addComponentWith env e c d v) (s.addComponentWith env e c d' v) := by
  unfold Registry.addComponentWith
  rw [h.ents]
  split
  · exact .ok ⟨h, rfl⟩
  · refine Sim.bind (h.archs.findOrCreateAdding _ hd) (fun f f' hf => ?_)
    rw [hf.2]
    split
    · exact .pure ⟨⟨rfl, hf.1⟩, rfl⟩
    · refine Sim.bind (hf.1.archs.index _) (fun a b hab => Sim.bind (hf.1.archs.index _) (fun a2 b2 hab2 => ?_))
      simp only []
      refine Sim.bind (hab.swapToLastUnchecked _) (fun x y hxy => ?_)
      rw [hxy.2, hxy.1.entityAt, hxy.1.count]
      refine Sim.same rfl (fun ents => Sim.bind hab2.pushUninitializedEntity (fun p p' hp => ?_))
      rw [hp.1.count]
      refine Sim.same rfl (fun si => Sim.same rfl (fun di => Sim.bind (copyCommonComponents hxy.1 hp.1 _ _) (fun a3 b3 hab3 => ?_)))
      refine Sim.bind (hab3.writeSingleComponentUnchecked c _ v) (fun a4 b4 hab4 => ?_)
      rw [hxy.1.entityAt]
      refine Sim.same rfl (fun hnd => Sim.bind (hab4.setEntityAt _ _) (fun a5 b5 hab5 => ?_))
      refine Sim.bind hxy.1.decrementLenUnchecked (fun a6 b6 hab6 => Sim.same rfl (fun niia => Sim.same rfl (fun ents' => ?_)))
      exact .pure ⟨⟨rfl, (hf.1.set _ hab6).set _ hab5⟩, rfl⟩

theorem Reg.removeComponentWith (h : Reg q r s) (e : Entity) (c : CompTy) {d d' : ComponentDescriptor} (hd : d'.id = d.id) :
    Sim (fun x y => Reg q x.1 y.1 ∧ y.2 = x.2) (r.removeComponentWith env e c d) (s.removeComponentWith env e c d') := by
  unfold Registry.removeComponentWith
  rw [h.ents]
  split
  · exact .ok ⟨h, rfl⟩
  · refine Sim.bind (h.archs.findOrCreateRemoving _ hd) (fun f f' hf => ?_)
    rw [hf.2]
    split
    · exact .pure ⟨⟨rfl, hf.1⟩, rfl⟩
    · refine Sim.bind (hf.1.archs.index _) (fun a b hab => Sim.bind (hf.1.archs.index _) (fun a2 b2 hab2 => ?_))
      simp only []
      refine Sim.bind (hab.swapToLastUnchecked _) (fun x y hxy => ?_)
      rw [hxy.2, hxy.1.entityAt, hxy.1.count]
      refine Sim.same rfl (fun ents => Sim.bind hab2.pushUninitializedEntity (fun p p' hp => ?_))
      rw [hp.1.count]
      refine Sim.same rfl (fun si => Sim.same rfl (fun di => Sim.bind (copyCommonComponents hxy.1 hp.1 _ _) (fun a3 b3 hab3 => ?_)))
      refine Sim.bind (hxy.1.readComponentUnchecked c _) (fun v w hvw => ?_)
      subst hvw
      rw [hxy.1.entityAt]
      refine Sim.same rfl (fun hnd => Sim.bind (hab3.setEntityAt _ _) (fun a5 b5 hab5 => ?_))
      refine Sim.bind hxy.1.decrementLenUnchecked (fun a6 b6 hab6 => Sim.same rfl (fun niia => Sim.same rfl (fun ents' => ?_)))
      exact .pure ⟨⟨rfl, (hf.1.set _ hab6).set _ hab5⟩, rfl⟩

theorem Reg.iterComponentsExact (h : Reg q r s) (g : Group) :
    Sim (fun x y => y = x) (r.iterComponentsExact env g) (s.iterComponentsExact env g) := by
  unfold Registry.iterComponentsExact
  refine Sim.bind (h.archs.findArchetype _) (fun x y hx => ?_)
  subst hx
  split
  · exact Sim.bind (h.archs.archs.index _) (fun a b hab => hab.getSlicesUncheckedExact g)
  · exact .pure rfl

theorem Reg.iterComponentsExactMut (h : Reg q r s) (g : Group) :
    Sim (fun x y => y = x) (r.iterComponentsExactMut env g) (s.iterComponentsExactMut env g) := by
  unfold Registry.iterComponentsExactMut
  refine Sim.bind (h.archs.findArchetype _) (fun x y hx => ?_)
  subst hx
  split
  · exact Sim.bind (h.archs.archs.index _) (fun a b hab => Sim.bind (hab.getSlicesUncheckedExactMut g) (fun u v hu => by subst hu; exact .pure rfl))
  · exact .pure rfl

theorem Reg.iterEntityComponentsExact (h : Reg q r s) (g : Group) :
    Sim (fun x y => y = x) (r.iterEntityComponentsExact env g) (s.iterEntityComponentsExact env g) := by
  unfold Registry.iterEntityComponentsExact
  refine Sim.bind (h.archs.findArchetype _) (fun x y hx => ?_)
  subst hx
  split
  · refine Sim.bind (h.archs.archs.index _) (fun a b hab => ?_)
    rw [hab.entities]
    exact Sim.same rfl (fun es => Sim.bind (hab.getSlicesUncheckedExact g) (fun u v hu => by subst hu; exact .pure rfl))
  · exact .pure rfl

theorem Reg.iterEntityComponentsExactMut (h : Reg q r s) (g : Group) :
    Sim (fun x y => y = x) (r.iterEntityComponentsExactMut env g) (s.iterEntityComponentsExactMut env g) := by
  unfold Registry.iterEntityComponentsExactMut
  refine Sim.bind (h.archs.findArchetype _) (fun x y hx => ?_)
  subst hx
  split
  · refine Sim.bind (h.archs.archs.index _) (fun a b hab => ?_)
    rw [hab.entities]
    exact Sim.same rfl (fun es => Sim.bind (hab.getSlicesUncheckedExactMut g) (fun u v hu => by subst hu; exact .pure rfl))
  · exact .pure rfl

/-- The filter of an iterator ignores alignments. -/
def BlindIter (q : Bool) : MutIter → Prop
  | .filtered f => Blind q f
  | .entityFiltered f => Blind q f
  | _ => True

theorem Reg.items (h : Reg q r s) (g : Group) (it : MutIter) (hb : BlindIter q it) :
    Sim (fun x y => y = x) (it.items env r g) (it.items env s g) := by
  cases it with
  | matching => exact iterate g blindTrue h.archs (fun a b hab => hab.getFuzzySlicesUncheckedMut g)
  | entityMatching =>
    exact Sim.bind (iterate g blindTrue h.archs (fun a b hab => hab.getEntityFuzzySlicesUncheckedMut g)) (fun x y hx => by subst hx; exact .pure rfl)
  | filtered f => exact iterate g hb h.archs (fun a b hab => hab.getFuzzySlicesUncheckedMut g)
  | entityFiltered f =>
    exact Sim.bind (iterate g hb h.archs (fun a b hab => hab.getEntityFuzzySlicesUncheckedMut g)) (fun x y hx => by subst hx; exact .pure rfl)
  | exact => exact Sim.bind (h.iterComponentsExactMut g) (fun x y hx => by subst hx; exact .pure rfl)
  | entityExact => exact Sim.bind (h.iterEntityComponentsExactMut g) (fun x y hx => by subst hx; exact .pure rfl)

end

end Shard.Align
