import Verif.Proofs.FlatRegistry
import Verif.Proofs.RegistryRead
import Verif.Proofs.Registry
/-!
# Flat memory: look-ups, iterators, programs, and the drop of the registry
-/

set_option autoImplicit false

namespace Shard.Flat

open Registry (Res)

variable {A : Allocator} {env : Env} {h h' h'' : Heap} {fr : FReg} {r : Registry}

/-! ## Look-ups -/

theorem RegRep.unchecked (hR : RegRep h fr r) {i : UInt16} {a : Archetype} (hr : r.archetypes.getUnchecked i = .ok a) :
    ∃ fa, fr.getUnchecked i = .ok fa ∧ fr.archetypes[i.toNat]? = some fa ∧ ARep h fa a ∧
      r.archetypes.archetypes[i.toNat]? = some a := by
  have ha := indexUnchecked_inv hr
  obtain ⟨fa, hfa, hA⟩ := hR.archs.get ha
  exact ⟨fa, indexUnchecked_ok' hfa, hfa, hA, ha⟩

theorem hasComponent_spec (hR : RegRep h fr r) {c : CompTy} {e : Entity} {b : Bool} (hr : r.hasComponent env c e = .ok b) :
    fr.hasComponent env c e = .ok b := by
  unfold Registry.hasComponent at hr
  unfold FReg.hasComponent
  rw [hR.ents]
  cases hen : r.entities.entityEntry env e with
  | none => simp only [hen] at hr ⊢; exact hr
  | some en =>
    simp only [hen] at hr ⊢
    obtain ⟨a, h1, hr1⟩ := ebind_inv hr
    obtain ⟨fa, h2, _, hA, _⟩ := hR.unchecked h1
    rw [h2]
    cases hr1
    show Except.ok _ = _
    rw [hA.desc]

theorem hasComponents_spec (hR : RegRep h fr r) {g : Group} {e : Entity} {b : Bool} (hr : r.hasComponents env g e = .ok b) :
    fr.hasComponents env g e = .ok b := by
  unfold Registry.hasComponents at hr
  unfold FReg.hasComponents
  rw [hR.ents]
  cases hen : r.entities.entityEntry env e with
  | none => simp only [hen] at hr ⊢; exact hr
  | some en =>
    simp only [hen] at hr ⊢
    obtain ⟨a, h1, hr1⟩ := ebind_inv hr
    obtain ⟨fa, h2, _, hA, _⟩ := hR.unchecked h1
    rw [h2]
    cases hr1
    show Except.ok _ = _
    rw [hA.desc]

theorem getComponent_spec (hw : h.WF) (hR : RegRep h fr r) {c : CompTy} {e : Entity} {o : Option Val}
    (hr : r.getComponent env c e = .ok o) : wp A (fr.getComponent env c e) h (fun o' h' => o' = o ∧ h' = h) := by
  unfold Registry.getComponent at hr
  unfold FReg.getComponent
  rw [hR.ents]
  cases hen : r.entities.entityEntry env e with
  | none => simp only [hen] at hr ⊢; cases hr; exact wp_pure ⟨rfl, rfl⟩
  | some en =>
    simp only [hen] at hr ⊢
    obtain ⟨a, h1, hr1⟩ := ebind_inv hr
    obtain ⟨fa, h2, _, hA, _⟩ := hR.unchecked h1
    refine wp_then h2 ?_
    rw [hA.desc]
    by_cases hc : ¬ a.descriptor.hasComponent c = true
    · rw [if_pos hc] at hr1 ⊢; cases hr1; exact wp_pure ⟨rfl, rfl⟩
    · rw [if_neg hc] at hr1 ⊢
      obtain ⟨v, h3, hr2⟩ := ebind_inv hr1
      cases hr2
      refine wp_bind (wp_mono (getComponentUnchecked_spec hw hA h3) ?_)
      rintro _ _ ⟨rfl, rfl⟩
      exact wp_pure ⟨rfl, rfl⟩

theorem getComponents_spec (hw : h.WF) (hR : RegRep h fr r) (hready : Ready env r) {g : Group} (hg : Fuzzy env r g)
    {e : Entity} {o : Option (List Val)} (hr : r.getComponents env g e = .ok o) :
    wp A (fr.getComponents env g e) h (fun o' h' => o' = o ∧ h' = h) := by
  unfold Registry.getComponents at hr
  unfold FReg.getComponents
  rw [hR.ents]
  cases hen : r.entities.entityEntry env e with
  | none => simp only [hen] at hr ⊢; cases hr; exact wp_pure ⟨rfl, rfl⟩
  | some en =>
    simp only [hen] at hr ⊢
    obtain ⟨a, h1, hr1⟩ := ebind_inv hr
    obtain ⟨fa, h2, _, hA, ha⟩ := hR.unchecked h1
    refine wp_then h2 ?_
    rw [hA.desc]
    by_cases hc : ¬ a.descriptor.containsSubset (g.descriptor env).archetype = true
    · rw [if_pos hc] at hr1 ⊢; cases hr1; exact wp_pure ⟨rfl, rfl⟩
    · rw [if_neg hc] at hr1 ⊢
      obtain ⟨v, h3, hr2⟩ := ebind_inv hr1
      cases hr2
      have hrow := hready.row hen ha
      have hcap := (hready.side ha).2.1
      refine wp_bind (wp_mono (getFuzzyComponents_spec hw hA (hg ha (by omega)) h3) ?_)
      rintro _ _ ⟨rfl, rfl⟩
      exact wp_pure ⟨rfl, rfl⟩

theorem getComponentMut_spec (hw : h.WF) (hR : RegRep h fr r) {c : CompTy} {e : Entity} {o : Option (Nat × Ref)}
    (hr : r.getComponentMut env c e = .ok o) : wp A (fr.getComponentMut env c e) h (fun o' h' => h' = h ∧
      ((o = none ∧ o' = none) ∨ ∃ ai p fa q, o = some (ai, p) ∧ o' = some q ∧ fr.archetypes[ai]? = some fa ∧ PtrAt fa p q)) := by
  unfold Registry.getComponentMut at hr
  unfold FReg.getComponentMut
  rw [hR.ents]
  cases hen : r.entities.entityEntry env e with
  | none => simp only [hen] at hr ⊢; cases hr; exact wp_pure ⟨rfl, .inl ⟨rfl, rfl⟩⟩
  | some en =>
    simp only [hen] at hr ⊢
    obtain ⟨a, h1, hr1⟩ := ebind_inv hr
    obtain ⟨fa, h2, hfa, hA, _⟩ := hR.unchecked h1
    refine wp_then h2 ?_
    rw [hA.desc]
    by_cases hc : ¬ a.descriptor.hasComponent c = true
    · rw [if_pos hc] at hr1 ⊢; cases hr1; exact wp_pure ⟨rfl, .inl ⟨rfl, rfl⟩⟩
    · rw [if_neg hc] at hr1 ⊢
      obtain ⟨p, h3, hr2⟩ := ebind_inv hr1
      cases hr2
      refine wp_bind (wp_mono (getComponentUncheckedMut_spec hw hA h3) ?_)
      rintro q _ ⟨hq, rfl⟩
      exact wp_pure ⟨rfl, .inr ⟨_, p, fa, q, rfl, rfl, hfa, hq⟩⟩

theorem derefTuple_some {a : Archetype} : ∀ {refs : List (CompTy × Option Ref)} {vs : List Val},
    a.derefTuple refs = .ok vs → ∀ {c : CompTy}, (c, (none : Option Ref)) ∉ refs
  | [], _, _, c => by simp
  | (c', o) :: refs, vs, hr, c => by
    unfold Archetype.derefTuple at hr
    obtain ⟨v, h1, h2⟩ := ebind_inv hr
    obtain ⟨vs', h3, _⟩ := ebind_inv h2
    intro hm
    rcases List.mem_cons.mp hm with hm | hm
    · cases hm
      cases h1
    · exact derefTuple_some h3 hm

theorem getComponentsMut_spec (hw : h.WF) (hR : RegRep h fr r) (hready : Ready env r) {g : Group} (hg : Fuzzy env r g)
    {e : Entity} {o : Option (Nat × List (CompTy × Option Ref))} (hr : r.getComponentsMut env g e = .ok o) :
    wp A (fr.getComponentsMut env g e) h (fun o' h' => h' = h ∧
      ((o = none ∧ o' = none) ∨ ∃ ai refs fa ps, o = some (ai, refs) ∧ o' = some ps ∧ fr.archetypes[ai]? = some fa ∧
        All2 (TRel fa) refs ps ∧ ∀ c, (c, (none : Option Ref)) ∉ refs)) := by
  unfold Registry.getComponentsMut at hr
  unfold FReg.getComponentsMut
  rw [hR.ents]
  cases hen : r.entities.entityEntry env e with
  | none => simp only [hen] at hr ⊢; cases hr; exact wp_pure ⟨rfl, .inl ⟨rfl, rfl⟩⟩
  | some en =>
    simp only [hen] at hr ⊢
    obtain ⟨a, h1, hr1⟩ := ebind_inv hr
    obtain ⟨fa, h2, hfa, hA, ha⟩ := hR.unchecked h1
    refine wp_then h2 ?_
    rw [hA.desc]
    by_cases hc : ¬ a.descriptor.containsSubset (g.descriptor env).archetype = true
    · rw [if_pos hc] at hr1 ⊢; cases hr1; exact wp_pure ⟨rfl, .inl ⟨rfl, rfl⟩⟩
    · rw [if_neg hc] at hr1 ⊢
      obtain ⟨refs, h3, hr2⟩ := ebind_inv hr1
      cases hr2
      have hrow := hready.row hen ha
      have hcap := (hready.side ha).2.1
      have hsome : ∀ c, (c, (none : Option Ref)) ∉ refs := by
        obtain ⟨_, _, h5⟩ := ebind_inv h3
        obtain ⟨vs, h6, h7⟩ := ebind_inv h5
        cases h7
        intro c
        exact derefTuple_some h6
      refine wp_bind (wp_mono (getFuzzyComponentsMut_spec hw hA (hg ha (by omega)) h3) ?_)
      rintro ps _ ⟨hps, rfl⟩
      exact wp_pure ⟨rfl, .inr ⟨_, refs, fa, ps, rfl, rfl, hfa, hps, hsome⟩⟩

/-! ## Iterators -/

theorem shell_get (hR : RegRep h fr r) (i : Nat) :
    (fr.shell.archetypes[i]?).map (fun a => a.descriptor) = (r.archetypes.archetypes[i]?).map (fun a => a.descriptor) := by
  unfold FReg.shell
  simp only [List.getElem?_map]
  cases hi : r.archetypes.archetypes[i]? with
  | none =>
    have : fr.archetypes[i]? = none := by
      rw [List.getElem?_eq_none_iff] at hi ⊢
      rw [hR.archs.len]; exact hi
    rw [this]; rfl
  | some a =>
    obtain ⟨fa, hfa, hA⟩ := hR.archs.get hi
    rw [hfa]
    simp only [Option.map_some, FArch.shell, hA.desc]

theorem nextInLevel_shell {gd : ArchetypeDescriptor} {f : ArchetypeDescriptor → Bool} {as bs : List Archetype}
    (hget : ∀ i : Nat, (as[i]?).map (fun a => a.descriptor) = (bs[i]?).map (fun a => a.descriptor)) {level : List SortedArchetypeKey} :
    ∀ (n idx : Nat), ArchIter.nextInLevel gd f as level n idx = ArchIter.nextInLevel gd f bs level n idx
  | 0, _ => rfl
  | n + 1, idx => by
    unfold ArchIter.nextInLevel
    rw [nextInLevel_shell hget n (idx + 1)]
    split
    · cases hk : indexUnchecked level idx with
      | error e => rfl
      | ok k =>
        show Except.bind _ _ = Except.bind _ _
        simp only [Except.bind, bind]
        have := hget k.archetypeIndex.toNat
        unfold indexUnchecked
        cases ha : as[k.archetypeIndex.toNat]? with
        | none =>
          cases hb : bs[k.archetypeIndex.toNat]? with
          | none => rfl
          | some b => rw [ha, hb] at this; cases this
        | some a =>
          cases hb : bs[k.archetypeIndex.toNat]? with
          | none => rw [ha, hb] at this; cases this
          | some b =>
            rw [ha, hb] at this
            simp only [Option.map_some, Option.some.injEq] at this
            simp only [this]
    · rfl

theorem nextLoop_shell (hR : RegRep h fr r) {gd : ArchetypeDescriptor} {f : ArchetypeDescriptor → Bool} :
    ∀ (n : Nat) (it : ArchIter), ArchIter.nextLoop gd f fr.shell n it = ArchIter.nextLoop gd f r.archetypes n it
  | 0, _ => rfl
  | n + 1, it => by
    unfold ArchIter.nextLoop
    rw [show fr.shell.sortedMappings = r.archetypes.sortedMappings from hR.maps]
    congr 1
    cases hl : indexUnchecked r.archetypes.sortedMappings it.level with
    | error e => rfl
    | ok level =>
      show Except.bind _ _ = Except.bind _ _
      simp only [Except.bind, bind]
      rw [nextInLevel_shell (shell_get hR), nextLoop_shell hR n ⟨it.level + 1, 0⟩]

theorem next_shell (hR : RegRep h fr r) {g : Group} {f : ArchetypeDescriptor → Bool} (it : ArchIter) :
    ArchIter.next env g f fr.shell it = ArchIter.next env g f r.archetypes it := by
  unfold ArchIter.next
  rw [nextLoop_shell hR]

theorem searchLevel_shell (hR : RegRep h fr r) (d : ArchetypeDescriptor) :
    fr.shell.searchLevel env d = r.archetypes.searchLevel env d := by
  unfold ArchetypeRegistry.searchLevel
  rw [show fr.shell.sortedMappings = r.archetypes.sortedMappings from hR.maps]

theorem findArchetype_shell (hR : RegRep h fr r) {d : ArchetypeDescriptor} {o : Option Nat}
    (hr : r.archetypes.findArchetype env d = .ok o) : fr.shell.findArchetype env d = .ok o := by
  unfold ArchetypeRegistry.findArchetype at hr ⊢
  rw [searchLevel_shell hR]
  by_cases hv : d.len > MAX_COMPONENTS_PER_ENTITY ∨ ¬ d.isValid
  · rw [if_pos hv] at hr ⊢; exact hr
  rw [if_neg hv] at hr ⊢
  obtain ⟨s, h1, hr1⟩ := ebind_inv hr
  rw [h1]
  show Except.bind _ _ = _
  simp only [Except.bind]
  cases hs : s.2 with
  | insertAt k => simp only [hs] at hr1 ⊢; exact hr1
  | found k =>
    simp only [hs] at hr1 ⊢
    obtain ⟨key, h2, hr2⟩ := ebind_inv hr1
    obtain ⟨a, h3, hr3⟩ := ebind_inv hr2
    cases hr3
    have hg := shell_get hR key.archetypeIndex.toNat
    rw [index_inv h3] at hg
    cases hsh : fr.shell.archetypes[key.archetypeIndex.toNat]? with
    | none => rw [hsh] at hg; cases hg
    | some b =>
      rw [h2]
      show Except.bind (index _ _) _ = _
      rw [index_ok' hsh]; rfl

/-- The items of an iterator over addresses stand for the items of the iterator over blocks. -/
def IRel {α β : Type} (fr : FReg) (R : FArch → α → β → Prop) (x : Nat × α) (y : Nat × β) : Prop :=
  x.1 = y.1 ∧ ∃ fa, fr.archetypes[x.1]? = some fa ∧ R fa x.2 y.2

theorem collect_spec {α β : Type} (hR : RegRep h fr r) {g : Group} {flt : ArchetypeDescriptor → Bool}
    {R : FArch → α → β → Prop} {f : Archetype → M α} {f' : FArch → FM β}
    (hf : ∀ {i : Nat} {fa : FArch} {a : Archetype} {x : α}, r.archetypes.archetypes[i]? = some a → ARep h fa a →
      f a = .ok x → wp A (f' fa) h (fun y h' => R fa x y ∧ h' = h)) :
    ∀ {n : Nat} {it : ArchIter} {l : List (Nat × α)}, ArchIter.collect env g flt r.archetypes f n it = .ok l →
      wp A (FReg.collect env g flt fr f' n it) h (fun l' h' => All2 (IRel fr R) l l' ∧ h' = h)
  | 0, it, l, hr => by
    cases hr
    exact wp_pure ⟨.nil, rfl⟩
  | n + 1, it, l, hr => by
    unfold ArchIter.collect at hr
    unfold FReg.collect
    obtain ⟨s, h1, hr1⟩ := ebind_inv hr
    refine wp_then (by rw [next_shell hR]; exact h1) ?_
    cases hs : s.1 with
    | none => simp only [hs] at hr1 ⊢; cases hr1; exact wp_pure ⟨.nil, rfl⟩
    | some i =>
      simp only [hs] at hr1 ⊢
      obtain ⟨a, h2, hr2⟩ := ebind_inv hr1
      obtain ⟨x, h3, hr3⟩ := ebind_inv hr2
      obtain ⟨rest, h4, hr4⟩ := ebind_inv hr3
      cases hr4
      have ha := indexUnchecked_inv h2
      obtain ⟨fa, hfa, hA⟩ := hR.archs.get ha
      have ih := collect_spec hR hf h4
      refine wp_then (indexUnchecked_ok' hfa) (wp_bind (wp_mono (hf ha hA h3) ?_))
      rintro y _ ⟨hy, rfl⟩
      refine wp_bind (wp_mono ih ?_)
      rintro ys _ ⟨hys, rfl⟩
      exact wp_pure ⟨.cons ⟨rfl, fa, hfa, hy⟩ hys, rfl⟩

theorem iterate_spec {α β : Type} (hR : RegRep h fr r) {g : Group} {flt : ArchetypeDescriptor → Bool}
    {R : FArch → α → β → Prop} {f : Archetype → M α} {f' : FArch → FM β}
    (hf : ∀ {i : Nat} {fa : FArch} {a : Archetype} {x : α}, r.archetypes.archetypes[i]? = some a → ARep h fa a →
      f a = .ok x → wp A (f' fa) h (fun y h' => R fa x y ∧ h' = h)) {l : List (Nat × α)}
    (hr : r.archetypes.iterate env g flt f = .ok l) :
    wp A (fr.iterate env g flt f') h (fun l' h' => All2 (IRel fr R) l l' ∧ h' = h) := by
  unfold ArchetypeRegistry.iterate at hr
  unfold FReg.iterate
  obtain ⟨it, h1, hr1⟩ := ebind_inv hr
  rw [hR.archs.len]
  exact wp_then h1 (collect_spec hR hf hr1)

theorem irel_eq {α : Type} {fr : FReg} : ∀ {l l' : List (Nat × α)}, All2 (IRel fr (fun _ x y => y = x)) l l' → l' = l
  | _, _, .nil => rfl
  | _, _, .cons ⟨h1, _, _, h2⟩ hr => by
    rw [irel_eq hr]
    congr 1
    exact Prod.ext h1.symm h2

theorem iterComponents_spec (hw : h.WF) (hR : RegRep h fr r) {g : Group} (hg : Fuzzy env r g)
    {flt : ArchetypeDescriptor → Bool} {l : List (Nat × List (List Val))}
    (hr : r.iterFilteredComponentsMatching env g flt = .ok l) :
    wp A (fr.iterComponents env g flt) h (fun l' h' => l' = l ∧ h' = h) :=
  wp_mono (iterate_spec hR (R := fun _ x y => y = x) (fun ha hA hx => getFuzzySlices_spec hw hA (hg ha (Nat.zero_le _)) hx) hr)
    (fun _ _ hl => ⟨irel_eq hl.1, hl.2⟩)

theorem iterEntityComponents_spec (hw : h.WF) (hR : RegRep h fr r) {g : Group} (hg : Fuzzy env r g)
    {flt : ArchetypeDescriptor → Bool} {l : List (Nat × List Entity × List (List Val))}
    (hr : r.iterFilteredEntityComponentsMatching env g flt = .ok l) :
    wp A (fr.iterEntityComponents env g flt) h (fun l' h' => l' = l ∧ h' = h) :=
  wp_mono (iterate_spec hR (R := fun _ x y => y = x)
    (fun ha hA hx => getEntityFuzzySlices_spec hw hA (hg ha (Nat.zero_le _)) hx) hr)
    (fun _ _ hl => ⟨irel_eq hl.1, hl.2⟩)

theorem iterComponentsMut_spec (hw : h.WF) (hR : RegRep h fr r) {g : Group} (hg : Fuzzy env r g)
    {flt : ArchetypeDescriptor → Bool} {l : List (Nat × List SliceRef)}
    (hr : r.iterFilteredComponentsMatchingMut env g flt = .ok l) :
    wp A (fr.iterComponentsMut env g flt) h (fun l' h' => All2 (IRel fr (fun fa => All2 (SRel fa))) l l' ∧ h' = h) :=
  iterate_spec hR (fun ha hA hx => getFuzzySlicesMut_spec hw hA (hg ha (Nat.zero_le _)) hx) hr

theorem iterEntityComponentsMut_spec (hw : h.WF) (hR : RegRep h fr r) {g : Group} (hg : Fuzzy env r g)
    {flt : ArchetypeDescriptor → Bool} {l : List (Nat × List Entity × List SliceRef)}
    (hr : r.iterFilteredEntityComponentsMatchingMut env g flt = .ok l) :
    wp A (fr.iterEntityComponentsMut env g flt) h (fun l' h' =>
      All2 (IRel fr (fun fa x y => x.1 = y.1 ∧ All2 (SRel fa) x.2 y.2)) l l' ∧ h' = h) :=
  iterate_spec hR (fun ha hA hx => getEntityFuzzySlicesMut_spec hw hA (hg ha (Nat.zero_le _)) hx) hr

theorem iterComponentsExact_spec (hw : h.WF) (hR : RegRep h fr r) {g : Group} {l : List (List Val)}
    (hr : r.iterComponentsExact env g = .ok l) : wp A (fr.iterComponentsExact env g) h (fun l' h' => l' = l ∧ h' = h) := by
  unfold Registry.iterComponentsExact at hr
  unfold FReg.iterComponentsExact
  obtain ⟨o, h1, hr1⟩ := ebind_inv hr
  refine wp_then (findArchetype_shell hR h1) ?_
  cases o with
  | none => cases hr1; exact wp_pure ⟨rfl, rfl⟩
  | some i =>
    simp only at hr1 ⊢
    obtain ⟨a, h2, hr2⟩ := ebind_inv hr1
    obtain ⟨fa, hfa, hA⟩ := hR.archs.get (index_inv h2)
    exact wp_then (index_ok' hfa) (getSlicesExact_spec hw hA hr2)

theorem iterEntityComponentsExact_spec (hw : h.WF) (hR : RegRep h fr r) {g : Group} {l : List Entity × List (List Val)}
    (hr : r.iterEntityComponentsExact env g = .ok l) :
    wp A (fr.iterEntityComponentsExact env g) h (fun l' h' => l' = l ∧ h' = h) := by
  unfold Registry.iterEntityComponentsExact at hr
  unfold FReg.iterEntityComponentsExact
  obtain ⟨o, h1, hr1⟩ := ebind_inv hr
  refine wp_then (findArchetype_shell hR h1) ?_
  cases o with
  | none => cases hr1; exact wp_pure ⟨rfl, rfl⟩
  | some i =>
    simp only at hr1 ⊢
    obtain ⟨a, h2, hr2⟩ := ebind_inv hr1
    obtain ⟨es, h3, hr3⟩ := ebind_inv hr2
    obtain ⟨s, h4, hr4⟩ := ebind_inv hr3
    cases hr4
    obtain ⟨fa, hfa, hA⟩ := hR.archs.get (index_inv h2)
    refine wp_then (index_ok' hfa) (wp_bind (wp_mono (entities_spec hw hA h3) ?_))
    rintro _ _ ⟨rfl, rfl⟩
    refine wp_bind (wp_mono (getSlicesExact_spec hw hA h4) ?_)
    rintro _ _ ⟨rfl, rfl⟩
    exact wp_pure ⟨rfl, rfl⟩

theorem iterComponentsExactMut_spec (hw : h.WF) (hR : RegRep h fr r) {g : Group} {o : Option (Nat × List SliceRef)}
    (hr : r.iterComponentsExactMut env g = .ok o) : wp A (fr.iterComponentsExactMut env g) h (fun o' h' =>
      All2 (IRel fr (fun fa => All2 (SRel fa))) o.toList o'.toList ∧ h' = h) := by
  unfold Registry.iterComponentsExactMut at hr
  unfold FReg.iterComponentsExactMut
  obtain ⟨o, h1, hr1⟩ := ebind_inv hr
  refine wp_then (findArchetype_shell hR h1) ?_
  cases o with
  | none => cases hr1; exact wp_pure ⟨.nil, rfl⟩
  | some i =>
    simp only at hr1 ⊢
    obtain ⟨a, h2, hr2⟩ := ebind_inv hr1
    obtain ⟨ss, h3, hr3⟩ := ebind_inv hr2
    cases hr3
    obtain ⟨fa, hfa, hA⟩ := hR.archs.get (index_inv h2)
    refine wp_then (index_ok' hfa) (wp_bind (wp_mono (getSlicesExactMut_spec hw hA h3) ?_))
    rintro ts _ ⟨hts, rfl⟩
    exact wp_pure ⟨.cons ⟨rfl, fa, hfa, hts⟩ .nil, rfl⟩

theorem iterEntityComponentsExactMut_spec (hw : h.WF) (hR : RegRep h fr r) {g : Group}
    {o : Option (Nat × List Entity × List SliceRef)} (hr : r.iterEntityComponentsExactMut env g = .ok o) :
    wp A (fr.iterEntityComponentsExactMut env g) h (fun o' h' =>
      All2 (IRel fr (fun fa x y => x.1 = y.1 ∧ All2 (SRel fa) x.2 y.2)) o.toList o'.toList ∧ h' = h) := by
  unfold Registry.iterEntityComponentsExactMut at hr
  unfold FReg.iterEntityComponentsExactMut
  obtain ⟨o, h1, hr1⟩ := ebind_inv hr
  refine wp_then (findArchetype_shell hR h1) ?_
  cases o with
  | none => cases hr1; exact wp_pure ⟨.nil, rfl⟩
  | some i =>
    simp only at hr1 ⊢
    obtain ⟨a, h2, hr2⟩ := ebind_inv hr1
    obtain ⟨es, h3, hr3⟩ := ebind_inv hr2
    obtain ⟨ss, h4, hr4⟩ := ebind_inv hr3
    cases hr4
    obtain ⟨fa, hfa, hA⟩ := hR.archs.get (index_inv h2)
    refine wp_then (index_ok' hfa) (wp_bind (wp_mono (entities_spec hw hA h3) ?_))
    rintro _ _ ⟨rfl, rfl⟩
    refine wp_bind (wp_mono (getSlicesExactMut_spec hw hA h4) ?_)
    rintro ts _ ⟨hts, rfl⟩
    exact wp_pure ⟨.cons ⟨rfl, fa, hfa, rfl, hts⟩ .nil, rfl⟩

theorem items_spec (hw : h.WF) (hR : RegRep h fr r) {g : Group} (hg : Fuzzy env r g) {it : MutIter}
    {l : List (Nat × List SliceRef)} (hr : it.items env r g = .ok l) : wp A (fr.items env g it) h (fun l' h' =>
      All2 (IRel fr (fun fa => All2 (SRel fa))) l l' ∧ h' = h) := by
  have hmap : ∀ (x : Nat × List Entity × List SliceRef) (y : Nat × List Entity × List FSlice),
      IRel fr (fun fa x y => x.1 = y.1 ∧ All2 (SRel fa) x.2 y.2) x y →
      IRel fr (fun fa => All2 (SRel fa)) (x.1, x.2.2) (y.1, y.2.2) :=
    fun x y ⟨h1, fa, h2, h3⟩ => ⟨h1, fa, h2, h3.2⟩
  cases it with
  | matching => exact iterComponentsMut_spec hw hR hg hr
  | filtered f => exact iterComponentsMut_spec hw hR hg hr
  | entityMatching =>
    obtain ⟨m, h1, hr1⟩ := ebind_inv hr
    cases hr1
    refine wp_bind (wp_mono (iterEntityComponentsMut_spec hw hR hg h1) ?_)
    rintro m' _ ⟨hm, rfl⟩
    exact wp_pure ⟨hm.map hmap, rfl⟩
  | entityFiltered f =>
    obtain ⟨m, h1, hr1⟩ := ebind_inv hr
    cases hr1
    refine wp_bind (wp_mono (iterEntityComponentsMut_spec hw hR hg h1) ?_)
    rintro m' _ ⟨hm, rfl⟩
    exact wp_pure ⟨hm.map hmap, rfl⟩
  | exact =>
    obtain ⟨m, h1, hr1⟩ := ebind_inv hr
    cases hr1
    refine wp_bind (wp_mono (iterComponentsExactMut_spec hw hR h1) ?_)
    rintro m' _ ⟨hm, rfl⟩
    exact wp_pure ⟨hm, rfl⟩
  | entityExact =>
    obtain ⟨m, h1, hr1⟩ := ebind_inv hr
    cases hr1
    refine wp_bind (wp_mono (iterEntityComponentsExactMut_spec hw hR h1) ?_)
    rintro m' _ ⟨hm, rfl⟩
    exact wp_pure ⟨hm.map hmap, rfl⟩

/-! ## Stores -/

theorem replaceAt_spec (hw : h.WF) (hR : RegRep h fr r) {ai : Nat} {fa : FArch} {c : CompTy} {p : Ref} {q : Ptr} {v : Val}
    {x : Registry × Val} (hfa : fr.archetypes[ai]? = some fa) (hq : PtrAt fa p q) (hr : r.replaceAt ai c p v = .ok x) :
    wp A (FReg.replaceAt c q v) h (fun old h' => old = x.2 ∧ RegRep h' fr x.1 ∧
      Step h (FpL fr.archetypes) h' (FpL fr.archetypes)) := by
  unfold Registry.replaceAt at hr
  unfold FReg.replaceAt
  obtain ⟨a, h1, hr1⟩ := ebind_inv hr
  obtain ⟨old, h2, hr2⟩ := ebind_inv hr1
  obtain ⟨r', h3, hr3⟩ := ebind_inv hr2
  cases hr3
  obtain ⟨a2, h4, h5⟩ := ebind_inv h3
  rw [h1] at h4; cases h4
  obtain ⟨a', h6, h7⟩ := ebind_inv h5
  cases h7
  have hA := hR.archs.arch hfa (index_inv h1)
  refine wp_bind (wp_mono (readPtr_spec hw hA hq h2) ?_)
  rintro _ k ⟨rfl, rfl⟩
  refine wp_bind (wp_mono (writePtr_spec hw hA hq h6) ?_)
  rintro _ k' ⟨h8, h9⟩
  obtain ⟨h10, h11⟩ := hR.archs.inPlace hw hfa h9 h8
  exact wp_pure ⟨rfl, ⟨hR.ents, hR.maps, h10⟩, h11⟩

theorem replaceComponent_inv {c : CompTy} {e : Entity} {v : Val} {x : Registry × Option Val}
    (hr : r.replaceComponent env c e v = .ok x) : ∃ o, r.getComponentMut env c e = .ok o ∧
      ((o = none ∧ x = (r, none)) ∨ ∃ ai p y, o = some (ai, p) ∧ r.replaceAt ai c p v = .ok y ∧ x = (y.1, some y.2)) := by
  obtain ⟨o, h1, hr1⟩ := ebind_inv hr
  refine ⟨o, h1, ?_⟩
  cases o with
  | none => cases hr1; exact .inl ⟨rfl, rfl⟩
  | some ap =>
    obtain ⟨ai, p⟩ := ap
    simp only at hr1
    obtain ⟨a, h2, hr2⟩ := ebind_inv hr1
    obtain ⟨old, h3, hr3⟩ := ebind_inv hr2
    obtain ⟨r', h4, hr4⟩ := ebind_inv hr3
    cases hr4
    refine .inr ⟨ai, p, (r', old), rfl, ?_, rfl⟩
    unfold Registry.replaceAt
    rw [h2]
    show (do let old ← a.readRef c p; let r ← r.storeRef ai c p v; return (r, old)) = _
    rw [h3]
    show (do let r ← r.storeRef ai c p v; return (r, old)) = _
    rw [h4]
    rfl

/-! ## Calls -/

/-- The groups that a call reads through. -/
def Call.Groups (env : Env) (r : Registry) : Call → Prop
  | .writeIn g _ _ _ => Fuzzy env r g
  | .writeIter _ g _ _ _ _ => Fuzzy env r g
  | _ => True

theorem call_spec (hAl : A.Ok) (hw : h.WF) (hR : RegRep h fr r) (hready : Ready env r) {c : Call}
    (hg : Call.Groups env r c) {x : Registry × Outcome} (hr : c.run env r = .ok x) :
    wp A (fr.call A env c) h (fun y h' => y.2 = x.2 ∧ RegRep h' y.1 x.1 ∧
      Step h (FpL fr.archetypes) h' (FpL y.1.archetypes)) := by
  cases c with
  | create g vals =>
    obtain ⟨y, h1, hr1⟩ := ebind_inv hr
    refine wp_bind (wp_mono (create_spec hAl hw hR hready h1) ?_)
    rintro z h2 ⟨h3, h4, h5⟩
    rw [h3]
    cases hy : y.2 with
    | ok e => simp only [hy] at hr1 ⊢; cases hr1; exact wp_pure ⟨rfl, h4, h5⟩
    | err vs => simp only [hy] at hr1 ⊢; cases hr1; exact wp_pure ⟨rfl, h4, h5⟩
  | destroy e =>
    obtain ⟨y, h1, hr1⟩ := ebind_inv hr
    cases hr1
    refine wp_bind (wp_mono (destroy_spec hw hR hready h1) ?_)
    rintro z h2 ⟨h3, h4, h5⟩
    exact wp_pure ⟨by rw [h3], h4, h5⟩
  | removeEntity g e =>
    obtain ⟨y, h1, hr1⟩ := ebind_inv hr
    refine wp_bind (wp_mono (removeEntity_spec hw hR hready h1) ?_)
    rintro z h2 ⟨h3, h4, h5⟩
    rw [h3]
    cases hy : y.2 with
    | none => simp only [hy] at hr1 ⊢; cases hr1; exact wp_pure ⟨rfl, h4, h5⟩
    | some vs => simp only [hy] at hr1 ⊢; cases hr1; exact wp_pure ⟨rfl, h4, h5⟩
  | add e c v =>
    obtain ⟨y, h1, hr1⟩ := ebind_inv hr
    refine wp_bind (wp_mono (add_spec hAl hw hR hready h1) ?_)
    rintro z h2 ⟨h3, h4, h5⟩
    rw [h3]
    cases hy : y.2 with
    | ok e => simp only [hy] at hr1 ⊢; cases hr1; exact wp_pure ⟨rfl, h4, h5⟩
    | err vs => simp only [hy] at hr1 ⊢; cases hr1; exact wp_pure ⟨rfl, h4, h5⟩
  | remove e c =>
    obtain ⟨y, h1, hr1⟩ := ebind_inv hr
    refine wp_bind (wp_mono (remove_spec hAl hw hR hready h1) ?_)
    rintro z h2 ⟨h3, h4, h5⟩
    rw [h3]
    cases hy : y.2 with
    | ok e => simp only [hy] at hr1 ⊢; cases hr1; exact wp_pure ⟨rfl, h4, h5⟩
    | err vs => simp only [hy] at hr1 ⊢; cases hr1; exact wp_pure ⟨rfl, h4, h5⟩
  | write e c v =>
    obtain ⟨y, h1, hr1⟩ := ebind_inv hr
    obtain ⟨o, h2, h3⟩ := replaceComponent_inv h1
    refine wp_bind (wp_mono (getComponentMut_spec hw hR h2) ?_)
    rintro o' k ⟨rfl, ho⟩
    rcases ho with ⟨rfl, rfl⟩ | ⟨ai, p, fa, q, rfl, rfl, hfa, hq⟩
    · rcases h3 with ⟨_, rfl⟩ | ⟨_, _, _, h4, _⟩
      · cases hr1
        exact wp_pure ⟨rfl, hR, Step.refl hw _⟩
      · cases h4
    · rcases h3 with ⟨h4, _⟩ | ⟨ai', p', z, h4, h5, rfl⟩
      · cases h4
      · cases h4
        cases hr1
        refine wp_bind (wp_mono (replaceAt_spec hw hR hfa hq h5) ?_)
        rintro old k' ⟨rfl, h6, h7⟩
        exact wp_pure ⟨rfl, h6, h7⟩
  | writeIn g e j v =>
    obtain ⟨o, h1, hr1⟩ := ebind_inv hr
    refine wp_bind (wp_mono (getComponentsMut_spec hw hR hready hg h1) ?_)
    rintro o' k ⟨rfl, ho⟩
    rcases ho with ⟨rfl, rfl⟩ | ⟨ai, refs, fa, ps, rfl, rfl, hfa, hps, hsome⟩
    · cases hr1
      exact wp_pure ⟨rfl, hR, Step.refl hw _⟩
    · simp only at hr1 ⊢
      rcases hps.get j with ⟨h2, h3⟩ | ⟨⟨c, p⟩, ⟨c', q⟩, h2, h3, h4, h5⟩
      · rw [h2] at hr1
        rw [h3]
        cases hr1
        exact wp_pure ⟨rfl, hR, Step.refl hw _⟩
      · cases h4
        cases p with
        | none => exact absurd (List.mem_of_getElem? h2) (hsome c)
        | some p =>
          rw [h2] at hr1
          rw [h3]
          simp only at hr1 ⊢
          obtain ⟨y, h6, hr2⟩ := ebind_inv hr1
          cases hr2
          refine wp_bind (wp_mono (replaceAt_spec hw hR hfa h5 h6) ?_)
          rintro old k' ⟨rfl, h7, h8⟩
          exact wp_pure ⟨rfl, h7, h8⟩
  | writeIter it g n j i v =>
    obtain ⟨l, h1, hr1⟩ := ebind_inv hr
    refine wp_bind (wp_mono (items_spec hw hR hg h1) ?_)
    rintro l' k ⟨hl, rfl⟩
    rcases hl.get n with ⟨h2, h3⟩ | ⟨⟨ai, ss⟩, ⟨ai', ts⟩, h2, h3, h4, fa, hfa, h5⟩
    · rw [h2] at hr1
      rw [h3]
      cases hr1
      exact wp_pure ⟨rfl, hR, Step.refl hw _⟩
    · rw [h2] at hr1
      rw [h3]
      simp only at hr1 h4 h5 hfa ⊢
      subst h4
      rcases h5.get j with ⟨h6, h7⟩ | ⟨s, t, h6, h7, h8, h9, h10⟩
      · rw [h6] at hr1
        rw [h7]
        cases hr1
        exact wp_pure ⟨rfl, hR, Step.refl hw _⟩
      · rw [h6] at hr1
        rw [h7]
        simp only at hr1 ⊢
        rw [← h9, ← h8]
        by_cases hk : i < s.len
        · rw [if_pos hk] at hr1 ⊢
          obtain ⟨y, h11, hr2⟩ := ebind_inv hr1
          cases hr2
          have hq : PtrAt fa (s.elem i) (t.base.plus (s.cty.size * i)) := by
            obtain ⟨q, hq, he⟩ := h10
            refine ⟨q, hq, ?_⟩
            rw [he]
            simp only [Ptr.plus, SliceRef.elem, Nat.add_assoc]
          refine wp_bind (wp_mono (replaceAt_spec hw hR hfa hq h11) ?_)
          rintro old k' ⟨rfl, h12, h13⟩
          exact wp_pure ⟨rfl, h12, h13⟩
        · rw [if_neg hk] at hr1 ⊢
          cases hr1
          exact wp_pure ⟨rfl, hR, Step.refl hw _⟩

/-! ## Dropping the registry -/

theorem drop_spec (hw : h.WF) (hR : RegRep h fr r) (hready : Ready env r)
    (hdead : ∀ {i : Nat} {a : Archetype}, r.archetypes.archetypes[i]? = some a → a.capacity ≠ 0 ∧
      ∀ {x : List Val × Archetype}, a.drop = .ok x → ∀ o ∈ objs x.2, o = none) {x : List Val × List Archetype}
    (hr : r.drop = .ok x) :
    wp A fr.drop h (fun vs h' => vs = x.1 ∧ Step h (FpL fr.archetypes) h' (fun _ => False)) := by
  unfold Registry.drop ArchetypeRegistry.drop at hr
  unfold FReg.drop
  rw [hR.archs.len]
  refine wp_mono (wp_loop (R := fun i acc vs k => vs = acc.1 ∧ Step h (FpL fr.archetypes) k (FpL (fr.archetypes.drop i)) ∧
    ∀ {j : Nat} {fa : FArch} {a : Archetype}, i ≤ j → fr.archetypes[j]? = some fa → r.archetypes.archetypes[j]? = some a →
      ARep k fa a) ?_ hr ⟨rfl, by rw [List.drop_zero]; exact Step.refl hw _, fun _ hfa ha => hR.archs.arch hfa ha⟩) ?_
  · rintro i s s' t k _ hi ⟨rfl, hst, harch⟩ hf
    obtain ⟨a, h1, hf1⟩ := ebind_inv hf
    obtain ⟨y, h2, hf2⟩ := ebind_inv hf1
    cases hf2
    have ha := index_inv h1
    obtain ⟨fa, hfa, _⟩ := hR.archs.get ha
    have hA := harch (Nat.le_refl _) hfa ha
    obtain ⟨hd1, hd2⟩ := hdead ha
    refine wp_then (index_ok' hfa) (wp_bind (wp_mono (drop_arch_spec hst.wf hA (hready.side ha).1 hd1 h2 (hd2 h2)) ?_))
    rintro ws k' ⟨rfl, hs⟩
    refine wp_pure ⟨rfl, ?_, ?_⟩
    · refine hst.trans ((hs.frame (FpL (fr.archetypes.drop (i + 1)))).congr (fun id => ?_) (fun id => ?_))
      · obtain ⟨hl, he⟩ := List.getElem?_eq_some_iff.mp hfa
        rw [List.drop_eq_getElem_cons (i := i) hl, he]
        simp only [FpL, List.mem_cons, exists_eq_or_imp]
      · exact ⟨fun z => z.elim False.elim (·), .inr⟩
    · intro j fb b hj hfb hb
      exact (harch (by omega) hfb hb).frame hst.wf hs (fun id hid => hR.archs.dis (by omega) hfb hfa id hid)
  · rintro vs k ⟨h1, h2, _⟩
    refine ⟨h1, h2.congr (fun _ => Iff.rfl) (fun id => ?_)⟩
    rw [List.drop_eq_nil_of_le (by rw [hR.archs.len]; omega)]
    simp [FpL]

/-! ## What the invariants of the registry give -/

variable {W : World env} {cs : List Content}

theorem Rep.column {a : Archetype} {ct : Content} (hrep : Rep W a ct) {i : Nat} {c : CompTy} (hc : ct.cts[i]? = some c) :
    ∃ b, a.pointers[i]? = some (some b) ∧ b.bytes.length = c.size * a.capacity ∧ powerOfTwo b.align = true := by
  have hcl : i < ct.cols.length := by rw [hrep.cols.cols_len]; exact lt_of_get hc
  obtain ⟨b, h1, h2⟩ := hrep.cols.col _ _ _ hc (List.getElem?_eq_getElem hcl)
  exact ⟨b, h1, h2.size, by rw [h2.align]; exact W.align_ok (hrep.desc.has c (List.mem_of_getElem? hc))⟩

theorem Rep.toSide {a : Archetype} {ct : Content} (hrep : Rep W a ct) : Side a := by
  refine ⟨hrep.cols.ptrs_len, fun {i d} hi => ?_⟩
  rw [hrep.desc.comps, List.getElem?_map] at hi
  cases hc : ct.cts[i]? with
  | none => rw [hc] at hi; cases hi
  | some c =>
    rw [hc] at hi
    cases hi
    have hlt := W.size_lt (hrep.desc.has c (List.mem_of_getElem? hc))
    have : c.descriptor.size = c.size := Nat.mod_eq_of_lt hlt
    rw [this]
    exact Rep.column hrep hc

theorem RInv.ready (hi : RInv W r cs) : Ready env r := by
  refine ⟨fun {i a} ha => ?_, fun {e en} hen {a} ha => ?_⟩
  · obtain ⟨ct, _, hrep⟩ := hi.arch.content ha
    refine ⟨Rep.toSide hrep, ?_, ?_⟩
    · rw [hrep.count]; exact hrep.ents.len
    · rw [hrep.desc.wf.comps_len]; exact hrep.desc.wf.len_le
  · obtain ⟨a', ct, h1, _, hrep, h2, _⟩ := hi.entry hen
    rw [h1] at ha
    cases ha
    rw [hrep.count]
    exact lt_of_get h2

theorem fuzzyFind_inv {a : Archetype} {id : UInt16} : ∀ {n check k : Nat}, a.fuzzyFind id n check = some k →
    (a.descriptor.comps.getD k ComponentDescriptor.INVALID).id = id ∧ k < check + n
  | 0, _, _, hk => by cases hk
  | n + 1, check, k, hk => by
    unfold Archetype.fuzzyFind at hk
    by_cases hc : (a.descriptor.comps.getD check ComponentDescriptor.INVALID).id = id
    · rw [if_pos hc] at hk; cases hk; exact ⟨hc, by omega⟩
    · rw [if_neg hc] at hk
      obtain ⟨h1, h2⟩ := fuzzyFind_inv hk
      exact ⟨h1, by omega⟩

theorem RInv.fuzzy (hi : RInv W r cs) {g : Group} (hg : ∀ c ∈ g, W.Has c) (hv : (g.descriptor env).isValid = true) :
    Fuzzy env r g := by
  intro i a ha off hoff p hp
  obtain ⟨ct, _, hrep⟩ := hi.arch.content ha
  have hgs := Group.spec hv
  unfold Archetype.getFuzzyPointersUnchecked at hp
  obtain ⟨j, _, hj⟩ := List.mem_map.mp hp
  cases hd : (g.descriptor env).archetype.components[j]? with
  | none => rw [hd] at hj; cases hj
  | some d =>
    rw [hd] at hj
    simp only at hj
    cases hf : a.fuzzyFind d.id (a.descriptor.len - j) j with
    | none => rw [hf] at hj; cases hj
    | some k =>
      rw [hf] at hj
      cases hj
      obtain ⟨h1, h2⟩ := fuzzyFind_inv hf
      obtain ⟨c, hc, rfl⟩ := List.mem_map.mp (hgs.perm.mem_iff.mp (List.mem_of_getElem? hd))
      have hk : k < a.descriptor.len := by
        rcases Nat.lt_or_ge j a.descriptor.len with h3 | h3
        · omega
        · rw [show a.descriptor.len - j = 0 by omega] at hf; cases hf
      have hkc : k < ct.cts.length := by rw [hrep.desc.length]; exact hk
      have hget : (a.descriptor.comps.getD k ComponentDescriptor.INVALID).id = ct.cts[k].id := by
        rw [hrep.desc.wf.getD_comps hk]
        have := hrep.desc.comps
        simp only [this, List.getElem_map, CompTy.descriptor]
      have he : c = ct.cts[k] := W.id_inj (hg c hc) (hrep.desc.has _ (List.getElem_mem hkc)) (by rw [← hget]; exact h1.symm)
      obtain ⟨b, h3, h4, _⟩ := Rep.column hrep (List.getElem?_eq_getElem hkc)
      refine ⟨b, h3, ?_⟩
      rw [h4, ← he]
      have : c.descriptor.size = c.size := Nat.mod_eq_of_lt (W.size_lt (hg c hc))
      simp only [this]
      exact Nat.mul_le_mul_left _ hoff

theorem RInv.groups (hi : RInv W r cs) {c : Call} (hc : c.Admissible W r) : Call.Groups env r c := by
  cases c with
  | writeIn g e j v => exact RInv.fuzzy hi hc.1 hc.2.1
  | writeIter it g n j k v => exact RInv.fuzzy hi hc.1 hc.2.1
  | _ => trivial

theorem RInv.dead (hi : RInv W r cs) {i : Nat} {a : Archetype} (ha : r.archetypes.archetypes[i]? = some a) :
    a.capacity ≠ 0 ∧ ∀ {x : List Val × Archetype}, a.drop = .ok x → ∀ o ∈ objs x.2, o = none := by
  obtain ⟨ct, _, hrep⟩ := hi.arch.content ha
  refine ⟨by have := hrep.cap.pos; omega, fun {x} hx o ho => ?_⟩
  obtain ⟨a', h1, h2, h3, _⟩ := hrep.drop_spec
  rw [h1] at hx
  cases hx
  unfold objs at ho
  rw [h3] at ho
  rcases List.mem_cons.mp ho with rfl | ho
  · rfl
  · obtain ⟨p, hp, rfl⟩ := List.mem_map.mp ho
    rw [h2 p hp]; rfl

end Shard.Flat
