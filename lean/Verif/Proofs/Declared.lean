import Verif.Props.Override
/-!
# The archetype `add_component` creates for a component type that declares its `DESCRIPTOR`

It is the archetype of the default descriptor with another entry and another block in one column.
-/

set_option autoImplicit false

namespace Shard

variable {env : Env}

/-! ## Loops -/

theorem setIndex_set {α : Type} {t : List α} {k i : Nat} (h : i ≠ k) (q x : α) :
    setIndex (t.set k q) i x = (setIndex t i x).map (fun s => s.set k q) := by
  unfold setIndex
  rw [List.length_set]
  split
  · rw [List.set_comm _ _ (Ne.symm h)]; rfl
  · rfl

/-- A loop that ignores the element `k` can be run with another one. -/
theorem forRange_setcol {α : Type} {f f' : Nat → List α → M (List α)} {k : Nat} {q : α} : ∀ (n lo : Nat) (s : List α),
    (∀ i s, lo ≤ i → i < lo + n → f' i (s.set k q) = (f i s).map (fun t => t.set k q)) →
    forRange lo n f' (s.set k q) = (forRange lo n f s).map (fun t => t.set k q)
  | 0, _, _, _ => rfl
  | n + 1, lo, s, h => by
    unfold forRange
    rw [h lo s (Nat.le_refl _) (by omega)]
    cases f lo s with
    | error e => rfl
    | ok s' => exact forRange_setcol n (lo + 1) s' (fun i s h1 h2 => h i s (by omega) (by omega))

/-- A loop that sets one element after the other, one of them to another value. -/
theorem forRange_setone {α : Type} {g g' : Nat → M α} {k : Nat} (hg : ∀ i, i ≠ k → g' i = g i) : ∀ (n lo : Nat) (s s' : List α),
    forRange lo n (fun i s => do let b ← g i; setIndex s i b) s = .ok s' → lo ≤ k → k < lo + n →
    forRange lo n (fun i s => do let b ← g' i; setIndex s i b) s = (g' k).map (fun b => s'.set k b)
  | 0, _, _, _, _, _, _ => by omega
  | n + 1, lo, s, s', h, h1, h2 => by
    simp only [forRange] at h ⊢
    by_cases hk : lo = k
    · subst hk
      cases hgl : g lo with
      | error e => rw [hgl] at h; cases h
      | ok b =>
        rw [hgl] at h
        simp only [ok_bind] at h
        cases hs : setIndex s lo b with
        | error e => rw [hs] at h; cases h
        | ok s1 =>
          rw [hs] at h
          simp only [] at h
          unfold setIndex at hs
          split at hs
          · rename_i hlt
            cases hs
            cases hgl' : g' lo with
            | error e => rfl
            | ok b' =>
              simp only [ok_bind]
              unfold setIndex
              rw [if_pos hlt]
              simp only []
              have he : s.set lo b' = (s.set lo b).set lo b' := by rw [List.set_set]
              rw [he]
              have := forRange_setcol (k := lo) (q := b') (f' := fun i s => do let b ← g' i; setIndex s i b)
                (f := fun i s => do let b ← g i; setIndex s i b) n (lo + 1) (s.set lo b) (fun i t hi _ => by
                  rw [hg i (by omega)]
                  cases g i with
                  | error e => rfl
                  | ok x => simp only [ok_bind]; exact setIndex_set (by omega) _ _)
              unfold setIndex at this
              rw [this]
              unfold setIndex at h
              rw [h]
              rfl
          · cases hs
    · rw [hg lo hk]
      cases hx : (do let b ← g lo; setIndex s lo b : M (List α)) with
      | error e => rw [hx] at h; cases h
      | ok s1 =>
        rw [hx] at h
        exact forRange_setone hg n (lo + 1) s1 s' h (by omega) (by omega)

/-! ## Descriptors that differ in one entry -/

/-- The descriptor `nd'` has `d` where `nd` has another entry with the same id. -/
structure Redeclared (nd nd' : ArchetypeDescriptor) (ins : Nat) (d : ComponentDescriptor) : Prop where
  len : nd'.len = nd.len
  aid : nd'.archetypeId = nd.archetypeId
  comps : nd'.comps = nd.comps.set ins d
  lt : ins < nd.components.length
  id : ∀ d0, nd.components[ins]? = some d0 → d0.id = d.id

namespace Redeclared

variable {nd nd' : ArchetypeDescriptor} {ins : Nat} {d : ComponentDescriptor}

theorem components (h : Redeclared nd nd' ins d) : nd'.components = nd.components.set ins d := by
  unfold ArchetypeDescriptor.components
  rw [h.len, h.comps, List.take_set]

theorem length (h : Redeclared nd nd' ins d) : nd'.components.length = nd.components.length := by
  rw [h.components, List.length_set]

theorem other (h : Redeclared nd nd' ins d) {i : Nat} (hi : i ≠ ins) : nd'.components[i]? = nd.components[i]? := by
  rw [h.components, List.getElem?_set_ne (Ne.symm hi)]

theorem this (h : Redeclared nd nd' ins d) : nd'.components[ins]? = some d := by
  rw [h.components, List.getElem?_set_self h.lt]

theorem keys (h : Redeclared nd nd' ins d) :
    nd'.components.map (fun e => e.id.toNat) = nd.components.map (fun e => e.id.toNat) := by
  apply List.ext_getElem?
  intro i
  rw [List.getElem?_map, List.getElem?_map]
  by_cases hi : i = ins
  · subst hi
    rw [h.this, List.getElem?_eq_getElem h.lt]
    simp only [Option.map_some]
    rw [h.id _ (List.getElem?_eq_getElem h.lt)]
  · rw [h.other hi]

theorem search (h : Redeclared nd nd' ins d) (key : Nat) :
    binarySearchByKey nd'.components key (fun e => e.id.toNat) = binarySearchByKey nd.components key (fun e => e.id.toNat) := by
  unfold binarySearchByKey
  rw [h.keys, h.length]

end Redeclared

theorem ArchetypeDescriptor.addComponent_redeclared {self nd : ArchetypeDescriptor} {d0 d : ComponentDescriptor} (hid : d.id = d0.id)
    (h : self.addComponent env d0 = .ok (some nd)) : ∃ nd' ins, self.addComponent env d = .ok (some nd') ∧ Redeclared nd nd' ins d ∧
      binarySearchByKey self.components d0.id.toNat (fun e => e.id.toNat) = .insertAt ins := by
  unfold ArchetypeDescriptor.addComponent at h ⊢
  split at h
  · cases h
  · rename_i hl
    rw [if_neg hl, hid]
    cases hb : binarySearchByKey (self.comps.take self.len) d0.id.toNat (fun e => e.id.toNat) with
    | found i => rw [hb] at h; cases h
    | insertAt ins =>
      have hle : ins ≤ (self.comps.take self.len).length := by
        rcases binarySearchByKey_any (self.comps.take self.len) d0.id.toNat (fun e => e.id.toNat) with ⟨i, _, h1, _⟩ | ⟨i, h1, h2⟩
        · rw [hb] at h1; cases h1
        · rw [hb] at h1; cases h1; exact h2
      rw [List.length_take] at hle
      rw [hb] at h
      simp only [] at h ⊢
      revert h
      generalize forRange ins (self.len + 1 - ins) (fun i v => do
        let x ← index self.comps i
        setIndex v (i + 1) x) self.comps = y
      intro h
      cases y with
      | error f => cases h
      | ok comps =>
        simp only [ok_bind] at h ⊢
        unfold setIndex at h ⊢
        split at h
        · rename_i hi
          rw [if_pos hi]
          simp only [ok_bind] at h ⊢
          injection h with h
          injection h with h
          subst h
          refine ⟨_, ins, rfl, ⟨rfl, ?_, ?_, ?_, ?_⟩, hb⟩
          · apply computeArchetypeId_congr
            rw [List.map_take, List.map_take, List.map_set, List.map_set, hid]
          · rw [List.set_set]
          · unfold ArchetypeDescriptor.components
            rw [List.length_take, List.length_set]
            dsimp only
            omega
          · intro x hx
            unfold ArchetypeDescriptor.components at hx
            dsimp only at hx
            rw [List.getElem?_take] at hx
            split at hx
            · rw [List.getElem?_set_self hi] at hx
              cases hx
              exact hid.symm
            · cases hx
        · cases h

/-! ## Archetypes that differ in one column -/

/-- The archetype with another descriptor, and another block in the column `ins`. -/
def Archetype.retype (a : Archetype) (nd : ArchetypeDescriptor) (ins : Nat) (q : Option Block) : Archetype :=
  { a with descriptor := nd, pointers := a.pointers.set ins q }

namespace Archetype

variable {nd nd' : ArchetypeDescriptor} {ins : Nat} {d : ComponentDescriptor}

theorem withCapacity_redeclared (h : Redeclared nd nd' ins d) {a : Archetype} {n : Nat} (hn : 0 < n ∧ n ≤ MAX_ENTITIES_PER_ARCHETYPE)
    (hw : withCapacity env nd n = .ok a) :
    withCapacity env nd' n = (allocBlock env (d.size * n) d.align).map (fun b => a.retype nd' ins (some b)) ∧
    a.descriptor = nd ∧ a.entityCount = 0 ∧ a.capacity = n := by
  unfold withCapacity at hw ⊢
  have hv : nd'.isValid = nd.isValid := by unfold ArchetypeDescriptor.isValid; rw [h.aid]
  rw [hv]
  obtain ⟨_, h1, hw⟩ := ok_of_bind hw
  rw [h1]
  simp only [ok_bind]
  simp only [] at hw
  rw [if_pos hn] at hw ⊢
  obtain ⟨ptrs, h2, hw⟩ := ok_of_bind hw
  injection hw with hw
  subst hw
  refine ⟨?_, rfl, rfl, rfl⟩
  have hf : ∀ nd : ArchetypeDescriptor, (fun i (ptrs : List (Option Block)) => do
      let c ← index nd.components i
      let b ← allocBlock env (c.size * n) c.align
      setIndex ptrs i (some b) : Nat → List (Option Block) → M (List (Option Block))) =
      (fun i s => do
        let b ← (do
          let c ← index nd.components i
          let b ← allocBlock env (c.size * n) c.align
          return some b)
        setIndex s i b) := by
    intro nd
    funext i s
    cases index nd.components i with
    | error e => rfl
    | ok c =>
      simp only [ok_bind]
      cases allocBlock env (c.size * n) c.align <;> rfl
  unfold allocColumns at h2 ⊢
  rw [hf] at h2 ⊢
  rw [h.length, forRange_setone (k := ins) (g' := fun i => do
          let c ← index nd'.components i
          let b ← allocBlock env (c.size * n) c.align
          return some b) (fun i hi => by
      simp only [index, h.other hi]) _ _ _ _ h2 (Nat.zero_le _) (by rw [Nat.zero_add]; exact h.lt)]
  simp only [index, h.this, ok_bind]
  cases allocBlock env (d.size * n) d.align <;> rfl

theorem pushUninitializedEntity_retype {a : Archetype} (q : Option Block) (hc : a.entityCount < a.capacity) :
    (a.retype nd' ins q).pushUninitializedEntity env =
      (a.pushUninitializedEntity env).map (fun p => (p.1.retype nd' ins q, p.2)) ∧
    a.pushUninitializedEntity env = .ok ({ a with entityCount := a.entityCount + 1 }, a.entityCount) := by
  unfold pushUninitializedEntity resizeIfNecessary
  have h1 : a.isFull = false := by unfold isFull; simp; omega
  have h2 : (a.retype nd' ins q).isFull = false := h1
  rw [h1, h2]
  exact ⟨rfl, rfl⟩

theorem copyCommon_retype {src b : Archetype} (h : Redeclared b.descriptor nd' ins d) {s j : Nat} {q : Option Block}
    (hsrc : ∀ sc ∈ src.descriptor.components, sc.id ≠ d.id) :
    copyCommonComponents src s (b.retype nd' ins q) j = (copyCommonComponents src s b j).map (fun x => x.retype nd' ins q) := by
  unfold copyCommonComponents
  rw [show (b.retype nd' ins q).pointers = b.pointers.set ins q from rfl]
  rw [forRange_setcol (k := ins) (q := q) (f := fun si ptrs => do
    let sc ← index src.descriptor.components si
    copyCommonInner src s b j si sc ptrs)]
  · generalize forRange _ _ _ _ = y
    cases y <;> rfl
  · intro i t _ _
    cases hsc : index src.descriptor.components i with
    | error e => rfl
    | ok sc =>
      simp only [ok_bind]
      have hm : sc ∈ src.descriptor.components := by
        unfold index at hsc
        split at hsc
        · rename_i x hx
          cases hsc
          exact List.mem_of_getElem? hx
        · cases hsc
      unfold copyCommonInner
      rw [show (b.retype nd' ins q).descriptor = nd' from rfl, h.length]
      refine forRange_setcol (k := ins) (q := q) _ _ _ (fun di u _ _ => ?_)
      by_cases hd : di = ins
      · subst hd
        simp only [index, h.this, List.getElem?_eq_getElem h.lt, ok_bind]
        rw [if_pos (hsrc sc hm), if_pos (by rw [h.id _ (List.getElem?_eq_getElem h.lt)]; exact hsrc sc hm)]
        rfl
      · simp only [index, h.other hd]
        cases b.descriptor.components[di]? with
        | none => rfl
        | some dc =>
          simp only [ok_bind]
          split
          · rfl
          · cases src.pointers[i]? with
            | none => rfl
            | some sp =>
              simp only [ok_bind]
              rw [List.getElem?_set_ne (Ne.symm hd)]
              cases u[di]? with
              | none => rfl
              | some dp =>
                simp only [ok_bind]
                cases readBytes sp (sc.size * s) sc.size with
                | error e => rfl
                | ok bs =>
                  simp only [ok_bind]
                  cases writeBytes dp (dc.size * j) bs with
                  | error e => rfl
                  | ok w => exact setIndex_set hd _ _

theorem setEntityAt_retype {a : Archetype} {i : Nat} {e : Entity} {q : Option Block} :
    (a.retype nd' ins q).setEntityAt i e = (a.setEntityAt i e).map (fun x => x.retype nd' ins q) := by
  unfold setEntityAt
  rw [show (a.retype nd' ins q).entityAssociations = a.entityAssociations from rfl,
    show (a.retype nd' ins q).entityCount = a.entityCount from rfl]
  cases a.entityAssociations with
  | none => rfl
  | some l =>
    simp only []
    split
    · split <;> rfl
    · rfl

end Archetype

/-! ## The archetype that is created -/

namespace ArchetypeRegistry

theorem findOrCreateArchetype_redeclared {r r1 : ArchetypeRegistry} {nd nd' : ArchetypeDescriptor} {ins : Nat} {d : ComponentDescriptor}
    {o : Option UInt16} (h : Redeclared nd nd' ins d) (hf : r.findOrCreateArchetype env nd = .ok (r1, o))
    (hl : r1.archetypes.length ≠ r.archetypes.length) :
    ∃ a, r1.archetypes = r.archetypes ++ [a] ∧ a.descriptor = nd ∧ a.entityCount = 0 ∧ a.capacity = 128 ∧
      r.archetypes.length < MAX_ARCHETYPE_COUNT ∧ o = some (UInt16.ofNat (r.archetypes.length + 1) - 1) ∧
      r.findOrCreateArchetype env nd' = (allocBlock env (d.size * 128) d.align).map (fun b =>
        ((⟨r1.sortedMappings, r.archetypes ++ [a.retype nd' ins (some b)]⟩ : ArchetypeRegistry), o)) := by
  have hv : nd'.isValid = nd.isValid := by unfold ArchetypeDescriptor.isValid; rw [h.aid]
  unfold findOrCreateArchetype searchLevel at hf ⊢
  rw [h.len, h.aid, hv]
  split at hf
  · cases hf; exact absurd rfl hl
  · rename_i hc
    rw [if_neg hc]
    generalize (if 1 ≤ nd.len then .ok (nd.len - 1)
             else if env.debug then .error (.panic .overflow) else .error (.panic .indexOutOfBounds) : M Nat) = y at hf ⊢
    cases y with
    | error f => cases hf
    | ok lvl =>
      simp only [ok_bind] at hf ⊢
      cases hk : index r.sortedMappings lvl with
      | error f => rw [hk] at hf; cases hf
      | ok keys =>
        rw [hk] at hf
        simp only [ok_bind, pure_bind] at hf ⊢
        cases hb : binarySearchByKey keys nd.archetypeId.toNat (fun k => k.id.toNat) with
        | found i =>
          exfalso
          rw [hb] at hf
          simp only [] at hf
          obtain ⟨_, _, hf⟩ := ok_of_bind hf
          obtain ⟨_, _, hf⟩ := ok_of_bind hf
          cases hf
          exact hl rfl
        | insertAt i =>
          rw [hb] at hf
          simp only [] at hf ⊢
          split at hf
          · cases hf; exact absurd rfl hl
          · rename_i hm
            rw [if_neg hm]
            obtain ⟨a, ha, hf⟩ := ok_of_bind hf
            obtain ⟨w1, w2, w3, w4⟩ := Archetype.withCapacity_redeclared h (n := 128) (by decide) ha
            rw [show DEFAULT_ARCHETYPE_ALLOCATION_SIZE = 128 from rfl, w1]
            obtain ⟨_, he, hf⟩ := ok_of_bind hf
            injection hf with hf
            injection hf with hf1 hf2
            subst hf1
            refine ⟨a, rfl, w2, w3, w4, by omega, ?_, ?_⟩
            · rw [← hf2]; simp
            · cases allocBlock env (d.size * 128) d.align with
              | error f => rfl
              | ok b =>
                show (do
                  ensure (decide (i ≤ keys.length)) (.panic .indexOutOfBounds)
                  _) = _
                rw [he, ← hf2]
                simp only [ok_bind, List.length_append, List.length_cons, List.length_nil]
                rfl

theorem findOrCreateAdding_redeclared {r r1 : ArchetypeRegistry} {src : UInt16} {d0 d : ComponentDescriptor}
    {o : Option (Nat × UInt16 × Nat)} (hid : d.id = d0.id) (hf : r.findOrCreateAdding env src d0 = .ok (r1, o))
    (hl : r1.archetypes.length ≠ r.archetypes.length) :
    ∃ a0 a nd' ins x, r.archetypes[src.toNat]? = some a0 ∧
      (∃ i, binarySearchByKey a0.descriptor.components d0.id.toNat (fun e => e.id.toNat) = .insertAt i) ∧
      r1.archetypes = r.archetypes ++ [a] ∧ a.entityCount = 0 ∧ a.capacity = 128 ∧ Redeclared a.descriptor nd' ins d ∧
      o = some (src.toNat, x, r.archetypes.length) ∧
      r.findOrCreateAdding env src d = (allocBlock env (d.size * 128) d.align).map (fun b =>
        ((⟨r1.sortedMappings, r.archetypes ++ [a.retype nd' ins (some b)]⟩ : ArchetypeRegistry), o)) := by
  unfold findOrCreateAdding at hf ⊢
  split at hf
  · cases hf; exact absurd rfl hl
  · rename_i hc
    rw [if_neg hc]
    obtain ⟨a0, ha, hf⟩ := ok_of_bind hf
    obtain ⟨o1, ho, hf⟩ := ok_of_bind hf
    cases o1 with
    | none => cases hf; exact absurd rfl hl
    | some nd =>
      obtain ⟨nd', ins, h1, h2, h3⟩ := ArchetypeDescriptor.addComponent_redeclared hid ho
      simp only [] at hf
      obtain ⟨f, hff, hf⟩ := ok_of_bind hf
      obtain ⟨r2, o2⟩ := f
      have hr : r2 = r1 := by
        cases o2 with
        | none => injection hf with hf; injection hf
        | some dst =>
          simp only [] at hf
          split at hf <;> (injection hf with hf; injection hf)
      subst hr
      obtain ⟨a, q1, q2, q3, q4, q5, q6, q7⟩ := findOrCreateArchetype_redeclared h2 hff hl
      have hlt : src.toNat < r.archetypes.length := by
        unfold index at ha
        split at ha
        · rename_i x hx
          exact (List.getElem?_eq_some_iff.mp hx).1
        · cases ha
      have ha' : r.archetypes[src.toNat]? = some a0 := by
        unfold index at ha
        split at ha
        · rename_i x hx
          cases ha; exact hx
        · cases ha
      have hx : (UInt16.ofNat (r.archetypes.length + 1) - 1).toNat = r.archetypes.length := by
        have : MAX_ARCHETYPE_COUNT = 65534 := rfl
        rw [UInt16.toNat_sub, UInt16.toNat_ofNat']
        simp only [UInt16.toNat_one]
        omega
      have hdis : ∀ z : Archetype, disjointMut (r.archetypes ++ [z]) src.toNat (UInt16.ofNat (r.archetypes.length + 1) - 1).toNat =
          some (src.toNat, r.archetypes.length) := by
        intro z
        unfold disjointMut
        rw [hx, List.length_append, List.length_singleton, if_neg (by omega), if_pos hlt]
        congr 2
        omega
      subst q6
      simp only [] at hf
      rw [q1, hdis a] at hf
      injection hf with hf
      injection hf with _ hf
      refine ⟨a0, a, nd', ins, _, ha', ⟨ins, h3⟩, q1, q3, q4, by rw [q2]; exact h2, hf.symm, ?_⟩
      rw [ha]
      simp only [ok_bind]
      rw [h1]
      simp only [ok_bind]
      rw [q7]
      cases allocBlock env (d.size * 128) d.align with
      | error f => rfl
      | ok b =>
        simp only [Except.map, ok_bind]
        rw [hdis]
        rw [← hf]
        rfl

end ArchetypeRegistry

theorem Archetype.swapToLast_descriptor {a : Archetype} {i : Nat} {x : Archetype × Bool} (h : a.swapToLastUnchecked env i = .ok x) :
    x.1.descriptor = a.descriptor := by
  unfold swapToLastUnchecked at h
  obtain ⟨_, _, h⟩ := ok_of_bind h
  obtain ⟨last, _, h⟩ := ok_of_bind h
  split at h
  · cases h; rfl
  · obtain ⟨a1, h1, h⟩ := ok_of_bind h
    cases h
    unfold swapEntities swapEntityAt at h1
    obtain ⟨ptrs, _, h1⟩ := ok_of_bind h1
    simp only [] at h1
    split at h1
    · cases h1
    · split at h1
      · split at h1
        · cases h1; rfl
        · cases h1
      · cases h1

theorem Archetype.setEntityAt_fields {a b : Archetype} {i : Nat} {e : Entity} (h : a.setEntityAt i e = .ok b) :
    b.descriptor = a.descriptor ∧ b.pointers = a.pointers ∧ b.entityCount = a.entityCount := by
  unfold setEntityAt at h
  split at h
  · cases h
  · split at h
    · split at h
      · cases h; exact ⟨rfl, rfl, rfl⟩
      · cases h
    · cases h

theorem Archetype.copyCommon_fields {src a b : Archetype} {i j : Nat} (h : copyCommonComponents src i a j = .ok b) :
    b.descriptor = a.descriptor ∧ b.entityCount = a.entityCount := by
  unfold copyCommonComponents at h
  obtain ⟨_, _, h⟩ := ok_of_bind h
  cases h
  exact ⟨rfl, rfl⟩

theorem Archetype.retype_retype (a : Archetype) (nd nd' : ArchetypeDescriptor) (i : Nat) (p q : Option Block) :
    (a.retype nd i p).retype nd' i q = a.retype nd' i q := by
  unfold retype
  simp only [List.set_set]

/-- Writing the added component to the first row of the column that was declared otherwise. -/
theorem Archetype.writeSingle_retype {a a2 : Archetype} {nd' : ArchetypeDescriptor} {ins : Nat} {d : ComponentDescriptor} {c : CompTy} {v : Val}
    {b : Block} (h : Redeclared a.descriptor nd' ins d) (hid : d.id = c.id)
    (hs : SortedLt (a.descriptor.components.map (fun e => e.id.toNat))) (hw : a.writeSingleComponentUnchecked c 0 v = .ok a2) :
    (a.retype nd' ins (some b)).writeSingleComponentUnchecked c 0 v =
      (do checkAligned (some b) c.align 0; writeBytes (some b) 0 v.encode : M Block).map (fun q => a2.retype nd' ins (some q)) ∧
    ins < a2.pointers.length ∧ a2.descriptor = a.descriptor ∧ a2.entityCount = a.entityCount := by
  have hf : binarySearchByKey a.descriptor.components c.id.toNat (fun e => e.id.toNat) = .found ins := by
    have := binarySearchByKey_found hs (i := ins) h.lt
    rw [h.id _ (List.getElem?_eq_getElem h.lt), hid] at this
    exact this
  have hf' : binarySearchByKey (a.retype nd' ins (some b)).descriptor.components c.id.toNat (fun e => e.id.toNat) = .found ins :=
    (h.search _).trans hf
  unfold writeSingleComponentUnchecked componentRef at hw ⊢
  rw [hf] at hw
  rw [hf']
  simp only [ok_bind] at hw ⊢
  unfold writeRef at hw ⊢
  obtain ⟨p, hp, hw⟩ := ok_of_bind hw
  obtain ⟨_, _, hw⟩ := ok_of_bind hw
  obtain ⟨b2, _, hw⟩ := ok_of_bind hw
  cases hw
  have hlt : ins < a.pointers.length := by
    unfold index at hp
    split at hp
    · rename_i x hx
      exact (List.getElem?_eq_some_iff.mp hx).1
    · cases hp
  refine ⟨?_, by simpa using hlt, rfl, rfl⟩
  have hi : index (a.retype nd' ins (some b)).pointers ins = .ok (some b) := by
    unfold index retype
    simp only []
    rw [List.getElem?_set_self hlt]
  rw [hi]
  simp only [ok_bind, Nat.mul_zero]
  cases checkAligned (some b) c.align 0 with
  | error f => rfl
  | ok u =>
    simp only [ok_bind]
    cases writeBytes (some b) 0 v.encode with
    | error f => rfl
    | ok q =>
      simp only [Except.map, ok_bind]
      unfold retype
      simp only [List.set_set]
      rfl

/-- What was written to the first row is read from it. -/
theorem readVal_written {b b' : Block} {c : CompTy} {v : Val} (hv : v.HasTy c) (ha : checkAligned (some b) c.align 0 = .ok ())
    (hw : writeBytes (some b) 0 v.encode = .ok b') : readVal (some b') c.ty c.size c.align 0 = .ok v := by
  unfold writeBytes at hw
  simp only [] at hw
  split at hw
  · rename_i hle
    cases hw
    have hl : v.encode.length = c.size := by rw [Val.encode_length]; exact hv.2
    unfold readVal
    rw [show checkAligned (some { b with bytes := b.bytes.take 0 ++ v.encode ++ b.bytes.drop (0 + v.encode.length) }) c.align 0 =
      checkAligned (some b) c.align 0 from rfl, ha]
    simp only [ok_bind, readBytes, List.take_zero, List.nil_append, List.drop_zero]
    rw [if_pos (by rw [List.length_append, hl]; omega)]
    simp only [ok_bind]
    rw [List.take_left' hl, ← hv.1]
    exact decodeVal_encode v
  · cases hw

theorem Archetype.writeSingle_read {a a2 : Archetype} {c : CompTy} {v : Val} (hv : v.HasTy c)
    (hw : a.writeSingleComponentUnchecked c 0 v = .ok a2) : a2.getComponentUnchecked c 0 = .ok v := by
  unfold writeSingleComponentUnchecked at hw
  obtain ⟨rf, hrf, hw⟩ := ok_of_bind hw
  unfold writeRef at hw
  obtain ⟨p, hp, hw⟩ := ok_of_bind hw
  obtain ⟨u, hal, hw⟩ := ok_of_bind hw
  obtain ⟨b, hb, hw⟩ := ok_of_bind hw
  cases hw
  have hlt : rf.col < a.pointers.length := by
    unfold index at hp
    split at hp
    · rename_i x hx
      exact (List.getElem?_eq_some_iff.mp hx).1
    · cases hp
  have hoff : rf.off = 0 := by
    unfold componentRef at hrf
    split at hrf
    · cases hrf; exact Nat.mul_zero _
    · cases hrf
  unfold getComponentUnchecked
  rw [show ({ a with pointers := a.pointers.set rf.col (some b) } : Archetype).componentRef c 0 = a.componentRef c 0 from rfl, hrf]
  simp only [ok_bind]
  unfold readRef index
  simp only []
  rw [List.getElem?_set_self hlt, hoff]
  simp only [ok_bind]
  cases p with
  | none => cases hal
  | some p0 =>
    rw [hoff] at hal hb
    exact readVal_written hv hal hb

open Registry in
/-- `add_component` where it creates an archetype, with a declared descriptor. -/
theorem Registry.addComponentWith_creating {r r' : Registry} {e : Entity} {c : CompTy} {d : ComponentDescriptor} {v : Val}
    {o : Registry.Res Unit Val} (hid : d.id = c.id) (hv : v.HasTy c)
    (hs : ∀ a ∈ r.archetypes.archetypes, SortedLt (a.descriptor.components.map (fun e => e.id.toNat)))
    (hs' : ∀ a ∈ r'.archetypes.archetypes, SortedLt (a.descriptor.components.map (fun e => e.id.toNat)))
    (h : r.addComponent env e c v = .ok (r', o))
    (hl : r'.archetypes.archetypes.length ≠ r.archetypes.archetypes.length) :
    ∃ b nd' ins, r'.archetypes.archetypes[r.archetypes.archetypes.length]? = some b ∧ Redeclared b.descriptor nd' ins d ∧
      ins < b.pointers.length ∧ b.entityCount = 1 ∧ b.getComponentUnchecked c 0 = .ok v ∧ o = .ok () ∧
      r.addComponentWith env e c d v = (allocBlock env (d.size * 128) d.align).bind (fun p =>
        (do checkAligned (some p) c.align 0; writeBytes (some p) 0 v.encode : M Block).map (fun q =>
          ((⟨r'.entities, ⟨r'.archetypes.sortedMappings,
            r'.archetypes.archetypes.set r.archetypes.archetypes.length (b.retype nd' ins (some q))⟩⟩ : Registry), .ok ()))) := by
  rw [← addComponentWith_default] at h
  cases hen : r.entities.entityEntry env e with
  | none =>
    unfold addComponentWith at h
    rw [hen] at h
    cases h
    exact absurd rfl hl
  | some en =>
    obtain ⟨r1, x, hf, hlen⟩ := addComponentWith_archetypes hen h
    obtain ⟨a0, a, nd', ins, y, h0, ⟨i0, hb0⟩, h1, h2, h3, h4, h5, h6⟩ :=
      ArchetypeRegistry.findOrCreateAdding_redeclared (d := d) hid hf (by omega)
    unfold addComponentWith at h ⊢
    rw [hen] at h ⊢
    simp only [] at h ⊢
    rw [hf] at h
    rw [h6]
    subst h5
    simp only [ok_bind] at h
    have hlt : (en.archetypeIndex env).toNat < r.archetypes.archetypes.length := (List.getElem?_eq_some_iff.mp h0).1
    have hsi : ∀ z : Archetype, index (r.archetypes.archetypes ++ [z]) (en.archetypeIndex env).toNat = .ok a0 := by
      intro z
      unfold index
      rw [List.getElem?_append_left hlt, h0]
    have hdi : ∀ z : Archetype, index (r.archetypes.archetypes ++ [z]) r.archetypes.archetypes.length = .ok z := by
      intro z
      unfold index
      rw [List.getElem?_append_right (Nat.le_refl _), Nat.sub_self]
      rfl
    rw [h1, hsi, hdi] at h
    simp only [ok_bind] at h
    obtain ⟨s, hsw, h⟩ := ok_of_bind h
    obtain ⟨ents, hents, h⟩ := ok_of_bind h
    obtain ⟨p, hp, h⟩ := ok_of_bind h
    have hpush := fun q => Archetype.pushUninitializedEntity_retype (env := env) (nd' := nd') (ins := ins) (a := a) q (by omega)
    rw [(hpush none).2] at hp
    cases hp
    obtain ⟨sIdx, hsI, h⟩ := ok_of_bind h
    obtain ⟨dIdx, hdI, h⟩ := ok_of_bind h
    have hd0 : dIdx = 0 := by
      rw [h2] at hdI
      have : subU32 env (0 + 1) 1 = .ok 0 := rfl
      simp only [this] at hdI
      cases hdI; rfl
    subst hd0
    obtain ⟨b1, hb1, h⟩ := ok_of_bind h
    obtain ⟨b2, hb2, h⟩ := ok_of_bind h
    obtain ⟨hh, hhh, h⟩ := ok_of_bind h
    obtain ⟨b3, hb3, h⟩ := ok_of_bind h
    obtain ⟨src', hsrc', h⟩ := ok_of_bind h
    obtain ⟨niia, hni, h⟩ := ok_of_bind h
    obtain ⟨ents', hents', h⟩ := ok_of_bind h
    injection h with h
    injection h with h7 h8
    subst h7
    have hc1 := Archetype.copyCommon_fields hb1
    have hs0 : ∀ sc ∈ s.1.descriptor.components, sc.id ≠ d.id := by
      rw [Archetype.swapToLast_descriptor hsw]
      intro sc hsc heq
      obtain ⟨i, hi, rfl⟩ := List.getElem_of_mem hsc
      have := binarySearchByKey_found (hs a0 (List.mem_of_getElem? h0)) hi
      rw [heq, hid] at this
      have hb0' : binarySearchByKey a0.descriptor.components c.id.toNat (fun e => e.id.toNat) = .insertAt i0 := hb0
      rw [hb0'] at this
      cases this
    have hg3 : ∀ z : Archetype, (((r1.setArchetype (en.archetypeIndex env).toNat src').setArchetype r.archetypes.archetypes.length
        z).archetypes)[r.archetypes.archetypes.length]? = some z := by
      intro z
      unfold ArchetypeRegistry.setArchetype
      simp only []
      rw [List.getElem?_set_self]
      rw [List.length_set, h1]
      simp
    have hf3 := Archetype.setEntityAt_fields hb3
    have h4' : Redeclared b1.descriptor nd' ins d := by rw [hc1.1]; exact h4
    have hw := fun b : Block => Archetype.writeSingle_retype (b := b) h4' hid (by
      have hm := hs' b3 (List.mem_of_getElem? (hg3 b3))
      rw [hf3.1] at hm
      unfold Archetype.writeSingleComponentUnchecked at hb2
      obtain ⟨_, _, hb2⟩ := ok_of_bind hb2
      unfold Archetype.writeRef at hb2
      obtain ⟨_, _, hb2⟩ := ok_of_bind hb2
      obtain ⟨_, _, hb2⟩ := ok_of_bind hb2
      obtain ⟨_, _, hb2⟩ := ok_of_bind hb2
      cases hb2
      exact hm) hb2
    have hw0 := hw ⟨0, []⟩
    refine ⟨b3, nd', ins, hg3 b3, by rw [hf3.1, hw0.2.2.1]; exact h4', by rw [hf3.2.1]; exact hw0.2.1,
      by rw [hf3.2.2, hw0.2.2.2, hc1.2]; show a.entityCount + 1 = 1; omega, ?_, h8.symm, ?_⟩
    · have := Archetype.writeSingle_read hv hb2
      unfold Archetype.getComponentUnchecked Archetype.componentRef Archetype.readRef at this ⊢
      rw [hf3.1, hf3.2.1]
      exact this
    cases allocBlock env (d.size * 128) d.align with
    | error f => rfl
    | ok bk =>
      simp only [Except.map, Except.bind, ok_bind]
      rw [hsi, hdi]
      simp only [ok_bind]
      rw [hsw]
      simp only [ok_bind]
      rw [hents]
      simp only [ok_bind]
      rw [(hpush _).1, (hpush none).2]
      simp only [Except.map, ok_bind]
      rw [hsI]
      simp only [ok_bind]
      rw [show (({ a with entityCount := a.entityCount + 1 } : Archetype).retype nd' ins (some bk)).entityCount = a.entityCount + 1 from rfl]
      rw [show subU32 env (a.entityCount + 1) 1 = .ok 0 from hdI]
      simp only [ok_bind]
      rw [Archetype.copyCommon_retype (d := d) (b := { a with entityCount := a.entityCount + 1 }) h4 hs0, hb1]
      simp only [Except.map, ok_bind]
      rw [(hw bk).1]
      cases (do checkAligned (some bk) c.align 0; writeBytes (some bk) 0 v.encode : M Block) with
      | error f => rfl
      | ok q =>
        simp only [Except.map, ok_bind]
        rw [hhh]
        simp only [ok_bind]
        rw [Archetype.setEntityAt_retype, hb3]
        simp only [Except.map, ok_bind]
        rw [hsrc']
        simp only [ok_bind]
        rw [hni]
        simp only [ok_bind]
        rw [hents']
        simp only [ok_bind]
        unfold ArchetypeRegistry.setArchetype
        simp only [List.set_set]
        have hset : ∀ z y : Archetype, ((r.archetypes.archetypes ++ [z]).set (en.archetypeIndex env).toNat src').set
            r.archetypes.archetypes.length y = r.archetypes.archetypes.set (en.archetypeIndex env).toNat src' ++ [y] := by
          intro z y
          rw [List.set_append_left _ _ hlt, List.set_append_right _ _ (by rw [List.length_set]; exact Nat.le_refl _),
            List.length_set, Nat.sub_self]
          rfl
        rw [h1, hset, hset]
        rfl

end Shard
