import Verif.Model.Override
import Verif.Props.Reference
/-!
# C81: components that override `DESCRIPTOR`
-/

set_option autoImplicit false

namespace Shard

variable {env : Env}

open Registry

theorem ok_of_bind {α β : Type} {x : M α} {f : α → M β} {b : β} (h : x >>= f = .ok b) : ∃ a, x = .ok a ∧ f a = .ok b := by
  cases x with
  | error e => cases h
  | ok a => exact ⟨a, rfl, h⟩

/-! ## Only the id matters, unless an archetype is created -/

theorem ArchetypeDescriptor.addComponent_fields (self : ArchetypeDescriptor) {d d' : ComponentDescriptor} (hid : d'.id = d.id) :
    (self.addComponent env d = self.addComponent env d' ∧ ∀ nd, self.addComponent env d ≠ .ok (some nd)) ∨
    ∃ nd nd', self.addComponent env d = .ok (some nd) ∧ self.addComponent env d' = .ok (some nd') ∧
      nd'.len = nd.len ∧ nd'.archetypeId = nd.archetypeId := by
  unfold ArchetypeDescriptor.addComponent
  by_cases hl : self.len = MAX_COMPONENTS_PER_ENTITY
  · rw [if_pos hl, if_pos hl]
    exact Or.inl ⟨rfl, fun nd h => by cases h⟩
  · rw [if_neg hl, if_neg hl, hid]
    cases binarySearchByKey (self.comps.take self.len) d.id.toNat (fun e => e.id.toNat) with
    | found i => exact Or.inl ⟨rfl, fun nd h => by cases h⟩
    | insertAt ins =>
      simp only []
      generalize forRange ins (self.len + 1 - ins) (fun i v => do
        let x ← index self.comps i
        setIndex v (i + 1) x) self.comps = y
      cases y with
      | error f => exact Or.inl ⟨rfl, fun nd h => by cases h⟩
      | ok comps =>
        simp only [ok_bind]
        unfold setIndex
        by_cases hi : ins < comps.length
        · rw [if_pos hi, if_pos hi]
          simp only [ok_bind]
          refine Or.inr ⟨_, _, rfl, rfl, rfl, ?_⟩
          dsimp only
          apply computeArchetypeId_congr
          rw [List.map_take, List.map_take, List.map_set, List.map_set, hid]
        · rw [if_neg hi, if_neg hi]
          exact Or.inl ⟨rfl, fun nd h => by cases h⟩

theorem ArchetypeRegistry.findOrCreateArchetype_fields {r r1 : ArchetypeRegistry} {nd nd' : ArchetypeDescriptor} {o : Option UInt16}
    (hlen : nd'.len = nd.len) (hid : nd'.archetypeId = nd.archetypeId) (h : r.findOrCreateArchetype env nd = .ok (r1, o))
    (hl : r1.archetypes.length = r.archetypes.length) : r.findOrCreateArchetype env nd' = .ok (r1, o) := by
  have hv : nd'.isValid = nd.isValid := by unfold ArchetypeDescriptor.isValid; rw [hid]
  unfold findOrCreateArchetype searchLevel at h ⊢
  rw [hlen, hid, hv]
  split at h
  · rename_i hc
    rw [if_pos hc]; exact h
  · rename_i hc
    rw [if_neg hc]
    generalize (if 1 ≤ nd.len then .ok (nd.len - 1)
             else if env.debug then .error (.panic .overflow) else .error (.panic .indexOutOfBounds) : M Nat) = y at h ⊢
    cases y with
    | error f => cases h
    | ok lvl =>
      simp only [ok_bind] at h ⊢
      cases hk : index r.sortedMappings lvl with
      | error f => rw [hk] at h; cases h
      | ok keys =>
        rw [hk] at h
        simp only [ok_bind, pure_bind] at h ⊢
        cases hb : binarySearchByKey keys nd.archetypeId.toNat (fun k => k.id.toNat) with
        | found i => rw [hb] at h; exact h
        | insertAt i =>
          rw [hb] at h
          simp only [] at h ⊢
          split at h
          · rename_i hm
            rw [if_pos hm]; exact h
          · exfalso
            cases hw : Archetype.withCapacity env nd DEFAULT_ARCHETYPE_ALLOCATION_SIZE with
            | error f => rw [hw] at h; cases h
            | ok a =>
              rw [hw] at h
              simp only [ok_bind] at h
              unfold ensure at h
              split at h
              · simp only [ok_bind] at h
                injection h with h
                injection h with h1 h2
                subst h1
                simp at hl
              · cases h

theorem ArchetypeRegistry.findOrCreateAdding_fields {r r1 : ArchetypeRegistry} {src : UInt16} {d d' : ComponentDescriptor}
    {o : Option (Nat × UInt16 × Nat)} (hid : d'.id = d.id) (h : r.findOrCreateAdding env src d = .ok (r1, o))
    (hl : r1.archetypes.length = r.archetypes.length) : r.findOrCreateAdding env src d' = .ok (r1, o) := by
  unfold findOrCreateAdding at h ⊢
  split at h
  · rename_i hc
    rw [if_pos hc]; exact h
  · rename_i hc
    rw [if_neg hc]
    cases ha : index r.archetypes src.toNat with
    | error f => rw [ha] at h; cases h
    | ok a =>
      rw [ha] at h
      simp only [ok_bind] at h ⊢
      rcases a.descriptor.addComponent_fields (env := env) hid with ⟨h1, h2⟩ | ⟨nd, nd', h1, h2, h3, h4⟩
      · rw [← h1]
        exact h
      · rw [h1] at h
        rw [h2]
        simp only [ok_bind] at h ⊢
        cases hf : r.findOrCreateArchetype env nd with
        | error f => rw [hf] at h; cases h
        | ok x =>
          obtain ⟨r2, o2⟩ := x
          rw [hf] at h
          simp only [ok_bind] at h
          have hr : r2 = r1 := by
            cases o2 with
            | none => injection h with h; injection h
            | some dst =>
              simp only [] at h
              split at h <;> (injection h with h; injection h)
          rw [findOrCreateArchetype_fields h3 h4 hf (by rw [hr]; exact hl)]
          simp only [ok_bind]
          exact h

theorem Registry.addComponentWith_archetypes {r r' : Registry} {e : Entity} {c : CompTy} {d : ComponentDescriptor} {v : Val}
    {o : Registry.Res Unit Val} {en : EntityEntry} (hen : r.entities.entityEntry env e = some en)
    (h : r.addComponentWith env e c d v = .ok (r', o)) :
    ∃ r1 x, r.archetypes.findOrCreateAdding env (en.archetypeIndex env) d = .ok (r1, x) ∧
      r'.archetypes.archetypes.length = r1.archetypes.length := by
  unfold addComponentWith at h
  rw [hen] at h
  simp only [] at h
  cases hf : r.archetypes.findOrCreateAdding env (en.archetypeIndex env) d with
  | error f => rw [hf] at h; cases h
  | ok y =>
    obtain ⟨r1, x⟩ := y
    refine ⟨r1, x, rfl, ?_⟩
    rw [hf] at h
    simp only [ok_bind] at h
    cases x with
    | none =>
      injection h with h
      injection h with h1 h2
      rw [← h1]
    | some y =>
      obtain ⟨si, dai, di⟩ := y
      simp only [] at h
      repeat (first
        | (injection h with h; injection h with h1 h2; rw [← h1]; simp [ArchetypeRegistry.setArchetype]; done)
        | (obtain ⟨_, _, h⟩ := ok_of_bind h))

/-! ## The property -/

/-- **C81** What a component type declares as its `DESCRIPTOR` (with its own id) cannot cause undefined behaviour: where
`add_component` works with the default descriptor, it has no undefined behaviour with any other. -/
def C81_statement : Prop :=
  ∀ (env : Env) (W : World env) (r : Registry) (e : Entity) (c : CompTy) (d : ComponentDescriptor) (v : Val),
    Reachable W r → (Call.add e c v).Admissible W r → d.id = c.id → (∃ x, r.addComponent env e c v = .ok x) →
    ∀ k, r.addComponentWith env e c d v ≠ .error (.ub k)

/-- **C81 (partial)** The declared `DESCRIPTOR` matters only where `add_component` creates an archetype: `remove_component`
uses its id only, and so does `add_component` if it refuses or if the archetype exists already (with the default descriptor
it would add no archetype). Missing: the creation of an archetype, for which the claim is false (`C81_violated`). -/
theorem C81_descriptor_partial (r : Registry) (e : Entity) (c : CompTy) {d : ComponentDescriptor} (hid : d.id = c.id) :
    r.removeComponentWith env e c d = r.removeComponent env e c ∧
    ∀ v r' o, r.addComponent env e c v = .ok (r', o) →
      r'.archetypes.archetypes.length = r.archetypes.archetypes.length →
      r.addComponentWith env e c d v = .ok (r', o) := by
  constructor
  · have h : ∀ src, r.archetypes.findOrCreateRemoving env src d = r.archetypes.findOrCreateRemoving env src c.descriptor := by
      intro src
      unfold ArchetypeRegistry.findOrCreateRemoving
      rw [hid]
      rfl
    rw [← removeComponentWith_default]
    unfold removeComponentWith
    simp only [h]
  · intro v r' o h hl
    cases hen : r.entities.entityEntry env e with
    | none =>
      unfold addComponent at h
      unfold addComponentWith
      rw [hen] at h ⊢
      exact h
    | some en =>
      obtain ⟨r1, x, h1, h2⟩ := addComponentWith_archetypes hen (addComponentWith_default env r e c v ▸ h)
      have h3 := ArchetypeRegistry.findOrCreateAdding_fields (d' := d) hid h1 (by omega)
      rw [← addComponentWith_default] at h
      unfold addComponentWith at h ⊢
      rw [hen] at h ⊢
      simp only [h1] at h
      simp only [h3]
      exact h

/-- The hypotheses hold for an entity with `A` and `B` that is given a `C` after another entity was: the archetype exists, and
a wrong size in the descriptor of `C` does no harm. -/
def exKnown : M Registry := (runAll exEnv Registry.default (exCalls ++ [.create [exA, exB] [exValA, exValB]])).2

set_option maxRecDepth 100000 in
example : exKnown.map (fun r => r.archetypes.archetypes.length) = .ok 4 ∧
    (exKnown.bind fun r => r.addComponent exEnv (Entity.newUnchecked 3 0) exC exValC).map
      (fun x => (x.1.archetypes.archetypes.length, decide (x.2 = .ok ()))) = .ok (4, true) ∧
    (exKnown.bind fun r => (r.addComponentWith exEnv (Entity.newUnchecked 3 0) exC { exC.descriptor with size := 1 } exValC).bind
      (fun x => x.1.getComponent exEnv exC (Entity.newUnchecked 3 0))) = .ok (some exValC) := by
  decide +kernel

/-! ## Violation -/

/-- A component type of 129 bytes. -/
def exBulky : CompTy := ⟨4, 40, 129, 1⟩

/-- A program with two component types. -/
def exBulkyWorld : World exEnv := .ofLists exEnv [exA, exBulky] [[10], [40], [10, 40]] (by decide +kernel)

/-- The descriptor it declares: one byte. -/
def exWrong : ComponentDescriptor := { exBulky.descriptor with size := 1 }

/-- A value of the type. -/
def exBulkyVal : Val := ⟨4, List.replicate 129 7⟩

theorem exBulkyUsed {s : List UInt16} (h1 : s.Pairwise (fun a b => a < b)) (h2 : s ≠ []) (h3 : ∀ i ∈ s, i = 10 ∨ i = 40) :
    exBulkyWorld.Used s := by
  show s ∈ [[10], [40], [10, 40]]
  have lt : ∀ {a b : UInt16}, a < b → a ≠ b := fun h => UInt16.ne_of_lt h
  match s, h1, h2, h3 with
  | [a], _, _, h3 => rcases h3 a (by simp) with rfl | rfl <;> decide
  | [a, b], h1, _, h3 =>
    have hab : a < b := (List.pairwise_cons.mp h1).1 b (by simp)
    rcases h3 a (by simp) with rfl | rfl <;> rcases h3 b (by simp) with rfl | rfl <;> revert hab <;> decide
  | a :: b :: c :: t, h1, _, h3 =>
    obtain ⟨k1, k2⟩ := List.pairwise_cons.mp h1
    have hab : a < b := k1 b (by simp)
    have hbc : b < c := (List.pairwise_cons.mp k2).1 c (by simp)
    exfalso
    rcases h3 a (by simp) with rfl | rfl <;> rcases h3 b (by simp) with rfl | rfl <;> rcases h3 c (by simp) with rfl | rfl <;>
      revert hab hbc <;> decide

set_option maxRecDepth 100000 in
theorem exBulkyRun : ((Call.create [exA] [exValA]).run exEnv Registry.default).bind (fun x =>
      x.1.addComponentWith exEnv exE1 exBulky exWrong exBulkyVal) = .error (.ub .outOfBounds) ∧
    (((Call.create [exA] [exValA]).run exEnv Registry.default).bind (fun x =>
      x.1.addComponent exEnv exE1 exBulky exBulkyVal)).toOption.isSome = true := by decide +kernel

/-- **C81 (violated)** A component of 129 bytes that declares a `DESCRIPTOR` with `size: 1`: adding it to an entity writes
beyond the end of its column. -/
theorem C81_violated : ¬ C81_statement := by
  intro h
  obtain ⟨h1, h2⟩ := exBulkyRun
  cases hr : (Call.create [exA] [exValA]).run exEnv Registry.default with
  | error f => rw [hr] at h2; cases h2
  | ok x =>
    obtain ⟨r, out⟩ := x
    rw [hr] at h1 h2
    have hA : exBulkyWorld.Has exA := List.mem_cons_self
    have hL : exBulkyWorld.Has exBulky := List.mem_cons_of_mem _ List.mem_cons_self
    have hreach : Reachable exBulkyWorld r :=
      ⟨_, Steps.snoc (call := .create [exA] [exValA]) Steps.nil ⟨typedCheck_ok (by decide), fun _ =>
        ⟨fun c hc => by rw [List.mem_singleton] at hc; rw [hc]; exact hA,
         exBulkyUsed (by
             have hn := (Group.idSet_perm [exA]).nodup_iff.mpr (show (List.map (fun c => c.id) [exA]).Nodup by decide)
             exact ((Group.idSet_sorted [exA]).and hn).imp (fun ⟨a, b⟩ => UInt16.lt_of_le_of_ne a b))
           (by rw [← List.length_pos_iff, (Group.idSet_perm [exA]).length_eq]; decide)
           (fun i hi => by have := (Group.idSet_perm [exA]).mem_iff.mp hi; simp [exA] at this; exact Or.inl this)⟩⟩ hr⟩
    refine h exEnv exBulkyWorld r exE1 exBulky exWrong exBulkyVal hreach ⟨hL, ⟨rfl, by simp [exBulkyVal, exBulky]⟩, ?_⟩ rfl ?_ _ h1
    · intro _ s hs
      refine exBulkyUsed hs.1 (fun hn => ?_) (fun i hi => ?_)
      · have := (hs.2 40).mpr (Or.inl rfl)
        rw [hn] at this
        cases this
      · rcases (hs.2 i).mp hi with rfl | ⟨c, hc, rfl, _⟩
        · exact Or.inr rfl
        · have hc : c ∈ [exA, exBulky] := hc
          simp only [List.mem_cons, List.not_mem_nil, or_false] at hc
          rcases hc with rfl | rfl
          · exact Or.inl rfl
          · exact Or.inr rfl
    · cases hx : r.addComponent exEnv exE1 exBulky exBulkyVal with
      | error f =>
        have : (Except.error f : M (Registry × Res Unit Val)).toOption.isSome = true := by rw [← hx]; exact h2
        cases this
      | ok x => exact ⟨x, rfl⟩

end Shard
