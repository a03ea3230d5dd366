import Verif.Model.FlatRegistry
import Verif.Proofs.FlatRows
/-!
# Flat memory: the functions of the registry
-/

set_option autoImplicit false

namespace Shard.Flat

open Registry (Res)

variable {A : Allocator} {env : Env} {h h' h'' : Heap}

/-! ## Lists of archetypes -/

/-- The allocations that the archetypes own. -/
def FpL (fas : List FArch) (id : Nat) : Prop := ∃ fa ∈ fas, Fp fa.all id

/-- The archetypes `fas` hold in memory `h` what `as` hold, and share nothing. -/
structure RRep (h : Heap) (fas : List FArch) (as : List Archetype) : Prop where
  len : fas.length = as.length
  arch : ∀ {i : Nat} {fa : FArch} {a : Archetype}, fas[i]? = some fa → as[i]? = some a → ARep h fa a
  dis : ∀ {i j : Nat} {fa fb : FArch}, i ≠ j → fas[i]? = some fa → fas[j]? = some fb → ∀ id, Fp fa.all id → ¬ Fp fb.all id

theorem RRep.get {fas : List FArch} {as : List Archetype} (hR : RRep h fas as) {i : Nat} {a : Archetype}
    (hi : as[i]? = some a) : ∃ fa, fas[i]? = some fa ∧ ARep h fa a := by
  have hlt : i < fas.length := by rw [hR.len]; exact lt_of_get hi
  exact ⟨fas[i], List.getElem?_eq_getElem hlt, hR.arch (List.getElem?_eq_getElem hlt) hi⟩

theorem RRep.get' {fas : List FArch} {as : List Archetype} (hR : RRep h fas as) {i : Nat} {fa : FArch}
    (hi : fas[i]? = some fa) : ∃ a, as[i]? = some a ∧ ARep h fa a := by
  have hlt : i < as.length := by rw [← hR.len]; exact lt_of_get hi
  exact ⟨as[i], List.getElem?_eq_getElem hlt, hR.arch hi (List.getElem?_eq_getElem hlt)⟩

theorem RRep.live {fas : List FArch} {as : List Archetype} (hw : h.WF) (hR : RRep h fas as) {id : Nat}
    (hid : FpL fas id) : id < h.next := by
  obtain ⟨fa, hfa, hid⟩ := hid
  obtain ⟨i, hi⟩ := List.getElem?_of_mem hfa
  obtain ⟨a, _, hA⟩ := hR.get' hi
  exact hA.own.live hw hid

theorem ARep.frame (hw : h.WF) {fa : FArch} {a : Archetype} (hA : ARep h fa a) {P P' : Nat → Prop} (hs : Step h P h' P')
    (hd : ∀ id, Fp fa.all id → ¬ P id) : ARep h' fa a := ⟨hA.desc, hA.count, hA.cap, hA.own.frame hw hs hd⟩

/-- One archetype changes. -/
theorem RRep.set {fas : List FArch} {as : List Archetype} (hw : h.WF) (hR : RRep h fas as) {i : Nat} {fa fa' : FArch}
    {a' : Archetype} (hi : fas[i]? = some fa) (hs : Step h (Fp fa.all) h' (Fp fa'.all)) (hA : ARep h' fa' a') :
    RRep h' (fas.set i fa') (as.set i a') ∧ Step h (FpL fas) h' (FpL (fas.set i fa')) := by
  have hlt := lt_of_get hi
  have hnew : ∀ {j : Nat} {fb : FArch}, j ≠ i → fas[j]? = some fb → ∀ id, Fp fb.all id → ¬ Fp fa'.all id := by
    intro j fb hj hb id h1 h2
    rcases hs.sub h2 with h3 | h3
    · exact hR.dis hj hb hi id h1 h3
    · obtain ⟨b, _, hB⟩ := hR.get' hb
      have := hB.own.live hw h1
      omega
  refine ⟨⟨by simp [hR.len], ?_, ?_⟩, ?_⟩
  · intro j fb b hb hb'
    by_cases hj : j = i
    · subst hj
      rw [List.getElem?_set_self hlt] at hb
      rw [List.getElem?_set_self (by rw [← hR.len]; exact hlt)] at hb'
      cases hb; cases hb'
      exact hA
    · rw [List.getElem?_set_ne (fun e => hj e.symm)] at hb hb'
      exact (hR.arch hb hb').frame hw hs (fun id h1 => hR.dis hj hb hi id h1)
  · intro j k fb fc hjk hb hc id h1 h2
    by_cases hj : j = i
    · subst hj
      rw [List.getElem?_set_self hlt] at hb
      cases hb
      rw [List.getElem?_set_ne hjk] at hc
      exact hnew (fun e => hjk e.symm) hc id h2 h1
    · rw [List.getElem?_set_ne (fun e => hj e.symm)] at hb
      by_cases hk : k = i
      · subst hk
        rw [List.getElem?_set_self hlt] at hc
        cases hc
        exact hnew hj hb id h1 h2
      · rw [List.getElem?_set_ne (fun e => hk e.symm)] at hc
        exact hR.dis hjk hb hc id h1 h2
  · refine (hs.frame (fun id => ∃ j fb, j ≠ i ∧ fas[j]? = some fb ∧ Fp fb.all id)).congr ?_ ?_
    · intro id
      constructor
      · rintro (h1 | ⟨j, x, _, hx, h1⟩)
        · exact ⟨fa, List.mem_of_getElem? hi, h1⟩
        · exact ⟨x, List.mem_of_getElem? hx, h1⟩
      · rintro ⟨x, hx, h1⟩
        obtain ⟨j, hj⟩ := List.getElem?_of_mem hx
        by_cases hji : j = i
        · subst hji
          rw [hi] at hj; cases hj
          exact .inl h1
        · exact .inr ⟨j, x, hji, hj, h1⟩
    · intro id
      constructor
      · rintro (h1 | ⟨j, x, hj, hx, h1⟩)
        · exact ⟨fa', List.mem_of_getElem? (List.getElem?_set_self hlt), h1⟩
        · exact ⟨x, List.mem_of_getElem? ((List.getElem?_set_ne (fun e => hj e.symm)).trans hx), h1⟩
      · rintro ⟨x, hx, h1⟩
        obtain ⟨j, hj⟩ := List.getElem?_of_mem hx
        by_cases hji : j = i
        · subst hji
          rw [List.getElem?_set_self hlt] at hj; cases hj
          exact .inl h1
        · rw [List.getElem?_set_ne (fun e => hji e.symm)] at hj
          exact .inr ⟨j, x, hji, hj, h1⟩

/-- The contents of one archetype change. -/
theorem RRep.inPlace {fas : List FArch} {as : List Archetype} (hw : h.WF) (hR : RRep h fas as) {i : Nat} {fa : FArch}
    {a' : Archetype} (hi : fas[i]? = some fa) (hs : Step h (Fp fa.all) h' (Fp fa.all)) (hA : ARep h' fa a') :
    RRep h' fas (as.set i a') ∧ Step h (FpL fas) h' (FpL fas) := by
  have := hR.set hw hi hs hA
  rwa [set_self hi] at this

/-- A new archetype. -/
theorem RRep.push {fas : List FArch} {as : List Archetype} (hw : h.WF) (hR : RRep h fas as) {fa : FArch} {a : Archetype}
    (hs : Step h (fun _ => False) h' (Fp fa.all)) (hA : ARep h' fa a) :
    RRep h' (fas ++ [fa]) (as ++ [a]) ∧ Step h (FpL fas) h' (FpL (fas ++ [fa])) := by
  have get : ∀ {j : Nat} {fb : FArch}, (fas ++ [fa])[j]? = some fb →
      fas[j]? = some fb ∨ (j = fas.length ∧ fb = fa) := by
    intro j fb hb
    rcases Nat.lt_or_ge j fas.length with h1 | h1
    · rw [List.getElem?_append_left h1] at hb
      exact .inl hb
    · rw [List.getElem?_append_right h1] at hb
      cases hk : j - fas.length with
      | zero => rw [hk] at hb; cases hb; exact .inr ⟨by omega, rfl⟩
      | succ k => rw [hk] at hb; cases hb
  have hnew : ∀ {j : Nat} {fb : FArch}, fas[j]? = some fb → ∀ id, Fp fb.all id → ¬ Fp fa.all id := by
    intro j fb hb id h1 h2
    rcases hs.sub h2 with h3 | h3
    · exact h3
    · obtain ⟨b, _, hB⟩ := hR.get' hb
      have := hB.own.live hw h1
      omega
  refine ⟨⟨by simp [hR.len], ?_, ?_⟩, ?_⟩
  · intro j fb b hb hb'
    rcases get hb with h1 | ⟨rfl, rfl⟩
    · rw [List.getElem?_append_left (by rw [← hR.len]; exact lt_of_get h1)] at hb'
      exact (hR.arch h1 hb').frame hw hs (fun _ _ h => h)
    · rw [hR.len, List.getElem?_append_right (Nat.le_refl _)] at hb'
      simp only [Nat.sub_self, List.getElem?_cons_zero, Option.some.injEq] at hb'
      subst hb'
      exact hA
  · intro j k fb fc hjk hb hc id h1 h2
    rcases get hb with hb | ⟨rfl, rfl⟩
    · rcases get hc with hc | ⟨_, hc⟩
      · exact hR.dis hjk hb hc id h1 h2
      · rw [hc] at h2
        exact hnew hb id h1 h2
    · rcases get hc with hc | ⟨rfl, _⟩
      · exact hnew hc id h2 h1
      · exact hjk rfl
  · refine (hs.frame (FpL fas)).congr (fun id => ⟨fun x => x.elim False.elim (·), .inr⟩) (fun id => ⟨?_, ?_⟩)
    · rintro (h1 | ⟨x, hx, h1⟩)
      · exact ⟨fa, by simp, h1⟩
      · exact ⟨x, by simp [hx], h1⟩
    · rintro ⟨x, hx, h1⟩
      rcases List.mem_append.mp hx with hx | hx
      · exact .inr ⟨x, hx, h1⟩
      · rw [List.mem_singleton] at hx
        subst hx
        exact .inl h1

/-- The number of rows of one archetype changes. -/
theorem RRep.setCount {fas : List FArch} {as : List Archetype} (hw : h.WF) (hR : RRep h fas as) {i : Nat} {fa fa' : FArch}
    {a' : Archetype} (hi : fas[i]? = some fa) (he : fa'.all = fa.all) (hA : ARep h fa' a') :
    RRep h (fas.set i fa') (as.set i a') ∧ Step h (FpL fas) h (FpL (fas.set i fa')) :=
  hR.set hw hi (by rw [he]; exact Step.refl hw _) hA

/-- The registry `fr` holds in memory `h` what `r` holds. -/
structure RegRep (h : Heap) (fr : FReg) (r : Registry) : Prop where
  ents : fr.entities = r.entities
  maps : fr.sortedMappings = r.archetypes.sortedMappings
  archs : RRep h fr.archetypes r.archetypes.archetypes

/-- What the functions need of a registry besides what they check. -/
structure Ready (env : Env) (r : Registry) : Prop where
  side : ∀ {i : Nat} {a : Archetype}, r.archetypes.archetypes[i]? = some a →
    Side a ∧ a.entityCount ≤ a.capacity ∧ a.descriptor.len ≤ a.descriptor.comps.length
  row : ∀ {e : Entity} {en : EntityEntry}, r.entities.entityEntry env e = some en → ∀ {a : Archetype},
    r.archetypes.archetypes[(en.archetypeIndex env).toNat]? = some a → en.indexInArchetype.value.toNat < a.entityCount

/-- The pointers that a group asks for are inside the columns. -/
def Fuzzy (env : Env) (r : Registry) (g : Group) : Prop :=
  ∀ {i : Nat} {a : Archetype}, r.archetypes.archetypes[i]? = some a → ∀ {off : Nat}, off ≤ a.capacity →
    ∀ p, some p ∈ a.getFuzzyPointersUnchecked env g off → InB a p

/-! ## Finding and creating archetypes -/

theorem forRange_ind' {σ : Type} {R : Nat → σ → Prop} {f : Nat → σ → M σ}
    (hstep : ∀ i s s', R i s → f i s = .ok s' → R (i + 1) s') :
    ∀ {n lo : Nat} {s s' : σ}, forRange lo n f s = .ok s' → R lo s → R (lo + n) s'
  | 0, _, s, s', hf, hR => by cases hf; exact hR
  | n + 1, lo, s, s', hf, hR => by
    unfold forRange at hf
    cases h1 : f lo s with
    | error e => rw [h1] at hf; cases hf
    | ok s1 =>
      rw [h1] at hf
      have := forRange_ind' hstep hf (hstep _ _ _ hR h1)
      rwa [show lo + 1 + n = lo + (n + 1) by omega] at this

theorem allocBlock_inv {size align : Nat} {b : Block} (hb : allocBlock env size align = .ok b) :
    b.bytes.length = size ∧ powerOfTwo b.align = true := by
  unfold allocBlock at hb
  by_cases h1 : powerOfTwo align = false
  · rw [if_pos h1] at hb; cases hb
  rw [if_neg h1] at hb
  by_cases h2 : size = 0 ∧ ¬ env.zstAllocOk
  · rw [if_pos h2] at hb; cases hb
  rw [if_neg h2] at hb
  cases hb
  exact ⟨by simp, by simpa using h1⟩

theorem withCapacity_side {d : ArchetypeDescriptor} {a : Archetype}
    (hr : Archetype.withCapacity env d DEFAULT_ARCHETYPE_ALLOCATION_SIZE = .ok a) : Side a := by
  obtain ⟨_, h1, hr1⟩ := ebind_inv hr
  simp only at hr1
  rw [if_pos (by decide)] at hr1
  obtain ⟨ptrs, h2, hr2⟩ := ebind_inv hr1
  cases hr2
  have key := forRange_ind' (R := fun i bs => bs.length = MAX_COMPONENTS_PER_ENTITY ∧ ∀ j, j < i → ∀ c,
    d.components[j]? = some c → ∃ b, bs[j]? = some (some b) ∧
      b.bytes.length = c.size * DEFAULT_ARCHETYPE_ALLOCATION_SIZE ∧ powerOfTwo b.align = true) (fun i bs bs' hR hf => by
      obtain ⟨c, h3, hf2⟩ := ebind_inv hf
      obtain ⟨b, h4, hf3⟩ := ebind_inv hf2
      obtain ⟨hlt, rfl⟩ := setIndex_inv hf3
      obtain ⟨h5, h6⟩ := allocBlock_inv h4
      refine ⟨by rw [List.length_set]; exact hR.1, fun j hj c' hc' => ?_⟩
      by_cases hji : j = i
      · subst hji
        rw [index_inv h3] at hc'
        cases hc'
        exact ⟨b, List.getElem?_set_self hlt, h5, h6⟩
      · rw [List.getElem?_set_ne (fun e => hji e.symm)]
        exact hR.2 j (by omega) c' hc') h2 ⟨by simp, fun j hj => by omega⟩
  refine ⟨key.1, fun {i d'} hi => key.2 i ?_ d' hi⟩
  rw [Nat.zero_add]
  exact lt_of_get hi

theorem findOrCreate_side {ar : ArchetypeRegistry} {d : ArchetypeDescriptor}
    {f : ArchetypeRegistry × Option UInt16} (hall : ∀ {i : Nat} {a : Archetype}, ar.archetypes[i]? = some a → Side a)
    (hr : ar.findOrCreateArchetype env d = .ok f) {i : Nat} {a : Archetype} (hi : f.1.archetypes[i]? = some a) : Side a := by
  unfold ArchetypeRegistry.findOrCreateArchetype at hr
  by_cases hv : d.len > MAX_COMPONENTS_PER_ENTITY ∨ ¬ d.isValid
  · rw [if_pos hv] at hr; cases hr; exact hall hi
  rw [if_neg hv] at hr
  obtain ⟨s, h1, hr1⟩ := ebind_inv hr
  cases hs : s.2 with
  | found k =>
    simp only [hs] at hr1
    obtain ⟨_, _, hr2⟩ := ebind_inv hr1
    obtain ⟨_, _, hr3⟩ := ebind_inv hr2
    cases hr3
    exact hall hi
  | insertAt k =>
    simp only [hs] at hr1
    by_cases hf : ar.archetypes.length ≥ MAX_ARCHETYPE_COUNT
    · rw [if_pos hf] at hr1; cases hr1; exact hall hi
    rw [if_neg hf] at hr1
    obtain ⟨b, h2, hr2⟩ := ebind_inv hr1
    obtain ⟨_, _, hr3⟩ := ebind_inv hr2
    cases hr3
    rcases Nat.lt_or_ge i ar.archetypes.length with h3 | h3
    · simp only at hi
      rw [List.getElem?_append_left h3] at hi
      exact hall hi
    · simp only at hi
      rw [List.getElem?_append_right h3] at hi
      cases hk : i - ar.archetypes.length with
      | zero => rw [hk] at hi; cases hi; exact withCapacity_side h2
      | succ k => rw [hk] at hi; cases hi

theorem findOrCreate_spec (hAl : A.Ok) (hw : h.WF) {fr : FReg} {r : Registry} (hR : RegRep h fr r)
    {d : ArchetypeDescriptor} {f : ArchetypeRegistry × Option UInt16}
    (hr : r.archetypes.findOrCreateArchetype env d = .ok f) :
    wp A (fr.findOrCreateArchetype A env d) h (fun y h' => y.2 = f.2 ∧ RegRep h' y.1 ⟨r.entities, f.1⟩ ∧
      Step h (FpL fr.archetypes) h' (FpL y.1.archetypes)) := by
  unfold ArchetypeRegistry.findOrCreateArchetype at hr
  unfold FReg.findOrCreateArchetype
  by_cases hv : d.len > MAX_COMPONENTS_PER_ENTITY ∨ ¬ d.isValid
  · rw [if_pos hv] at hr ⊢; cases hr; exact wp_pure ⟨rfl, hR, Step.refl hw _⟩
  rw [if_neg hv] at hr ⊢
  obtain ⟨s, h1, hr1⟩ := ebind_inv hr
  refine wp_then (show fr.shell.searchLevel env d = .ok s by
    unfold ArchetypeRegistry.searchLevel FReg.shell at *
    rw [hR.maps]; exact h1) ?_
  cases hs : s.2 with
  | found k =>
    simp only [hs] at hr1 ⊢
    obtain ⟨key, h2, hr2⟩ := ebind_inv hr1
    obtain ⟨a, h3, hr3⟩ := ebind_inv hr2
    cases hr3
    obtain ⟨fa, hfa, _⟩ := hR.archs.get (index_inv h3)
    exact wp_then h2 (wp_then (index_ok' hfa) (wp_pure ⟨rfl, hR, Step.refl hw _⟩))
  | insertAt k =>
    simp only [hs] at hr1 ⊢
    rw [hR.archs.len, hR.maps]
    by_cases hf : r.archetypes.archetypes.length ≥ MAX_ARCHETYPE_COUNT
    · rw [if_pos hf] at hr1 ⊢; cases hr1; exact wp_pure ⟨rfl, hR, Step.refl hw _⟩
    rw [if_neg hf] at hr1 ⊢
    obtain ⟨b, h2, hr2⟩ := ebind_inv hr1
    obtain ⟨_, h3, hr3⟩ := ebind_inv hr2
    cases hr3
    refine wp_bind (wp_mono (withCapacity_spec hAl hw h2) ?_)
    rintro fa h4 ⟨h5, h6⟩
    obtain ⟨h7, h8⟩ := hR.archs.push hw h6 h5
    refine wp_then h3 (wp_pure ⟨?_, ⟨hR.ents, rfl, h7⟩, h8⟩)
    simp only [List.length_append, hR.archs.len]
    rfl

theorem disjointMut_inv {α : Type} {l : List α} {i j a b : Nat} (hd : disjointMut l i j = some (a, b)) :
    a ≠ b ∧ a = i ∧ b = j := by
  unfold disjointMut at hd
  split at hd
  · cases hd
  · split at hd
    · cases hd; omega
    · cases hd; omega

theorem disjointMut_len {α β : Type} {l : List α} {m : List β} (hl : l.length = m.length) (i j : Nat) :
    disjointMut l i j = disjointMut m i j := by
  unfold disjointMut; rw [hl]

/-- `findOrCreateAdding` and `findOrCreateRemoving` after the new descriptor is known. -/
def blockPair (env : Env) (ar : ArchetypeRegistry) (src : UInt16) (nd : Option ArchetypeDescriptor) :
    M (ArchetypeRegistry × Option (Nat × UInt16 × Nat)) :=
  match nd with
  | none => return (ar, none)
  | some nd => do
    let f ← ar.findOrCreateArchetype env nd
    match f.2 with
    | none => return (f.1, none)
    | some dst =>
      match disjointMut f.1.archetypes src.toNat dst.toNat with
      | none => return (f.1, none)
      | some p => return (f.1, some (p.1, dst, p.2))

theorem pair_side {ar : ArchetypeRegistry} {src : UInt16} {nd : Option ArchetypeDescriptor}
    {f : ArchetypeRegistry × Option (Nat × UInt16 × Nat)}
    (hall : ∀ {i : Nat} {a : Archetype}, ar.archetypes[i]? = some a → Side a)
    (hr : blockPair env ar src nd = .ok f) : (∀ {i : Nat} {a : Archetype}, f.1.archetypes[i]? = some a → Side a) ∧
      ∀ {i j : Nat} {d : UInt16}, f.2 = some (i, d, j) → i ≠ j := by
  unfold blockPair at hr
  cases nd with
  | none => cases hr; exact ⟨hall, fun h => by cases h⟩
  | some nd =>
    simp only at hr
    obtain ⟨f1, h1, hr1⟩ := ebind_inv hr
    cases hf : f1.2 with
    | none => simp only [hf] at hr1; cases hr1; exact ⟨fun hi => findOrCreate_side hall h1 hi, fun h => by cases h⟩
    | some dst =>
      simp only [hf] at hr1
      cases hd : disjointMut f1.1.archetypes src.toNat dst.toNat with
      | none =>
        simp only [hd] at hr1; cases hr1
        exact ⟨fun hi => findOrCreate_side hall h1 hi, fun h => by cases h⟩
      | some p =>
        simp only [hd] at hr1; cases hr1
        refine ⟨fun hi => findOrCreate_side hall h1 hi, fun h => ?_⟩
        cases h
        exact (disjointMut_inv hd).1

theorem pair_spec (hAl : A.Ok) (hw : h.WF) {fr : FReg} {r : Registry} (hR : RegRep h fr r) {src : UInt16}
    {nd : Option ArchetypeDescriptor} {f : ArchetypeRegistry × Option (Nat × UInt16 × Nat)}
    (hr : blockPair env r.archetypes src nd = .ok f) :
    wp A (fr.findOrCreatePair A env src nd) h (fun y h' => y.2 = f.2 ∧ RegRep h' y.1 ⟨r.entities, f.1⟩ ∧
      Step h (FpL fr.archetypes) h' (FpL y.1.archetypes)) := by
  unfold blockPair at hr
  unfold FReg.findOrCreatePair
  cases nd with
  | none => cases hr; exact wp_pure ⟨rfl, hR, Step.refl hw _⟩
  | some nd =>
    simp only at hr ⊢
    obtain ⟨f1, h1, hr1⟩ := ebind_inv hr
    refine wp_bind (wp_mono (findOrCreate_spec hAl hw hR h1) ?_)
    rintro y h2 ⟨h3, h4, h5⟩
    rw [h3]
    cases hf : f1.2 with
    | none => simp only [hf] at hr1 ⊢; cases hr1; exact wp_pure ⟨rfl, h4, h5⟩
    | some dst =>
      simp only [hf] at hr1 ⊢
      rw [disjointMut_len h4.archs.len]
      simp only []
      cases hd : disjointMut f1.1.archetypes src.toNat dst.toNat with
      | none => simp only [hd] at hr1 ⊢; cases hr1; exact wp_pure ⟨rfl, h4, h5⟩
      | some p => simp only [hd] at hr1 ⊢; cases hr1; exact wp_pure ⟨rfl, h4, h5⟩

theorem adding_pair {ar : ArchetypeRegistry} {src : UInt16} {cd : ComponentDescriptor}
    {f : ArchetypeRegistry × Option (Nat × UInt16 × Nat)} (hr : ar.findOrCreateAdding env src cd = .ok f) :
    (src.toNat > ar.archetypes.length ∧ f = (ar, none)) ∨ (¬ src.toNat > ar.archetypes.length ∧ ∃ a nd,
      ar.archetypes[src.toNat]? = some a ∧ a.descriptor.addComponent env cd = .ok nd ∧ blockPair env ar src nd = .ok f) := by
  unfold ArchetypeRegistry.findOrCreateAdding at hr
  by_cases hl : src.toNat > ar.archetypes.length
  · rw [if_pos hl] at hr; cases hr; exact .inl ⟨hl, rfl⟩
  · rw [if_neg hl] at hr
    obtain ⟨a, h1, hr1⟩ := ebind_inv hr
    obtain ⟨nd, h2, hr2⟩ := ebind_inv hr1
    refine .inr ⟨hl, a, nd, index_inv h1, h2, ?_⟩
    cases nd with
    | none => exact hr2
    | some nd => exact hr2

theorem removing_pair {ar : ArchetypeRegistry} {src : UInt16} {cd : ComponentDescriptor}
    {f : ArchetypeRegistry × Option (Nat × UInt16 × Nat)} (hr : ar.findOrCreateRemoving env src cd = .ok f) :
    (src.toNat > ar.archetypes.length ∧ f = (ar, none)) ∨ (¬ src.toNat > ar.archetypes.length ∧ ∃ a nd,
      ar.archetypes[src.toNat]? = some a ∧ a.descriptor.removeComponent env cd.id = .ok nd ∧
      blockPair env ar src nd = .ok f) := by
  unfold ArchetypeRegistry.findOrCreateRemoving at hr
  by_cases hl : src.toNat > ar.archetypes.length
  · rw [if_pos hl] at hr; cases hr; exact .inl ⟨hl, rfl⟩
  · rw [if_neg hl] at hr
    obtain ⟨a, h1, hr1⟩ := ebind_inv hr
    obtain ⟨nd, h2, hr2⟩ := ebind_inv hr1
    refine .inr ⟨hl, a, nd, index_inv h1, h2, ?_⟩
    cases nd with
    | none => exact hr2
    | some nd => exact hr2

theorem adding_spec (hAl : A.Ok) (hw : h.WF) {fr : FReg} {r : Registry} (hR : RegRep h fr r) {src : UInt16}
    {cd : ComponentDescriptor} {f : ArchetypeRegistry × Option (Nat × UInt16 × Nat)}
    (hr : r.archetypes.findOrCreateAdding env src cd = .ok f) :
    wp A (fr.findOrCreateAdding A env src cd) h (fun y h' => y.2 = f.2 ∧ RegRep h' y.1 ⟨r.entities, f.1⟩ ∧
      Step h (FpL fr.archetypes) h' (FpL y.1.archetypes)) := by
  unfold FReg.findOrCreateAdding
  rw [hR.archs.len]
  rcases adding_pair hr with ⟨hl, rfl⟩ | ⟨hl, a, nd, h1, h2, h3⟩
  · rw [if_pos hl]; exact wp_pure ⟨rfl, hR, Step.refl hw _⟩
  · rw [if_neg hl]
    obtain ⟨fa, hfa, hA⟩ := hR.archs.get h1
    exact wp_then (index_ok' hfa) (wp_then (by rw [hA.desc]; exact h2) (pair_spec hAl hw hR h3))

theorem removing_spec (hAl : A.Ok) (hw : h.WF) {fr : FReg} {r : Registry} (hR : RegRep h fr r) {src : UInt16}
    {cd : ComponentDescriptor} {f : ArchetypeRegistry × Option (Nat × UInt16 × Nat)}
    (hr : r.archetypes.findOrCreateRemoving env src cd = .ok f) :
    wp A (fr.findOrCreateRemoving A env src cd) h (fun y h' => y.2 = f.2 ∧ RegRep h' y.1 ⟨r.entities, f.1⟩ ∧
      Step h (FpL fr.archetypes) h' (FpL y.1.archetypes)) := by
  unfold FReg.findOrCreateRemoving
  rw [hR.archs.len]
  rcases removing_pair hr with ⟨hl, rfl⟩ | ⟨hl, a, nd, h1, h2, h3⟩
  · rw [if_pos hl]; exact wp_pure ⟨rfl, hR, Step.refl hw _⟩
  · rw [if_neg hl]
    obtain ⟨fa, hfa, hA⟩ := hR.archs.get h1
    exact wp_then (index_ok' hfa) (wp_then (by rw [hA.desc]; exact h2) (pair_spec hAl hw hR h3))

theorem adding_side {ar : ArchetypeRegistry} {src : UInt16} {cd : ComponentDescriptor}
    {f : ArchetypeRegistry × Option (Nat × UInt16 × Nat)}
    (hall : ∀ {i : Nat} {a : Archetype}, ar.archetypes[i]? = some a → Side a)
    (hr : ar.findOrCreateAdding env src cd = .ok f) : (∀ {i : Nat} {a : Archetype}, f.1.archetypes[i]? = some a → Side a) ∧
      ∀ {i j : Nat} {d : UInt16}, f.2 = some (i, d, j) → i ≠ j := by
  rcases adding_pair hr with ⟨hl, rfl⟩ | ⟨hl, a, nd, h1, h2, h3⟩
  · exact ⟨hall, fun h => by cases h⟩
  · exact pair_side hall h3

theorem removing_side {ar : ArchetypeRegistry} {src : UInt16} {cd : ComponentDescriptor}
    {f : ArchetypeRegistry × Option (Nat × UInt16 × Nat)}
    (hall : ∀ {i : Nat} {a : Archetype}, ar.archetypes[i]? = some a → Side a)
    (hr : ar.findOrCreateRemoving env src cd = .ok f) : (∀ {i : Nat} {a : Archetype}, f.1.archetypes[i]? = some a → Side a) ∧
      ∀ {i j : Nat} {d : UInt16}, f.2 = some (i, d, j) → i ≠ j := by
  rcases removing_pair hr with ⟨hl, rfl⟩ | ⟨hl, a, nd, h1, h2, h3⟩
  · exact ⟨hall, fun h => by cases h⟩
  · exact pair_side hall h3

/-! ## The calls that change the registry -/

section
variable {fr : FReg} {r : Registry}

theorem create_spec (hAl : A.Ok) (hw : h.WF) (hR : RegRep h fr r) (hready : Ready env r) {g : Group} {vals : List Val}
    {x : Registry × Res Entity (List Val)} (hr : r.createEntity env g vals = .ok x) :
    wp A (fr.createEntity A env g vals) h (fun y h' => y.2 = x.2 ∧ RegRep h' y.1 x.1 ∧
      Step h (FpL fr.archetypes) h' (FpL y.1.archetypes)) := by
  unfold Registry.createEntity at hr
  unfold FReg.createEntity
  by_cases hv : ¬ (g.descriptor env).isValid
  · rw [if_pos hv] at hr ⊢; cases hr; exact wp_pure ⟨rfl, hR, Step.refl hw _⟩
  rw [if_neg hv] at hr ⊢
  obtain ⟨f, h1, hr1⟩ := ebind_inv hr
  refine wp_bind (wp_mono (findOrCreate_spec hAl hw hR h1) ?_)
  rintro y h2 ⟨h3, h4, h5⟩
  rw [h3]
  cases hf : f.2 with
  | none => simp only [hf] at hr1 ⊢; cases hr1; exact wp_pure ⟨rfl, h4, h5⟩
  | some ai =>
    simp only [hf] at hr1 ⊢
    obtain ⟨a, h6, hr2⟩ := ebind_inv hr1
    obtain ⟨iia, h7, hr3⟩ := ebind_inv hr2
    obtain ⟨aix, h8, hr4⟩ := ebind_inv hr3
    obtain ⟨c, h9, hr5⟩ := ebind_inv hr4
    obtain ⟨fa, hfa, hA⟩ := h4.archs.get (index_inv h6)
    refine wp_then (index_ok' hfa) (wp_then (by rw [hA.count]; exact h7) (wp_then h8 (wp_then
      (by rw [hR.ents]; exact h9) ?_)))
    cases hc : c.2 with
    | none =>
      simp only [hc] at hr5 ⊢; cases hr5
      exact wp_pure ⟨rfl, ⟨rfl, h4.maps, h4.archs⟩, h5⟩
    | some e =>
      simp only [hc] at hr5 ⊢
      obtain ⟨p, h10, hr6⟩ := ebind_inv hr5
      cases hr6
      have hside := findOrCreate_side (fun hi => (hready.side hi).1) h1 (index_inv h6)
      refine wp_bind (wp_mono (pushEntity_spec hAl h5.wf hA hside h10) ?_)
      rintro q h11 ⟨_, h12, h13⟩
      obtain ⟨h14, h15⟩ := h4.archs.set h5.wf hfa h13 h12
      exact wp_pure ⟨rfl, ⟨rfl, h4.maps, h14⟩, h5.trans h15⟩

theorem destroy_spec (hw : h.WF) (hR : RegRep h fr r) (hready : Ready env r) {e : Entity}
    {x : Registry × Bool × List Val} (hr : r.destroyEntity env e = .ok x) :
    wp A (fr.destroyEntity env e) h (fun y h' => y.2 = x.2 ∧ RegRep h' y.1 x.1 ∧
      Step h (FpL fr.archetypes) h' (FpL y.1.archetypes)) := by
  unfold Registry.destroyEntity at hr
  unfold FReg.destroyEntity
  rw [hR.ents]
  cases hen : r.entities.entityEntry env e with
  | none => simp only [hen] at hr ⊢; cases hr; exact wp_pure ⟨rfl, hR, Step.refl hw _⟩
  | some en =>
    simp only [hen] at hr ⊢
    obtain ⟨a, h1, hr1⟩ := ebind_inv hr
    obtain ⟨s, h2, hr2⟩ := ebind_inv hr1
    obtain ⟨ents, h3, hr3⟩ := ebind_inv hr2
    obtain ⟨_, h4, hr4⟩ := ebind_inv hr3
    cases hr4
    have ha := indexUnchecked_inv h1
    obtain ⟨fa, hfa, hA⟩ := hR.archs.get ha
    obtain ⟨hs1, hs2, hs3⟩ := hready.side ha
    refine wp_then (show fr.getUnchecked _ = .ok fa from indexUnchecked_ok' hfa)
      (wp_bind (wp_mono (swapDrop_spec hw hA hs1 (hready.row hen ha) hs2 h2) ?_))
    rintro q h5 ⟨h6, h7, h8, h9⟩
    rw [h6]
    have hfix : wp A (if s.2.1 then do
          let sw ← q.1.entityAtUnchecked en.indexInArchetype.value.toNat
          (unwrap (r.entities.updateEntry env sw (fun en' => en'.setIndexInArchetype en.indexInArchetype)) : M EntityRegistry)
        else pure r.entities : FM EntityRegistry) h5 (fun z h' => z = ents ∧ h' = h5) := by
      cases hb : s.2.1 with
      | false => simp only [hb] at h3; cases h3; exact wp_pure ⟨rfl, rfl⟩
      | true =>
        simp only [hb, if_true] at h3 ⊢
        obtain ⟨sw, h10, h11⟩ := ebind_inv h3
        refine wp_bind (wp_mono (entityAtUnchecked_spec h9.wf h7 h10) ?_)
        rintro sw' h12 ⟨rfl, rfl⟩
        exact wp_lift h11 ⟨rfl, rfl⟩
    refine wp_bind (wp_mono hfix ?_)
    rintro z h10 ⟨rfl, rfl⟩
    obtain ⟨h11, h12⟩ := hR.archs.set hw hfa (by rw [h8]; exact h9) h7
    exact wp_then h4 (wp_pure ⟨rfl, ⟨rfl, hR.maps, h11⟩, h12⟩)

theorem removeEntity_spec (hw : h.WF) (hR : RegRep h fr r) (hready : Ready env r) {e : Entity} {g : Group}
    {x : Registry × Option (List Val)} (hr : r.removeEntity env g e = .ok x) :
    wp A (fr.removeEntity env g e) h (fun y h' => y.2 = x.2 ∧ RegRep h' y.1 x.1 ∧
      Step h (FpL fr.archetypes) h' (FpL y.1.archetypes)) := by
  unfold Registry.removeEntity at hr
  unfold FReg.removeEntity
  rw [hR.ents]
  cases hen : r.entities.entityEntry env e with
  | none => simp only [hen] at hr ⊢; cases hr; exact wp_pure ⟨rfl, hR, Step.refl hw _⟩
  | some en =>
    simp only [hen] at hr ⊢
    obtain ⟨a, h1, hr1⟩ := ebind_inv hr
    obtain ⟨s, h2, hr2⟩ := ebind_inv hr1
    obtain ⟨ents, h3, hr3⟩ := ebind_inv hr2
    obtain ⟨_, h4, hr4⟩ := ebind_inv hr3
    cases hr4
    have ha := indexUnchecked_inv h1
    obtain ⟨fa, hfa, hA⟩ := hR.archs.get ha
    obtain ⟨hs1, hs2, hs3⟩ := hready.side ha
    refine wp_then (show fr.getUnchecked _ = .ok fa from indexUnchecked_ok' hfa)
      (wp_bind (wp_mono (swapRemove_spec hw hA hs1 (hready.row hen ha) hs2 hs3 h2) ?_))
    rintro q h5 ⟨h6, h7, h8, h9⟩
    rw [h6]
    have hfix : wp A (if s.2.2 then do
          let sw ← q.1.entityAt en.indexInArchetype.value.toNat
          (unwrap (r.entities.updateEntry env sw (fun en' => en'.setIndexInArchetype en.indexInArchetype)) : M EntityRegistry)
        else pure r.entities : FM EntityRegistry) h5 (fun z h' => z = ents ∧ h' = h5) := by
      cases hb : s.2.2 with
      | false => simp only [hb] at h3; cases h3; exact wp_pure ⟨rfl, rfl⟩
      | true =>
        simp only [hb, if_true] at h3 ⊢
        obtain ⟨sw, h10, h11⟩ := ebind_inv h3
        refine wp_bind (wp_mono (entityAt_spec h9.wf h7 h10) ?_)
        rintro sw' h12 ⟨rfl, rfl⟩
        exact wp_lift h11 ⟨rfl, rfl⟩
    refine wp_bind (wp_mono hfix ?_)
    rintro z h10 ⟨rfl, rfl⟩
    obtain ⟨h11, h12⟩ := hR.archs.set hw hfa (by rw [h8]; exact h9) h7
    exact wp_then h4 (wp_pure ⟨rfl, ⟨rfl, hR.maps, h11⟩, h12⟩)

theorem set_swap {α : Type} (l : List α) {i j : Nat} (hij : i ≠ j) (x y z : α) :
    ((l.set i x).set j y).set i z = (l.set i z).set j y := by
  rw [List.set_comm _ _ hij.symm, List.set_set]

theorem add_spec (hAl : A.Ok) (hw : h.WF) (hR : RegRep h fr r) (hready : Ready env r) {e : Entity} {c : CompTy} {v : Val}
    {x : Registry × Res Unit Val} (hr : r.addComponent env e c v = .ok x) :
    wp A (fr.addComponent A env e c v) h (fun y h' => y.2 = x.2 ∧ RegRep h' y.1 x.1 ∧
      Step h (FpL fr.archetypes) h' (FpL y.1.archetypes)) := by
  unfold Registry.addComponent at hr
  unfold FReg.addComponent
  rw [hR.ents]
  cases hen : r.entities.entityEntry env e with
  | none => simp only [hen] at hr ⊢; cases hr; exact wp_pure ⟨rfl, hR, Step.refl hw _⟩
  | some en =>
    simp only [hen] at hr ⊢
    obtain ⟨f, h1, hr1⟩ := ebind_inv hr
    obtain ⟨hall, hne⟩ := adding_side (fun hi => (hready.side hi).1) h1
    refine wp_bind (wp_mono (adding_spec hAl hw hR h1) ?_)
    rintro y h2 ⟨h3, h4, h5⟩
    rw [h3]
    cases hf : f.2 with
    | none => simp only [hf] at hr1 ⊢; cases hr1; exact wp_pure ⟨rfl, h4, h5⟩
    | some p =>
      obtain ⟨si, dai, di⟩ := p
      have hij := hne hf
      simp only [hf] at hr1 ⊢
      obtain ⟨src, i1, hr⟩ := ebind_inv hr1
      obtain ⟨dst, i2, hr2⟩ := ebind_inv hr
      obtain ⟨s, i3, hr3⟩ := ebind_inv hr2
      obtain ⟨ents, i4, hr4⟩ := ebind_inv hr3
      obtain ⟨q, i5, hr5⟩ := ebind_inv hr4
      obtain ⟨sIdx, i6, hr6⟩ := ebind_inv hr5
      obtain ⟨dIdx, i7, hr7⟩ := ebind_inv hr6
      obtain ⟨d2, i8, hr8⟩ := ebind_inv hr7
      obtain ⟨d3, i9, hr9⟩ := ebind_inv hr8
      obtain ⟨hnd, i10, hr10⟩ := ebind_inv hr9
      obtain ⟨d4, i11, hr11⟩ := ebind_inv hr10
      obtain ⟨src2, i12, hr12⟩ := ebind_inv hr11
      obtain ⟨niia, i13, hr13⟩ := ebind_inv hr12
      obtain ⟨ents2, i14, hr14⟩ := ebind_inv hr13
      cases hr14
      obtain ⟨fs, hfs, hS⟩ := h4.archs.get (index_inv i1)
      obtain ⟨fd, hfd, hD⟩ := h4.archs.get (index_inv i2)
      refine wp_then (index_ok' hfs) (wp_then (index_ok' hfd) (wp_bind (wp_mono (swapToLast_spec h5.wf hS i3) ?_)))
      rintro b k1 ⟨rfl, hS1, hst1⟩
      obtain ⟨R1, S1⟩ := h4.archs.inPlace h5.wf hfs hst1 hS1
      have hfix : wp A (if s.2 then do
            let sw ← fs.entityAt en.indexInArchetype.value.toNat
            (unwrap (r.entities.updateEntry env sw (fun en' => en'.setIndexInArchetype en.indexInArchetype)) : M EntityRegistry)
          else pure r.entities : FM EntityRegistry) k1 (fun z h' => z = ents ∧ h' = k1) := by
        cases hb : s.2 with
        | false => simp only [hb] at i4; cases i4; exact wp_pure ⟨rfl, rfl⟩
        | true =>
          simp only [hb, if_true] at i4 ⊢
          obtain ⟨sw, h10, h11⟩ := ebind_inv i4
          refine wp_bind (wp_mono (entityAt_spec S1.wf hS1 h10) ?_)
          rintro sw' h12 ⟨rfl, rfl⟩
          exact wp_lift h11 ⟨rfl, rfl⟩
      refine wp_bind (wp_mono hfix ?_)
      rintro _ k2 ⟨rfl, rfl⟩
      -- the new row of the destination
      have hD1 : ARep k2 fd dst := R1.arch hfd (by rw [List.getElem?_set_ne hij]; exact index_inv i2)
      refine wp_bind (wp_mono (pushUninitialized_spec hAl S1.wf hD1 (hall (index_inv i2)) i5) ?_)
      rintro w k3 ⟨_, hD2, hst2⟩
      obtain ⟨R2, S2⟩ := R1.set S1.wf hfd hst2 hD2
      have hfs2 : (y.1.archetypes.set di w.1)[si]? = some fs := by
        rw [List.getElem?_set_ne hij.symm]; exact hfs
      have hfd2 : (y.1.archetypes.set di w.1)[di]? = some w.1 := List.getElem?_set_self (lt_of_get hfd)
      have hsrc2 : ((f.1.archetypes.set si s.1).set di q.1)[si]? = some s.1 := by
        rw [List.getElem?_set_ne hij.symm, List.getElem?_set_self (lt_of_get (index_inv i1))]
      have hS2 : ARep k3 fs s.1 := R2.arch hfs2 hsrc2
      refine wp_then (by rw [hS2.count]; exact i6) (wp_then (by rw [hD2.count]; exact i7)
        (wp_bind (wp_mono (copyCommon_spec S2.wf hS2 hD2 (fun id => R2.dis hij hfs2 hfd2 id) i8) ?_)))
      rintro _ k4 ⟨hS3, hD3, hst3⟩
      obtain ⟨R3, S3⟩ := R2.inPlace S2.wf hfd2 hst3 hD3
      rw [List.set_set] at R3
      refine wp_bind (wp_mono (writeSingle_spec S3.wf hD3 i9) ?_)
      rintro _ k5 ⟨hD4, hst4⟩
      obtain ⟨R4, S4⟩ := R3.inPlace S3.wf hfd2 hst4 hD4
      rw [List.set_set] at R4
      have hS4 : ARep k5 fs s.1 := R4.arch hfs2 (by
        rw [List.getElem?_set_ne hij.symm, List.getElem?_set_self (lt_of_get (index_inv i1))])
      refine wp_bind (wp_mono (entityAt_spec S4.wf hS4 i10) ?_)
      rintro hn k6 ⟨rfl, rfl⟩
      refine wp_bind (wp_mono (setEntityAt_spec S4.wf hD4 i11) ?_)
      rintro _ k7 ⟨hD5, hst5⟩
      obtain ⟨R5, S5⟩ := R4.inPlace S4.wf hfd2 hst5 hD5
      rw [List.set_set] at R5
      have hS5 : ARep k7 fs s.1 := R5.arch hfs2 (by
        rw [List.getElem?_set_ne hij.symm, List.getElem?_set_self (lt_of_get (index_inv i1))])
      refine wp_bind (wp_mono (decrementLen_spec hS5 i12) ?_)
      rintro fs2 k8 ⟨⟨hS6, hall6⟩, rfl⟩
      obtain ⟨R6, S6⟩ := R5.setCount S5.wf hfs2 hall6 hS6
      rw [set_swap _ hij] at R6
      rw [List.set_comm _ _ hij.symm] at R6 S6
      refine wp_then i13 (wp_then i14 (wp_pure ⟨rfl, ⟨rfl, h4.maps, R6⟩, ?_⟩))
      exact (((((h5.trans S1).trans S2).trans S3).trans S4).trans S5).trans S6

theorem remove_spec (hAl : A.Ok) (hw : h.WF) (hR : RegRep h fr r) (hready : Ready env r) {e : Entity} {c : CompTy}
    {x : Registry × Res Val Unit} (hr : r.removeComponent env e c = .ok x) :
    wp A (fr.removeComponent A env e c) h (fun y h' => y.2 = x.2 ∧ RegRep h' y.1 x.1 ∧
      Step h (FpL fr.archetypes) h' (FpL y.1.archetypes)) := by
  unfold Registry.removeComponent at hr
  unfold FReg.removeComponent
  rw [hR.ents]
  cases hen : r.entities.entityEntry env e with
  | none => simp only [hen] at hr ⊢; cases hr; exact wp_pure ⟨rfl, hR, Step.refl hw _⟩
  | some en =>
    simp only [hen] at hr ⊢
    obtain ⟨f, h1, hr1⟩ := ebind_inv hr
    obtain ⟨hall, hne⟩ := removing_side (fun hi => (hready.side hi).1) h1
    refine wp_bind (wp_mono (removing_spec hAl hw hR h1) ?_)
    rintro y h2 ⟨h3, h4, h5⟩
    rw [h3]
    cases hf : f.2 with
    | none => simp only [hf] at hr1 ⊢; cases hr1; exact wp_pure ⟨rfl, h4, h5⟩
    | some p =>
      obtain ⟨si, dai, di⟩ := p
      have hij := hne hf
      simp only [hf] at hr1 ⊢
      obtain ⟨src, i1, hr⟩ := ebind_inv hr1
      obtain ⟨dst, i2, hr2⟩ := ebind_inv hr
      obtain ⟨s, i3, hr3⟩ := ebind_inv hr2
      obtain ⟨ents, i4, hr4⟩ := ebind_inv hr3
      obtain ⟨q, i5, hr5⟩ := ebind_inv hr4
      obtain ⟨sIdx, i6, hr6⟩ := ebind_inv hr5
      obtain ⟨dIdx, i7, hr7⟩ := ebind_inv hr6
      obtain ⟨d2, i8, hr8⟩ := ebind_inv hr7
      obtain ⟨v, i9, hr9⟩ := ebind_inv hr8
      obtain ⟨hnd, i10, hr10⟩ := ebind_inv hr9
      obtain ⟨d4, i11, hr11⟩ := ebind_inv hr10
      obtain ⟨src2, i12, hr12⟩ := ebind_inv hr11
      obtain ⟨niia, i13, hr13⟩ := ebind_inv hr12
      obtain ⟨ents2, i14, hr14⟩ := ebind_inv hr13
      cases hr14
      obtain ⟨fs, hfs, hS⟩ := h4.archs.get (index_inv i1)
      obtain ⟨fd, hfd, hD⟩ := h4.archs.get (index_inv i2)
      refine wp_then (index_ok' hfs) (wp_then (index_ok' hfd) (wp_bind (wp_mono (swapToLast_spec h5.wf hS i3) ?_)))
      rintro b k1 ⟨rfl, hS1, hst1⟩
      obtain ⟨R1, S1⟩ := h4.archs.inPlace h5.wf hfs hst1 hS1
      have hfix : wp A (if s.2 then do
            let sw ← fs.entityAt en.indexInArchetype.value.toNat
            (unwrap (r.entities.updateEntry env sw (fun en' => en'.setIndexInArchetype en.indexInArchetype)) : M EntityRegistry)
          else pure r.entities : FM EntityRegistry) k1 (fun z h' => z = ents ∧ h' = k1) := by
        cases hb : s.2 with
        | false => simp only [hb] at i4; cases i4; exact wp_pure ⟨rfl, rfl⟩
        | true =>
          simp only [hb, if_true] at i4 ⊢
          obtain ⟨sw, h10, h11⟩ := ebind_inv i4
          refine wp_bind (wp_mono (entityAt_spec S1.wf hS1 h10) ?_)
          rintro sw' h12 ⟨rfl, rfl⟩
          exact wp_lift h11 ⟨rfl, rfl⟩
      refine wp_bind (wp_mono hfix ?_)
      rintro _ k2 ⟨rfl, rfl⟩
      have hD1 : ARep k2 fd dst := R1.arch hfd (by rw [List.getElem?_set_ne hij]; exact index_inv i2)
      refine wp_bind (wp_mono (pushUninitialized_spec hAl S1.wf hD1 (hall (index_inv i2)) i5) ?_)
      rintro w k3 ⟨_, hD2, hst2⟩
      obtain ⟨R2, S2⟩ := R1.set S1.wf hfd hst2 hD2
      have hfs2 : (y.1.archetypes.set di w.1)[si]? = some fs := by
        rw [List.getElem?_set_ne hij.symm]; exact hfs
      have hfd2 : (y.1.archetypes.set di w.1)[di]? = some w.1 := List.getElem?_set_self (lt_of_get hfd)
      have hsrc2 : ((f.1.archetypes.set si s.1).set di q.1)[si]? = some s.1 := by
        rw [List.getElem?_set_ne hij.symm, List.getElem?_set_self (lt_of_get (index_inv i1))]
      have hS2 : ARep k3 fs s.1 := R2.arch hfs2 hsrc2
      refine wp_then (by rw [hS2.count]; exact i6) (wp_then (by rw [hD2.count]; exact i7)
        (wp_bind (wp_mono (copyCommon_spec S2.wf hS2 hD2 (fun id => R2.dis hij hfs2 hfd2 id) i8) ?_)))
      rintro _ k4 ⟨hS3, hD3, hst3⟩
      obtain ⟨R3, S3⟩ := R2.inPlace S2.wf hfd2 hst3 hD3
      rw [List.set_set] at R3
      refine wp_bind (wp_mono (readComponentUnchecked_spec S3.wf hS3 i9) ?_)
      rintro _ k5 ⟨rfl, rfl⟩
      refine wp_bind (wp_mono (entityAt_spec S3.wf hS3 i10) ?_)
      rintro hn k6 ⟨rfl, rfl⟩
      refine wp_bind (wp_mono (setEntityAt_spec S3.wf hD3 i11) ?_)
      rintro _ k7 ⟨hD5, hst5⟩
      obtain ⟨R5, S5⟩ := R3.inPlace S3.wf hfd2 hst5 hD5
      rw [List.set_set] at R5
      have hS5 : ARep k7 fs s.1 := R5.arch hfs2 (by
        rw [List.getElem?_set_ne hij.symm, List.getElem?_set_self (lt_of_get (index_inv i1))])
      refine wp_bind (wp_mono (decrementLen_spec hS5 i12) ?_)
      rintro fs2 k8 ⟨⟨hS6, hall6⟩, rfl⟩
      obtain ⟨R6, S6⟩ := R5.setCount S5.wf hfs2 hall6 hS6
      rw [set_swap _ hij] at R6
      rw [List.set_comm _ _ hij.symm] at R6 S6
      refine wp_then i13 (wp_then i14 (wp_pure ⟨rfl, ⟨rfl, h4.maps, R6⟩, ?_⟩))
      exact ((((h5.trans S1).trans S2).trans S3).trans S5).trans S6

end

end Shard.Flat
