import Verif.Proofs.RegistryMove
/-!
# The registry: reading, writing through references, dropping
-/

namespace Shard

variable {env : Env} {W : World env} {r : Registry} {cs : List Content}

/-! ## Reads -/

theorem RInv.hasComponent_eq (h : RInv W r cs) {c : CompTy} (hW : W.Has c) (e : Entity) :
    r.hasComponent env c e = .ok (((r.look env cs e).bind (fun f => f c)).isSome) := by
  unfold Registry.hasComponent
  cases hx : r.entities.entityEntry env e with
  | none => rw [h.look_none.mpr hx]; rfl
  | some en =>
    obtain ⟨a, ct, ha, hc, hr, hk, hl, hlook⟩ := h.entry hx
    have hkl := (List.getElem?_eq_some_iff.mp hk).1
    simp only []
    unfold ArchetypeRegistry.getUnchecked
    rw [indexUnchecked_of_getElem? ha, hlook]
    simp only [ok_bind, pure_eq_ok, Option.bind_some]
    congr 1
    rw [Bool.eq_iff_iff, hr.desc.hasComponent_iff hW]
    constructor
    · intro hm; obtain ⟨v, hv, _⟩ := hr.get_some hm hkl; rw [hv]; rfl
    · intro hs
      obtain ⟨v, hv⟩ := Option.isSome_iff_exists.mp hs
      exact (hr.mem_of_get hv).1

theorem RInv.getComponent_eq (h : RInv W r cs) {c : CompTy} (hW : W.Has c) (e : Entity) :
    r.getComponent env c e = .ok ((r.look env cs e).bind (fun f => f c)) := by
  unfold Registry.getComponent
  cases hx : r.entities.entityEntry env e with
  | none => rw [h.look_none.mpr hx]; rfl
  | some en =>
    obtain ⟨a, ct, ha, hc, hr, hk, hl, hlook⟩ := h.entry hx
    have hkl := (List.getElem?_eq_some_iff.mp hk).1
    simp only []
    unfold ArchetypeRegistry.getUnchecked
    rw [indexUnchecked_of_getElem? ha, hlook]
    simp only [ok_bind, pure_eq_ok, Option.bind_some]
    by_cases hm : c ∈ ct.cts
    · rw [if_neg (by rw [(hr.desc.hasComponent_iff hW).mpr hm]; simp)]
      obtain ⟨v, hv, _⟩ := hr.get_some hm hkl
      rw [hr.getComponentUnchecked_ok hv, hv]
      rfl
    · rw [if_pos (fun hx => hm ((hr.desc.hasComponent_iff hW).mp hx))]
      cases hg : ct.get c en.indexInArchetype.value.toNat with
      | none => rfl
      | some w => exact absurd (hr.mem_of_get hg).1 hm

/-- Whether all types of `g` are among the components `f`. -/
def hasAll (f : CompTy → Option Val) (g : Group) : Bool := g.all (fun c => (f c).isSome)

theorem Rep.containsSubset_iff {a : Archetype} {ct : Content} (hr : Rep W a ct) {g : Group} (hg : ∀ c ∈ g, W.Has c)
    (hv : (g.descriptor env).isValid = true) :
    a.descriptor.containsSubset (g.descriptor env).archetype = true ↔ ∀ c ∈ g, c ∈ ct.cts := by
  have gs := Group.spec hv
  rw [hr.desc.wf.containsSubset_iff gs.desc]
  constructor
  · intro h c hc
    exact (hr.desc.id_mem (hg c hc)).mp (h c.id ((gs.mem_ids c.id).mpr ⟨c, hc, rfl⟩))
  · intro h id hid
    obtain ⟨c, hc, rfl⟩ := (gs.mem_ids id).mp hid
    exact (hr.desc.id_mem (hg c hc)).mpr (h c hc)

theorem Rep.hasAll_iff {a : Archetype} {ct : Content} (hr : Rep W a ct) {g : Group} {k : Nat} (hk : k < ct.ents.length) :
    hasAll (fun c => ct.get c k) g = true ↔ ∀ c ∈ g, c ∈ ct.cts := by
  unfold hasAll
  rw [List.all_eq_true]
  constructor
  · intro h c hc
    obtain ⟨v, hv⟩ := Option.isSome_iff_exists.mp (h c hc)
    exact (hr.mem_of_get hv).1
  · intro h c hc
    obtain ⟨v, hv, _⟩ := hr.get_some (h c hc) hk
    simp [hv]

theorem RInv.hasComponents_eq (h : RInv W r cs) {g : Group} (hg : ∀ c ∈ g, W.Has c)
    (hv : (g.descriptor env).isValid = true) (e : Entity) :
    r.hasComponents env g e = .ok ((r.look env cs e).any (fun f => hasAll f g)) := by
  unfold Registry.hasComponents
  cases hx : r.entities.entityEntry env e with
  | none => rw [h.look_none.mpr hx]; rfl
  | some en =>
    obtain ⟨a, ct, ha, hc, hr, hk, hl, hlook⟩ := h.entry hx
    have hkl := (List.getElem?_eq_some_iff.mp hk).1
    simp only []
    unfold ArchetypeRegistry.getUnchecked
    rw [indexUnchecked_of_getElem? ha, hlook]
    simp only [ok_bind, pure_eq_ok, Option.any_some]
    congr 1
    rw [Bool.eq_iff_iff, hr.containsSubset_iff hg hv, hr.hasAll_iff hkl]

theorem RInv.getComponents_eq (h : RInv W r cs) {g : Group} (hg : ∀ c ∈ g, W.Has c)
    (hv : (g.descriptor env).isValid = true) (e : Entity) :
    r.getComponents env g e = .ok ((r.look env cs e).bind (fun f =>
      if hasAll f g then some (g.map (fun c => (f c).getD default)) else none)) := by
  unfold Registry.getComponents
  cases hx : r.entities.entityEntry env e with
  | none => rw [h.look_none.mpr hx]; rfl
  | some en =>
    obtain ⟨a, ct, ha, hc, hr, hk, hl, hlook⟩ := h.entry hx
    have hkl := (List.getElem?_eq_some_iff.mp hk).1
    simp only []
    unfold ArchetypeRegistry.getUnchecked
    rw [indexUnchecked_of_getElem? ha, hlook]
    simp only [ok_bind, pure_eq_ok, Option.bind_some]
    by_cases hs : ∀ c ∈ g, c ∈ ct.cts
    · rw [if_neg (by rw [(hr.containsSubset_iff hg hv).mpr hs]; simp), if_pos ((hr.hasAll_iff hkl).mpr hs),
        hr.getFuzzyComponents_ok (Group.spec hv) hs hkl]
      rfl
    · rw [if_pos (fun hx => hs ((hr.containsSubset_iff hg hv).mp hx)), if_neg (fun hx => hs ((hr.hasAll_iff hkl).mp hx))]

/-! ## References -/

/-- `p` is a pointer, into archetype `ai`, to the `c` of the entity `e`. -/
def RefTo (env : Env) (r : Registry) (cs : List Content) (e : Entity) (c : CompTy) (ai : Nat) (p : Ref) : Prop :=
  ∃ (k i : Nat) (ct : Content), r.entities.loc env e = some (ai, k) ∧ cs[ai]? = some ct ∧ ct.cts[i]? = some c ∧
    p = ⟨i, c.size * k⟩

/-- References to different components, or to components of different entities, do not overlap. -/
theorem RefTo.disjoint (h : RInv W r cs) {e e' : Entity} {c c' : CompTy} {ai ai' : Nat} {p p' : Ref}
    (h1 : RefTo env r cs e c ai p) (h2 : RefTo env r cs e' c' ai' p') (hne : e ≠ e' ∨ c ≠ c') :
    ai ≠ ai' ∨ p.col ≠ p'.col ∨ p.off + c.size ≤ p'.off ∨ p'.off + c'.size ≤ p.off := by
  obtain ⟨k, i, ct, q1, q2, q3, rfl⟩ := h1
  obtain ⟨k', i', ct', q1', q2', q3', rfl⟩ := h2
  by_cases hai : ai = ai'
  · subst hai
    rw [q2] at q2'; cases q2'
    right
    by_cases hi : i = i'
    · subst hi
      rw [q3] at q3'; cases q3'
      right
      have hee : e ≠ e' := by
        rcases hne with h | h
        · exact h
        · exact absurd rfl h
      have hkk : k ≠ k' := by
        rintro rfl
        exact hee (h.placed.inj q1 q1')
      show c.size * k + c.size ≤ c.size * k' ∨ c.size * k' + c.size ≤ c.size * k
      rcases Nat.lt_or_gt_of_ne hkk with hlt | hlt
      · left; rw [← Nat.mul_succ]; exact Nat.mul_le_mul_left _ hlt
      · right; rw [← Nat.mul_succ]; exact Nat.mul_le_mul_left _ hlt
    · left; exact hi
  · left; exact hai

/-- The two registries differ at most in component values. -/
structure SameShape (r : Registry) (cs : List Content) (r' : Registry) (cs' : List Content) : Prop where
  ents : r'.entities = r.entities
  maps : r'.archetypes.sortedMappings = r.archetypes.sortedMappings
  descs : ∀ i : Nat, (r'.archetypes.archetypes[i]?).map (fun a => a.descriptor) =
    (r.archetypes.archetypes[i]?).map (fun a => a.descriptor)
  conts : ∀ i : Nat, (cs'[i]?).map (fun ct => (ct.cts, ct.ents)) = (cs[i]?).map (fun ct => (ct.cts, ct.ents))

/-- The `c` of `e`, which was `old`, is overwritten with `v` in its row. -/
def RowStored (env : Env) (r : Registry) (cs : List Content) (e : Entity) (c : CompTy) (v old : Val)
    (r' : Registry) (cs' : List Content) : Prop :=
  ∃ ai k ct i, r.entities.loc env e = some (ai, k) ∧ cs[ai]? = some ct ∧ ct.cts[i]? = some c ∧ ct.get c k = some old ∧
    cs' = cs.set ai (ct.setVal i k v) ∧ SameDescs r.archetypes r'.archetypes

/-- A store through a reference. -/
theorem RInv.store (h : RInv W r cs) {e : Entity} {c : CompTy} {ai : Nat} {p : Ref} (hp : RefTo env r cs e c ai p) {v : Val}
    (hv : v.HasTy c) :
    ∃ r' cs' f old a, r.storeRef ai c p v = .ok r' ∧ RInv W r' cs' ∧ r.look env cs e = some f ∧ f c = some old ∧
      index r.archetypes.archetypes ai = .ok a ∧ a.readRef c p = .ok old ∧
      (∀ x, r'.look env cs' x = if x = e then some (fun c' => if c' = c then some v else f c') else r.look env cs x) ∧
      (stored cs' ++ [old]).Perm (stored cs ++ [v]) ∧ r'.entities = r.entities ∧
      (∀ e' c' ai' p', RefTo env r cs e' c' ai' p' → RefTo env r' cs' e' c' ai' p') ∧
      ArchStep r.archetypes r'.archetypes ∧ SameShape r cs r' cs' ∧ RowStored env r cs e c v old r' cs' := by
  obtain ⟨k, i, ct, h1, h2, h3, rfl⟩ := hp
  obtain ⟨ct', q1, q2⟩ := (h.placed _ _ _).mp h1
  rw [h2] at q1; cases q1
  have hk := (List.getElem?_eq_some_iff.mp q2).1
  obtain ⟨a, ha, hr⟩ := h.arch.arch h2
  obtain ⟨old, hold, _⟩ := hr.get_some (List.mem_of_getElem? h3) hk
  obtain ⟨a', w1, w2, w3, w4⟩ := hr.writeRef_spec h3 hk hv
  refine ⟨⟨r.entities, r.archetypes.setArchetype ai a'⟩, cs.set ai (ct.setVal i k v), fun c => ct.get c k, old, a, ?_,
    ⟨h.arch.set ha w2 w4, h.ents, h.placed.setVal h2 rfl⟩, look_of h1 h2, hold, index_of_getElem? ha, hr.readRef_ok h3 hold,
    look_setVal h.placed h1 hr h2 h3, stored_setVal hr h2 h3 hold, rfl, ?_, ArchStep.set ha w2 (Or.inl w3),
    ⟨rfl, rfl, fun j => ?_, fun j => ?_⟩, ai, k, ct, i, h1, h2, h3, hold, rfl, SameDescs.set rfl ha w2⟩
  · unfold Registry.storeRef
    rw [index_of_getElem? ha]
    simp only [ok_bind]
    rw [w1]
    rfl
  · rintro e' c' ai' p' ⟨k', i', ct', s1, s2, s3, rfl⟩
    by_cases hai : ai = ai'
    · subst hai
      rw [h2] at s2; cases s2
      exact ⟨k', i', _, s1, List.getElem?_set_self (List.getElem?_eq_some_iff.mp h2).1, s3, rfl⟩
    · exact ⟨k', i', ct', s1, by rw [List.getElem?_set_ne hai]; exact s2, s3, rfl⟩
  · show ((r.archetypes.archetypes.set ai a')[j]?).map _ = _
    by_cases hij : ai = j
    · subst hij
      rw [List.getElem?_set_self (List.getElem?_eq_some_iff.mp ha).1, ha]
      exact congrArg some w2
    · rw [List.getElem?_set_ne hij]
  · by_cases hij : ai = j
    · subst hij
      rw [List.getElem?_set_self (List.getElem?_eq_some_iff.mp h2).1, h2]
      rfl
    · rw [List.getElem?_set_ne hij]

theorem RInv.getComponentMut_eq (h : RInv W r cs) {c : CompTy} (hW : W.Has c) (e : Entity) :
    ((∀ f, r.look env cs e = some f → f c = none) ∧ r.getComponentMut env c e = .ok none) ∨
    ∃ f v ai p, r.look env cs e = some f ∧ f c = some v ∧ r.getComponentMut env c e = .ok (some (ai, p)) ∧
      RefTo env r cs e c ai p := by
  unfold Registry.getComponentMut
  cases hx : r.entities.entityEntry env e with
  | none =>
    left
    refine ⟨?_, rfl⟩
    rw [h.look_none.mpr hx]; intro f hf; cases hf
  | some en =>
    obtain ⟨a, ct, ha, hc, hr, hk, hl, hlook⟩ := h.entry hx
    have hkl := (List.getElem?_eq_some_iff.mp hk).1
    simp only []
    unfold ArchetypeRegistry.getUnchecked
    rw [indexUnchecked_of_getElem? ha, hlook]
    simp only [ok_bind, pure_eq_ok]
    by_cases hm : c ∈ ct.cts
    · right
      rw [if_neg (by rw [(hr.desc.hasComponent_iff hW).mpr hm]; simp)]
      obtain ⟨v, hv, _⟩ := hr.get_some hm hkl
      rw [hr.getComponentUncheckedMut_ok (idxOf_getElem? hm) hkl]
      exact ⟨_, v, _, _, rfl, hv, rfl, _, _, ct, hl, hc, idxOf_getElem? hm, rfl⟩
    · left
      rw [if_pos (fun hx => hm ((hr.desc.hasComponent_iff hW).mp hx))]
      refine ⟨?_, rfl⟩
      intro f hf
      cases hf
      cases hg : ct.get c en.indexInArchetype.value.toNat with
      | none => exact hg
      | some w => exact absurd (hr.mem_of_get hg).1 hm

theorem RInv.getComponentsMut_eq (h : RInv W r cs) {g : Group} (hg : ∀ c ∈ g, W.Has c)
    (hv : (g.descriptor env).isValid = true) (e : Entity) :
    ((∀ f, r.look env cs e = some f → hasAll f g = false) ∧ r.getComponentsMut env g e = .ok none) ∨
    ∃ (f : CompTy → Option Val) (ai : Nat) (ref : CompTy → Ref), r.look env cs e = some f ∧ hasAll f g = true ∧
      r.getComponentsMut env g e = .ok (some (ai, g.map (fun c => (c, some (ref c))))) ∧
      ∀ c ∈ g, RefTo env r cs e c ai (ref c) := by
  unfold Registry.getComponentsMut
  cases hx : r.entities.entityEntry env e with
  | none =>
    left
    refine ⟨?_, rfl⟩
    rw [h.look_none.mpr hx]; intro f hf; cases hf
  | some en =>
    obtain ⟨a, ct, ha, hc, hr, hk, hl, hlook⟩ := h.entry hx
    have hkl := (List.getElem?_eq_some_iff.mp hk).1
    simp only []
    unfold ArchetypeRegistry.getUnchecked
    rw [indexUnchecked_of_getElem? ha, hlook]
    simp only [ok_bind, pure_eq_ok]
    by_cases hs : ∀ c ∈ g, c ∈ ct.cts
    · right
      rw [if_neg (by rw [(hr.containsSubset_iff hg hv).mpr hs]; simp), hr.getFuzzyComponentsMut_ok (Group.spec hv) hs hkl]
      exact ⟨_, _, fun c => ⟨ct.cts.idxOf c, c.size * en.indexInArchetype.value.toNat⟩, rfl, (hr.hasAll_iff hkl).mpr hs, rfl,
        fun c hc' => ⟨_, _, ct, hl, hc, idxOf_getElem? (hs c hc'), rfl⟩⟩
    · left
      rw [if_pos (fun hx => hs ((hr.containsSubset_iff hg hv).mp hx))]
      refine ⟨?_, rfl⟩
      intro f hf
      cases hf
      rw [Bool.eq_false_iff]
      exact fun hx => hs ((hr.hasAll_iff hkl).mp hx)

theorem RInv.replaceComponent_spec (h : RInv W r cs) {c : CompTy} (hW : W.Has c) (e : Entity) {v : Val} (hv : v.HasTy c) :
    ((∀ f, r.look env cs e = some f → f c = none) ∧ r.replaceComponent env c e v = .ok (r, none)) ∨
    ∃ r' cs' f old, r.replaceComponent env c e v = .ok (r', some old) ∧ RInv W r' cs' ∧ r.look env cs e = some f ∧
      f c = some old ∧
      (∀ x, r'.look env cs' x = if x = e then some (fun c' => if c' = c then some v else f c') else r.look env cs x) ∧
      (stored cs' ++ [old]).Perm (stored cs ++ [v]) ∧ r'.entities = r.entities ∧ ArchStep r.archetypes r'.archetypes ∧
      RowStored env r cs e c v old r' cs' := by
  unfold Registry.replaceComponent
  rcases h.getComponentMut_eq hW e with ⟨h1, h2⟩ | ⟨f, w, ai, p, h1, h2, h3, h4⟩
  · left
    rw [h2]
    exact ⟨h1, rfl⟩
  · right
    obtain ⟨r', cs', f', old, a, s1, s2, s3, s4, s5, s6, s7, s8, s9, s10, s11, _, s13⟩ := h.store h4 hv
    refine ⟨r', cs', f', old, ?_, s2, s3, s4, s7, s8, s9, s11, s13⟩
    rw [h3]
    simp only [ok_bind]
    rw [s5]
    simp only [ok_bind]
    rw [s6]
    simp only [ok_bind]
    rw [s1]
    rfl

/-! ## Dropping the registry -/

theorem drop_loop {ar : ArchetypeRegistry} {cs : List Content} (h : ARInv W ar cs) :
    ∀ (n i : Nat) (acc : List Val × List Archetype), i + n = ar.archetypes.length →
    ∃ left, forRange i n (fun i acc => do
      let a ← index ar.archetypes i
      let x ← a.drop
      return (acc.1 ++ x.1, acc.2 ++ [x.2])) acc = .ok (acc.1 ++ stored (cs.drop i), acc.2 ++ left) ∧ left.length = n ∧
      ∀ a ∈ left, (∀ p ∈ a.pointers, p = none) ∧ a.entityAssociations = none
  | 0, i, acc, hi => by
    have : cs.drop i = [] := by rw [List.drop_eq_nil_iff, h.len]; omega
    rw [this]
    exact ⟨[], by simp [forRange, stored], rfl, by simp⟩
  | n + 1, i, acc, hi => by
    have hlt : i < ar.archetypes.length := by omega
    have ha := List.getElem?_eq_getElem hlt
    obtain ⟨ct, hc, hr⟩ := h.content ha
    have hcd : cs.drop i = ct :: cs.drop (i + 1) := by
      obtain ⟨hl, he⟩ := List.getElem?_eq_some_iff.mp hc
      rw [List.drop_eq_getElem_cons hl, he]
    simp only [forRange]
    rw [index_of_getElem? ha]
    simp only [ok_bind]
    obtain ⟨a', h1, h2, h3, _⟩ := hr.drop_spec
    rw [h1]
    simp only [ok_bind]
    obtain ⟨left, q1, q2, q3⟩ := drop_loop h n (i + 1) (acc.1 ++ ct.cols.flatten, acc.2 ++ [a']) (by omega)
    refine ⟨a' :: left, ?_, by simp [q2], ?_⟩
    · refine Eq.trans q1 ?_
      rw [hcd]
      simp [stored]
    · intro a hm
      rcases List.mem_cons.mp hm with rfl | hm
      · exact ⟨h2, h3⟩
      · exact q3 a hm

theorem RInv.drop_eq (h : RInv W r cs) : ∃ left, r.drop = .ok (stored cs, left) ∧
    left.length = r.archetypes.archetypes.length ∧
    ∀ a ∈ left, (∀ p ∈ a.pointers, p = none) ∧ a.entityAssociations = none := by
  unfold Registry.drop ArchetypeRegistry.drop
  obtain ⟨left, h1, h2, h3⟩ := drop_loop h.arch r.archetypes.archetypes.length 0 ([], []) (by omega)
  exact ⟨left, by rw [h1]; simp, h2, h3⟩

/-! ## Iterating over the entities -/

/-- The handles of the live slots from `cur` on. -/
def liveFrom (env : Env) (l : List EntityEntry) (cur : Nat) : List Entity :=
  ((l.drop cur).zipIdx cur).filterMap (fun p =>
    if p.1.isValid env then some (Entity.newUnchecked (UInt32.ofNat p.2) p.1.version) else none)

theorem liveFrom_end {l : List EntityEntry} {cur : Nat} (h : l.length ≤ cur) : liveFrom env l cur = [] := by
  unfold liveFrom
  rw [List.drop_eq_nil_of_le h]; rfl

theorem liveFrom_cons {l : List EntityEntry} {cur : Nat} {en : EntityEntry} (h : l[cur]? = some en) :
    liveFrom env l cur = if en.isValid env then Entity.newUnchecked (UInt32.ofNat cur) en.version :: liveFrom env l (cur + 1)
      else liveFrom env l (cur + 1) := by
  obtain ⟨hl, he⟩ := List.getElem?_eq_some_iff.mp h
  unfold liveFrom
  rw [List.drop_eq_getElem_cons hl, he, List.zipIdx_cons, List.filterMap_cons]
  simp only []
  split <;> simp_all

theorem entityIterNext_spec {l : List EntityEntry} : ∀ (fuel cur : Nat), l.length ≤ cur + fuel →
    ∃ o cur', entityIterNext env l fuel cur = (o, cur') ∧ cur ≤ cur' ∧
      ((o = none ∧ liveFrom env l cur = [] ∧ (l.length ≤ cur')) ∨
        ∃ e, o = some e ∧ liveFrom env l cur = e :: liveFrom env l cur' ∧ cur < cur' ∧ cur < l.length)
  | 0, cur, h => ⟨none, cur, rfl, Nat.le_refl _, Or.inl ⟨rfl, liveFrom_end (by omega), by omega⟩⟩
  | fuel + 1, cur, h => by
    unfold entityIterNext
    cases hx : l[cur]? with
    | none =>
      have := List.getElem?_eq_none_iff.mp hx
      exact ⟨none, cur, rfl, Nat.le_refl _, Or.inl ⟨rfl, liveFrom_end (by omega), by omega⟩⟩
    | some en =>
      have hlt := (List.getElem?_eq_some_iff.mp hx).1
      simp only []
      rw [liveFrom_cons hx]
      split
      · exact ⟨_, _, rfl, by omega, Or.inr ⟨_, rfl, rfl, by omega, hlt⟩⟩
      · obtain ⟨o, cur', h1, h2, h3⟩ := entityIterNext_spec (l := l) fuel (cur + 1) (by omega)
        refine ⟨o, cur', h1, by omega, ?_⟩
        rcases h3 with ⟨h3, h4, h5⟩ | ⟨e, h3, h4, h5, h6⟩
        · exact Or.inl ⟨h3, h4, h5⟩
        · exact Or.inr ⟨e, h3, h4, by omega, hlt⟩

theorem EntityIter.collect_eq : ∀ (n : Nat) (it : EntityIter), it.entities.length < it.current + n →
    it.collect env n = liveFrom env it.entities it.current
  | 0, it, h => by
    rw [liveFrom_end (by omega)]; rfl
  | n + 1, it, h => by
    unfold EntityIter.collect EntityIter.next
    obtain ⟨o, cur', h1, h2, h3⟩ := entityIterNext_spec (env := env) (l := it.entities)
      (it.entities.length - it.current) it.current (by omega)
    rw [h1]
    rcases h3 with ⟨rfl, h4, _⟩ | ⟨e, rfl, h4, h5, h6⟩
    · simp [h4]
    · simp only []
      rw [h4, EntityIter.collect_eq n _ (by show it.entities.length < cur' + n; omega)]

theorem iter_eq (r : EntityRegistry) : r.iter env = liveFrom env r.entities 0 := by
  unfold EntityRegistry.iter EntityIter.new
  rw [EntityIter.collect_eq _ _ (by show r.entities.length < 0 + (r.entities.length + 1); omega)]

theorem mem_liveFrom {l : List EntityEntry} {e : Entity} : e ∈ liveFrom env l 0 ↔
    ∃ (i : Nat) (en : EntityEntry), l[i]? = some en ∧ en.isValid env = true ∧ e = Entity.newUnchecked (UInt32.ofNat i) en.version := by
  unfold liveFrom
  rw [List.mem_filterMap]
  constructor
  · rintro ⟨⟨en, i⟩, h1, h2⟩
    rw [List.drop_zero] at h1
    have h3 := List.mem_zipIdx_iff_getElem?.mp h1
    simp only [] at h2
    split at h2
    · cases h2
      exact ⟨i, en, h3, by assumption, rfl⟩
    · cases h2
  · rintro ⟨i, en, h1, h2, rfl⟩
    refine ⟨(en, i), ?_, by simp [h2]⟩
    rw [List.drop_zero]
    exact List.mem_zipIdx_iff_getElem?.mpr h1

theorem mem_iter_of_len {r : EntityRegistry} (hle : r.entities.length ≤ MAX_ENTITY_HANDLE_VALUE) {e : Entity} :
    e ∈ r.iter env ↔ ∃ en, r.entityEntry env e = some en := by
  have hM : MAX_ENTITY_HANDLE_VALUE = 16777215 := rfl
  rw [iter_eq, mem_liveFrom]
  constructor
  · rintro ⟨i, en, h1, h2, rfl⟩
    have hi := (List.getElem?_eq_some_iff.mp h1).1
    have ht : (UInt32.ofNat i).toNat = i := by rw [UInt32.toNat_ofNat']; omega
    refine ⟨en, (EntityRegistry.entityEntry_iff hle _ _).mpr ⟨?_, ?_, h2⟩⟩
    · rw [Entity.index_newUnchecked _ _ (by rw [ht]; omega), ht]; exact h1
    · rw [Entity.version_newUnchecked]
  · rintro ⟨en, h⟩
    obtain ⟨h1, h2, h3⟩ := (EntityRegistry.entityEntry_iff hle _ _).mp h
    refine ⟨e.index.toNat, en, h1, h3, ?_⟩
    have hlt := Entity.index_lt e
    rw [UInt32.ofNat_toNat, h2]
    apply Entity.ext_iff.mpr
    rw [Entity.index_newUnchecked _ _ hlt, Entity.version_newUnchecked]
    exact ⟨rfl, rfl⟩

theorem mem_iter {r : EntityRegistry} (hinv : EntInv env r) {e : Entity} :
    e ∈ r.iter env ↔ ∃ en, r.entityEntry env e = some en :=
  mem_iter_of_len hinv.len_le

theorem RInv.mem_iterEntities (h : RInv W r cs) {e : Entity} : e ∈ r.iterEntities env ↔ (r.look env cs e).isSome := by
  unfold Registry.iterEntities
  rw [mem_iter h.ents]
  cases hx : r.look env cs e with
  | none => simp [h.look_none.mp hx]
  | some f => simpa using h.look_some hx

theorem liveFrom_nodup {l : List EntityEntry} (hl : l.length ≤ 16777215) : ∀ (n cur : Nat), l.length ≤ cur + n →
    (liveFrom env l cur).Nodup ∧ ∀ e ∈ liveFrom env l cur, cur ≤ e.index.toNat
  | 0, cur, h => by rw [liveFrom_end (by omega)]; simp
  | n + 1, cur, h => by
    rcases Nat.lt_or_ge cur l.length with hlt | hge
    · have hx := List.getElem?_eq_getElem hlt
      obtain ⟨ih1, ih2⟩ := liveFrom_nodup hl n (cur + 1) (by omega)
      rw [liveFrom_cons hx]
      have ht : (UInt32.ofNat cur).toNat = cur := by rw [UInt32.toNat_ofNat']; omega
      have hidx : (Entity.newUnchecked (UInt32.ofNat cur) l[cur].version).index.toNat = cur := by
        rw [Entity.index_newUnchecked _ _ (by rw [ht]; omega), ht]
      split
      · refine ⟨List.nodup_cons.mpr ⟨?_, ih1⟩, ?_⟩
        · intro hm
          have := ih2 _ hm
          omega
        · intro e he
          rcases List.mem_cons.mp he with rfl | he
          · omega
          · have := ih2 e he; omega
      · exact ⟨ih1, fun e he => by have := ih2 e he; omega⟩
    · rw [liveFrom_end hge]; simp

theorem RInv.iterEntities_nodup (h : RInv W r cs) : (r.iterEntities env).Nodup := by
  unfold Registry.iterEntities
  rw [iter_eq]
  exact (liveFrom_nodup h.ents.len_le _ 0 (Nat.le_add_left _ _)).1

end Shard
