import Verif.Proofs.IterProps
import Verif.Props.Example
/-!
# C09, C30–C33, C47: iteration
-/

set_option autoImplicit false

namespace Shard

variable {env : Env} {W : World env} {r : Registry}

/-- **C30** Matching iteration is complete, sound and duplicate-free: the entities in the items are exactly the live
entities that have all components of the group, each once, with the values that `get_component` returns in tuple order;
the component-only iterator yields the same slices. -/
theorem C30_matching_iteration (hr : Reachable W r) {g : Group} (hg : ∀ c ∈ g, W.Has c)
    (hv : (g.descriptor env).isValid = true) :
    ∃ items, r.iterEntityComponentsMatching env g = .ok items ∧
      r.iterComponentsMatching env g = .ok (items.map (fun x => (x.1, x.2.2))) ∧
      (items.flatMap (fun x => x.2.1)).Nodup ∧
      (∀ e, e ∈ items.flatMap (fun x => x.2.1) ↔ Matches env r g e) ∧
      ∀ x ∈ items, Aligned env r g x.2.1 x.2.2 := by
  obtain ⟨cs, h⟩ := hr.inv
  refine ⟨_, h.iterFilteredEntityComponentsMatching_eq hg hv (fun _ => true), ?_, ?_, ?_, ?_⟩
  · rw [iterComponentsMatching_filtered, h.iterFilteredComponentsMatching_eq hg hv, List.map_map]
    rfl
  · rw [List.flatMap_map]
    exact h.flat_nodup (h.arch.yielded_nodup g _)
  · intro e
    rw [List.flatMap_map, List.mem_flatMap]
    constructor
    · rintro ⟨i, hi, he⟩
      obtain ⟨a, ct, _, hc, hs, _⟩ := (h.arch.mem_yielded hg hv).mp hi
      simp only [contentAt_of hc] at he
      exact h.row_matches hc he hs
    · intro hm
      obtain ⟨i, k, ct, hc, hk, hs⟩ := h.matches_row hg hm
      obtain ⟨a, ha, _⟩ := h.arch.arch hc
      refine ⟨i, (h.arch.mem_yielded hg hv).mpr ⟨a, ct, ha, hc, hs, rfl⟩, ?_⟩
      simp only [contentAt_of hc]
      exact List.mem_of_getElem? hk
  · intro x hx
    obtain ⟨i, hi, rfl⟩ := List.mem_map.mp hx
    obtain ⟨a, ct, _, hc, hs, _⟩ := (h.arch.mem_yielded hg hv).mp hi
    simp only [contentAt_of hc]
    exact h.aligned hc hs

set_option maxRecDepth 100000 in
/-- C30 on `exR`: two entities in two archetypes have an `A`, one of them also has a `C`. -/
example : Reachable exWorld exR ∧ (∀ c ∈ [exC, exA], exWorld.Has c) ∧ (Group.descriptor exEnv [exC, exA]).isValid = true ∧
    (exR.iterEntityComponentsMatching exEnv [exC, exA]).map (fun l => l.map (fun x => x.2)) =
      .ok [([exE1], [[exValC], [exValA]])] ∧
    (exR.iterEntityComponentsMatching exEnv [exA]).map (fun l => l.flatMap (fun x => x.2.1)) = .ok [exE2, exE1] := by
  refine ⟨exReachable, ?_, by decide +kernel, by decide +kernel, by decide +kernel⟩
  show ∀ c ∈ [exC, exA], c ∈ [exA, exB, exC]
  decide +kernel

/-- **C31** Slices are aligned: in every item of every iterator all slices have the length of the entity slice, and
position `k` of every slice belongs to the entity at position `k`; the component-only iterators yield the slices of
the corresponding entity iterator. -/
theorem C31_aligned_slices (hr : Reachable W r) {g : Group} (hg : ∀ c ∈ g, W.Has c)
    (hv : (g.descriptor env).isValid = true) (f : ArchetypeDescriptor → Bool) :
    (∃ items, r.iterEntityComponentsMatching env g = .ok items ∧
      r.iterComponentsMatching env g = .ok (items.map (fun x => (x.1, x.2.2))) ∧
      ∀ x ∈ items, Aligned env r g x.2.1 x.2.2) ∧
    (∃ items, r.iterEntityComponentsMatchingMut env g = .ok items ∧
      r.iterComponentsMatchingMut env g = .ok (items.map (fun x => (x.1, x.2.2))) ∧
      ∀ x ∈ items, AlignedMut W r g x.1 x.2.1 x.2.2) ∧
    (∃ items, r.iterFilteredEntityComponentsMatching env g f = .ok items ∧
      r.iterFilteredComponentsMatching env g f = .ok (items.map (fun x => (x.1, x.2.2))) ∧
      ∀ x ∈ items, Aligned env r g x.2.1 x.2.2) ∧
    (∃ items, r.iterFilteredEntityComponentsMatchingMut env g f = .ok items ∧
      r.iterFilteredComponentsMatchingMut env g f = .ok (items.map (fun x => (x.1, x.2.2))) ∧
      ∀ x ∈ items, AlignedMut W r g x.1 x.2.1 x.2.2) ∧
    (W.Used g.idSet → ∃ ents cols o, r.iterEntityComponentsExact env g = .ok (ents, cols) ∧
      r.iterComponentsExact env g = .ok cols ∧ Aligned env r g ents cols ∧
      r.iterEntityComponentsExactMut env g = .ok o ∧
      r.iterComponentsExactMut env g = .ok (o.map (fun x => (x.1, x.2.2))) ∧
      (∀ x, o = some x → x.2.1 = ents ∧ AlignedMut W r g x.1 x.2.1 x.2.2) ∧ (o = none → ents = [])) := by
  obtain ⟨cs, h⟩ := hr.inv
  have hread : ∀ f, ∃ items, r.iterFilteredEntityComponentsMatching env g f = .ok items ∧
      r.iterFilteredComponentsMatching env g f = .ok (items.map (fun x => (x.1, x.2.2))) ∧
      ∀ x ∈ items, Aligned env r g x.2.1 x.2.2 := by
    intro f
    refine ⟨_, h.iterFilteredEntityComponentsMatching_eq hg hv f, ?_, ?_⟩
    · rw [h.iterFilteredComponentsMatching_eq hg hv, List.map_map]; rfl
    · intro x hx
      obtain ⟨i, hi, rfl⟩ := List.mem_map.mp hx
      obtain ⟨a, ct, _, hc, hs, _⟩ := (h.arch.mem_yielded hg hv).mp hi
      simp only [contentAt_of hc]
      exact h.aligned hc hs
  have hmut : ∀ f, ∃ items, r.iterFilteredEntityComponentsMatchingMut env g f = .ok items ∧
      r.iterFilteredComponentsMatchingMut env g f = .ok (items.map (fun x => (x.1, x.2.2))) ∧
      ∀ x ∈ items, AlignedMut W r g x.1 x.2.1 x.2.2 := by
    intro f
    refine ⟨_, h.iterFilteredEntityComponentsMatchingMut_eq hg hv f, ?_, ?_⟩
    · rw [h.iterFilteredComponentsMatchingMut_eq hg hv, List.map_map]; rfl
    · intro x hx
      obtain ⟨i, hi, rfl⟩ := List.mem_map.mp hx
      obtain ⟨a, ct, _, hc, hs, _⟩ := (h.arch.mem_yielded hg hv).mp hi
      simp only [contentAt_of hc]
      exact h.alignedMut hc hs
  refine ⟨hread _, hmut _, hread f, hmut f, fun hu => ?_⟩
  have hok : W.OkGroup g := ⟨hg, hu⟩
  rcases h.iterExact_eq hok hv with ⟨i, a, ct, q1, q2, q3, q4, q5, q6, q7, q8, q9⟩ | ⟨q1, q2, q3, q4, q5⟩
  · have hs : ∀ c ∈ g, c ∈ ct.cts := fun c hc => by rw [q5]; exact ((Group.spec hv).mem_cts hok).mpr hc
    refine ⟨_, _, _, q8, q6, h.aligned q3 hs, q9, q7, ?_, fun hn => by cases hn⟩
    rintro x ⟨⟩
    exact ⟨rfl, h.alignedMut q3 hs⟩
  · refine ⟨_, _, _, q4, q2, ⟨by simp, fun j c hj => ⟨[], by rw [List.getElem?_map, hj]; rfl, rfl, fun k e he => ?_⟩⟩, q5, q3,
      ?_, fun _ => rfl⟩
    · simp at he
    · rintro x ⟨⟩

set_option maxRecDepth 100000 in
/-- C31 on `exR`. -/
example : Reachable exWorld exR ∧ (∀ c ∈ [exC, exA, exB], exWorld.Has c) ∧ exWorld.Used (Group.idSet [exC, exA, exB]) ∧
    (Group.descriptor exEnv [exC, exA, exB]).isValid = true := by
  refine ⟨exReachable, ?_, ?_, by decide +kernel⟩
  · show ∀ c ∈ [exC, exA, exB], c ∈ [exA, exB, exC]
    decide +kernel
  · exact ((exCheck_ok (call := .create [exC, exA, exB] [exValC, exValA, exValB]) (by decide +kernel) exR).2 (by decide)).used

/-- **C32** Mutable iteration never aliases: two different positions (item, member of the tuple, row) in the items of a
mutable iterator refer to storage that does not overlap; a write through a position changes exactly the component of one
matching entity, and leaves the items (so all other references) as they were. The items of the entity iterators name
that entity (`C31`). -/
theorem C32_mutable_iteration (hr : Reachable W r) {g : Group} (hg : ∀ c ∈ g, W.Has c)
    (hv : (g.descriptor env).isValid = true) {it : MutIter} (hit : it.Ok W g) :
    ∃ items, it.items env r g = .ok items ∧
      (∀ (n n' j j' k k' ai ai' : Nat) (ss ss' : List SliceRef) (s s' : SliceRef), (n, j, k) ≠ (n', j', k') →
        items[n]? = some (ai, ss) → ss[j]? = some s → k < s.len →
        items[n']? = some (ai', ss') → ss'[j']? = some s' → k' < s'.len →
        NoOverlap ai s.cty (s.elem k) ai' s'.cty (s'.elem k')) ∧
      ∀ (n j k ai : Nat) (ss : List SliceRef) (s : SliceRef), items[n]? = some (ai, ss) → ss[j]? = some s → k < s.len →
        ∃ e, Matches env r g e ∧ g[j]? = some s.cty ∧ ∀ v : Val, v.HasTy s.cty →
          ∃ r' old, r.replaceAt ai s.cty (s.elem k) v = .ok (r', old) ∧ OnlyWritten W r r' e s.cty old v ∧
            it.items env r' g = .ok items := by
  obtain ⟨cs, h⟩ := hr.inv
  obtain ⟨items, h1, h2, h3⟩ := h.items_spec hg hv it hit
  refine ⟨items, h1, ?_, ?_⟩
  · intro n n' j j' k k' ai ai' ss ss' s s' hne hn hj hk hn' hj' hk'
    by_cases hnn : n = n'
    · subst hnn
      rw [hn] at hn'; cases hn'
      obtain ⟨ct, hc, hs, hss⟩ := h3 _ (List.mem_of_getElem? hn)
      simp only at hc hss
      subst hss
      obtain ⟨c, e, q1, q2, q3, q4⟩ := h.slice_ref hc hs hj hk
      obtain ⟨c', e', q1', q2', q3', q4'⟩ := h.slice_ref hc hs hj' hk'
      rw [q2, q2']
      refine RefTo.disjoint h q4 q4' ?_
      by_cases hjj : j = j'
      · subst hjj
        left
        rintro rfl
        have := (h.row_inj hc hc q3 q3').2
        exact hne (by rw [this])
      · right
        rintro rfl
        have hnd : g.Nodup := nodup_of_map (Group.spec hv).wf.nodup
        obtain ⟨l1, e1⟩ := List.getElem?_eq_some_iff.mp q1
        obtain ⟨l2, e2⟩ := List.getElem?_eq_some_iff.mp q1'
        exact hjj ((List.getElem_inj hnd).mp (e1.trans e2.symm))
    · left
      intro haa
      have e1 : (items.map Prod.fst)[n]? = some ai := by rw [List.getElem?_map, hn]; rfl
      have e2 : (items.map Prod.fst)[n']? = some ai := by rw [List.getElem?_map, hn', haa]; rfl
      obtain ⟨l1, f1⟩ := List.getElem?_eq_some_iff.mp e1
      obtain ⟨l2, f2⟩ := List.getElem?_eq_some_iff.mp e2
      exact hnn ((List.getElem_inj h2).mp (f1.trans f2.symm))
  · intro n j k ai ss s hn hj hk
    obtain ⟨ct, hc, hs, hss⟩ := h3 _ (List.mem_of_getElem? hn)
    simp only at hc hss
    subst hss
    obtain ⟨c, e, q1, q2, q3, q4⟩ := h.slice_ref hc hs hj hk
    refine ⟨e, h.row_matches hc (List.mem_of_getElem? q3) hs, by rw [q2]; exact q1, fun v hv' => ?_⟩
    rw [q2] at hv' ⊢
    obtain ⟨r', cs', old, s1, s2, s3, _, _, _, s7, _⟩ := h.replaceAt_spec q4 hv'
    exact ⟨r', old, s1, h.onlyWritten s2 (hg c (List.mem_of_getElem? q1)) s3, by rw [s7.items h s2 hg hv hit, h1]⟩

set_option maxRecDepth 100000 in
/-- C32 on `exR`: the mutable iterator over `A` yields three items (one of them empty). -/
example : Reachable exWorld exR ∧ (∀ c ∈ [exA], exWorld.Has c) ∧ (Group.descriptor exEnv [exA]).isValid = true ∧
    MutIter.items exEnv exR [exA] .matching =
      .ok [(1, [⟨exA, ⟨0, 0⟩, 1⟩]), (0, [⟨exA, ⟨0, 0⟩, 0⟩]), (2, [⟨exA, ⟨0, 0⟩, 1⟩])] := by
  refine ⟨exReachable, ?_, by decide +kernel, by decide +kernel⟩
  show ∀ c ∈ [exA], c ∈ [exA, exB, exC]
  decide +kernel

/-- The closure accepts the descriptor of archetype `i`. -/
def keeps (r : Registry) (f : ArchetypeDescriptor → Bool) (i : Nat) : Bool :=
  (r.archetypes.archetypes[i]?).any (fun a => f a.descriptor)

/-- **C33** Filtered iteration equals matching plus filter: the filtered iterators yield exactly the items of the
corresponding matching iterator whose archetype descriptor satisfies the closure, in the same order; and the descriptor
that the closure sees lists exactly the component types of each entity in the item. -/
theorem C33_filtered_iteration (hr : Reachable W r) {g : Group} (hg : ∀ c ∈ g, W.Has c)
    (hv : (g.descriptor env).isValid = true) (f : ArchetypeDescriptor → Bool) :
    r.iterFilteredComponentsMatching env g f =
      (r.iterComponentsMatching env g).map (fun l => l.filter (fun x => keeps r f x.1)) ∧
    r.iterFilteredComponentsMatchingMut env g f =
      (r.iterComponentsMatchingMut env g).map (fun l => l.filter (fun x => keeps r f x.1)) ∧
    r.iterFilteredEntityComponentsMatching env g f =
      (r.iterEntityComponentsMatching env g).map (fun l => l.filter (fun x => keeps r f x.1)) ∧
    r.iterFilteredEntityComponentsMatchingMut env g f =
      (r.iterEntityComponentsMatchingMut env g).map (fun l => l.filter (fun x => keeps r f x.1)) ∧
    ∀ items, r.iterEntityComponentsMatching env g = .ok items → ∀ x ∈ items,
      ∃ a, r.archetypes.archetypes[x.1]? = some a ∧ ∀ e ∈ x.2.1, ∀ c, W.Has c →
        (c.descriptor ∈ a.descriptor.components ↔ r.hasComponent env c e = .ok true) := by
  obtain ⟨cs, h⟩ := hr.inv
  have key : (yielded env r.archetypes g (fun _ => true)).filter (keeps r f) = yielded env r.archetypes g f := by
    unfold yielded selected
    rw [List.filter_filter]
    congr 1
    funext i
    unfold keeps accepts
    cases r.archetypes.archetypes[i]? with
    | none => rfl
    | some a => simp [Bool.and_comm]
  have hmap : ∀ {α : Type} (F : Nat → Nat × α), (∀ i, (F i).1 = i) →
      ((yielded env r.archetypes g (fun _ => true)).map F).filter (fun x => keeps r f x.1) =
        (yielded env r.archetypes g f).map F := by
    intro α F hF
    rw [List.filter_map, ← key]
    congr 2
    funext i
    simp only [Function.comp, hF]
  refine ⟨?_, ?_, ?_, ?_, ?_⟩
  · rw [iterComponentsMatching_filtered, h.iterFilteredComponentsMatching_eq hg hv, h.iterFilteredComponentsMatching_eq hg hv]
    simp only [Except.map]; rw [hmap]; intro i; rfl
  · rw [iterComponentsMatchingMut_filtered, h.iterFilteredComponentsMatchingMut_eq hg hv, h.iterFilteredComponentsMatchingMut_eq hg hv]
    simp only [Except.map]; rw [hmap]; intro i; rfl
  · rw [iterEntityComponentsMatching_filtered, h.iterFilteredEntityComponentsMatching_eq hg hv,
      h.iterFilteredEntityComponentsMatching_eq hg hv]
    simp only [Except.map]; rw [hmap]; intro i; rfl
  · rw [iterEntityComponentsMatchingMut_filtered, h.iterFilteredEntityComponentsMatchingMut_eq hg hv,
      h.iterFilteredEntityComponentsMatchingMut_eq hg hv]
    simp only [Except.map]; rw [hmap]; intro i; rfl
  · intro items hi x hx
    rw [iterEntityComponentsMatching_filtered, h.iterFilteredEntityComponentsMatching_eq hg hv] at hi
    cases hi
    obtain ⟨i, hi, rfl⟩ := List.mem_map.mp hx
    obtain ⟨a, ct, ha, hc, hs, _⟩ := (h.arch.mem_yielded hg hv).mp hi
    refine ⟨a, ha, fun e he c hcW => ?_⟩
    simp only [contentAt_of hc] at he
    obtain ⟨k, hk⟩ := List.mem_iff_getElem?.mp he
    obtain ⟨_, ha', hr⟩ := h.arch.arch hc
    rw [ha] at ha'; cases ha'
    rw [h.has_iff (h.row_look hc hk) hcW, hr.desc.comps, List.mem_map]
    constructor
    · rintro ⟨c', hc', heq⟩
      have hid : c'.id = c.id := congrArg ComponentDescriptor.id heq
      have := W.id_inj (hr.desc.has c' hc') hcW hid
      subst this
      obtain ⟨v, hv, _⟩ := hr.get_some hc' (List.getElem?_eq_some_iff.mp hk).1
      rw [hv]; rfl
    · intro hsome
      obtain ⟨v, hv⟩ := Option.isSome_iff_exists.mp hsome
      exact ⟨c, (hr.mem_of_get hv).1, rfl⟩

set_option maxRecDepth 100000 in
/-- C33 on `exR`: a closure that rejects one of two matching archetypes. -/
example : Reachable exWorld exR ∧ (∀ c ∈ [exA], exWorld.Has c) ∧ (Group.descriptor exEnv [exA]).isValid = true ∧
    (exR.iterFilteredEntityComponentsMatching exEnv [exA] (fun d => !d.hasComponent exB)).map (fun l => l.map (fun x => x.2)) =
      .ok [([exE2], [[exValA']])] := by
  refine ⟨exReachable, ?_, by decide +kernel, by decide +kernel⟩
  show ∀ c ∈ [exA], c ∈ [exA, exB, exC]
  decide +kernel

theorem nextsOf_nil {α : Type} (n : Nat) : nextsOf ([] : List α) n = List.replicate n none := by
  unfold nextsOf
  rw [List.eq_replicate_iff]
  simp

theorem nextsOf_cons {α : Type} (x : α) (l : List α) (n : Nat) : nextsOf (x :: l) (n + 1) = some x :: nextsOf l n := by
  unfold nextsOf
  rw [List.range_succ_eq_map, List.map_cons, List.map_map]
  rfl

theorem nextsOf_nil_succ {α : Type} (n : Nat) : nextsOf ([] : List α) (n + 1) = none :: nextsOf [] n := by
  rw [nextsOf_nil, nextsOf_nil, List.replicate_succ]

theorem nextsOf_fused {α : Type} (l : List α) {n i j : Nat} (hij : i ≤ j) (hj : j < n)
    (h : (nextsOf l n)[i]? = some none) : (nextsOf l n)[j]? = some none := by
  unfold nextsOf at h ⊢
  rw [List.getElem?_map, List.getElem?_range (by omega)] at h ⊢
  simp only [Option.map_some, Option.some.injEq, List.getElem?_eq_none_iff] at h ⊢
  omega

theorem EntityIter.nexts_eq (it : EntityIter) (n : Nat) :
    it.nexts env n = nextsOf (liveFrom env it.entities it.current) n := by
  induction n generalizing it with
  | zero => rfl
  | succ n ih =>
    unfold EntityIter.nexts
    obtain ⟨o, cur', h1, h2, h3⟩ := entityIterNext_spec (env := env) (l := it.entities)
      (it.entities.length - it.current) it.current (by omega)
    have hn : it.next env = (o, { it with current := cur' }) := by
      unfold EntityIter.next
      rw [h1]
    rw [hn]
    simp only []
    rw [ih]
    rcases h3 with ⟨rfl, h4, h5⟩ | ⟨e, rfl, h4, _, _⟩
    · rw [h4, nextsOf_nil_succ, liveFrom_end h5]
    · rw [h4, nextsOf_cons]

/-- **C09** (the calls of `next`) The iterator that `iter_entities` returns yields the live handles one by one, and then
`None` forever. -/
theorem C09_entity_next (r : Registry) (n : Nat) :
    (EntityIter.new r.entities.entities).nexts env n = nextsOf (r.iterEntities env) n := by
  rw [EntityIter.nexts_eq]
  unfold Registry.iterEntities
  rw [iter_eq]
  rfl

set_option maxRecDepth 100000 in
/-- C09 on `exR`: the three live handles, then `None`. -/
example : (EntityIter.new exR.entities.entities).nexts exEnv 6 = [some exE1, some exE2, some exE4, none, none, none] := by
  decide +kernel

theorem ArchIter.nexts_invalid {g : Group} (hv : ¬ (g.descriptor env).isValid = true) (f : ArchetypeDescriptor → Bool)
    (ar : ArchetypeRegistry) (it : ArchIter) (n : Nat) : it.nexts env g f ar n = .ok (nextsOf [] n) := by
  induction n generalizing it with
  | zero => rfl
  | succ n ih =>
    have : ArchIter.next env g f ar it = .ok (none, it) := by unfold ArchIter.next; rw [if_pos hv]
    simp only [ArchIter.nexts, this, ok_bind, ih]
    rw [nextsOf_nil_succ]
    rfl

theorem ArchIter.nexts_valid {ar : ArchetypeRegistry} {cs : List Content} (h : ARInv W ar cs) {g : Group}
    (hv : (g.descriptor env).isValid = true) (f : ArchetypeDescriptor → Bool) (it : ArchIter) (n : Nat) :
    it.nexts env g f ar n = .ok (nextsOf (selected (g.descriptor env).archetype f ar (it.ahead ar)) n) := by
  have done : ∀ (n : Nat) (it : ArchIter), ArchIter.next env g f ar it = .ok (none, it) →
      it.nexts env g f ar n = .ok (nextsOf [] n) := by
    intro n
    induction n with
    | zero => intro it _; rfl
    | succ n ih =>
      intro it hit
      simp only [ArchIter.nexts, hit, ok_bind, ih it hit]
      rw [nextsOf_nil_succ]
      rfl
  induction n generalizing it with
  | zero => rfl
  | succ n ih =>
    obtain ⟨o, it', h1, h2⟩ := ArchIter.next_spec h hv (filter := f) it
    rcases h2 with ⟨rfl, h4, h3⟩ | ⟨i, rfl, h4⟩
    · simp only [ArchIter.nexts, h1, ok_bind, done n it' h3]
      rw [h4, nextsOf_nil_succ]
      rfl
    · simp only [ArchIter.nexts, h1, ok_bind, ih]
      rw [h4, nextsOf_cons]
      rfl

/-- **C47** Iterators are fused. In any state of an archetype iterator (all eight matching iterators advance by its
`next`) and of the entity iterator, for every component group and filter, any number of calls of `next` succeed, and once
one of them has returned `None` all further ones return `None`. For a valid group, the calls on a new iterator return the
archetypes that running it to its end yields, and `None` after that; for an invalid one they all return `None`. -/
theorem C47_fused (hr : Reachable W r) (g : Group) (f : ArchetypeDescriptor → Bool) (n : Nat) :
    (∀ it : ArchIter, ∃ outs, it.nexts env g f r.archetypes n = .ok outs ∧ outs.length = n ∧
      ∀ i j, i ≤ j → j < n → outs[i]? = some none → outs[j]? = some none) ∧
    (∀ it : EntityIter, (it.nexts env n).length = n ∧
      ∀ i j, i ≤ j → j < n → (it.nexts env n)[i]? = some none → (it.nexts env n)[j]? = some none) ∧
    ((g.descriptor env).isValid = true → (∀ c ∈ g, W.Has c) → ∃ it items, ArchIter.new env g = .ok it ∧
      r.iterFilteredComponentsMatching env g f = .ok items ∧
      it.nexts env g f r.archetypes n = .ok (nextsOf (items.map (fun x => x.1)) n)) ∧
    ((g.descriptor env).isValid = false → ∀ it : ArchIter,
      it.nexts env g f r.archetypes n = .ok (List.replicate n none)) := by
  obtain ⟨cs, h⟩ := hr.inv
  have hlen : ∀ {α : Type} (l : List α), (nextsOf l n).length = n := by simp [nextsOf]
  refine ⟨fun it => ?_, fun it => ?_, fun hv hg => ?_, fun hv it => ?_⟩
  · by_cases hv : (g.descriptor env).isValid = true
    · exact ⟨_, ArchIter.nexts_valid h.arch hv f it n, hlen _, fun i j hij hj => nextsOf_fused _ hij hj⟩
    · exact ⟨_, ArchIter.nexts_invalid hv f _ it n, hlen _, fun i j hij hj => nextsOf_fused _ hij hj⟩
  · rw [EntityIter.nexts_eq]
    exact ⟨hlen _, fun i j hij hj => nextsOf_fused _ hij hj⟩
  · have gs := Group.spec hv
    have hpos : 1 ≤ (g.descriptor env).len := by
      have := gs.len; have := gs.wf.pos
      show 1 ≤ (g.descriptor env).archetype.len
      omega
    refine ⟨⟨(g.descriptor env).len - 1, 0⟩, _, ?_, h.iterFilteredComponentsMatching_eq hg hv f, ?_⟩
    · unfold ArchIter.new subU8
      rw [if_pos hpos]
      rfl
    · rw [ArchIter.nexts_valid h.arch hv, ArchIter.ahead_start, List.map_map]
      show _ = Except.ok (nextsOf (List.map (fun i => i) _) n)
      rw [List.map_id']
      rfl
  · rw [ArchIter.nexts_invalid (by rw [hv]; decide), nextsOf_nil]

set_option maxRecDepth 100000 in
/-- C47 on `exR`. -/
example : Reachable exWorld exR ∧ (Group.descriptor exEnv [exA]).isValid = true ∧
    (ArchIter.new exEnv [exA]).bind (fun it => it.nexts exEnv [exA] (fun _ => true) exR.archetypes 5) =
      .ok [some 1, some 0, some 2, none, none] :=
  ⟨exReachable, by decide +kernel, by decide +kernel⟩

end Shard
