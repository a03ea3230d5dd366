import Verif.Proofs.RefTables
import Verif.Proofs.IterSpec
/-!
# The order of the visit, and the queries of the reference registry
-/

set_option autoImplicit false

namespace Shard

variable {env : Env} {W : World env}

/-! ## The order of the visit -/

/-- The number of types and the archetype id, as one number. -/
def RTable.weight (t : RTable) : Nat := t.cts.length * 4294967296 + t.id.toNat

theorem RTable.before_iff (t t' : RTable) : t.before t' = true ↔ t.weight < t'.weight := by
  have h1 := t.id.toNat_lt
  have h2 := t'.id.toNat_lt
  unfold RTable.before RTable.weight
  simp only [Bool.or_eq_true, Bool.and_eq_true, decide_eq_true_eq, beq_iff_eq, UInt32.lt_iff_toNat_lt]
  omega

theorem insertTable_perm (x : RTable × Nat) : ∀ l, (insertTable x l).Perm (x :: l)
  | [] => List.Perm.refl _
  | y :: l => by
    unfold insertTable
    split
    · exact List.Perm.refl _
    · exact ((insertTable_perm x l).cons y).trans (List.Perm.swap x y l)

theorem insertTable_sorted {x : RTable × Nat} : ∀ {l}, l.Pairwise (fun a b => a.1.weight ≤ b.1.weight) →
    (insertTable x l).Pairwise (fun a b => a.1.weight ≤ b.1.weight)
  | [], _ => List.pairwise_singleton _ _
  | y :: l, h => by
    obtain ⟨h1, h2⟩ := List.pairwise_cons.mp h
    unfold insertTable
    split
    · next hb =>
      rw [RTable.before_iff] at hb
      refine List.pairwise_cons.mpr ⟨?_, h⟩
      intro z hz
      rcases List.mem_cons.mp hz with rfl | hz
      · omega
      · have := h1 z hz; omega
    · next hb =>
      rw [RTable.before_iff] at hb
      refine List.pairwise_cons.mpr ⟨?_, insertTable_sorted h2⟩
      intro z hz
      rcases List.mem_cons.mp ((insertTable_perm x l).mem_iff.mp hz) with rfl | hz
      · omega
      · exact h1 z hz

theorem visitOrder_spec (ts : List RTable) : (visitOrder ts).Perm ts.zipIdx ∧
    (visitOrder ts).Pairwise (fun a b => a.1.weight ≤ b.1.weight) := by
  unfold visitOrder
  induction ts.zipIdx with
  | nil => exact ⟨List.Perm.refl _, List.Pairwise.nil⟩
  | cons x l ih => exact ⟨(insertTable_perm x _).trans (ih.1.cons x), insertTable_sorted ih.2⟩

theorem mem_visits {ts : List RTable} {g : Group} {f : ArchetypeDescriptor → Bool} {x : RTable × Nat} :
    x ∈ visits ts g f ↔ ts[x.2]? = some x.1 ∧ (∀ c ∈ g, c ∈ x.1.cts) ∧ f x.1.desc = true := by
  unfold visits
  rw [List.mem_filter, (visitOrder_spec ts).1.mem_iff, List.mem_zipIdx_iff_getElem?]
  simp only [Bool.and_eq_true, List.all_eq_true, decide_eq_true_eq]

theorem visits_nodup (ts : List RTable) (g : Group) (f : ArchetypeDescriptor → Bool) :
    ((visits ts g f).map Prod.snd).Nodup := by
  have h1 : ((visitOrder ts).map Prod.snd).Nodup := by
    rw [((visitOrder_spec ts).1.map Prod.snd).nodup_iff]
    have : ts.zipIdx.map Prod.snd = List.range' 0 ts.length := List.zipIdx_map_snd ..
    rw [this]
    exact List.nodup_range' ..
  exact h1.sublist ((List.filter_sublist (p := _)).map _)

/-- The weight of the table at a position. -/
def weightAt (ts : List RTable) (i : Nat) : Nat :=
  match ts[i]? with
  | some t => t.weight
  | none => 0

theorem visits_sorted (ts : List RTable) (g : Group) (f : ArchetypeDescriptor → Bool) :
    ((visits ts g f).map Prod.snd).Pairwise (fun i j => weightAt ts i ≤ weightAt ts j) := by
  rw [List.pairwise_map]
  have h := (visitOrder_spec ts).2.filter (fun x => g.all (fun c => decide (c ∈ x.1.cts)) && f x.1.desc)
  have hm : ∀ x ∈ visits ts g f, weightAt ts x.2 = x.1.weight := by
    intro x hx
    unfold weightAt
    rw [(mem_visits.mp hx).1]
  refine List.Pairwise.imp_of_mem ?_ h
  intro a b ha hb hab
  rw [hm a ha, hm b hb]; exact hab

section

variable {ar : ArchetypeRegistry} {cs : List Content}

theorem ARInv.weightAt_eq (h : ARInv W ar cs) {i : Nat} {a : Archetype} (ha : ar.archetypes[i]? = some a) :
    weightAt (tablesOf ar.idsOf cs) i = a.descriptor.len * 4294967296 + a.descriptor.archetypeId.toNat := by
  obtain ⟨ct, hc, hr⟩ := h.content ha
  unfold weightAt
  rw [ARInv.table hc ha]
  simp only [RTable.weight]
  rw [hr.desc.length]

theorem ARInv.yielded_sorted (h : ARInv W ar cs) (g : Group) (f : ArchetypeDescriptor → Bool) :
    (yielded env ar g f).Pairwise (fun i j => weightAt (tablesOf ar.idsOf cs) i < weightAt (tablesOf ar.idsOf cs) j) := by
  unfold yielded selected
  apply List.Pairwise.filter
  rw [List.pairwise_map]
  have hall : ar.sortedMappings.flatten.Pairwise (fun k k' =>
      weightAt (tablesOf ar.idsOf cs) k.archetypeIndex.toNat < weightAt (tablesOf ar.idsOf cs) k'.archetypeIndex.toNat) := by
    rw [List.pairwise_flatten]
    constructor
    · intro keys hk
      obtain ⟨l, hl⟩ := List.mem_iff_getElem?.mp hk
      have hs := h.sorted l keys hl
      unfold SortedLt at hs
      rw [List.pairwise_map] at hs
      refine List.Pairwise.imp_of_mem ?_ hs
      intro k k' hk hk' hlt
      obtain ⟨a, a1, a2, a3⟩ := h.keys l keys hl k hk
      obtain ⟨b, b1, b2, b3⟩ := h.keys l keys hl k' hk'
      rw [h.weightAt_eq a1, h.weightAt_eq b1, a2, b2, a3, b3]
      omega
    · rw [List.pairwise_iff_getElem]
      intro i j hi hj hij k hk k' hk'
      obtain ⟨a, a1, a2, a3⟩ := h.keys i _ (List.getElem?_eq_getElem hi) k hk
      obtain ⟨b, b1, b2, b3⟩ := h.keys j _ (List.getElem?_eq_getElem hj) k' hk'
      rw [h.weightAt_eq a1, h.weightAt_eq b1, a2, b2]
      have h1 := a.descriptor.archetypeId.toNat_lt
      omega
  rw [List.pairwise_flatten] at hall ⊢
  exact ⟨fun l hl => hall.1 l (List.mem_of_mem_drop hl), hall.2.sublist (List.drop_sublist _ _)⟩

theorem Rep.desc_seen {a : Archetype} {ct : Content} (hr : Rep W a ct) {f : ArchetypeDescriptor → Bool} (hf : Observing f) :
    f (⟨ct.cts, a.descriptor.archetypeId, ct.rows⟩ : RTable).desc = f a.descriptor := by
  apply hf
  · rfl
  · exact hr.desc.length
  · rw [hr.desc.comps]
    show (ct.cts.map CompTy.descriptor).take ct.cts.length = _
    rw [List.take_of_length_le (by simp)]

/-- The positions the reference visits are those the iterators visit, in the same order. -/
theorem ARInv.visits_eq (h : ARInv W ar cs) {g : Group} (hg : ∀ c ∈ g, W.Has c) (hv : (g.descriptor env).isValid = true)
    {f : ArchetypeDescriptor → Bool} (hf : Observing f) :
    (visits (tablesOf ar.idsOf cs) g f).map Prod.snd = yielded env ar g f := by
  have hmem : ∀ i, i ∈ (visits (tablesOf ar.idsOf cs) g f).map Prod.snd ↔ i ∈ yielded env ar g f := by
    intro i
    rw [h.mem_yielded hg hv, List.mem_map]
    constructor
    · rintro ⟨x, hx, rfl⟩
      obtain ⟨h1, h2, h3⟩ := mem_visits.mp hx
      obtain ⟨id, ct, q1, q2, q3⟩ := tablesOf_some h1
      obtain ⟨a, ha, hr⟩ := h.arch q2
      have := ARInv.table q2 ha
      rw [h1] at this
      injection this with this
      rw [this] at h2 h3
      exact ⟨a, ct, ha, q2, h2, by rw [← hr.desc_seen hf]; exact h3⟩
    · rintro ⟨a, ct, ha, hc, hs, hfa⟩
      have hr := h.rep i a ct ha hc
      exact ⟨(⟨ct.cts, a.descriptor.archetypeId, ct.rows⟩, i), mem_visits.mpr ⟨ARInv.table hc ha, hs,
        by rw [hr.desc_seen hf]; exact hfa⟩, rfl⟩
  apply List.Perm.eq_of_pairwise
    (le := fun i j => weightAt (tablesOf ar.idsOf cs) i ≤ weightAt (tablesOf ar.idsOf cs) j) ?_ (visits_sorted ..)
    ((h.yielded_sorted (env := env) g f).imp Nat.le_of_lt)
  · exact (List.perm_ext_iff_of_nodup (visits_nodup ..) (h.yielded_nodup g f)).mpr hmem
  · intro i j hi hj h1 h2
    obtain ⟨a, _, ha, _⟩ := (h.mem_yielded hg hv).mp ((hmem i).mp hi)
    obtain ⟨b, _, hb, _⟩ := (h.mem_yielded hg hv).mp hj
    rw [h.weightAt_eq ha, h.weightAt_eq hb] at h1 h2
    have l1 := a.descriptor.archetypeId.toNat_lt
    have l2 := b.descriptor.archetypeId.toNat_lt
    refine h.unique_index ha hb (by omega) (UInt32.toNat_inj.mp (by omega))

/-- The visited tables are the contents at the visited positions. -/
theorem ARInv.visits_map {α : Type} (h : ARInv W ar cs) {g : Group} (hg : ∀ c ∈ g, W.Has c)
    (hv : (g.descriptor env).isValid = true) {f : ArchetypeDescriptor → Bool} (hf : Observing f) {F : RTable → Nat → α}
    {G : Nat → α} (hFG : ∀ (i : Nat) (a : Archetype) (ct : Content), ar.archetypes[i]? = some a → cs[i]? = some ct →
      (∀ c ∈ g, c ∈ ct.cts) → F ⟨ct.cts, a.descriptor.archetypeId, ct.rows⟩ i = G i) :
    (visits (tablesOf ar.idsOf cs) g f).map (fun x => F x.1 x.2) = (yielded env ar g f).map G := by
  rw [← h.visits_eq hg hv hf, List.map_map]
  apply List.map_congr_left
  intro x hx
  obtain ⟨h1, h2, _⟩ := mem_visits.mp hx
  obtain ⟨id, ct, q1, q2, q3⟩ := tablesOf_some h1
  obtain ⟨a, ha, hr⟩ := h.arch q2
  have := ARInv.table q2 ha
  rw [h1] at this
  injection this with this
  rw [this] at h2
  show F x.1 x.2 = G x.2
  rw [this]
  exact hFG _ _ _ ha q2 h2

/-! ## Columns -/

theorem Rep.tableColumn {a : Archetype} {ct : Content} (hr : Rep W a ct) {c : CompTy} (hc : c ∈ ct.cts) (id : UInt32) :
    (⟨ct.cts, id, ct.rows⟩ : RTable).column c = ct.col c := by
  unfold RTable.column
  apply List.ext_getElem?
  intro k
  rw [List.getElem?_map, Content.rows_getElem?, (hr.col_getElem? hc k).1]
  cases he : ct.ents[k]? with
  | none =>
    rw [List.getElem?_eq_none_iff] at he
    simp only [Option.map_none]
    symm
    cases hx : ct.get c k with
    | none => rfl
    | some v => have := (hr.mem_of_get hx).2; omega
  | some e =>
    have hk := (List.getElem?_eq_some_iff.mp he).1
    obtain ⟨v, hv, _⟩ := hr.get_some hc hk
    simp only [Option.map_some]
    rw [hr.valOf_row hk, hv]; rfl

theorem Rep.columns {a : Archetype} {ct : Content} (hr : Rep W a ct) (id : UInt32) :
    ct.cts.flatMap (⟨ct.cts, id, ct.rows⟩ : RTable).column = ct.cols.flatten := by
  rw [List.flatMap_def]
  congr 1
  apply List.ext_getElem?
  intro i
  rw [List.getElem?_map]
  have hcl := hr.cols.cols_len
  by_cases hi : i < ct.cts.length
  · have h1 := List.getElem?_eq_getElem hi
    have h2 := List.getElem?_eq_getElem (by omega : i < ct.cols.length)
    rw [h1, h2]
    simp only [Option.map_some]
    rw [hr.tableColumn (List.getElem_mem hi)]
    unfold Content.col
    rw [lookupTy_of_getElem? hr.nodup h1 h2]; rfl
  · rw [List.getElem?_eq_none (by omega), List.getElem?_eq_none (by omega)]; rfl

theorem ARInv.all_eq (h : ARInv W ar cs) :
    (tablesOf ar.idsOf cs).flatMap (fun t => t.cts.flatMap t.column) = stored cs := by
  unfold stored
  rw [List.flatMap_def]
  congr 1
  apply List.ext_getElem?
  intro i
  rw [List.getElem?_map, List.getElem?_map]
  cases hc : cs[i]? with
  | none =>
    have : (tablesOf ar.idsOf cs)[i]? = none := by
      rw [List.getElem?_eq_none_iff] at hc ⊢
      rw [tablesOf_length h.ids_length]; exact hc
    rw [this]; rfl
  | some ct =>
    obtain ⟨a, ha, hr⟩ := h.arch hc
    rw [ARInv.table hc ha]
    simp only [Option.map_some]
    rw [hr.columns]

/-! ## The exact table -/

theorem ARInv.exactIndex_eq (h : ARInv W ar cs) {g : Group} (hg : W.OkGroup g) (hv : (g.descriptor env).isValid = true) :
    ar.findArchetype env (g.descriptor env).archetype = .ok (exactIndex env (tablesOf ar.idsOf cs) g) := by
  have hrel : ArchRel W ar ar.keysOf := ⟨⟨cs, h⟩, rfl⟩
  obtain ⟨x, h1, h2, h3⟩ := hrel.find hg
  obtain ⟨hw, hid⟩ := Group.isValid_iff.mp hv
  rw [Group.archetypeId_idSet hw] at hid
  have hkey : g.key env = some (g.idSet, groupId env g.idSet) := by
    unfold Group.key
    rw [if_pos ⟨hw.pos, hw.le, hw.nodup⟩]
  simp only [ArchCall.ref, hkey] at h2
  rw [if_neg (show ¬ groupId env g.idSet = 4294967295 from hid)] at h2
  simp only [Option.some.injEq, Prod.mk.injEq, true_and] at h2
  unfold exactIndex
  rw [createdId_eq env (by rw [(sortTys_perm g).length_eq]; exact hw.le), ← (sortTys_perm g).length_eq, tableIndex_key, h.keys_tables, sortTys_ids hw.nodup, h2]
  simp only [ArchCall.run] at h1
  cases hf : ar.findArchetype env (g.descriptor env).archetype with
  | error _ => rw [hf] at h1; cases h1
  | ok i => rw [hf] at h1; cases h1; rfl

end

/-! ## Slots -/

theorem zipIdx_filterMap {α β : Type} {F : α × Nat → Option β} {p : Nat → Bool} {H : Nat → β} : ∀ {l : List α} {cur : Nat},
    (∀ (i : Nat) (x : α), l[i]? = some x → F (x, cur + i) = if p (cur + i) then some (H (cur + i)) else none) →
    (l.zipIdx cur).filterMap F = ((List.range' cur l.length).filter p).map H
  | [], _, _ => rfl
  | x :: l, cur, h => by
    have h0 := h 0 x rfl
    have ih := zipIdx_filterMap (F := F) (p := p) (H := H) (l := l) (cur := cur + 1) (fun i y hy => by
      have := h (i + 1) y hy
      rw [show cur + 1 + i = cur + (i + 1) by omega]; exact this)
    rw [List.zipIdx_cons, List.length_cons, List.range'_succ]
    rw [Nat.add_zero] at h0
    cases hp : p cur with
    | true =>
      rw [List.filter_cons_of_pos hp, List.map_cons, List.filterMap_cons_some (by rw [h0, hp]; rfl), ih]
    | false =>
      rw [List.filter_cons_of_neg (by simp [hp]), List.filterMap_cons_none (by rw [h0, hp]; rfl), ih]

theorem SlotRel.entities {er : EntityRegistry} {R : RReg} (h : SlotRel env er R.versions R.free) :
    er.iter env = R.entities := by
  rw [iter_eq]
  unfold liveFrom RReg.entities
  have hlen : R.versions.length = er.entities.length := by rw [h.versions, List.length_map]
  rw [List.drop_zero, hlen, List.range_eq_range']
  apply zipIdx_filterMap
  intro i en hi
  rw [Nat.zero_add]
  have := h.free.2.2 i en hi
  simp only []
  cases hv : en.isValid env with
  | true =>
    rw [hv] at this
    simp only [Bool.true_eq_false, false_iff] at this
    rw [if_pos rfl, if_pos (decide_eq_true this)]
    unfold RReg.handle
    rw [h.versions, List.getElem?_map, hi]; rfl
  | false =>
    rw [if_neg (by decide), if_neg (by simp [this.mp hv])]

end Shard
