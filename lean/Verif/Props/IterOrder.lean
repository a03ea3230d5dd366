import Verif.Spec.Order
import Verif.Proofs.UnsafeContracts
import Verif.Props.RowOrder
import Verif.Props.Limits
/-!
# C98: the order of iteration
-/

set_option autoImplicit false

namespace Shard

open RowOrder (rowsAt placeOf)

variable {env : Env} {W : World env} {r r' : Registry} {cs : List Content}

/-! ## Sorted lists -/

theorem sublist_of_sorted {α : Type} {R : α → α → Prop} (hR : ∀ a b, R a b → ¬ R b a) :
    ∀ {l2 l1 : List α}, l1.Pairwise R → l2.Pairwise R → (∀ x ∈ l1, x ∈ l2) → l1.Sublist l2
  | [], l1, _, _, h => by
    cases l1 with
    | nil => exact List.Sublist.refl _
    | cons a t => exact absurd (h a (List.mem_cons_self)) (by simp)
  | b :: l2, [], _, _, _ => List.nil_sublist _
  | b :: l2, a :: t, h1, h2, h => by
    rw [List.pairwise_cons] at h1 h2
    by_cases hab : a = b
    · subst hab
      refine List.Sublist.cons_cons _ (sublist_of_sorted hR h1.2 h2.2 fun x hx => ?_)
      rcases List.mem_cons.mp (h x (List.mem_cons_of_mem _ hx)) with rfl | hx'
      · exact absurd (h1.1 _ hx) (fun hh => hR _ _ hh hh)
      · exact hx'
    · have ha : a ∈ l2 := by
        rcases List.mem_cons.mp (h a (List.mem_cons_self)) with hh | hh
        · exact absurd hh hab
        · exact hh
      refine List.Sublist.cons _ (sublist_of_sorted hR (List.pairwise_cons.mpr h1) h2.2 fun x hx => ?_)
      rcases List.mem_cons.mp (h x hx) with rfl | hx'
      · rcases List.mem_cons.mp hx with hxa | hxt
        · exact absurd hxa.symm hab
        · exact absurd (h1.1 _ hxt) (hR _ _ (h2.1 _ ha))
      · exact hx'

theorem eq_of_sorted {α : Type} {R : α → α → Prop} (hR : ∀ a b, R a b → ¬ R b a) {l1 l2 : List α} (h1 : l1.Pairwise R)
    (h2 : l2.Pairwise R) (h : ∀ x, x ∈ l1 ↔ x ∈ l2) : l1 = l2 :=
  (sublist_of_sorted hR h1 h2 fun x hx => (h x).mp hx).eq_of_length_le
    (sublist_of_sorted hR h2 h1 fun x hx => (h x).mpr hx).length_le

theorem Before.asymm {i j : Nat} (h : Before r i j) : ¬ Before r j i := by
  obtain ⟨a, b, ha, hb, h⟩ := h
  rintro ⟨b', a', hb', ha', h'⟩
  rw [ha] at ha'; cases ha'
  rw [hb] at hb'; cases hb'
  omega

/-! ## What the iterators visit -/

theorem yielded_sorted (h : RInv W r cs) (g : Group) (f : ArchetypeDescriptor → Bool) :
    (yielded env r.archetypes g f).Pairwise (Before r) := by
  unfold yielded selected
  apply List.Pairwise.filter
  rw [List.pairwise_map]
  have hp : r.archetypes.sortedMappings.flatten.Pairwise
      (fun k k' => Before r k.archetypeIndex.toNat k'.archetypeIndex.toNat) := by
    rw [List.pairwise_flatten]
    constructor
    · intro keys hk
      obtain ⟨l, hl⟩ := List.mem_iff_getElem?.mp hk
      have hs := h.arch.sorted l keys hl
      unfold SortedLt at hs
      rw [List.pairwise_map] at hs
      refine List.Pairwise.imp_of_mem ?_ hs
      intro k k' hk hk' hlt
      obtain ⟨a, ha, hla, hid⟩ := h.arch.keys l keys hl k hk
      obtain ⟨a', ha', hla', hid'⟩ := h.arch.keys l keys hl k' hk'
      refine ⟨a, a', ha, ha', Or.inr ⟨by omega, ?_⟩⟩
      rw [hid, hid']; exact hlt
    · rw [List.pairwise_iff_getElem]
      intro i j hi hj hij k hk k' hk'
      obtain ⟨a, ha, hl, _⟩ := h.arch.keys i _ (List.getElem?_eq_getElem hi) k hk
      obtain ⟨a', ha', hl', _⟩ := h.arch.keys j _ (List.getElem?_eq_getElem hj) k' hk'
      exact ⟨a, a', ha, ha', Or.inl (by omega)⟩
  rw [List.pairwise_flatten] at hp ⊢
  exact ⟨fun l hl => hp.1 l (List.mem_of_mem_drop hl), hp.2.sublist (List.drop_sublist _ _)⟩

theorem mem_yielded_iff (h : RInv W r cs) {g : Group} (hg : ∀ c ∈ g, W.Has c) (hv : (g.descriptor env).isValid = true)
    {f : ArchetypeDescriptor → Bool} {i : Nat} : i ∈ yielded env r.archetypes g f ↔ Visits r g f i := by
  rw [h.arch.mem_yielded hg hv]
  constructor
  · rintro ⟨a, ct, ha, hc, hs, hf⟩
    have hr := h.arch.rep i a ct ha hc
    exact ⟨a, ha, fun c hc => (UnsafeCalls.present_iff hr (hg c hc)).mpr (hs c hc), hf⟩
  · rintro ⟨a, ha, hs, hf⟩
    obtain ⟨ct, hc, hr⟩ := h.arch.content ha
    exact ⟨a, ct, ha, hc, fun c hc => (UnsafeCalls.present_iff hr (hg c hc)).mp (hs c hc), hf⟩

/-- The positions of the archetypes that an iterator visits, in order, with the filter `f`. -/
def Order (env : Env) (r : Registry) (g : Group) (f : ArchetypeDescriptor → Bool) (l : List Nat) : Prop :=
  ∃ items, r.iterFilteredEntityComponentsMatching env g f = .ok items ∧ items.map (fun x => x.1) = l

theorem order_iff (h : RInv W r cs) {g : Group} (hg : ∀ c ∈ g, W.Has c) (hv : (g.descriptor env).isValid = true)
    {f : ArchetypeDescriptor → Bool} {l : List Nat} : Order env r g f l ↔ l = yielded env r.archetypes g f := by
  unfold Order
  rw [h.iterFilteredEntityComponentsMatching_eq hg hv f]
  constructor
  · rintro ⟨items, hi, rfl⟩
    cases hi
    rw [List.map_map]
    exact List.map_id _
  · rintro rfl
    exact ⟨_, rfl, by rw [List.map_map]; exact List.map_id _⟩

/-! ## C98 -/

/-- All four iterators, with and without filter, visit exactly the archetypes that have the types of the group and pass the
filter, also those without entities, each once: archetypes with fewer types first, those with equally many in the order of
their ids; and the handles of an archetype in the order of its rows. -/
theorem C98_order (hr : Reachable W r) {g : Group} (hg : ∀ c ∈ g, W.Has c) (hv : (g.descriptor env).isValid = true)
    (f : ArchetypeDescriptor → Bool) :
    ∃ l : List Nat, l.Pairwise (Before r) ∧ (∀ i, i ∈ l ↔ Visits r g f i) ∧
      (∃ items, r.iterFilteredEntityComponentsMatching env g f = .ok items ∧
        items.map (fun x => (x.1, x.2.1)) = l.map (fun i => (i, rowsAt r i))) ∧
      (∃ items, r.iterFilteredEntityComponentsMatchingMut env g f = .ok items ∧
        items.map (fun x => (x.1, x.2.1)) = l.map (fun i => (i, rowsAt r i))) ∧
      (∃ items, r.iterFilteredComponentsMatching env g f = .ok items ∧ items.map (fun x => x.1) = l) ∧
      (∃ items, r.iterFilteredComponentsMatchingMut env g f = .ok items ∧ items.map (fun x => x.1) = l) := by
  obtain ⟨cs, h⟩ := hr.inv
  have hrows : ∀ i, (contentAt cs i).ents = rowsAt r i := by
    intro i
    rw [RowOrder.rowsAt_eq h]
    unfold contentAt
    cases cs[i]? <;> rfl
  refine ⟨yielded env r.archetypes g f, yielded_sorted h g f, fun i => mem_yielded_iff h hg hv,
    ⟨_, h.iterFilteredEntityComponentsMatching_eq hg hv f, ?_⟩, ⟨_, h.iterFilteredEntityComponentsMatchingMut_eq hg hv f, ?_⟩,
    ⟨_, h.iterFilteredComponentsMatching_eq hg hv f, ?_⟩, ⟨_, h.iterFilteredComponentsMatchingMut_eq hg hv f, ?_⟩⟩
  · rw [List.map_map]; simp only [Function.comp_def, hrows]
  · rw [List.map_map]; simp only [Function.comp_def, hrows]
  · rw [List.map_map]; exact List.map_id _
  · rw [List.map_map]; exact List.map_id _

/-- The iterators without filter visit what those with the filter that passes everything visit. -/
theorem C98_plain (g : Group) :
    r.iterEntityComponentsMatching env g = r.iterFilteredEntityComponentsMatching env g (fun _ => true) ∧
    r.iterEntityComponentsMatchingMut env g = r.iterFilteredEntityComponentsMatchingMut env g (fun _ => true) ∧
    r.iterComponentsMatching env g = r.iterFilteredComponentsMatching env g (fun _ => true) ∧
    r.iterComponentsMatchingMut env g = r.iterFilteredComponentsMatchingMut env g (fun _ => true) :=
  ⟨rfl, rfl, rfl, rfl⟩

/-- `Before` and `Visits` leave no choice: there is only one such list. -/
theorem C98_unique {g : Group} {f : ArchetypeDescriptor → Bool} {l l' : List Nat} (h1 : l.Pairwise (Before r))
    (h2 : ∀ i, i ∈ l ↔ Visits r g f i) (h3 : l'.Pairwise (Before r)) (h4 : ∀ i, i ∈ l' ↔ Visits r g f i) : l = l' :=
  eq_of_sorted (fun _ _ => Before.asymm) h1 h3 (fun i => (h2 i).trans (h4 i).symm)

/-- The order is stable: whatever is called in between, a later iteration visits the archetypes an earlier one has visited in
the same order, with others in between. -/
theorem C98_stable (hr : Reachable W r) {hist : List (Call × Outcome)} (hs : Steps env (Call.Admissible W) r hist r')
    {g : Group} (hg : ∀ c ∈ g, W.Has c) (hv : (g.descriptor env).isValid = true) {f : ArchetypeDescriptor → Bool}
    {l l' : List Nat} (hl : Order env r g f l) (hl' : Order env r' g f l') : l.Sublist l' := by
  obtain ⟨cs, h⟩ := hr.inv
  obtain ⟨cs', h'⟩ := hs.inv (fun _ _ h => h) h
  rw [order_iff h hg hv] at hl
  rw [order_iff h' hg hv] at hl'
  subst hl; subst hl'
  have hkeep : ∀ (i : Nat) (a : Archetype), r.archetypes.archetypes[i]? = some a →
      ∃ a', r'.archetypes.archetypes[i]? = some a' ∧ a'.descriptor = a.descriptor :=
    fun i a ha => hs.descriptors (fun _ _ h => h) h ha
  refine sublist_of_sorted (R := Before r') (fun _ _ => Before.asymm) ?_ (yielded_sorted h' g f) ?_
  · refine (yielded_sorted h g f).imp ?_
    rintro i j ⟨a, b, ha, hb, hab⟩
    obtain ⟨a', ha', ea⟩ := hkeep i a ha
    obtain ⟨b', hb', eb⟩ := hkeep j b hb
    exact ⟨a', b', ha', hb', by rw [ea, eb]; exact hab⟩
  · intro i hi
    rw [mem_yielded_iff h hg hv] at hi
    rw [mem_yielded_iff h' hg hv]
    obtain ⟨a, ha, h1, h2⟩ := hi
    obtain ⟨a', ha', ea⟩ := hkeep i a ha
    exact ⟨a', ha', by rw [ea]; exact h1, by rw [ea]; exact h2⟩

/-- The order does not depend on the order in which the archetypes came into being: two registries with the same archetypes,
at whatever numbers, are visited in the same order. -/
theorem C98_history_free (hr : Reachable W r) (hr' : Reachable W r')
    (hd : ∀ d, (∃ i, descriptorAt r i = some d) ↔ ∃ i, descriptorAt r' i = some d)
    {g : Group} (hg : ∀ c ∈ g, W.Has c) (hv : (g.descriptor env).isValid = true) {f : ArchetypeDescriptor → Bool}
    {l l' : List Nat} (hl : Order env r g f l) (hl' : Order env r' g f l') :
    l.map (descriptorAt r) = l'.map (descriptorAt r') := by
  obtain ⟨cs, h⟩ := hr.inv
  obtain ⟨cs', h'⟩ := hr'.inv
  rw [order_iff h hg hv] at hl
  rw [order_iff h' hg hv] at hl'
  subst hl; subst hl'
  let R : Option ArchetypeDescriptor → Option ArchetypeDescriptor → Prop := fun x y => ∃ a b, x = some a ∧ y = some b ∧
    (a.len < b.len ∨ a.len = b.len ∧ a.archetypeId.toNat < b.archetypeId.toNat)
  have hR : ∀ x y, R x y → ¬ R y x := by
    rintro x y ⟨a, b, rfl, rfl, hab⟩ ⟨b', a', hb, ha, hba⟩
    cases hb; cases ha
    omega
  have hsort : ∀ {r : Registry} {cs : List Content}, RInv W r cs → ((yielded env r.archetypes g f).map (descriptorAt r)).Pairwise R := by
    intro r cs h
    rw [List.pairwise_map]
    refine (yielded_sorted h g f).imp ?_
    rintro i j ⟨a, b, ha, hb, hab⟩
    exact ⟨a.descriptor, b.descriptor, by simp [descriptorAt, ha], by simp [descriptorAt, hb], hab⟩
  have hsub : ∀ {r r' : Registry} {cs cs' : List Content}, RInv W r cs → RInv W r' cs' →
      (∀ d, (∃ i, descriptorAt r i = some d) → ∃ i, descriptorAt r' i = some d) →
      ∀ x, x ∈ (yielded env r.archetypes g f).map (descriptorAt r) → x ∈ (yielded env r'.archetypes g f).map (descriptorAt r') := by
    intro r r' cs cs' h h' hd x hx
    obtain ⟨i, hi, rfl⟩ := List.mem_map.mp hx
    obtain ⟨a, ha, h1, h2⟩ := (mem_yielded_iff h hg hv).mp hi
    have hda : descriptorAt r i = some a.descriptor := by simp [descriptorAt, ha]
    obtain ⟨j, hj⟩ := hd _ ⟨i, hda⟩
    rw [List.mem_map]
    refine ⟨j, (mem_yielded_iff h' hg hv).mpr ?_, by rw [hj, hda]⟩
    unfold descriptorAt at hj
    cases hb : r'.archetypes.archetypes[j]? with
    | none => rw [hb] at hj; cases hj
    | some b =>
      rw [hb] at hj
      have hbd : b.descriptor = a.descriptor := Option.some.inj hj
      exact ⟨b, hb, by rw [hbd]; exact h1, by rw [hbd]; exact h2⟩
  exact eq_of_sorted hR (hsort h) (hsort h') (fun x => ⟨hsub h h' (fun d => (hd d).mp) x, hsub h' h (fun d => (hd d).mpr) x⟩)

/-! ## Examples -/

/-- `exR` is visited for `A` in the order `A`, `A B`, `A B C`; the archetype of `A B` has no entities. -/
example : Reachable exWorld exR ∧ (∀ c ∈ [exA], exWorld.Has c) ∧ ((Group.descriptor exEnv [exA]).isValid = true) ∧
    Order exEnv exR [exA] (fun _ => true) [1, 0, 2] ∧ Order exEnv exR [exA] (fun d => d.len ≠ 2) [1, 2] ∧
    rowsAt exR 0 = [] ∧ rowsAt exR 1 = [exE2] ∧ Before exR 1 0 := by
  have hA : ∀ c ∈ [exA], exWorld.Has c := by
    intro c hc
    simp at hc; rw [hc]
    show exA ∈ [exA, exB, exC]
    decide
  have hv : (Group.descriptor exEnv [exA]).isValid = true := by decide +kernel
  obtain ⟨cs, h⟩ := exReachable.inv
  have h1 : Order exEnv exR [exA] (fun _ => true) [1, 0, 2] := (order_iff h hA hv).mpr (by decide +kernel)
  refine ⟨exReachable, hA, hv, h1, (order_iff h hA hv).mpr (by decide +kernel), by decide +kernel, by decide +kernel, ?_⟩
  have := yielded_sorted h [exA] (fun _ => true)
  rw [← (order_iff h hA hv).mp h1] at this
  exact (List.pairwise_cons.mp this).1 0 (by simp)

/-- The first two calls of `exCalls`. -/
def exHalf : Registry := (okOr ([], Registry.default) (runCalls exEnv Registry.default (exCalls.take 2))).2

set_option maxRecDepth 100000 in
/-- C98_stable from the second call of `exCalls` to the end: `A B`, `A` have become `A`, `A B`, `A B C`. -/
example : Reachable exWorld exHalf ∧ ∃ hist, Steps exEnv (Call.Admissible exWorld) exHalf hist exR ∧ hist.length = 4 ∧
    yielded exEnv exHalf.archetypes [exA] (fun _ => true) = [1, 0] ∧
    yielded exEnv exR.archetypes [exA] (fun _ => true) = [1, 0, 2] := by
  have hok := List.all_eq_true.mp (show exCalls.all exCheck = true by decide +kernel)
  have h1 : runCalls exEnv Registry.default (exCalls.take 2) = .ok (exOuts.take 2, exHalf) := by decide +kernel
  have h2 : runCalls exEnv exHalf (exCalls.drop 2) = .ok (exOuts.drop 2, exR) := by decide +kernel
  refine ⟨⟨_, Steps.of_run (calls := exCalls.take 2) (ok := Call.Admissible exWorld)
      (fun r call hc => exCheck_ok (hok call (List.mem_of_mem_take hc)) r) Steps.nil h1⟩,
    _, Steps.of_run (calls := exCalls.drop 2) (ok := Call.Admissible exWorld)
      (fun r call hc => exCheck_ok (hok call (List.mem_of_mem_drop hc)) r) Steps.nil h2, by decide +kernel, by decide +kernel,
    by decide +kernel⟩

/-- Two programs that make the same archetypes in different order. -/
def exOrder : Bool → List Call
  | true => [.create [exA] [exValA], .create [exC, exA] [exValC, exValA]]
  | false => [.create [exC, exA] [exValC, exValA], .create [exA] [exValA]]

def exAfter (b : Bool) : Registry := (okOr ([], Registry.default) (runCalls exEnv Registry.default (exOrder b))).2

set_option maxRecDepth 100000 in
theorem exAfter_reachable (b : Bool) : Reachable exWorld (exAfter b) := by
  have h1 : runCalls exEnv Registry.default (exOrder b) =
      .ok ((okOr ([], Registry.default) (runCalls exEnv Registry.default (exOrder b))).1, exAfter b) := by
    cases b <;> decide +kernel
  refine ⟨_, Steps.of_run (calls := exOrder b) (ok := Call.Admissible exWorld) (fun r call hc => ?_) Steps.nil h1⟩
  refine exCheck_ok (List.all_eq_true.mp (show (exOrder b).all exCheck = true from ?_) call hc) r
  cases b <;> decide +kernel

theorem exists_descriptorAt {d : ArchetypeDescriptor} :
    (∃ i, descriptorAt r i = some d) ↔ d ∈ r.archetypes.archetypes.map (fun a => a.descriptor) := by
  rw [List.mem_iff_getElem?]
  simp only [descriptorAt, List.getElem?_map]

set_option maxRecDepth 100000 in
/-- C98_history_free: the numbers differ, the order of the component sets does not. -/
example : Reachable exWorld (exAfter true) ∧ Reachable exWorld (exAfter false) ∧
    (∀ d, (∃ i, descriptorAt (exAfter true) i = some d) ↔ ∃ i, descriptorAt (exAfter false) i = some d) ∧
    yielded exEnv (exAfter true).archetypes [exA] (fun _ => true) = [0, 1] ∧
    yielded exEnv (exAfter false).archetypes [exA] (fun _ => true) = [1, 0] := by
  refine ⟨exAfter_reachable true, exAfter_reachable false, fun d => ?_, by decide +kernel, by decide +kernel⟩
  rw [exists_descriptorAt, exists_descriptorAt,
    show (exAfter true).archetypes.archetypes.map (fun a => a.descriptor) =
      ((exAfter false).archetypes.archetypes.map (fun a => a.descriptor)).reverse by decide +kernel]
  exact List.mem_reverse

end Shard
