import Verif.Spec.Temporary
import Verif.Props.IterOrder
import Verif.Props.Exact
/-!
# C126: entities made and ended again leave the order of the others alone
-/

set_option autoImplicit false

namespace Shard

open RowOrder (rowsAt placeOf Leaves Joins Keeps)

variable {env : Env} {W : World env} {r r' : Registry}

theorem swapRemove_append {α : Type} (a b : List α) {k : Nat} (hk : a.length ≤ k) (hk' : k < a.length + b.length) :
    swapRemove (a ++ b) k = a ++ swapRemove b (k - a.length) := by
  apply List.ext_getElem?
  intro j
  rw [swapRemove_getElem? (by rw [List.length_append]; exact hk'), List.length_append]
  by_cases hj : j < a.length
  · rw [if_neg (by omega), if_neg (by omega), List.getElem?_append_left hj, List.getElem?_append_left hj]
  · rw [List.getElem?_append_right (l₁ := a) (l₂ := swapRemove b (k - a.length)) (by omega), swapRemove_getElem? (by omega),
      List.getElem?_append_right (i := a.length + b.length - 1) (by omega),
      List.getElem?_append_right (i := j) (by omega)]
    have h1 : (a.length + b.length - 1 ≤ j) ↔ (b.length - 1 ≤ j - a.length) := by omega
    have h2 : (j = k) ↔ (j - a.length = k - a.length) := by omega
    have h3 : a.length + b.length - 1 - a.length = b.length - 1 := by omega
    rw [h3]
    simp only [h1, h2]

theorem mem_of_swapRemove {α : Type} {l : List α} {k : Nat} (hk : k < l.length) {x : α} (h : x ∈ swapRemove l k) : x ∈ l := by
  obtain ⟨j, hj⟩ := List.getElem?_of_mem h
  rw [swapRemove_getElem? hk] at hj
  split at hj
  · cases hj
  · split at hj
    · exact List.mem_of_getElem? hj
    · exact List.mem_of_getElem? hj

/-- The live entities are those in the rows. -/
theorem live_iff_row (hr : Reachable W r) (e : Entity) : Live env r e ↔ ∃ i, e ∈ rowsAt r i := by
  obtain ⟨cs, h⟩ := hr.inv
  constructor
  · intro hl
    obtain ⟨f, hf⟩ := h.live_iff.mp hl
    obtain ⟨en, hen⟩ := h.look_some hf
    refine ⟨(en.archetypeIndex env).toNat, List.mem_of_getElem? (i := en.indexInArchetype.value.toNat)
      ((RowOrder.place_iff h e _ _).mp ?_)⟩
    unfold placeOf
    rw [hen]
  · rintro ⟨i, hi⟩
    obtain ⟨k, hk⟩ := List.getElem?_of_mem hi
    rw [RowOrder.rowsAt_eq h] at hk
    cases hc : cs[i]? with
    | none => rw [hc] at hk; simp at hk
    | some ct =>
      rw [hc] at hk
      exact h.live_iff.mpr ⟨_, h.row_look hc hk⟩

/-- **C126** A piece of code that neither ends nor moves the entities that were live when it began leaves their rows where they
were, in their order; the rows of its own entities come after them, whatever it does with these. -/
theorem C126_prefix (hr : Reachable W r) {hist : List (Call × Outcome)} (hs : Steps env (Call.Spares W r) r hist r') :
    Reachable W r' ∧ ∀ i, ∃ new, rowsAt r' i = rowsAt r i ++ new ∧ ∀ e ∈ new, ¬ Live env r e := by
  induction hs with
  | nil => exact ⟨hr, fun i => ⟨[], (List.append_nil _).symm, fun e h => by simp at h⟩⟩
  | @snoc hist r1 r2 call out _ h2 h3 ih =>
    obtain ⟨hr1, ih⟩ := ih
    have hr2 := hr1.snoc h2.1 h3
    refine ⟨hr2, ?_⟩
    have hleave : ∀ {e : Entity} {i k : Nat}, ¬ Live env r e → Leaves r1 r2 e i k →
        ∃ new, rowsAt r2 i = rowsAt r i ++ new ∧ ∀ x ∈ new, ¬ Live env r x := by
      intro e i k hd hl
      obtain ⟨new, n1, n2⟩ := ih i
      have hk := (List.getElem?_eq_some_iff.mp hl.1).1
      have hge : (rowsAt r i).length ≤ k := by
        apply Nat.le_of_not_lt
        intro hlt
        have he := hl.1
        rw [n1, List.getElem?_append_left hlt] at he
        exact hd ((live_iff_row hr e).mpr ⟨i, List.mem_of_getElem? he⟩)
      rw [n1, List.length_append] at hk
      refine ⟨swapRemove new (k - (rowsAt r i).length), ?_, fun x hx => n2 x (mem_of_swapRemove (by omega) hx)⟩
      rw [hl.2, n1, swapRemove_append _ _ hge hk]
    have hkeep : ∀ {i : Nat}, Keeps r1 r2 i → ∃ new, rowsAt r2 i = rowsAt r i ++ new ∧ ∀ x ∈ new, ¬ Live env r x := by
      intro i hk
      obtain ⟨new, n1, n2⟩ := ih i
      exact ⟨new, by rw [hk, n1], n2⟩
    have hjoin : ∀ {e : Entity} {j : Nat}, ¬ Live env r e → Joins r1 r2 e j →
        ∃ new, rowsAt r2 j = rowsAt r j ++ new ∧ ∀ x ∈ new, ¬ Live env r x := by
      intro e j hd hj
      obtain ⟨new, n1, n2⟩ := ih j
      refine ⟨new ++ [e], by rw [hj, n1, List.append_assoc], fun x hx => ?_⟩
      rcases List.mem_append.mp hx with hx | hx
      · exact n2 x hx
      · rw [List.mem_singleton.mp hx]
        exact hd
    cases RowOrder.C95_rows hr1 h2.1 h3 with
    | made e j hc ho hv hj hk =>
      have hd : ¬ Live env r e := by
        intro hl
        obtain ⟨i, hi⟩ := (live_iff_row hr e).mp hl
        obtain ⟨m, hm⟩ := List.getElem?_of_mem hi
        obtain ⟨new, n1, _⟩ := ih i
        have hlt := (List.getElem?_eq_some_iff.mp hm).1
        have hm1 : (rowsAt r1 i)[m]? = some e := by rw [n1, List.getElem?_append_left hlt]; exact hm
        have hlt1 := (List.getElem?_eq_some_iff.mp hm1).1
        have hend : placeOf env r2 e = some (j, (rowsAt r1 j).length) := by
          rw [RowOrder.C95_agree hr2, hj]
          simp
        have hold : placeOf env r2 e = some (i, m) := by
          rw [RowOrder.C95_agree hr2]
          by_cases hij : i = j
          · subst hij
            rw [hj, List.getElem?_append_left hlt1]
            exact hm1
          · rw [hk i hij]
            exact hm1
        rw [hend] at hold
        cases hold
        omega
      intro i
      by_cases hij : i = j
      · subst hij; exact hjoin hd hj
      · exact hkeep (hk i hij)
    | ended e i k hd ho hc hl hk =>
      have hd' : ¬ Live env r e := by
        rcases hd with rfl | ⟨g, rfl⟩ <;> exact h2.2 e rfl
      intro n
      by_cases hn : n = i
      · subst hn; exact hleave hd' hl
      · exact hkeep (hk n hn)
    | moved e i k j hm ho hs' hne hl hj hk =>
      have hd' : ¬ Live env r e := by
        rcases hm with ⟨_, _, rfl⟩ | ⟨_, rfl⟩ <;> exact h2.2 e rfl
      intro n
      by_cases hn : n = i
      · subst hn; exact hleave hd' hl
      · by_cases hn' : n = j
        · subst hn'; exact hjoin hd' hj
        · exact hkeep (hk n hn hn')
    | none ho hs' hk => exact fun i => hkeep (hk i)

theorem Steps.admissible {r₀ : Registry} {hist : List (Call × Outcome)} (hs : Steps env (Call.Spares W r₀) r hist r') :
    Steps env (Call.Admissible W) r hist r' := by
  induction hs with
  | nil => exact .nil
  | snoc _ h2 h3 ih => exact ih.snoc h2.1 h3

theorem flatMap_sublist {α β : Type} {f f' : α → List β} : ∀ {l l' : List α}, l.Sublist l' → (∀ i, (f i).Sublist (f' i)) →
    (l.flatMap f).Sublist (l'.flatMap f')
  | _, _, .slnil, _ => List.Sublist.refl _
  | _, _, .cons a h, hf => by
    rw [List.flatMap_cons]
    exact (flatMap_sublist h hf).trans (List.sublist_append_right _ _)
  | _, _, .cons_cons a h, hf => by
    rw [List.flatMap_cons, List.flatMap_cons]
    exact (hf a).append (flatMap_sublist h hf)

/-- **C126** All entities an iterator visited when the code began, it visits afterwards in the same order, with new ones in
between; and exactly these, if all entities the code has made are gone. -/
theorem C126_order (hr : Reachable W r) {hist : List (Call × Outcome)} (hs : Steps env (Call.Spares W r) r hist r') {g : Group}
    (hg : ∀ c ∈ g, W.Has c) (hv : (g.descriptor env).isValid = true) (f : ArchetypeDescriptor → Bool) :
    ∃ items items', r.iterFilteredEntityComponentsMatching env g f = .ok items ∧
      r'.iterFilteredEntityComponentsMatching env g f = .ok items' ∧
      (items.flatMap (fun x => x.2.1)).Sublist (items'.flatMap (fun x => x.2.1)) ∧
      (∀ e ∈ items'.flatMap (fun x => x.2.1), Live env r e → e ∈ items.flatMap (fun x => x.2.1)) ∧
      ((∀ e, Live env r' e → Live env r e) → items'.flatMap (fun x => x.2.1) = items.flatMap (fun x => x.2.1)) := by
  obtain ⟨hr', hpre⟩ := C126_prefix hr hs
  obtain ⟨l, l1, l2, ⟨items, i1, i2⟩, _⟩ := C98_order hr hg hv f
  obtain ⟨l', l1', l2', ⟨items', i1', i2'⟩, _⟩ := C98_order hr' hg hv f
  have hflat : items.flatMap (fun x => x.2.1) = l.flatMap (rowsAt r) := by
    have := congrArg (List.flatMap (fun x : Nat × List Entity => x.2)) i2
    rw [List.flatMap_map, List.flatMap_map] at this
    exact this
  have hflat' : items'.flatMap (fun x => x.2.1) = l'.flatMap (rowsAt r') := by
    have := congrArg (List.flatMap (fun x : Nat × List Entity => x.2)) i2'
    rw [List.flatMap_map, List.flatMap_map] at this
    exact this
  have hmap : items.map (fun x => x.1) = l := by
    have := congrArg (List.map (fun x : Nat × List Entity => x.1)) i2
    rw [List.map_map, List.map_map] at this
    simpa [Function.comp_def] using this
  have hmap' : items'.map (fun x => x.1) = l' := by
    have := congrArg (List.map (fun x : Nat × List Entity => x.1)) i2'
    rw [List.map_map, List.map_map] at this
    simpa [Function.comp_def] using this
  have hs' : Steps env (Call.Admissible W) r hist r' := hs.admissible
  have hsub : l.Sublist l' := C98_stable hr hs' hg hv ⟨items, i1, hmap⟩ ⟨items', i1', hmap'⟩
  have hS : (l.flatMap (rowsAt r)).Sublist (l'.flatMap (rowsAt r')) := flatMap_sublist hsub (fun i => by
    obtain ⟨new, n1, _⟩ := hpre i
    rw [n1]
    exact List.sublist_append_left _ _)
  -- an archetype that is visited only afterwards held none of the entities
  have hlate : ∀ i ∈ l', i ∉ l → rowsAt r i = [] := by
    intro i hi hn
    cases ha : r.archetypes.archetypes[i]? with
    | none => unfold rowsAt; rw [ha]
    | some a =>
      exfalso
      obtain ⟨cs, h⟩ := hr.inv
      obtain ⟨a', ha', ea⟩ := hs'.descriptors (fun _ _ h => h) h ha
      obtain ⟨a'', hb, v1, v2⟩ := (l2' i).mp hi
      rw [ha'] at hb; cases hb
      rw [ea] at v1 v2
      exact hn ((l2 i).mpr ⟨a, ha, v1, v2⟩)
  have hback : ∀ e ∈ l'.flatMap (rowsAt r'), Live env r e → e ∈ l.flatMap (rowsAt r) := by
    intro e he hl
    obtain ⟨i, hi, hei⟩ := List.mem_flatMap.mp he
    obtain ⟨new, n1, n2⟩ := hpre i
    rw [n1] at hei
    rcases List.mem_append.mp hei with hei | hei
    · refine List.mem_flatMap.mpr ⟨i, ?_, hei⟩
      apply Classical.byContradiction
      intro hn
      rw [hlate i hi hn] at hei
      cases hei
    · exact absurd hl (n2 e hei)
  refine ⟨items, items', i1, i1', by rw [hflat, hflat']; exact hS, by rw [hflat, hflat']; exact hback, fun hgone => ?_⟩
  rw [hflat, hflat']
  have hrows : ∀ i, rowsAt r' i = rowsAt r i := by
    intro i
    obtain ⟨new, n1, n2⟩ := hpre i
    cases new with
    | nil => rw [n1, List.append_nil]
    | cons x new =>
      exact absurd (hgone x ((live_iff_row hr' x).mpr ⟨i, by rw [n1]; simp⟩)) (n2 x List.mem_cons_self)
  have hkey : ∀ {l l' : List Nat}, l.Sublist l' → (∀ i ∈ l', i ∉ l → rowsAt r i = []) → l'.Nodup →
      l'.flatMap (rowsAt r') = l.flatMap (rowsAt r) := by
    intro l l' hsub
    induction hsub with
    | slnil => intro _ _; rfl
    | @cons l l' a hsub ih =>
      intro h1 h2
      rw [List.nodup_cons] at h2
      rw [List.flatMap_cons, hrows, h1 a List.mem_cons_self (fun hh => h2.1 (hsub.subset hh)), List.nil_append]
      exact ih (fun i hi => h1 i (List.mem_cons_of_mem _ hi)) h2.2
    | @cons_cons l l' a hsub ih =>
      intro h1 h2
      rw [List.nodup_cons] at h2
      rw [List.flatMap_cons, List.flatMap_cons, hrows]
      congr 1
      refine ih (fun i hi hn => h1 i (List.mem_cons_of_mem _ hi) ?_) h2.2
      rw [List.mem_cons, not_or]
      exact ⟨fun hh => h2.1 (by rw [← hh]; exact hi), hn⟩
  refine hkey hsub hlate (l1'.imp ?_)
  rintro i j hb rfl
  exact hb.asymm hb

/-- Exact iteration yields the rows of one archetype. -/
theorem RInv.exact_rows {cs : List Content} (h : RInv W r cs) {g : Group} (hg : W.OkGroup g)
    (hv : (g.descriptor env).isValid = true) :
    (∃ i cols, r.archetypes.findArchetype env (g.descriptor env).archetype = .ok (some i) ∧
      r.iterEntityComponentsExact env g = .ok (rowsAt r i, cols)) ∨
    (r.archetypes.findArchetype env (g.descriptor env).archetype = .ok none ∧
      ∃ cols, r.iterEntityComponentsExact env g = .ok ([], cols)) := by
  rcases h.iterExact_eq hg hv with ⟨i, a, ct, w1, w2, w3, w4, w5, w6, w7, w8, w9⟩ | ⟨w1, w2, w3, w4, w5⟩
  · refine Or.inl ⟨i, g.map (fun c => ct.col c), w1, ?_⟩
    rw [w8, RowOrder.rowsAt_eq h, w3]
    rfl
  · exact Or.inr ⟨w1, _, w4⟩

/-- **C126** Exact iteration yields what it yielded when the code began, in the same order, and then entities the code has
made. -/
theorem C126_exact (hr : Reachable W r) {hist : List (Call × Outcome)} (hs : Steps env (Call.Spares W r) r hist r') {g : Group}
    (hg : W.OkGroup g) (hv : (g.descriptor env).isValid = true) :
    ∃ ents cols new cols', r.iterEntityComponentsExact env g = .ok (ents, cols) ∧
      r'.iterEntityComponentsExact env g = .ok (ents ++ new, cols') ∧ ∀ e ∈ new, ¬ Live env r e ∧ Live env r' e := by
  obtain ⟨hr', hpre⟩ := C126_prefix hr hs
  obtain ⟨cs, h⟩ := hr.inv
  obtain ⟨cs', h'⟩ := hr'.inv
  have hs' := hs.admissible
  have hd := Group.descOK hg hv
  have hnew : ∀ (i : Nat) (new : List Entity), rowsAt r' i = rowsAt r i ++ new → (∀ e ∈ new, ¬ Live env r e) →
      ∀ e ∈ new, ¬ Live env r e ∧ Live env r' e := fun i new n1 n2 e he =>
    ⟨n2 e he, (live_iff_row hr' e).mpr ⟨i, by rw [n1]; exact List.mem_append_right _ he⟩⟩
  rcases h.exact_rows hg hv with ⟨i, cols, f1, f2⟩ | ⟨f1, cols, f2⟩
  · have hfind : r'.archetypes.findArchetype env (g.descriptor env).archetype = .ok (some i) := by
      rcases h.arch.findArchetype_spec (env := env) hd.wf hd.valid with ⟨j, b, h1, h2, h3, h4⟩ | ⟨h1, _⟩
      · rw [f1] at h1; cases h1
        obtain ⟨b', hb', eb⟩ := hs'.descriptors (fun _ _ h => h) h h2
        exact h'.arch.find_of hb' (by rw [eb]; exact h3.symm) (by rw [eb]; exact h4.symm)
      · rw [f1] at h1; cases h1
    rcases h'.exact_rows hg hv with ⟨i', cols', k1, k2⟩ | ⟨k1, _⟩
    · rw [hfind] at k1
      cases k1
      obtain ⟨new, n1, n2⟩ := hpre i
      exact ⟨_, cols, new, cols', f2, by rw [k2, n1], hnew i new n1 n2⟩
    · rw [hfind] at k1; cases k1
  · rcases h'.exact_rows hg hv with ⟨i', cols', k1, k2⟩ | ⟨k1, cols', k2⟩
    · obtain ⟨new, n1, n2⟩ := hpre i'
      have hempty : rowsAt r i' = [] := by
        cases ha : r.archetypes.archetypes[i']? with
        | none => unfold rowsAt; rw [ha]
        | some a =>
          exfalso
          obtain ⟨a', ha', ea⟩ := hs'.descriptors (fun _ _ h => h) h ha
          rcases h.arch.findArchetype_spec (env := env) hd.wf hd.valid with ⟨j, b, h1, _⟩ | ⟨_, h1⟩
          · rw [f1] at h1; cases h1
          · rcases h'.arch.findArchetype_spec (env := env) hd.wf hd.valid with ⟨j, b, q1, q2, q3, q4⟩ | ⟨q1, _⟩
            · rw [k1] at q1; cases q1
              rw [ha'] at q2; cases q2
              rw [ea] at q3 q4
              exact h1 i' a ha q3 q4
            · rw [k1] at q1; cases q1
      exact ⟨_, cols, new, cols', f2, by rw [k2, n1, hempty], hnew i' new n1 n2⟩
    · exact ⟨_, cols, [], cols', f2, k2, fun e he => by simp at he⟩

/-! ## Examples -/

/-- Entities made in `exR`. -/
def tempE (i : UInt32) : Entity := Entity.newUnchecked i 0

/-- Two entities are made in `exR`, an old one is written to, the first of the two gets a component, and both are destroyed. -/
def tempCalls : List Call :=
  [.create [exA] [exValA], .create [exA] [exValA'], .write exE2 exA exValA, .add (tempE 3) exB exValB, .destroy (tempE 3),
   .destroy (tempE 4)]

/-- The registry after the first `n` of these calls. -/
def tempR (n : Nat) : Registry := (okOr ([], Registry.default) (runCalls exEnv exR (tempCalls.take n))).2

set_option maxRecDepth 100000 in
/-- C126 on `exR`: the calls spare its entities; after three calls exact iteration over `A` yields `exE2` and the two new
entities, in the end `exE2` alone, and matching iteration over `A` the entities in their old order. -/
example : Reachable exWorld exR ∧ (∃ hist, Steps exEnv (Call.Spares exWorld exR) exR hist (tempR 6) ∧ hist.length = 6) ∧
    exWorld.OkGroup [exA] ∧ (Group.descriptor exEnv [exA]).isValid = true ∧
    (tempR 3).iterEntityComponentsExact exEnv [exA] = .ok ([exE2, tempE 3, tempE 4], [[exValA, exValA, exValA']]) ∧
    (tempR 6).iterEntityComponentsExact exEnv [exA] = .ok ([exE2], [[exValA]]) ∧
    (tempR 6).iterEntities exEnv = exR.iterEntities exEnv ∧
    ((okOr [] ((tempR 4).iterEntityComponentsMatching exEnv [exA])).flatMap (fun x => x.2.1) = [exE2, tempE 4, tempE 3, exE1]) ∧
    ((okOr [] ((tempR 6).iterEntityComponentsMatching exEnv [exA])).flatMap (fun x => x.2.1) = [exE2, exE1]) := by
  have h1 : runCalls exEnv exR tempCalls =
      .ok ((okOr ([], Registry.default) (runCalls exEnv exR tempCalls)).1, tempR 6) := by decide +kernel
  refine ⟨exReachable, ⟨_, Steps.of_run (calls := tempCalls) (fun r call hc => ⟨?_, ?_⟩) Steps.nil h1, by decide +kernel⟩,
    (exCheck_ok (call := .create [exA] [exValA]) (by decide +kernel) exR).2 (by decide), by decide +kernel, by decide +kernel,
    by decide +kernel, by decide +kernel, by decide +kernel, by decide +kernel⟩
  · exact exCheck_ok (List.all_eq_true.mp (show tempCalls.all exCheck = true by decide +kernel) call hc) r
  · intro e he hl
    have hl : e ∈ exR.iterEntities exEnv := hl
    revert hl
    simp only [tempCalls, List.mem_cons, List.not_mem_nil, or_false] at hc
    rcases hc with rfl | rfl | rfl | rfl | rfl | rfl <;> first | (cases he; done) | (cases he; decide +kernel)

end Shard
