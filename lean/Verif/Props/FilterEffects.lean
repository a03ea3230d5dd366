import Verif.Spec.Filter
import Verif.Props.Iteration
/-!
# C78: filter closures with side effects and filter closures that panic
-/

set_option autoImplicit false

namespace Shard

variable {env : Env} {W : World env} {r : Registry} {ar : ArchetypeRegistry} {cs : List Content} {σ : Type}

/-- The archetypes the keys refer to that have all components of the group, with their descriptors. -/
def offered (gd : ArchetypeDescriptor) (ar : ArchetypeRegistry) (keys : List SortedArchetypeKey) :
    List (Nat × ArchetypeDescriptor) :=
  (selected gd (fun _ => true) ar keys).filterMap (fun i => ar.archetypes[i]?.map (fun a => (i, a.descriptor)))

theorem offered_append (gd : ArchetypeDescriptor) (l1 l2 : List SortedArchetypeKey) :
    offered gd ar (l1 ++ l2) = offered gd ar l1 ++ offered gd ar l2 := by
  simp [offered, selected_append]

theorem lazyNext_append_none {call : Closure σ} {l1 l2 : List (Nat × ArchetypeDescriptor)} : ∀ {s s' : σ} {l},
    lazyNext call l1 s = (.ended, l, s') → lazyNext call (l1 ++ l2) s = lazyNext call l2 s' := by
  induction l1 with
  | nil => intro s s' l h; cases h; rfl
  | cons x l1 ih =>
    obtain ⟨i, d⟩ := x
    intro s s' l h
    simp only [List.cons_append, lazyNext] at h ⊢
    cases hc : call s d with
    | mk o s1 =>
      rw [hc] at h
      cases o with
      | none => cases h
      | some b =>
        cases b with
        | true => cases h
        | false => exact ih h

theorem lazyNext_append_some {call : Closure σ} {l1 l2 : List (Nat × ArchetypeDescriptor)} {x : NextEnd} (hx : x ≠ .ended) :
    ∀ {s s' : σ} {l}, lazyNext call l1 s = (x, l, s') → lazyNext call (l1 ++ l2) s = (x, l ++ l2, s') := by
  induction l1 with
  | nil => intro s s' l h; cases h; exact absurd rfl hx
  | cons y l1 ih =>
    obtain ⟨i, d⟩ := y
    intro s s' l h
    simp only [List.cons_append, lazyNext] at h ⊢
    cases hc : call s d with
    | mk o s1 =>
      rw [hc] at h
      cases o with
      | none => cases h; rfl
      | some b =>
        cases b with
        | true => cases h; rfl
        | false => exact ih h

theorem lazyNext_none {call : Closure σ} {l1 : List (Nat × ArchetypeDescriptor)} : ∀ {s s' : σ} {l},
    lazyNext call l1 s = (.ended, l, s') → l = [] := by
  induction l1 with
  | nil => intro s s' l h; cases h; rfl
  | cons y l1 ih =>
    obtain ⟨i, d⟩ := y
    intro s s' l h
    simp only [lazyNext] at h
    cases hc : call s d with
    | mk o s1 =>
      rw [hc] at h
      cases o with
      | none => cases h
      | some b =>
        cases b with
        | true => cases h
        | false => exact ih h

theorem ArchIter.nextInLevelEff_spec {gd : ArchetypeDescriptor} {call : Closure σ} {level : List SortedArchetypeKey}
    (hk : ∀ k ∈ level, ∃ a, ar.archetypes[k.archetypeIndex.toNat]? = some a) : ∀ (n idx : Nat) (s : σ),
    level.length ≤ idx + n →
    ∃ o idx' s', nextInLevelEff gd call ar.archetypes level n idx s = .ok (o, idx', s') ∧
      lazyNext call (offered gd ar (level.drop idx)) s = (o, offered gd ar (level.drop idx'), s')
  | 0, idx, s, h => ⟨.ended, idx, s, rfl, by rw [List.drop_eq_nil_of_le (by omega)]; rfl⟩
  | n + 1, idx, s, h => by
    unfold nextInLevelEff
    by_cases hi : idx < level.length
    · rw [if_pos hi, indexUnchecked_of_getElem? (List.getElem?_eq_getElem hi)]
      obtain ⟨a, ha⟩ := hk level[idx] (List.getElem_mem hi)
      simp only [ok_bind]
      rw [indexUnchecked_of_getElem? ha]
      simp only [ok_bind]
      have hd : offered gd ar (level.drop idx) =
          if a.descriptor.containsSubset gd then
            (level[idx].archetypeIndex.toNat, a.descriptor) :: offered gd ar (level.drop (idx + 1))
          else offered gd ar (level.drop (idx + 1)) := by
        rw [List.drop_eq_getElem_cons hi]
        unfold offered selected
        rw [List.map_cons, List.filter_cons]
        have : accepts gd (fun _ => true) ar level[idx].archetypeIndex.toNat = a.descriptor.containsSubset gd := by
          unfold accepts
          rw [ha]
          simp
        rw [this]
        split
        · rw [List.filterMap_cons, ha]
          rfl
        · rfl
      rw [hd]
      by_cases hsub : a.descriptor.containsSubset gd = true
      · rw [if_pos hsub, if_pos hsub]
        simp only [lazyNext]
        cases hc : call s a.descriptor with
        | mk o s1 =>
          cases o with
          | none => exact ⟨_, _, _, rfl, rfl⟩
          | some b =>
            cases b with
            | true => exact ⟨_, _, _, rfl, rfl⟩
            | false => exact nextInLevelEff_spec hk n (idx + 1) s1 (by omega)
      · rw [if_neg hsub, if_neg hsub]
        exact nextInLevelEff_spec hk n (idx + 1) s (by omega)
    · rw [if_neg hi]
      exact ⟨.ended, idx, s, rfl, by rw [List.drop_eq_nil_of_le (by omega)]; rfl⟩

theorem ArchIter.ahead_past (h : ARInv W ar cs) {it : ArchIter} (hl : 14 ≤ it.level) : it.ahead ar = [] := by
  unfold ArchIter.ahead
  rw [List.drop_eq_nil_of_le (by have := h.levels; omega)]

theorem ArchIter.nextLoopEff_spec (h : ARInv W ar cs) {gd : ArchetypeDescriptor} {call : Closure σ} :
    ∀ (n : Nat) (it : ArchIter) (s : σ), 14 ≤ it.level + n →
    ∃ o it' s', nextLoopEff gd call ar n it s = .ok (o, it', s') ∧
      lazyNext call (offered gd ar (it.ahead ar)) s = (o, offered gd ar (it'.ahead ar), s')
  | 0, it, s, hn => ⟨.ended, it, s, rfl, by rw [ahead_past h (by omega)]; rfl⟩
  | n + 1, it, s, hn => by
    unfold nextLoopEff
    have hM : MAX_COMPONENTS_PER_ENTITY = 14 := rfl
    by_cases hl : it.level < MAX_COMPONENTS_PER_ENTITY
    · rw [if_pos hl]
      have hlt : it.level < ar.sortedMappings.length := by have := h.levels; omega
      have hx := List.getElem?_eq_getElem hlt
      rw [indexUnchecked_of_getElem? hx]
      simp only [ok_bind]
      obtain ⟨o, idx', s', h1, h2⟩ := nextInLevelEff_spec (ar := ar) (gd := gd) (call := call) (h.keys_exist hx)
        (ar.sortedMappings[it.level].length - it.idx) it.idx s (by omega)
      rw [h1]
      simp only [ok_bind]
      have ha := ArchIter.ahead_of (it := it) hx
      have ha' := ArchIter.ahead_of (it := ⟨it.level, idx'⟩) hx
      cases o with
      | ended =>
        obtain ⟨o2, it', s2, h3, h4⟩ := nextLoopEff_spec h (gd := gd) (call := call) n ⟨it.level + 1, 0⟩ s'
          (by show 14 ≤ it.level + 1 + n; omega)
        refine ⟨o2, it', s2, h3, ?_⟩
        rw [ha, offered_append, lazyNext_append_none h2]
        exact h4
      | item i =>
        refine ⟨_, _, _, rfl, ?_⟩
        rw [ha, offered_append, lazyNext_append_some (fun hx => by cases hx) h2, ha', offered_append]
      | panicked =>
        refine ⟨_, _, _, rfl, ?_⟩
        rw [ha, offered_append, lazyNext_append_some (fun hx => by cases hx) h2, ha', offered_append]
    · rw [if_neg hl]
      exact ⟨.ended, it, s, rfl, by rw [ahead_past h (by omega)]; rfl⟩

theorem ArchIter.nextsEff_spec (h : ARInv W ar cs) {g : Group} (hv : (g.descriptor env).isValid = true) (call : Closure σ) :
    ∀ (n : Nat) (it : ArchIter) (s : σ), it.nextsEff env g call ar n s =
      .ok (lazyNexts call n (offered (g.descriptor env).archetype ar (it.ahead ar)) s)
  | 0, it, s => rfl
  | n + 1, it, s => by
    have hM : MAX_COMPONENTS_PER_ENTITY = 14 := rfl
    obtain ⟨o, it', s', h1, h2⟩ := nextLoopEff_spec h (gd := (g.descriptor env).archetype) (call := call)
      (MAX_COMPONENTS_PER_ENTITY - it.level) it s (by omega)
    have h3 : nextEff env g call ar it s = .ok (o, it', s') := by
      unfold nextEff
      rw [if_neg (by rw [hv]; simp)]
      exact h1
    unfold nextsEff lazyNexts
    rw [h3, h2]
    simp only [ok_bind, nextsEff_spec h hv call n it' s']
    rfl

/-! ## What the closure sees -/

theorem lazyNext_log {call : Closure σ} : ∀ (L : List (Nat × ArchetypeDescriptor)) (s : σ) (log : List ArchetypeDescriptor),
    (lazyNext call.logged L (s, log)).2.2.2 ++ (lazyNext call.logged L (s, log)).2.1.map Prod.snd = log ++ L.map Prod.snd ∧
    (lazyNext call.logged L (s, log)).1 = (lazyNext call L s).1 ∧
    (lazyNext call.logged L (s, log)).2.1 = (lazyNext call L s).2.1 ∧
    (lazyNext call.logged L (s, log)).2.2.1 = (lazyNext call L s).2.2
  | [], s, log => ⟨rfl, rfl, rfl, rfl⟩
  | (i, d) :: L, s, log => by
    simp only [lazyNext, Closure.logged]
    cases hc : call s d with
    | mk o s1 =>
      cases o with
      | none => exact ⟨by simp, rfl, rfl, rfl⟩
      | some b =>
        cases b with
        | true => exact ⟨by simp, rfl, rfl, rfl⟩
        | false =>
          have := lazyNext_log (call := call) L s1 (log ++ [d])
          refine ⟨?_, this.2⟩
          have h1 := this.1
          refine h1.trans ?_
          simp only [List.map_cons, List.append_assoc, List.singleton_append]

theorem lazyNexts_log {call : Closure σ} : ∀ (n : Nat) (L : List (Nat × ArchetypeDescriptor)) (s : σ)
    (log : List ArchetypeDescriptor), ∃ seen left, L.map Prod.snd = seen ++ left ∧
      lazyNexts call.logged n L (s, log) = ((lazyNexts call n L s).1, (lazyNexts call n L s).2, log ++ seen) ∧
      (NextEnd.ended ∈ (lazyNexts call n L s).1 → left = [])
  | 0, L, s, log => ⟨[], L.map Prod.snd, rfl, by simp [lazyNexts], fun h => (by cases h)⟩
  | n + 1, L, s, log => by
    obtain ⟨h1, h2, h3, h4⟩ := lazyNext_log (call := call) L s log
    cases hx : lazyNext call.logged L (s, log) with
    | mk o y =>
      obtain ⟨rest, s1, log1⟩ := y
      cases hy : lazyNext call L s with
      | mk o' z =>
        obtain ⟨rest', s1'⟩ := z
        rw [hx, hy] at h2 h3 h4
        rw [hx] at h1
        simp only at h1 h2 h3 h4
        subst h2 h3 h4
        obtain ⟨seen, left, g1, g2, g3⟩ := lazyNexts_log (call := call) n rest s1 log1
        obtain ⟨pre, hp⟩ : ∃ pre, log1 = log ++ pre := by
          have : log <+: log1 := by
            clear g1 g2 g3 seen left
            have key : ∀ (L : List (Nat × ArchetypeDescriptor)) (s : σ) (log : List ArchetypeDescriptor),
                log <+: (lazyNext call.logged L (s, log)).2.2.2 := by
              intro L
              induction L with
              | nil => intro s log; exact List.prefix_refl _
              | cons x L ih =>
                obtain ⟨i, d⟩ := x
                intro s log
                simp only [lazyNext, Closure.logged]
                cases hc : call s d with
                | mk o s1 =>
                  cases o with
                  | none => exact List.prefix_append _ _
                  | some b =>
                    cases b with
                    | true => exact List.prefix_append _ _
                    | false => exact (List.prefix_append _ _).trans (ih s1 (log ++ [d]))
            have := key L s log
            rw [hx] at this
            exact this
          obtain ⟨pre, hp⟩ := this
          exact ⟨pre, hp.symm⟩
        subst hp
        rw [List.append_assoc, List.append_cancel_left_eq] at h1
        refine ⟨pre ++ seen, left, by rw [← h1, g1, List.append_assoc], ?_, ?_⟩
        · simp only [lazyNexts, hx, hy, g2, List.append_assoc]
        · intro hm
          simp only [lazyNexts, hy] at hm
          rcases List.mem_cons.mp hm with hm | hm
          · subst hm
            have := lazyNext_none hy
            subst this
            exact (List.append_eq_nil_iff.mp g1.symm).2
          · exact g3 hm

/-! ## Pure closures -/

/-- A pure filter as a closure. -/
def Closure.pure (σ : Type) (f : ArchetypeDescriptor → Bool) : Closure σ := fun s d => (some (f d), s)

/-- The result of `next` in the model of pure filters, as a `NextEnd`. -/
def NextEnd.ofOption : Option Nat → NextEnd
  | some i => .item i
  | none => .ended

theorem ArchIter.nextInLevelEff_pure {gd : ArchetypeDescriptor} {f : ArchetypeDescriptor → Bool} {archetypes : List Archetype}
    {level : List SortedArchetypeKey} : ∀ (n idx : Nat) (s : σ),
    nextInLevelEff gd (Closure.pure σ f) archetypes level n idx s =
      (nextInLevel gd f archetypes level n idx).map (fun x => (NextEnd.ofOption x.1, x.2, s))
  | 0, idx, s => rfl
  | n + 1, idx, s => by
    unfold nextInLevelEff nextInLevel
    by_cases hi : idx < level.length
    · rw [if_pos hi, if_pos hi]
      cases indexUnchecked level idx with
      | error e => rfl
      | ok k =>
        simp only [ok_bind]
        cases indexUnchecked archetypes k.archetypeIndex.toNat with
        | error e => rfl
        | ok a =>
          simp only [ok_bind, Closure.pure]
          cases a.descriptor.containsSubset gd with
          | false =>
            simp only [Bool.false_eq_true, if_false, Bool.false_and]
            exact nextInLevelEff_pure n (idx + 1) s
          | true =>
            cases hf : f a.descriptor with
            | true => rfl
            | false =>
              simp only [if_true, Bool.true_and, Bool.false_eq_true, if_false]
              exact nextInLevelEff_pure n (idx + 1) s
    · rw [if_neg hi, if_neg hi]
      rfl

theorem ArchIter.nextLoopEff_pure {gd : ArchetypeDescriptor} {f : ArchetypeDescriptor → Bool} : ∀ (n : Nat) (it : ArchIter) (s : σ),
    nextLoopEff gd (Closure.pure σ f) ar n it s = (nextLoop gd f ar n it).map (fun x => (NextEnd.ofOption x.1, x.2, s))
  | 0, it, s => rfl
  | n + 1, it, s => by
    unfold nextLoopEff nextLoop
    by_cases hl : it.level < MAX_COMPONENTS_PER_ENTITY
    · rw [if_pos hl, if_pos hl]
      cases indexUnchecked ar.sortedMappings it.level with
      | error e => rfl
      | ok level =>
        simp only [ok_bind]
        rw [nextInLevelEff_pure]
        cases nextInLevel gd f ar.archetypes level (level.length - it.idx) it.idx with
        | error e => rfl
        | ok x =>
          obtain ⟨o, idx⟩ := x
          cases o with
          | some i => rfl
          | none => exact nextLoopEff_pure n ⟨it.level + 1, 0⟩ s
    · rw [if_neg hl, if_neg hl]
      rfl

theorem ArchIter.nextsEff_pure {g : Group} {f : ArchetypeDescriptor → Bool} : ∀ (n : Nat) (it : ArchIter) (s : σ),
    it.nextsEff env g (Closure.pure σ f) ar n s = (it.nexts env g f ar n).map (fun l => (l.map NextEnd.ofOption, s))
  | 0, it, s => rfl
  | n + 1, it, s => by
    have h1 : nextEff env g (Closure.pure σ f) ar it s =
        (next env g f ar it).map (fun x => (NextEnd.ofOption x.1, x.2, s)) := by
      unfold nextEff next
      split
      · rfl
      · exact nextLoopEff_pure _ it s
    unfold nextsEff nexts
    rw [h1]
    cases next env g f ar it with
    | error e => rfl
    | ok x =>
      simp only [Except.map, ok_bind]
      rw [nextsEff_pure n x.2 s]
      cases nexts env g f ar n x.2 <;> rfl

/-! ## The theorems -/

/-- **C78** The filtered iterators (all four advance by the same `next`) behave as a lazy filter over what the unfiltered
iterator yields, for closures with any side effects and any panics: there is a list of archetypes, namely those the
unfiltered iterator yields, in its order, such that any number of calls of `next` gives the results, and leaves the
state of the closure, that a lazy filter of that list gives. A panic of the closure loses one archetype and nothing
else: the iterator goes on with the next one. -/
theorem C78_filter_effects (hr : Reachable W r) {g : Group} (hg : ∀ c ∈ g, W.Has c)
    (hv : (g.descriptor env).isValid = true) :
    ∃ items L, r.iterEntityComponentsMatching env g = .ok items ∧ L.map Prod.fst = items.map Prod.fst ∧
      (∀ x ∈ L, ∃ a, r.archetypes.archetypes[x.1]? = some a ∧ a.descriptor = x.2) ∧
      ∀ (σ : Type) (call : Closure σ) (n : Nat) (s : σ),
        r.filteredNexts env g call n s = .ok (lazyNexts call n L s) := by
  obtain ⟨cs, h⟩ := hr.inv
  have hlen : (g.descriptor env).len = g.length := (Group.spec (env := env) hv).len
  refine ⟨_, offered (g.descriptor env).archetype r.archetypes
    (r.archetypes.sortedMappings.drop ((g.descriptor env).len - 1)).flatten,
    h.iterFilteredEntityComponentsMatching_eq hg hv (fun _ => true), ?_, ?_, ?_⟩
  · rw [List.map_map]
    show _ = (yielded env r.archetypes g (fun _ => true)).map (fun i => i)
    rw [List.map_id']
    unfold offered yielded
    have hall : ∀ i ∈ selected (g.descriptor env).archetype (fun _ => true) r.archetypes
        (r.archetypes.sortedMappings.drop ((g.descriptor env).len - 1)).flatten,
        ∃ a, r.archetypes.archetypes[i]? = some a := by
      intro i hi
      obtain ⟨a, ha, _⟩ := accepts_iff.mp (List.mem_filter.mp hi).2
      exact ⟨a, ha⟩
    generalize selected (g.descriptor env).archetype (fun _ => true) r.archetypes
        (r.archetypes.sortedMappings.drop ((g.descriptor env).len - 1)).flatten = l at hall
    induction l with
    | nil => rfl
    | cons i l ih =>
      obtain ⟨a, ha⟩ := hall i List.mem_cons_self
      rw [List.filterMap_cons, ha]
      simp only [Option.map_some, List.map_cons]
      rw [ih (fun j hj => hall j (List.mem_cons_of_mem _ hj))]
  · intro x hx
    obtain ⟨i, _, hi⟩ := List.mem_filterMap.mp hx
    obtain ⟨a, ha, rfl⟩ := Option.map_eq_some_iff.mp hi
    exact ⟨a, ha, rfl⟩
  · intro σ call n s
    have hnew : ArchIter.new env g = .ok ⟨(g.descriptor env).len - 1, 0⟩ := by
      have := (Group.spec (env := env) hv).wf.pos
      unfold ArchIter.new subU8
      rw [if_pos (by rw [hlen]; omega)]
      rfl
    unfold Registry.filteredNexts
    rw [hnew]
    simp only [ok_bind]
    rw [ArchIter.nextsEff_spec h.arch hv, ArchIter.ahead_start]

/-- **C78** (calls) Every archetype is offered to the closure at most once, in the order of the list, and none twice;
when the iterator has returned `None`, all of them have been. `L` is the list of `C78_filter_effects`. -/
theorem C78_filter_calls {L : List (Nat × ArchetypeDescriptor)} (call : Closure σ) (n : Nat) (s : σ) :
    ∃ seen left, L.map Prod.snd = seen ++ left ∧
      lazyNexts call.logged n L (s, []) = ((lazyNexts call n L s).1, (lazyNexts call n L s).2, seen) ∧
      (NextEnd.ended ∈ (lazyNexts call n L s).1 → left = []) := by
  obtain ⟨seen, left, h1, h2, h3⟩ := lazyNexts_log (call := call) n L s []
  exact ⟨seen, left, h1, by rw [h2, List.nil_append], h3⟩

/-- **C78** (invalid groups) With an invalid group the closure is not called, whatever the state of the iterator is. -/
theorem C78_invalid_groups {g : Group} (hv : (g.descriptor env).isValid = false) (call : Closure σ) (n : Nat) (it : ArchIter)
    (s : σ) : it.nextsEff env g call ar n s = .ok (List.replicate n .ended, s) := by
  induction n generalizing it with
  | zero => rfl
  | succ n ih =>
    have : ArchIter.nextEff env g call ar it s = .ok (.ended, it, s) := by
      unfold ArchIter.nextEff
      rw [if_pos (by rw [hv]; simp)]
    unfold ArchIter.nextsEff
    rw [this]
    simp only [ok_bind, ih]
    rfl

/-- **C78** (pure closures) For pure closures that do not panic, this model and that of the other properties agree. -/
theorem C78_pure_filters (r : Registry) (g : Group) (f : ArchetypeDescriptor → Bool) (n : Nat) (s : σ) :
    r.filteredNexts env g (Closure.pure σ f) n s = (do
      let it ← ArchIter.new env g
      let l ← it.nexts env g f r.archetypes n
      return (l.map NextEnd.ofOption, s)) := by
  unfold Registry.filteredNexts
  cases ArchIter.new env g with
  | error e => rfl
  | ok it =>
    simp only [ok_bind]
    rw [ArchIter.nextsEff_pure]
    cases it.nexts env g f r.archetypes n <;> rfl

/-- A closure that counts its calls, rejects at the first call and panics at the second. -/
def countingClosure : Closure Nat := fun k _ => (if k = 0 then some false else if k = 1 then none else some true, k + 1)

set_option maxRecDepth 100000 in
/-- C78 on `exR`, with a closure that panics: the archetypes before and at the panic are not among the items. -/
example : Reachable exWorld exR ∧ (Group.descriptor exEnv [exA]).isValid = true ∧
    (exR.iterEntityComponentsMatching exEnv [exA]).map (fun l => l.map Prod.fst) = .ok [1, 0, 2] ∧
    exR.filteredNexts exEnv [exA] countingClosure 5 0 = .ok ([.panicked, .item 2, .ended, .ended, .ended], 3) := by
  refine ⟨exReachable, ?_⟩
  decide +kernel

end Shard
