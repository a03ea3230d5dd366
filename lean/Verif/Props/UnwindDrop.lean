import Verif.Props.Unwind
/-!
# C70: destructors that panic while a registry is dropped
-/

set_option autoImplicit false

namespace Shard

variable {env : Env} {W : World env} {r : Registry}

/-- The full claim of **C70**: even if a destructor panics (one of all of them), dropping a registry drops every component
and frees all memory. -/
def C70_statement : Prop :=
  ∀ (env : Env) (W : World env) (r : Registry), Reachable W r → ∀ (boom : Val → Bool) (owned d : List Val)
    (left left' : List Archetype) (how : DropEnd), r.drop = .ok (owned, left) → (owned.filter boom).length ≤ 1 →
    r.dropUnwind boom = .ok (d, how, left') → d.Perm owned ∧ ∀ a ∈ left', a.NoMemory

theorem dropUntilPanic_eq {boom : Val → Bool} : ∀ vs : List Val, dropUntilPanic boom vs = upToPanic boom vs
  | [] => rfl
  | v :: vs => by
    unfold dropUntilPanic upToPanic
    rw [dropUntilPanic_eq vs]

theorem upToPanic_append_calm {boom : Val → Bool} : ∀ {vs ws : List Val}, vs.any boom = false →
    upToPanic boom (vs ++ ws) = vs ++ upToPanic boom ws
  | [], _, _ => rfl
  | v :: vs, ws, h => by
    rw [List.any_cons, Bool.or_eq_false_iff] at h
    simp only [List.cons_append, upToPanic, h.1, Bool.false_eq_true, if_false]
    rw [upToPanic_append_calm h.2]

theorem upToPanic_append_panic {boom : Val → Bool} : ∀ {vs ws : List Val}, vs.any boom = true →
    upToPanic boom (vs ++ ws) = upToPanic boom vs
  | v :: vs, ws, h => by
    by_cases hv : boom v = true
    · simp [upToPanic, hv]
    · rw [List.any_cons, Bool.or_eq_true] at h
      simp only [List.cons_append, upToPanic, if_neg hv]
      rw [upToPanic_append_panic (h.resolve_left hv)]

theorem upToPanic_split {boom : Val → Bool} {before after : List Val} {v : Val} (hb : ∀ u ∈ before, boom u = false)
    (hv : boom v = true) : upToPanic boom (before ++ v :: after) = before ++ [v] := by
  rw [upToPanic_append_calm (by rw [List.any_eq_false]; intro u hu; rw [hb u hu]; decide)]
  simp [upToPanic, hv]

theorem Rep.dropAllUnwindLoop_spec {a : Archetype} {ct : Content} (h : Rep W a ct) (boom : Val → Bool) :
    ∀ (n i : Nat), i + n = ct.cts.length →
    a.dropAllUnwindLoop boom n i = .ok (upToPanic boom (ct.cols.drop i).flatten, (ct.cols.drop i).flatten.any boom)
  | 0, i, hi => by
    have : ct.cols.drop i = [] := by
      rw [List.drop_eq_nil_iff, h.cols.cols_len]
      omega
    rw [this]
    rfl
  | n + 1, i, hi => by
    have hi' : i < ct.cts.length := by omega
    have hc := List.getElem?_eq_getElem hi'
    obtain ⟨vs, b, h1, h2, h3, h4⟩ := h.column hc
    obtain ⟨hil, hie⟩ := List.getElem?_eq_some_iff.mp h1
    have hs := h3.readSlice_ok 0 a.entityCount (by rw [h.count]; omega)
    rw [Nat.mul_zero, List.drop_zero, h.count, ← h4, List.take_length] at hs
    unfold Archetype.dropAllUnwindLoop
    rw [h.desc.index_comp hc, index_of_getElem? h2]
    simp only [ok_bind, Archetype.runDropHandler, CompTy.descriptor]
    rw [h.count, ← h4, hs]
    simp only [ok_bind]
    rw [List.drop_eq_getElem_cons hil, hie, List.flatten_cons]
    by_cases hb : vs.any boom = true
    · rw [if_pos hb, upToPanic_append_panic hb, List.any_append, hb, Bool.true_or, dropUntilPanic_eq]
      rfl
    · have hb' : vs.any boom = false := by simpa using hb
      rw [if_neg hb, h.dropAllUnwindLoop_spec boom n (i + 1) (by omega), upToPanic_append_calm hb', List.any_append, hb',
        Bool.false_or]
      rfl

/-- Dropping one archetype. -/
theorem Rep.dropUnwind_spec {a : Archetype} {ct : Content} (h : Rep W a ct) (boom : Val → Bool) :
    (ct.cols.flatten.any boom = false → ∃ a', a.dropUnwind boom = .ok (ct.cols.flatten, false, a') ∧ a'.NoMemory) ∧
    (ct.cols.flatten.any boom = true → a.dropUnwind boom = .ok (upToPanic boom ct.cols.flatten, true, a)) := by
  have hpos := h.cap.pos
  have hl := h.dropAllUnwindLoop_spec boom ct.cts.length 0 (by omega)
  rw [List.drop_zero] at hl
  unfold Archetype.dropUnwind
  rw [if_neg (by omega), h.desc.clen, hl]
  simp only [ok_bind]
  refine ⟨fun hb => ?_, fun hb => ?_⟩
  · obtain ⟨a', h1, h2, h3, _⟩ := h.drop_spec
    unfold Archetype.drop at h1
    rw [if_neg (by omega), h.dropEntities_spec] at h1
    simp only [ok_bind] at h1
    cases hd : a.dealloc with
    | error f => rw [hd] at h1; cases h1
    | ok x =>
      rw [hd] at h1
      cases h1
      rw [hb, if_neg (by decide), upToPanic_calm hb]
      exact ⟨_, rfl, h2, h3⟩
  · rw [hb, if_pos rfl]
    rfl

/-! ## The reference -/

/-- What happens to the groups of values `parts` (one per archetype) when they are dropped in order. -/
def dropParts (boom : Val → Bool) : Bool → List (List Val) → List Val × DropEnd
  | unwinding, [] => ([], if unwinding then .panicked else .finished)
  | unwinding, p :: ps =>
    if p.any boom then
      if unwinding then (upToPanic boom p, .aborted)
      else (upToPanic boom p ++ (dropParts boom true ps).1, (dropParts boom true ps).2)
    else (p ++ (dropParts boom unwinding ps).1, (dropParts boom unwinding ps).2)

theorem dropParts_calm {boom : Val → Bool} : ∀ {u : Bool} {ps : List (List Val)} (qs : List (List Val)),
    (∀ p ∈ ps, ∀ v ∈ p, boom v = false) →
    dropParts boom u (ps ++ qs) = (ps.flatten ++ (dropParts boom u qs).1, (dropParts boom u qs).2)
  | u, [], qs, _ => rfl
  | u, p :: ps, qs, h => by
    have hp : p.any boom = false := by
      rw [List.any_eq_false]
      intro v hv
      rw [h p List.mem_cons_self v hv]
      decide
    simp only [List.cons_append, dropParts, hp, Bool.false_eq_true, if_false, List.flatten_cons, List.append_assoc]
    rw [dropParts_calm qs (fun q hq => h q (List.mem_cons_of_mem _ hq))]

/-- The archetypes after dropping: those whose destructors ran to the end are freed, the others are as before. -/
def AfterDrop (boom : Val → Bool) : Bool → List (Archetype × List Val) → List Archetype → Prop
  | _, [], left => left = []
  | u, (a, p) :: rest, left => ∃ a' left', left = a' :: left' ∧
      if p.any boom then a' = a ∧ (if u then left' = rest.map Prod.fst else AfterDrop boom true rest left')
      else a'.NoMemory ∧ AfterDrop boom u rest left'

theorem dropVecUnwind_spec (boom : Val → Bool) : ∀ (u : Bool) (as : List Archetype) (cs : List Content),
    as.length = cs.length → (∀ (i : Nat) (a : Archetype) (ct : Content), as[i]? = some a → cs[i]? = some ct → Rep W a ct) →
    ∃ left, dropVecUnwind boom u as = .ok ((dropParts boom u (cs.map (fun ct => ct.cols.flatten))).1,
      (dropParts boom u (cs.map (fun ct => ct.cols.flatten))).2, left) ∧
      AfterDrop boom u (as.zip (cs.map (fun ct => ct.cols.flatten))) left
  | u, [], [], _, _ => ⟨[], rfl, rfl⟩
  | u, [], _ :: _, h, _ => by cases h
  | u, _ :: _, [], h, _ => by cases h
  | u, a :: as, ct :: cs, hl, h => by
    have hr : Rep W a ct := h 0 a ct rfl rfl
    have hrest : ∀ (i : Nat) (a : Archetype) (ct : Content), as[i]? = some a → cs[i]? = some ct → Rep W a ct :=
      fun i a ct h1 h2 => h (i + 1) a ct h1 h2
    have hl' : as.length = cs.length := by simpa using hl
    obtain ⟨s1, s2⟩ := hr.dropUnwind_spec boom
    unfold dropVecUnwind
    by_cases hb : ct.cols.flatten.any boom = true
    · rw [s2 hb]
      simp only [ok_bind, List.map_cons, List.zip_cons_cons, dropParts, hb, if_true, Bool.and_true, Bool.or_true]
      cases u with
      | true =>
        simp only [if_true]
        refine ⟨_, rfl, ?_⟩
        unfold AfterDrop
        refine ⟨_, _, rfl, ?_⟩
        rw [if_pos hb, if_pos rfl]
        refine ⟨rfl, ?_⟩
        rw [List.map_fst_zip (by simp [hl'])]
      | false =>
        obtain ⟨left, h1, h2⟩ := dropVecUnwind_spec boom true as cs hl' hrest
        simp only [Bool.false_eq_true, if_false]
        rw [h1]
        refine ⟨_, rfl, ?_⟩
        unfold AfterDrop
        refine ⟨_, _, rfl, ?_⟩
        rw [if_pos hb, if_neg (by decide)]
        exact ⟨rfl, h2⟩
    · have hb' : ct.cols.flatten.any boom = false := by simpa using hb
      obtain ⟨a', g1, g2⟩ := s1 hb'
      obtain ⟨left, h1, h2⟩ := dropVecUnwind_spec boom u as cs hl' hrest
      rw [g1]
      simp only [ok_bind, List.map_cons, List.zip_cons_cons, dropParts, hb', Bool.and_false, Bool.or_false,
        Bool.false_eq_true, if_false]
      rw [h1]
      refine ⟨_, rfl, ?_⟩
      unfold AfterDrop
      refine ⟨_, _, rfl, ?_⟩
      rw [if_neg hb]
      exact ⟨g2, h2⟩

theorem upToPanic_sublist {boom : Val → Bool} : ∀ vs : List Val, (upToPanic boom vs).Sublist vs
  | [] => .slnil
  | v :: vs => by
    unfold upToPanic
    split
    · exact (List.nil_sublist vs).cons_cons v
    · exact (upToPanic_sublist vs).cons_cons v

theorem dropParts_sublist {boom : Val → Bool} : ∀ (u : Bool) (ps : List (List Val)),
    (dropParts boom u ps).1.Sublist ps.flatten
  | _, [] => .slnil
  | u, p :: ps => by
    unfold dropParts
    rw [List.flatten_cons]
    split
    · split
      · exact (upToPanic_sublist p).trans (List.sublist_append_left _ _)
      · exact (upToPanic_sublist p).append (dropParts_sublist true ps)
    · exact (List.Sublist.refl p).append (dropParts_sublist u ps)

theorem AfterDrop.calm {boom : Val → Bool} : ∀ {u : Bool} {ps : List (Archetype × List Val)} {left : List Archetype},
    (∀ p ∈ ps, ∀ v ∈ p.2, boom v = false) → AfterDrop boom u ps left → ∀ a ∈ left, a.NoMemory
  | _, [], left, _, h => by
    cases h
    intro a ha
    cases ha
  | u, (a, p) :: ps, left, hc, h => by
    unfold AfterDrop at h
    obtain ⟨a', left', rfl, h⟩ := h
    have hp : p.any boom = false := by
      rw [List.any_eq_false]
      intro v hv
      rw [hc _ List.mem_cons_self v hv]
      decide
    rw [if_neg (by rw [hp]; decide)] at h
    intro x hx
    rcases List.mem_cons.mp hx with rfl | hx
    · exact h.1
    · exact h.2.calm (fun q hq => hc q (List.mem_cons_of_mem _ hq)) x hx

theorem AfterDrop.split {boom : Val → Bool} : ∀ {u : Bool} {ps qs : List (Archetype × List Val)} {left : List Archetype},
    (∀ p ∈ ps, ∀ v ∈ p.2, boom v = false) → AfterDrop boom u (ps ++ qs) left →
    ∃ l1 l2, left = l1 ++ l2 ∧ l1.length = ps.length ∧ (∀ a ∈ l1, a.NoMemory) ∧ AfterDrop boom u qs l2
  | _, [], qs, left, _, h => ⟨[], left, rfl, rfl, fun a ha => (by cases ha), h⟩
  | u, (a, p) :: ps, qs, left, hc, h => by
    rw [List.cons_append] at h
    unfold AfterDrop at h
    obtain ⟨a', left', rfl, h⟩ := h
    have hp : p.any boom = false := by
      rw [List.any_eq_false]
      intro v hv
      rw [hc _ List.mem_cons_self v hv]
      decide
    rw [if_neg (by rw [hp]; decide)] at h
    obtain ⟨l1, l2, rfl, h1, h2, h3⟩ := AfterDrop.split (fun q hq => hc q (List.mem_cons_of_mem _ hq)) h.2
    refine ⟨a' :: l1, l2, rfl, by simp [h1], fun x hx => ?_, h3⟩
    rcases List.mem_cons.mp hx with rfl | hx
    · exact h.1
    · exact h2 x hx

/-! ## C70 -/

/-- **C70 (partial: exactly what happens)** There is a list `parts` of the components of the archetypes, in the order in
which they are dropped, such that for every set of panicking destructors:
* whatever happens, no component is dropped twice;
* if none panics, all are dropped and all memory is freed;
* if the destructors that panic belong to one archetype, the components of that archetype after the first panicking one are
  not dropped and its memory is not freed; those of the other archetypes are, and the panic reaches the caller;
* if destructors of two archetypes panic, the process is aborted at the second one.
Missing from the full claim: the components and the memory of the archetype in which the panic occurs. -/
theorem C70_drop_panics_partial (hr : Reachable W r) : ∃ parts : List (List Val),
    parts.length = r.archetypes.archetypes.length ∧ (∃ left, r.drop = .ok (parts.flatten, left)) ∧
    (∀ (i : Nat) (a : Archetype) (p : List Val), r.archetypes.archetypes[i]? = some a → parts[i]? = some p →
      ∃ a', a.drop = .ok (p, a')) ∧
    ∀ boom : Val → Bool, ∃ d how left, r.dropUnwind boom = .ok (d, how, left) ∧ d.Sublist parts.flatten ∧
      ((∀ p ∈ parts, ∀ v ∈ p, boom v = false) → d = parts.flatten ∧ how = .finished ∧ ∀ a ∈ left, a.NoMemory) ∧
      (∀ (pre post : List (List Val)) (before : List Val) (v : Val) (after : List Val),
        parts = pre ++ (before ++ v :: after) :: post →
        (∀ p ∈ pre, ∀ u ∈ p, boom u = false) → (∀ u ∈ before, boom u = false) → boom v = true →
        ((∀ p ∈ post, ∀ u ∈ p, boom u = false) →
          d = pre.flatten ++ before ++ [v] ++ post.flatten ∧ how = .panicked ∧
          ∃ l1 a l2, left = l1 ++ a :: l2 ∧ l1.length = pre.length ∧ r.archetypes.archetypes[pre.length]? = some a ∧
            (∀ x ∈ l1 ++ l2, x.NoMemory)) ∧
        (∀ (mid post' : List (List Val)) (before' : List Val) (v' : Val) (after' : List Val),
          post = mid ++ (before' ++ v' :: after') :: post' → (∀ p ∈ mid, ∀ u ∈ p, boom u = false) →
          (∀ u ∈ before', boom u = false) → boom v' = true →
          d = pre.flatten ++ before ++ [v] ++ mid.flatten ++ before' ++ [v'] ∧ how = .aborted)) := by
  obtain ⟨cs, h⟩ := hr.inv
  have hlen := h.arch.len
  refine ⟨cs.map (fun ct => ct.cols.flatten), by simpa using hlen, ?_, ?_, fun boom => ?_⟩
  · obtain ⟨left, h1, _⟩ := h.drop_eq
    exact ⟨left, h1⟩
  · intro i a p ha hp
    rw [List.getElem?_map] at hp
    obtain ⟨ct, hc, rfl⟩ := Option.map_eq_some_iff.mp hp
    obtain ⟨a', h1, _⟩ := (h.arch.rep i a ct ha hc).drop_spec
    exact ⟨a', h1⟩
  obtain ⟨left, h1, h2⟩ := dropVecUnwind_spec boom false r.archetypes.archetypes cs hlen.symm h.arch.rep
  refine ⟨_, _, left, h1, dropParts_sublist _ _, fun hc => ?_, ?_⟩
  · have e := dropParts_calm (u := false) [] hc
    rw [List.append_nil] at e
    rw [e]
    refine ⟨List.append_nil _, rfl, h2.calm (fun p hp v hv => ?_)⟩
    exact hc p.2 (List.of_mem_zip hp).2 v hv
  · intro pre post before v after hp hpre hbef hv
    have hlen' : r.archetypes.archetypes.length = pre.length + 1 + post.length := by
      have := congrArg List.length hp
      simp only [List.length_map, List.length_append, List.length_cons] at this
      omega
    have hany : (before ++ v :: after).any boom = true := by simp [hv]
    rw [hp] at h2 ⊢
    obtain ⟨as1, a, as2, has, hl1⟩ : ∃ as1 a as2, r.archetypes.archetypes = as1 ++ a :: as2 ∧ as1.length = pre.length := by
      have hlt : pre.length < r.archetypes.archetypes.length := by omega
      refine ⟨r.archetypes.archetypes.take pre.length, r.archetypes.archetypes[pre.length], r.archetypes.archetypes.drop (pre.length + 1), ?_, ?_⟩
      · rw [← List.drop_eq_getElem_cons hlt, List.take_append_drop]
      · rw [List.length_take]
        omega
    rw [has, List.zip_append hl1, List.zip_cons_cons] at h2
    obtain ⟨l1, l2, rfl, k1, k2, k3⟩ := AfterDrop.split (fun p hp u hu => hpre p.2 (List.of_mem_zip hp).2 u hu) h2
    unfold AfterDrop at k3
    obtain ⟨a', l2', rfl, k3⟩ := k3
    rw [if_pos hany, if_neg (by decide)] at k3
    obtain ⟨rfl, k4⟩ := k3
    have e1 : dropParts boom false (pre ++ (before ++ v :: after) :: post) =
        (pre.flatten ++ (before ++ [v] ++ (dropParts boom true post).1), (dropParts boom true post).2) := by
      rw [dropParts_calm _ hpre]
      simp only [dropParts, hany, if_true, Bool.false_eq_true, if_false]
      rw [upToPanic_split hbef hv]
    rw [e1]
    refine ⟨fun hpost => ?_, ?_⟩
    · have e2 := dropParts_calm (u := true) [] hpost
      rw [List.append_nil] at e2
      rw [e2]
      refine ⟨by simp [dropParts], rfl, l1, a', l2', rfl, ?_, ?_, ?_⟩
      · rw [k1, List.length_zip, hl1, Nat.min_self]
      · rw [has, ← hl1, List.getElem?_append_right (Nat.le_refl _), Nat.sub_self]
        rfl
      · intro x hx
        rcases List.mem_append.mp hx with hx | hx
        · exact k2 x hx
        · exact k4.calm (fun p hp u hu => hpost p.2 (List.of_mem_zip hp).2 u hu) x hx
    · rintro mid post' before' v' after' rfl hmid hbef' hv'
      have hany' : (before' ++ v' :: after').any boom = true := by simp [hv']
      have e2 : dropParts boom true (mid ++ (before' ++ v' :: after') :: post') =
          (mid.flatten ++ (before' ++ [v']), .aborted) := by
        rw [dropParts_calm _ hmid]
        simp only [dropParts, hany', if_true]
        rw [upToPanic_split hbef' hv']
      rw [e2]
      exact ⟨by simp, rfl⟩

set_option maxRecDepth 100000 in
/-- What happens to the two entities of `exPanicR` if the first destructor panics: the second value is never dropped, and
the memory stays allocated. -/
theorem C70_witness : exPanicR.drop.map Prod.fst = .ok [exValA, exValA'] ∧
    (exPanicR.dropUnwind (fun v => v == exValA)).map (fun x => (x.1, x.2.1, x.2.2.map (fun a => a.capacity))) =
      .ok ([exValA], .panicked, [128]) := by
  decide +kernel

/-- **C70 is false**. -/
theorem C70_violated : ¬ C70_statement := by
  intro h
  obtain ⟨h1, h2⟩ := C70_witness
  cases hd : exPanicR.drop with
  | error f => rw [hd] at h1; cases h1
  | ok x =>
    cases hd' : exPanicR.dropUnwind (fun v => v == exValA) with
    | error f => rw [hd'] at h2; cases h2
    | ok y =>
      rw [hd] at h1
      rw [hd'] at h2
      have e1 : x.1 = [exValA, exValA'] := by simpa [Except.map] using h1
      have e2 : y.1 = [exValA] := by
        simp only [Except.map, Except.ok.injEq, Prod.mk.injEq] at h2
        exact h2.1
      have := (h exEnv exWorld exPanicR exPanicReachable (fun v => v == exValA) x.1 y.1 x.2 y.2.2 y.2.1 hd (by rw [e1]; decide) hd').1
      rw [e1, e2] at this
      exact absurd this.length_eq (by decide)

set_option maxRecDepth 100000 in
/-- C70_partial applies to `exR`: one panicking archetype (`exValA'` is alone in its archetype), and two of them
(`exValC` is in two archetypes). -/
example : Reachable exWorld exR ∧
    exR.drop.map Prod.fst = .ok [exValA', exValA, exValB, exValC, exValC] ∧
    (exR.dropUnwind (fun v => v == exValA')).map (fun x => (x.1, x.2.1, x.2.2.map (fun a => a.capacity))) =
      .ok ([exValA', exValA, exValB, exValC, exValC], .panicked, [0, 128, 0, 0]) ∧
    (exR.dropUnwind (fun v => v == exValC)).map (fun x => (x.1, x.2.1)) =
      .ok ([exValA', exValA, exValB, exValC, exValC], .aborted) :=
  ⟨exReachable, by decide +kernel, by decide +kernel, by decide +kernel⟩

end Shard
