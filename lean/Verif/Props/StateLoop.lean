import Verif.Spec.StateLoop
import Verif.Props.Loops
/-!
# C123: loops that carry a state and may be left early
-/

set_option autoImplicit false

namespace Shard

variable {env : Env} {W : World env} {r : Registry} {cs : List Content} {g : Group} {σ : Type}

/-- The tuple of an entity. -/
def tupleAt (env : Env) (g : Group) (r : Registry) (cs : List Content) (e : Entity) : List Val :=
  tupleOf g ((r.look env cs e).getD (fun _ => none))

theorem scanBody_length (F : Body σ) : ∀ (l : List (List Val)) (s : σ), (scanBody F s l).2.length ≤ l.length
  | [], _ => Nat.le_refl _
  | v :: l, s => by
    unfold scanBody
    split
    · simp
    · simp only [List.length_cons]
      exact Nat.succ_le_succ (scanBody_length F l _)

theorem scanBody_typed {F : Body σ} (hF : ∀ s vals, TypedVals g vals → TypedVals g (F s vals).2.1) :
    ∀ (l : List (List Val)) (s : σ), (∀ v ∈ l, TypedVals g v) → ∀ w ∈ (scanBody F s l).2, TypedVals g w
  | [], _, _, w, hw => by simp [scanBody] at hw
  | v :: l, s, hl, w, hw => by
    have hv := hF s v (hl v List.mem_cons_self)
    unfold scanBody at hw
    split at hw
    · rw [List.mem_singleton.mp hw]
      exact hv
    · rcases List.mem_cons.mp hw with rfl | hw
      · exact hv
      · exact scanBody_typed hF l _ (fun v h => hl v (List.mem_cons_of_mem _ h)) w hw

theorem RowRefs.isSome (h : RInv W r cs) {row : Nat × List SliceRef × Nat} {e : Entity} (hr : RowRefs env r cs g row e)
    {f : CompTy → Option Val} (hf : r.look env cs e = some f) : ∀ c ∈ g, (f c).isSome := by
  obtain ⟨hm, href⟩ := hr
  intro c hc
  rw [← hm] at hc
  obtain ⟨s, hs, rfl⟩ := List.mem_map.mp hc
  exact (h.readElem_eq hf (href s hs).1 (href s hs).2).2

/-- The loop does to the rows what the body does to the list of their tuples. -/
theorem RInv.loop_eq {F : Body σ} (hg : ∀ c ∈ g, W.Has c) (hn : g.Nodup)
    (hF : ∀ s vals, TypedVals g vals → TypedVals g (F s vals).2.1) (E : Nat × List SliceRef × Nat → Entity) :
    ∀ (rows : List (Nat × List SliceRef × Nat)) (s : σ) {r : Registry} {cs : List Content}, RInv W r cs → Reachable W r →
      (rows.map E).Nodup → (∀ row ∈ rows, RowRefs env r cs g row (E row) ∧ ∃ f, r.look env cs (E row) = some f) →
      ∃ r' cs', loopRows F rows s r = .ok ((scanBody F s (rows.map (fun row => tupleAt env g r cs (E row)))).1, r') ∧
        RInv W r' cs' ∧ Reachable W r' ∧
        (∀ (n : Nat) (x : Entity), (rows.map E)[n]? = some x → r'.look env cs' x = (r.look env cs x).map (fun f =>
          match (scanBody F s (rows.map (fun row => tupleAt env g r cs (E row)))).2[n]? with
          | some vals => putAll g vals f
          | none => f)) ∧
        ∀ x, x ∉ rows.map E → r'.look env cs' x = r.look env cs x
  | [], s, r, cs, h, hR, _, _ => ⟨r, cs, rfl, h, hR, fun n x hx => by simp at hx, fun _ _ => rfl⟩
  | row :: rows, s, r, cs, h, hR, hnd, hrow => by
    obtain ⟨hrr, f, hf⟩ := hrow row List.mem_cons_self
    have hall := hrr.isSome h hf
    obtain ⟨hm, href⟩ := hrr
    have hrd := h.readRow_eq hf row.2.1 href
    rw [hm] at hrd
    have htyped := h.tupleOf_typed hf hall
    have htup : tupleAt env g r cs (E row) = tupleOf g f := by unfold tupleAt; rw [hf]; rfl
    obtain ⟨r1, cs1, t1, t2, t3, t4, t5, _⟩ := RInv.writeElems_eq (e := E row) (ai := row.1) (k := row.2.2) row.2.1
      (F s (tupleOf g f)).2.1 h hR hf (fun s hs => hg _ (by rw [← hm]; exact List.mem_map.mpr ⟨s, hs, rfl⟩))
      (by rw [hm]; exact hn) (by rw [hm]; exact hF _ _ htyped) href
    rw [hm] at t4
    simp only [List.map_cons, List.nodup_cons] at hnd
    have hne : ∀ row' ∈ rows, E row' ≠ E row := fun row' hr' he => hnd.1 (List.mem_map.mpr ⟨row', hr', he⟩)
    rw [List.map_cons, htup]
    by_cases hb : (F s (tupleOf g f)).2.2 = true
    · refine ⟨r1, cs1, ?_, t2, t3, fun n x hx => ?_, fun x hx => ?_⟩
      · unfold loopRows scanBody
        rw [hrd, if_pos hb]
        simp only [ok_bind]
        rw [t1]
        simp only [ok_bind, if_pos hb]
        rfl
      · unfold scanBody
        rw [if_pos hb]
        cases n with
        | zero =>
          simp only [List.map_cons, List.getElem?_cons_zero, Option.some.injEq] at hx
          subst hx
          rw [t4, if_pos rfl, hf]
          rfl
        | succ n =>
          simp only [List.map_cons, List.getElem?_cons_succ] at hx
          obtain ⟨row', hr', rfl⟩ := List.mem_map.mp (List.mem_of_getElem? hx)
          rw [t4, if_neg (hne row' hr')]
          simp
      · rw [t4, if_neg (fun hh => hx (by rw [hh]; simp))]
    · have hrest : rows.map (fun row => tupleAt env g r1 cs1 (E row)) = rows.map (fun row => tupleAt env g r cs (E row)) :=
        List.map_congr_left (fun row' hr' => by unfold tupleAt; rw [t4, if_neg (hne row' hr')])
      obtain ⟨r2, cs2, u1, u2, u3, u4, u5⟩ := RInv.loop_eq hg hn hF E rows (F s (tupleOf g f)).1 t2 t3 hnd.2 (fun row' hr' => by
        obtain ⟨⟨w1, w2⟩, f', w3⟩ := hrow row' (List.mem_cons_of_mem _ hr')
        refine ⟨⟨w1, fun s hs => ⟨(w2 s hs).1, t5 _ _ _ _ (w2 s hs).2⟩⟩, f', ?_⟩
        rw [t4, if_neg (hne row' hr'), w3])
      rw [hrest] at u1 u4
      refine ⟨r2, cs2, ?_, u2, u3, fun n x hx => ?_, fun x hx => ?_⟩
      · unfold loopRows scanBody
        rw [hrd, if_neg hb]
        simp only [ok_bind]
        rw [t1]
        simp only [ok_bind, if_neg hb]
        exact u1
      · unfold scanBody
        rw [if_neg hb]
        cases n with
        | zero =>
          simp only [List.map_cons, List.getElem?_cons_zero, Option.some.injEq] at hx
          subst hx
          rw [u5 _ hnd.1, t4, if_pos rfl, hf]
          rfl
        | succ n =>
          simp only [List.map_cons, List.getElem?_cons_succ] at hx ⊢
          obtain ⟨row', hr', rfl⟩ := List.mem_map.mp (List.mem_of_getElem? hx)
          rw [u4 n _ hx, t4, if_neg (hne row' hr')]
      · simp only [List.map_cons, List.mem_cons, not_or] at hx
        rw [u5 x hx.2, t4, if_neg hx.1]

/-- **C123** For every mutable iterator there is a list of entities, each of them once, that every loop over it visits in this
order. Whatever variables the body carries along and whenever it leaves the loop, the loop ends without a fault; the final
variables and the new tuples are those the body computes over the list of the tuples the entities had at the beginning; the
entities after the row at which the loop was left, and all entities not visited, are as they were. -/
theorem C123_loop (hr : Reachable W r) (hg : ∀ c ∈ g, W.Has c) (hv : (g.descriptor env).isValid = true) {it : MutIter}
    (hit : it.Ok W g) :
    ∃ (es : List Entity) (tuples : List (List Val)), es.Nodup ∧ tuples.length = es.length ∧
      (∀ (n : Nat) (e : Entity), es[n]? = some e → Matches env r g e ∧ r.getComponents env g e = .ok tuples[n]?) ∧
      (it = .matching → ∀ e, Matches env r g e → e ∈ es) ∧
      ∀ (σ : Type) (F : Body σ) (s : σ), (∀ s vals, TypedVals g vals → TypedVals g (F s vals).2.1) →
        ∃ r', runLoop env it g F s r = .ok ((scanBody F s tuples).1, r') ∧ Reachable W r' ∧
          (∀ (n : Nat) (e : Entity) (vals : List Val), es[n]? = some e → (scanBody F s tuples).2[n]? = some vals →
            TupleUpdated W g (fun _ => vals) r r' e) ∧
          (∀ (n : Nat) (e : Entity), es[n]? = some e → (scanBody F s tuples).2.length ≤ n → SameEntity W r r' e) ∧
          ∀ e, e ∉ es → SameEntity W r r' e := by
  obtain ⟨cs, h⟩ := hr.inv
  have hn : g.Nodup := nodup_of_map (Group.spec hv).wf.nodup
  obtain ⟨items, h1, h2, h3⟩ := h.items_spec hg hv it hit
  obtain ⟨E, hE, hrow⟩ := h.system_rows hv h3
  have hfn := h.flat_nodup h2
  have hm : ∀ row ∈ items.flatMap rowsOfItem, ∃ f, r.look env cs (E row) = some f ∧ (∀ c ∈ g, (f c).isSome) ∧
      Matches env r g (E row) := by
    intro row hx
    obtain ⟨hrr, f, hf⟩ := hrow row hx
    have hall := hrr.isSome h hf
    exact ⟨f, hf, hall, h.live_iff.mpr ⟨f, hf⟩, fun c hc => (h.has_iff hf (hg c hc)).mpr (hall c hc)⟩
  have hat : ∀ (n : Nat) (e : Entity), ((items.flatMap rowsOfItem).map E)[n]? = some e →
      ∃ row ∈ items.flatMap rowsOfItem, (items.flatMap rowsOfItem)[n]? = some row ∧ E row = e := by
    intro n e hne
    rw [List.getElem?_map] at hne
    obtain ⟨row, q1, q2⟩ := Option.map_eq_some_iff.mp hne
    exact ⟨row, List.mem_of_getElem? q1, q1, q2⟩
  refine ⟨(items.flatMap rowsOfItem).map E, (items.flatMap rowsOfItem).map (fun row => tupleAt env g r cs (E row)),
    by rw [hE]; exact hfn, by simp, fun n e hne => ?_, fun hmat e he => ?_, fun σ F s hF => ?_⟩
  · obtain ⟨row, q0, q1, rfl⟩ := hat n e hne
    obtain ⟨f, hf, hall, hmt⟩ := hm row q0
    refine ⟨hmt, ?_⟩
    rw [h.getComponents_eq hg hv, hf, List.getElem?_map, q1]
    simp only [Option.bind_some, Option.map_some]
    rw [if_pos (show hasAll f g = true from List.all_eq_true.mpr hall)]
    unfold tupleAt
    rw [hf]
    rfl
  · subst hmat
    rw [hE]
    obtain ⟨i, k, ct, q1, q2, q3⟩ := h.matches_row hg he
    have hitems : (MutIter.matching).items env r g = _ := h.iterFilteredComponentsMatchingMut_eq (filter := fun _ => true) hg hv
    rw [h1] at hitems
    injection hitems with hitems
    subst hitems
    obtain ⟨a, ha, _⟩ := h.arch.arch q1
    have hy := (h.arch.mem_yielded hg hv (filter := fun _ => true)).mpr ⟨a, ct, ha, q1, q3, rfl⟩
    refine List.mem_flatMap.mpr ⟨i, ?_, by rw [contentAt_of q1]; exact List.mem_of_getElem? q2⟩
    rw [List.map_map]
    exact List.mem_map.mpr ⟨i, hy, rfl⟩
  · obtain ⟨r', cs', u1, u2, u3, u4, u5⟩ := RInv.loop_eq hg hn hF E (items.flatMap rowsOfItem) s h hr (by rw [hE]; exact hfn) hrow
    refine ⟨r', by unfold runLoop; rw [h1]; exact u1, u3, fun n e vals hne hvals => ?_, fun n e hne hlen => ?_, fun e he => ?_⟩
    · obtain ⟨row, q0, q1, rfl⟩ := hat n e hne
      obtain ⟨f, hf, hall, hmt⟩ := hm row q0
      have ht : TypedVals g vals := by
        refine scanBody_typed hF _ s ?_ vals (List.mem_of_getElem? hvals)
        intro v hv'
        obtain ⟨row', w1, rfl⟩ := List.mem_map.mp hv'
        obtain ⟨f', hf', hall', _⟩ := hm row' w1
        unfold tupleAt
        rw [hf']
        exact h.tupleOf_typed hf' hall'
      refine h.updated u2 hg hv (fun _ _ => ht) hmt ?_
      rw [u4 n _ hne, hvals]
    · refine h.sameEntity_of_look u2 ?_
      rw [u4 n e hne, List.getElem?_eq_none hlen]
      simp
    · exact h.sameEntity_of_look u2 (u5 e he)

/-! ## Examples -/

/-- Number the rows: the first byte of each value becomes the number of the row, from 1; leave after `limit` rows. -/
def exNumber (limit : UInt8) : Body UInt8 := fun s vals =>
  (s + 1, vals.map (fun v => ⟨v.ty, v.bytes.set 0 (s + 1)⟩), s + 1 == limit)

set_option maxRecDepth 100000 in
/-- C123 on the example registry: the body preserves types; over the two entities that have `A` the loop ends with the counter
at 2 and both are numbered; left after the first row, the counter is 1 and the other entity is as it was. -/
example : Reachable exWorld exR ∧ (∀ c ∈ [exA], exWorld.Has c) ∧ (Group.descriptor exEnv [exA]).isValid = true ∧
    (∀ s vals, TypedVals [exA] vals → TypedVals [exA] (exNumber 1 s vals).2.1) ∧
    okOr none ((runLoop exEnv .matching [exA] (exNumber 9) 0 exR).map (fun x => some (x.1,
      [exE1, exE2].map (fun e => okOr none (x.2.getComponent exEnv exA e))))) =
      some (2, [some ⟨1, [2, 2, 3, 4]⟩, some ⟨1, [1, 6, 7, 8]⟩]) ∧
    okOr none ((runLoop exEnv .matching [exA] (exNumber 1) 0 exR).map (fun x => some (x.1,
      [exE1, exE2].map (fun e => okOr none (x.2.getComponent exEnv exA e))))) =
      some (1, [some ⟨1, [1, 2, 3, 4]⟩, some ⟨1, [1, 6, 7, 8]⟩]) := by
  refine ⟨exReachable, ?_, by decide +kernel, fun s vals h => ⟨by simp [exNumber, h.1], fun i c v h1 h2 => ?_⟩,
    by decide +kernel, by decide +kernel⟩
  · have h : ∀ c ∈ [exA], c ∈ [exA, exB, exC] := by decide
    exact h
  · unfold exNumber at h2
    rw [List.getElem?_map] at h2
    obtain ⟨w, hw, rfl⟩ := Option.map_eq_some_iff.mp h2
    obtain ⟨q1, q2⟩ := h.2 i c w h1 hw
    exact ⟨q1, by simpa using q2⟩

end Shard
