import Verif.Proofs.Parallel
import Verif.Props.Iteration
/-!
# C89: the references handed out can be used by several threads
-/

set_option autoImplicit false

namespace Shard

variable {env : Env} {W : World env} {r : Registry}

theorem lentByItems_some {items : List (Nat × List SliceRef)} {n j k : Nat} {x : Lent}
    (h : lentByItems items (n, j, k) = some x) :
    ∃ ai ss s, items[n]? = some (ai, ss) ∧ ss[j]? = some s ∧ k < s.len ∧ x = ⟨ai, s.cty, s.elem k⟩ := by
  simp only [lentByItems] at h
  cases h1 : items[n]? with
  | none => rw [h1] at h; cases h
  | some y =>
    obtain ⟨ai, ss⟩ := y
    rw [h1] at h
    simp only [] at h
    cases h2 : ss[j]? with
    | none => rw [h2] at h; cases h
    | some s =>
      rw [h2] at h
      simp only [] at h
      by_cases h3 : k < s.len
      · rw [if_pos h3] at h; cases h
        exact ⟨ai, ss, s, rfl, h2, h3, rfl⟩
      · rw [if_neg h3] at h; cases h

/-- **C89** The slices a mutable iterator yields (all of them held at the same time) can be used by any number of
threads. -/
theorem C89_slices (hr : Reachable W r) {g : Group} (hg : ∀ c ∈ g, W.Has c) (hv : (g.descriptor env).isValid = true)
    {it : MutIter} (hit : it.Ok W g) :
    ∃ items, it.items env r g = .ok items ∧ Shareable W r (lentByItems items) := by
  obtain ⟨cs, h⟩ := hr.inv
  obtain ⟨items, h1, h2, h3⟩ := h.items_spec hg hv it hit
  refine ⟨items, h1, ?_⟩
  let E : Nat × Nat × Nat → Entity := fun i => ((items[i.1]?.bind (fun x => cs[x.1]?)).bind (fun ct => ct.ents[i.2.2]?)).getD ⟨0⟩
  have hE : ∀ (n j k : Nat) (x : Lent), lentByItems items (n, j, k) = some x → ∃ (ct : Content) (ss : List SliceRef), items[n]? = some (x.arch, ss) ∧
      cs[x.arch]? = some ct ∧ (∀ c ∈ g, c ∈ ct.cts) ∧ g[j]? = some x.cty ∧ ct.ents[k]? = some (E (n, j, k)) ∧
      RefTo env r cs (E (n, j, k)) x.cty x.arch x.ptr := by
    intro n j k x hx
    obtain ⟨ai, ss, s, q1, q2, q3, rfl⟩ := lentByItems_some hx
    obtain ⟨ct, hc, hs, hss⟩ := h3 _ (List.mem_of_getElem? q1)
    simp only at hc hss
    subst hss
    obtain ⟨c, e, w1, w2, w3, w4⟩ := h.slice_ref hc hs q2 q3
    have he : E (n, j, k) = e := by
      show ((items[n]?.bind (fun x => cs[x.1]?)).bind (fun ct => ct.ents[k]?)).getD _ = e
      rw [q1]
      simp only [Option.bind_some]
      rw [hc]
      simp only [Option.bind_some]
      rw [w3]
      rfl
    rw [he]
    exact ⟨ct, _, q1, hc, hs, by rw [w2]; exact w1, w3, by rw [w2]; exact w4⟩
  refine Lends.shareable (E := E) (cs := cs)
    (σ := fun i => (((lentByItems items i).bind (fun x => (r.look env cs (E i)).bind (fun f => f x.cty)))).getD ⟨0, []⟩) ⟨h, ?_, ?_, ?_⟩ hr
  · rintro ⟨n, j, k⟩ x hx
    obtain ⟨ct, ss, q1, q2, q3, q4, q5, q6⟩ := hE n j k x hx
    exact ⟨hg _ (List.mem_of_getElem? q4), q6⟩
  · rintro ⟨n, j, k⟩ ⟨n', j', k'⟩ x x' hne hx hx'
    obtain ⟨ct, ss, q1, q2, q3, q4, q5, q6⟩ := hE n j k x hx
    obtain ⟨ct', ss', q1', q2', q3', q4', q5', q6'⟩ := hE n' j' k' x' hx'
    by_cases he : E (n, j, k) = E (n', j', k')
    · right
      intro hcc
      rw [he] at q5
      obtain ⟨haa, hkk⟩ := h.row_inj q2 q2' q5 q5'
      have hjj : j = j' := by
        have hnd : g.Nodup := nodup_of_map (Group.spec hv).wf.nodup
        rw [hcc] at q4
        obtain ⟨l1, e1⟩ := List.getElem?_eq_some_iff.mp q4
        obtain ⟨l2, e2⟩ := List.getElem?_eq_some_iff.mp q4'
        exact (List.getElem_inj hnd).mp (e1.trans e2.symm)
      have hnn : n = n' := by
        have e1 : (items.map Prod.fst)[n]? = some x.arch := by rw [List.getElem?_map, q1]; rfl
        have e2 : (items.map Prod.fst)[n']? = some x.arch := by rw [List.getElem?_map, q1', haa]; rfl
        obtain ⟨l1, f1⟩ := List.getElem?_eq_some_iff.mp e1
        obtain ⟨l2, f2⟩ := List.getElem?_eq_some_iff.mp e2
        exact (List.getElem_inj h2).mp (f1.trans f2.symm)
      exact hne (by rw [hnn, hjj, hkk])
    · exact Or.inl he
  · rintro ⟨n, j, k⟩ x hx
    obtain ⟨ct, ss, q1, q2, q3, q4, q5, q6⟩ := hE n j k x hx
    obtain ⟨a, ha, hrep⟩ := h.arch.arch q2
    obtain ⟨v, hv', _⟩ := hrep.get_some (q3 _ (List.mem_of_getElem? q4)) (List.getElem?_eq_some_iff.mp q5).1
    simp only [hx, Option.bind_some]
    rw [h.row_look q2 q5]
    simp only [Option.bind_some]
    rw [hv']
    rfl

/-- **C89** So can the references in the tuple that `get_components_mut` returns. -/
theorem C89_tuple (hr : Reachable W r) {g : Group} (hg : ∀ c ∈ g, W.Has c) (hv : (g.descriptor env).isValid = true)
    {e : Entity} {ai : Nat} {ps : List (CompTy × Option Ref)} (hget : r.getComponentsMut env g e = .ok (some (ai, ps))) :
    Shareable W r (lentByTuple ai ps) ∧ ∀ j, (lentByTuple ai ps j).isSome ↔ j < g.length := by
  obtain ⟨cs, h⟩ := hr.inv
  rcases h.getComponentsMut_eq hg hv e with ⟨_, h2⟩ | ⟨f, ai', ref, h1, h2, h3, h4⟩
  · rw [hget] at h2; cases h2
  · rw [hget] at h3
    injection h3 with h3
    injection h3 with h3
    injection h3 with e1 e2
    subst e1 e2
    have hl : ∀ j, lentByTuple ai (g.map (fun c => (c, some (ref c)))) j = (g[j]?).map (fun c => ⟨ai, c, ref c⟩) := by
      intro j
      unfold lentByTuple
      rw [List.getElem?_map]
      cases g[j]? <;> rfl
    have hnd : g.Nodup := nodup_of_map (Group.spec hv).wf.nodup
    refine ⟨Lends.shareable (E := fun _ => e) (cs := cs) (σ := fun j => ((g[j]?).bind f).getD ⟨0, []⟩) ⟨h, ?_, ?_, ?_⟩ hr, fun j => ?_⟩
    · intro j x hx
      rw [hl] at hx
      obtain ⟨c, hc, rfl⟩ := Option.map_eq_some_iff.mp hx
      have hm := List.mem_of_getElem? hc
      exact ⟨hg c hm, h4 c hm⟩
    · intro j j' x x' hne hx hx'
      rw [hl] at hx hx'
      obtain ⟨c, hc, rfl⟩ := Option.map_eq_some_iff.mp hx
      obtain ⟨c', hc', rfl⟩ := Option.map_eq_some_iff.mp hx'
      right
      rintro (rfl : c = c')
      obtain ⟨l1, f1⟩ := List.getElem?_eq_some_iff.mp hc
      obtain ⟨l2, f2⟩ := List.getElem?_eq_some_iff.mp hc'
      exact hne ((List.getElem_inj hnd).mp (f1.trans f2.symm))
    · intro j x hx
      rw [hl] at hx
      obtain ⟨c, hc, rfl⟩ := Option.map_eq_some_iff.mp hx
      rw [h1, hc]
      simp only [Option.bind_some]
      obtain ⟨v, hv'⟩ := Option.isSome_iff_exists.mp (List.all_eq_true.mp h2 c (List.mem_of_getElem? hc))
      rw [hv']
      rfl
    · rw [hl, Option.isSome_map]
      simp

/-! ## An example -/

/-- The items of the mutable iterator over `A` in `exR` (whose archetypes 1 and 2 have an entity with an `A` each). -/
def exLent : List (Nat × List SliceRef) := okOr [] (MutIter.matching.items exEnv exR [exA])

/-- Two threads, each replacing the value in one of the slices and reading it back. -/
def exSchedule : List (Nat × Access (Nat × Nat × Nat)) :=
  [(1, .replace (0, 0, 0) exValA), (2, .replace (2, 0, 0) exValA'), (2, .read (2, 0, 0)), (1, .read (0, 0, 0))]

/-- The same threads, one after the other. -/
def exSchedule' : List (Nat × Access (Nat × Nat × Nat)) :=
  [(2, .replace (2, 0, 0) exValA'), (2, .read (2, 0, 0)), (1, .replace (0, 0, 0) exValA), (1, .read (0, 0, 0))]

set_option maxRecDepth 100000 in
/-- The hypotheses of C89 hold for `exR` and the schedules. -/
theorem exBorrowed : Reachable exWorld exR ∧ (∀ c ∈ [exA], exWorld.Has c) ∧ (Group.descriptor exEnv [exA]).isValid = true ∧
    MutIter.matching.items exEnv exR [exA] = .ok exLent ∧ Borrowed (lentByItems exLent) exSchedule ∧
    SameThreads exSchedule exSchedule' := by
  refine ⟨exReachable, ?_, by decide +kernel, by decide +kernel, ⟨?_, ?_⟩, ?_⟩
  · show ∀ c ∈ [exA], c ∈ [exA, exB, exC]
    decide
  · have h0 : (lentByItems exLent (0, 0, 0)).map (fun x => x.cty) = some exA := by decide +kernel
    have h2 : (lentByItems exLent (2, 0, 0)).map (fun x => x.cty) = some exA := by decide +kernel
    obtain ⟨y, hy, hc⟩ := Option.map_eq_some_iff.mp h0
    obtain ⟨z, hz, hd⟩ := Option.map_eq_some_iff.mp h2
    intro x hx
    simp only [exSchedule, List.mem_cons, List.not_mem_nil, or_false] at hx
    rcases hx with rfl | rfl | rfl | rfl
    · exact ⟨y, hy, fun i v he => by cases he; rw [hc]; exact ⟨rfl, rfl⟩⟩
    · exact ⟨z, hz, fun i v he => by cases he; rw [hd]; exact ⟨rfl, rfl⟩⟩
    · exact ⟨z, hz, fun i v he => by cases he⟩
    · exact ⟨y, hy, fun i v he => by cases he⟩
  · intro x hx y hy hne he
    simp only [exSchedule, List.mem_cons, List.not_mem_nil, or_false] at hx hy
    rcases hx with rfl | rfl | rfl | rfl <;> rcases hy with rfl | rfl | rfl | rfl <;>
      first | exact absurd rfl hne | (simp [Access.name] at he)
  · intro t
    unfold threadOf
    by_cases h1 : t = 1
    · subst h1; rfl
    · by_cases h2 : t = 2
      · subst h2; rfl
      · have e1 : ∀ x ∈ exSchedule, ¬ (x.1 == t) = true := by
          intro x hx
          simp only [exSchedule, List.mem_cons, List.not_mem_nil, or_false] at hx
          rcases hx with rfl | rfl | rfl | rfl <;> simp <;> omega
        have e2 : ∀ x ∈ exSchedule', ¬ (x.1 == t) = true := by
          intro x hx
          simp only [exSchedule', List.mem_cons, List.not_mem_nil, or_false] at hx
          rcases hx with rfl | rfl | rfl | rfl <;> simp <;> omega
        rw [List.filter_eq_nil_iff.mpr e1, List.filter_eq_nil_iff.mpr e2]

set_option maxRecDepth 100000 in
/-- What the threads see, computed. -/
example : (runSchedule (lentByItems exLent) exR exSchedule).map (fun x => x.2) =
      .ok [(1, exValA'), (2, exValA), (2, exValA'), (1, exValA)] ∧
    (runSchedule (lentByItems exLent) exR exSchedule').map (fun x => x.2) =
      .ok [(2, exValA), (2, exValA'), (1, exValA'), (1, exValA)] := by
  decide +kernel

set_option maxRecDepth 100000 in
/-- **C89** Without the borrow checker's guarantee the result would depend on the interleaving. -/
theorem C89_exclusive_needed :
    (runSchedule (lentByItems exLent) exR [(1, .replace (0, 0, 0) exValA), (2, .read (0, 0, 0))]).map (fun x => threadOf 2 x.2) =
      .ok [(2, exValA)] ∧
    (runSchedule (lentByItems exLent) exR [(2, .read (0, 0, 0)), (1, .replace (0, 0, 0) exValA)]).map (fun x => threadOf 2 x.2) =
      .ok [(2, exValA')] := by
  decide +kernel

end Shard
