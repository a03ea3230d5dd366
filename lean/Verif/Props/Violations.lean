import Verif.Proofs.RemoveAny
import Verif.Props.Safety
/-!
# C18 and C36: `remove_entity` with a group that does not match
-/

set_option autoImplicit false

namespace Shard

variable {env : Env} {W : World env} {r r' : Registry}

theorem prefix_of_map_id : ∀ {l l' : List CompTy}, (∀ c ∈ l, W.Has c) → (∀ c ∈ l', W.Has c) →
    l.map (fun c => c.id) <+: l'.map (fun c => c.id) → l <+: l'
  | [], _, _, _, _ => List.nil_prefix
  | c :: l, [], _, _, h => by simp at h
  | c :: l, c' :: l', h1, h2, h => by
    rw [List.map_cons, List.map_cons, List.cons_prefix_cons] at h
    rw [List.cons_prefix_cons]
    exact ⟨W.id_inj (h1 c (by simp)) (h2 c' (by simp)) h.1,
      prefix_of_map_id (fun c hc => h1 c (by simp [hc])) (fun c hc => h2 c (by simp [hc])) h.2⟩

/-! ## C18 -/

/-- The claim of **C18**: with a group that is not exactly the component set of the entity, `remove_entity` returns
`None` and nothing changes. -/
def C18_statement : Prop :=
  ∀ (env : Env) (W : World env) (r : Registry), Reachable W r → ∀ (e : Entity) (g : Group), Live env r e →
    (∀ c ∈ g, W.Has c) → (g.descriptor env).isValid = true → ¬ HasExactly W r e g →
    ∃ r', r.removeEntity env g e = .ok (r', none) ∧ ∀ x, SameEntity W r r' x

theorem exLive : Live exEnv exR exE1 ∧ Live exEnv exR exE2 ∧ Live exEnv exR exE4 := by
  unfold Live; rw [exR_live.1]; decide +kernel

set_option maxRecDepth 100000 in
/-- **C18** is false: `exE2` has only an `A`; removing it as an `(A, B)` reads a `B` through a null pointer. -/
theorem C18_violated : ¬ C18_statement := by
  intro h
  obtain ⟨r', h1, _⟩ := h exEnv exWorld exR exReachable exE2 [exA, exB] exLive.2.1
    (by show ∀ c ∈ _, c ∈ [exA, exB, exC]; decide) (by decide +kernel) (by
      intro hx
      have h1 := (hx.2 exB (by show exB ∈ [exA, exB, exC]; decide)).mpr (by decide)
      exact absurd h1 (by decide +kernel))
  have h2 : (exR.removeEntity exEnv [exA, exB] exE2).map (fun _ => ()) = .error (.ub .nullDeref) := by decide +kernel
  rw [h1] at h2
  cases h2

set_option maxRecDepth 100000 in
/-- The three ways it goes wrong: a null pointer is read (`exE2` has only `A`), a value is read at another type (`exE1`
has `A`, `B` and `C`), and a proper part of the components is returned, the others are lost. -/
theorem C18_witnesses :
    (exR.removeEntity exEnv [exA, exB] exE2).map Prod.snd = .error (.ub .nullDeref) ∧
    (exR.removeEntity exEnv [exC] exE1).map Prod.snd = .error (.ub .typeConfusion) ∧
    (exR.removeEntity exEnv [exB, exA] exE1).map Prod.snd = .ok (some [exValB, exValA]) ∧
    exR.getComponent exEnv exC exE1 = .ok (some exValC) := by
  decide +kernel

/-- **C18** (partial: exactly what happens instead) For a handle that is not live, `remove_entity` returns `None` and
changes nothing. A live entity is never refused. If the ids of the group are the smallest ids of the entity, their
values are returned in tuple order and the entity is gone, together with its other components, which are never returned
or dropped. In every other case the call runs into undefined behaviour, given that the sizes are positive and the types
are distinct. -/
theorem C18_remove_entity_partial (hr : Reachable W r) {e : Entity} {g : Group} (hg : ∀ c ∈ g, W.Has c)
    (hv : (g.descriptor env).isValid = true) :
    (¬ Live env r e → r.removeEntity env g e = .ok (r, none)) ∧
    (Live env r e → ∀ s, AscSet s (HasId W r e) → g.idSet <+: s →
      ∃ r' vs, r.removeEntity env g e = .ok (r', some vs) ∧ vs.length = g.length ∧
        (∀ (i : Nat) (c : CompTy), g[i]? = some c → r.getComponent env c e = .ok vs[i]?) ∧
        ¬ Live env r' e ∧ ∀ x, x ≠ e → SameEntity W r r' x) ∧
    (Live env r e → ∀ s, AscSet s (HasId W r e) → ¬ g.idSet <+: s → (∀ c, W.Has c → 0 < c.size) →
      (∀ c c', W.Has c → W.Has c' → c.ty = c'.ty → c = c') →
      ∃ k, r.removeEntity env g e = .error (.ub k)) := by
  obtain ⟨cs, h⟩ := hr.inv
  have gs := Group.spec hv
  refine ⟨fun hd => (dead_ops (h.entry_none hd)).2.2.2.2.2.2.2.2.1 g, ?_⟩
  have key : Live env r e → ∀ s, AscSet s (HasId W r e) →
      ∃ (a1 : Archetype) (ct1 : Content) (k : Nat) (r' : Registry) (cs' : List Content) (vs : List Val) (f : CompTy → Option Val),
        r.look env cs e = some f ∧ Rep W a1 ct1 ∧ k < ct1.ents.length ∧ (∀ c, ct1.get c k = f c) ∧
        r.removeEntity env g e = (a1.readComponentsExactUnchecked env g k).bind (fun data => .ok (r', some data)) ∧
        Removed W r cs e r' cs' vs ∧ (g.idSet <+: s ↔ g.cts env <+: ct1.cts) := by
    intro hl s hs
    obtain ⟨f, hf⟩ := h.live_iff.mp hl
    obtain ⟨a1, ct1, k, r', cs', vs, q1, q2, q3, q4, q5⟩ := h.removeEntity_core hf
    refine ⟨a1, ct1, k, r', cs', vs, f, hf, q1, q2, q3, q4 g, q5, ?_⟩
    have hm : ∀ c, (f c).isSome ↔ c ∈ ct1.cts := by
      intro c
      rw [← q3]
      constructor
      · intro hs
        obtain ⟨v, hv⟩ := Option.isSome_iff_exists.mp hs
        exact (q1.mem_of_get hv).1
      · intro hc
        obtain ⟨v, hv, _⟩ := q1.get_some hc q2
        simp [hv]
    have hids : ct1.cts.map (fun c => c.id) = s := by
      rw [← q1.desc.ids_eq]
      exact (h.ids_of hf q1 hm).1.unique hs
    have hgids : (g.cts env).map (fun c => c.id) = g.idSet := by
      rw [← gs.ids_eq]
      unfold ArchetypeDescriptor.ids
      rw [Group.cts_comps gs, List.map_map]; rfl
    rw [← hids, ← hgids]
    exact ⟨prefix_of_map_id (Group.cts_perm gs hg).2.1 q1.desc.has, fun hp => hp.map _⟩
  refine ⟨fun hl s hs hp => ?_, fun hl s hs hp hsize hty => ?_⟩
  · obtain ⟨a1, ct1, k, r', cs', vs, f, hf, q1, q2, q3, q4, q5, q6⟩ := key hl s hs
    rw [q1.readExact_prefix hg gs (q6.mp hp) q2] at q4
    refine ⟨r', _, q4, by simp, fun i c hi => ?_, ?_, fun x hx => h.sameEntity q5.inv ?_⟩
    · have hc := List.mem_of_getElem? hi
      rw [h.getComponent_eq (hg c hc), hf, List.getElem?_map, hi]
      obtain ⟨v, hv, _⟩ := q1.get_some ((q6.mp hp).subset ((gs.mem_cts' hg).mpr hc)) q2
      simp only [Option.map_some, Option.bind_some, hv, Option.getD_some, ← q3]
    · rw [q5.inv.dead_iff, q5.look, if_pos rfl]
    · rw [q5.look, if_neg hx]
  · obtain ⟨a1, ct1, k, r', cs', vs, f, hf, q1, q2, q3, q4, q5, q6⟩ := key hl s hs
    obtain ⟨u, hu⟩ := q1.readExact_fault hg gs hsize hty (fun hc => hp (q6.mpr hc)) q2
    rw [hu] at q4
    exact ⟨u, q4⟩

set_option maxRecDepth 100000 in
/-- C18 on `exR`: the groups of the witnesses, with the ids of `exE1` and of `exE2`. -/
example : Reachable exWorld exR ∧ AscSet [10, 20, 30] (HasId exWorld exR exE1) ∧ AscSet [10] (HasId exWorld exR exE2) ∧
    (∀ c, exWorld.Has c → 0 < c.size) ∧ (∀ c c', exWorld.Has c → exWorld.Has c' → c.ty = c'.ty → c = c') ∧
    (Group.descriptor exEnv [exB, exA]).isValid = true ∧ ¬ Live exEnv exR exE3 := by
  have hmem : ∀ c, exWorld.Has c → c = exA ∨ c = exB ∨ c = exC := by
    intro c hc
    have hc : c ∈ [exA, exB, exC] := hc
    simpa using hc
  refine ⟨exReachable, ⟨by decide, fun i => ?_⟩, ⟨by decide, fun i => ?_⟩, fun c hc => ?_, fun c c' hc hc' h => ?_,
    by decide +kernel, ?_⟩
  · have hall : ∀ c ∈ [exA, exB, exC], exR.hasComponent exEnv c exE1 = .ok true := by decide +kernel
    constructor
    · intro hi
      simp only [List.mem_cons, List.not_mem_nil, or_false] at hi
      rcases hi with rfl | rfl | rfl
      · exact ⟨exA, by show exA ∈ [exA, exB, exC]; decide, rfl, hall _ (by decide)⟩
      · exact ⟨exB, by show exB ∈ [exA, exB, exC]; decide, rfl, hall _ (by decide)⟩
      · exact ⟨exC, by show exC ∈ [exA, exB, exC]; decide, rfl, hall _ (by decide)⟩
    · rintro ⟨c, hc, rfl, _⟩
      rcases exHas_id hc with h | h | h <;> rw [h] <;> decide
  · have hall : exR.hasComponent exEnv exA exE2 = .ok true ∧ exR.hasComponent exEnv exB exE2 = .ok false ∧
        exR.hasComponent exEnv exC exE2 = .ok false := by decide +kernel
    constructor
    · intro hi
      simp only [List.mem_cons, List.not_mem_nil, or_false] at hi
      subst hi
      exact ⟨exA, by show exA ∈ [exA, exB, exC]; decide, rfl, hall.1⟩
    · rintro ⟨c, hc, rfl, hx⟩
      rcases hmem c hc with rfl | rfl | rfl
      · decide
      · rw [hall.2.1] at hx; cases hx
      · rw [hall.2.2] at hx; cases hx
  · rcases hmem c hc with rfl | rfl | rfl <;> decide
  · rcases hmem c hc with rfl | rfl | rfl <;> rcases hmem c' hc' with rfl | rfl | rfl <;> first | rfl | (exact absurd h (by decide))
  · unfold Live; rw [exR_live.1]; decide +kernel

/-! ## C36 -/

/-- The claim of **C36** for the calls that change the registry: none of them faults, whatever came before. -/
def C36_statement : Prop :=
  ∀ (env : Env) (W : World env) (r : Registry), Reachable W r → ∀ call : Call, call.Admissible W r →
    ∃ r' out, call.run env r = .ok (r', out)

set_option maxRecDepth 100000 in
/-- **C36** is false without the restrictions of `C36_memory_safety_partial`: a `remove_entity` with the wrong group is
undefined behaviour. -/
theorem C36_violated : ¬ C36_statement := by
  intro h
  obtain ⟨r', out, h1⟩ := h exEnv exWorld exR exReachable (.removeEntity [exA, exB] exE2) trivial
  have h2 : ((Call.removeEntity [exA, exB] exE2).run exEnv exR).map (fun _ => ()) = .error (.ub .nullDeref) := by
    decide +kernel
  rw [h1] at h2
  cases h2

end Shard
