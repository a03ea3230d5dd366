import Verif.Spec.Aggregate
import Verif.Props.Pairs
import Verif.Props.WorkLoop
import Verif.Props.Locality
/-!
# C134: totals over a query depend on the entities alone and can be kept up to date
-/

set_option autoImplicit false

namespace Shard

open Script

variable {env : Env} {W : World env} {r r' : Registry} {g : Group} {β : Type} {f : β → Entity → List Val → β}

theorem getComponents_total (hr : Reachable W r) (hg : ∀ c ∈ g, W.Has c) (hv : (g.descriptor env).isValid = true) (e : Entity) :
    (Matches env r g e ∧ r.getComponents env g e = .ok (some (valsOf env r g e))) ∨
    (¬ Matches env r g e ∧ r.getComponents env g e = .ok none) := by
  by_cases hm : Matches env r g e
  · exact .inl ⟨hm, hr.valsOf_eq hg hv hm⟩
  · refine .inr ⟨hm, ?_⟩
    obtain ⟨cs, h⟩ := hr.inv
    rw [h.getComponents_eq hg hv]
    cases hf : r.look env cs e with
    | none => rfl
    | some k =>
      simp only [Option.bind_some]
      rw [if_neg]
      intro hall
      exact hm ⟨h.live_iff.mpr ⟨k, hf⟩, fun c hc => (h.has_iff hf (hg c hc)).mpr (List.all_eq_true.mp hall c hc)⟩

theorem SameEntity.matches_iff {e : Entity} (hs : SameEntity W r r' e) (hg : ∀ c ∈ g, W.Has c) :
    Matches env r' g e ↔ Matches env r g e :=
  ⟨fun h => ⟨hs.1.mp h.1, fun c hc => by rw [← (hs.2 c (hg c hc)).1]; exact h.2 c hc⟩,
    fun h => ⟨hs.1.mpr h.1, fun c hc => by rw [(hs.2 c (hg c hc)).1]; exact h.2 c hc⟩⟩

/-- The total is that of any list of the matching entities, in any order. -/
theorem total_eq (hr : Reachable W r) (hg : ∀ c ∈ g, W.Has c) (hv : (g.descriptor env).isValid = true) (hf : OrderFree f)
    (init : β) {l : List Entity} (hn : l.Nodup) (hl : ∀ e, e ∈ l ↔ Matches env r g e) :
    total env g f init r = .ok (l.foldl (fun acc e => f acc e (valsOf env r g e)) init) := by
  obtain ⟨es, p1, p2, p3⟩ := visited_eq hr hg hv
  have hp : es.Perm l := (List.perm_ext_iff_of_nodup p2 hn).mpr (fun e => by rw [p3, hl])
  unfold total
  rw [p1]
  simp only [ok_bind, pure_eq_ok, List.foldl_map]
  rw [hp.foldl_eq' (fun x _ y _ z => hf z x _ y _)]

/-- **C134** If two registries agree about every handle but `e`, a total whose order does not matter differs by what `e` adds
to it: it is the same `t` plus the tuple `get_components(e)` returns, if it returns one. -/
theorem C134_change (hr : Reachable W r) (hr' : Reachable W r') (hg : ∀ c ∈ g, W.Has c)
    (hv : (g.descriptor env).isValid = true) (hf : OrderFree f) (init : β) {e : Entity}
    (hs : ∀ x, x ≠ e → SameEntity W r r' x) :
    ∃ t o o', r.getComponents env g e = .ok o ∧ r'.getComponents env g e = .ok o' ∧
      total env g f init r = .ok (addTo f t e o) ∧ total env g f init r' = .ok (addTo f t e o') := by
  obtain ⟨es, _, p2, p3⟩ := visited_eq hr hg hv
  let rest := es.filter (fun x => decide (x ≠ e))
  have hrest : ∀ x, x ∈ rest ↔ x ≠ e ∧ Matches env r g x := fun x => by
    simp only [rest, List.mem_filter, decide_eq_true_eq, p3]
    exact And.comm
  have hn : rest.Nodup := p2.filter _
  have hn' : (rest ++ [e]).Nodup := List.nodup_append.mpr ⟨hn, by simp, fun x hx y hy he =>
    ((hrest x).mp hx).1 (he.trans (List.mem_singleton.mp hy))⟩
  have part : ∀ {q : Registry}, Reachable W q → (∀ x, x ≠ e → SameEntity W r q x) → ∃ o, q.getComponents env g e = .ok o ∧
      total env g f init q = .ok (addTo f (rest.foldl (fun acc x => f acc x (valsOf env r g x)) init) e o) := by
    intro q hq hsq
    have hvals : rest.foldl (fun acc x => f acc x (valsOf env q g x)) init =
        rest.foldl (fun acc x => f acc x (valsOf env r g x)) init := by
      have key : ∀ (l : List Entity), (∀ x ∈ l, x ∈ rest) → ∀ z : β, l.foldl (fun acc x => f acc x (valsOf env q g x)) z =
          l.foldl (fun acc x => f acc x (valsOf env r g x)) z := by
        intro l
        induction l with
        | nil => exact fun _ _ => rfl
        | cons x l ih =>
          intro hl z
          obtain ⟨hx, hm⟩ := (hrest x).mp (hl x List.mem_cons_self)
          have h1 := hr.valsOf_eq hg hv hm
          have h2 := hq.valsOf_eq hg hv (((hsq x hx).matches_iff hg).mpr hm)
          rw [(hsq x hx).getComponents hr hq hg hv, h1] at h2
          have h3 : valsOf env r g x = valsOf env q g x := Option.some.inj (Except.ok.inj h2)
          simp only [List.foldl_cons, h3]
          exact ih (fun y hy => hl y (List.mem_cons_of_mem _ hy)) _
      exact key rest (fun _ h => h) init
    rcases getComponents_total hq hg hv e with ⟨hm, ho⟩ | ⟨hm, ho⟩
    · refine ⟨_, ho, ?_⟩
      rw [total_eq hq hg hv hf init hn' (fun x => ?_), List.foldl_append, hvals]
      · rfl
      · rw [List.mem_append, hrest, List.mem_singleton]
        by_cases hx : x = e
        · subst hx
          exact ⟨fun _ => hm, fun _ => .inr rfl⟩
        · rw [(hsq x hx).matches_iff hg]
          exact ⟨fun h => h.elim (·.2) (fun h => absurd h hx), fun h => .inl ⟨hx, h⟩⟩
    · refine ⟨_, ho, ?_⟩
      rw [total_eq hq hg hv hf init hn (fun x => ?_), hvals]
      · rfl
      · rw [hrest]
        by_cases hx : x = e
        · subst hx
          exact ⟨fun h => absurd rfl h.1, fun h => absurd h hm⟩
        · rw [(hsq x hx).matches_iff hg]
          exact ⟨(·.2), fun h => ⟨hx, h⟩⟩
  obtain ⟨o, q1, q2⟩ := part hr (fun x _ => ⟨Iff.rfl, fun c _ => ⟨rfl, rfl⟩⟩)
  obtain ⟨o', q3, q4⟩ := part hr' hs
  exact ⟨_, o, o', q1, q3, q2, q4⟩

/-- **C134** Registries that agree about every handle have the same totals, however they came about and wherever they store
what they contain. -/
theorem C134_same (hr : Reachable W r) (hr' : Reachable W r') (hg : ∀ c ∈ g, W.Has c)
    (hv : (g.descriptor env).isValid = true) (hf : OrderFree f) (init : β) (hs : ∀ x, SameEntity W r r' x) :
    ∃ t, total env g f init r = .ok t ∧ total env g f init r' = .ok t := by
  obtain ⟨t, o, o', h1, h2, h3, h4⟩ := C134_change hr hr' hg hv hf init (e := Entity.INVALID) (fun x _ => hs x)
  rw [(hs Entity.INVALID).getComponents hr hr' hg hv, h1] at h2
  cases h2
  exact ⟨_, h3, h4⟩

/-- **C134** A call about an entity changes a total by what this entity added before and adds afterwards. -/
theorem C134_call (hr : Reachable W r) (hg : ∀ c ∈ g, W.Has c) (hv : (g.descriptor env).isValid = true) (hf : OrderFree f)
    (init : β) {call : Call} {e : Entity} (ha : call.about = some e) (hadm : call.Admissible W r) {out : Outcome}
    (hrun : call.run env r = .ok (r', out)) :
    ∃ t o o', r.getComponents env g e = .ok o ∧ r'.getComponents env g e = .ok o' ∧
      total env g f init r = .ok (addTo f t e o) ∧ total env g f init r' = .ok (addTo f t e o') :=
  C134_change hr (hr.snoc hadm hrun) hg hv hf init (fun _ hx => C86_frame hr ha hx hadm hrun)

/-- **C134** Creating an entity adds its tuple to the total, if it has one, and nothing else. -/
theorem C134_create (hr : Reachable W r) (hg : ∀ c ∈ g, W.Has c) (hv : (g.descriptor env).isValid = true) (hf : OrderFree f)
    (init : β) {h : Group} {vals : List Val} {e : Entity} (hadm : (Call.create h vals).Admissible W r)
    (hrun : r.createEntity env h vals = .ok (r', .ok e)) :
    ∃ t o, total env g f init r = .ok t ∧ r'.getComponents env g e = .ok o ∧ total env g f init r' = .ok (addTo f t e o) := by
  have hr' : Reachable W r' := hr.snoc (call := .create h vals) hadm (by simp only [Call.run, hrun, ok_bind]; rfl)
  obtain ⟨t, o, o', h1, h2, h3, h4⟩ := C134_change hr hr' hg hv hf init (e := e)
    (fun x hx => C11_create_frame hr hadm hrun x (fun hh => hx (by injection hh with hh; exact hh.symm)))
  rcases getComponents_total hr hg hv e with ⟨hm, _⟩ | ⟨_, ho⟩
  · exact absurd hm.1 (C03_created_handle_fresh hr hadm hrun).1
  · rw [h1] at ho
    cases ho
    exact ⟨t, o', h3, h2, h4⟩

set_option maxRecDepth 100000 in
/-- C134: the hypotheses hold for the example registry and the number of entities with an `A`; destroying
one of them takes its part away. -/
example : Reachable exWorld exR ∧ (∀ c ∈ [exA], exWorld.Has c) ∧ (Group.descriptor exEnv [exA]).isValid = true ∧
    OrderFree (fun (n : Nat) (_ : Entity) (_ : List Val) => n + 1) ∧
    (Call.destroy exE1).about = some exE1 ∧ (Call.destroy exE1).Admissible exWorld exR ∧
    okOr 0 (total exEnv [exA] (fun n _ _ => n + 1) 0 exR) = 2 ∧
    okOr 0 (do let x ← exR.destroyEntity exEnv exE1; total exEnv [exA] (fun n _ _ => n + 1) 0 x.1) = 1 :=
  ⟨exReachable, fun c hc => show c ∈ [exA, exB, exC] by rw [List.mem_singleton.mp hc]; decide, by decide +kernel,
    fun _ _ _ _ _ => rfl, rfl, trivial, by decide +kernel, by decide +kernel⟩

end Shard
