import Verif.Spec.Pairs
import Verif.Props.Select
/-!
# C133: loops within loops visit every pair of entities once
-/

set_option autoImplicit false

namespace Shard

open Script

variable {env : Env} {W : World env} {r : Registry} {g h : Group}

theorem visited_eq (hr : Reachable W r) (hg : ∀ c ∈ g, W.Has c) (hv : (g.descriptor env).isValid = true) :
    ∃ es : List Entity, visited env g r = .ok (es.map (fun e => (e, valsOf env r g e))) ∧ es.Nodup ∧
      ∀ e, e ∈ es ↔ Matches env r g e := by
  obtain ⟨items, h1, h2, h3, h4, h5⟩ := C30_matching_iteration hr hg hv
  have hz : items.flatMap (fun x => x.2.1.zip (rowsOf x.2.2)) =
      (items.flatMap (fun x => x.2.1)).map (fun e => (e, valsOf env r g e)) := by
    rw [List.map_flatMap]
    clear h1 h2 h3 h4
    induction items with
    | nil => rfl
    | cons x xs ih =>
      rw [List.flatMap_cons, List.flatMap_cons, ih (fun y hy => h5 y (List.mem_cons_of_mem _ hy)),
        aligned_rows (valid_ne hv) (h5 x List.mem_cons_self), zip_map_self]
  refine ⟨items.flatMap (fun x => x.2.1), ?_, h3, h4⟩
  unfold visited
  rw [h1]
  simp only [ok_bind, pure_eq_ok]
  rw [hz]

/-- All pairs of a list, the first before the second. -/
def later {α : Type} : List α → List (α × α)
  | [] => []
  | x :: l => l.map (fun y => (x, y)) ++ later l

theorem later_cons {α : Type} (x : α) (l : List α) : later (x :: l) = l.map (fun y => (x, y)) ++ later l := rfl

theorem later_eq {α : Type} : ∀ (l pre : List α),
    ((l.zipIdx pre.length).map (fun p => ((pre ++ l).drop (p.2 + 1)).map (fun y => (p.1, y)))).flatten = later l
  | [], _ => rfl
  | x :: l, pre => by
    have ih := later_eq l (pre ++ [x])
    rw [List.length_append, List.length_singleton, List.append_assoc, List.singleton_append] at ih
    rw [List.zipIdx_cons, List.map_cons, List.flatten_cons, ih]
    rw [later_cons]
    congr 2
    simp only
    rw [show pre.length + 1 = (pre ++ [x]).length by simp, show pre ++ x :: l = (pre ++ [x]) ++ l by simp, List.drop_left]

theorem later_map {α β : Type} (f : α → β) : ∀ l : List α, later (l.map f) = (later l).map (fun p => (f p.1, f p.2))
  | [] => rfl
  | x :: l => by
    simp only [List.map_cons, later, List.map_append, List.map_map, later_map f l]
    rfl

theorem mem_later {α : Type} : ∀ {l : List α} {a b : α}, (a, b) ∈ later l → a ∈ l ∧ b ∈ l
  | [], _, _, hm => by simp [later] at hm
  | x :: l, a, b, hm => by
    rcases List.mem_append.mp hm with hm | hm
    · obtain ⟨y, hy, he⟩ := List.mem_map.mp hm
      cases he
      exact ⟨List.mem_cons_self, List.mem_cons_of_mem _ hy⟩
    · exact ⟨List.mem_cons_of_mem _ (mem_later hm).1, List.mem_cons_of_mem _ (mem_later hm).2⟩

theorem later_nodup {α : Type} : ∀ {l : List α}, l.Nodup → (later l).Nodup ∧
    ∀ a b, a ∈ l → b ∈ l → a ≠ b → ((a, b) ∈ later l ↔ (b, a) ∉ later l)
  | [], _ => ⟨List.nodup_nil, fun _ _ h => by simp at h⟩
  | x :: l, hn => by
    obtain ⟨h1, h2⟩ := List.nodup_cons.mp hn
    obtain ⟨i1, i2⟩ := later_nodup h2
    have hin : ∀ b, (x, b) ∈ later (x :: l) ↔ b ∈ l := fun b => by
      rw [later_cons, List.mem_append, List.mem_map]
      constructor
      · rintro (⟨y, hy, he⟩ | hm)
        · cases he; exact hy
        · exact (mem_later hm).2
      · exact fun hb => .inl ⟨b, hb, rfl⟩
    have hout : ∀ a b, a ≠ x → ((a, b) ∈ later (x :: l) ↔ (a, b) ∈ later l) := fun a b ha => by
      rw [later_cons, List.mem_append, List.mem_map]
      constructor
      · rintro (⟨y, hy, he⟩ | hm)
        · cases he; exact absurd rfl ha
        · exact hm
      · exact .inr
    refine ⟨?_, fun a b ha hb hne => ?_⟩
    · refine List.nodup_append.mpr ⟨?_, i1, fun p hp q hq he => ?_⟩
      · exact List.pairwise_map.mpr (h2.imp (fun hne he => hne (Prod.mk.inj he).2))
      · obtain ⟨y, _, rfl⟩ := List.mem_map.mp hp
        rw [← he] at hq
        exact h1 (mem_later hq).1
    · by_cases hax : a = x
      · subst hax
        have hbl : b ∈ l := (List.mem_cons.mp hb).resolve_left (fun hh => hne hh.symm)
        rw [hin b, hout b a (fun hh => hne hh.symm)]
        exact ⟨fun _ hm => h1 (mem_later hm).2, fun _ => hbl⟩
      · have hal : a ∈ l := (List.mem_cons.mp ha).resolve_left hax
        rw [hout a b hax]
        by_cases hbx : b = x
        · subst hbx
          rw [hin a]
          exact ⟨fun hm => absurd (mem_later hm).2 h1, fun hh => absurd hal hh⟩
        · rw [hout b a hbx]
          exact i2 a b hal ((List.mem_cons.mp hb).resolve_left hbx) hne

theorem later_ne {α : Type} : ∀ {l : List α}, l.Nodup → ∀ a, (a, a) ∉ later l
  | [], _, _, hm => by simp [later] at hm
  | x :: l, hn, a, hm => by
    obtain ⟨h1, h2⟩ := List.nodup_cons.mp hn
    rcases List.mem_append.mp hm with hm | hm
    · obtain ⟨y, hy, he⟩ := List.mem_map.mp hm
      cases he
      exact h1 hy
    · exact later_ne h2 a hm

/-- **C133** A loop within a loop visits every pair of an entity with the first components and one with the second exactly
once, an entity together with itself included if it has both, and passes the tuples `get_components` returns. -/
theorem C133_cross (hr : Reachable W r) (hg : ∀ c ∈ g, W.Has c) (hgv : (g.descriptor env).isValid = true)
    (hh : ∀ c ∈ h, W.Has c) (hhv : (h.descriptor env).isValid = true) :
    ∃ l, crossLoop env g h r = .ok l ∧ (handlesOf l).Nodup ∧
      (∀ a b, (a, b) ∈ handlesOf l ↔ Matches env r g a ∧ Matches env r h b) ∧
      ∀ p ∈ l, r.getComponents env g p.1.1 = .ok (some p.1.2) ∧ r.getComponents env h p.2.1 = .ok (some p.2.2) := by
  obtain ⟨es, p1, p2, p3⟩ := visited_eq hr hg hgv
  obtain ⟨fs, q1, q2, q3⟩ := visited_eq hr hh hhv
  refine ⟨((es.map (fun e => (e, valsOf env r g e))).map (fun x => (fs.map (fun e => (e, valsOf env r h e))).map
    (fun y => (x, y)))).flatten, ?_, ?_, ?_, ?_⟩
  · unfold crossLoop
    rw [p1]
    simp only [ok_bind]
    rw [mapM_ok (g := fun x => (fs.map (fun e => (e, valsOf env r h e))).map (fun y => (x, y))) _ (fun x _ => by rw [q1]; rfl)]
    rfl
  all_goals
    have hform : handlesOf ((es.map (fun e => (e, valsOf env r g e))).map (fun x => (fs.map (fun e =>
        (e, valsOf env r h e))).map (fun y => (x, y)))).flatten = es.flatMap (fun a => fs.map (fun b => (a, b))) := by
      unfold handlesOf
      rw [List.map_flatten, List.map_map, List.map_map, List.flatMap_def]
      congr 1
      refine List.map_congr_left (fun a _ => ?_)
      simp only [Function.comp, List.map_map]
      exact List.map_congr_left (fun b _ => rfl)
  · rw [hform]
    clear hform p1 p3
    induction es with
    | nil => exact List.nodup_nil
    | cons a es ih =>
      obtain ⟨n1, n2⟩ := List.nodup_cons.mp p2
      rw [List.flatMap_cons]
      refine List.nodup_append.mpr ⟨List.pairwise_map.mpr (q2.imp (fun hne he => hne (Prod.mk.inj he).2)), ih n2,
        fun x hx y hy he => ?_⟩
      obtain ⟨b, _, rfl⟩ := List.mem_map.mp hx
      obtain ⟨a', ha', hm⟩ := List.mem_flatMap.mp hy
      obtain ⟨b', _, rfl⟩ := List.mem_map.mp hm
      exact n1 ((Prod.mk.inj he).1 ▸ ha')
  · intro a b
    rw [hform, ← p3, ← q3, List.mem_flatMap]
    constructor
    · rintro ⟨a', ha', hm⟩
      obtain ⟨b', hb', he⟩ := List.mem_map.mp hm
      cases he
      exact ⟨ha', hb'⟩
    · rintro ⟨ha, hb⟩
      exact ⟨a, ha, List.mem_map.mpr ⟨b, hb, rfl⟩⟩
  · intro p hp
    obtain ⟨l, hl, hm⟩ := List.mem_flatten.mp hp
    obtain ⟨x, hx, rfl⟩ := List.mem_map.mp hl
    obtain ⟨y, hy, rfl⟩ := List.mem_map.mp hm
    obtain ⟨a, ha, rfl⟩ := List.mem_map.mp hx
    obtain ⟨b, hb, rfl⟩ := List.mem_map.mp hy
    exact ⟨hr.valsOf_eq hg hgv ((p3 a).mp ha), hr.valsOf_eq hh hhv ((q3 b).mp hb)⟩

/-- **C133** If the inner loop skips what the outer one has already visited, every two different entities meet exactly once,
and none meets itself. -/
theorem C133_half (hr : Reachable W r) (hg : ∀ c ∈ g, W.Has c) (hgv : (g.descriptor env).isValid = true) :
    ∃ l, halfLoop env g r = .ok l ∧ (handlesOf l).Nodup ∧
      (∀ a b, (a, b) ∈ handlesOf l → a ≠ b ∧ Matches env r g a ∧ Matches env r g b) ∧
      (∀ a b, Matches env r g a → Matches env r g b → a ≠ b → ((a, b) ∈ handlesOf l ↔ (b, a) ∉ handlesOf l)) ∧
      ∀ p ∈ l, r.getComponents env g p.1.1 = .ok (some p.1.2) ∧ r.getComponents env g p.2.1 = .ok (some p.2.2) := by
  obtain ⟨es, p1, p2, p3⟩ := visited_eq hr hg hgv
  have hform : handlesOf (later (es.map (fun e => (e, valsOf env r g e)))) = later es := by
    unfold handlesOf
    rw [later_map, List.map_map]
    exact List.map_id _
  refine ⟨later (es.map (fun e => (e, valsOf env r g e))), ?_, ?_, fun a b hm => ?_, fun a b ha hb hne => ?_, fun p hp => ?_⟩
  · unfold halfLoop
    rw [p1]
    simp only [ok_bind]
    have hm : (es.map (fun e => (e, valsOf env r g e))).zipIdx.mapM (fun p =>
        (pure (((es.map (fun e => (e, valsOf env r g e))).drop (p.2 + 1)).map (fun y => (p.1, y))) : M _)) = .ok _ :=
      mapM_ok (g := fun p => ((es.map (fun e => (e, valsOf env r g e))).drop (p.2 + 1)).map (fun y => (p.1, y))) _
        (fun x _ => rfl)
    rw [hm]
    exact congrArg _ (later_eq _ [])
  · rw [hform]
    exact (later_nodup p2).1
  · rw [hform] at hm
    exact ⟨fun he => later_ne p2 b (he ▸ hm), (p3 a).mp (mem_later hm).1, (p3 b).mp (mem_later hm).2⟩
  · rw [hform]
    exact (later_nodup p2).2 a b ((p3 a).mpr ha) ((p3 b).mpr hb) hne
  · obtain ⟨⟨a, va⟩, ⟨b, vb⟩⟩ := p
    obtain ⟨h1, h2⟩ := mem_later hp
    obtain ⟨a', ha, e1⟩ := List.mem_map.mp h1
    obtain ⟨b', hb, e2⟩ := List.mem_map.mp h2
    cases e1
    cases e2
    exact ⟨hr.valsOf_eq hg hgv ((p3 _).mp ha), hr.valsOf_eq hg hgv ((p3 _).mp hb)⟩

set_option maxRecDepth 100000 in
/-- C133: the hypotheses hold for the example registry, and the pairs of entities with an `A` and with a `C`. -/
example : Reachable exWorld exR ∧ (∀ c ∈ [exA], exWorld.Has c) ∧ (Group.descriptor exEnv [exA]).isValid = true ∧
    (∀ c ∈ [exC], exWorld.Has c) ∧ (Group.descriptor exEnv [exC]).isValid = true ∧
    handlesOf (okOr [] (crossLoop exEnv [exA] [exC] exR)) = [(exE2, exE4), (exE2, exE1), (exE1, exE4), (exE1, exE1)] ∧
    handlesOf (okOr [] (halfLoop exEnv [exA] exR)) = [(exE2, exE1)] :=
  ⟨exReachable, fun c hc => show c ∈ [exA, exB, exC] by rw [List.mem_singleton.mp hc]; decide, by decide +kernel,
    fun c hc => show c ∈ [exA, exB, exC] by rw [List.mem_singleton.mp hc]; decide, by decide +kernel, by decide +kernel,
    by decide +kernel⟩

end Shard
