import Verif.Spec.Select
import Verif.Props.Clear
/-!
# C116: selecting entities by iteration and destroying them
-/

set_option autoImplicit false

namespace Shard

open Script

variable {env : Env} {W : World env} {r r' : Registry} {g : Group}

theorem zip_map_self {α β : Type} (f : α → β) : ∀ l : List α, l.zip (l.map f) = l.map (fun a => (a, f a))
  | [] => rfl
  | a :: l => by simp [zip_map_self f l]

theorem Reachable.valsOf_eq (hr : Reachable W r) (hg : ∀ c ∈ g, W.Has c) (hv : (g.descriptor env).isValid = true) {e : Entity}
    (hm : Matches env r g e) : r.getComponents env g e = .ok (some (valsOf env r g e)) := by
  obtain ⟨cs, h⟩ := hr.inv
  obtain ⟨f, hf⟩ := h.live_iff.mp hm.1
  have hall : ∀ c ∈ g, (f c).isSome := fun c hc => (h.has_iff hf (hg c hc)).mp (hm.2 c hc)
  rw [h.getComponents_eq hg hv, hf]
  simp only [Option.bind_some]
  rw [if_pos (show hasAll f g = true from List.all_eq_true.mpr hall)]
  congr 2
  unfold valsOf
  have : ∀ l : Group, (∀ c ∈ l, c ∈ g) → l.map (fun c => (f c).getD default) = l.filterMap (valOf env r e) := by
    intro l
    induction l with
    | nil => intro _; rfl
    | cons c l ih =>
      intro hl
      have hc := hl c List.mem_cons_self
      obtain ⟨v, hv'⟩ := Option.isSome_iff_exists.mp (hall c hc)
      have hval : valOf env r e c = some v := by
        unfold valOf
        rw [h.getComponent_eq (hg c hc), hf]
        simp only [Option.bind_some]
        exact hv'
      rw [List.map_cons, List.filterMap_cons_some hval, hv', ih (fun c' hc' => hl c' (List.mem_cons_of_mem _ hc'))]
      rfl
  exact this g (fun _ h => h)

/-- **C116** The selection never faults, has no handle twice, and contains exactly the live entities that have all the
components and whose tuple, as `get_components` returns it, satisfies the predicate. -/
theorem C116_select (hr : Reachable W r) (hg : ∀ c ∈ g, W.Has c) (hv : (g.descriptor env).isValid = true)
    (p : Entity → List Val → Bool) :
    ∃ l, selectBy env g p r = .ok l ∧ l.Nodup ∧
      ∀ e, e ∈ l ↔ Live env r e ∧ ∃ vals, r.getComponents env g e = .ok (some vals) ∧ p e vals = true := by
  obtain ⟨items, h1, h2, h3, h4, h5⟩ := C30_matching_iteration hr hg hv
  have hz : items.flatMap (fun x => x.2.1.zip (rowsOf x.2.2)) =
      (items.flatMap (fun x => x.2.1)).map (fun e => (e, valsOf env r g e)) := by
    rw [List.map_flatMap]
    clear h1 h2 h3 h4
    induction items with
    | nil => rfl
    | cons x xs ih =>
      rw [List.flatMap_cons, List.flatMap_cons, ih (fun y hy => h5 y (List.mem_cons_of_mem _ hy)),
        aligned_rows (valid_ne hv) (h5 x List.mem_cons_self), zip_map_self]
  refine ⟨(items.flatMap (fun x => x.2.1)).filter (fun e => p e (valsOf env r g e)), ?_, h3.sublist List.filter_sublist, fun e => ?_⟩
  · unfold selectBy
    rw [h1]
    simp only [ok_bind, pure_eq_ok]
    rw [hz, List.filter_map, List.map_map]
    congr 1
    exact List.map_id _
  · rw [List.mem_filter, h4 e]
    constructor
    · rintro ⟨hm, hp⟩
      exact ⟨hm.1, _, hr.valsOf_eq hg hv hm, hp⟩
    · rintro ⟨hl, vals, hget, hp⟩
      obtain ⟨cs, h⟩ := hr.inv
      obtain ⟨f, hf⟩ := h.live_iff.mp hl
      have hm : Matches env r g e := by
        refine ⟨hl, fun c hc => (h.has_iff hf (hg c hc)).mpr ?_⟩
        rw [h.getComponents_eq hg hv, hf] at hget
        simp only [Option.bind_some] at hget
        split at hget
        · next hh => exact List.all_eq_true.mp hh c hc
        · cases hget
      have := hr.valsOf_eq hg hv hm
      rw [hget] at this
      injection this with this
      injection this with this
      exact ⟨hm, by rw [← this]; exact hp⟩

/-- **C116** Destroying the selected entities never faults, and every call reports success. Afterwards exactly the live
entities that were not selected are live, and they have their components and values. The dropped values are those of the
destroyed entities: together with what dropping the registry would drop then, they are what it would have dropped before. -/
theorem C116_destroy (hr : Reachable W r) (hg : ∀ c ∈ g, W.Has c) (hv : (g.descriptor env).isValid = true)
    (p : Entity → List Val → Bool) :
    ∃ r' bs d, destroyWhere env g p r = .ok (r', bs, d) ∧ Reachable W r' ∧ (∀ b ∈ bs, b = true) ∧
      (∀ e vals, Live env r e → r.getComponents env g e = .ok (some vals) → p e vals = true → ¬ Live env r' e) ∧
      (∀ e, (∀ vals, r.getComponents env g e = .ok (some vals) → p e vals = false) → SameEntity W r r' e) ∧
      (r'.iterEntities env).length + bs.length = (r.iterEntities env).length ∧
      ∃ before left after left', r.drop = .ok (before, left) ∧ r'.drop = .ok (after, left') ∧ before.Perm (d ++ after) := by
  obtain ⟨l, s1, s2, s3⟩ := C116_select hr hg hv p
  obtain ⟨r', bs, d, a1, a2, a3, a4, a5, a6, a7⟩ := C113_destroy_all l hr
  refine ⟨r', bs, d, ?_, a3, fun b hb => ?_, fun e vals h1 h2 h3 => a5 e ((s3 e).mpr ⟨h1, vals, h2, h3⟩), fun e he => ?_, ?_, a7⟩
  · unfold destroyWhere
    rw [s1]
    exact a1
  · obtain ⟨n, hn⟩ := List.getElem?_of_mem hb
    have hlt : n < l.length := by rw [← a2]; exact (List.getElem?_eq_some_iff.mp hn).1
    refine (a4 n l[n] b (List.getElem?_eq_getElem hlt) hn).mpr ⟨((s3 _).mp (List.getElem_mem hlt)).1, fun hm => ?_⟩
    obtain ⟨k, hk, hke⟩ := List.mem_take_iff_getElem.mp hm
    have := (List.getElem_inj s2).mp hke
    omega
  · refine a6 e (fun hm => ?_)
    obtain ⟨_, vals, h1, h2⟩ := (s3 e).mp hm
    rw [he vals h1] at h2
    cases h2
  · have nd : ∀ {q : Registry}, Reachable W q → (q.iterEntities env).Nodup := by
      rintro q ⟨hist, hh⟩
      obtain ⟨q1, q2, _⟩ := C09_entity_iteration hh
      exact q1.nodup_iff.mpr q2
    have hperm : (r'.iterEntities env ++ l).Perm (r.iterEntities env) := by
      have hnd : (r'.iterEntities env ++ l).Nodup :=
        List.nodup_append.mpr ⟨nd a3, s2, fun x hx y hy hxy => a5 y hy (by rw [← hxy]; exact hx)⟩
      refine (List.perm_ext_iff_of_nodup hnd (nd hr)).mpr (fun e => ?_)
      rw [List.mem_append]
      by_cases hm : e ∈ l
      · exact ⟨fun _ => ((s3 e).mp hm).1, fun _ => .inr hm⟩
      · exact ⟨fun h => h.elim (fun h => (a6 e hm).1.mp h) (fun h => absurd h hm), fun h => .inl ((a6 e hm).1.mpr h)⟩
    rw [a2, ← hperm.length_eq, List.length_append]

/-! ## Examples -/

set_option maxRecDepth 100000 in
/-- C116 on the example registry: two entities have `A`; the one with the value `exValA'` is destroyed. -/
example : Reachable exWorld exR ∧ okOr [] (selectBy exEnv [exA] (fun _ _ => true) exR) ≠ [] ∧
    okOr none ((destroyWhere exEnv [exA] (fun _ v => v == [exValA']) exR).map (fun x => some (x.1.iterEntities exEnv, x.2))) =
      some ([exE1, exE4], [true], [exValA']) :=
  ⟨exReachable, by decide +kernel, by decide +kernel⟩

end Shard
