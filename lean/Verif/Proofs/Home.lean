import Verif.Proofs.Progress
/-!
# The archetype each entity is stored in
-/

namespace Shard

variable {env : Env} {W : World env} {r r' : Registry} {cs cs' : List Content}

theorem movedLast_snoc (h : List (Call × Outcome)) (x : Call × Outcome) (e : Entity) :
    (x.2.created = some e → movedLast (h ++ [x]) e = false) ∧
    (x.2.created ≠ some e → x.1.moves e → x.2.success = true → movedLast (h ++ [x]) e = true) ∧
    (x.2.created ≠ some e → ¬ (x.1.moves e ∧ x.2.success = true) → movedLast (h ++ [x]) e = movedLast h e) := by
  obtain ⟨call, out⟩ := x
  unfold movedLast
  rw [List.foldl_append]
  simp only [List.foldl_cons, List.foldl_nil]
  refine ⟨fun hc => if_pos hc, fun hc hm hs => ?_, fun hc hm => ?_⟩
  · rw [if_neg hc]
    cases call <;> first | (simp only [Call.moves] at hm; subst hm; simp [hs]) | exact hm.elim
  · rw [if_neg hc]
    cases call <;> first | rfl | exact if_neg (fun h => hm ⟨h.1.symm, h.2⟩)

theorem Home.step {e : Entity} {s : List UInt16} {id : UInt32} (h : Home env r e s id)
    (hs : r'.archOf env e = r.archOf env e) (ha : ArchStep r.archetypes r'.archetypes) : Home env r' e s id := by
  obtain ⟨ai, a, h1, h2, h3, h4⟩ := h
  obtain ⟨a', q1, q2, _⟩ := ha.old ai a h2
  exact ⟨ai, a', by rw [hs, h1], q1, by rw [q2, h3], by rw [q2, h4]⟩

/-- The id of the archetype of an entity tells how the entity came to have its components. -/
theorem Steps.home {ok : Registry → Call → Prop} (hok : ∀ r call, ok r call → call.Admissible W r)
    {hist : List (Call × Outcome)} {r : Registry} (hs : Steps env ok Registry.default hist r) {e : Entity}
    (he : Live env r e) :
    ∃ s, Home env r e s (if movedLast hist e then plainId env s else groupId env s) := by
  induction hs with
  | nil =>
    have := (Steps.liveHandles hok (hist := []) Steps.nil).2 e
    simp [Shard.liveHandles] at this
    exact absurd he this
  | snoc h1 h2 h3 ih =>
    rename_i hist r1 r2 call out
    obtain ⟨cs1, hcs⟩ := h1.inv hok (RInv.empty W)
    obtain ⟨cs2, hst⟩ := hcs.step (hok _ _ h2) h3
    have hl := hst.live hcs e
    obtain ⟨m1, m2, m3⟩ := movedLast_snoc hist (call, out) e
    simp only [] at m1 m2 m3
    by_cases hc : out.created = some e
    · obtain ⟨g, vals, rfl⟩ := hst.place.only e hc
      rw [m1 hc]
      exact ⟨_, hst.place.made g vals e rfl hc⟩
    · have hbef : Live env r1 e := by
        cases hc' : out.created with
        | some e' =>
          rw [hc'] at hl
          rcases hl.mp he with rfl | hx
          · exact absurd hc' hc
          · exact hx
        | none =>
          rw [hc'] at hl
          cases hv : out.vacated with
          | some e' => rw [hv] at hl; exact (hl.mp he).2
          | none => rw [hv] at hl; exact hl.mp he
      by_cases hm : call.moves e ∧ out.success = true
      · rw [m2 hc hm.1 hm.2]
        exact hst.place.moved e hm.1 hm.2
      · rw [m3 hc hm]
        obtain ⟨s, hs⟩ := ih hbef
        refine ⟨s, hs.step (hst.place.stay e hc ?_ hm) hst.arch⟩
        intro hv
        cases hc' : out.created with
        | some e' =>
          have ht := hst.table
          unfold TableStep at ht
          rw [hc', hv] at ht
          exact ht
        | none =>
          rw [hc', hv] at hl
          exact (hl.mp he).1 rfl

end Shard
