import Verif.Spec.ByHandle
import Verif.Props.System
/-!
# C117: updating entities by handle and by iteration
-/

set_option autoImplicit false

namespace Shard

variable {env : Env} {W : World env} {r : Registry} {cs : List Content} {g : Group}

/-- A reference as a slice of one element. -/
def asSlice (ref : CompTy → Ref) (c : CompTy) : SliceRef := ⟨c, ref c, 1⟩

theorem asSlice_elem (ref : CompTy → Ref) (c : CompTy) : (asSlice ref c).elem 0 = ref c := by
  show (⟨(ref c).col, (ref c).off + c.size * 0⟩ : Ref) = ref c
  rw [Nat.mul_zero, Nat.add_zero]

theorem readMembers_eq (r : Registry) (ai : Nat) (ref : CompTy → Ref) : ∀ g : Group,
    (g.map (fun c => (c, some (ref c)))).mapM (readMember r ai) = (g.map (asSlice ref)).mapM (readElem r ai 0)
  | [] => rfl
  | c :: g => by
    rw [List.map_cons, List.map_cons, List.mapM_cons, List.mapM_cons, readMembers_eq r ai ref g]
    have : readMember r ai (c, some (ref c)) = readElem r ai 0 (asSlice ref c) := by
      unfold readElem
      rw [if_pos (show 0 < (asSlice ref c).len from Nat.zero_lt_one), asSlice_elem]
      rfl
    rw [this]

theorem writeMembers_eq (ai : Nat) (ref : CompTy → Ref) : ∀ (g : Group) (vs : List Val) (r : Registry),
    writeMembers ai r (g.map (fun c => (c, some (ref c)))) vs = writeElems ai 0 r (g.map (asSlice ref)) vs
  | [], vs, r => by simp [writeMembers, writeElems]
  | c :: g, [], r => by simp [writeMembers, writeElems]
  | c :: g, v :: vs, r => by
    simp only [List.map_cons, writeMembers, writeElems]
    rw [if_pos (show 0 < (asSlice ref c).len from Nat.zero_lt_one), asSlice_elem]
    simp only [writeMembers_eq ai ref g vs]
    rfl

open Classical in
/-- What the update of one entity does. -/
theorem RInv.updateEntity_eq (h : RInv W r cs) (hR : Reachable W r) (hg : ∀ c ∈ g, W.Has c)
    (hv : (g.descriptor env).isValid = true) {F : List Val → List Val} (hF : ∀ vals, TypedVals g vals → TypedVals g (F vals))
    (e : Entity) :
    ∃ r' cs', updateEntity env g F r e = .ok r' ∧ RInv W r' cs' ∧ Reachable W r' ∧
      ∀ x, r'.look env cs' x = if x = e ∧ Matches env r g e then (r.look env cs x).map (fun f => putAll g (F (tupleOf g f)) f)
        else r.look env cs x := by
  have hn : g.Nodup := nodup_of_map (Group.spec hv).wf.nodup
  rcases h.getComponentsMut_eq hg hv e with ⟨h1, h2⟩ | ⟨f, ai, ref, h1, h2, h3, h4⟩
  · refine ⟨r, cs, by unfold updateEntity; rw [h2]; rfl, h, hR, fun x => ?_⟩
    rw [if_neg]
    rintro ⟨_, hm⟩
    obtain ⟨f, hf⟩ := h.live_iff.mp hm.1
    have hall : hasAll f g = true := List.all_eq_true.mpr (fun c hc => (h.has_iff hf (hg c hc)).mp (hm.2 c hc))
    rw [h1 f hf] at hall
    cases hall
  · have hall : ∀ c ∈ g, (f c).isSome := fun c hc => List.all_eq_true.mp h2 c hc
    have hm : Matches env r g e := ⟨h.live_iff.mpr ⟨f, h1⟩, fun c hc => (h.has_iff h1 (hg c hc)).mpr (hall c hc)⟩
    have hcty : (g.map (asSlice ref)).map (fun s => s.cty) = g := by
      rw [List.map_map]
      exact List.map_id _
    have href : ∀ s ∈ g.map (asSlice ref), 0 < s.len ∧ RefTo env r cs e s.cty ai (s.elem 0) := by
      intro s hs
      obtain ⟨c, hc, rfl⟩ := List.mem_map.mp hs
      exact ⟨Nat.zero_lt_one, by rw [asSlice_elem]; exact h4 c hc⟩
    have hrd := h.readRow_eq h1 (ai := ai) (k := 0) (g.map (asSlice ref)) href
    rw [hcty] at hrd
    have htyped : TypedVals g (tupleOf g f) := by
      refine ⟨by simp [tupleOf], fun i c v h1' h2' => ?_⟩
      unfold tupleOf at h2'
      rw [List.getElem?_map, h1'] at h2'
      simp only [Option.map_some, Option.some.injEq] at h2'
      obtain ⟨w, hw⟩ := Option.isSome_iff_exists.mp (hall c (List.mem_of_getElem? h1'))
      rw [hw] at h2'
      rw [← h2']
      exact h.look_typed h1 hw
    obtain ⟨r', cs', t1, t2, t3, t4, _⟩ := RInv.writeElems_eq (e := e) (ai := ai) (k := 0) (g.map (asSlice ref))
      (F (tupleOf g f)) h hR h1 (fun s hs => hg _ (by rw [← hcty]; exact List.mem_map.mpr ⟨s, hs, rfl⟩))
      (by rw [hcty]; exact hn) (by rw [hcty]; exact hF _ htyped) href
    rw [hcty] at t4
    refine ⟨r', cs', ?_, t2, t3, fun x => ?_⟩
    · unfold updateEntity
      rw [h3]
      simp only [ok_bind]
      rw [readMembers_eq, hrd]
      simp only [ok_bind]
      rw [writeMembers_eq]
      exact t1
    · rw [t4 x]
      by_cases hx : x = e
      · rw [if_pos hx, if_pos ⟨hx, hm⟩, hx, h1]
        rfl
      · rw [if_neg hx, if_neg (fun hh => hx hh.1)]

theorem Matches.look_iff {r' : Registry} {cs' : List Content} (h : RInv W r cs) (h' : RInv W r' cs') (hg : ∀ c ∈ g, W.Has c)
    {e : Entity} (hl : r'.look env cs' e = r.look env cs e) : Matches env r' g e ↔ Matches env r g e := by
  have := h.sameEntity_of_look h' hl
  constructor
  · exact fun hm => ⟨this.1.mp hm.1, fun c hc => by rw [← (this.2 c (hg c hc)).1]; exact hm.2 c hc⟩
  · exact fun hm => ⟨this.1.mpr hm.1, fun c hc => by rw [(this.2 c (hg c hc)).1]; exact hm.2 c hc⟩

open Classical in
theorem RInv.updateEntities_eq (hg : ∀ c ∈ g, W.Has c) (hv : (g.descriptor env).isValid = true) {F : List Val → List Val}
    (hF : ∀ vals, TypedVals g vals → TypedVals g (F vals)) : ∀ (l : List Entity) {r : Registry} {cs : List Content},
    RInv W r cs → Reachable W r → l.Nodup →
    ∃ r' cs', updateEntities env g F r l = .ok r' ∧ RInv W r' cs' ∧ Reachable W r' ∧
      ∀ x, r'.look env cs' x = if x ∈ l ∧ Matches env r g x then (r.look env cs x).map (fun f => putAll g (F (tupleOf g f)) f)
        else r.look env cs x
  | [], r, cs, h, hR, _ => ⟨r, cs, rfl, h, hR, fun x => by simp⟩
  | e :: l, r, cs, h, hR, hn => by
    rw [List.nodup_cons] at hn
    obtain ⟨r1, c1, a1, a2, a3, a4⟩ := h.updateEntity_eq hR hg hv hF e
    obtain ⟨r2, c2, b1, b2, b3, b4⟩ := RInv.updateEntities_eq hg hv hF l a2 a3 hn.2
    refine ⟨r2, c2, ?_, b2, b3, fun x => ?_⟩
    · unfold updateEntities
      rw [List.foldlM_cons, a1]
      exact b1
    · rw [b4 x]
      by_cases hx : x = e
      · subst hx
        rw [if_neg (fun hh => hn.1 hh.1), a4 x]
        by_cases hm : Matches env r g x
        · rw [if_pos ⟨rfl, hm⟩, if_pos ⟨List.mem_cons_self, hm⟩]
        · rw [if_neg (fun hh => hm hh.2), if_neg (fun hh => hm hh.2)]
      · have hlx : r1.look env c1 x = r.look env cs x := by rw [a4 x, if_neg (fun hh => hx hh.1)]
        have hmi := Matches.look_iff h a2 hg hlx
        rw [hlx]
        by_cases hm : x ∈ l ∧ Matches env r g x
        · rw [if_pos ⟨hm.1, hmi.mpr hm.2⟩, if_pos ⟨List.mem_cons_of_mem _ hm.1, hm.2⟩]
        · rw [if_neg (fun hh => hm ⟨hh.1, hmi.mp hh.2⟩),
            if_neg (fun hh => hm ⟨(List.mem_cons.mp hh.1).resolve_left hx, hh.2⟩)]

/-- **C117** Updating the entities of a list of distinct handles, one by one through `get_components_mut`, never faults,
whatever handles are in the list: those that have the components are updated, and nothing else changes. -/
theorem C117_handles (hr : Reachable W r) (hg : ∀ c ∈ g, W.Has c) (hv : (g.descriptor env).isValid = true)
    {F : List Val → List Val} (hF : ∀ vals, TypedVals g vals → TypedVals g (F vals)) {l : List Entity} (hl : l.Nodup) :
    ∃ r', updateEntities env g F r l = .ok r' ∧ Reachable W r' ∧
      (∀ e ∈ l, Matches env r g e → TupleUpdated W g F r r' e) ∧
      ∀ e, ¬ (e ∈ l ∧ Matches env r g e) → SameEntity W r r' e := by
  obtain ⟨cs, h⟩ := hr.inv
  obtain ⟨r', cs', u1, u2, u3, u4⟩ := RInv.updateEntities_eq hg hv hF l h hr hl
  refine ⟨r', u1, u3, fun e he hm => ?_, fun e he => ?_⟩
  · have := u4 e
    rw [if_pos ⟨he, hm⟩] at this
    exact h.updated u2 hg hv hF hm this
  · have := u4 e
    rw [if_neg he] at this
    exact h.sameEntity_of_look u2 this

/-- **C117** Iteration and lookup are interchangeable: a system over `iter_components_matching_mut` and the same update
through `get_components_mut` for every handle of `iter_entities`, taken in any order, give registries that answer every
query alike. -/
theorem C117_interchange (hr : Reachable W r) (hg : ∀ c ∈ g, W.Has c) (hv : (g.descriptor env).isValid = true)
    {F : List Val → List Val} (hF : ∀ vals, TypedVals g vals → TypedVals g (F vals)) {l : List Entity}
    (hl : l.Perm (r.iterEntities env)) :
    ∃ r₁ r₂, runSystem env .matching g F r = .ok r₁ ∧ updateEntities env g F r l = .ok r₂ ∧
      ∀ e, SameEntity W r₁ r₂ e := by
  obtain ⟨cs, h⟩ := hr.inv
  have hnd : l.Nodup := by
    obtain ⟨hist, hh⟩ := hr
    obtain ⟨q1, q2, _⟩ := C09_entity_iteration hh
    exact hl.nodup_iff.mpr (q1.nodup_iff.mpr q2)
  obtain ⟨r₁, c₁, a1, a2, a3, a4⟩ := h.matching_eq hr hg hv hF
  obtain ⟨r₂, c₂, b1, b2, b3, b4⟩ := RInv.updateEntities_eq hg hv hF l h hr hnd
  refine ⟨r₁, r₂, a1, b1, fun e => a2.sameEntity_of_look b2 ?_⟩
  rw [a4 e, b4 e]
  by_cases hm : Matches env r g e
  · rw [if_pos hm, if_pos ⟨hl.mem_iff.mpr hm.1, hm⟩]
  · rw [if_neg hm, if_neg (fun hh => hm hh.2)]

/-! ## Examples -/

set_option maxRecDepth 100000 in
/-- C117 on the example registry: `A` is incremented by handle, with a dead handle in the list, and an entity left out. -/
example : Reachable exWorld exR ∧ (∀ vals, TypedVals [exA] vals → TypedVals [exA] (exSystem vals)) ∧
    [exE2, exE3, exE4].Nodup ∧
    okOr none ((updateEntities exEnv [exA] exSystem exR [exE2, exE3, exE4]).map (fun r => some
      ([exE1, exE2, exE4].map (fun e => okOr none (r.getComponent exEnv exA e))))) =
      some [some exValA, some ⟨1, [6, 7, 8, 9]⟩, none] :=
  ⟨exReachable, fun _ h => exSystem_typed h, by decide, by decide +kernel⟩

set_option maxRecDepth 100000 in
/-- C117: all handles, in another order: as the system does it. -/
example : [exE4, exE1, exE2].Perm (exR.iterEntities exEnv) ∧
    okOr none ((updateEntities exEnv [exA] exSystem exR [exE4, exE1, exE2]).map (fun r => some
      ([exE1, exE2, exE4].map (fun e => okOr none (r.getComponent exEnv exA e))))) =
    okOr none ((runSystem exEnv .matching [exA] exSystem exR).map (fun r => some
      ([exE1, exE2, exE4].map (fun e => okOr none (r.getComponent exEnv exA e))))) := by decide +kernel

end Shard
