import Verif.Spec.Iter
import Verif.Proofs.Observe
/-!
# The items of the iterators through the API
-/

namespace Shard

variable {env : Env} {W : World env} {r r' : Registry} {cs cs' : List Content}

theorem RInv.row_matches (h : RInv W r cs) {i : Nat} {ct : Content} {e : Entity} (hc : cs[i]? = some ct)
    (he : e ∈ ct.ents) {g : Group} (hs : ∀ c ∈ g, c ∈ ct.cts) : Matches env r g e := by
  obtain ⟨k, hk⟩ := List.mem_iff_getElem?.mp he
  have hl := h.row_look hc hk
  obtain ⟨a, ha, hr⟩ := h.arch.arch hc
  refine ⟨h.live_iff.mpr ⟨_, hl⟩, fun c hcg => ?_⟩
  rw [h.has_iff hl (hr.desc.has c (hs c hcg))]
  obtain ⟨v, hv, _⟩ := hr.get_some (hs c hcg) (List.getElem?_eq_some_iff.mp hk).1
  rw [hv]; rfl

/-- A matching entity is in a row of an archetype that has all the types. -/
theorem RInv.matches_row (h : RInv W r cs) {g : Group} (hg : ∀ c ∈ g, W.Has c) {e : Entity} (hm : Matches env r g e) :
    ∃ (i k : Nat) (ct : Content), cs[i]? = some ct ∧ ct.ents[k]? = some e ∧ ∀ c ∈ g, c ∈ ct.cts := by
  obtain ⟨f, hf⟩ := h.live_iff.mp hm.1
  obtain ⟨en, he⟩ := h.look_some hf
  obtain ⟨a, ct, ha, hct, hr, hk, _, hlook⟩ := h.entry he
  rw [hlook] at hf; cases hf
  refine ⟨_, _, ct, hct, hk, fun c hc => ?_⟩
  have := (h.has_iff hlook (hg c hc)).mp (hm.2 c hc)
  obtain ⟨v, hv⟩ := Option.isSome_iff_exists.mp this
  exact (hr.mem_of_get hv).1

theorem RInv.aligned (h : RInv W r cs) {i : Nat} {ct : Content} (hc : cs[i]? = some ct) {g : Group}
    (hs : ∀ c ∈ g, c ∈ ct.cts) : Aligned env r g ct.ents (g.map (fun c => ct.col c)) := by
  obtain ⟨a, ha, hr⟩ := h.arch.arch hc
  refine ⟨by simp, fun j c hj => ⟨ct.col c, by rw [List.getElem?_map, hj]; rfl, ?_, fun k e he => ?_⟩⟩
  · exact (hr.col_getElem? (hs c (List.mem_of_getElem? hj)) 0).2
  · have hcm := hs c (List.mem_of_getElem? hj)
    rw [h.getComponent_eq (hr.desc.has c hcm), h.row_look hc he, (hr.col_getElem? hcm k).1]
    rfl

theorem sliceRefs_getElem? {cts : List CompTy} {g : Group} {n j : Nat} {c : CompTy} (hj : g[j]? = some c) :
    ∃ s, (sliceRefs cts g n)[j]? = some s ∧ s.cty = c ∧ s.len = n := by
  unfold sliceRefs
  rw [List.getElem?_map, hj]
  exact ⟨_, rfl, rfl, rfl⟩

theorem RInv.alignedMut (h : RInv W r cs) {i : Nat} {ct : Content} (hc : cs[i]? = some ct) {g : Group}
    (hs : ∀ c ∈ g, c ∈ ct.cts) : AlignedMut W r g i ct.ents (sliceRefs ct.cts g ct.ents.length) := by
  obtain ⟨a, ha, hr⟩ := h.arch.arch hc
  refine ⟨by simp [sliceRefs], fun j c hj => ?_⟩
  obtain ⟨s, h1, h2, h3⟩ := sliceRefs_getElem? (cts := ct.cts) (n := ct.ents.length) hj
  refine ⟨s, h1, h2, h3, fun k e he v hv => ?_⟩
  have hk : k < s.len := by rw [h3]; exact (List.getElem?_eq_some_iff.mp he).1
  obtain ⟨c', e', q1, _, q3, q4⟩ := h.slice_ref hc hs h1 hk
  rw [hj] at q1; cases q1
  rw [he] at q3; cases q3
  obtain ⟨r', cs', old, s1, s2, s3, _⟩ := h.replaceAt_spec q4 hv
  exact ⟨r', old, s1, h.onlyWritten s2 (hr.desc.has c (hs c (List.mem_of_getElem? hj))) s3⟩

/-- Rows of different archetypes hold different entities, and so do different rows. -/
theorem RInv.row_inj (h : RInv W r cs) {i i' k k' : Nat} {ct ct' : Content} {e : Entity} (hc : cs[i]? = some ct)
    (hc' : cs[i']? = some ct') (he : ct.ents[k]? = some e) (he' : ct'.ents[k']? = some e) : i = i' ∧ k = k' := by
  have h1 := (h.placed e i k).mpr ⟨ct, hc, he⟩
  have h2 := (h.placed e i' k').mpr ⟨ct', hc', he'⟩
  rw [h1] at h2
  cases h2
  exact ⟨rfl, rfl⟩

theorem RInv.ents_nodup (h : RInv W r cs) {i : Nat} {ct : Content} (hc : cs[i]? = some ct) : ct.ents.Nodup := by
  unfold List.Nodup
  rw [List.pairwise_iff_getElem]
  intro k k' hk hk' hlt heq
  have he := List.getElem?_eq_getElem hk
  have he' := List.getElem?_eq_getElem hk'
  rw [← heq] at he'
  have := (h.row_inj hc hc he he').2
  omega

/-- The entities of a list of archetypes are pairwise different. -/
theorem RInv.flat_nodup (h : RInv W r cs) {l : List Nat} (hn : l.Nodup) : (l.flatMap (fun i => (contentAt cs i).ents)).Nodup := by
  rw [List.flatMap_def]
  unfold List.Nodup
  rw [List.pairwise_flatten]
  constructor
  · intro es hes
    obtain ⟨i, hi, rfl⟩ := List.mem_map.mp hes
    cases hc : cs[i]? with
    | none => unfold contentAt; rw [hc]; exact List.Pairwise.nil
    | some ct => rw [contentAt_of hc]; exact h.ents_nodup hc
  · rw [List.pairwise_map]
    refine hn.imp ?_
    intro i i' hne x hx y hy hxy
    subst hxy
    cases hc : cs[i]? with
    | none => unfold contentAt at hx; rw [hc] at hx; simp [Content.empty] at hx
    | some ct =>
      cases hc' : cs[i']? with
      | none => unfold contentAt at hy; rw [hc'] at hy; simp [Content.empty] at hy
      | some ct' =>
        rw [contentAt_of hc] at hx
        rw [contentAt_of hc'] at hy
        obtain ⟨k, hk⟩ := List.mem_iff_getElem?.mp hx
        obtain ⟨k', hk'⟩ := List.mem_iff_getElem?.mp hy
        exact hne (h.row_inj hc hc' hk hk').1

/-! ## Stores do not change what an iterator yields -/

theorem accepts_congr {ar ar' : ArchetypeRegistry} {gd : ArchetypeDescriptor} {filter : ArchetypeDescriptor → Bool} {i : Nat}
    (hd : (ar'.archetypes[i]?).map (fun a => a.descriptor) = (ar.archetypes[i]?).map (fun a => a.descriptor)) :
    accepts gd filter ar' i = accepts gd filter ar i := by
  unfold accepts
  have key : ∀ x : Option Archetype, x.any (fun a => a.descriptor.containsSubset gd && filter a.descriptor) =
      (x.map (fun a => a.descriptor)).any (fun d => d.containsSubset gd && filter d) := by
    intro x; cases x <;> rfl
  rw [key, key, hd]

theorem SameShape.yielded (s : SameShape r cs r' cs') (g : Group) (filter : ArchetypeDescriptor → Bool) :
    yielded env r'.archetypes g filter = yielded env r.archetypes g filter := by
  unfold Shard.yielded selected
  rw [s.maps]
  congr 1
  funext i
  exact accepts_congr (s.descs i)

theorem SameShape.findArchetype (s : SameShape r cs r' cs') (d : ArchetypeDescriptor) :
    r'.archetypes.findArchetype env d = r.archetypes.findArchetype env d := by
  have hidx : ∀ n : Nat, (index r'.archetypes.archetypes n).map (fun _ => ()) = (index r.archetypes.archetypes n).map (fun _ => ()) := by
    intro n
    have := s.descs n
    unfold index
    cases h1 : r'.archetypes.archetypes[n]? <;> cases h2 : r.archetypes.archetypes[n]? <;> rw [h1, h2] at this <;>
      first | rfl | cases this
  unfold ArchetypeRegistry.findArchetype ArchetypeRegistry.searchLevel
  rw [s.maps]
  split
  · rfl
  · congr 1
    funext x
    cases x.2 with
    | insertAt i => rfl
    | found i =>
      simp only []
      congr 1
      funext k
      have := hidx k.archetypeIndex.toNat
      revert this
      cases index r'.archetypes.archetypes k.archetypeIndex.toNat <;>
        cases index r.archetypes.archetypes k.archetypeIndex.toNat <;> intro this <;>
        simp only [Except.map] at this <;> first | rfl | (cases this; rfl) | cases this

theorem SameShape.contentAt (s : SameShape r cs r' cs') (i : Nat) :
    (contentAt cs' i).cts = (contentAt cs i).cts ∧ (contentAt cs' i).ents = (contentAt cs i).ents := by
  have := s.conts i
  unfold Shard.contentAt
  cases h1 : cs'[i]? <;> cases h2 : cs[i]? <;> rw [h1, h2] at this <;> simp_all

theorem SameShape.items (s : SameShape r cs r' cs') (h : RInv W r cs) (h' : RInv W r' cs') {g : Group} (hg : ∀ c ∈ g, W.Has c)
    (hv : (g.descriptor env).isValid = true) {it : MutIter} (hx : it.Ok W g) : it.items env r' g = it.items env r g := by
  have h1 : ∀ f, r'.iterFilteredComponentsMatchingMut env g f = r.iterFilteredComponentsMatchingMut env g f := by
    intro f
    rw [h.iterFilteredComponentsMatchingMut_eq hg hv, h'.iterFilteredComponentsMatchingMut_eq hg hv, s.yielded]
    congr 1
    apply List.map_congr_left
    intro i _
    rw [(s.contentAt i).1, (s.contentAt i).2]
  have h2 : ∀ f, r'.iterFilteredEntityComponentsMatchingMut env g f = r.iterFilteredEntityComponentsMatchingMut env g f := by
    intro f
    rw [h.iterFilteredEntityComponentsMatchingMut_eq hg hv, h'.iterFilteredEntityComponentsMatchingMut_eq hg hv, s.yielded]
    congr 1
    apply List.map_congr_left
    intro i _
    rw [(s.contentAt i).1, (s.contentAt i).2]
  have hf := s.findArchetype (env := env) (g.descriptor env).archetype
  have hex : ∀ {i : Nat} {ct ct' : Content}, cs[i]? = some ct → cs'[i]? = some ct' → ct'.cts = ct.cts ∧ ct'.ents = ct.ents := by
    intro i ct ct' h1 h2
    have := s.conts i
    rw [h1, h2] at this
    simp only [Option.map_some, Option.some.injEq, Prod.mk.injEq] at this
    exact this
  cases it with
  | matching => exact h1 _
  | filtered f => exact h1 f
  | entityMatching =>
    simp only [MutIter.items]
    rw [iterEntityComponentsMatchingMut_filtered, iterEntityComponentsMatchingMut_filtered, h2]
  | entityFiltered f => simp only [MutIter.items]; rw [h2]
  | exact =>
    have hok : W.OkGroup g := ⟨hg, hx⟩
    simp only [MutIter.items]
    rcases h.iterExact_eq hok hv with ⟨i, a, ct, q1, q2, q3, q4, q5, q6, q7, q8, q9⟩ | ⟨q1, q2, q3, q4, q5⟩ <;>
    rcases h'.iterExact_eq hok hv with ⟨i', a', ct', p1, p2, p3, p4, p5, p6, p7, p8, p9⟩ | ⟨p1, p2, p3, p4, p5⟩ <;>
    rw [p1, q1] at hf
    · cases hf
      rw [p7, q7, (hex q3 p3).1, (hex q3 p3).2]
    · cases hf
    · cases hf
    · rw [p3, q3]
  | entityExact =>
    have hok : W.OkGroup g := ⟨hg, hx⟩
    simp only [MutIter.items]
    rcases h.iterExact_eq hok hv with ⟨i, a, ct, q1, q2, q3, q4, q5, q6, q7, q8, q9⟩ | ⟨q1, q2, q3, q4, q5⟩ <;>
    rcases h'.iterExact_eq hok hv with ⟨i', a', ct', p1, p2, p3, p4, p5, p6, p7, p8, p9⟩ | ⟨p1, p2, p3, p4, p5⟩ <;>
    rw [p1, q1] at hf
    · cases hf
      rw [p9, q9, (hex q3 p3).1, (hex q3 p3).2]
    · cases hf
    · cases hf
    · rw [p5, q5]

end Shard
