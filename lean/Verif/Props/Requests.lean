import Verif.Spec.Requests
import Verif.Proofs.FlatCount
import Verif.Props.Address
import Verif.Props.Footprint
/-!
# C107: how often memory is requested, and which blocks are held
-/

set_option autoImplicit false

namespace Shard.Flat

variable {A : Allocator} {env : Env} {W : World env} {h h1 h2 : Heap} {hist : List (Call × Outcome)} {r r' : Registry}
  {fr fr' : FReg} {call : Call} {out : Outcome} {cs : List Content}

/-! ## Counting -/

/-- The requests for an archetype, from its fields. -/
def weight (fa : FArch) : Nat := (fa.descriptor.len + 1) * (1 + Nat.log2 (fa.capacity / 128))

theorem log2_double (k : Nat) : Nat.log2 (2 * (128 * 2 ^ k) / 128) = 1 + Nat.log2 (128 * 2 ^ k / 128) := by
  have e1 : 2 * (128 * 2 ^ k) = 2 ^ (k + 1) * 128 := by rw [Nat.pow_succ]; omega
  rw [e1, Nat.mul_div_cancel _ (by omega), Nat.mul_comm 128, Nat.mul_div_cancel _ (by omega), Nat.log2_two_pow,
    Nat.log2_two_pow]
  omega

/-- Each archetype keeps its capacity or doubles it, and new ones have 128 rows. -/
theorem weights : ∀ {l l' : List FArch}, l.length ≤ l'.length →
    (∀ (k : Nat) (a b : FArch), l[k]? = some a → l'[k]? = some b → b.descriptor = a.descriptor ∧
      (b.capacity = a.capacity ∨ (b.capacity = 2 * a.capacity ∧ ∃ n, a.capacity = 128 * 2 ^ n))) →
    (∀ (k : Nat) (b : FArch), l[k]? = none → l'[k]? = some b → b.capacity = 128 ∧
      b.descriptor.components.length = b.descriptor.len) →
    (l'.map weight).sum = (l.map weight).sum + costs l l'
  | [], [], _, _, _ => rfl
  | _ :: _, [], hl, _, _ => by simp at hl
  | [], b :: l', _, _, hnew => by
    have ih := weights (l := []) (l' := l') (Nat.zero_le _) (fun k a b ha => by simp at ha)
      (fun k b hk hb => hnew (k + 1) b (by simp) (by simpa using hb))
    obtain ⟨h1, h2⟩ := hnew 0 b rfl rfl
    have hw : weight b = b.descriptor.components.length + 1 := by
      unfold weight
      rw [h1, h2, show Nat.log2 (128 / 128) = 0 from by decide, Nat.mul_add, Nat.mul_one, Nat.mul_zero, Nat.add_zero]
    simp only [List.map_cons, List.sum_cons, costs, List.map_nil, List.sum_nil] at ih ⊢
    omega
  | a :: l, b :: l', hl, hold, hnew => by
    have ih := weights (l := l) (l' := l') (by simpa using hl)
      (fun k a b ha hb => hold (k + 1) a b (by simpa using ha) (by simpa using hb))
      (fun k b hk hb => hnew (k + 1) b (by simpa using hk) (by simpa using hb))
    obtain ⟨h1, h2⟩ := hold 0 a b rfl rfl
    have hw : weight b = weight a + cost a b := by
      rcases h2 with h2 | ⟨h2, n, h3⟩
      · rw [cost_same h2]
        unfold weight
        rw [h1, h2]; rfl
      · have hpos : 0 < 2 ^ n := Nat.pow_pos (by omega)
        unfold cost
        rw [if_neg (by omega)]
        unfold weight
        rw [h1, h2, h3, log2_double, Nat.mul_add, Nat.mul_add]
        omega
    simp only [List.map_cons, List.sum_cons, costs]
    omega

theorem components_length (hi : RInv W r cs) (hR : RegRep h fr r) {i : Nat} {fa : FArch} (hfa : fr.archetypes[i]? = some fa) :
    fa.descriptor.components.length = fa.descriptor.len := by
  obtain ⟨a, ha, hA⟩ := hR.archs.get' hfa
  obtain ⟨ct, _, hrep⟩ := hi.arch.content ha
  rw [hA.desc]
  exact hrep.desc.wf.components_length

theorem weights_eq (hi : RInv W r cs) (hR : RegRep h fr r) :
    (fr.archetypes.map weight).sum = (r.archetypes.archetypes.map requestsOf).sum := by
  congr 1
  apply List.ext_getElem?
  intro i
  rw [List.getElem?_map, List.getElem?_map]
  cases hfa : fr.archetypes[i]? with
  | none =>
    rw [List.getElem?_eq_none_iff, hR.archs.len] at hfa
    rw [List.getElem?_eq_none hfa]; rfl
  | some fa =>
    obtain ⟨a, ha, hA⟩ := hR.archs.get' hfa
    have hc := components_length hi hR hfa
    rw [ha]
    simp only [Option.map_some, weight, requestsOf, blocksOf, List.length_cons, List.length_map]
    rw [← hA.desc, ← hA.cap, hc]

/-- One call. -/
theorem OneMore.weights (hA : A.Ok) (hw : h.WF) (t : OneMore W A h hist r fr h1 call out r' fr' h2) :
    h2.next + (fr.archetypes.map weight).sum = h1.next + (fr'.archetypes.map weight).sum := by
  have n := t.known hA hw
  obtain ⟨cs, hi⟩ := n.inv
  obtain ⟨cs', hi'⟩ := n.inv'
  have hr : Reachable W r := ⟨hist, t.steps⟩
  obtain ⟨hcap, hstep⟩ := C38_capacity (r' := r') hr
  obtain ⟨hold, hnew, _⟩ := hstep call out t.adm t.run
  obtain ⟨out', hlast⟩ := t.last
  have hcount : h2.next = h1.next + costs fr.archetypes fr'.archetypes := FReg.call_count fr call _ _ hlast
  have hlen : fr.archetypes.length ≤ fr'.archetypes.length := by
    apply Nat.le_of_not_lt
    intro hlt
    obtain ⟨fa', hfa', _⟩ := n.change.old (List.getElem?_eq_getElem hlt)
    have := lt_of_get hfa'
    omega
  have := Flat.weights hlen (fun k a b ha hb => ?_) (fun k b hk hb => ?_)
  · omega
  · obtain ⟨fa', hfa', hkg⟩ := n.change.old ha
    rw [hb] at hfa'; cases hfa'
    refine ⟨?_, ?_⟩
    · rcases hkg with hk | hg
      · exact hk.desc
      · exact hg.2.2.1
    · obtain ⟨x, hx, hX⟩ := n.rep.archs.get' ha
      obtain ⟨y, hy, hY⟩ := n.rep'.archs.get' hb
      obtain ⟨y', hy', hyc⟩ := hold k x hx
      rw [hy] at hy'; cases hy'
      rw [hX.cap, hY.cap]
      rcases hyc with hyc | ⟨hyc, _⟩
      · exact .inl hyc
      · exact .inr ⟨hyc, (hcap x (List.mem_of_getElem? hx)).1⟩
  · obtain ⟨y, hy, hY⟩ := n.rep'.archs.get' hb
    refine ⟨?_, components_length hi' n.rep' hb⟩
    rw [hY.cap]
    refine hnew k y ?_ hy
    rw [List.getElem?_eq_none_iff] at hk ⊢
    rw [← n.rep.archs.len]; exact hk

theorem program_weights (hA : A.Ok) (hw : h.WF) (hs : Steps env (Call.Admissible W) Registry.default hist r)
    {outs : List Outcome} (hp : FReg.default.calls A env (hist.map (·.1)) h = (.ok (fr, outs), h1)) :
    h1.next = h.next + (fr.archetypes.map weight).sum := by
  induction hs generalizing fr h1 outs with
  | nil =>
    cases hp
    rfl
  | @snoc hist r1 r2 call out hs hc hrun ih =>
    rw [List.map_append] at hp
    have hp' : FReg.default.calls A env (hist.map (·.1) ++ [call]) h = (.ok (fr, outs), h1) := hp
    rw [calls_snoc] at hp'
    cases hx : FReg.default.calls A env (hist.map (·.1)) h with
    | mk res k1 =>
      cases res with
      | error f => rw [bind_error hx] at hp'; cases hp'
      | ok x =>
        rw [bind_ok hx] at hp'
        cases hy : x.1.call A env call k1 with
        | mk res2 k2 =>
          cases res2 with
          | error f => rw [bind_error hy] at hp'; cases hp'
          | ok y =>
            rw [bind_ok hy] at hp'
            cases hp'
            have t : OneMore W A h hist r1 x.1 k1 call out r2 y.1 _ := ⟨hs, hc, hrun, ⟨x.2, hx⟩, ⟨y.2, hy⟩⟩
            have h3 := t.weights hA hw
            have h4 := ih hx
            omega

/-! ## Blocks -/

/-- The allocations of an archetype. -/
def ids (fa : FArch) : List Nat := (fa.all.take (fa.descriptor.components.length + 1)).map (·.prov)

/-- Size and alignment of an allocation. -/
def layoutOf (h : Heap) (id : Nat) : Option (Nat × Nat) := (h.allocs id).map (fun al => (al.size, al.align))

theorem arch_ptr {fa : FArch} {a : Archetype} (hA : ARep h fa a) {ct : Content} (hrep : Rep W a ct) :
    ∀ {i : Nat} {p : Ptr}, fa.all[i]? = some p →
      (i < fa.descriptor.components.length + 1 ∧ p.addr ≠ 0 ∧ ∃ b, (blocksOf a)[i]? = some b ∧ layoutOf h p.prov = some b) ∨
      (fa.descriptor.components.length + 1 ≤ i ∧ p.addr = 0)
  | 0, p, hp => by
    obtain ⟨l, hl, hlen, _⟩ := hrep.ents.arr
    have he := hA.ents
    rw [hl] at he
    cases hp
    refine .inl ⟨by omega, he.1, _, rfl, ?_⟩
    unfold layoutOf
    rw [he.2.1]
    simp only [entObj, Option.map_some, hlen]
  | i + 1, p, hp => by
    have hp' : fa.pointers[i]? = some p := hp
    obtain ⟨ob, hob, hr⟩ := hA.colInv hp'
    have hc := hrep.cols
    have hcomps := hrep.desc.comps
    have hlt := lt_of_get hob
    rw [hc.ptrs_len] at hlt
    rw [hA.desc, hcomps, List.length_map]
    by_cases hi : i < ct.cts.length
    · obtain ⟨b, hb, hok⟩ := hc.col i ct.cts[i] (ct.cols[i]'(by rw [hc.cols_len]; exact hi)) (List.getElem?_eq_getElem _)
        (List.getElem?_eq_getElem _)
      rw [hob] at hb; cases hb
      have hmem : ct.cts[i] ∈ ct.cts := List.getElem_mem _
      refine .inl ⟨by omega, hr.1, (ct.cts[i].size * a.capacity, ct.cts[i].align), ?_, ?_⟩
      · unfold blocksOf
        rw [List.getElem?_cons_succ, hcomps, List.map_map, List.getElem?_map, List.getElem?_eq_getElem hi]
        simp only [Option.map_some, Function.comp_apply, CompTy.descriptor]
        rw [Nat.mod_eq_of_lt (W.size_lt (hrep.desc.has _ hmem)), Nat.mod_eq_of_lt (W.align_lt (hrep.desc.has _ hmem))]
      · unfold layoutOf
        rw [hr.2.1]
        simp only [blockObj, Option.map_some, hok.size, hok.align]
    · have := hc.rest i (by omega) hlt
      rw [hob] at this; cases this
      refine .inr ⟨by omega, ?_⟩
      rw [show p = Ptr.null from hr]; rfl

theorem arch_len {fa : FArch} {a : Archetype} (hA : ARep h fa a) {ct : Content} (hrep : Rep W a ct) :
    fa.descriptor.components.length + 1 ≤ fa.all.length := by
  have h1 := hA.own.len
  have h2 := hrep.cols.ptrs_len
  have h3 := hrep.cols.cts_le
  rw [h1, hA.desc, hrep.desc.comps]
  simp only [objs, List.length_cons, List.length_map]
  omega

theorem arch_ids {fa : FArch} {a : Archetype} (hA : ARep h fa a) {ct : Content} (hrep : Rep W a ct) :
    (ids fa).map (layoutOf h) = (blocksOf a).map some ∧ (ids fa).Nodup ∧ ∀ id, id ∈ ids fa ↔ Fp fa.all id := by
  have hlen := arch_len hA hrep
  refine ⟨?_, ?_, fun id => ⟨fun hid => ?_, fun hid => ?_⟩⟩
  · apply List.ext_getElem?
    intro i
    unfold ids
    rw [List.map_map, List.getElem?_map, List.getElem?_map]
    by_cases hi : i < fa.descriptor.components.length + 1
    · rw [List.getElem?_take_of_lt hi]
      rcases arch_ptr hA hrep (List.getElem?_eq_getElem (Nat.lt_of_lt_of_le hi hlen)) with ⟨_, _, b, h3, h4⟩ | ⟨h3, _⟩
      · rw [List.getElem?_eq_getElem (Nat.lt_of_lt_of_le hi hlen), h3]
        simp only [Option.map_some, Function.comp_apply, h4]
      · omega
    · rw [List.getElem?_eq_none (by rw [List.length_take]; omega), List.getElem?_eq_none]
      · rfl
      · unfold blocksOf
        rw [List.length_cons, List.length_map, ← hA.desc]
        omega
  · unfold ids List.Nodup
    rw [List.pairwise_map, List.pairwise_iff_getElem]
    intro i j hi hj hij heq
    rw [List.length_take] at hi hj
    have gi : fa.all[i]? = some (fa.all.take (fa.descriptor.components.length + 1))[i] := by
      rw [List.getElem_take]; exact List.getElem?_eq_getElem _
    have gj : fa.all[j]? = some (fa.all.take (fa.descriptor.components.length + 1))[j] := by
      rw [List.getElem_take]; exact List.getElem?_eq_getElem _
    rcases arch_ptr hA hrep gi with ⟨_, zi, _⟩ | ⟨zi, _⟩
    · rcases arch_ptr hA hrep gj with ⟨_, zj, _⟩ | ⟨zj, _⟩
      · have := hA.own.inj gi gj zi zj heq
        omega
      · omega
    · omega
  · unfold ids at hid
    obtain ⟨p, hp, rfl⟩ := List.mem_map.mp hid
    obtain ⟨i, hi⟩ := List.mem_iff_getElem?.mp hp
    rw [List.getElem?_take] at hi
    split at hi
    · next hlt =>
      rcases arch_ptr hA hrep hi with ⟨_, z, _⟩ | ⟨z, _⟩
      · exact ⟨p, List.mem_of_getElem? hi, z, rfl⟩
      · omega
    · cases hi
  · obtain ⟨p, hp, hz, rfl⟩ := hid
    obtain ⟨i, hi⟩ := List.mem_iff_getElem?.mp hp
    rcases arch_ptr hA hrep hi with ⟨hlt, _, _⟩ | ⟨_, z⟩
    · refine List.mem_map.mpr ⟨p, ?_, rfl⟩
      refine List.mem_iff_getElem?.mpr ⟨i, ?_⟩
      rw [List.getElem?_take_of_lt hlt]; exact hi
    · exact absurd z hz

theorem list_ids : ∀ {fas : List FArch} {as : List Archetype}, RRep h fas as → (∀ a ∈ as, ∃ ct, Rep W a ct) →
    (fas.flatMap ids).map (layoutOf h) = (as.flatMap blocksOf).map some ∧ (fas.flatMap ids).Nodup ∧
      ∀ id, id ∈ fas.flatMap ids ↔ FpL fas id
  | [], [], _, _ => ⟨rfl, List.nodup_nil, fun id => ⟨fun hm => (List.not_mem_nil hm).elim, fun ⟨_, hm, _⟩ => (List.not_mem_nil hm).elim⟩⟩
  | [], _ :: _, hR, _ => by have := hR.len; simp at this
  | _ :: _, [], hR, _ => by have := hR.len; simp at this
  | fa :: fas, a :: as, hR, hrep => by
    have hR' : RRep h fas as := ⟨by simpa using hR.len, fun hi hj => hR.arch (i := _ + 1) (by simpa using hi) (by simpa using hj),
      fun hij hi hj => hR.dis (by simpa using hij) (i := _ + 1) (j := _ + 1) (by simpa using hi) (by simpa using hj)⟩
    obtain ⟨h1, h2, h3⟩ := list_ids hR' (fun a ha => hrep a (List.mem_cons_of_mem _ ha))
    obtain ⟨ct, hct⟩ := hrep a List.mem_cons_self
    obtain ⟨g1, g2, g3⟩ := arch_ids (hR.arch (i := 0) rfl rfl) hct
    simp only [List.flatMap_cons]
    refine ⟨by rw [List.map_append, List.map_append, g1, h1], ?_, fun id => ?_⟩
    · rw [List.nodup_append]
      refine ⟨g2, h2, fun x hx y hy hxy => ?_⟩
      subst hxy
      obtain ⟨fb, hfb, hx'⟩ := (h3 x).mp hy
      obtain ⟨j, hj⟩ := List.mem_iff_getElem?.mp hfb
      exact hR.dis (i := 0) (j := j + 1) (by omega) rfl (by simpa using hj) x ((g3 x).mp hx) hx'
    · rw [List.mem_append, g3, h3]
      constructor
      · rintro (hx | ⟨fb, hfb, hx⟩)
        · exact ⟨fa, List.mem_cons_self, hx⟩
        · exact ⟨fb, List.mem_cons_of_mem _ hfb, hx⟩
      · rintro ⟨fb, hfb, hx⟩
        rcases List.mem_cons.mp hfb with rfl | hfb
        · exact .inl hx
        · exact .inr ⟨fb, hfb, hx⟩

theorem blocks_bytes {a : Archetype} {ct : Content} (hrep : Rep W a ct) : ((blocksOf a).map (·.1)).sum = a.allocated := by
  rw [hrep.allocated]
  unfold blocksOf rowBytes
  rw [List.map_cons, List.sum_cons, List.map_map, Nat.mul_add, Nat.add_comm, Nat.mul_comm 4]
  congr 1
  generalize a.descriptor.components = l
  induction l with
  | nil => rfl
  | cons d l ih =>
    simp only [List.map_cons, List.sum_cons, Function.comp_apply, Nat.mul_add] at ih ⊢
    rw [ih, Nat.mul_comm]

theorem all_bytes : ∀ {l : List Archetype}, (∀ a ∈ l, ∃ ct, Rep W a ct) →
    ((l.flatMap blocksOf).map (·.1)).sum = (l.map Archetype.allocated).sum
  | [], _ => rfl
  | a :: l, hl => by
    obtain ⟨ct, hct⟩ := hl a List.mem_cons_self
    have ih := all_bytes (fun x hx => hl x (List.mem_cons_of_mem _ hx))
    rw [List.flatMap_cons, List.map_append, List.sum_append, List.map_cons, List.sum_cons, blocks_bytes hct, ih]

/-! ## C107 -/

/-- **C107** A program that has run asked the allocator exactly once for each array of each archetype when the archetype was
created, and once more for each array whenever the archetype doubled its capacity, whatever it did otherwise and however
often. -/
theorem C107_requests (hA : A.Ok) (hw : h.WF) (hs : Steps env (Call.Admissible W) Registry.default hist r) {outs : List Outcome}
    (hp : FReg.default.calls A env (hist.map (·.1)) h = (.ok (fr, outs), h1)) :
    h1.next = h.next + (r.archetypes.archetypes.map requestsOf).sum := by
  rw [program_weights hA hw hs hp]
  rcases calls_spec (W := W) hA hw (fun _ _ h => h) hs with ⟨y, k, hrun, _, hR, _⟩ | ⟨k, hrun, _⟩
  · rw [hp] at hrun
    cases hrun
    obtain ⟨cs, hi⟩ := hs.inv (W := W) (fun _ _ h => h) (RInv.empty W)
    rw [weights_eq hi hR]
  · rw [hp] at hrun; cases hrun

theorem requests_le {a : Archetype} {ct : Content} (hrep : Rep W a ct) : requestsOf a ≤ 255 := by
  obtain ⟨k, hk, hc⟩ := hrep.cap
  have h1 : (blocksOf a).length ≤ 15 := by
    unfold blocksOf
    rw [List.length_cons, List.length_map, hrep.desc.wf.components_length]
    exact Nat.succ_le_succ hrep.desc.wf.len_le
  have h2 : Nat.log2 (a.capacity / 128) = k := by
    rw [hc, Nat.mul_comm, Nat.mul_div_cancel _ (by omega), Nat.log2_two_pow]
  unfold requestsOf
  rw [h2]
  exact Nat.mul_le_mul h1 (show 1 + k ≤ 17 by omega)

/-- **C107** So it asked at most 255 times for each archetype, however long it ran. -/
theorem C107_bound (hA : A.Ok) (hw : h.WF) (hs : Steps env (Call.Admissible W) Registry.default hist r) {outs : List Outcome}
    (hp : FReg.default.calls A env (hist.map (·.1)) h = (.ok (fr, outs), h1)) :
    h1.next ≤ h.next + 255 * r.archetypes.archetypes.length := by
  obtain ⟨cs, hi⟩ := hs.inv (W := W) (fun _ _ h => h) (RInv.empty W)
  rw [C107_requests hA hw hs hp]
  have := sum_le_mul r.archetypes.archetypes requestsOf 255 (fun a ha => by
    obtain ⟨i, hi'⟩ := List.mem_iff_getElem?.mp ha
    obtain ⟨ct, _, hct⟩ := hi.arch.content hi'
    exact requests_le hct)
  omega

/-- **C107** The blocks it holds then are, one after the other, those of the archetypes of the registry, with their exact sizes
and alignments and without any other; together they have the bytes of C83. -/
theorem C107_blocks (hA : A.Ok) (hw : h.WF) (hs : Steps env (Call.Admissible W) Registry.default hist r) {outs : List Outcome}
    (hp : FReg.default.calls A env (hist.map (·.1)) h = (.ok (fr, outs), h1)) :
    (∃ L : List Nat, L.Nodup ∧ (∀ id, id ∈ L ↔ h.next ≤ id ∧ h1.allocs id ≠ none) ∧
      L.map (fun id => (h1.allocs id).map (fun al => (al.size, al.align))) =
        (r.archetypes.archetypes.flatMap blocksOf).map some) ∧
    ((r.archetypes.archetypes.flatMap blocksOf).map (·.1)).sum = r.allocated := by
  rcases calls_spec (W := W) hA hw (fun _ _ h => h) hs with ⟨y, k, hrun, _, hR, hst⟩ | ⟨k, hrun, _⟩
  · rw [hp] at hrun
    cases hrun
    obtain ⟨cs, hi⟩ := hs.inv (W := W) (fun _ _ h => h) (RInv.empty W)
    have hrep : ∀ a ∈ r.archetypes.archetypes, ∃ ct, Rep W a ct := by
      intro a ha
      obtain ⟨i, hi'⟩ := List.mem_iff_getElem?.mp ha
      obtain ⟨ct, _, hct⟩ := hi.arch.content hi'
      exact ⟨ct, hct⟩
    obtain ⟨g1, g2, g3⟩ := list_ids hR.archs hrep
    refine ⟨⟨_, g2, fun id => ⟨fun hid => ?_, fun ⟨h3, h4⟩ => (g3 id).mpr (hst.live h4 (.inr h3))⟩, g1⟩, all_bytes hrep⟩
    have hf := (g3 id).mp hid
    refine ⟨(hst.sub hf).elim False.elim (·), fun hn => ?_⟩
    have h5 : layoutOf h1 id ∈ (fr.archetypes.flatMap ids).map (layoutOf h1) := List.mem_map_of_mem hid
    rw [g1] at h5
    obtain ⟨b, _, h6⟩ := List.mem_map.mp h5
    unfold layoutOf at h6
    rw [hn] at h6
    cases h6
  · rw [hp] at hrun; cases hrun

/-! ## Examples -/

/-- The archetype of `A` and `B` with room for 512 entities holds three blocks; it has asked nine times. -/
example : let a : Archetype := ⟨(Group.descriptor exEnv [exA, exB]).archetype, [], none, 0, 512⟩
    blocksOf a = [(2048, 4), (2048, 4), (4096, 8)] ∧ requestsOf a = 9 := by
  decide +kernel

set_option maxRecDepth 100000 in
/-- The calls of `exThree` ask three times. -/
example : (match FReg.default.calls bump exEnv exThree exHeap with
    | (.ok _, h1) => decide (h1.next = exHeap.next + 3)
    | _ => false) = true := by
  decide +kernel

/-- The hypotheses hold for `exThree`, which leaves one archetype with 128 rows. -/
example : ∃ hist r fr h1 outs, Steps exEnv (Call.Admissible exWorld) Registry.default hist r ∧
    FReg.default.calls bump exEnv (hist.map (·.1)) exHeap = (.ok (fr, outs), h1) ∧
    h1.next = exHeap.next + (r.archetypes.archetypes.map requestsOf).sum ∧
    ((r.archetypes.archetypes.flatMap blocksOf).map (·.1)).sum = r.allocated := by
  obtain ⟨hist, r, fr, h1, _, _, _, _, t, _, _⟩ := exOneMore
  obtain ⟨outs, hp⟩ := t.prog
  exact ⟨hist, r, fr, h1, outs, t.steps, hp, C107_requests bump_ok exHeap_wf t.steps hp,
    (C107_blocks bump_ok exHeap_wf t.steps hp).2⟩

end Shard.Flat
