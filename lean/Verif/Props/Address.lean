import Verif.Spec.Address
import Verif.Proofs.FlatAddress
import Verif.Props.FlatMemory
import Verif.Props.RowOrder
import Verif.Props.Growth
import Verif.Props.TwoHomes
/-!
# C106: when the address of a component changes, and which calls ask for memory
-/

set_option autoImplicit false

namespace Shard.Flat

open RowOrder (placeOf rowsAt place_iff placeOf_eq rowsAt_eq)

variable {A : Allocator} {env : Env} {W : World env} {h h1 h2 : Heap} {hist : List (Call × Outcome)} {r r' : Registry}
  {fr fr' : FReg} {call : Call} {out : Outcome} {cs : List Content}

/-! ## The address is a matter of the pointers and the row -/

/-- The address of component `c` in row `k`. -/
def rowPtr (fa : FArch) (c : CompTy) (k : Nat) : Option Ptr :=
  match binarySearchByKey fa.descriptor.components c.id.toNat (fun e => e.id.toNat) with
  | .found idx => (fa.pointers[idx]?).map (·.plus (c.size * k))
  | .insertAt _ => none

theorem componentPtr_tri {fa : FArch} {c : CompTy} {k : Nat} :
    Tri (fa.componentPtr c k) h (fun p _ => rowPtr fa c k = some p) := by
  unfold FArch.componentPtr rowPtr
  cases hs : binarySearchByKey fa.descriptor.components c.id.toNat (fun e => e.id.toNat) with
  | found idx =>
    simp only []
    refine Tri.bind (Tri.lift (fun p hp => ?_))
    intro q k' hq
    unfold offset at hq
    have : fa.pointers[idx]? = some p := by
      unfold index at hp
      split at hp
      · next hx => cases hp; exact hx
      · cases hp
    split at hq <;> cases hq
    rw [this]; rfl
  | insertAt _ =>
    intro q k' hq
    cases hq

theorem getComponentMut_tri {c : CompTy} {e : Entity} {i k : Nat} (hR : RegRep h1 fr r) (hp : placeOf env r e = some (i, k))
    {fa : FArch} (hfa : fr.archetypes[i]? = some fa) :
    Tri (fr.getComponentMut env c e) h (fun o _ => (o = if fa.descriptor.hasComponent c then rowPtr fa c k else none) ∧
      (fa.descriptor.hasComponent c = true → ∃ q, o = some q)) := by
  unfold FReg.getComponentMut
  unfold placeOf at hp
  rw [hR.ents]
  cases hen : r.entities.entityEntry env e with
  | none => rw [hen] at hp; cases hp
  | some en =>
    rw [hen] at hp
    simp only [Option.some.injEq, Prod.mk.injEq] at hp
    simp only []
    refine Tri.bind (Tri.lift (fun a ha => ?_))
    have ha := FReg.indexUnchecked_inv ha
    rw [hp.1, hfa] at ha
    cases ha
    rw [hp.2]
    by_cases hc : fa.descriptor.hasComponent c = true
    · simp only [hc, not_true_eq_false, if_false, if_true]
      refine Tri.bind (Tri.bind (componentPtr_tri.mono (fun p k' hp => ?_)))
      exact Tri.bind (Tri.mono (Q := fun _ _ => Tri _ _ _) (fun _ _ _ => trivial) (fun _ _ _ => Tri.pure (Tri.pure ⟨hp.symm, fun _ => ⟨_, rfl⟩⟩)))
    · simp only [hc]
      exact Tri.pure ⟨by simp, fun hn => absurd hn (by simp)⟩

/-- In a state of a program the address is the one in the row of the entity. -/
theorem addressOf_eq (hw : h1.WF) (hi : RInv W r cs) (hR : RegRep h1 fr r) {c : CompTy} (hW : W.Has c) {e : Entity} {i k : Nat}
    (hp : placeOf env r e = some (i, k)) {fa : FArch} (hfa : fr.archetypes[i]? = some fa) :
    (addressOf env h1 fr c e = if fa.descriptor.hasComponent c then rowPtr fa c k else none) ∧
    (fa.descriptor.hasComponent c = true → ∃ q, addressOf env h1 fr c e = some q) := by
  have key : ∃ o k', fr.getComponentMut env c e h1 = (.ok o, k') := by
    rcases hi.getComponentMut_eq (env := env) hW e with ⟨_, hn⟩ | ⟨_, _, _, _, _, _, hn, _⟩
    · obtain ⟨o, k', g1, _⟩ := wp_total (fun A => getComponentMut_spec (A := A) hw hR hn)
      exact ⟨o, k', g1⟩
    · obtain ⟨o, k', g1, _⟩ := wp_total (fun A => getComponentMut_spec (A := A) hw hR hn)
      exact ⟨o, k', g1⟩
  obtain ⟨o, k', g1⟩ := key
  unfold addressOf
  rw [g1]
  exact getComponentMut_tri hR hp hfa _ _ g1

/-! ## Rows -/

theorem vacated_success (hrun : call.run env r = .ok (r', out)) {e : Entity} (hv : out.vacated = some e) :
    out.success = true := by
  cases call with
  | destroy x =>
    simp only [Call.run] at hrun
    obtain ⟨y, _, hy⟩ := ebind_inv hrun
    cases hy
    simp only [] at hv ⊢
    cases hb : y.2.1 with
    | true => rfl
    | false => rw [hb] at hv; cases hv
  | removeEntity g x =>
    simp only [Call.run] at hrun
    obtain ⟨y, _, hy⟩ := ebind_inv hrun
    split at hy <;> cases hy
    · rfl
    · cases hv
  | create g vals =>
    simp only [Call.run] at hrun
    obtain ⟨y, _, hy⟩ := ebind_inv hrun
    split at hy <;> cases hy <;> cases hv
  | add x c v =>
    simp only [Call.run] at hrun
    obtain ⟨y, _, hy⟩ := ebind_inv hrun
    split at hy <;> cases hy <;> cases hv
  | remove x c =>
    simp only [Call.run] at hrun
    obtain ⟨y, _, hy⟩ := ebind_inv hrun
    split at hy <;> cases hy <;> cases hv
  | write x c v =>
    simp only [Call.run] at hrun
    obtain ⟨y, _, hy⟩ := ebind_inv hrun
    split at hy <;> cases hy <;> cases hv
  | writeIn g x j v =>
    simp only [Call.run] at hrun
    obtain ⟨y, _, hy⟩ := ebind_inv hrun
    split at hy
    · cases hy; cases hv
    · split at hy
      · obtain ⟨z, _, hz⟩ := ebind_inv hy
        cases hz; cases hv
      · cases hy; cases hv
  | writeIter it g n j k v =>
    simp only [Call.run] at hrun
    obtain ⟨y, _, hy⟩ := ebind_inv hrun
    split at hy
    · cases hy; cases hv
    · split at hy
      · cases hy; cases hv
      · split at hy
        · obtain ⟨z, _, hz⟩ := ebind_inv hy
          cases hz; cases hv
        · cases hy; cases hv

/-- The row of an entity after a call. -/
theorem place_step {cs' : List Content} (hi : RInv W r cs) (hi' : RInv W r' cs') (hadm : call.Admissible W r)
    (hrun : call.run env r = .ok (r', out)) {e : Entity} {i k : Nat} (hp : placeOf env r e = some (i, k)) :
    placeOf env r' e = some (i, k) ∨ (call.leaver = some e ∧ out.success = true) ∨
    ∃ v k', call.leaver = some v ∧ v ≠ e ∧ out.success = true ∧ placeOf env r v = some (i, k') ∧
      (rowsAt r i).length = k + 1 ∧ placeOf env r' e = some (i, k') ∧ (rowsAt r' i).length < (rowsAt r i).length := by
  have hrow := (place_iff hi e i k).mp hp
  have leaves : ∀ {v : Entity} {i' k' : Nat}, call.leaver = some v → out.success = true → RowOrder.Leaves r r' v i' k' →
      (i ≠ i' → rowsAt r' i = rowsAt r i ∨ ∃ x, rowsAt r' i = rowsAt r i ++ [x]) →
      placeOf env r' e = some (i, k) ∨ (call.leaver = some e ∧ out.success = true) ∨
      ∃ v k', call.leaver = some v ∧ v ≠ e ∧ out.success = true ∧ placeOf env r v = some (i, k') ∧
        (rowsAt r i).length = k + 1 ∧ placeOf env r' e = some (i, k') ∧ (rowsAt r' i).length < (rowsAt r i).length := by
    intro v i' k' hc hs hl hk
    by_cases hv : v = e
    · subst hv
      exact .inr (.inl ⟨hc, hs⟩)
    by_cases hii : i = i'
    · subst hii
      obtain ⟨hl1, hl2⟩ := hl
      have hk' := lt_of_get hl1
      have hkl := lt_of_get hrow
      have hne : k ≠ k' := by
        intro hkk
        rw [hkk, hl1] at hrow
        exact hv (Option.some.inj hrow)
      by_cases hlast : (rowsAt r i).length = k + 1
      · refine .inr (.inr ⟨v, k', hc, hv, hs, (place_iff hi v i k').mpr hl1, hlast, ?_, ?_⟩)
        · rw [place_iff hi', hl2, swapRemove_getElem? hk', if_neg (by omega), if_pos rfl, hlast, Nat.add_sub_cancel]
          exact hrow
        · have : (swapRemove (rowsAt r i) k')[(rowsAt r i).length - 1]? = none := by
            rw [swapRemove_getElem? hk', if_pos (Nat.le_refl _)]
          rw [List.getElem?_eq_none_iff] at this
          rw [hl2]; omega
      · left
        rw [place_iff hi', hl2, swapRemove_getElem? hk', if_neg (by omega), if_neg hne]
        exact hrow
    · left
      rw [place_iff hi']
      rcases hk hii with hk | ⟨x, hk⟩
      · rw [hk]; exact hrow
      · rw [hk, List.getElem?_append_left (lt_of_get hrow)]; exact hrow
  cases RowOrder.step hi hadm hrun with
  | made e0 j _ _ _ hj hk =>
    left
    rw [place_iff hi']
    by_cases hij : i = j
    · subst hij
      rw [hj, List.getElem?_append_left (lt_of_get hrow)]; exact hrow
    · rw [hk i hij]; exact hrow
  | none _ _ hk =>
    left
    rw [place_iff hi', hk i]; exact hrow
  | ended v i' k' hd ho _ hl hk =>
    refine leaves (v := v) ?_ (vacated_success hrun ho) hl (fun hne => .inl (hk i hne))
    rcases hd with rfl | ⟨g, rfl⟩ <;> rfl
  | moved v i' k' j hm _ hs _ hl hj hk =>
    refine leaves (v := v) ?_ hs hl (fun hne => ?_)
    · rcases hm with ⟨c, w, rfl⟩ | ⟨c, rfl⟩ <;> rfl
    · by_cases hij : i = j
      · subst hij; exact .inr ⟨v, hj⟩
      · exact .inl (hk i hne hij)

/-! ## The setting -/

/-- What is known in the setting of the theorems. -/
structure Known (W : World env) (h1 : Heap) (fr : FReg) (r : Registry) (call : Call) (h2 : Heap) (fr' : FReg)
    (r' : Registry) : Prop where
  inv : ∃ cs, RInv W r cs
  inv' : ∃ cs', RInv W r' cs'
  rep : RegRep h1 fr r
  rep' : RegRep h2 fr' r'
  wf : h1.WF
  step : Step h1 (FpL fr.archetypes) h2 (FpL fr'.archetypes)
  change : Change h1 fr h2 fr'
  idle : call.reshapes = false → Idle h1 h2

theorem OneMore.known (hA : A.Ok) (hw : h.WF) (t : OneMore W A h hist r fr h1 call out r' fr' h2) :
    Known W h1 fr r call h2 fr' r' := by
  obtain ⟨cs, hi⟩ := t.steps.inv (W := W) (fun _ _ h => h) (RInv.empty W)
  obtain ⟨cs', hi'⟩ := hi.step t.adm t.run
  obtain ⟨outs, hprog⟩ := t.prog
  obtain ⟨out', hlast⟩ := t.last
  rcases calls_spec (W := W) hA hw (fun _ _ h => h) t.steps with ⟨y, k, hrun, _, hR, hst⟩ | ⟨k, hrun, _⟩
  · rw [hprog] at hrun
    cases hrun
    rcases call_spec hA hst.wf hR (RInv.ready hi) (RInv.groups hi t.adm) t.run with ⟨y, k, hrun, _, hR', hst'⟩ | ⟨k, hrun, _⟩
    · rw [hlast] at hrun
      cases hrun
      have hc := FReg.call_tri fr call _ _ hlast
      exact ⟨⟨cs, hi⟩, ⟨cs', hi'.inv⟩, hR, hR', hst.wf, hst', hc.1, hc.2⟩
    · rw [hlast] at hrun; cases hrun
  · rw [hprog] at hrun; cases hrun

theorem addr_info (hw : h1.WF) (hi : RInv W r cs) (hR : RegRep h1 fr r) {c : CompTy} (hW : W.Has c) {e : Entity} {q : Ptr}
    (hq : addressOf env h1 fr c e = some q) {i k : Nat} (hp : placeOf env r e = some (i, k)) :
    ∃ fa col q0, fr.archetypes[i]? = some fa ∧ fa.pointers[col]? = some q0 ∧ q0.addr ≠ 0 ∧ col < fa.descriptor.len ∧
      q.prov = q0.prov := by
  rcases hi.getComponentMut_eq (env := env) hW e with ⟨_, hn⟩ | ⟨f, v, ai, p, _, _, hg, ht⟩
  · obtain ⟨o, k', g1, _, g2⟩ := wp_total (fun A => getComponentMut_spec (A := A) hw hR hn)
    rcases g2 with ⟨_, rfl⟩ | ⟨_, _, _, _, g2, _⟩
    · unfold addressOf at hq
      rw [g1] at hq
      cases hq
    · cases g2
  · obtain ⟨fa, q0, a1, a2, a3, _, _, a6⟩ := place_of (first := 0) hw hi hR (fun _ => Nat.zero_le _) hW hg ht
    obtain ⟨row, col, ct, t1, t2, t3, rfl⟩ := ht
    rw [placeOf_eq, t1] at hp
    cases hp
    obtain ⟨a, ha, hrep⟩ := hi.arch.arch t2
    refine ⟨fa, col, q0, a1, a2, a3, ?_, ?_⟩
    · rw [(hR.archs.arch a1 ha).desc]
      have h3 := lt_of_get t3
      have h4 := congrArg List.length hrep.desc.comps
      rw [List.length_map] at h4
      have h5 : a.descriptor.components.length ≤ a.descriptor.len := by
        unfold ArchetypeDescriptor.components
        exact List.length_take_le _ _
      omega
    · have := a6.eq
      unfold addressOf at hq
      rw [this] at hq
      cases hq
      rfl

theorem rows_length (hw : h1.WF) (hi : RInv W r cs) (hR : RegRep h1 fr r) {i : Nat} {fa : FArch}
    (hfa : fr.archetypes[i]? = some fa) :
    (rowsAt r i).length = fa.entityCount ∧ capacityAt r i = some fa.capacity ∧ 0 < fa.capacity ∧ fa.capacity ≤ 8388608 ∧
      fa.entityCount ≤ fa.capacity ∧ fa.entityAssociations.addr ≠ 0 ∧ fa.entityAssociations.prov < h1.next := by
  obtain ⟨a, ha, hA⟩ := hR.archs.get' hfa
  obtain ⟨ct, hct, hrep⟩ := hi.arch.content ha
  obtain ⟨l, hl, _⟩ := hrep.ents.arr
  have he := hA.ents
  rw [hl] at he
  have hlen := hrep.ents.len
  refine ⟨?_, ?_, ?_, ?_, ?_, he.1, hw.lt he.2.1⟩
  · rw [rowsAt_eq hi, hct, hA.count, hrep.count]; rfl
  · unfold capacityAt
    rw [ha, hA.cap]; rfl
  · rw [hA.cap]; exact hrep.cap.pos
  · rw [hA.cap]; exact hrep.cap.le
  · rw [hA.cap, hA.count, hrep.count]; exact hlen

/-- Capacities tell what happened to the blocks. -/
theorem Known.grows (n : Known W h1 fr r call h2 fr' r') (hr : Reachable W r) (hadm : call.Admissible W r)
    (hrun : call.run env r = .ok (r', out)) {i : Nat} {fa fa' : FArch} (hfa : fr.archetypes[i]? = some fa)
    (hfa' : fr'.archetypes[i]? = some fa') (hg : Grows h1.next fa fa') :
    capacityAt r i = some fa.capacity ∧ (rowsAt r i).length = fa.capacity ∧ capacityAt r' i = some (2 * fa.capacity) ∧
      (rowsAt r' i).length = fa.capacity + 1 ∧ Renewed h1.next fa fa' := by
  obtain ⟨cs, hi⟩ := n.inv
  obtain ⟨cs', hi'⟩ := n.inv'
  obtain ⟨a1, a2, a3, a4, _⟩ := rows_length n.wf hi n.rep hfa
  obtain ⟨b1, b2, b3, b4, b5, _⟩ := rows_length n.step.wf hi' n.rep' hfa'
  obtain ⟨g1, g2, _, g3⟩ := hg
  obtain ⟨a, ha, hA⟩ := n.rep.archs.get' hfa
  obtain ⟨a', ha', hA'⟩ := n.rep'.archs.get' hfa'
  obtain ⟨a'', ha'', hcap⟩ := ((C38_capacity hr).2 call out hadm hrun).1 i a ha
  rw [ha'] at ha''; cases ha''
  have hcap' : fa'.capacity = 2 * fa.capacity := by
    rw [hA.cap, hA'.cap]
    rcases hcap with hcap | ⟨hcap, _⟩
    · have := hA.cap
      have := hA'.cap
      omega
    · exact hcap
  refine ⟨a2, by rw [a1, g1], by rw [b2, hcap'], by rw [b1, g2, g1], g3 a3 ?_⟩
  rw [hcap'] at b4
  exact Nat.lt_of_le_of_lt b4 (by decide)

theorem Known.kept (n : Known W h1 fr r call h2 fr' r') {i : Nat} {fa fa' : FArch} (hfa : fr.archetypes[i]? = some fa)
    (hfa' : fr'.archetypes[i]? = some fa') (hg : Kept fa fa') : capacityAt r' i = capacityAt r i := by
  obtain ⟨cs, hi⟩ := n.inv
  obtain ⟨cs', hi'⟩ := n.inv'
  rw [(rows_length n.wf hi n.rep hfa).2.1, (rows_length n.step.wf hi' n.rep' hfa').2.1, hg.cap]

theorem archetype_of (hi : RInv W r cs) (hR : RegRep h1 fr r) {e : Entity} {i k : Nat} (hp : placeOf env r e = some (i, k)) :
    ∃ fa, fr.archetypes[i]? = some fa := by
  rw [place_iff hi, rowsAt_eq hi] at hp
  cases hc : cs[i]? with
  | none => rw [hc] at hp; simp at hp
  | some ct =>
    obtain ⟨a, ha, _⟩ := hi.arch.arch hc
    obtain ⟨fa, hfa, _⟩ := hR.archs.get ha
    exact ⟨fa, hfa⟩

/-- The old blocks of an archetype that has new ones are gone. -/
theorem Known.dead (n : Known W h1 fr r call h2 fr' r') (hr : Reachable W r) (hadm : call.Admissible W r)
    (hrun : call.run env r = .ok (r', out)) {i : Nat} {fa fa' : FArch} (hfa : fr.archetypes[i]? = some fa)
    (hfa' : fr'.archetypes[i]? = some fa') (hg : Grows h1.next fa fa') {col : Nat} {q : Ptr}
    (hq : fa.pointers[col]? = some q) (hz : q.addr ≠ 0) (hl : col < fa.descriptor.len) : h2.allocs q.prov = none := by
  obtain ⟨a, ha, hA⟩ := n.rep.archs.get' hfa
  have hmem : q ∈ fa.all := List.mem_cons_of_mem _ (List.mem_of_getElem? hq)
  have hown : FpL fr.archetypes q.prov := ⟨fa, List.mem_of_getElem? hfa, q, hmem, hz, rfl⟩
  have hlt : q.prov < h1.next := n.rep.archs.live n.wf hown
  cases hx : h2.allocs q.prov with
  | none => rfl
  | some al =>
    exfalso
    obtain ⟨fb, hfb, p, hp, hpz, hpq⟩ := n.step.live (by rw [hx]; simp) (.inl hown)
    obtain ⟨j, hj⟩ := List.getElem?_of_mem hfb
    have hold : ∀ {fo : FArch}, fr.archetypes[j]? = some fo → Grows h1.next fo fb → False := by
      intro fo hfo hgo
      obtain ⟨_, _, _, _, hren⟩ := n.grows hr hadm hrun hfo hj hgo
      rcases List.mem_cons.mp hp with rfl | hp
      · have := hren.1
        omega
      · obtain ⟨m, hm⟩ := List.getElem?_of_mem hp
        rcases hren.2 hm with h3 | ⟨h3, h4⟩
        · omega
        · by_cases hij : i = j
          · subst hij
            rw [hfa] at hfo; cases hfo
            have := hA.own.inj (i := m + 1) (j := col + 1) (by simpa [FArch.all] using h4) (by simpa [FArch.all] using hq)
              hpz hz hpq.symm
            omega
          · exact n.rep.archs.dis hij hfa hfo q.prov ⟨q, hmem, hz, rfl⟩
              ⟨p, List.mem_cons_of_mem _ (List.mem_of_getElem? h4), hpz, hpq⟩
    cases hfo : fr.archetypes[j]? with
    | none =>
      obtain ⟨r1, r2⟩ := n.change.new hfo hj
      rcases List.mem_cons.mp hp with rfl | hp
      · have := r1 hpz
        omega
      · obtain ⟨m, hm⟩ := List.getElem?_of_mem hp
        have := r2 hm hpz
        omega
    | some fo =>
      obtain ⟨fb', hfb', hk⟩ := n.change.old hfo
      rw [hj] at hfb'; cases hfb'
      rcases hk with hk | hk
      · by_cases hij : i = j
        · subst hij
          rw [hfa] at hfo; cases hfo
          rw [hfa'] at hj; cases hj
          have h3 := n.kept hfa hfa' hk
          obtain ⟨h4, _, h5, _⟩ := n.grows hr hadm hrun hfa hfa' hg
          rw [h4, h5] at h3
          obtain ⟨cs, hi⟩ := n.inv
          have := (rows_length n.wf hi n.rep hfa).2.2.1
          have := Option.some.inj h3
          omega
        · have hall : fb.all = fo.all := by unfold FArch.all; rw [hk.ents, hk.ptrs]
          rw [hall] at hp
          exact n.rep.archs.dis hij hfa hfo q.prov ⟨q, hmem, hz, rfl⟩ ⟨p, hp, hpz, hpq⟩
      · exact hold hfo hk

/-- As long as an entity keeps its row and its archetype its capacity, nothing moves. -/
theorem Known.stays (n : Known W h1 fr r call h2 fr' r') (hr : Reachable W r) (hadm : call.Admissible W r)
    (hrun : call.run env r = .ok (r', out)) {c : CompTy} (hW : W.Has c) {e : Entity} {i k : Nat}
    (hp : placeOf env r e = some (i, k)) (hp' : placeOf env r' e = some (i, k)) (hc : capacityAt r' i = capacityAt r i) :
    addressOf env h2 fr' c e = addressOf env h1 fr c e := by
  obtain ⟨cs, hi⟩ := n.inv
  obtain ⟨cs', hi'⟩ := n.inv'
  obtain ⟨fa, hfa⟩ := archetype_of hi n.rep hp
  obtain ⟨fa', hfa', hk | hg⟩ := n.change.old hfa
  · rw [(addressOf_eq n.wf hi n.rep hW hp hfa).1, (addressOf_eq n.step.wf hi' n.rep' hW hp' hfa').1]
    unfold rowPtr
    rw [hk.desc, hk.ptrs]
  · exfalso
    obtain ⟨g1, _, g3, _⟩ := n.grows hr hadm hrun hfa hfa' hg
    rw [g1, g3] at hc
    have h3 := Option.some.inj hc
    have := (rows_length n.wf hi n.rep hfa).2.2.1
    omega

/-! ## C106 -/

/-- **C106** The address of a component after one more call: it is the same; or the call has ended its entity or given it
other components; or the call has done so with another entity of the archetype, this one was in the last row and its
component is now exactly where that of the other was; or the call has added an entity to the archetype when it was full:
then the capacity has doubled, the old block no longer exists and the component is in a new one. -/
theorem C106_address (hA : A.Ok) (hw : h.WF) (t : OneMore W A h hist r fr h1 call out r' fr' h2) {c : CompTy} (hW : W.Has c)
    {e : Entity} {q : Ptr} (hq : addressOf env h1 fr c e = some q) {i k : Nat} (hp : placeOf env r e = some (i, k)) :
    (addressOf env h2 fr' c e = some q ∧ capacityAt r' i = capacityAt r i) ∨
    (call.leaver = some e ∧ out.success = true) ∨
    (∃ v k' q', call.leaver = some v ∧ v ≠ e ∧ out.success = true ∧ placeOf env r v = some (i, k') ∧
      (rowsAt r i).length = k + 1 ∧ addressOf env h1 fr c v = some q' ∧ addressOf env h2 fr' c e = some q') ∨
    (call.reshapes = true ∧ ∃ n q', capacityAt r i = some n ∧ (rowsAt r i).length = n ∧ (rowsAt r' i).length = n + 1 ∧
      capacityAt r' i = some (2 * n) ∧ h2.allocs q.prov = none ∧ addressOf env h2 fr' c e = some q' ∧ h1.next ≤ q'.prov) := by
  have n := t.known hA hw
  obtain ⟨cs, hi⟩ := n.inv
  obtain ⟨cs', hi'⟩ := n.inv'
  have hr : Reachable W r := ⟨hist, t.steps⟩
  obtain ⟨fa, hfa⟩ := archetype_of hi n.rep hp
  obtain ⟨fa', hfa', hkg⟩ := n.change.old hfa
  have hq0 := (addressOf_eq n.wf hi n.rep hW hp hfa).1
  have hhas : fa.descriptor.hasComponent c = true := by
    rw [hq] at hq0
    cases hb : fa.descriptor.hasComponent c with
    | true => rfl
    | false => rw [hb] at hq0; cases hq0
  rcases place_step hi hi' t.adm t.run hp with hp' | hb | ⟨v, k', m1, m2, m3, m4, m5, m6, m7⟩
  · have hq1 := addressOf_eq n.step.wf hi' n.rep' hW hp' hfa'
    rcases hkg with hk | hg
    · left
      refine ⟨?_, n.kept hfa hfa' hk⟩
      rw [hq1.1, ← hq, hq0]
      unfold rowPtr
      rw [hk.desc, hk.ptrs]
    · right; right; right
      obtain ⟨g1, g2, g3, g4, g5⟩ := n.grows hr t.adm t.run hfa hfa' hg
      have hres : call.reshapes = true := by
        cases hb : call.reshapes with
        | true => rfl
        | false =>
          exfalso
          have h3 := (n.idle hb).1
          obtain ⟨_, _, _, _, _, _, h4⟩ := rows_length n.step.wf hi' n.rep' hfa'
          have h5 := g5.1
          omega
      obtain ⟨fa0, col, q0, u1, u2, u3, u4, u5⟩ := addr_info n.wf hi n.rep hW hq hp
      rw [hfa] at u1; cases u1
      obtain ⟨q', hq'⟩ := hq1.2 (by rw [hg.2.2.1]; exact hhas)
      obtain ⟨fb, col', q0', v1, v2, v3, v4, v5⟩ := addr_info n.step.wf hi' n.rep' hW hq' hp'
      rw [hfa'] at v1; cases v1
      refine ⟨hres, fa.capacity, q', g1, g2, g4, g3, ?_, hq', ?_⟩
      · rw [u5]
        exact n.dead hr t.adm t.run hfa hfa' hg u2 u3 u4
      · rw [v5]
        rcases g5.2 v2 with h3 | ⟨h3, _⟩
        · exact h3
        · rw [hg.2.2.1] at v4
          omega
  · exact .inr (.inl hb)
  · right; right; left
    rcases hkg with hk | hg
    · have hq1 := addressOf_eq n.step.wf hi' n.rep' hW m6 hfa'
      have hv1 := addressOf_eq n.wf hi n.rep hW m4 hfa
      have hsame : addressOf env h2 fr' c e = addressOf env h1 fr c v := by
        rw [hq1.1, hv1.1]
        unfold rowPtr
        rw [hk.desc, hk.ptrs]
      obtain ⟨q', hq'⟩ := hv1.2 hhas
      exact ⟨v, k', q', m1, m2, m3, m4, m5, hq', hsame.trans hq'⟩
    · obtain ⟨_, g2, _, g4, _⟩ := n.grows hr t.adm t.run hfa hfa' hg
      omega

/-- **C106** A call asks the allocator for memory exactly if it makes an archetype or an archetype grows; otherwise no
block is allocated, moved or given back. Only `create_entity`, `add_component` and `remove_component` can do so. -/
theorem C106_requests (hA : A.Ok) (hw : h.WF) (t : OneMore W A h hist r fr h1 call out r' fr' h2) :
    (h2.next = h1.next ↔ ∀ i, capacityAt r' i = capacityAt r i) ∧
    ((∀ i, capacityAt r' i = capacityAt r i) → h2.allocs = h1.allocs) ∧
    (call.reshapes = false → ∀ i, capacityAt r' i = capacityAt r i) := by
  have n := t.known hA hw
  obtain ⟨cs, hi⟩ := n.inv
  obtain ⟨cs', hi'⟩ := n.inv'
  have hr : Reachable W r := ⟨hist, t.steps⟩
  have capNone : ∀ {i : Nat}, fr.archetypes[i]? = none → capacityAt r i = none := by
    intro i hn
    rw [List.getElem?_eq_none_iff, n.rep.archs.len] at hn
    unfold capacityAt
    rw [List.getElem?_eq_none hn]; rfl
  have capNone' : ∀ {i : Nat}, fr'.archetypes[i]? = none → capacityAt r' i = none := by
    intro i hn
    rw [List.getElem?_eq_none_iff, n.rep'.archs.len] at hn
    unfold capacityAt
    rw [List.getElem?_eq_none hn]; rfl
  have fwd : h2.next = h1.next → ∀ i, capacityAt r' i = capacityAt r i := by
    intro hn i
    cases hfa : fr.archetypes[i]? with
    | none =>
      cases hfa' : fr'.archetypes[i]? with
      | none => rw [capNone hfa, capNone' hfa']
      | some fa' =>
        exfalso
        obtain ⟨_, _, _, _, _, b1, b2⟩ := rows_length n.step.wf hi' n.rep' hfa'
        have := (n.change.new hfa hfa').1 b1
        omega
    | some fa =>
      obtain ⟨fa', hfa', hk | hg⟩ := n.change.old hfa
      · exact n.kept hfa hfa' hk
      · exfalso
        obtain ⟨_, _, _, _, g5⟩ := n.grows hr t.adm t.run hfa hfa' hg
        obtain ⟨_, _, _, _, _, b1, b2⟩ := rows_length n.step.wf hi' n.rep' hfa'
        have := g5.1
        omega
  have bwd : (∀ i, capacityAt r' i = capacityAt r i) → Idle h1 h2 := by
    intro hc
    rcases n.change.idle with hid | ⟨i, fa, fa', hfa, hfa', hg⟩ | hlen
    · exact hid
    · exfalso
      obtain ⟨g1, _, g3, _⟩ := n.grows hr t.adm t.run hfa hfa' hg
      have := hc i
      rw [g1, g3] at this
      have h3 := Option.some.inj this
      have := (rows_length n.wf hi n.rep hfa).2.2.1
      omega
    · exfalso
      have h3 := hc fr.archetypes.length
      rw [capNone (List.getElem?_eq_none (Nat.le_refl _)),
        (rows_length n.step.wf hi' n.rep' (List.getElem?_eq_getElem hlen)).2.1] at h3
      cases h3
  exact ⟨⟨fwd, fun hc => (bwd hc).1⟩, fun hc => (bwd hc).2, fun hs => fwd (n.idle hs).1⟩

theorem steps_imp {ok ok' : Registry → Call → Prop} (himp : ∀ r call, ok r call → ok' r call) {r0 : Registry}
    (hs : Steps env ok r0 hist r) : Steps env ok' r0 hist r := by
  induction hs with
  | nil => exact Steps.nil
  | snoc _ h1 h2 ih => exact Steps.snoc ih (himp _ _ h1) h2

/-- **C106** Over any number of calls: as long as an entity stays in its row and its archetype keeps its capacity, every
component of the entity stays at its address. -/
theorem C106_run (hA : A.Ok) (hw : h.WF) (hs : Steps env (Call.Admissible W) Registry.default hist r) {e : Entity} {i k n : Nat}
    {more : List (Call × Outcome)}
    (hm : Steps env (fun r call => call.Admissible W r ∧ placeOf env r e = some (i, k) ∧ capacityAt r i = some n) r more r')
    (hp : placeOf env r' e = some (i, k)) (hn : capacityAt r' i = some n) {outs outs' : List Outcome}
    (h3 : FReg.default.calls A env (hist.map (·.1)) h = (.ok (fr, outs), h1))
    (h4 : FReg.default.calls A env ((hist ++ more).map (·.1)) h = (.ok (fr', outs'), h2)) {c : CompTy} (hW : W.Has c) :
    addressOf env h2 fr' c e = addressOf env h1 fr c e := by
  induction hm generalizing fr' h2 outs' with
  | nil =>
    rw [List.append_nil, h3] at h4
    cases h4
    rfl
  | @snoc more r1 r2 call out hm hc hrun ih =>
    rw [← List.append_assoc, List.map_append] at h4
    have h4' : FReg.default.calls A env ((hist ++ more).map (·.1) ++ [call]) h = (.ok (fr', outs'), h2) := h4
    rw [calls_snoc] at h4'
    cases hx : FReg.default.calls A env ((hist ++ more).map (·.1)) h with
    | mk res k1 =>
      cases res with
      | error f => rw [bind_error hx] at h4'; cases h4'
      | ok x =>
        rw [bind_ok hx] at h4'
        cases hy : x.1.call A env call k1 with
        | mk res2 k2 =>
          cases res2 with
          | error f => rw [bind_error hy] at h4'; cases h4'
          | ok y =>
            rw [bind_ok hy] at h4'
            cases h4'
            have hsteps : Steps env (Call.Admissible W) Registry.default (hist ++ more) r1 :=
              hs.append (steps_imp (fun _ _ h => h.1) hm)
            have t : OneMore W A h (hist ++ more) r1 x.1 k1 call out r2 y.1 _ :=
              ⟨hsteps, hc.1, hrun, ⟨x.2, hx⟩, ⟨y.2, hy⟩⟩
            rw [(t.known hA hw).stays ⟨_, hsteps⟩ hc.1 hrun hW hc.2.1 hp (hn.trans hc.2.2.symm)]
            exact ih hc.2.1 hc.2.2 hx

/-! ## Examples -/

/-- Three entities with `A` and `B`, the second with a new `A`. -/
def exThree : List Call := [.create [exA, exB] [exValA, exValB], .create [exA, exB] [exValA, exValB],
  .create [exA, exB] [exValA', exValB], .write exE2 exA exValA']

set_option maxRecDepth 100000 in
/-- The addresses of the `A`s before and after the first entity is destroyed: the third entity was last and now has the
address of the first, the second has kept its own. Nothing was requested. -/
example : (match FReg.default.calls bump exEnv exThree exHeap with
    | (.ok (fr, _), h1) => match fr.call bump exEnv (.destroy exE1) h1 with
      | (.ok (fr', out), h2) => decide (out.success = true ∧
          [exE1, exE2, exE3].map (addressOf exEnv h1 fr exA) = [some ⟨2, 524⟩, some ⟨2, 528⟩, some ⟨2, 532⟩] ∧
          [exE1, exE2, exE3].map (addressOf exEnv h2 fr' exA) = [none, some ⟨2, 528⟩, some ⟨2, 524⟩] ∧ h2.next = h1.next)
      | _ => false
    | _ => false) = true := by
  decide +kernel

/-- On blocks, `exThree` and the end of the first entity. -/
def exThreeRun : M (List Outcome × Registry × Registry × Outcome) := do
  let x ← runCalls exEnv Registry.default exThree
  let y ← Call.run exEnv x.2 (.destroy exE1)
  return (x.1, x.2, y.1, y.2)

set_option maxRecDepth 100000 in
/-- The hypotheses of the theorems hold for this program and the third entity, … -/
theorem exOneMore : ∃ hist r fr h1 out r' fr' h2, OneMore exWorld bump exHeap hist r fr h1 (.destroy exE1) out r' fr' h2 ∧
    addressOf exEnv h1 fr exA exE3 = some ⟨2, 532⟩ ∧ placeOf exEnv r exE3 = some (0, 2) := by
  have hb : (match exThreeRun with
      | .ok (outs, r, _, _) => decide (outs.length = 4 ∧ placeOf exEnv r exE3 = some (0, 2))
      | .error _ => false) = true := by decide +kernel
  have hf : (match FReg.default.calls bump exEnv exThree exHeap with
      | (.ok (fr, _), h1) => match fr.call bump exEnv (.destroy exE1) h1 with
        | (.ok _, _) => decide (addressOf exEnv h1 fr exA exE3 = some ⟨2, 532⟩)
        | _ => false
      | _ => false) = true := by decide +kernel
  cases hx : runCalls exEnv Registry.default exThree with
  | error f => simp only [exThreeRun, hx] at hb; cases hb
  | ok x =>
    cases hy : Call.run exEnv x.2 (.destroy exE1) with
    | error f => simp only [exThreeRun, hx, ok_bind, hy] at hb; cases hb
    | ok y =>
      simp only [exThreeRun, hx, ok_bind, hy] at hb
      have hsteps := Steps.of_run (calls := exThree) (ok := Call.Admissible exWorld)
        (fun r call hc => exCheck_ok (List.all_eq_true.mp (show exThree.all exCheck = true by decide +kernel) call hc) r)
        Steps.nil hx
      obtain ⟨hb1, hb2⟩ := of_decide_eq_true hb
      have hlen : (exThree.zip x.1).map (·.1) = exThree := List.map_fst_zip (by rw [hb1]; decide)
      split at hf
      · next fr outs h1 hrun =>
        split at hf
        · next z h2 hcall =>
          refine ⟨[] ++ exThree.zip x.1, x.2, fr, h1, y.2, y.1, z.1, h2, ⟨hsteps, ?_, hy, ⟨outs, ?_⟩, ⟨z.2, hcall⟩⟩,
            of_decide_eq_true hf, hb2⟩
          · exact exCheck_ok (by decide +kernel) _
          · rw [List.nil_append, hlen]; exact hrun
        · cases hf
      · cases hf

/-- … with one of the conclusions, and without a request. -/
example : ∃ hist r fr h1 out r' fr' h2, OneMore exWorld bump exHeap hist r fr h1 (.destroy exE1) out r' fr' h2 ∧
    h2.next = h1.next ∧ h2.allocs = h1.allocs ∧ (addressOf exEnv h2 fr' exA exE3 = some ⟨2, 532⟩ ∨
      ∃ q, addressOf exEnv h1 fr exA exE1 = some q ∧ addressOf exEnv h2 fr' exA exE3 = some q) := by
  obtain ⟨hist, r, fr, h1, out, r', fr', h2, t, hq, hp⟩ := exOneMore
  obtain ⟨q1, q2, q3⟩ := C106_requests bump_ok exHeap_wf t
  refine ⟨hist, r, fr, h1, out, r', fr', h2, t, q1.mpr (q3 rfl), q2 (q3 rfl), ?_⟩
  rcases C106_address bump_ok exHeap_wf t (show exA ∈ [exA, exB, exC] by decide) hq hp with
    h | ⟨h, _⟩ | ⟨v, _, q, h, _, _, _, _, h3, h4⟩ | ⟨h, _⟩
  · exact .inl h.1
  · exact absurd (Option.some.inj h) (by decide)
  · cases h
    exact .inr ⟨q, h3, h4⟩
  · cases h

end Shard.Flat
