import Verif.Spec.FlatRows
import Verif.Proofs.FlatCalls
import Verif.Proofs.RowsStore
/-!
# Flat memory: archetypes used on their own
-/

set_option autoImplicit false

namespace Shard.Flat

variable {A : Allocator} {env : Env} {W : World env} {h h' : Heap} {fa : FArch} {a : Archetype} {t : Rows}

/-! ## What the invariant of a table gives -/

theorem RowsRep.column (hr : RowsRep W a t) {i : Nat} {c : CompTy} (hc : t.types[i]? = some c) :
    ∃ b, a.pointers[i]? = some (some b) ∧ b.bytes.length = c.size * a.capacity ∧ b.align = c.align ∧
      powerOfTwo b.align = true := by
  obtain ⟨b, h1, h2⟩ := hr.cols.col _ _ hc
  exact ⟨b, h1, h2.size, h2.align, by rw [h2.align]; exact W.align_ok (hr.desc.has c (List.mem_of_getElem? hc))⟩

theorem RowsRep.toSide (hr : RowsRep W a t) : Side a := by
  refine ⟨hr.cols.ptrs_len, fun {i d} hi => ?_⟩
  rw [hr.desc.comps, List.getElem?_map] at hi
  cases hc : t.types[i]? with
  | none => rw [hc] at hi; cases hi
  | some c =>
    rw [hc] at hi
    cases hi
    have hlt := W.size_lt (hr.desc.has c (List.mem_of_getElem? hc))
    have : c.descriptor.size = c.size := Nat.mod_eq_of_lt hlt
    rw [this]
    obtain ⟨b, h1, h2, _, h3⟩ := RowsRep.column hr hc
    exact ⟨b, h1, h2, h3⟩

theorem RowsRep.inB (hr : RowsRep W a t) {g : Group} (hg : W.OkGroup g) (hv : (g.descriptor env).isValid = true) {off : Nat}
    (hoff : off ≤ a.capacity) : ∀ p, some p ∈ a.getFuzzyPointersUnchecked env g off → InB a p := by
  intro p hp
  have hgs := Group.spec hv
  unfold Archetype.getFuzzyPointersUnchecked at hp
  obtain ⟨j, _, hj⟩ := List.mem_map.mp hp
  cases hd : (g.descriptor env).archetype.components[j]? with
  | none => rw [hd] at hj; cases hj
  | some d =>
    rw [hd] at hj
    simp only at hj
    cases hf : a.fuzzyFind d.id (a.descriptor.len - j) j with
    | none => rw [hf] at hj; cases hj
    | some k =>
      rw [hf] at hj
      cases hj
      obtain ⟨h1, h2⟩ := fuzzyFind_inv hf
      obtain ⟨c, hc, rfl⟩ := List.mem_map.mp (hgs.perm.mem_iff.mp (List.mem_of_getElem? hd))
      have hk : k < a.descriptor.len := by
        rcases Nat.lt_or_ge j a.descriptor.len with h3 | h3
        · omega
        · rw [show a.descriptor.len - j = 0 by omega] at hf; cases hf
      have hkc : k < t.types.length := by rw [hr.desc.length]; exact hk
      have hget : (a.descriptor.comps.getD k ComponentDescriptor.INVALID).id = t.types[k].id := by
        rw [hr.desc.wf.getD_comps hk]
        have := hr.desc.comps
        simp only [this, List.getElem_map, CompTy.descriptor]
      have he : c = t.types[k] :=
        W.id_inj (hg.has c hc) (hr.desc.has _ (List.getElem_mem hkc)) (by rw [← hget]; exact h1.symm)
      obtain ⟨b, h3, h4, _⟩ := RowsRep.column hr (List.getElem?_eq_getElem hkc)
      refine ⟨b, h3, ?_⟩
      rw [h4, ← he]
      have : c.descriptor.size = c.size := Nat.mod_eq_of_lt (W.size_lt (hg.has c hc))
      simp only [this]
      exact Nat.mul_le_mul_left _ hoff

/-! ## One archetype -/

theorem rowCall_spec (hAl : A.Ok) (hw : h.WF) (hA : ARep h fa a) (hr : RowsRep W a t) {op : RowOp} (hl : op.Legal W t)
    {x : Archetype × RowAns} (hx : op.run env a = .ok x) :
    wp A (rowCall A env fa op) h (fun y h' => y.2 = x.2 ∧ ARep h' y.1 x.1 ∧ Step h (Fp fa.all) h' (Fp y.1.all)) := by
  have hside := RowsRep.toSide hr
  have hcount := hr.count
  have hcapt := hr.cap
  have hle := hr.le
  have hcap : a.entityCount ≤ a.capacity := by omega
  cases op with
  | push e g vals =>
    obtain ⟨y, h1, hx1⟩ := ebind_inv hx
    cases hx1
    refine wp_bind (wp_mono (pushEntity_spec hAl hw hA hside h1) ?_)
    rintro z k ⟨h2, h3, h4⟩
    exact wp_pure ⟨by simp only [h2], h3, h4⟩
  | pushUninit =>
    obtain ⟨y, h1, hx1⟩ := ebind_inv hx
    cases hx1
    refine wp_bind (wp_mono (pushUninitialized_spec hAl hw hA hside h1) ?_)
    rintro z k ⟨h2, h3, h4⟩
    exact wp_pure ⟨by simp only [h2], h3, h4⟩
  | decrement =>
    obtain ⟨y, h1, hx1⟩ := ebind_inv hx
    cases hx1
    refine wp_bind (wp_mono (decrementLen_spec hA h1) ?_)
    rintro z k ⟨⟨h2, h3⟩, rfl⟩
    exact wp_pure ⟨rfl, h2, by rw [h3]; exact Step.refl hw _⟩
  | write c k v =>
    obtain ⟨y, h1, hx1⟩ := ebind_inv hx
    cases hx1
    refine wp_bind (wp_mono (writeSingle_spec hw hA h1) ?_)
    rintro z k ⟨h2, h3⟩
    exact wp_pure ⟨rfl, h2, h3⟩
  | writeRow k e g vals =>
    obtain ⟨y, h1, hx1⟩ := ebind_inv hx
    cases hx1
    refine wp_bind (wp_mono (writeEntity_spec hw hA h1) ?_)
    rintro z k ⟨h2, h3⟩
    exact wp_pure ⟨rfl, h2, h3⟩
  | setEntity k e =>
    obtain ⟨y, h1, hx1⟩ := ebind_inv hx
    cases hx1
    refine wp_bind (wp_mono (setEntityAt_spec hw hA h1) ?_)
    rintro z k ⟨h2, h3⟩
    exact wp_pure ⟨rfl, h2, h3⟩
  | assign c k v =>
    obtain ⟨p, h1, hx1⟩ := ebind_inv hx
    obtain ⟨old, h2, hx2⟩ := ebind_inv hx1
    obtain ⟨y, h3, hx3⟩ := ebind_inv hx2
    cases hx3
    refine wp_bind (wp_mono (getComponentUncheckedMut_spec hw hA h1) ?_)
    rintro q k ⟨hq, rfl⟩
    refine wp_bind (wp_mono (readPtr_spec hw hA hq h2) ?_)
    rintro w k ⟨rfl, rfl⟩
    refine wp_bind (wp_mono (writePtr_spec hw hA hq h3) ?_)
    rintro z k ⟨h4, h5⟩
    exact wp_pure ⟨rfl, h4, h5⟩
  | swap i j =>
    obtain ⟨y, h1, hx1⟩ := ebind_inv hx
    cases hx1
    refine wp_bind (wp_mono (swapEntities_spec hw hA h1) ?_)
    rintro z k ⟨h2, h3⟩
    exact wp_pure ⟨rfl, h2, h3⟩
  | swapToLast k =>
    obtain ⟨y, h1, hx1⟩ := ebind_inv hx
    cases hx1
    refine wp_bind (wp_mono (swapToLast_spec hw hA h1) ?_)
    rintro z k ⟨rfl, h2, h3⟩
    exact wp_pure ⟨rfl, h2, h3⟩
  | swapDrop k =>
    obtain ⟨y, h1, hx1⟩ := ebind_inv hx
    cases hx1
    have hk := hl.1.lt
    refine wp_bind (wp_mono (swapDrop_spec hw hA hside (by omega) hcap h1) ?_)
    rintro z k ⟨h2, h3, h4, h5⟩
    exact wp_pure ⟨by simp only [h2], h3, by rw [h4]; exact h5⟩
  | swapRemove g k =>
    obtain ⟨y, h1, hx1⟩ := ebind_inv hx
    cases hx1
    have hk := hl.2.1.lt
    refine wp_bind (wp_mono (swapRemove_spec hw hA hside (by omega) hcap
      (by rw [hr.desc.wf.comps_len]; exact hr.desc.wf.len_le) h1) ?_)
    rintro z k ⟨h2, h3, h4, h5⟩
    exact wp_pure ⟨by simp only [h2], h3, by rw [h4]; exact h5⟩
  | moveOut c k =>
    obtain ⟨y, h1, hx1⟩ := ebind_inv hx
    cases hx1
    refine wp_bind (wp_mono (readComponentUnchecked_spec hw hA h1) ?_)
    rintro z k ⟨rfl, rfl⟩
    exact wp_pure ⟨rfl, hA, Step.refl hw _⟩
  | dropRow k =>
    obtain ⟨y, h1, hx1⟩ := ebind_inv hx
    cases hx1
    have hk := Rows.FullRow.lt hl
    refine wp_bind (wp_mono (dropEntity_spec hw hA hside (by omega) h1) ?_)
    rintro z k ⟨rfl, rfl⟩
    exact wp_pure ⟨rfl, hA, Step.refl hw _⟩
  | dropRows =>
    obtain ⟨y, h1, hx1⟩ := ebind_inv hx
    cases hx1
    refine wp_bind (wp_mono (dropEntities_spec hw hA hside h1) ?_)
    rintro z k ⟨rfl, rfl⟩
    exact wp_pure ⟨rfl, hA, Step.refl hw _⟩
  | size =>
    cases hx
    exact wp_pure ⟨by rw [hA.count, hA.cap]; rfl, hA, Step.refl hw _⟩
  | entities =>
    obtain ⟨y, h1, hx1⟩ := ebind_inv hx
    cases hx1
    refine wp_bind (wp_mono (entities_spec hw hA h1) ?_)
    rintro z k ⟨rfl, rfl⟩
    exact wp_pure ⟨rfl, hA, Step.refl hw _⟩
  | get c k =>
    obtain ⟨y, h1, hx1⟩ := ebind_inv hx
    cases hx1
    refine wp_bind (wp_mono (getComponentUnchecked_spec hw hA h1) ?_)
    rintro z k ⟨rfl, rfl⟩
    exact wp_pure ⟨rfl, hA, Step.refl hw _⟩
  | getFuzzy g k =>
    obtain ⟨y, h1, hx1⟩ := ebind_inv hx
    cases hx1
    have hk := Rows.FullRow.lt hl.2
    refine wp_bind (wp_mono (getFuzzyComponents_spec hw hA (RowsRep.inB hr hl.1.1 hl.1.2.1 (by omega)) h1) ?_)
    rintro z k ⟨rfl, rfl⟩
    exact wp_pure ⟨rfl, hA, Step.refl hw _⟩
  | slicesExact g =>
    obtain ⟨y, h1, hx1⟩ := ebind_inv hx
    cases hx1
    refine wp_bind (wp_mono (getSlicesExact_spec hw hA h1) ?_)
    rintro z k ⟨rfl, rfl⟩
    exact wp_pure ⟨rfl, hA, Step.refl hw _⟩
  | slicesFuzzy g =>
    obtain ⟨y, h1, hx1⟩ := ebind_inv hx
    cases hx1
    refine wp_bind (wp_mono (getFuzzySlices_spec hw hA (RowsRep.inB hr hl.1.1 hl.1.2.1 (Nat.zero_le _)) h1) ?_)
    rintro z k ⟨rfl, rfl⟩
    exact wp_pure ⟨rfl, hA, Step.refl hw _⟩
  | slicesEntity g =>
    obtain ⟨y, h1, hx1⟩ := ebind_inv hx
    cases hx1
    refine wp_bind (wp_mono (getEntityFuzzySlices_spec hw hA (RowsRep.inB hr hl.1.1 hl.1.2.1 (Nat.zero_le _)) h1) ?_)
    rintro z k ⟨rfl, rfl⟩
    exact wp_pure ⟨rfl, hA, Step.refl hw _⟩

/-! ## Several archetypes -/

/-- An archetype goes away. -/
theorem RRep.eraseIdx {fas : List FArch} {as : List Archetype} (hw : h.WF) (hR : RRep h fas as) {i : Nat}
    (hi : fas[i]? = some fa) (hs : Step h (Fp fa.all) h' (fun _ => False)) :
    RRep h' (fas.eraseIdx i) (as.eraseIdx i) ∧ Step h (FpL fas) h' (FpL (fas.eraseIdx i)) := by
  have get : ∀ {α : Type} {l : List α} {j : Nat} {x : α}, (l.eraseIdx i)[j]? = some x →
      l[if j < i then j else j + 1]? = some x := by
    intro α l j x hx
    rw [List.getElem?_eraseIdx] at hx
    split
    · next hj => rw [if_pos hj] at hx; exact hx
    · next hj => rw [if_neg hj] at hx; exact hx
  have hne : ∀ j : Nat, (if j < i then j else j + 1) ≠ i := by intro j; split <;> omega
  refine ⟨⟨by simp [List.length_eraseIdx, hR.len], ?_, ?_⟩, ?_⟩
  · intro j fb b hb hb'
    exact (hR.arch (get hb) (get hb')).frame hw hs (fun id h1 => hR.dis (hne j) (get hb) hi id h1)
  · intro j k fb fc hjk hb hc
    exact hR.dis (by split <;> split <;> omega) (get hb) (get hc)
  · refine (hs.frame (FpL (fas.eraseIdx i))).congr (fun id => ⟨?_, ?_⟩) (fun id => ⟨fun z => z.elim False.elim (·), .inr⟩)
    · rintro (h1 | ⟨x, hx, h1⟩)
      · exact ⟨fa, List.mem_of_getElem? hi, h1⟩
      · exact ⟨x, List.mem_of_mem_eraseIdx hx, h1⟩
    · rintro ⟨x, hx, h1⟩
      obtain ⟨j, hj⟩ := List.getElem?_of_mem hx
      by_cases hji : j = i
      · subst hji
        rw [hi] at hj; cases hj
        exact .inl h1
      · refine .inr ⟨x, ?_, h1⟩
        exact List.mem_eraseIdx_iff_getElem?.mpr ⟨j, hji, hj⟩

theorem storeCall_spec (hAl : A.Ok) (hw : h.WF) {fas : List FArch} {as : List Archetype} {ts ts' : List Rows} {op : StoreOp}
    {x : RowAns} (hR : RRep h fas as) (hS : StoreRep W as ts) (hs : StoreOp.Step W ts op x ts') {as' : List Archetype}
    (hx : op.run env as = .ok (as', x)) :
    wp A (storeCall A env fas op) h (fun y h' => y.2 = x ∧ RRep h' y.1 as' ∧ Step h (FpL fas) h' (FpL y.1)) := by
  cases hs with
  | create g n t hg hv hpos hle ht =>
    obtain ⟨b, h1, hx1⟩ := ebind_inv hx
    cases hx1
    refine wp_bind (wp_mono (withCapacity_spec hAl hw h1) ?_)
    rintro fb k ⟨h2, h3⟩
    obtain ⟨h4, h5⟩ := hR.push hw h3 h2
    exact wp_pure ⟨rfl, h4, h5⟩
  | on i t op ht hl =>
    obtain ⟨b, h1, hx1⟩ := ebind_inv hx
    obtain ⟨y, h2, hx2⟩ := ebind_inv hx1
    have hb := index_inv h1
    obtain ⟨fb, hfb, hA⟩ := hR.get hb
    have hy : y.2 = (op.apply t).2 ∧ as.set i y.1 = as' := by
      have := Except.ok.inj hx2
      exact ⟨congrArg Prod.snd this, congrArg Prod.fst this⟩
    refine wp_then (index_ok' hfb) (wp_bind (wp_mono (rowCall_spec hAl hw hA (hS.2 _ _ _ hb ht) hl h2) ?_))
    rintro z k ⟨h3, h4, h5⟩
    obtain ⟨h6, h7⟩ := hR.set hw hfb h5 h4
    refine wp_pure ⟨h3.trans hy.1, ?_, h7⟩
    rw [← hy.2]
    exact h6
  | copy i k j l s d hij hs hd hk hl =>
    obtain ⟨b, h1, hx1⟩ := ebind_inv hx
    obtain ⟨c, h2, hx2⟩ := ebind_inv hx1
    obtain ⟨c', h3, hx3⟩ := ebind_inv hx2
    cases hx3
    obtain ⟨fb, hfb, hB⟩ := hR.get (index_inv h1)
    obtain ⟨fc, hfc, hC⟩ := hR.get (index_inv h2)
    refine wp_then (index_ok' hfb) (wp_then (index_ok' hfc)
      (wp_bind (wp_mono (copyCommon_spec hw hB hC (hR.dis hij hfb hfc) h3) ?_)))
    rintro _ k ⟨_, h5, h6⟩
    obtain ⟨h7, h8⟩ := hR.inPlace hw hfc h6 h5
    exact wp_pure ⟨rfl, h7, h8⟩
  | drop i t ht hf =>
    obtain ⟨b, h1, hx1⟩ := ebind_inv hx
    obtain ⟨y, h2, hx2⟩ := ebind_inv hx1
    have hb := index_inv h1
    obtain ⟨fb, hfb, hB⟩ := hR.get hb
    have hrow := hS.2 _ _ _ hb ht
    have hy := Except.ok.inj hx2
    simp only [Prod.mk.injEq, RowAns.gone.injEq] at hy
    obtain ⟨rfl, hv, hfr⟩ := hy
    have hnull : ∀ o ∈ objs y.2, o = none := by
      intro o ho
      simp only [Archetype.freed, Bool.and_eq_true, List.all_eq_true, Option.isNone_iff_eq_none] at hfr
      unfold objs at ho
      rw [hfr.2] at ho
      rcases List.mem_cons.mp ho with rfl | ho
      · rfl
      · obtain ⟨p, hp, rfl⟩ := List.mem_map.mp ho
        rw [hfr.1 p hp]; rfl
    refine wp_then (index_ok' hfb) (wp_bind (wp_mono (drop_arch_spec hw hB (RowsRep.toSide hrow)
      (by have := hrow.pos; have := hrow.cap; omega) h2 hnull) ?_))
    rintro vs k ⟨rfl, h3⟩
    obtain ⟨h4, h5⟩ := hR.eraseIdx hw hfb h3
    refine wp_bind (.inl ⟨k, k, rfl, wp_pure ⟨?_, h4, h5⟩⟩)
    rw [hv]
    have hleft : noneLeft fb k = true := by
      unfold noneLeft
      rw [List.all_eq_true]
      intro p hp
      simp only [Bool.or_eq_true, beq_iff_eq, Option.isNone_iff_eq_none]
      by_cases h0 : p.addr = 0
      · exact .inl h0
      · right
        cases hk : k.allocs p.prov with
        | none => rfl
        | some al => exact (h3.live (by rw [hk]; simp) (.inl ⟨p, hp, h0, rfl⟩)).elim
    rw [hleft]

theorem storeCalls_spec (hAl : A.Ok) {ts ts' : List Rows} {ops : List StoreOp} {xs : List RowAns}
    (hs : StoreOp.Steps W ts ops xs ts') : ∀ {h : Heap} {fas : List FArch} {as : List Archetype}, h.WF → RRep h fas as →
      StoreRep W as ts → wp A (storeCalls A env fas ops) h (fun y h' => y.2 = xs ∧ (∃ as', RRep h' y.1 as' ∧
        StoreRep W as' ts') ∧ Step h (FpL fas) h' (FpL y.1)) := by
  induction hs with
  | nil ts => intro h fas as hw hR hS; exact wp_pure ⟨rfl, ⟨as, hR, hS⟩, Step.refl hw _⟩
  | cons h1 _ ih =>
    intro h fas as hw hR hS
    obtain ⟨as1, q1, q2⟩ := StoreOp.step_spec hS h1
    refine wp_bind (wp_mono (storeCall_spec hAl hw hR hS h1 q1) ?_)
    rintro y k ⟨rfl, h3, h4⟩
    refine wp_bind (wp_mono (ih h4.wf h3 q2) ?_)
    rintro z k' ⟨rfl, h6, h7⟩
    exact wp_pure ⟨rfl, h6, h4.trans h7⟩

end Shard.Flat
