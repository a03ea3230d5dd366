import Verif.Model.Unwind
import Verif.Proofs.Observe
/-!
# `destroy_entity` with destructors that panic
-/

namespace Shard

variable {env : Env} {W : World env} {r : Registry} {cs : List Content}

/-- The values dropped before the first panic, and the one whose destructor panics. -/
def upToPanic (boom : Val → Bool) : List Val → List Val
  | [] => []
  | v :: vs => if boom v then [v] else v :: upToPanic boom vs

theorem upToPanic_calm {boom : Val → Bool} : ∀ {vs : List Val}, vs.any boom = false → upToPanic boom vs = vs
  | [], _ => rfl
  | v :: vs, h => by
    rw [List.any_cons, Bool.or_eq_false_iff] at h
    simp only [upToPanic, h.1, Bool.false_eq_true, if_false]
    rw [upToPanic_calm h.2]

theorem upToPanic_eq {boom : Val → Bool} : ∀ (vs : List Val),
    upToPanic boom vs = vs.takeWhile (fun v => !boom v) ++ (vs.dropWhile (fun v => !boom v)).take 1
  | [] => rfl
  | v :: vs => by
    unfold upToPanic
    by_cases h : boom v = true
    · simp [h]
    · rw [if_neg h, upToPanic_eq vs]
      simp [h]

theorem Rep.dropUnwindLoop_spec {a : Archetype} {ct : Content} (h : Rep W a ct) (boom : Val → Bool) {k : Nat}
    (hk : k < ct.ents.length) : ∀ (n i : Nat), i + n = ct.cts.length →
    a.dropUnwindLoop boom k n i = .ok (upToPanic boom ((ct.rowVals k).drop i), ((ct.rowVals k).drop i).any boom)
  | 0, i, hi => by
    have : (ct.rowVals k).drop i = [] := by
      rw [List.drop_eq_nil_iff]
      simp [Content.rowVals, h.cols.cols_len]; omega
    rw [this]; rfl
  | n + 1, i, hi => by
    have hi' : i < ct.cts.length := by omega
    have hc := List.getElem?_eq_getElem hi'
    have hW := h.desc.world_of hc
    obtain ⟨vs, b, h1, h2, h3, h4⟩ := h.column hc
    have hk' : k < vs.length := by omega
    have hrv : (ct.rowVals k)[i]? = some vs[k] := by
      simp only [Content.rowVals, List.getElem?_map, h1, Option.map_some]
      rw [List.getElem?_eq_getElem hk']; rfl
    obtain ⟨hil, hie⟩ := List.getElem?_eq_some_iff.mp hrv
    have hslice : (vs.drop k).take 1 = [vs[k]] := by
      rw [List.drop_eq_getElem_cons hk']; rfl
    unfold Archetype.dropUnwindLoop
    rw [h.desc.index_comp hc, index_of_getElem? h2]
    simp only [ok_bind, W.desc_size hW]
    simp only [Archetype.runDropHandler, CompTy.descriptor]
    rw [Nat.mul_comm k, h3.readSlice_ok k 1 (by omega), hslice]
    simp only [ok_bind]
    rw [List.drop_eq_getElem_cons hil, hie]
    by_cases hb : boom vs[k] = true
    · simp [hb, upToPanic, pure_eq_ok]
    · rw [h.dropUnwindLoop_spec boom hk n (i + 1) (by omega)]
      simp [hb, upToPanic, pure_eq_ok]
      rfl

theorem Rep.dropEntityUnwind_spec {a : Archetype} {ct : Content} (h : Rep W a ct) (boom : Val → Bool) {k : Nat}
    (hk : k < ct.ents.length) :
    a.dropEntityUnwind boom k = .ok (upToPanic boom (ct.rowVals k), (ct.rowVals k).any boom) := by
  unfold Archetype.dropEntityUnwind
  rw [h.desc.clen, h.dropUnwindLoop_spec boom hk _ 0 (by omega)]
  rfl

theorem Rep.rowVals_swap {a : Archetype} {ct : Content} (h : Rep W a ct) {idx : Nat} (hi : idx < ct.ents.length) :
    (ct.swap idx (ct.ents.length - 1)).rowVals (ct.ents.length - 1) = ct.rowVals idx := by
  unfold Content.rowVals Content.swap
  simp only [List.map_map]
  apply List.map_congr_left
  intro col hcol
  obtain ⟨n, hn, he⟩ := List.mem_iff_getElem.mp hcol
  have := h.lens n col (by rw [List.getElem?_eq_getElem hn, he])
  simp only [Function.comp_apply]
  rw [getElem?_swapAt (by omega) (by omega), if_pos rfl]

/-- No destructor of the row panics: nothing differs. -/
theorem Rep.swapDropUnwind_calm {a : Archetype} {ct : Content} (h : Rep W a ct) {boom : Val → Bool} {idx : Nat}
    (hi : idx < ct.ents.length) (hb : (ct.rowVals idx).any boom = false) :
    a.swapDropUnwind boom env idx = (a.swapDropUnchecked env idx).map (fun x => (x.1, some x.2.1, x.2.2)) := by
  have hcnt := h.count
  unfold Archetype.swapDropUnwind Archetype.swapDropUnchecked
  rw [debugAssert_true (by simpa [hcnt] using hi), subU32_le (by omega), hcnt]
  simp only [ok_bind]
  by_cases hl : idx = ct.ents.length - 1
  · rw [if_pos hl, if_pos hl, h.dropEntity_spec hi, h.dropEntityUnwind_spec boom hi, hb, upToPanic_calm hb]
    rfl
  · rw [if_neg hl, if_neg hl]
    obtain ⟨a1, h1, h2, h3, h4⟩ := h.swapEntities_spec hl hi (by omega)
    have hc1 : a1.entityCount = ct.ents.length := by rw [h4.count]; simp [Content.swap, swapAt_length]
    have hl1 : (ct.swap idx (ct.ents.length - 1)).ents.length = ct.ents.length := by simp [Content.swap, swapAt_length]
    rw [h1]
    simp only [ok_bind]
    rw [subU32_le (by omega)]
    simp only [ok_bind, hc1]
    rw [h4.dropEntity_spec (by rw [hl1]; omega), h4.dropEntityUnwind_spec boom (by rw [hl1]; omega), h.rowVals_swap hi, hb,
      upToPanic_calm hb]
    rfl

/-- A destructor of the row panics: the row has been swapped to the end, and stays. -/
theorem Rep.swapDropUnwind_panic {a : Archetype} {ct : Content} (h : Rep W a ct) {boom : Val → Bool} {idx : Nat}
    (hi : idx < ct.ents.length) (hb : (ct.rowVals idx).any boom = true) :
    ∃ a', a.swapDropUnwind boom env idx = .ok (a', none, upToPanic boom (ct.rowVals idx)) ∧
      a'.descriptor = a.descriptor ∧ a'.capacity = a.capacity ∧ Rep W a' (ct.swap idx (ct.ents.length - 1)) := by
  have hcnt := h.count
  unfold Archetype.swapDropUnwind
  rw [debugAssert_true (by simpa [hcnt] using hi), subU32_le (by omega), hcnt]
  simp only [ok_bind]
  by_cases hl : idx = ct.ents.length - 1
  · rw [if_pos hl, h.dropEntityUnwind_spec boom hi, hb]
    refine ⟨a, rfl, rfl, rfl, ?_⟩
    rw [← hl, ct.swap_self]
    exact h
  · rw [if_neg hl]
    obtain ⟨a1, h1, h2, h3, h4⟩ := h.swapEntities_spec hl hi (by omega)
    have hc1 : a1.entityCount = ct.ents.length := by rw [h4.count]; simp [Content.swap, swapAt_length]
    have hl1 : (ct.swap idx (ct.ents.length - 1)).ents.length = ct.ents.length := by simp [Content.swap, swapAt_length]
    rw [h1]
    simp only [ok_bind]
    rw [subU32_le (by omega)]
    simp only [ok_bind, hc1]
    rw [h4.dropEntityUnwind_spec boom (by rw [hl1]; omega), h.rowVals_swap hi, hb]
    exact ⟨a1, rfl, h2, h3, h4⟩

/-- Reading a component, knowing only where the entry points. -/
theorem getComponent_at {e : Entity} {en : EntityEntry} {a : Archetype} {ct : Content}
    (he : r.entities.entityEntry env e = some en)
    (ha : r.archetypes.archetypes[(en.archetypeIndex env).toNat]? = some a) (hr : Rep W a ct)
    (hk : en.indexInArchetype.value.toNat < ct.ents.length) {c : CompTy} (hW : W.Has c) :
    r.getComponent env c e = .ok (ct.get c en.indexInArchetype.value.toNat) := by
  unfold Registry.getComponent
  rw [he]
  simp only []
  unfold ArchetypeRegistry.getUnchecked
  rw [indexUnchecked_of_getElem? ha]
  simp only [ok_bind, pure_eq_ok]
  by_cases hm : c ∈ ct.cts
  · rw [if_neg (by rw [(hr.desc.hasComponent_iff hW).mpr hm]; simp)]
    obtain ⟨v, hv, _⟩ := hr.get_some hm hk
    rw [hr.getComponentUnchecked_ok hv, hv]
    rfl
  · rw [if_pos (fun hx => hm ((hr.desc.hasComponent_iff hW).mp hx))]
    cases hg : ct.get c en.indexInArchetype.value.toNat with
    | none => rfl
    | some w => exact absurd (hr.mem_of_get hg).1 hm

theorem Rep.get_swap {a : Archetype} {ct : Content} (h : Rep W a ct) {i j : Nat} (hi : i < ct.ents.length)
    (hj : j < ct.ents.length) (c : CompTy) (k : Nat) :
    (ct.swap i j).get c k = if k = j then ct.get c i else if k = i then ct.get c j else ct.get c k := by
  unfold Content.get
  simp only [Content.swap, lookupTy_map]
  cases hl : lookupTy ct.cts ct.cols c with
  | none => simp
  | some col =>
    obtain ⟨n, _, hn⟩ := lookupTy_some_mem hl
    have := h.lens n col hn
    simp only [Option.map_some, Option.bind_some]
    exact getElem?_swapAt (by omega) (by omega) k

theorem flatten_swap_perm (cols : List (List Val)) (i j : Nat) :
    (cols.map (fun col => swapAt col i j)).flatten.Perm cols.flatten := by
  induction cols with
  | nil => exact .refl _
  | cons c cols ih => exact (swapAt_perm c i j).append ih

/-- What a panicking `destroy_entity` leaves behind: the rows of `e` and of the last entity `x` of the archetype are
exchanged, but not their entries. -/
theorem RInv.destroyUnwind_panic (h : RInv W r cs) {e : Entity} {en : EntityEntry}
    (he : r.entities.entityEntry env e = some en) {boom : Val → Bool} :
    ∃ row, RowOf (fun c => ((r.look env cs e).bind (fun f => f c))) row ∧
      (row.any boom = false → r.destroyEntityUnwind boom env e =
        (r.destroyEntity env e).map (fun x => (x.1, some x.2.1, x.2.2))) ∧
      (row.any boom = true → ∃ r' cs' x, r.destroyEntityUnwind boom env e = .ok (r', none, upToPanic boom row) ∧
        r'.entities = r.entities ∧ ARInv W r'.archetypes cs' ∧ (stored cs').Perm (stored cs) ∧
        (∃ f, r.look env cs x = some f ∧ r.archOf env x = r.archOf env e) ∧
        ∀ (y : Entity) (c : CompTy), W.Has c → r'.getComponent env c y =
          r.getComponent env c (if y = e then x else if y = x then e else y)) := by
  obtain ⟨a, ct, ha, hc, hr, hk, hloc, hlook⟩ := h.entry he
  have hkl := (List.getElem?_eq_some_iff.mp hk).1
  refine ⟨ct.rowVals en.indexInArchetype.value.toNat, ?_, ?_, ?_⟩
  · rw [hlook]; exact hr.rowOf hkl
  · intro hb
    have hx := hr.swapDropUnwind_calm (env := env) hkl hb
    obtain ⟨a', s1, s2, s3, s4⟩ := hr.swapDrop_spec hkl
    unfold Registry.destroyEntityUnwind Registry.destroyEntity
    rw [he]
    simp only []
    unfold ArchetypeRegistry.getUnchecked
    rw [indexUnchecked_of_getElem? ha]
    simp only [ok_bind]
    rw [hx, s1]
    simp only [Except.map, ok_bind]
    generalize (if decide (en.indexInArchetype.value.toNat ≠ ct.ents.length - 1) = true then _ else _ : M EntityRegistry) = m
    cases m with
    | error f => rfl
    | ok m =>
      simp only [ok_bind]
      cases debugAssert env (m.destroyEntity env e).2 <;> rfl
  · intro hb
    obtain ⟨a', s1, s2, s3, s4⟩ := hr.swapDropUnwind_panic (env := env) hkl hb
    have hlast : ct.ents.length - 1 < ct.ents.length := by omega
    have hx := List.getElem?_eq_getElem hlast
    generalize ct.ents[ct.ents.length - 1] = x at hx
    have hxloc := (h.placed x _ _).mpr ⟨ct, hc, hx⟩
    obtain ⟨enx, hex⟩ : ∃ en, r.entities.entityEntry env x = some en := EntityRegistry.entry_of_loc hxloc |>.imp (fun _ h => h.1)
    refine ⟨⟨r.entities, r.archetypes.setArchetype (en.archetypeIndex env).toNat a'⟩,
      cs.set (en.archetypeIndex env).toNat (ct.swap en.indexInArchetype.value.toNat (ct.ents.length - 1)), x, ?_, rfl,
      h.arch.set ha s2 s4, ?_, ?_, ?_⟩
    · unfold Registry.destroyEntityUnwind
      rw [he]
      simp only []
      unfold ArchetypeRegistry.getUnchecked
      rw [indexUnchecked_of_getElem? ha]
      simp only [ok_bind]
      rw [s1]
      rfl
    · have h1 := stored_set (ct' := ct.swap en.indexInArchetype.value.toNat (ct.ents.length - 1)) hc
      have h2 : (ct.swap en.indexInArchetype.value.toNat (ct.ents.length - 1)).cols.flatten.Perm ct.cols.flatten :=
        flatten_swap_perm ct.cols _ _
      exact (List.perm_append_right_iff _).mp (h1.trans (List.Perm.append_left _ h2))
    · refine ⟨_, look_of hxloc hc, ?_⟩
      unfold Registry.archOf
      rw [hxloc, hloc]
      rfl
    · intro y c hW
      have hail : (en.archetypeIndex env).toNat < r.archetypes.archetypes.length := (List.getElem?_eq_some_iff.mp ha).1
      cases hy : r.entities.entityEntry env y with
      | none =>
        have hye : y ≠ e := fun hh => by rw [hh, he] at hy; cases hy
        have hyx : y ≠ x := fun hh => by rw [hh, hex] at hy; cases hy
        rw [if_neg hye, if_neg hyx]
        unfold Registry.getComponent
        simp only [hy]
      | some eny =>
        obtain ⟨ay, cty, hay, hcy, hry, hky, hly, _⟩ := h.entry hy
        have hkyl := (List.getElem?_eq_some_iff.mp hky).1
        by_cases hai : (eny.archetypeIndex env).toNat = (en.archetypeIndex env).toNat
        · rw [hai] at hay hcy hly
          rw [ha] at hay; cases hay
          rw [hc] at hcy; cases hcy
          rw [getComponent_at (r := ⟨r.entities, r.archetypes.setArchetype (en.archetypeIndex env).toNat a'⟩) (a := a') hy
            (by rw [hai]; exact List.getElem?_set_self hail) s4 (by simp only [Content.swap, swapAt_length]; exact hkyl) hW,
            hr.get_swap hkl hlast]
          have hge := getComponent_at he ha hr hkl hW
          by_cases hye : y = e
          · subst hye
            rw [he] at hy; cases hy
            rw [if_pos (rfl : y = y)]
            have hgx : r.getComponent env c x = .ok (ct.get c (ct.ents.length - 1)) := by
              obtain ⟨en2, g1, g2, g3⟩ := EntityRegistry.entry_of_loc hxloc
              have := getComponent_at (c := c) g1 (by rw [g2]; exact ha) hr (by rw [g3]; exact hlast) hW
              rw [g3] at this
              exact this
            rw [hgx]
            by_cases hkk : en.indexInArchetype.value.toNat = ct.ents.length - 1
            · rw [if_pos hkk, hkk]
            · rw [if_neg hkk]; simp
          · rw [if_neg hye]
            by_cases hyx : y = x
            · subst hyx
              rw [if_pos rfl, hge]
              rw [hxloc] at hly
              injection hly with hly
              injection hly with _ hly
              rw [if_pos hly.symm]
            · rw [if_neg hyx]
              have hgy := getComponent_at (c := c) hy (by rw [hai]; exact ha) hr hkyl hW
              have hne1 : eny.indexInArchetype.value.toNat ≠ ct.ents.length - 1 := by
                intro hh
                rw [hh, hx] at hky
                exact hyx (Option.some.inj hky).symm
              have hne2 : eny.indexInArchetype.value.toNat ≠ en.indexInArchetype.value.toNat := by
                intro hh
                rw [hh, hk] at hky
                exact hye (Option.some.inj hky).symm
              rw [if_neg hne1, if_neg hne2, hgy]
        · have hye : y ≠ e := fun hh => by rw [hh, he] at hy; cases hy; exact hai rfl
          have hyx : y ≠ x := fun hh => by
            rw [hh, hxloc] at hly
            injection hly with hly
            injection hly with hly _
            exact hai hly.symm
          rw [if_neg hye, if_neg hyx, getComponent_at hy hay hry hkyl hW]
          exact getComponent_at (r := ⟨r.entities, r.archetypes.setArchetype (en.archetypeIndex env).toNat a'⟩) hy
            (by
              show (r.archetypes.archetypes.set _ a')[_]? = _
              rw [List.getElem?_set_ne (Ne.symm hai)]; exact hay) hry hkyl hW

end Shard
