import Verif.Proofs.RefStep
/-!
# `add_component` and `remove_component` are simulated by the reference registry
-/

set_option autoImplicit false

namespace Shard

variable {env : Env} {W : World env}

/-- What finding or creating the archetype with the types `cts` and the id `id` has to do with the keys. -/
def Interned (ar : ArchetypeRegistry) (cts : List CompTy) (id : UInt32)
    (find : M (ArchetypeRegistry × Option (Nat × UInt16 × Nat))) : Prop :=
  ∃ x, find = .ok x ∧ x.1.keysOf = (keyIntern ar.keysOf (tyIds cts, id)).1 ∧
    x.2.map (fun p => p.2.2) = (keyIntern ar.keysOf (tyIds cts, id)).2

namespace RRel

variable {r : Registry} {cs : List Content} {R : RReg}

theorem intern_none (h : RRel W r cs R) {cts : List CompTy} {id : UInt32} {find : M (ArchetypeRegistry × Option (Nat × UInt16 × Nat))}
    (hi : Interned r.archetypes cts id find) {ar1 : ArchetypeRegistry} (hf : find = .ok (ar1, none)) :
    (internTable R.tables cts id).2 = none := by
  obtain ⟨x, h1, _, h3⟩ := hi
  rw [hf] at h1; cases h1
  have := (internTable_key R.tables cts id).1
  rw [h.tables, h.inv.arch.keys_tables, ← h.tables, ← h3] at this
  exact this

theorem intern_some (h : RRel W r cs R) {cts : List CompTy} {id : UInt32} {find : M (ArchetypeRegistry × Option (Nat × UInt16 × Nat))}
    (hhas : ∀ c ∈ cts, W.Has c) (hi : Interned r.archetypes cts id find) {ar1 : ArchetypeRegistry} {s d : Nat} {dai : UInt16} {cs1 : List Content}
    (hf : find = .ok (ar1, some (s, dai, d))) (h1 : ARInv W ar1 cs1) (hg : Grown r.archetypes cs ar1 cs1) :
    internTable R.tables cts id = (tablesOf ar1.idsOf cs1, some d) := by
  obtain ⟨x, q1, q2, q3⟩ := hi
  rw [hf] at q1; cases q1
  have := (internTable_key R.tables cts id).1
  rw [h.tables, h.inv.arch.keys_tables, ← h.tables, ← q3] at this
  refine Prod.ext ?_ this
  rw [hg.tables h.inv.arch h1 hhas q2, ← h.tables]

theorem target_cts {ar ar1 : ArchetypeRegistry} {cs cs1 : List Content} {si : Nat} {P : CompTy → Prop} {dai : UInt16}
    {b : Archetype} {ctD : Content} (hT : Target W ar cs si P ar1 cs1 dai b ctD) {cts : List CompTy}
    (hhas : ∀ c ∈ cts, W.Has c) (hasc : (tyIds cts).Pairwise (fun a b => a < b)) (hP : ∀ c, c ∈ cts ↔ P c) : ctD.cts = cts := by
  apply tyIds_inj (W := W) hT.rep.desc.has hhas
  have hD : tyIds ctD.cts = b.descriptor.ids := hT.rep.desc.ids_eq.symm
  refine AscSet.unique (P := fun i => ∃ c, P c ∧ c.id = i) ⟨by rw [hD]; exact hT.rep.desc.wf.ids_sorted, fun i => ?_⟩ ⟨hasc, fun i => ?_⟩
  · unfold tyIds; rw [List.mem_map]; simp only [hT.cts]
  · unfold tyIds; rw [List.mem_map]; simp only [hP]

theorem moved (h : RRel W r cs R) {e : Entity} {src : UInt16} {k : Nat} {ct : Content} (hc : cs[src.toNat]? = some ct)
    (hk : k < ct.ents.length) {a : Archetype} (hr : Rep W a ct)
    {P : CompTy → Prop} {cts : List CompTy} {id : UInt32} {find : M (ArchetypeRegistry × Option (Nat × UInt16 × Nat))} {val : CompTy → Val}
    {r' : Registry} {cs' : List Content} (hm : RowsMoved W r cs e src k ct P find val r' cs')
    (hhas : ∀ c ∈ cts, W.Has c) (hasc : (tyIds cts).Pairwise (fun a b => a < b)) (hP : ∀ c, c ∈ cts ↔ P c)
    (hi : Interned r.archetypes cts id find) (hinv : RInv W r' cs') (hu : Updated env r.entities r'.entities) :
    ∃ ts d, internTable R.tables cts id = (ts, some d) ∧ rowCount ts d < 8388608 ∧
      RRel W r' cs' { R with tables := onRows (onRows ts src.toNat (swapRemove · k)) d (· ++ [(e, cts.map val)]) } := by
  obtain ⟨ar1, cs1, dai, b, ctD, m1, hT, m2, m3, m4⟩ := hm
  have hcts := target_cts hT hhas hasc hP
  refine ⟨_, _, h.intern_some hhas hi m1 hT.inv hT.grown, ?_, hinv, ?_, h.slots.updated hu⟩
  · rw [rowCount_eq hT.arch hT.content]; exact m2
  · simp only []
    rw [m4.idsOf, m3, ← hcts]
    have hc1 := hT.grown.get hc
    rw [← tablesOf_set (ct' := ct.swapPop k) (f := (swapRemove · k)) hc1 rfl (hr.rows_swapPop hk)]
    refine (tablesOf_set (ct' := ctD.push e (ctD.cts.map val)) (f := (· ++ [(e, ctD.cts.map val)])) (ct := ctD) ?_ rfl ?_).symm
    · rw [List.getElem?_set_ne hT.ne]; exact hT.content
    · exact hT.rep.rows_push (by simp)

theorem full (h : RRel W r cs R) {src : UInt16} {P : CompTy → Prop} {cts : List CompTy} {id : UInt32}
    {find : M (ArchetypeRegistry × Option (Nat × UInt16 × Nat))} (hm : RowsFull W r cs src P find)
    (hhas : ∀ c ∈ cts, W.Has c) (hi : Interned r.archetypes cts id find) :
    ∃ ts d, internTable R.tables cts id = (ts, some d) ∧ ¬ rowCount ts d < 8388608 := by
  obtain ⟨ar1, cs1, dai, b, ctD, m1, hT, m2⟩ := hm
  refine ⟨_, _, h.intern_some hhas hi m1 hT.inv hT.grown, ?_⟩
  rw [rowCount_eq hT.arch hT.content]; omega

theorem add (h : RRel W r cs R) {e : Entity} {c : CompTy} {v : Val} (hadm : (Call.add e c v).Admissible W r) :
    Agree W r (.add e c v) (R.step env (.add e c v)) := by
  obtain ⟨hW, hv, hu⟩ := hadm
  unfold Agree
  simp only [RReg.step, Call.run]
  cases hx : r.entities.entityEntry env e with
  | none =>
    rw [h.find_dead hx, addComponent_dead hx]
    exact ⟨r, cs, rfl, h⟩
  | some en =>
    obtain ⟨a, ct, ha, hct, hr, hk, hloc, hlook⟩ := h.inv.entry hx
    have hkl := (List.getElem?_eq_some_iff.mp hk).1
    have hmem : ∀ c', ((fun c => ct.get c en.indexInArchetype.value.toNat) c').isSome ↔ c' ∈ ct.cts := by
      intro c'
      constructor
      · intro hs
        obtain ⟨w, hw⟩ := Option.isSome_iff_exists.mp hs
        exact (hr.mem_of_get hw).1
      · intro hcc
        obtain ⟨w, hw, _⟩ := hr.get_some hcc hkl
        simp only [hw, Option.isSome_some]
    have hadd : ∀ i, AddedIds ct.cts c i ↔ (i = c.id ∨ HasId W r e i) := by
      intro i
      unfold AddedIds
      rw [h.inv.hasId_iff hlook]
      simp only [hmem, and_comm]
    rw [h.find_live hloc hct ha]
    simp only []
    have hid : c.id ∈ a.descriptor.ids ↔ c ∈ ct.cts := hr.desc.id_mem hW
    have hkey : r.archetypes.keysOf[(en.archetypeIndex env).toNat]? = some (a.descriptor.ids, a.descriptor.archetypeId) := by
      unfold ArchetypeRegistry.keysOf
      rw [List.getElem?_map, ha]; rfl
    have hids : tyIds ct.cts = a.descriptor.ids := hr.desc.ids_eq.symm
    have hidl : a.descriptor.ids.length = ct.cts.length := by rw [← hids]; simp [tyIds]
    have hhas : ∀ c' ∈ insertTy c ct.cts, W.Has c' := by
      intro c' hc'
      rcases List.mem_cons.mp ((insertTy_perm c ct.cts).mem_iff.mp hc') with rfl | hc'
      · exact hW
      · exact hr.desc.has c' hc'
    have hP : ∀ c', c' ∈ insertTy c ct.cts ↔ (c' = c ∨ c' ∈ ct.cts) := by
      intro c'
      rw [(insertTy_perm c ct.cts).mem_iff, List.mem_cons]
    have hasc : c ∉ ct.cts → AscSet (tyIds (insertTy c ct.cts)) (AddedIds ct.cts c) := by
      intro hc
      rw [insertTy_ids, hids]
      refine (insertId_asc hr.desc.wf.ids_sorted (fun hx => hc (hid.mp hx))).congr ?_
      intro i
      unfold AddedIds
      rw [hr.desc.ids_eq, List.mem_map]
    have hint : c ∉ ct.cts → ct.cts.length ≤ 12 → Interned r.archetypes (insertTy c ct.cts) (plainId env (tyIds (insertTy c ct.cts)))
        (r.archetypes.findOrCreateAdding env (en.archetypeIndex env) c.descriptor) := by
      intro hc hl
      have hrel : ArchRel W r.archetypes r.archetypes.keysOf := ⟨⟨cs, h.inv.arch⟩, rfl⟩
      have := hrel.adding (src := en.archetypeIndex env) (c := c) ⟨hW, fun k hk' _ => by
        rw [hkey] at hk'; cases hk'
        simp only []
        rw [← hids, ← insertTy_ids]
        exact hu (h.inv.live_iff.mpr ⟨_, hlook⟩) _ ((hasc hc).congr hadd)⟩
      have hlt := (List.getElem?_eq_some_iff.mp hkey).1
      unfold ArchCall.ref at this
      dsimp only at this
      rw [if_neg (by omega), hkey] at this
      simp only [] at this
      rw [if_neg (by rw [hid, hidl]; rintro (hb | hb); exact hc hb; omega), if_neg (by omega), ← hids, ← insertTy_ids] at this
      obtain ⟨x, x1, x2, x3, _⟩ := this
      unfold ArchCall.run at x1
      dsimp only at x1
      cases hf : r.archetypes.findOrCreateAdding env (en.archetypeIndex env) c.descriptor with
      | error f => rw [hf] at x1; cases x1
      | ok y =>
        rw [hf] at x1; cases x1
        exact ⟨y, rfl, x3.2.symm, x2⟩
    have hcid : ct.cts.length ≤ 12 → changedId env (insertTy c ct.cts) = plainId env (tyIds (insertTy c ct.cts)) := by
      intro hl
      have := (insertTy_perm c ct.cts).length_eq
      rw [List.length_cons] at this
      exact changedId_eq env (by omega) (by omega)
    have hle := hr.desc.le
    rcases h.inv.addComponent_spec hx hct hW hv (fun _ _ s hs =>
      hu (h.inv.live_iff.mpr ⟨_, hlook⟩) s (hs.congr hadd)) with ⟨h1, h2, h3⟩ | ⟨h1, h2, h3, _⟩ | ⟨h1, h2, h3, _, _, _, _, _, _, h4⟩ | ⟨h1, h2, _, r', cs', h3, h4, _, h5⟩
    · rw [h1]
      by_cases hb : c ∈ ct.cts ∨ ct.cts.length = 14
      · rw [if_pos hb]
        exact ⟨r, cs, rfl, h⟩
      · rw [if_neg hb]
        rcases h2 with h2 | h2 | ⟨h2, _⟩
        · exact absurd (Or.inl h2) hb
        · exact absurd (Or.inr h2) hb
        · rw [if_neg (by omega), hcid h2]
          have := h.intern_none (hint (fun hc => hb (Or.inl hc)) h2) h3
          generalize internTable R.tables (insertTy c ct.cts) (plainId env (tyIds (insertTy c ct.cts))) = y at this
          obtain ⟨y1, y2⟩ := y
          cases this
          exact ⟨r, cs, rfl, h⟩
    · rw [if_neg (by rintro (hb | hb); exact h2 hb; omega), if_pos h3, h1]; rfl
    · obtain ⟨ts, d, m1, m2⟩ := h.full h4 hhas (hint h2 h3)
      rw [if_neg (by rintro (hb | hb); exact h2 hb; omega), if_neg (by omega), hcid h3, m1]
      simp only []
      rw [if_neg m2, h1]; rfl
    · obtain ⟨ts, d, m1, m2, m3⟩ := h.moved hct hkl hr h5 hhas (hasc h1).1 hP (hint h1 h2) h4.inv h4.table
      rw [if_neg (by rintro (hb | hb); exact h1 hb; omega), if_neg (by omega), hcid h2, m1]
      simp only []
      rw [if_pos m2, h3]
      simp only [hr.valOf_row hkl]
      exact ⟨r', cs', rfl, m3⟩

theorem remove (h : RRel W r cs R) {e : Entity} {c : CompTy} (hadm : (Call.remove e c).Admissible W r) :
    Agree W r (.remove e c) (R.step env (.remove e c)) := by
  obtain ⟨hW, hu⟩ := hadm
  unfold Agree
  simp only [RReg.step, Call.run]
  cases hx : r.entities.entityEntry env e with
  | none =>
    rw [h.find_dead hx, removeComponent_dead hx]
    exact ⟨r, cs, rfl, h⟩
  | some en =>
    obtain ⟨a, ct, ha, hct, hr, hk, hloc, hlook⟩ := h.inv.entry hx
    have hkl := (List.getElem?_eq_some_iff.mp hk).1
    have hmem : ∀ c', ((fun c => ct.get c en.indexInArchetype.value.toNat) c').isSome ↔ c' ∈ ct.cts := by
      intro c'
      constructor
      · intro hs
        obtain ⟨w, hw⟩ := Option.isSome_iff_exists.mp hs
        exact (hr.mem_of_get hw).1
      · intro hcc
        obtain ⟨w, hw, _⟩ := hr.get_some hcc hkl
        simp only [hw, Option.isSome_some]
    have hrem : ∀ i, RemovedIds ct.cts c i ↔ (i ≠ c.id ∧ HasId W r e i) := by
      intro i
      unfold RemovedIds
      rw [h.inv.hasId_iff hlook]
      constructor
      · rintro ⟨c', h1, h2, rfl⟩
        refine ⟨fun hid => h2 (W.id_inj (hr.desc.has _ h1) hW hid), c', rfl, (hmem c').mpr h1⟩
      · rintro ⟨h1, c', rfl, h2⟩
        exact ⟨c', (hmem c').mp h2, fun hc => h1 (congrArg _ hc), rfl⟩
    have huse : 2 ≤ ct.cts.length → ∀ s, AscSet s (RemovedIds ct.cts c) → W.Used s := by
      intro h2 s hs
      refine hu (h.inv.live_iff.mpr ⟨_, hlook⟩) s ?_ (hs.congr hrem)
      intro hnil
      obtain ⟨c', m1, m2⟩ := exists_ne_of_two hr.nodup h2 c
      have := (hs.2 c'.id).mpr ⟨c', m1, m2, rfl⟩
      rw [hnil] at this
      cases this
    rw [h.find_live hloc hct ha]
    simp only []
    have hid : c.id ∈ a.descriptor.ids ↔ c ∈ ct.cts := hr.desc.id_mem hW
    have hkey : r.archetypes.keysOf[(en.archetypeIndex env).toNat]? = some (a.descriptor.ids, a.descriptor.archetypeId) := by
      unfold ArchetypeRegistry.keysOf
      rw [List.getElem?_map, ha]; rfl
    have hids : tyIds ct.cts = a.descriptor.ids := hr.desc.ids_eq.symm
    have hidl : a.descriptor.ids.length = ct.cts.length := by rw [← hids]; simp [tyIds]
    have hhas : ∀ c' ∈ ct.cts.erase c, W.Has c' := fun c' hc' => hr.desc.has c' (List.mem_of_mem_erase hc')
    have hP : ∀ c', c' ∈ ct.cts.erase c ↔ (c' ≠ c ∧ c' ∈ ct.cts) := by
      intro c'
      have hn : ct.cts.Nodup := hr.nodup
      exact hn.mem_erase_iff
    have hasc : AscSet (tyIds (ct.cts.erase c)) (RemovedIds ct.cts c) := by
      rw [erase_ids hW hr.desc.has, hids]
      refine (erase_asc hr.desc.wf.ids_sorted).congr ?_
      intro i
      unfold RemovedIds
      rw [hr.desc.ids_eq, List.mem_map]
      constructor
      · rintro ⟨h1, c', h2, rfl⟩
        exact ⟨c', h2, fun hc => h1 (congrArg _ hc), rfl⟩
      · rintro ⟨c', h1, h2, rfl⟩
        exact ⟨fun hid => h2 (W.id_inj (hr.desc.has _ h1) hW hid), c', h1, rfl⟩
    have hint : c ∈ ct.cts → 2 ≤ ct.cts.length → ct.cts.length ≤ 13 →
        Interned r.archetypes (ct.cts.erase c) (plainId env (tyIds (ct.cts.erase c)))
        (r.archetypes.findOrCreateRemoving env (en.archetypeIndex env) c.descriptor) := by
      intro hc hl hl'
      have hrel : ArchRel W r.archetypes r.archetypes.keysOf := ⟨⟨cs, h.inv.arch⟩, rfl⟩
      have := hrel.removing (src := en.archetypeIndex env) (c := c) ⟨hW, fun k hk' _ _ => by
        rw [hkey] at hk'; cases hk'
        simp only []
        rw [← hids, ← erase_ids hW hr.desc.has]
        exact huse hl _ hasc⟩
      have hlt := (List.getElem?_eq_some_iff.mp hkey).1
      unfold ArchCall.ref at this
      dsimp only at this
      rw [if_neg (by omega), hkey] at this
      simp only [] at this
      rw [if_neg (by rw [hid, hidl]; simp only [hc, not_true_eq_false, false_or]; omega), if_neg (by omega), ← hids, ← erase_ids hW hr.desc.has] at this
      obtain ⟨x, x1, x2, x3, _⟩ := this
      unfold ArchCall.run at x1
      dsimp only at x1
      cases hf : r.archetypes.findOrCreateRemoving env (en.archetypeIndex env) c.descriptor with
      | error f => rw [hf] at x1; cases x1
      | ok y =>
        rw [hf] at x1; cases x1
        exact ⟨y, rfl, x3.2.symm, x2⟩
    have hcid : c ∈ ct.cts → 2 ≤ ct.cts.length → ct.cts.length ≤ 13 →
        changedId env (ct.cts.erase c) = plainId env (tyIds (ct.cts.erase c)) := by
      intro hc _ _
      have := List.length_erase_of_mem hc
      exact changedId_eq env (by omega) (by omega)
    have hle := hr.desc.le
    have hpos := hr.desc.pos
    rcases h.inv.removeComponent_spec hx hct hW (fun _ h2 _ s hs => huse h2 s hs) with ⟨h1, h2, h3⟩ | ⟨h1, h2, h3, _⟩ | ⟨h1, h2, h3, h33, _, _, _, _, _, _, h4⟩ | ⟨h1, h2, h22, _, r', cs', v, hv, h3, h4, _, h5⟩
    · rw [h1]
      by_cases hb : c ∉ ct.cts ∨ ct.cts.length = 1
      · rw [if_pos hb]
        exact ⟨r, cs, rfl, h⟩
      · rw [if_neg hb]
        rcases h2 with h2 | h2 | ⟨h2, h22, _⟩
        · exact absurd (Or.inl h2) hb
        · exact absurd (Or.inr h2) hb
        · have hc : c ∈ ct.cts := Classical.byContradiction (fun hc => hb (Or.inl hc))
          rw [if_neg (by omega), hcid hc h2 h22]
          have := h.intern_none (hint (Classical.byContradiction (fun hc => hb (Or.inl hc))) h2 h22) h3
          generalize internTable R.tables (ct.cts.erase c) (plainId env (tyIds (ct.cts.erase c))) = y at this
          obtain ⟨y1, y2⟩ := y
          cases this
          exact ⟨r, cs, rfl, h⟩
    · rw [if_neg (by rintro (hb | hb); exact hb h2; omega), if_pos h3, h1]; rfl
    · obtain ⟨ts, d, m1, m2⟩ := h.full h4 hhas (hint h2 h3 h33)
      rw [if_neg (by rintro (hb | hb); exact hb h2; omega), if_neg (by omega), hcid h2 h3 h33, m1]
      simp only []
      rw [if_neg m2, h1]; rfl
    · obtain ⟨ts, d, m1, m2, m3⟩ := h.moved hct hkl hr h5 hhas hasc.1 hP (hint h1 h2 h22) h4.inv h4.table
      rw [if_neg (by rintro (hb | hb); exact hb h1; omega), if_neg (by omega), hcid h1 h2 h22, m1]
      simp only []
      rw [if_pos m2, h3]
      simp only [hr.valOf_row hkl, hv]
      exact ⟨r', cs', rfl, m3⟩

end RRel

end Shard
