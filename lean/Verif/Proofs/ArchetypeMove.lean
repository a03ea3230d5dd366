import Verif.Proofs.ArchetypeRead
/-!
# The archetype: moving a row to another archetype, and dropping the archetype
-/

namespace Shard

open Archetype

variable {env : Env} {W : World env}

/-- The destination columns while a row is being copied: the columns of the types in `done` already have the value. -/
def copied (done : List CompTy) (ctS : Content) (k : Nat) (cts : List CompTy) (cols : List (List Val)) : List (List Val) :=
  List.zipWith (fun c col => if c ∈ done then col ++ [(ctS.get c k).getD default] else col) cts cols

theorem copied_length {done : List CompTy} {ctS : Content} {k : Nat} {cts : List CompTy} {cols : List (List Val)}
    (h : cols.length = cts.length) : (copied done ctS k cts cols).length = cts.length := by
  simp [copied, h]

theorem copied_getElem? {done : List CompTy} {ctS : Content} {k : Nat} {cts : List CompTy} {cols : List (List Val)}
    {i : Nat} {c : CompTy} {vs vs' : List Val} (hc : cts[i]? = some c) (hv : cols[i]? = some vs)
    (h : (copied done ctS k cts cols)[i]? = some vs') :
    vs' = if c ∈ done then vs ++ [(ctS.get c k).getD default] else vs := by
  unfold copied at h
  rw [List.getElem?_zipWith, hc, hv] at h
  exact (Option.some.inj h).symm

theorem set_same {α : Type} {l : List α} {i : Nat} {x : α} (h : l[i]? = some x) : l.set i x = l := by
  apply List.ext_getElem?
  intro k
  rw [List.getElem?_set]
  split
  · next he => subst he; rw [if_pos (List.getElem?_eq_some_iff.mp h).1, h]
  · rfl

theorem mem_take_succ {α : Type} {l : List α} {i : Nat} {x y : α} (h : l[i]? = some x) :
    y ∈ l.take (i + 1) ↔ y ∈ l.take i ∨ y = x := by
  rw [List.take_add_one, h]
  simp

theorem nodup_not_mem_take {α : Type} {l : List α} (hn : l.Nodup) {i : Nat} {x : α} (h : l[i]? = some x) : x ∉ l.take i := by
  intro hm
  obtain ⟨j, hj, he⟩ := List.mem_iff_getElem.mp hm
  rw [List.length_take] at hj
  rw [List.getElem_take] at he
  obtain ⟨hi, hie⟩ := List.getElem?_eq_some_iff.mp h
  have := List.pairwise_iff_getElem.mp hn j i (by omega) hi (by omega)
  exact this (by rw [he, hie])

/-- `copy_common_components_between_archetypes_unchecked`. -/
theorem Rep.copyCommon_spec {src dst : Archetype} {ctS : Content} (hS : Rep W src ctS) {k : Nat}
    (hk : k < ctS.ents.length) {cts : List CompTy} {cap n : Nat} {cols : List (List Val)}
    (hd : DescOK W dst.descriptor cts) (hD : Cols cts cap dst.pointers cols)
    (hn : ∀ (i : Nat) (col : List Val), cols[i]? = some col → col.length = n) (hlt : n < cap) :
    ∃ ptrs, copyCommonComponents src k dst n = .ok { dst with pointers := ptrs } ∧
      Cols cts cap ptrs (copied ctS.cts ctS k cts cols) := by
  unfold copyCommonComponents
  obtain ⟨ptrs, hp1, hp2⟩ := forRange_inv
    (f := fun si ptrs => do
      let sc ← index src.descriptor.components si
      copyCommonInner src k dst n si sc ptrs)
    (fun si ptrs => Cols cts cap ptrs (copied (ctS.cts.take si) ctS k cts cols)) ctS.cts.length 0 dst.pointers (by
      have : copied (ctS.cts.take 0) ctS k cts cols = cols := by
        unfold copied
        apply List.ext_getElem?
        intro i
        rw [List.getElem?_zipWith]
        by_cases hi : i < cts.length
        · rw [List.getElem?_eq_getElem hi, List.getElem?_eq_getElem (show i < cols.length by rw [hD.cols_len]; exact hi)]
          simp
        · rw [List.getElem?_eq_none (by omega), List.getElem?_eq_none (by rw [hD.cols_len]; omega)]
      rw [this]; exact hD) (by
      intro si ptrs _ hsi hI
      have hsi' : si < ctS.cts.length := by omega
      have hsc := List.getElem?_eq_getElem hsi'
      have hWs := hS.desc.world_of hsc
      rw [hS.desc.index_comp hsc]
      simp only [ok_bind]
      unfold copyCommonInner
      rw [hd.clen]
      generalize ctS.cts[si] = sc at *
      obtain ⟨svs, sb, s1, s2, s3, s4⟩ := hS.column hsc
      have hget : ctS.get sc k = some (svs[k]'(by omega)) := by
        unfold Content.get
        rw [hS.lookupTy_eq hsc s1]
        simp [s4, hk]
      obtain ⟨t1, t2, t3⟩ := s3.cells k _ (List.getElem?_eq_getElem (show k < svs.length by omega))
      apply hI.loop
      · exact copied_length hD.cols_len
      · intro di c vs vs' hc hvs hvs' ptrs' b hpl hpb hok
        have hWc := hd.world_of hc
        have hdi : di < cols.length := by rw [hD.cols_len]; exact (List.getElem?_eq_some_iff.mp hc).1
        have hcol := List.getElem?_eq_getElem hdi
        have e1 := copied_getElem? hc hcol hvs
        have e2 := copied_getElem? hc hcol hvs'
        rw [hd.index_comp hc]
        simp only [ok_bind]
        have hscid : sc.descriptor.id = sc.id := rfl
        have hcid : c.descriptor.id = c.id := rfl
        rw [hscid, hcid]
        by_cases hcc : c = sc
        · subst hcc
          rw [if_neg (by simp)]
          rw [if_neg (nodup_not_mem_take hS.nodup hsc)] at e1
          rw [if_pos ((mem_take_succ hsc).mpr (Or.inr rfl)), hget] at e2
          subst e1
          have hvl := hn di _ hcol
          obtain ⟨b', hb', hok'⟩ := hok.append (by omega) t1 t2
          refine ⟨b', ?_, by rw [e2]; exact hok'⟩
          rw [index_of_getElem? s2, index_of_getElem? hpb]
          simp only [ok_bind, W.desc_size hWc]
          rw [readBytes_cell (s3.bound (by have := s3.len; omega)), t3]
          simp only [ok_bind]
          rw [← hvl, hb']
          simp only [ok_bind]
          rw [setIndex_lt (List.getElem?_eq_some_iff.mp hpb).1]
        · rw [if_pos (by intro he; exact hcc (W.id_inj hWs hWc he).symm)]
          have : (c ∈ ctS.cts.take (si + 1)) ↔ c ∈ ctS.cts.take si := by
            rw [mem_take_succ hsc]; simp [hcc]
          simp only [this] at e2
          rw [← e1] at e2
          subst e2
          refine ⟨b, ?_, hok⟩
          rw [set_same hpb]
          rfl)
  rw [hS.desc.clen, hp1]
  refine ⟨ptrs, rfl, ?_⟩
  rw [Nat.zero_add, List.take_length] at hp2
  exact hp2

theorem lookupTy_mapFn {cts : List CompTy} (f : CompTy → Val) (c : CompTy) :
    lookupTy cts (cts.map f) c = if c ∈ cts then some (f c) else none := by
  induction cts with
  | nil => simp [lookupTy]
  | cons d cs ih =>
    simp only [List.map_cons, lookupTy]
    by_cases h : d = c
    · subst h; simp
    · rw [if_neg h, ih]
      simp [Ne.symm h]

theorem Rep.pushUninit_spec {dst : Archetype} {ctD : Content} (hD : Rep W dst ctD) (hlt : ctD.ents.length < 8388608) :
    ∃ d1, dst.pushUninitializedEntity env = .ok ({ d1 with entityCount := d1.entityCount + 1 }, ctD.ents.length) ∧
      Rep W d1 ctD ∧ d1.descriptor = dst.descriptor ∧ ctD.ents.length < d1.capacity ∧
      d1.capacity = (if ctD.ents.length = dst.capacity then 2 * dst.capacity else dst.capacity) := by
  obtain ⟨d1, h1, h2, h3, h4, h5⟩ := hD.resizeIfNecessary_spec hlt
  refine ⟨d1, ?_, h2, h3, h4, h5⟩
  unfold pushUninitializedEntity
  rw [h1]
  simp only [ok_bind, pure_eq_ok]
  rw [h2.count]

/-- The destination side of `remove_component`. -/
theorem Rep.moveRemove_spec {src dst : Archetype} {ctS ctD : Content} (hD : Rep W dst ctD) (hS : Rep W src ctS) {k : Nat}
    (hk : k < ctS.ents.length) (hlt : ctD.ents.length < 8388608) (hsub : ∀ c ∈ ctD.cts, c ∈ ctS.cts) (e : Entity) :
    ∃ d1 d2 d4, dst.pushUninitializedEntity env = .ok (d1, ctD.ents.length) ∧ d1.entityCount = ctD.ents.length + 1 ∧
      copyCommonComponents src k d1 ctD.ents.length = .ok d2 ∧ d2.setEntityAt ctD.ents.length e = .ok d4 ∧
      d4.descriptor = dst.descriptor ∧
      d4.capacity = (if ctD.ents.length = dst.capacity then 2 * dst.capacity else dst.capacity) ∧
      Rep W d4 (ctD.push e (ctD.cts.map (fun c => (ctS.get c k).getD default))) := by
  obtain ⟨d1, h1, h2, h3, h4, h5⟩ := hD.pushUninit_spec hlt
  obtain ⟨ptrs, hp1, hp2⟩ := hS.copyCommon_spec hk (dst := { d1 with entityCount := d1.entityCount + 1 }) h2.desc h2.cols
    h2.lens h4
  have hc : copied ctS.cts ctS k ctD.cts ctD.cols =
      List.zipWith (fun col v => col ++ [v]) ctD.cols (ctD.cts.map (fun c => (ctS.get c k).getD default)) := by
    unfold copied
    apply List.ext_getElem?
    intro i
    rw [List.getElem?_zipWith, List.getElem?_zipWith, List.getElem?_map]
    by_cases hi : i < ctD.cts.length
    · rw [List.getElem?_eq_getElem hi, List.getElem?_eq_getElem (show i < ctD.cols.length by rw [hD.cols.cols_len]; exact hi)]
      simp only [Option.map_some, if_pos (hsub _ (List.getElem_mem hi))]
    · rw [List.getElem?_eq_none (l := ctD.cts) (by omega), List.getElem?_eq_none (l := ctD.cols) (by rw [hD.cols.cols_len]; omega)]
  rw [hc] at hp2
  obtain ⟨d4, q1, q2, q3, q4⟩ := h2.setEntity_new e h4 hp2 (by
    intro i col hcol
    rw [List.getElem?_zipWith, List.getElem?_map] at hcol
    cases hx : ctD.cols[i]? with
    | none => rw [hx] at hcol; simp at hcol
    | some vs =>
      rw [hx] at hcol
      cases hy : ctD.cts[i]? with
      | none => rw [hy] at hcol; simp at hcol
      | some c =>
        rw [hy] at hcol
        cases hcol
        simp [h2.lens i vs hx])
  exact ⟨_, _, d4, h1, by simp [h2.count], hp1, q1, q2.trans h3, q3.trans h5, q4⟩

/-- The destination side of `add_component`. -/
theorem Rep.moveAdd_spec {src dst : Archetype} {ctS ctD : Content} (hD : Rep W dst ctD) (hS : Rep W src ctS) {k : Nat}
    (hk : k < ctS.ents.length) (hlt : ctD.ents.length < 8388608) {c : CompTy} (hc : c ∈ ctD.cts) (hcS : c ∉ ctS.cts)
    (hsub : ∀ c' ∈ ctD.cts, c' ≠ c → c' ∈ ctS.cts) {v : Val} (hv : v.HasTy c) (e : Entity) :
    ∃ d1 d2 d3 d4, dst.pushUninitializedEntity env = .ok (d1, ctD.ents.length) ∧ d1.entityCount = ctD.ents.length + 1 ∧
      copyCommonComponents src k d1 ctD.ents.length = .ok d2 ∧
      d2.writeSingleComponentUnchecked c ctD.ents.length v = .ok d3 ∧ d3.setEntityAt ctD.ents.length e = .ok d4 ∧
      d4.descriptor = dst.descriptor ∧
      d4.capacity = (if ctD.ents.length = dst.capacity then 2 * dst.capacity else dst.capacity) ∧
      Rep W d4 (ctD.push e (ctD.cts.map (fun c' => if c' = c then v else (ctS.get c' k).getD default))) := by
  obtain ⟨d1, h1, h2, h3, h4, h5⟩ := hD.pushUninit_spec hlt
  obtain ⟨ptrs, hp1, hp2⟩ := hS.copyCommon_spec hk (dst := { d1 with entityCount := d1.entityCount + 1 }) h2.desc h2.cols
    h2.lens h4
  -- the column of `c`
  have hci := idxOf_getElem? hc
  have hil := (List.getElem?_eq_some_iff.mp hci).1
  have hcol := List.getElem?_eq_getElem (show ctD.cts.idxOf c < ctD.cols.length by rw [hD.cols.cols_len]; exact hil)
  have hcl := copied_length (done := ctS.cts) (ctS := ctS) (k := k) hD.cols.cols_len
  have hce := List.getElem?_eq_getElem (show ctD.cts.idxOf c < (copied ctS.cts ctS k ctD.cts ctD.cols).length by
    rw [hcl]; exact hil)
  have hce2 := copied_getElem? hci hcol hce
  rw [if_neg hcS] at hce2
  rw [hce2] at hce
  obtain ⟨b, hb, hok⟩ := hp2.col _ c _ hci hce
  have hvl := hD.lens _ _ hcol
  obtain ⟨b', hb', hok'⟩ := hok.append (v := v) (by rw [hvl]; exact h4) hv.1 hv.2
  rw [hvl] at hb'
  have hcols3 : Cols ctD.cts d1.capacity (ptrs.set (ctD.cts.idxOf c) (some b'))
      (List.zipWith (fun col v => col ++ [v]) ctD.cols
        (ctD.cts.map (fun c' => if c' = c then v else (ctS.get c' k).getD default))) := by
    refine ⟨by rw [List.length_set]; exact hp2.ptrs_len, hp2.cts_le, by simp [hD.cols.cols_len], ?_,
      fun i h6 h7 => by rw [List.getElem?_set_ne (by omega)]; exact hp2.rest i h6 h7⟩
    intro i c' vs hc' hvs
    have hi := (List.getElem?_eq_some_iff.mp hc').1
    have hcol' := List.getElem?_eq_getElem (show i < ctD.cols.length by rw [hD.cols.cols_len]; exact hi)
    rw [List.getElem?_zipWith, List.getElem?_map, hc', hcol'] at hvs
    simp only [Option.map_some, Option.some.injEq] at hvs
    subst hvs
    by_cases hcc : c' = c
    · subst hcc
      have : i = ctD.cts.idxOf c' := h2.desc.id_inj hc' hci rfl
      subst this
      refine ⟨b', List.getElem?_set_self (by rw [hp2.ptrs_len]; have := hp2.cts_le; omega), ?_⟩
      rw [if_pos rfl]; exact hok'
    · have hne : ctD.cts.idxOf c ≠ i := by
        intro he
        rw [he, hc'] at hci
        exact hcc (Option.some.inj hci)
      have hx := List.getElem?_eq_getElem (show i < (copied ctS.cts ctS k ctD.cts ctD.cols).length by rw [hcl]; exact hi)
      have hx2 := copied_getElem? hc' hcol' hx
      rw [if_pos (hsub c' (List.mem_of_getElem? hc') hcc)] at hx2
      rw [hx2] at hx
      obtain ⟨b2, hb2, hok2⟩ := hp2.col i c' _ hc' hx
      refine ⟨b2, by rw [List.getElem?_set_ne hne]; exact hb2, ?_⟩
      rw [if_neg hcc]; exact hok2
  obtain ⟨d4, q1, q2, q3, q4⟩ := h2.setEntity_new e h4 hcols3 (by
    intro i col hcol
    rw [List.getElem?_zipWith, List.getElem?_map] at hcol
    cases hx : ctD.cols[i]? with
    | none => rw [hx] at hcol; simp at hcol
    | some vs =>
      rw [hx] at hcol
      cases hy : ctD.cts[i]? with
      | none => rw [hy] at hcol; simp at hcol
      | some c =>
        rw [hy] at hcol
        cases hcol
        simp [h2.lens i vs hx])
  refine ⟨_, _, _, d4, h1, by simp [h2.count], hp1, ?_, q1, q2.trans h3, q3.trans h5, q4⟩
  unfold writeSingleComponentUnchecked componentRef
  simp only []
  rw [h2.desc.search hci]
  simp only [ok_bind]
  unfold writeRef
  simp only []
  rw [index_of_getElem? hb]
  simp only [ok_bind]
  rw [hok.aligned]
  simp only [ok_bind]
  rw [hb']
  rfl

/-! ## Dropping an archetype -/

theorem deallocLoop_ok {a : Archetype} {ct : Content} (h : Rep W a ct) : ∀ (n i : Nat) (ptrs : List (Option Block)),
    i + n = ct.cts.length → ptrs.length = 14 → (∀ j, i ≤ j → ptrs[j]? = a.pointers[j]?) →
    (∀ j, j < i → ptrs[j]? = some none) → ∃ ptrs', a.deallocLoop n i ptrs = .ok (ptrs', false) ∧ ∀ p ∈ ptrs', p = none
  | 0, i, ptrs, hin, hlen, hp, hd => by
    refine ⟨ptrs, rfl, fun p hm => ?_⟩
    obtain ⟨j, hj⟩ := List.mem_iff_getElem?.mp hm
    have hjl := (List.getElem?_eq_some_iff.mp hj).1
    have : ptrs[j]? = some none := by
      by_cases hlt : j < i
      · exact hd j hlt
      · rw [hp j (by omega)]
        exact h.cols.rest j (by omega) (by omega)
    rw [hj] at this
    exact Option.some.inj this
  | n + 1, i, ptrs, hin, hlen, hp, hdone => by
    have hc := List.getElem?_eq_getElem (show i < ct.cts.length by omega)
    obtain ⟨vs, b, h1, h2, h3, h4⟩ := h.column hc
    have hW := h.desc.world_of hc
    have hle := h.cols.cts_le
    unfold Archetype.deallocLoop
    rw [index_of_getElem? (by rw [hp i (Nat.le_refl _), h2]), h.desc.index_comp hc]
    simp only [ok_bind, W.desc_size hW, W.desc_align hW]
    have hd : deallocBlock (some b) (ct.cts[i].size * a.capacity) ct.cts[i].align = .ok () := by
      unfold deallocBlock
      simp only []
      rw [if_neg (by rw [h3.size, h3.align]; simp)]
    rw [hd]
    simp only [ok_bind]
    refine deallocLoop_ok h n (i + 1) _ (by omega) (by rw [List.length_set]; exact hlen) ?_ ?_
    · intro j hj
      rw [List.getElem?_set_ne (by omega)]
      exact hp j (by omega)
    · intro j hj
      by_cases hji : j = i
      · subst hji
        exact List.getElem?_set_self (by omega)
      · rw [List.getElem?_set_ne (by omega)]
        exact hdone j (by omega)

/-- Dropping an archetype drops exactly its values, each once, and frees its memory with the right layouts. -/
theorem Rep.drop_spec {a : Archetype} {ct : Content} (h : Rep W a ct) :
    ∃ a', a.drop = .ok (ct.cols.flatten, a') ∧ (∀ p ∈ a'.pointers, p = none) ∧ a'.entityAssociations = none ∧
      a'.capacity = 0 ∧ a'.descriptor = a.descriptor := by
  have hpos := h.cap.pos
  unfold Archetype.drop
  rw [if_neg (by omega), h.dropEntities_spec]
  simp only [ok_bind]
  obtain ⟨ptrs, hp, hn⟩ := deallocLoop_ok h ct.cts.length 0 a.pointers (by omega) h.cols.ptrs_len (by intros; rfl)
    (by intros; omega)
  obtain ⟨l, hl, hll, _⟩ := h.ents.arr
  unfold Archetype.dealloc
  rw [← h.desc.length, hp]
  simp only [ok_bind, Bool.false_eq_true, if_false, hl]
  rw [if_neg (by simp [hll])]
  exact ⟨_, rfl, hn, rfl, rfl, rfl⟩

end Shard
