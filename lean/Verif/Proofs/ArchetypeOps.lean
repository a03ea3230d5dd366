import Verif.Proofs.Archetype
/-!
# The archetype: specifications of the operations that change it
-/

namespace Shard

theorem World.align_ok {env : Env} (W : World env) {c : CompTy} (h : W.Has c) : powerOfTwo c.align = true :=
  powerOfTwo_iff.2 ⟨W.align_lt h, W.align_pow h⟩

open Archetype

variable {env : Env} {W : World env} {a : Archetype} {ct : Content}

theorem DescOK.world_of {d : ArchetypeDescriptor} {cts : List CompTy} (h : DescOK W d cts) {i : Nat} {c : CompTy}
    (hc : cts[i]? = some c) : W.Has c := h.has c (List.mem_of_getElem? hc)

/-! ## Creation -/

theorem withCapacity_spec {d : ArchetypeDescriptor} {cts : List CompTy} (h : DescOK W d cts) {cap : Nat}
    (hc : CapOK cap) :
    ∃ a, withCapacity env d cap = .ok a ∧ a.descriptor = d ∧ a.capacity = cap ∧ Rep W a (Content.empty cts) := by
  have hpos := hc.pos
  have hle := hc.le
  have hM : MAX_ENTITIES_PER_ARCHETYPE = 16777215 := rfl
  have h14 : MAX_COMPONENTS_PER_ENTITY = 14 := rfl
  obtain ⟨ptrs, h1, h2, h3, h4⟩ := ptrLoop (n := cts.length)
    (f := fun i ptrs => do
      let c ← index d.components i
      let b ← allocBlock env (c.size * cap) c.align
      setIndex ptrs i (some b))
    (ptrs := List.replicate MAX_COMPONENTS_PER_ENTITY none)
    (P := fun _ _ => True)
    (Q := fun i p => ∃ b c, p = some b ∧ cts[i]? = some c ∧ ColOK c cap b [])
    (by have := h.le; rw [List.length_replicate, h14]; exact this)
    (by
      intro i hi
      have := h.le
      exact ⟨none, by rw [List.getElem?_replicate, if_pos (by omega)], trivial⟩)
    (by
      intro i hi ptrs' p hl _ _
      have hci := List.getElem?_eq_getElem hi
      have hW := h.world_of hci
      refine ⟨⟨cts[i].align, List.replicate (cts[i].size * cap) none⟩, ?_, _, _, rfl, hci, colOK_alloc (W.mult hW)⟩
      rw [h.index_comp hci]
      simp only [ok_bind, W.desc_size hW, W.desc_align hW]
      rw [allocBlock_ok (W.align_ok hW) ((W.zst hW).imp (fun h => Nat.mul_pos h hpos) id)]
      simp only [ok_bind]
      rw [setIndex_lt (by rw [hl, List.length_replicate, h14]; have := h.le; omega)])
  refine ⟨⟨d, ptrs, some (List.replicate cap none), 0, cap⟩, ?_, rfl, rfl, ?_⟩
  · unfold withCapacity
    rw [ensure_true h.valid]
    simp only [ok_bind]
    rw [if_pos ⟨hpos, by omega⟩]
    unfold allocColumns
    rw [h.clen, h1]
    rfl
  · refine ⟨h, ⟨by rw [h2, List.length_replicate, h14], h.le, by simp [Content.empty], ?_,
      fun i h5 h6 => by rw [h4 i h5, List.getElem?_replicate, if_pos (by omega)]⟩, ?_, ?_, rfl, hc⟩
    · intro i c vs hci hvs
      obtain ⟨p, hp, b, c', rfl, hc', hok⟩ := h3 i (List.getElem?_eq_some_iff.mp hci).1
      have hci' : cts[i]? = some c := hci
      rw [hci'] at hc'; cases hc'
      have : vs = [] := by
        simp only [Content.empty, List.getElem?_map, Option.map_eq_some_iff] at hvs
        obtain ⟨_, _, h⟩ := hvs
        exact h.symm
      subst this
      exact ⟨b, hp, hok⟩
    · intro i col hcol
      simp only [Content.empty, List.getElem?_map, Option.map_eq_some_iff] at hcol
      obtain ⟨_, _, h⟩ := hcol
      rw [← h]; rfl
    · exact ⟨Nat.zero_le _, _, rfl, by simp, by intro k e h; simp [Content.empty] at h⟩

theorem new_spec {d : ArchetypeDescriptor} {cts : List CompTy} (h : DescOK W d cts) :
    ∃ a, Archetype.new env d = .ok a ∧ a.descriptor = d ∧ a.capacity = 128 ∧ Rep W a (Content.empty cts) := by
  obtain ⟨a, h1, h2⟩ := withCapacity_spec h CapOK.default
  refine ⟨a, ?_, h2⟩
  unfold Archetype.new
  rw [ensure_true h.valid]
  exact h1

/-! ## Growing -/

theorem EntsOK.grow {cap cap' : Nat} {l : List (Option Entity)} {es : List Entity} (h : EntsOK cap (some l) es)
    (hc : cap ≤ cap') : EntsOK cap' (some (l.take cap' ++ List.replicate (cap' - cap) none)) es := by
  obtain ⟨h1, l', hl, h2, h3⟩ := h
  cases hl
  refine ⟨by omega, _, rfl, ?_, ?_⟩
  · simp; omega
  · intro k e hk
    have := (List.getElem?_eq_some_iff.mp hk).1
    rw [List.getElem?_append_left (by rw [List.length_take]; omega), List.getElem?_take_of_lt (by omega)]
    exact h3 k e hk

theorem Rep.resizeIfNecessary_spec (h : Rep W a ct) (hlt : ct.ents.length < 8388608) :
    ∃ a', a.resizeIfNecessary env = .ok a' ∧ Rep W a' ct ∧ a'.descriptor = a.descriptor ∧
      ct.ents.length < a'.capacity ∧
      a'.capacity = (if ct.ents.length = a.capacity then 2 * a.capacity else a.capacity) := by
  have hle := h.ents.len
  have hpos := h.cap.pos
  have hcnt := h.count
  unfold Archetype.resizeIfNecessary Archetype.isFull
  by_cases hf : ct.ents.length = a.capacity
  · have hM : MAX_ENTITIES_PER_ARCHETYPE = 16777215 := rfl
    obtain ⟨hcap, hcap'⟩ := h.cap.double (by omega)
    rw [if_pos (by rw [hcnt, hf]; simp), if_neg (by omega)]
    unfold Archetype.resizeCapacity
    simp only []
    rw [if_neg (by omega)]
    obtain ⟨l, hl, hll, hle2⟩ := h.ents.arr
    rw [hl]
    simp only []
    rw [if_neg (by simp [hll])]
    have htn : ((a.capacity : Int) + (a.capacity : Int)).toNat = 2 * a.capacity := by omega
    rw [htn]
    obtain ⟨ptrs, hp1, hp2⟩ := h.cols.loop (cap' := 2 * a.capacity) (cols' := ct.cols)
      (f := fun i ptrs => do
        let p ← index ptrs i
        let c ← index a.descriptor.components i
        let b ← reallocBlock env p (c.size * a.capacity) c.align (c.size * (2 * a.capacity))
        setIndex ptrs i (some b)) h.cols.cols_len (by
        intro i c vs vs' hc hvs hvs' ptrs' b hpl hpb hok
        rw [hvs] at hvs'; cases hvs'
        have hW := h.desc.world_of hc
        obtain ⟨b', hb', hok'⟩ := hok.grow (env := env) (newCap := 2 * a.capacity) (by omega) (by omega) (W.zst hW)
        refine ⟨b', ?_, hok'⟩
        rw [index_of_getElem? hpb, h.desc.index_comp hc]
        simp only [ok_bind, W.desc_size hW, W.desc_align hW]
        rw [hb']
        simp only [ok_bind]
        rw [setIndex_lt (List.getElem?_eq_some_iff.mp hpb).1])
    unfold reallocColumns
    rw [← h.desc.length, hp1]
    refine ⟨_, rfl, ⟨h.desc, hp2, h.lens, ?_, h.count, hcap⟩, rfl, ?_, ?_⟩
    · exact (hl ▸ h.ents).grow (show a.capacity ≤ 2 * a.capacity by omega)
    · show ct.ents.length < 2 * a.capacity
      omega
    · rw [if_pos hf]
  · rw [if_neg (by rw [hcnt]; simpa using hf)]
    exact ⟨a, rfl, h, rfl, by omega, by rw [if_neg hf]⟩

/-! ## Pushing -/

theorem EntsOK.setIdx {cap : Nat} {l : List (Option Entity)} {es : List Entity} (h : EntsOK cap (some l) es) (e : Entity)
    (hlt : es.length < cap) : EntsOK cap (some (l.set es.length (some e))) (es ++ [e]) := by
  obtain ⟨h1, l', hl, h2, h3⟩ := h
  cases hl
  refine ⟨by simp; omega, _, rfl, by simp [h2], ?_⟩
  intro k x hk
  rw [List.getElem?_append] at hk
  split at hk
  · next hk' => rw [List.getElem?_set_ne (by omega)]; exact h3 k x hk
  · next hk' =>
    have hkk : k = es.length := by
      have := (List.getElem?_eq_some_iff.mp hk).1
      simp at this; omega
    subst hkk
    simp at hk
    rw [List.getElem?_set_self (by omega), hk]

/-- The pointers `as_sorted_pointers` delivers. -/
theorem asSortedPointers_spec {g : Group} (gs : GroupSpec env g) {vals : List Val} {j : Nat} (hj : j < g.length) :
    (asSortedPointers env g vals)[g.slot env j]? = some vals[j]? := by
  have h14 : MAX_COMPONENTS_PER_ENTITY = 14 := rfl
  have hsl : ∀ i, i < g.length → g.slot env i < 14 := by
    intro i hi
    have := gs.slot_lt hi
    rw [gs.components_length] at this
    have := gs.wf.le
    omega
  have key : ∀ n, n ≤ g.length →
      let r := (List.range n).foldl (fun ptrs i => ptrs.set (g.slot env i) vals[i]?)
        (List.replicate MAX_COMPONENTS_PER_ENTITY none)
      r.length = 14 ∧ ∀ i, i < n → r[g.slot env i]? = some vals[i]? := by
    intro n
    induction n with
    | zero => intro _; simp [h14]
    | succ n ih =>
      intro hn
      obtain ⟨h1, h2⟩ := ih (by omega)
      simp only [List.range_succ, List.foldl_append, List.foldl_cons, List.foldl_nil]
      refine ⟨by rw [List.length_set]; exact h1, ?_⟩
      intro i hi
      by_cases hin : i = n
      · subst hin
        rw [List.getElem?_set_self (by rw [h1]; exact hsl i (by omega))]
      · rw [List.getElem?_set_ne]
        · exact h2 i (by omega)
        · intro he
          exact hin (gs.slot_inj (by omega) (by omega) he).symm
  exact (key g.length (Nat.le_refl _)).2 j hj

theorem GroupSpec.slot_surj {g : Group} (gs : GroupSpec env g) {k : Nat} (hk : k < g.length) :
    ∃ j, j < g.length ∧ g.slot env j = k := by
  obtain ⟨h1, h2⟩ := gs.sortedToUnsorted hk
  refine ⟨_, h1, ?_⟩
  have h3 := gs.slot _ h1
  obtain ⟨q1, e1⟩ := List.getElem?_eq_some_iff.mp h2
  obtain ⟨q2, e2⟩ := List.getElem?_eq_some_iff.mp h3
  apply gs.desc.id_inj q2 q1
  rw [e1, e2]

theorem TypedVals.lookup {g : Group} {vals : List Val} (ht : TypedVals g vals) (hg : g.Nodup) {j : Nat} (hj : j < g.length) :
    ∃ v, vals[j]? = some v ∧ lookupTy g vals g[j] = some v ∧ v.HasTy g[j] := by
  have hj' : j < vals.length := by rw [ht.1]; exact hj
  have hv := List.getElem?_eq_getElem hj'
  exact ⟨_, hv, lookupTy_of_getElem? hg (List.getElem?_eq_getElem hj) hv, ht.2 j _ _ (List.getElem?_eq_getElem hj) hv⟩

theorem Group.WF.nodup' {g : Group} (h : g.WF) : g.Nodup := by
  have := h.nodup
  unfold List.Nodup at this ⊢
  rw [List.pairwise_map] at this
  exact this.imp (by intro a b hab he; exact hab (by rw [he]))

/-- The values of a tuple in column order. -/
def sortVals (cts : List CompTy) (g : Group) (vals : List Val) : List Val :=
  cts.map (fun c => (lookupTy g vals c).getD default)

theorem sortVals_length (cts : List CompTy) (g : Group) (vals : List Val) : (sortVals cts g vals).length = cts.length := by
  simp [sortVals]

/-- The component types of a group and those of its archetype. -/
theorem GroupSpec.cts_slot {g : Group} (gs : GroupSpec env g) (hg : W.OkGroup g) {k : Nat} {c : CompTy}
    (hc : (g.cts env)[k]? = some c) : ∃ j, ∃ hj : j < g.length, g.slot env j = k ∧ g[j] = c := by
  obtain ⟨hl, _, hs⟩ := Group.cts_perm gs hg.has
  have hk := (List.getElem?_eq_some_iff.mp hc).1
  obtain ⟨j, hj, he⟩ := gs.slot_surj (show k < g.length by omega)
  refine ⟨j, hj, he, ?_⟩
  have := hs j hj
  rw [he, hc] at this
  exact (Option.some.inj this).symm

theorem GroupSpec.mem_cts {g : Group} (gs : GroupSpec env g) (hg : W.OkGroup g) {c : CompTy} :
    c ∈ g.cts env ↔ c ∈ g := by
  constructor
  · intro h
    obtain ⟨k, hk, rfl⟩ := List.mem_iff_getElem.mp h
    obtain ⟨j, hj, _, he⟩ := gs.cts_slot hg (List.getElem?_eq_getElem hk)
    rw [← he]; exact List.getElem_mem hj
  · intro h
    obtain ⟨j, hj, rfl⟩ := List.mem_iff_getElem.mp h
    exact List.mem_of_getElem? ((Group.cts_perm gs hg.has).2.2 j hj)

theorem Rep.setEntity_new (h : Rep W a ct) (e : Entity) {ptrs : List (Option Block)} {cols' : List (List Val)}
    (hlt : ct.ents.length < a.capacity) (hcols : Cols ct.cts a.capacity ptrs cols')
    (hlens : ∀ (i : Nat) (col : List Val), cols'[i]? = some col → col.length = ct.ents.length + 1) :
    ∃ a', setEntityAt { a with pointers := ptrs, entityCount := a.entityCount + 1 } ct.ents.length e = .ok a' ∧
      a'.descriptor = a.descriptor ∧ a'.capacity = a.capacity ∧ Rep W a' ⟨ct.cts, ct.ents ++ [e], cols'⟩ := by
  obtain ⟨l, hl, hll, hl3⟩ := h.ents.arr
  have hcnt := h.count
  unfold setEntityAt
  rw [hl]
  simp only []
  rw [if_pos (by omega), if_pos (by omega)]
  refine ⟨_, rfl, rfl, rfl, h.desc, hcols, ?_, (hl ▸ h.ents).setIdx e hlt, ?_, h.cap⟩
  · intro i col hc; rw [hlens i col hc]; simp
  · simp [hcnt]

theorem Rep.push_spec (h : Rep W a ct) {g : Group} (hg : W.OkGroup g) (gs : GroupSpec env g)
    (hcts : ct.cts = g.cts env) (hid : (g.descriptor env).archetype.archetypeId = a.descriptor.archetypeId)
    (e : Entity) {vals : List Val} (ht : TypedVals g vals) (hlt : ct.ents.length < 8388608) :
    ∃ a', a.pushEntityUnchecked env e g vals = .ok (a', ct.ents.length) ∧ a'.descriptor = a.descriptor ∧
      a'.capacity = (if ct.ents.length = a.capacity then 2 * a.capacity else a.capacity) ∧
      Rep W a' (ct.push e (sortVals ct.cts g vals)) := by
  obtain ⟨a1, hr, h1, hd1, hlt1, hcap1⟩ := h.resizeIfNecessary_spec hlt
  have hgl : ct.cts.length = g.length := by rw [hcts]; exact (Group.cts_perm gs hg.has).1
  have hgd : (g.descriptor env).archetype.len = ct.cts.length := by rw [gs.len, hgl]
  have hcl := h1.cols.cols_len
  obtain ⟨ptrs, hp1, hp2⟩ := h1.cols.loop (cap' := a1.capacity)
    (cols' := List.zipWith (fun col v => col ++ [v]) ct.cols (sortVals ct.cts g vals))
    (f := fun i ptrs => do
      let c ← indexUnchecked (g.descriptor env).archetype.comps i
      let dst ← indexUnchecked ptrs i
      let src ← indexUnchecked (asSortedPointers env g vals) i
      let bs ← readStack src c.size
      let b ← writeBytes dst (c.size * ct.ents.length) bs
      setIndex ptrs i (some b)) (by rw [List.length_zipWith, sortVals_length]; omega) (by
      intro i c vs vs' hc hvs hvs' ptrs' b hpl hpb hok
      have hi := (List.getElem?_eq_some_iff.mp hc).1
      have hW := h1.desc.world_of hc
      obtain ⟨j, hj, hje, hjc⟩ := gs.cts_slot hg (by rw [← hcts]; exact hc)
      obtain ⟨v, hv, hlv, hty⟩ := ht.lookup gs.wf.nodup' hj
      subst hje
      have hsv : (sortVals ct.cts g vals)[g.slot env j]? = some v := by
        unfold sortVals
        rw [List.getElem?_map, hc]
        simp only [Option.map_some]
        rw [← hjc, hlv]; rfl
      have hvs2 : vs' = vs ++ [v] := by
        rw [List.getElem?_zipWith, hvs, hsv] at hvs'
        exact (Option.some.inj hvs').symm
      subst hvs2
      rw [hjc] at hty
      have hvl : vs.length = ct.ents.length := h1.lens _ vs hvs
      obtain ⟨b', hb', hok'⟩ := hok.append (by omega) hty.1 hty.2
      refine ⟨b', ?_, hok'⟩
      have hci : (g.descriptor env).archetype.comps[g.slot env j]? = some c.descriptor := by
        rw [gs.desc.comps_getElem? (by omega), gs.slot j hj, hjc]
      rw [indexUnchecked_of_getElem? hci, indexUnchecked_of_getElem? hpb,
        indexUnchecked_of_getElem? (asSortedPointers_spec gs hj), hv]
      simp only [ok_bind, W.desc_size hW]
      have hrs : readStack (some v) c.size = .ok v.encode := by
        unfold readStack
        simp only []
        rw [if_pos (by rw [hty.2]; exact Nat.le_refl _), List.take_of_length_le (by rw [v.encode_length, hty.2]; exact Nat.le_refl _)]
      rw [hrs]
      simp only [ok_bind]
      rw [← hvl, hb']
      simp only [ok_bind]
      rw [setIndex_lt (List.getElem?_eq_some_iff.mp hpb).1])
  obtain ⟨a2, hs1, hs2, hs3, hs4⟩ := h1.setEntity_new e hlt1 hp2 (by
    intro i col hcol
    rw [List.getElem?_zipWith] at hcol
    cases hx : ct.cols[i]? with
    | none => rw [hx] at hcol; cases hcol
    | some vs =>
      rw [hx] at hcol
      cases hy : (sortVals ct.cts g vals)[i]? with
      | none => rw [hy] at hcol; cases hcol
      | some v =>
        rw [hy] at hcol
        cases hcol
        simp [h1.lens i vs hx])
  refine ⟨a2, ?_, hs2.trans hd1, hs3.trans hcap1, hs4⟩
  unfold pushEntityUnchecked
  have hv : (g.descriptor env).isValid = true := gs.valid
  rw [debugAssert_true hv, debugAssert_true (by rw [hid]; simp), hr]
  simp only [ok_bind]
  unfold writeEntityUnchecked
  rw [debugAssert_true (by rw [h1.count]; simpa using hlt1), debugAssert_true hv,
    debugAssert_true (by simp only []; rw [hd1, hid]; simp)]
  simp only [ok_bind]
  unfold writeColumns
  rw [hgd, h1.count, hp1]
  simp only [ok_bind]
  rw [h1.count] at hs1
  rw [hs1]
  rfl

/-! ## Removing -/

theorem EntsOK.swapAt {cap : Nat} {l : List (Option Entity)} {es : List Entity} (h : EntsOK cap (some l) es) {i j : Nat}
    (hi : i < es.length) (hj : j < es.length) :
    EntsOK cap (some ((l.set i (l.getD j none)).set j (l.getD i none))) (Shard.swapAt es i j) := by
  obtain ⟨h1, l', hl, h2, h3⟩ := h
  cases hl
  refine ⟨by rw [swapAt_length]; exact h1, _, rfl, by simp [h2], ?_⟩
  intro k e hk
  have hli : l[i]? = some (some es[i]) := h3 i _ (List.getElem?_eq_getElem hi)
  have hlj : l[j]? = some (some es[j]) := h3 j _ (List.getElem?_eq_getElem hj)
  rw [getElem?_swapAt hi hj] at hk
  simp only [List.getD, hli, hlj, Option.getD_some]
  by_cases hkj : k = j
  · subst hkj
    rw [if_pos rfl, List.getElem?_eq_getElem hi] at hk
    rw [List.getElem?_set_self (by rw [List.length_set]; omega)]
    exact congrArg some hk
  · rw [if_neg hkj] at hk
    rw [List.getElem?_set_ne (Ne.symm hkj)]
    by_cases hki : k = i
    · subst hki
      rw [if_pos rfl, List.getElem?_eq_getElem hj] at hk
      rw [List.getElem?_set_self (by omega)]
      exact congrArg some hk
    · rw [if_neg hki] at hk
      rw [List.getElem?_set_ne (Ne.symm hki)]
      exact h3 k e hk

theorem Rep.swapEntities_spec (h : Rep W a ct) {i j : Nat} (hij : i ≠ j) (hi : i < ct.ents.length)
    (hj : j < ct.ents.length) :
    ∃ a', a.swapEntities i j = .ok a' ∧ a'.descriptor = a.descriptor ∧ a'.capacity = a.capacity ∧
      Rep W a' (ct.swap i j) := by
  obtain ⟨ptrs, hp1, hp2⟩ := h.cols.loop (cap' := a.capacity) (cols' := ct.cols.map (fun col => swapAt col i j))
    (f := fun k ptrs => do
      let c ← index a.descriptor.components k
      let p ← index ptrs k
      let b ← swapBytes p (i * c.size) (j * c.size) c.size
      setIndex ptrs k (some b)) (by rw [List.length_map]; exact h.cols.cols_len) (by
      intro k c vs vs' hc hvs hvs' ptrs' b hpl hpb hok
      have hW := h.desc.world_of hc
      have hvl := h.lens k vs hvs
      rw [List.getElem?_map, hvs] at hvs'
      simp only [Option.map_some, Option.some.injEq] at hvs'
      rw [swapAt_eq (show i < vs.length by omega) (show j < vs.length by omega)] at hvs'
      obtain ⟨b', hb', hok'⟩ := hok.swap hij (by omega) (by omega)
      refine ⟨b', ?_, hvs' ▸ hok'⟩
      rw [index_of_getElem? hpb, h.desc.index_comp hc]
      simp only [ok_bind, W.desc_size hW]
      rw [hb']
      simp only [ok_bind]
      rw [setIndex_lt (List.getElem?_eq_some_iff.mp hpb).1])
  obtain ⟨l, hl, hll, hl3⟩ := h.ents.arr
  have hcnt := h.count
  have hle := h.ents.len
  refine ⟨{ a with pointers := ptrs, entityAssociations := some ((l.set i (l.getD j none)).set j (l.getD i none)) },
    ?_, rfl, rfl, h.desc, hp2, ?_, (hl ▸ h.ents).swapAt hi hj, ?_, h.cap⟩
  · unfold Archetype.swapEntities swapColumns
    rw [h.desc.clen, hp1]
    simp only [ok_bind]
    unfold swapEntityAt
    rw [hl]
    simp only []
    rw [if_pos (by omega), if_pos (by omega)]
  · intro k col hcol
    simp only [Content.swap, List.getElem?_map, Option.map_eq_some_iff] at hcol
    obtain ⟨vs, hvs, rfl⟩ := hcol
    simp only [swapAt_length, Content.swap]
    exact h.lens k vs hvs
  · simp only [Content.swap, swapAt_length]; exact hcnt

/-- Dropping one row. -/
theorem Rep.dropEntity_spec (h : Rep W a ct) {k : Nat} (hk : k < ct.ents.length) :
    a.dropEntity k = .ok (ct.rowVals k) := by
  unfold Archetype.dropEntity
  obtain ⟨s, hs1, hs2⟩ := forRange_inv
    (f := fun i dropped => do
      let d ← index a.descriptor.components i
      let p ← index a.pointers i
      let vs ← runDropHandler d p (k * d.size) 1
      return dropped ++ vs)
    (fun i s => s = (ct.rowVals k).take i) ct.cts.length 0 [] rfl (by
      intro i s _ hi hs
      have hi' : i < ct.cts.length := by omega
      have hc := List.getElem?_eq_getElem hi'
      have hW := h.desc.world_of hc
      obtain ⟨vs, b, h1, h2, h3, h4⟩ := h.column hc
      rw [h.desc.index_comp hc, index_of_getElem? h2]
      simp only [ok_bind, W.desc_size hW]
      simp only [runDropHandler, CompTy.descriptor]
      rw [Nat.mul_comm k, h3.readSlice_ok k 1 (by omega)]
      refine ⟨_, rfl, ?_⟩
      have hk' : k < vs.length := by omega
      have hrv : (ct.rowVals k)[i]? = some vs[k] := by
        simp only [Content.rowVals, List.getElem?_map, h1, Option.map_some]
        rw [List.getElem?_eq_getElem hk']; rfl
      rw [List.take_add_one (i := i), hrv, hs]
      congr 1
      rw [List.drop_eq_getElem_cons hk']
      rfl)
  rw [h.desc.clen, hs1, hs2, Nat.zero_add, List.take_of_length_le]
  simp [Content.rowVals, h.cols.cols_len]

/-- Dropping all values. -/
theorem Rep.dropEntities_spec (h : Rep W a ct) : a.dropEntities = .ok ct.cols.flatten := by
  unfold Archetype.dropEntities
  obtain ⟨s, hs1, hs2⟩ := forRange_inv
    (f := fun i dropped => do
      let d ← index a.descriptor.components i
      let p ← index a.pointers i
      let vs ← runDropHandler d p 0 a.entityCount
      return dropped ++ vs)
    (fun i s => s = (ct.cols.take i).flatten) ct.cts.length 0 [] (by simp) (by
      intro i s _ hi hs
      have hi' : i < ct.cts.length := by omega
      have hc := List.getElem?_eq_getElem hi'
      have hW := h.desc.world_of hc
      obtain ⟨vs, b, h1, h2, h3, h4⟩ := h.column hc
      rw [h.desc.index_comp hc, index_of_getElem? h2]
      simp only [ok_bind, runDropHandler, CompTy.descriptor]
      have := h3.readSlice_ok 0 a.entityCount (by rw [h.count]; omega)
      rw [Nat.mul_zero] at this
      rw [this]
      refine ⟨_, rfl, ?_⟩
      rw [List.take_add_one, h1, hs]
      simp only [List.drop_zero, Option.toList_some, List.flatten_append, List.flatten_cons, List.flatten_nil, List.append_nil]
      rw [h.count, ← h4, List.take_length])
  rw [h.desc.clen, hs1, hs2, Nat.zero_add, List.take_of_length_le]
  rw [h.cols.cols_len]; exact Nat.le_refl _

/-- Forgetting the last row. -/
theorem Rep.pop_spec (h : Rep W a ct) : Rep W { a with entityCount := ct.ents.length - 1 } ct.pop := by
  have hle := h.ents.len
  refine ⟨h.desc, ?_, ?_, ?_, by simp [Content.pop], h.cap⟩
  · refine ⟨h.cols.ptrs_len, h.cols.cts_le, by simp [Content.pop, h.cols.cols_len], ?_, h.cols.rest⟩
    intro i c vs hc hvs
    simp only [Content.pop, List.getElem?_map, Option.map_eq_some_iff] at hvs
    obtain ⟨col, hcol, rfl⟩ := hvs
    obtain ⟨b, hb, hok⟩ := h.cols.col i c col hc hcol
    refine ⟨b, hb, ?_⟩
    rw [List.dropLast_eq_take]
    exact hok.take _
  · intro i col hcol
    simp only [Content.pop, List.getElem?_map, Option.map_eq_some_iff] at hcol
    obtain ⟨vs, hvs, rfl⟩ := hcol
    have := h.lens i vs hvs
    simp [Content.pop, this]
  · obtain ⟨l, hl, hll, hl3⟩ := h.ents.arr
    refine ⟨by simp [Content.pop]; omega, l, hl, hll, ?_⟩
    intro k e hk
    simp only [Content.pop, List.dropLast_eq_take, List.getElem?_take] at hk
    split at hk
    · exact hl3 k e hk
    · cases hk

/-- Remove row `idx` by moving the last row into its place. -/
def Content.swapPop (ct : Content) (idx : Nat) : Content := (ct.swap idx (ct.ents.length - 1)).pop

theorem Content.swap_self (ct : Content) (i : Nat) : ct.swap i i = ct := by
  unfold Content.swap
  simp [swapAt_self]

theorem Rep.swapDrop_spec (h : Rep W a ct) {idx : Nat} (hi : idx < ct.ents.length) :
    ∃ a', a.swapDropUnchecked env idx = .ok (a', decide (idx ≠ ct.ents.length - 1), ct.rowVals idx) ∧
      a'.descriptor = a.descriptor ∧ a'.capacity = a.capacity ∧ Rep W a' (ct.swapPop idx) := by
  have hcnt := h.count
  unfold Archetype.swapDropUnchecked
  rw [debugAssert_true (by simpa [hcnt] using hi), subU32_le (by omega), hcnt]
  simp only [ok_bind]
  by_cases hl : idx = ct.ents.length - 1
  · rw [if_pos hl, h.dropEntity_spec hi]
    refine ⟨{ a with entityCount := ct.ents.length - 1 }, ?_, rfl, rfl, ?_⟩
    · have : decide (idx ≠ ct.ents.length - 1) = false := by simp [hl]
      rw [this]; rfl
    · unfold Content.swapPop
      rw [← hl, ct.swap_self]
      rw [hl]; exact h.pop_spec
  · rw [if_neg hl]
    obtain ⟨a1, h1, h2, h3, h4⟩ := h.swapEntities_spec hl hi (by omega)
    have hc1 : a1.entityCount = ct.ents.length := by rw [h4.count]; simp [Content.swap, swapAt_length]
    have hl1 : (ct.swap idx (ct.ents.length - 1)).ents.length = ct.ents.length := by simp [Content.swap, swapAt_length]
    rw [h1]
    simp only [ok_bind]
    rw [subU32_le (by omega)]
    simp only [ok_bind, hc1]
    rw [h4.dropEntity_spec (by rw [hl1]; omega)]
    refine ⟨{ a1 with entityCount := ct.ents.length - 1 }, ?_, h2, h3, ?_⟩
    · have : decide (idx ≠ ct.ents.length - 1) = true := by simp [hl]
      rw [this]
      have hrow : (ct.swap idx (ct.ents.length - 1)).rowVals (ct.ents.length - 1) = ct.rowVals idx := by
        unfold Content.rowVals Content.swap
        simp only [List.map_map]
        apply List.map_congr_left
        intro col hcol
        obtain ⟨n, hn, he⟩ := List.mem_iff_getElem.mp hcol
        have := h.lens n col (by rw [List.getElem?_eq_getElem hn, he])
        simp only [Function.comp_apply]
        rw [getElem?_swapAt (by omega) (by omega), if_pos rfl]
      rw [hrow]; rfl
    · unfold Content.swapPop
      have := h4.pop_spec
      rwa [hl1] at this

theorem Rep.swapToLast_spec (h : Rep W a ct) {idx : Nat} (hi : idx < ct.ents.length) :
    ∃ a', a.swapToLastUnchecked env idx = .ok (a', decide (idx ≠ ct.ents.length - 1)) ∧
      a'.descriptor = a.descriptor ∧ a'.capacity = a.capacity ∧ Rep W a' (ct.swap idx (ct.ents.length - 1)) := by
  have hcnt := h.count
  unfold Archetype.swapToLastUnchecked
  rw [debugAssert_true (by simpa [hcnt] using hi), subU32_le (by omega), hcnt]
  simp only [ok_bind]
  by_cases hl : idx = ct.ents.length - 1
  · rw [if_pos hl]
    refine ⟨a, ?_, rfl, rfl, ?_⟩
    · have : decide (idx ≠ ct.ents.length - 1) = false := by simp [hl]
      rw [this]; rfl
    · rw [← hl, ct.swap_self]; exact h
  · rw [if_neg hl]
    obtain ⟨a1, h1, h2, h3, h4⟩ := h.swapEntities_spec hl hi (by omega)
    rw [h1]
    refine ⟨a1, ?_, h2, h3, h4⟩
    have : decide (idx ≠ ct.ents.length - 1) = true := by simp [hl]
    rw [this]; rfl

theorem Rep.decrementLen_spec (h : Rep W a ct) (hpos : 0 < ct.ents.length) :
    ∃ a', a.decrementLenUnchecked env = .ok a' ∧ a'.descriptor = a.descriptor ∧ a'.capacity = a.capacity ∧
      Rep W a' ct.pop := by
  have hcnt := h.count
  unfold Archetype.decrementLenUnchecked
  rw [subU32_le (by omega), hcnt]
  exact ⟨_, rfl, rfl, rfl, h.pop_spec⟩

/-! ## Contents -/

theorem Content.get_push {ct : Content} {e : Entity} {sv : List Val} {c : CompTy} {k n : Nat}
    (hl : ∀ (i : Nat) (col : List Val), ct.cols[i]? = some col → col.length = n) (hs : sv.length = ct.cts.length)
    (hcl : ct.cols.length = ct.cts.length) :
    (ct.push e sv).get c k = if k = n then lookupTy ct.cts sv c else ct.get c k := by
  obtain ⟨cts, ents, cols⟩ := ct
  simp only [Content.get, Content.push] at *
  induction cts generalizing cols sv with
  | nil =>
    simp [lookupTy]
  | cons c' cs ih =>
    match cols, sv, hcl, hs with
    | col :: cols, v :: sv, hcl, hs =>
      simp only [List.zipWith_cons_cons, lookupTy]
      by_cases hc : c' = c
      · simp only [if_pos hc, Option.bind_some]
        have := hl 0 col rfl
        by_cases hk : k = n
        · rw [if_pos hk, List.getElem?_append_right (by omega)]
          simp [hk, this]
        · rw [if_neg hk]
          rw [List.getElem?_append]
          split
          · rfl
          · next h => rw [List.getElem?_eq_none (by simp; omega), List.getElem?_eq_none (by omega)]
      · simp only [if_neg hc]
        exact ih cols (by intro i x hx; exact hl (i + 1) x (by simpa using hx)) (by simpa using hs) (by simpa using hcl)

theorem Rep.get_push (h : Rep W a ct) {e : Entity} {sv : List Val} {c : CompTy} {k : Nat} (hs : sv.length = ct.cts.length) :
    (ct.push e sv).get c k = if k = ct.ents.length then lookupTy ct.cts sv c else ct.get c k :=
  Content.get_push h.lens hs h.cols.cols_len

theorem lookupTy_sortVals {cts : List CompTy} {g : Group} {vals : List Val} (hn : cts.Nodup) (c : CompTy) :
    lookupTy cts (sortVals cts g vals) c = if c ∈ cts then some ((lookupTy g vals c).getD default) else none := by
  by_cases hc : c ∈ cts
  · rw [if_pos hc]
    obtain ⟨i, hi, rfl⟩ := List.mem_iff_getElem.mp hc
    apply lookupTy_of_getElem? hn (List.getElem?_eq_getElem hi)
    unfold sortVals
    rw [List.getElem?_map, List.getElem?_eq_getElem hi]; rfl
  · rw [if_neg hc, lookupTy_none hc]

theorem Rep.get_swapPop (h : Rep W a ct) {idx : Nat} (hi : idx < ct.ents.length) (c : CompTy) (k : Nat) :
    (ct.swapPop idx).get c k =
      if ct.ents.length - 1 ≤ k then none else if k = idx then ct.get c (ct.ents.length - 1) else ct.get c k := by
  unfold Content.swapPop Content.pop Content.swap Content.get
  simp only [lookupTy_map]
  cases hx : lookupTy ct.cts ct.cols c with
  | none => simp
  | some vs =>
    obtain ⟨i, h1, h2⟩ := lookupTy_some_mem hx
    have hvl := h.lens i vs h2
    simp only [Option.map_some, Option.bind_some, List.dropLast_eq_take, List.getElem?_take, swapAt_length]
    rw [getElem?_swapAt (by omega) (by omega), hvl]
    by_cases hk : k < ct.ents.length - 1
    · rw [if_pos hk, if_neg (show ¬ k = ct.ents.length - 1 by omega), if_neg (show ¬ ct.ents.length - 1 ≤ k by omega)]
    · rw [if_neg hk, if_pos (by omega)]

theorem swapPop_ents {idx : Nat} (hi : idx < ct.ents.length) (k : Nat) :
    (ct.swapPop idx).ents[k]? =
      if ct.ents.length - 1 ≤ k then none else if k = idx then ct.ents[ct.ents.length - 1]? else ct.ents[k]? := by
  unfold Content.swapPop Content.pop Content.swap
  simp only [List.dropLast_eq_take, List.getElem?_take, swapAt_length]
  rw [getElem?_swapAt (by omega) (by omega)]
  by_cases hk : k < ct.ents.length - 1
  · rw [if_pos hk, if_neg (show ¬ k = ct.ents.length - 1 by omega), if_neg (show ¬ ct.ents.length - 1 ≤ k by omega)]
  · rw [if_neg hk, if_pos (by omega)]

theorem swapPop_length {idx : Nat} : (ct.swapPop idx).ents.length = ct.ents.length - 1 := by
  simp [Content.swapPop, Content.pop, Content.swap, swapAt_length]

end Shard
