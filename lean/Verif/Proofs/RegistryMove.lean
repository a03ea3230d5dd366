import Verif.Proofs.RegistryCreate
/-!
# The registry: adding and removing components
-/

namespace Shard

variable {env : Env} {W : World env}

theorem disjointMut_ne {α : Type} {l : List α} {i j : Nat} (hi : i < l.length) (hj : j < l.length) (hne : i ≠ j) :
    disjointMut l i j = some (i, j) := by
  unfold disjointMut
  rw [if_neg (by omega)]
  split
  · congr 2; omega
  · congr 2; omega

theorem nodup_of_map {α β : Type} {f : α → β} {l : List α} (h : (l.map f).Nodup) : l.Nodup := by
  unfold List.Nodup at h ⊢
  rw [List.pairwise_map] at h
  exact h.imp (fun hne he => hne (congrArg _ he))

/-- The ids of the component set `cts` with `c` added. -/
def AddedIds (cts : List CompTy) (c : CompTy) (i : UInt16) : Prop := i = c.id ∨ ∃ c' ∈ cts, c'.id = i

/-- The ids of the component set `cts` with `c` removed. -/
def RemovedIds (cts : List CompTy) (c : CompTy) (i : UInt16) : Prop := ∃ c' ∈ cts, c' ≠ c ∧ c'.id = i

theorem DescOK.id_mem {d : ArchetypeDescriptor} {cts : List CompTy} (hd : DescOK W d cts) {c : CompTy} (hc : W.Has c) :
    c.id ∈ d.ids ↔ c ∈ cts := by
  rw [hd.ids_eq, List.mem_map]
  constructor
  · rintro ⟨c', h1, h2⟩
    rw [← W.id_inj (hd.has c' h1) hc h2]; exact h1
  · intro h; exact ⟨c, h, rfl⟩

/-- A descriptor that gained a component. -/
theorem DescOK.add {d : ArchetypeDescriptor} {cts : List CompTy} (hd : DescOK W d cts) {c : CompTy} (hc : W.Has c)
    (hn : c ∉ cts) (hl : cts.length ≤ 12) :
    ∃ nd cts', d.addComponent env c.descriptor = .ok (some nd) ∧ nd.len = d.len + 1 ∧
      (∀ c', c' ∈ cts' ↔ c' = c ∨ c' ∈ cts) ∧ nd.archetypeId = plainId env nd.ids ∧ AscSet nd.ids (AddedIds cts c) ∧
      nd.ids.length = nd.len ∧ (nd.isValid = true → W.Used nd.ids → DescOK W nd cts') := by
  obtain ⟨nd, i, h1, h2, h3, h4, h5, h6⟩ := ArchetypeDescriptor.addComponent_spec (env := env) (cd := c.descriptor) hd.wf
    (by rw [← hd.length]; exact hl) (fun h => hn ((hd.id_mem hc).mp h))
  have hcomps : nd.components = (cts.take i ++ c :: cts.drop i).map CompTy.descriptor := by
    rw [h5, hd.comps, List.map_append, List.map_cons, List.map_take, List.map_drop]
  have hmem : ∀ c', c' ∈ cts.take i ++ c :: cts.drop i ↔ c' = c ∨ c' ∈ cts := by
    intro c'
    rw [List.mem_append, List.mem_cons]
    conv => rhs; rw [← List.take_append_drop i cts, List.mem_append]
    constructor
    · rintro (h | h | h) <;> simp [h]
    · rintro (h | h | h) <;> simp [h]
  have hids : nd.ids = (cts.take i ++ c :: cts.drop i).map (fun c => c.id) := by
    unfold ArchetypeDescriptor.ids; rw [hcomps, List.map_map]; rfl
  have hid : nd.archetypeId = plainId env nd.ids := by rw [h6, plainId_eq]; rfl
  have hasc : AscSet nd.ids (AddedIds cts c) := by
    refine ⟨h2.ids_sorted, ?_⟩
    intro j
    rw [hids, List.mem_map]
    unfold AddedIds
    constructor
    · rintro ⟨c', m1, rfl⟩
      rcases (hmem c').mp m1 with rfl | m1
      · exact Or.inl rfl
      · exact Or.inr ⟨c', m1, rfl⟩
    · rintro (rfl | ⟨c', m1, rfl⟩)
      · exact ⟨c, (hmem c).mpr (Or.inl rfl), rfl⟩
      · exact ⟨c', (hmem c').mpr (Or.inr m1), rfl⟩
  refine ⟨nd, cts.take i ++ c :: cts.drop i, h1, h3, hmem, hid, hasc, h2.ids_length, ?_⟩
  intro hv hu
  refine ⟨h2, hv, hcomps, ?_, hu, Or.inl hid⟩
  intro c' hc'
  rcases (hmem c').mp hc' with rfl | h
  · exact hc
  · exact hd.has c' h

/-- A descriptor that lost a component. -/
theorem DescOK.remove {d : ArchetypeDescriptor} {cts : List CompTy} (hd : DescOK W d cts) {c : CompTy} (hm : c ∈ cts)
    (h2 : 2 ≤ cts.length) (hl : cts.length ≤ 13) :
    ∃ nd cts', d.removeComponent env c.id = .ok (some nd) ∧ nd.len = d.len - 1 ∧
      (∀ c', c' ∈ cts' ↔ c' ≠ c ∧ c' ∈ cts) ∧ nd.archetypeId = plainId env nd.ids ∧ AscSet nd.ids (RemovedIds cts c) ∧
      nd.ids.length = nd.len ∧ (nd.isValid = true → W.Used nd.ids → DescOK W nd cts') := by
  have hi := idxOf_getElem? hm
  obtain ⟨hci, hce⟩ := List.getElem?_eq_some_iff.mp (hd.comp_getElem? hi)
  obtain ⟨nd, h1, q2, h3, h5, h6⟩ := ArchetypeDescriptor.removeComponent_spec (env := env) hd.wf
    (by rw [← hd.length]; exact h2) (by rw [← hd.length]; exact hl) hci (by rw [hce])
  have hnd : cts.Nodup := nodup_of_map hd.nodup
  have hcomps : nd.components = (cts.eraseIdx (cts.idxOf c)).map CompTy.descriptor := by
    rw [h5, hd.comps, List.eraseIdx_eq_take_drop_succ, List.eraseIdx_eq_take_drop_succ, List.map_append, List.map_take, List.map_drop]
  have hmem : ∀ c', c' ∈ cts.eraseIdx (cts.idxOf c) ↔ c' ≠ c ∧ c' ∈ cts := by
    intro c'
    rw [← List.erase_eq_eraseIdx_of_idxOf rfl, hnd.mem_erase_iff]
  have hids : nd.ids = (cts.eraseIdx (cts.idxOf c)).map (fun c => c.id) := by
    unfold ArchetypeDescriptor.ids; rw [hcomps, List.map_map]; rfl
  have hid : nd.archetypeId = plainId env nd.ids := by rw [h6, plainId_eq]; rfl
  have hasc : AscSet nd.ids (RemovedIds cts c) := by
    refine ⟨q2.ids_sorted, ?_⟩
    intro j
    rw [hids, List.mem_map]
    unfold RemovedIds
    constructor
    · rintro ⟨c', m1, rfl⟩
      obtain ⟨m2, m3⟩ := (hmem c').mp m1
      exact ⟨c', m3, m2, rfl⟩
    · rintro ⟨c', m1, m2, rfl⟩
      exact ⟨c', (hmem c').mpr ⟨m2, m1⟩, rfl⟩
  refine ⟨nd, cts.eraseIdx (cts.idxOf c), h1, h3, hmem, hid, hasc, q2.ids_length, ?_⟩
  intro hv hu
  exact ⟨q2, hv, hcomps, fun c' hc' => hd.has c' ((hmem c').mp hc').2, hu, Or.inl hid⟩

/-! ## Finding the destination -/

/-- The destination archetype of a move was found or created. -/
structure Target (W : World env) (ar : ArchetypeRegistry) (cs : List Content) (si : Nat) (P : CompTy → Prop)
    (ar' : ArchetypeRegistry) (cs' : List Content) (dai : UInt16) (b : Archetype) (ctD : Content) : Prop where
  inv : ARInv W ar' cs'
  grown : Grown ar cs ar' cs'
  arch : ar'.archetypes[dai.toNat]? = some b
  content : cs'[dai.toNat]? = some ctD
  rep : Rep W b ctD
  cts : ∀ c, c ∈ ctD.cts ↔ P c
  ne : si ≠ dai.toNat
  ok : dai ≠ 65535
  id : b.descriptor.archetypeId = plainId env b.descriptor.ids

theorem ARInv.target {ar : ArchetypeRegistry} {cs : List Content} (h : ARInv W ar cs) {src : UInt16} {a : Archetype}
    (ha : ar.archetypes[src.toNat]? = some a) {nd : ArchetypeDescriptor}
    {cts' : List CompTy} (hd : nd.isValid = true → DescOK W nd cts') (hl : nd.len ≠ a.descriptor.len)
    (hid : nd.archetypeId = plainId env nd.ids) {P : CompTy → Prop}
    (hP : ∀ c, c ∈ cts' ↔ P c) :
    (((ar.findOrCreateArchetype env nd = .ok (ar, none)) ∧ ¬ Room ar nd.len nd.archetypeId) ∨
      ∃ ar' cs' dai b ctD, ar.findOrCreateArchetype env nd = .ok (ar', some dai) ∧ Room ar nd.len nd.archetypeId ∧
        Target W ar cs src.toNat P ar' cs' dai b ctD ∧ disjointMut ar'.archetypes src.toNat dai.toNat = some (src.toNat, dai.toNat)) := by
  cases hv : nd.isValid with
  | false =>
    left
    refine ⟨ARInv.findOrCreate_invalid hv, fun hroom => hroom.1 ?_⟩
    unfold ArchetypeDescriptor.isValid at hv
    simpa using hv
  | true =>
    rcases h.focus (hd hv) with ⟨h1, h2⟩ | ⟨ar', cs', ai, b, ctD, h1, h2, h3, h4, h5, h6, h7, h8, h9, h10, hroom, _⟩
    · left; exact ⟨h1, h2⟩
    · right
      have ha' := h3.getA ha
      have hne : src.toNat ≠ ai.toNat := by
        intro he
        rw [he] at ha'
        rw [h4] at ha'
        cases ha'
        exact hl h8.symm
      refine ⟨ar', cs', ai, b, ctD, h1, hroom, ⟨h2, h3, h4, h5, h6, fun c => by rw [h7]; exact hP c, hne, h10,
        by rw [h9, hid, h6.desc.ids_eq, h7, (hd hv).ids_eq]⟩, ?_⟩
      exact disjointMut_ne (List.getElem?_eq_some_iff.mp ha').1 (List.getElem?_eq_some_iff.mp h4).1 hne

/-- `find_or_create_archetype_adding_component`. -/
theorem ARInv.adding_spec {ar : ArchetypeRegistry} {cs : List Content} (h : ARInv W ar cs) {src : UInt16} {a : Archetype}
    {ct : Content} (ha : ar.archetypes[src.toNat]? = some a) (hc : cs[src.toNat]? = some ct) {c : CompTy} (hW : W.Has c)
    (hu : c ∉ ct.cts → ct.cts.length ≤ 12 → ∀ s, AscSet s (AddedIds ct.cts c) → W.Used s) :
    (ar.findOrCreateAdding env src c.descriptor = .ok (ar, none) ∧
      (c ∈ ct.cts ∨ ct.cts.length = 14 ∨
        (ct.cts.length ≤ 12 ∧ ∃ s, AscSet s (AddedIds ct.cts c) ∧ ¬ Room ar s.length (plainId env s)))) ∨
    (ar.findOrCreateAdding env src c.descriptor = .error (.panic .indexOutOfBounds) ∧ c ∉ ct.cts ∧ ct.cts.length = 13) ∨
    (c ∉ ct.cts ∧ ct.cts.length ≤ 12 ∧
      (∃ s, AscSet s (AddedIds ct.cts c) ∧ Room ar s.length (plainId env s)) ∧ ∃ ar' cs' dai b ctD,
      ar.findOrCreateAdding env src c.descriptor = .ok (ar', some (src.toNat, dai, dai.toNat)) ∧
      Target W ar cs src.toNat (fun c' => c' = c ∨ c' ∈ ct.cts) ar' cs' dai b ctD) := by
  have hr := h.rep _ _ _ ha hc
  have hd := hr.desc
  have hlt := (List.getElem?_eq_some_iff.mp ha).1
  have hle := hd.le
  unfold ArchetypeRegistry.findOrCreateAdding
  rw [if_neg (by omega), index_of_getElem? ha]
  simp only [ok_bind]
  by_cases hm : c ∈ ct.cts
  · left
    rw [ArchetypeDescriptor.addComponent_present hd.wf ((hd.id_mem hW).mpr hm)]
    exact ⟨rfl, Or.inl hm⟩
  · by_cases h14 : ct.cts.length = 14
    · left
      rw [ArchetypeDescriptor.addComponent_full (by rw [← hd.length]; exact h14)]
      exact ⟨rfl, Or.inr (Or.inl h14)⟩
    · by_cases h13 : ct.cts.length = 13
      · right; left
        rw [ArchetypeDescriptor.addComponent_thirteen hd.wf (by rw [← hd.length]; exact h13)
          (fun hx => hm ((hd.id_mem hW).mp hx))]
        exact ⟨rfl, hm, h13⟩
      · have h12 : ct.cts.length ≤ 12 := by omega
        obtain ⟨nd, cts', n1, n2, n3, n4, n5, n7, n6⟩ := hd.add hW hm h12
        rw [n1]
        simp only [ok_bind]
        rcases h.target ha (fun hv => n6 hv (hu hm h12 _ n5)) (by omega) n4 n3 with ⟨t1, t2⟩ | ⟨ar', cs', dai, b, ctD, t1, t4, t2, t3⟩
        · left
          rw [t1]
          exact ⟨rfl, Or.inr (Or.inr ⟨h12, nd.ids, n5, by rw [n7, ← n4]; exact t2⟩)⟩
        · right; right
          refine ⟨hm, h12, ⟨nd.ids, n5, by rw [n7, ← n4]; exact t4⟩, ar', cs', dai, b, ctD, ?_, t2⟩
          rw [t1]
          simp only [ok_bind]
          rw [t3]
          rfl

/-- `find_or_create_archetype_removing_component`. -/
theorem ARInv.removing_spec {ar : ArchetypeRegistry} {cs : List Content} (h : ARInv W ar cs) {src : UInt16} {a : Archetype}
    {ct : Content} (ha : ar.archetypes[src.toNat]? = some a) (hc : cs[src.toNat]? = some ct) {c : CompTy} (hW : W.Has c)
    (hu : c ∈ ct.cts → 2 ≤ ct.cts.length → ct.cts.length ≤ 13 → ∀ s, AscSet s (RemovedIds ct.cts c) → W.Used s) :
    (ar.findOrCreateRemoving env src c.descriptor = .ok (ar, none) ∧
      (c ∉ ct.cts ∨ ct.cts.length = 1 ∨ (2 ≤ ct.cts.length ∧ ct.cts.length ≤ 13 ∧
        ∃ s, AscSet s (RemovedIds ct.cts c) ∧ ¬ Room ar s.length (plainId env s)))) ∨
    (ar.findOrCreateRemoving env src c.descriptor = .error (.panic .indexOutOfBounds) ∧ c ∈ ct.cts ∧ ct.cts.length = 14) ∨
    (c ∈ ct.cts ∧ 2 ≤ ct.cts.length ∧ ct.cts.length ≤ 13 ∧
      (∃ s, AscSet s (RemovedIds ct.cts c) ∧ Room ar s.length (plainId env s)) ∧ ∃ ar' cs' dai b ctD,
      ar.findOrCreateRemoving env src c.descriptor = .ok (ar', some (src.toNat, dai, dai.toNat)) ∧
      Target W ar cs src.toNat (fun c' => c' ≠ c ∧ c' ∈ ct.cts) ar' cs' dai b ctD) := by
  have hr := h.rep _ _ _ ha hc
  have hd := hr.desc
  have hlt := (List.getElem?_eq_some_iff.mp ha).1
  have hle := hd.le
  have hpos := hd.pos
  unfold ArchetypeRegistry.findOrCreateRemoving
  rw [if_neg (by omega), index_of_getElem? ha]
  simp only [ok_bind]
  rw [CompTy.descriptor_id]
  by_cases hm : c ∈ ct.cts
  · by_cases h1 : ct.cts.length = 1
    · left
      rw [ArchetypeDescriptor.removeComponent_one (by rw [← hd.length]; exact h1)]
      exact ⟨rfl, Or.inr (Or.inl h1)⟩
    · by_cases h14 : ct.cts.length = 14
      · right; left
        rw [ArchetypeDescriptor.removeComponent_fourteen hd.wf (by rw [← hd.length]; exact h14) ((hd.id_mem hW).mpr hm)]
        exact ⟨rfl, hm, h14⟩
      · have h2 : 2 ≤ ct.cts.length := by omega
        have h13 : ct.cts.length ≤ 13 := by omega
        obtain ⟨nd, cts', n1, n2, n3, n4, n5, n7, n6⟩ := hd.remove hm h2 h13
        have hdl := hd.length
        rw [n1]
        simp only [ok_bind]
        rcases h.target ha (fun hv => n6 hv (hu hm h2 h13 _ n5)) (by omega) n4 n3 with ⟨t1, t2⟩ | ⟨ar', cs', dai, b, ctD, t1, t4, t2, t3⟩
        · left
          rw [t1]
          exact ⟨rfl, Or.inr (Or.inr ⟨h2, h13, nd.ids, n5, by rw [n7, ← n4]; exact t2⟩)⟩
        · right; right
          refine ⟨hm, h2, h13, ⟨nd.ids, n5, by rw [n7, ← n4]; exact t4⟩, ar', cs', dai, b, ctD, ?_, t2⟩
          rw [t1]
          simp only [ok_bind]
          rw [t3]
          rfl
  · left
    rw [ArchetypeDescriptor.removeComponent_absent hd.wf (fun hx => hm ((hd.id_mem hW).mp hx))]
    exact ⟨rfl, Or.inl hm⟩

/-! ## The move -/

theorem Rep.rowVals_eq {a : Archetype} {ct : Content} (h : Rep W a ct) (k : Nat) :
    ct.rowVals k = ct.cts.map (fun c => (ct.get c k).getD default) := by
  have hcl := h.cols.cols_len
  unfold Content.rowVals
  apply List.ext_getElem?
  intro i
  rw [List.getElem?_map, List.getElem?_map]
  by_cases hi : i < ct.cts.length
  · have h1 := List.getElem?_eq_getElem hi
    have h2 : ct.cols[i]? = some (ct.cols[i]'(by omega)) := List.getElem?_eq_getElem (by omega)
    rw [h1, h2]
    simp only [Option.map_some]
    unfold Content.get
    rw [lookupTy_of_getElem? h.nodup h1 h2]
    rfl
  · rw [List.getElem?_eq_none (l := ct.cols) (by omega), List.getElem?_eq_none (l := ct.cts) (by omega)]
    rfl

/-- What a move of `e` to another archetype does. -/
structure Moved (W : World env) (r : Registry) (cs : List Content) (e : Entity) (r' : Registry) (cs' : List Content)
    (f' : CompTy → Option Val) : Prop where
  inv : RInv W r' cs'
  look : ∀ x, r'.look env cs' x = if x = e then some f' else r.look env cs x
  table : Updated env r.entities r'.entities
  step : ArchStep r.archetypes r'.archetypes
  stay : ∀ x, x ≠ e → r'.archOf env x = r.archOf env x
  home : ∃ s, Home env r' e s (plainId env s)
  count : r'.archetypes.archetypes.length ≤ r.archetypes.archetypes.length + 1

theorem ArchStep.set2 {ar : ArchetypeRegistry} {i j : Nat} {a a' b b' : Archetype}
    (ha : ar.archetypes[i]? = some a) (hb : ar.archetypes[j]? = some b)
    (hd : a'.descriptor = a.descriptor) (hc : a'.capacity = a.capacity)
    (hd' : b'.descriptor = b.descriptor)
    (hc' : b'.capacity = b.capacity ∨ b'.capacity = 2 * b.capacity ∧ b.entityCount = b.capacity ∧ b'.entityCount = b.entityCount + 1) :
    ArchStep ar ((ar.setArchetype i a').setArchetype j b') := by
  have hi := (List.getElem?_eq_some_iff.mp ha).1
  have hj := (List.getElem?_eq_some_iff.mp hb).1
  constructor
  · intro k x hx
    show ∃ y, ((ar.archetypes.set i a').set j b')[k]? = some y ∧ _
    by_cases hjk : j = k
    · subst hjk
      rw [hb] at hx; cases hx
      exact ⟨b', List.getElem?_set_self (by rw [List.length_set]; exact hj), hd', hc'⟩
    · rw [List.getElem?_set_ne hjk]
      by_cases hik : i = k
      · subst hik
        rw [ha] at hx; cases hx
        exact ⟨a', List.getElem?_set_self hi, hd, Or.inl hc⟩
      · exact ⟨x, (List.getElem?_set_ne hik).trans hx, rfl, Or.inl rfl⟩
  · intro k x h1 h2
    have : k < ((ar.archetypes.set i a').set j b').length := (List.getElem?_eq_some_iff.mp h2).1
    rw [List.length_set, List.length_set] at this
    rw [List.getElem?_eq_none_iff] at h1
    omega

/-- The bookkeeping of a move: source row removed, destination row pushed, entry updated. -/
theorem RInv.move {r : Registry} {cs : List Content} (h : RInv W r cs) {e : Entity} {en : EntityEntry}
    (he : r.entities.entityEntry env e = some en) {a a2 : Archetype} {ct : Content}
    (ha : r.archetypes.archetypes[(en.archetypeIndex env).toNat]? = some a)
    (hc : cs[(en.archetypeIndex env).toNat]? = some ct) (hd : a2.descriptor = a.descriptor)
    (hcap : a2.capacity = a.capacity) (hr : Rep W a2 (ct.swapPop en.indexInArchetype.value.toNat))
    {P : CompTy → Prop} {ar' : ArchetypeRegistry} {cs' : List Content} {dai : UInt16} {b b2 : Archetype} {ctD : Content}
    (hT : Target W r.archetypes cs (en.archetypeIndex env).toNat P ar' cs' dai b ctD)
    (hlt : ctD.ents.length < 8388608) (hbd : b2.descriptor = b.descriptor)
    (hbc : b2.capacity = (if ctD.ents.length = b.capacity then 2 * b.capacity else b.capacity)) {sv : List Val}
    (hs : sv.length = ctD.cts.length) (hbr : Rep W b2 (ctD.push e sv)) {m : EntityRegistry} (hm : EntInv env m)
    (hmu : Updated env r.entities m) (hme : m.entityEntry env e = some en)
    (hml : ∀ x, x ≠ e → m.loc env x = locSwapPop (r.entities.loc env) e (en.archetypeIndex env).toNat
      en.indexInArchetype.value.toNat (ct.ents.length - 1) x) :
    ∃ m2, m.updateEntry env e (fun en => (en.setArchetypeIndex env dai).setIndexInArchetype ⟨UInt32.ofNat ctD.ents.length⟩) = some m2 ∧
      Moved W r cs e ⟨m2, (ar'.setArchetype (en.archetypeIndex env).toNat a2).setArchetype dai.toNat b2⟩
        ((cs'.set (en.archetypeIndex env).toNat (ct.swapPop en.indexInArchetype.value.toNat)).set dai.toNat (ctD.push e sv))
        (fun c => lookupTy ctD.cts sv c) ∧
      (stored ((cs'.set (en.archetypeIndex env).toNat (ct.swapPop en.indexInArchetype.value.toNat)).set dai.toNat (ctD.push e sv)) ++
        ct.rowVals en.indexInArchetype.value.toNat).Perm (stored cs ++ sv) := by
  have hloc := EntityRegistry.loc_of_entry he
  obtain ⟨ct0, q1, q2⟩ := (h.placed _ _ _).mp hloc
  rw [hc] at q1; cases q1
  have hk := (List.getElem?_eq_some_iff.mp q2).1
  have hra := h.arch.rep _ _ _ ha hc
  have ha' := hT.grown.getA ha
  have hc' := hT.grown.get hc
  have hp' := hT.grown.placed h.placed
  obtain ⟨n1, n2⟩ := IndexInArchetype.new_ofNat (n := ctD.ents.length) (by omega)
  obtain ⟨m2, u1, u2, u3, u4, u5, u6, u7, u8⟩ := EntityRegistry.updateEntry_entry hm hme
    (f := fun en => (en.setArchetypeIndex env dai).setIndexInArchetype ⟨UInt32.ofNat ctD.ents.length⟩)
    (by rw [EntityEntry.isValid_setIndexInArchetype, EntityEntry.isValid_set]; exact hT.ok) rfl
  have hloc2 : m2.loc env = locPush (locSwapPop (r.entities.loc env) e (en.archetypeIndex env).toNat
      en.indexInArchetype.value.toNat (ct.ents.length - 1)) e dai.toNat ctD.ents.length := by
    funext x
    unfold locPush
    by_cases hx : x = e
    · subst hx
      rw [if_pos rfl, EntityRegistry.loc_of_entry u3, EntityEntry.archetypeIndex_setIndexInArchetype,
        EntityEntry.archetypeIndex_set, EntityEntry.indexInArchetype_set _ _ (by show (UInt32.ofNat ctD.ents.length).toNat < _; rw [n2]; omega)]
      show some (dai.toNat, (UInt32.ofNat ctD.ents.length).toNat) = _
      rw [n2]
    · rw [if_neg hx, ← hml x hx]
      unfold EntityRegistry.loc
      rw [u4 x hx]
  have hdead : locSwapPop (r.entities.loc env) e (en.archetypeIndex env).toNat en.indexInArchetype.value.toNat
      (ct.ents.length - 1) e = none := by
    unfold locSwapPop; rw [if_pos rfl]
  have hp1 := hp'.swapPop hloc hc'
  have hcD : (cs'.set (en.archetypeIndex env).toNat (ct.swapPop en.indexInArchetype.value.toNat))[dai.toNat]? = some ctD := by
    rw [List.getElem?_set_ne hT.ne]; exact hT.content
  have haD : (ar'.setArchetype (en.archetypeIndex env).toNat a2).archetypes[dai.toNat]? = some b := by
    show (ar'.archetypes.set _ _)[_]? = _
    rw [List.getElem?_set_ne hT.ne]; exact hT.arch
  refine ⟨m2, u1, ⟨⟨?_, u2, ?_⟩, ?_, ?_, ?_, ?_, ?_, ?_⟩, ?_⟩
  · exact (hT.inv.set ha' hd hr).set haD hbd hbr
  · show Placed (m2.loc env) _
    rw [hloc2]
    exact hp1.push hdead hcD rfl
  · intro x
    show Shard.look (m2.loc env) _ x = _
    rw [hloc2, look_push hp1 hT.rep hcD hs x]
    split
    · rfl
    · next hx =>
      rw [look_swapPop hp' hloc hra hc' x, if_neg hx, hT.grown.look_eq h.placed]
      rfl
  · refine hmu.trans (Updated.of_update
      (f := fun en => (en.setArchetypeIndex env dai).setIndexInArchetype ⟨UInt32.ofNat ctD.ents.length⟩) hm hme ?_ rfl u5 u6 u7 u8)
    rw [EntityEntry.isValid_setIndexInArchetype, EntityEntry.isValid_set]; exact hT.ok
  · refine ArchStep.after_grown hT.grown (ArchStep.set2 ha' hT.arch hd hcap hbd ?_) (by simp [ArchetypeRegistry.setArchetype])
    have hcnt := hT.rep.count
    by_cases hf : ctD.ents.length = b.capacity
    · rw [if_pos hf] at hbc
      refine Or.inr ⟨hbc, by omega, ?_⟩
      rw [hbr.count, hcnt]; simp [Content.push]
    · rw [if_neg hf] at hbc
      exact Or.inl hbc
  · intro x hx
    show (m2.loc env x).map _ = _
    rw [hloc2]
    unfold locPush
    rw [if_neg hx]
    exact locSwapPop_fst hx
  · refine ⟨b.descriptor.ids, dai.toNat, b2, ?_, List.getElem?_set_self (List.getElem?_eq_some_iff.mp haD).1, by rw [hbd], by rw [hbd]; exact hT.id⟩
    show (m2.loc env e).map _ = _
    rw [hloc2]
    unfold locPush
    rw [if_pos rfl]; rfl
  · show ((ar'.archetypes.set _ _).set _ _).length ≤ _
    rw [List.length_set, List.length_set]
    rcases hT.grown with ⟨rfl, _⟩ | ⟨b, cts, hb, _⟩
    · omega
    · rw [hb]; simp
  · have s1 := stored_push (e := e) hT.rep hcD hs
    have s2 := stored_swapPop hra hc' hk
    rw [hT.grown.stored_eq] at s2
    refine (s1.append_right _).trans ?_
    refine List.Perm.trans ?_ (s2.append_right _)
    rw [List.append_assoc, List.append_assoc]
    exact List.Perm.append_left _ List.perm_append_comm

theorem Target.old_of_full {ar ar' : ArchetypeRegistry} {cs cs' : List Content} {si : Nat} {P : CompTy → Prop} {dai : UInt16}
    {b : Archetype} {ctD : Content} (hT : Target W ar cs si P ar' cs' dai b ctD) (hfull : ctD.ents.length = 8388608) :
    cs[dai.toNat]? = some ctD := by
  have h5 := hT.content
  rcases hT.grown with ⟨_, rfl⟩ | ⟨b, cts, _, _, _, rfl⟩
  · exact h5
  · rw [List.getElem?_append] at h5
    split at h5
    · exact h5
    · rw [List.getElem?_singleton] at h5
      split at h5
      · cases h5
        simp [Content.empty] at hfull
      · cases h5

/-- Pushing to a full archetype releases its storage; copying into it is then a null dereference. -/
theorem Rep.pushUninit_full {b : Archetype} {ctD : Content} (h : Rep W b ctD) (hfull : ctD.ents.length = 8388608) :
    ∃ b1, b.pushUninitializedEntity env = .ok (b1, ctD.ents.length) ∧ b1.entityCount = ctD.ents.length + 1 ∧
      ∀ {src : Archetype} {ctS : Content} {k n : Nat} {c : CompTy}, Rep W src ctS → k < ctS.ents.length → c ∈ ctD.cts →
        c ∈ ctS.cts → Archetype.copyCommonComponents src k b1 n = .error (.ub .nullDeref) := by
  obtain ⟨b1, z1, z2⟩ := h.resize_full (env := env) hfull
  refine ⟨{ b1 with entityCount := b1.entityCount + 1 }, ?_, ?_, ?_⟩
  · unfold Archetype.pushUninitializedEntity
    rw [z1]
    simp only [ok_bind, z2.count]
    rfl
  · show b1.entityCount + 1 = _
    rw [z2.count]
  · intro src ctS k n c hS hk hc hcS
    exact Rep.copyCommon_freed (dst := { b1 with entityCount := b1.entityCount + 1 }) (m := ctD.ents.length + 1) hS hk h.desc
      ⟨z2.desc, z2.ptrs, z2.ents, z2.cap, by show b1.entityCount + 1 = _; rw [z2.count]⟩ hc hcS

/-! ## `add_component` -/

theorem addComponent_dead {r : Registry} {e : Entity} {c : CompTy} {v : Val} (he : r.entities.entityEntry env e = none) :
    r.addComponent env e c v = .ok (r, .err v) := by
  unfold Registry.addComponent
  rw [he]

theorem removeComponent_dead {r : Registry} {e : Entity} {c : CompTy} (he : r.entities.entityEntry env e = none) :
    r.removeComponent env e c = .ok (r, .err ()) := by
  unfold Registry.removeComponent
  rw [he]

/-- The rows after a move of `e` from row `k` of the archetype `src` (content `ct`): the row is removed there, and a row
with the values `val` is appended in the archetype `find` yields. -/
def RowsMoved (W : World env) (r : Registry) (cs : List Content) (e : Entity) (src : UInt16) (k : Nat) (ct : Content)
    (P : CompTy → Prop) (find : M (ArchetypeRegistry × Option (Nat × UInt16 × Nat))) (val : CompTy → Val)
    (r' : Registry) (cs' : List Content) : Prop :=
  ∃ ar1 cs1 dai b ctD, find = .ok (ar1, some (src.toNat, dai, dai.toNat)) ∧
    Target W r.archetypes cs src.toNat P ar1 cs1 dai b ctD ∧ ctD.ents.length < 8388608 ∧
    cs' = (cs1.set src.toNat (ct.swapPop k)).set dai.toNat (ctD.push e (ctD.cts.map val)) ∧ SameDescs ar1 r'.archetypes

/-- The archetype `find` yields is full. -/
def RowsFull (W : World env) (r : Registry) (cs : List Content) (src : UInt16) (P : CompTy → Prop)
    (find : M (ArchetypeRegistry × Option (Nat × UInt16 × Nat))) : Prop :=
  ∃ ar1 cs1 dai b ctD, find = .ok (ar1, some (src.toNat, dai, dai.toNat)) ∧
    Target W r.archetypes cs src.toNat P ar1 cs1 dai b ctD ∧ ctD.ents.length = 8388608

/-- `add_component` on a live entity. -/
theorem RInv.addComponent_spec {r : Registry} {cs : List Content} (h : RInv W r cs) {e : Entity} {en : EntityEntry}
    (he : r.entities.entityEntry env e = some en) {ct : Content} (hc : cs[(en.archetypeIndex env).toNat]? = some ct)
    {c : CompTy} (hW : W.Has c) {v : Val} (hv : v.HasTy c)
    (hu : c ∉ ct.cts → ct.cts.length ≤ 12 → ∀ s, AscSet s (AddedIds ct.cts c) → W.Used s) :
    (r.addComponent env e c v = .ok (r, .err v) ∧
      (c ∈ ct.cts ∨ ct.cts.length = 14 ∨
        (ct.cts.length ≤ 12 ∧ ∃ s, AscSet s (AddedIds ct.cts c) ∧ ¬ Room r.archetypes s.length (plainId env s))) ∧
      r.archetypes.findOrCreateAdding env (en.archetypeIndex env) c.descriptor = .ok (r.archetypes, none)) ∨
    (r.addComponent env e c v = .error (.panic .indexOutOfBounds) ∧ c ∉ ct.cts ∧ ct.cts.length = 13 ∧
      r.archetypes.findOrCreateAdding env (en.archetypeIndex env) c.descriptor = .error (.panic .indexOutOfBounds)) ∨
    (r.addComponent env e c v = .error (.ub .nullDeref) ∧ c ∉ ct.cts ∧ ct.cts.length ≤ 12 ∧
      (∃ s, AscSet s (AddedIds ct.cts c) ∧ Room r.archetypes s.length (plainId env s)) ∧
      ∃ (di : Nat) (ctD : Content), cs[di]? = some ctD ∧ (∀ c', c' ∈ ctD.cts ↔ c' = c ∨ c' ∈ ct.cts) ∧ ctD.ents.length = 8388608 ∧
        RowsFull W r cs (en.archetypeIndex env) (fun c' => c' = c ∨ c' ∈ ct.cts) (r.archetypes.findOrCreateAdding env (en.archetypeIndex env) c.descriptor)) ∨
    (c ∉ ct.cts ∧ ct.cts.length ≤ 12 ∧
      (∃ s, AscSet s (AddedIds ct.cts c) ∧ Room r.archetypes s.length (plainId env s)) ∧ ∃ r' cs', r.addComponent env e c v = .ok (r', .ok ()) ∧
      Moved W r cs e r' cs' (fun c' => if c' = c then some v else ct.get c' en.indexInArchetype.value.toNat) ∧
      (stored cs').Perm (stored cs ++ [v]) ∧
      RowsMoved W r cs e (en.archetypeIndex env) en.indexInArchetype.value.toNat ct (fun c' => c' = c ∨ c' ∈ ct.cts)
        (r.archetypes.findOrCreateAdding env (en.archetypeIndex env) c.descriptor)
        (fun c' => if c' = c then v else (ct.get c' en.indexInArchetype.value.toNat).getD default) r' cs') := by
  obtain ⟨a, ct0, ha, hc0, hr, hk, hloc, hlook⟩ := h.entry he
  rw [hc] at hc0; cases hc0
  have hkl := (List.getElem?_eq_some_iff.mp hk).1
  rcases h.arch.adding_spec ha hc hW hu with ⟨f1, f2⟩ | ⟨f1, f2, f3⟩ | ⟨f1, f2, f4, ar', cs', dai, b, ctD, f3, hT⟩
  · left
    refine ⟨?_, f2, f1⟩
    unfold Registry.addComponent
    rw [he]; simp only []; rw [f1]; rfl
  · right; left
    refine ⟨?_, f2, f3, f1⟩
    unfold Registry.addComponent
    rw [he]; simp only []; rw [f1]; rfl
  · right; right
    obtain ⟨a1, s1, s2, s3, s4⟩ := hr.swapToLast_spec (env := env) hkl
    have hl1 : (ct.swap en.indexInArchetype.value.toNat (ct.ents.length - 1)).ents.length = ct.ents.length := by
      simp [Content.swap, swapAt_length]
    have hswk : ∀ sw, ct.ents[ct.ents.length - 1]? = some sw →
        (ct.swap en.indexInArchetype.value.toNat (ct.ents.length - 1)).ents[en.indexInArchetype.value.toNat]? = some sw := by
      intro sw hsw
      show (swapAt ct.ents _ _)[_]? = _
      rw [getElem?_swapAt hkl (by omega)]
      split
      · next heq => rw [← heq] at hsw; exact hsw
      · rw [if_pos rfl]; exact hsw
    have hswl : (ct.swap en.indexInArchetype.value.toNat (ct.ents.length - 1)).ents[ct.ents.length - 1]? = some e := by
      show (swapAt ct.ents _ _)[_]? = _
      rw [getElem?_swapAt hkl (by omega), if_pos rfl]; exact hk
    obtain ⟨m, m1, m2, m3, m4, m5⟩ := h.fixSwap he hc (a1.entityAt en.indexInArchetype.value.toNat)
      (fun _ sw hsw => s4.entityAt_ok (hswk sw hsw))
    have hred : r.addComponent env e c v = (do
      let p ← b.pushUninitializedEntity env
      let dst := p.1
      let sIdx ← subU32 env a1.entityCount 1
      let dIdx ← subU32 env dst.entityCount 1
      let dst ← Archetype.copyCommonComponents a1 sIdx dst dIdx
      let dst ← dst.writeSingleComponentUnchecked c dIdx v
      let h ← a1.entityAt sIdx
      let dst ← dst.setEntityAt dIdx h
      let src ← a1.decrementLenUnchecked env
      let niia ← unwrap (IndexInArchetype.new (UInt32.ofNat dIdx))
      let ents ← unwrap (m.updateEntry env e
        (fun en => (en.setArchetypeIndex env dai).setIndexInArchetype niia))
      return (⟨ents, (ar'.setArchetype (en.archetypeIndex env).toNat src).setArchetype dai.toNat dst⟩, .ok ())) := by
      unfold Registry.addComponent
      rw [he]
      simp only []
      rw [f3]
      simp only [ok_bind]
      rw [index_of_getElem? (hT.grown.getA ha), index_of_getElem? hT.arch]
      simp only [ok_bind]
      rw [s1]
      simp only [ok_bind]
      rw [m1]
      rfl
    have hcnt : a1.entityCount = ct.ents.length := by rw [s4.count, hl1]
    have hDl := hT.rep.ents.len
    have hDc := hT.rep.cap.le
    rcases Nat.lt_or_ge ctD.ents.length 8388608 with hlt | hge
    · right
      obtain ⟨d1, d2, d3, d4, t1, t2, t3, t4, t5, t6, t7, t8⟩ := Rep.moveAdd_spec (k := ct.ents.length - 1) hT.rep s4
        (by omega) hlt ((hT.cts c).mpr (Or.inl rfl)) f1
        (fun c' hc' hne => by rcases (hT.cts c').mp hc' with rfl | hx; exact absurd rfl hne; exact hx) hv e
      obtain ⟨a2, x1, x2, x3, x4⟩ := s4.decrementLen_spec (env := env) (by omega)
      obtain ⟨n1, n2⟩ := IndexInArchetype.new_ofNat (n := ctD.ents.length) (by omega)
      have hgl := fun c' => hr.get_swap_last hkl c'
      obtain ⟨mm, y1, y2, y3⟩ := h.move he ha hc (x2.trans s2) (x3.trans s3) x4 hT hlt t6 t7
        (by rw [List.length_map]) t8 m2 m3 m4 m5
      refine ⟨f1, f2, f4, ⟨mm, (ar'.setArchetype (en.archetypeIndex env).toNat a2).setArchetype dai.toNat d4⟩,
        (cs'.set (en.archetypeIndex env).toNat (ct.swapPop en.indexInArchetype.value.toNat)).set dai.toNat
          (ctD.push e (ctD.cts.map (fun c' => if c' = c then v else ((ct.swap en.indexInArchetype.value.toNat (ct.ents.length - 1)).get c' (ct.ents.length - 1)).getD default))), ?_, ?_, ?_,
        ar', cs', dai, b, ctD, f3, hT, hlt, by simp only [hgl],
        SameDescs.set (SameDescs.set rfl (hT.grown.getA ha) (x2.trans s2)) ((List.getElem?_set_ne hT.ne).trans hT.arch) t6⟩
      · rw [hred, t1]
        simp only [ok_bind]
        rw [hcnt, subU32_le (by omega), t2, subU32_le (by omega)]
        simp only [ok_bind, Nat.add_sub_cancel]
        rw [t3]
        simp only [ok_bind]
        rw [t4]
        simp only [ok_bind]
        rw [s4.entityAt_ok hswl]
        simp only [ok_bind]
        rw [t5]
        simp only [ok_bind]
        rw [x1]
        simp only [ok_bind]
        rw [n1]
        simp only [unwrap, ok_bind]
        rw [y1]
        rfl
      · have hfun : (fun c' => lookupTy ctD.cts (ctD.cts.map (fun c' => if c' = c then v else ((ct.swap en.indexInArchetype.value.toNat (ct.ents.length - 1)).get c' (ct.ents.length - 1)).getD default)) c') =
            (fun c' => if c' = c then some v else ct.get c' en.indexInArchetype.value.toNat) := by
          funext c'
          rw [lookupTy_mapFn]
          by_cases hcc : c' = c
          · rw [if_pos ((hT.cts c').mpr (Or.inl hcc)), if_pos hcc, if_pos hcc]
          · rw [if_neg hcc, if_neg hcc, hgl]
            by_cases hmm : c' ∈ ct.cts
            · rw [if_pos ((hT.cts c').mpr (Or.inr hmm))]
              obtain ⟨w, hw, _⟩ := hr.get_some hmm hkl
              rw [hw]; rfl
            · rw [if_neg (fun hx => by rcases (hT.cts c').mp hx with q | q; exact hcc q; exact hmm q)]
              cases hg : ct.get c' en.indexInArchetype.value.toNat with
              | none => rfl
              | some w => exact absurd (hr.mem_of_get hg).1 hmm
        rw [hfun] at y2
        exact y2
      · have hpm : (ctD.cts.map (fun c' => if c' = c then v else ((ct.swap en.indexInArchetype.value.toNat (ct.ents.length - 1)).get c' (ct.ents.length - 1)).getD default)).Perm
            (v :: ct.rowVals en.indexInArchetype.value.toNat) := by
          have hp : ctD.cts.Perm (c :: ct.cts) := by
            rw [List.perm_ext_iff_of_nodup hT.rep.nodup (List.nodup_cons.mpr ⟨f1, hr.nodup⟩)]
            intro c'
            rw [hT.cts c', List.mem_cons]
          refine (hp.map _).trans ?_
          rw [List.map_cons, if_pos rfl, hr.rowVals_eq]
          refine List.Perm.cons _ (List.Perm.of_eq ?_)
          apply List.map_congr_left
          intro c' hc'
          rw [if_neg (fun (hx : c' = c) => f1 (hx ▸ hc')), hgl]
        have y4 := y3.trans (hpm.append_left _)
        have y5 : (stored cs ++ v :: ct.rowVals en.indexInArchetype.value.toNat) =
            ((stored cs ++ [v]) ++ ct.rowVals en.indexInArchetype.value.toNat) := by simp
        rw [y5] at y4
        exact (List.perm_append_right_iff _).mp y4
    · left
      have hfull : ctD.ents.length = 8388608 := by omega
      refine ⟨?_, f1, f2, f4, ?_⟩
      · obtain ⟨b1, z1, z2, z3⟩ := hT.rep.pushUninit_full (env := env) hfull
        rw [hred, z1]
        simp only [ok_bind]
        rw [hcnt, subU32_le (by omega), subU32_le (by omega)]
        simp only [ok_bind]
        obtain ⟨c0, hc0⟩ : ∃ c0, c0 ∈ ct.cts := ⟨_, List.getElem_mem (show 0 < ct.cts.length from hr.desc.pos)⟩
        rw [z3 s4 (show ct.ents.length - 1 < _ by omega) ((hT.cts c0).mpr (Or.inr hc0)) hc0]
        rfl
      · exact ⟨_, _, hT.old_of_full hfull, hT.cts, hfull, ar', cs', dai, b, ctD, f3, hT, hfull⟩

/-- `remove_component` on a live entity. -/
theorem RInv.removeComponent_spec {r : Registry} {cs : List Content} (h : RInv W r cs) {e : Entity} {en : EntityEntry}
    (he : r.entities.entityEntry env e = some en) {ct : Content} (hc : cs[(en.archetypeIndex env).toNat]? = some ct)
    {c : CompTy} (hW : W.Has c)
    (hu : c ∈ ct.cts → 2 ≤ ct.cts.length → ct.cts.length ≤ 13 → ∀ s, AscSet s (RemovedIds ct.cts c) → W.Used s) :
    (r.removeComponent env e c = .ok (r, .err ()) ∧
      (c ∉ ct.cts ∨ ct.cts.length = 1 ∨ (2 ≤ ct.cts.length ∧ ct.cts.length ≤ 13 ∧
        ∃ s, AscSet s (RemovedIds ct.cts c) ∧ ¬ Room r.archetypes s.length (plainId env s))) ∧
      r.archetypes.findOrCreateRemoving env (en.archetypeIndex env) c.descriptor = .ok (r.archetypes, none)) ∨
    (r.removeComponent env e c = .error (.panic .indexOutOfBounds) ∧ c ∈ ct.cts ∧ ct.cts.length = 14 ∧
      r.archetypes.findOrCreateRemoving env (en.archetypeIndex env) c.descriptor = .error (.panic .indexOutOfBounds)) ∨
    (r.removeComponent env e c = .error (.ub .nullDeref) ∧ c ∈ ct.cts ∧ 2 ≤ ct.cts.length ∧ ct.cts.length ≤ 13 ∧
      (∃ s, AscSet s (RemovedIds ct.cts c) ∧ Room r.archetypes s.length (plainId env s)) ∧
      ∃ (di : Nat) (ctD : Content), cs[di]? = some ctD ∧ (∀ c', c' ∈ ctD.cts ↔ c' ≠ c ∧ c' ∈ ct.cts) ∧ ctD.ents.length = 8388608 ∧
        RowsFull W r cs (en.archetypeIndex env) (fun c' => c' ≠ c ∧ c' ∈ ct.cts) (r.archetypes.findOrCreateRemoving env (en.archetypeIndex env) c.descriptor)) ∨
    (c ∈ ct.cts ∧ 2 ≤ ct.cts.length ∧ ct.cts.length ≤ 13 ∧
      (∃ s, AscSet s (RemovedIds ct.cts c) ∧ Room r.archetypes s.length (plainId env s)) ∧ ∃ r' cs' v, ct.get c en.indexInArchetype.value.toNat = some v ∧
      r.removeComponent env e c = .ok (r', .ok v) ∧
      Moved W r cs e r' cs' (fun c' => if c' = c then none else ct.get c' en.indexInArchetype.value.toNat) ∧
      (stored cs' ++ [v]).Perm (stored cs) ∧
      RowsMoved W r cs e (en.archetypeIndex env) en.indexInArchetype.value.toNat ct (fun c' => c' ≠ c ∧ c' ∈ ct.cts)
        (r.archetypes.findOrCreateRemoving env (en.archetypeIndex env) c.descriptor)
        (fun c' => (ct.get c' en.indexInArchetype.value.toNat).getD default) r' cs') := by
  obtain ⟨a, ct0, ha, hc0, hr, hk, hloc, hlook⟩ := h.entry he
  rw [hc] at hc0; cases hc0
  have hkl := (List.getElem?_eq_some_iff.mp hk).1
  rcases h.arch.removing_spec ha hc hW hu with ⟨f1, f2⟩ | ⟨f1, f2, f3⟩ | ⟨f1, f2, f22, f4, ar', cs', dai, b, ctD, f3, hT⟩
  · left
    refine ⟨?_, f2, f1⟩
    unfold Registry.removeComponent
    rw [he]; simp only []; rw [f1]; rfl
  · right; left
    refine ⟨?_, f2, f3, f1⟩
    unfold Registry.removeComponent
    rw [he]; simp only []; rw [f1]; rfl
  · right; right
    obtain ⟨a1, s1, s2, s3, s4⟩ := hr.swapToLast_spec (env := env) hkl
    have hl1 : (ct.swap en.indexInArchetype.value.toNat (ct.ents.length - 1)).ents.length = ct.ents.length := by
      simp [Content.swap, swapAt_length]
    have hswk : ∀ sw, ct.ents[ct.ents.length - 1]? = some sw →
        (ct.swap en.indexInArchetype.value.toNat (ct.ents.length - 1)).ents[en.indexInArchetype.value.toNat]? = some sw := by
      intro sw hsw
      show (swapAt ct.ents _ _)[_]? = _
      rw [getElem?_swapAt hkl (by omega)]
      split
      · next heq => rw [← heq] at hsw; exact hsw
      · rw [if_pos rfl]; exact hsw
    have hswl : (ct.swap en.indexInArchetype.value.toNat (ct.ents.length - 1)).ents[ct.ents.length - 1]? = some e := by
      show (swapAt ct.ents _ _)[_]? = _
      rw [getElem?_swapAt hkl (by omega), if_pos rfl]; exact hk
    obtain ⟨m, m1, m2, m3, m4, m5⟩ := h.fixSwap he hc (a1.entityAt en.indexInArchetype.value.toNat)
      (fun _ sw hsw => s4.entityAt_ok (hswk sw hsw))
    have hred : r.removeComponent env e c = (do
      let p ← b.pushUninitializedEntity env
      let dst := p.1
      let sIdx ← subU32 env a1.entityCount 1
      let dIdx ← subU32 env dst.entityCount 1
      let dst ← Archetype.copyCommonComponents a1 sIdx dst dIdx
      let v ← a1.readComponentUnchecked c sIdx
      let h ← a1.entityAt sIdx
      let dst ← dst.setEntityAt dIdx h
      let src ← a1.decrementLenUnchecked env
      let niia ← unwrap (IndexInArchetype.new (UInt32.ofNat dIdx))
      let ents ← unwrap (m.updateEntry env e
        (fun en => (en.setArchetypeIndex env dai).setIndexInArchetype niia))
      return (⟨ents, (ar'.setArchetype (en.archetypeIndex env).toNat src).setArchetype dai.toNat dst⟩, .ok v)) := by
      unfold Registry.removeComponent
      rw [he]
      simp only []
      rw [f3]
      simp only [ok_bind]
      rw [index_of_getElem? (hT.grown.getA ha), index_of_getElem? hT.arch]
      simp only [ok_bind]
      rw [s1]
      simp only [ok_bind]
      rw [m1]
      rfl
    have hcnt : a1.entityCount = ct.ents.length := by rw [s4.count, hl1]
    have hDl := hT.rep.ents.len
    have hDc := hT.rep.cap.le
    rcases Nat.lt_or_ge ctD.ents.length 8388608 with hlt | hge
    · right
      obtain ⟨d1, d2, d4, t1, t2, t3, t5, t6, t7, t8⟩ := Rep.moveRemove_spec (env := env) (k := ct.ents.length - 1) hT.rep s4
        (by omega) hlt (fun c' hc' => ((hT.cts c').mp hc').2) e
      obtain ⟨w, hw, _⟩ := hr.get_some f1 hkl
      obtain ⟨a2, x1, x2, x3, x4⟩ := s4.decrementLen_spec (env := env) (by omega)
      obtain ⟨n1, n2⟩ := IndexInArchetype.new_ofNat (n := ctD.ents.length) (by omega)
      have hgl := fun c' => hr.get_swap_last hkl c'
      obtain ⟨mm, y1, y2, y3⟩ := h.move he ha hc (x2.trans s2) (x3.trans s3) x4 hT hlt t6 t7
        (by rw [List.length_map]) t8 m2 m3 m4 m5
      refine ⟨f1, f2, f22, f4, ⟨mm, (ar'.setArchetype (en.archetypeIndex env).toNat a2).setArchetype dai.toNat d4⟩,
        (cs'.set (en.archetypeIndex env).toNat (ct.swapPop en.indexInArchetype.value.toNat)).set dai.toNat
          (ctD.push e (ctD.cts.map (fun c' => ((ct.swap en.indexInArchetype.value.toNat (ct.ents.length - 1)).get c' (ct.ents.length - 1)).getD default))), w, hw, ?_, ?_, ?_,
        ar', cs', dai, b, ctD, f3, hT, hlt, by simp only [hgl],
        SameDescs.set (SameDescs.set rfl (hT.grown.getA ha) (x2.trans s2)) ((List.getElem?_set_ne hT.ne).trans hT.arch) t6⟩
      · rw [hred, t1]
        simp only [ok_bind]
        rw [hcnt, subU32_le (by omega), t2, subU32_le (by omega)]
        simp only [ok_bind, Nat.add_sub_cancel]
        rw [t3]
        simp only [ok_bind]
        rw [s4.readComponentUnchecked_ok (v := w) (by rw [hgl]; exact hw)]
        simp only [ok_bind]
        rw [s4.entityAt_ok hswl]
        simp only [ok_bind]
        rw [t5]
        simp only [ok_bind]
        rw [x1]
        simp only [ok_bind]
        rw [n1]
        simp only [unwrap, ok_bind]
        rw [y1]
        rfl
      · have hfun : (fun c' => lookupTy ctD.cts (ctD.cts.map (fun c' => ((ct.swap en.indexInArchetype.value.toNat (ct.ents.length - 1)).get c' (ct.ents.length - 1)).getD default)) c') =
            (fun c' => if c' = c then none else ct.get c' en.indexInArchetype.value.toNat) := by
          funext c'
          rw [lookupTy_mapFn]
          by_cases hcc : c' = c
          · rw [if_neg (fun hx => ((hT.cts c').mp hx).1 hcc), if_pos hcc]
          · rw [if_neg hcc, hgl]
            by_cases hmm : c' ∈ ct.cts
            · rw [if_pos ((hT.cts c').mpr ⟨hcc, hmm⟩)]
              obtain ⟨w, hw, _⟩ := hr.get_some hmm hkl
              rw [hw]; rfl
            · rw [if_neg (fun hx => hmm ((hT.cts c').mp hx).2)]
              cases hg : ct.get c' en.indexInArchetype.value.toNat with
              | none => rfl
              | some w => exact absurd (hr.mem_of_get hg).1 hmm
        rw [hfun] at y2
        exact y2
      · have hpm : (ct.rowVals en.indexInArchetype.value.toNat).Perm
            (w :: ctD.cts.map (fun c' => ((ct.swap en.indexInArchetype.value.toNat (ct.ents.length - 1)).get c' (ct.ents.length - 1)).getD default)) := by
          have hp : ct.cts.Perm (c :: ctD.cts) := by
            rw [List.perm_ext_iff_of_nodup hr.nodup (List.nodup_cons.mpr ⟨fun hx => ((hT.cts c).mp hx).1 rfl, hT.rep.nodup⟩)]
            intro c'
            rw [List.mem_cons, hT.cts c']
            constructor
            · intro hx
              by_cases hcc : c' = c
              · exact Or.inl hcc
              · exact Or.inr ⟨hcc, hx⟩
            · rintro (rfl | hx)
              · exact f1
              · exact hx.2
          rw [hr.rowVals_eq]
          refine (hp.map _).trans ?_
          rw [List.map_cons, hw]
          refine List.Perm.cons _ (List.Perm.of_eq ?_)
          apply List.map_congr_left
          intro c' hc'
          rw [hgl]
        have y4 := (hpm.append_left _).symm.trans y3
        rw [show ∀ (l : List Val) (x : List Val), l ++ w :: x = (l ++ [w]) ++ x by intros; simp] at y4
        exact (List.perm_append_right_iff _).mp y4
    · left
      have hfull : ctD.ents.length = 8388608 := by omega
      refine ⟨?_, f1, f2, f22, f4, ?_⟩
      · obtain ⟨b1, z1, z2, z3⟩ := hT.rep.pushUninit_full (env := env) hfull
        rw [hred, z1]
        simp only [ok_bind]
        rw [hcnt, subU32_le (by omega), subU32_le (by omega)]
        simp only [ok_bind]
        obtain ⟨c0, hc0⟩ : ∃ c0, c0 ∈ ctD.cts := ⟨_, List.getElem_mem (show 0 < ctD.cts.length from hT.rep.desc.pos)⟩
        rw [z3 s4 (show ct.ents.length - 1 < _ by omega) hc0 ((hT.cts c0).mp hc0).2]
        rfl
      · exact ⟨_, _, hT.old_of_full hfull, hT.cts, hfull, ar', cs', dai, b, ctD, f3, hT, hfull⟩

end Shard
