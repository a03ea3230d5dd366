import Verif.Proofs.RefRows
import Verif.Proofs.HashSpec
/-!
# Interning tables, and the slots of the reference registry
-/

set_option autoImplicit false

namespace Shard

variable {env : Env} {W : World env}

/-! ## Types -/

theorem insertTy_perm (c : CompTy) : ∀ l : List CompTy, (insertTy c l).Perm (c :: l)
  | [] => List.Perm.refl _
  | d :: l => by
    unfold insertTy
    split
    · exact List.Perm.refl _
    · exact ((insertTy_perm c l).cons d).trans (List.Perm.swap c d l)

theorem insertTy_ids (c : CompTy) : ∀ l : List CompTy, tyIds (insertTy c l) = insertId c.id (tyIds l)
  | [] => rfl
  | d :: l => by
    have ih := insertTy_ids c l
    simp only [tyIds] at ih
    simp only [insertTy, tyIds, List.map_cons, insertId]
    split <;> simp [ih]

theorem sortTys_perm : ∀ g : Group, (sortTys g).Perm g
  | [] => List.Perm.refl _
  | c :: g => (insertTy_perm c (sortTys g)).trans ((sortTys_perm g).cons c)

theorem sortTys_asc : ∀ {g : Group}, (tyIds g).Nodup → (tyIds (sortTys g)).Pairwise (fun a b => a < b)
  | [], _ => List.Pairwise.nil
  | c :: g, h => by
    obtain ⟨h1, h2⟩ := List.nodup_cons.mp h
    show (tyIds (insertTy c (sortTys g))).Pairwise _
    rw [insertTy_ids]
    refine (insertId_asc (sortTys_asc h2) ?_).1
    exact fun hx => h1 (((sortTys_perm g).map (fun c => c.id)).mem_iff.mp hx)

theorem sortTys_ids {g : Group} (h : (tyIds g).Nodup) : tyIds (sortTys g) = g.idSet := by
  refine sorted_perm_ids ((sortTys_asc h).imp UInt16.le_of_lt) g.idSet_sorted ?_
  exact ((sortTys_perm g).map _).trans g.idSet_perm.symm

theorem tyIds_inj : ∀ {l l' : List CompTy}, (∀ c ∈ l, W.Has c) → (∀ c ∈ l', W.Has c) → tyIds l = tyIds l' → l = l'
  | [], [], _, _, _ => rfl
  | [], _ :: _, _, _, h => by simp [tyIds] at h
  | _ :: _, [], _, _, h => by simp [tyIds] at h
  | c :: l, c' :: l', h1, h2, h => by
    simp only [tyIds, List.map_cons, List.cons.injEq] at h
    rw [W.id_inj (h1 c List.mem_cons_self) (h2 c' List.mem_cons_self) h.1,
      tyIds_inj (fun x hx => h1 x (List.mem_cons_of_mem _ hx)) (fun x hx => h2 x (List.mem_cons_of_mem _ hx)) h.2]

theorem erase_ids {c : CompTy} (hc : W.Has c) : ∀ {l : List CompTy}, (∀ c ∈ l, W.Has c) →
    tyIds (l.erase c) = (tyIds l).erase c.id
  | [], _ => rfl
  | d :: l, h => by
    have ih := erase_ids hc (fun x hx => h x (List.mem_cons_of_mem _ hx))
    by_cases hd : d = c
    · subst hd; simp [tyIds]
    · have hid : d.id ≠ c.id := fun hx => hd (W.id_inj (h d List.mem_cons_self) hc hx)
      rw [List.erase_cons_tail (by simpa using hd)]
      simp only [tyIds, List.map_cons] at ih ⊢
      rw [List.erase_cons_tail (by simpa using hid), ih]

/-- The types of a valid group, sorted. -/
theorem sortTys_eq {g : Group} (hg : W.OkGroup g) (hv : (g.descriptor env).isValid = true) : sortTys g = g.cts env := by
  have gs := Group.spec hv
  have hd := Group.descOK hg hv
  apply tyIds_inj (W := W) (fun c hc => hg.has c ((sortTys_perm g).mem_iff.mp hc)) hd.has
  rw [sortTys_ids gs.wf.nodup, ← gs.ids_eq, hd.ids_eq]; rfl

/-! ## Archetype ids -/

theorem createdId_eq (env : Env) {cts : List CompTy} (h : cts.length ≤ 14) : createdId env cts = groupId env (tyIds cts) := by
  have h1 := computeArchetypeId_group env ((tyIds cts).map idOnly) (by simpa [tyIds] using h)
  have h2 : ((tyIds cts).map idOnly).map (fun d => d.id) = tyIds cts := by
    rw [List.map_map]; exact List.map_id _
  rw [h2] at h1
  unfold createdId
  rw [← h1, UInt32.ofNat_toNat]
  unfold groupId
  rw [List.length_map]

theorem changedId_eq (env : Env) {cts : List CompTy} (h1 : 1 ≤ cts.length) (h : cts.length ≤ 14) :
    changedId env cts = plainId env (tyIds cts) := by
  have h1 := computeArchetypeId_moved env ((tyIds cts).map idOnly) (by simpa [tyIds] using h1) (by simpa [tyIds] using h)
  have h2 : ((tyIds cts).map idOnly).map (fun d => d.id) = tyIds cts := by
    rw [List.map_map]; exact List.map_id _
  rw [h2] at h1
  unfold changedId
  rw [← h1, UInt32.ofNat_toNat]
  rfl

/-! ## Keys -/

/-- The key of a table. -/
def RTable.key (t : RTable) : ArchKey := (tyIds t.cts, t.id)

theorem tableIndex_key {cts : List CompTy} {id : UInt32} : ∀ ts : List RTable,
    tableIndex ts cts.length id = keyIndex (ts.map RTable.key) (tyIds cts, id)
  | [] => rfl
  | t :: ts => by
    simp only [tableIndex, keyIndex, List.map_cons]
    rw [tableIndex_key ts]
    have : (t.key.1.length = (tyIds cts).length ∧ t.key.2 = id) ↔ (t.cts.length = cts.length ∧ t.id = id) := by
      simp [RTable.key, tyIds]
    by_cases hx : t.cts.length = cts.length ∧ t.id = id
    · rw [if_pos hx, if_pos (this.mpr hx)]
    · rw [if_neg hx, if_neg (fun h => hx (this.mp h))]

theorem internTable_key (ts : List RTable) (cts : List CompTy) (id : UInt32) :
    (internTable ts cts id).2 = (keyIntern (ts.map RTable.key) (tyIds cts, id)).2 ∧
    (((internTable ts cts id).1 = ts ∧ (keyIntern (ts.map RTable.key) (tyIds cts, id)).1 = ts.map RTable.key) ∨
      ((internTable ts cts id).1 = ts ++ [⟨cts, id, []⟩] ∧
        (keyIntern (ts.map RTable.key) (tyIds cts, id)).1 = ts.map RTable.key ++ [(tyIds cts, id)])) := by
  unfold internTable keyIntern
  rw [tableIndex_key]
  dsimp only
  split
  · exact ⟨rfl, Or.inl ⟨rfl, rfl⟩⟩
  · cases keyIndex (ts.map RTable.key) (tyIds cts, id) with
    | some i => exact ⟨rfl, Or.inl ⟨rfl, rfl⟩⟩
    | none =>
      dsimp only
      rw [List.length_map]
      split
      · exact ⟨rfl, Or.inr ⟨rfl, rfl⟩⟩
      · exact ⟨rfl, Or.inl ⟨rfl, rfl⟩⟩

theorem ARInv.keys_tables {ar : ArchetypeRegistry} {cs : List Content} (h : ARInv W ar cs) :
    (tablesOf ar.idsOf cs).map RTable.key = ar.keysOf := by
  apply List.ext_getElem?
  intro i
  rw [List.getElem?_map]
  unfold ArchetypeRegistry.keysOf
  rw [List.getElem?_map]
  cases ha : ar.archetypes[i]? with
  | none =>
    have : (tablesOf ar.idsOf cs)[i]? = none := by
      rw [List.getElem?_eq_none_iff] at ha ⊢
      rw [tablesOf_length h.ids_length, h.len]; exact ha
    rw [this]; rfl
  | some a =>
    obtain ⟨ct, hc, hr⟩ := h.content ha
    rw [ARInv.table hc ha]
    simp only [Option.map_some, RTable.key]
    rw [show tyIds ct.cts = a.descriptor.ids from hr.desc.ids_eq.symm]; rfl

theorem tablesOf_append {ids : List UInt32} {cs : List Content} (h : ids.length = cs.length) (id : UInt32) (ct : Content) :
    tablesOf (ids ++ [id]) (cs ++ [ct]) = tablesOf ids cs ++ [⟨ct.cts, id, ct.rows⟩] := by
  unfold tablesOf
  rw [List.zipWith_append h]; rfl

/-- The tables after a table was found or created. -/
theorem Grown.tables {ar ar1 : ArchetypeRegistry} {cs cs1 : List Content} (hg : Grown ar cs ar1 cs1) (h : ARInv W ar cs)
    (h1 : ARInv W ar1 cs1) {cts : List CompTy} {id : UInt32} (hcts : ∀ c ∈ cts, W.Has c)
    (hk : ar1.keysOf = (keyIntern ar.keysOf (tyIds cts, id)).1) :
    tablesOf ar1.idsOf cs1 = (internTable (tablesOf ar.idsOf cs) cts id).1 := by
  obtain ⟨_, ha⟩ := internTable_key (tablesOf ar.idsOf cs) cts id
  rw [h.keys_tables, ← hk] at ha
  rcases hg with ⟨rfl, rfl⟩ | ⟨a, cts', q1, _, _, q2⟩
  · rcases ha with ⟨e1, _⟩ | ⟨_, e2⟩
    · exact e1.symm
    · have := congrArg List.length e2
      simp at this
  · have hk1 : ar1.keysOf = ar.keysOf ++ [(a.descriptor.ids, a.descriptor.archetypeId)] := by
      unfold ArchetypeRegistry.keysOf
      rw [q1, List.map_append]; rfl
    rcases ha with ⟨_, e2⟩ | ⟨e1, e2⟩
    · rw [hk1] at e2
      have := congrArg List.length e2
      simp at this
    · rw [hk1] at e2
      have e3 := List.append_cancel_left e2
      simp only [List.cons.injEq, Prod.mk.injEq, and_true] at e3
      subst q2
      have hids : ar1.idsOf = ar.idsOf ++ [a.descriptor.archetypeId] := by
        unfold ArchetypeRegistry.idsOf
        rw [q1, List.map_append]; rfl
      have har : ar1.archetypes[cs.length]? = some a := by
        rw [q1, h.len, List.getElem?_append_right (Nat.le_refl _)]; simp
      have hr := h1.rep cs.length a (Content.empty cts') har (by simp)
      have hcc : cts' = cts := by
        apply tyIds_inj (W := W) hr.desc.has hcts
        rw [← e3.1, hr.desc.ids_eq]; rfl
      rw [hids, tablesOf_append h.ids_length, e1, e3.2, Content.rows_empty]
      subst hcc
      rfl

/-! ## Slots -/

/-- The slots of the reference are those of the entity registry. -/
structure SlotRel (env : Env) (er : EntityRegistry) (vs : List UInt8) (fl : List Nat) : Prop where
  versions : vs = er.entities.map (fun en => en.version)
  free : FreeList env er fl

theorem SlotRel.updated {er er' : EntityRegistry} {vs : List UInt8} {fl : List Nat} (h : SlotRel env er vs fl)
    (hu : Updated env er er') : SlotRel env er' vs fl := by
  refine ⟨?_, hu.freeList h.free⟩
  rw [h.versions]
  apply List.ext_getElem?
  intro i
  rw [List.getElem?_map, List.getElem?_map]
  cases hx : er.entities[i]? with
  | none => rw [hu.none hx]
  | some en =>
    obtain ⟨en', h1, h2, _⟩ := hu.slot i en hx
    rw [h1]; simp [h2]

theorem SlotRel.created {r r' : EntityRegistry} {R : RReg} (h : SlotRel env r R.versions R.free) (hinv : EntInv env r)
    {e : Entity} {iia : IndexInArchetype} {ai : ArchetypeIndex} (hc : EntityRegistry.Created env r r' e iia ai) :
    e = R.next ∧ SlotRel env r' R.alloc.versions R.alloc.free := by
  have hlen : R.versions.length = r.entities.length := by rw [h.versions, List.length_map]
  have hpop := hc.pop _ h.free
  have hM : MAX_ENTITY_HANDLE_VALUE = 16777215 := rfl
  have hle := hinv.len_le
  obtain ⟨en1, n1, n2, n3, n4, n5⟩ := hc.new
  cases hfl : R.free with
  | nil =>
    have hfree := h.free
    rw [hfl] at hfree hpop
    have hnext : r.nextFreeSlot = IndexInArchetype.INVALID_VALUE := hfree.1
    have hidx := hc.fresh hnext
    have hver : e.version = 0 := by
      rcases hc.old with ⟨_, h2, _⟩ | ⟨en, h1, _⟩
      · exact h2
      · have := (List.getElem?_eq_some_iff.mp h1).1; omega
    have hal : R.alloc = { R with versions := R.versions ++ [0] } := by unfold RReg.alloc; rw [hfl]
    constructor
    · unfold RReg.next RReg.handle
      rw [hfl]
      simp only [List.headD_nil]
      rw [List.getElem?_eq_none (Nat.le_refl _), hlen, ← hidx]
      simp only [Option.getD_none, UInt32.ofNat_toNat]
      rw [← hver, Entity.newUnchecked_index_version]
    · rw [hal]
      refine ⟨?_, by simpa [hfl] using hpop⟩
      simp only []
      rw [h.versions]
      have hl' := hc.length
      apply List.ext_getElem?
      intro i
      rcases Nat.lt_trichotomy i r.entities.length with hi | hi | hi
      · rw [List.getElem?_append_left (by rw [List.length_map]; exact hi), List.getElem?_map, List.getElem?_map,
          hc.frame i (by omega)]
      · rw [List.getElem?_append_right (by rw [List.length_map]; omega), List.getElem?_map, List.length_map]
        rw [hi, Nat.sub_self, ← hidx, n1]
        simp [n2, hver]
      · rw [List.getElem?_eq_none (by simp; omega), List.getElem?_eq_none (by rw [List.length_map]; omega)]
  | cons i rest =>
    have hfree := h.free
    rw [hfl] at hfree hpop
    obtain ⟨hi, en, hen, _⟩ := hfree.1
    have hil := (List.getElem?_eq_some_iff.mp hen).1
    have hne : r.nextFreeSlot ≠ IndexInArchetype.INVALID_VALUE := by
      intro hx
      rw [hx] at hi
      have : IndexInArchetype.INVALID_VALUE.toNat = 16777215 := rfl
      omega
    have hidx := hc.lifo hne
    have hidx' : e.index.toNat = i := by rw [hidx]; exact hi
    have hver : en.version = e.version := by
      rcases hc.old with ⟨h1, _⟩ | ⟨en', h1, _, h3⟩
      · rw [hidx', hen] at h1; cases h1
      · rw [hidx', hen] at h1; cases h1; exact h3
    have hal : R.alloc = { R with free := rest } := by unfold RReg.alloc; rw [hfl]
    constructor
    · unfold RReg.next RReg.handle
      rw [hfl]
      simp only [List.headD_cons]
      rw [h.versions, List.getElem?_map, hen, ← hidx']
      simp only [Option.map_some, Option.getD_some, UInt32.ofNat_toNat]
      rw [hver, Entity.newUnchecked_index_version]
    · rw [hal]
      refine ⟨?_, hpop⟩
      simp only []
      rw [h.versions]
      apply List.ext_getElem?
      intro j
      rw [List.getElem?_map, List.getElem?_map]
      by_cases hj : j = i
      · subst hj
        rw [hen, ← hidx', n1]
        simp [n2, hver]
      · rw [hc.frame j (by rw [hidx']; exact hj)]

theorem SlotRel.destroyed {r r' : EntityRegistry} {R : RReg} (h : SlotRel env r R.versions R.free)
    {e : Entity} (hc : EntityRegistry.Destroyed env r r' e) (hlt : e.index.toNat < r.entities.length) :
    SlotRel env r' (R.retire e).versions (R.retire e).free := by
  unfold RReg.retire
  refine ⟨?_, hc.push _ h.free⟩
  simp only []
  rw [h.versions]
  obtain ⟨en, n1, n2, _⟩ := hc.new
  apply List.ext_getElem?
  intro j
  rw [List.getElem?_map]
  by_cases hj : e.index.toNat = j
  · subst hj
    rw [List.getElem?_set_self (by rw [List.length_map]; exact hlt), n1]
    simp [n2]
  · rw [List.getElem?_set_ne hj, List.getElem?_map, hc.frame j (fun h => hj h.symm)]

end Shard
