import Verif.Spec.Archetypes
import Verif.Proofs.Progress
/-!
# The archetype registry simulates the list of keys
-/

set_option autoImplicit false

namespace Shard

variable {env : Env} {W : World env}

/-! ## Keys -/

/-- Two keys that share an archetype. -/
def SameKey (k q : ArchKey) : Prop := k.1.length = q.1.length ∧ k.2 = q.2

theorem keyIndex_none {l : List ArchKey} {q : ArchKey} (h : ∀ (j : Nat) (k : ArchKey), l[j]? = some k → ¬ SameKey k q) :
    keyIndex l q = none := by
  induction l with
  | nil => rfl
  | cons k l ih =>
    unfold keyIndex
    rw [if_neg (show ¬ (k.1.length = q.1.length ∧ k.2 = q.2) from h 0 k rfl), ih (fun j k' hj => h (j + 1) k' hj)]
    rfl

theorem keyIndex_some {l : List ArchKey} {q k : ArchKey} {i : Nat} (hi : l[i]? = some k) (hk : SameKey k q)
    (hu : ∀ (j : Nat) (k' : ArchKey), l[j]? = some k' → SameKey k' q → j = i) : keyIndex l q = some i := by
  induction l generalizing i with
  | nil => cases hi
  | cons k0 l ih =>
    unfold keyIndex
    by_cases h0 : SameKey k0 q
    · have := hu 0 k0 rfl h0
      subst this
      exact if_pos h0
    · rw [if_neg (show ¬ (k0.1.length = q.1.length ∧ k0.2 = q.2) from h0)]
      cases i with
      | zero => cases hi; exact absurd hk h0
      | succ i =>
        rw [ih hi (fun j k' hj hs => by have := hu (j + 1) k' hj hs; omega)]
        rfl

theorem insertId_asc {i : UInt16} : ∀ {l : List UInt16}, l.Pairwise (fun a b => a < b) → i ∉ l →
    AscSet (insertId i l) (fun j => j = i ∨ j ∈ l)
  | [], _, _ => ⟨List.pairwise_singleton _ _, fun j => by simp [insertId]⟩
  | k :: l, hp, hn => by
    obtain ⟨h1, h2⟩ := List.pairwise_cons.mp hp
    unfold insertId
    split
    · next hlt =>
      refine ⟨List.pairwise_cons.mpr ⟨?_, hp⟩, fun j => List.mem_cons⟩
      intro b hb
      rcases List.mem_cons.mp hb with rfl | hb
      · exact hlt
      · exact UInt16.lt_trans hlt (h1 b hb)
    · next hge =>
      have hki : k < i := UInt16.lt_of_le_of_ne (UInt16.not_lt.mp hge) (fun h => hn (by rw [h]; exact List.mem_cons_self))
      obtain ⟨q1, q2⟩ := insertId_asc h2 (fun h => hn (List.mem_cons_of_mem _ h))
      refine ⟨List.pairwise_cons.mpr ⟨?_, q1⟩, ?_⟩
      · intro b hb
        rcases (q2 b).mp hb with rfl | hb
        · exact hki
        · exact h1 b hb
      · intro j
        rw [List.mem_cons, q2]
        simp only [List.mem_cons]
        constructor
        · rintro (h | h | h) <;> simp [h]
        · rintro (h | h | h) <;> simp [h]

theorem erase_asc {i : UInt16} {l : List UInt16} (hp : l.Pairwise (fun a b => a < b)) :
    AscSet (l.erase i) (fun j => j ≠ i ∧ j ∈ l) := by
  refine ⟨hp.sublist List.erase_sublist, fun j => ?_⟩
  have hn : l.Nodup := hp.imp (fun {a b} hlt he => by subst he; exact UInt16.lt_irrefl _ hlt)
  exact hn.mem_erase_iff

/-! ## Groups -/

theorem Group.archetypeId_idSet {g : Group} (h : g.WF) : g.archetypeId env = groupId env g.idSet := by
  obtain ⟨s, hs, hperm, hsorted⟩ := ComponentGroupDescriptor.computeSortedDescriptors_spec
    (ds := g.map CompTy.descriptor) (by simpa using h.le)
  unfold Group.archetypeId
  have hsl : s.length = g.length := by rw [hperm.length_eq, List.length_map]
  have hids : s.map (fun d => d.id) = g.idSet := by
    apply sorted_perm_ids ?_ g.idSet_sorted
    · refine List.Perm.trans ?_ g.idSet_perm.symm
      have := hperm.map (fun c => c.id)
      rwa [List.map_map] at this
    · rw [List.pairwise_map]
      exact hsorted.imp (fun h => UInt16.le_iff_toNat_le.mpr h)
  rw [hs, List.length_map, ← hsl, groupId_eq, hids]

theorem Group.key_some {g : Group} {k : ArchKey} (h : g.key env = some k) : g.WF ∧ k = (g.idSet, groupId env g.idSet) := by
  unfold Group.key at h
  split at h
  · next hw => cases h; exact ⟨⟨hw.1, hw.2.1, hw.2.2⟩, rfl⟩
  · cases h

theorem Group.key_none {g : Group} (h : g.key env = none) : ¬ g.WF := by
  intro hw
  unfold Group.key at h
  rw [if_pos ⟨hw.pos, hw.le, hw.nodup⟩] at h
  cases h

/-! ## The relation -/

/-- The registry `ar` has the keys `l`. -/
def ArchRel (W : World env) (ar : ArchetypeRegistry) (l : List ArchKey) : Prop :=
  (∃ cs, ARInv W ar cs) ∧ l = ar.keysOf

namespace ArchRel

variable {ar : ArchetypeRegistry} {l : List ArchKey}

theorem default (W : World env) : ArchRel W ArchetypeRegistry.default [] := ⟨⟨[], ARInv.default W⟩, rfl⟩

theorem length (h : ArchRel W ar l) : l.length = ar.archetypes.length := by
  rw [h.2]; exact List.length_map _

theorem key (h : ArchRel W ar l) (i : Nat) :
    l[i]? = (ar.archetypes[i]?).map (fun a => (a.descriptor.ids, a.descriptor.archetypeId)) := by
  rw [h.2]; exact List.getElem?_map ..

theorem wf (h : ArchRel W ar l) {i : Nat} {a : Archetype} (ha : ar.archetypes[i]? = some a) :
    ∃ cts, DescOK W a.descriptor cts := by
  obtain ⟨⟨cs, hi⟩, _⟩ := h
  obtain ⟨ct, _, hr⟩ := hi.content ha
  exact ⟨_, hr.desc⟩

theorem index_some (h : ArchRel W ar l) {i : Nat} {a : Archetype} (ha : ar.archetypes[i]? = some a) {q : ArchKey}
    (hl : a.descriptor.len = q.1.length) (hid : a.descriptor.archetypeId = q.2) : keyIndex l q = some i := by
  obtain ⟨cts, hd⟩ := h.wf ha
  refine keyIndex_some (k := (a.descriptor.ids, a.descriptor.archetypeId)) (by rw [h.key, ha]; rfl)
    ⟨by rw [hd.wf.ids_length]; exact hl, hid⟩ ?_
  intro j k hj hk
  rw [h.key] at hj
  cases hb : ar.archetypes[j]? with
  | none => rw [hb] at hj; cases hj
  | some b =>
    rw [hb] at hj
    cases hj
    obtain ⟨cts', hd'⟩ := h.wf hb
    obtain ⟨⟨cs, hi⟩, _⟩ := h
    obtain ⟨k1, k2⟩ := hk
    have k1 : b.descriptor.ids.length = q.1.length := k1
    rw [hd'.wf.ids_length] at k1
    exact hi.unique_index hb ha (by rw [k1, hl]) (k2.trans hid.symm)

theorem index_none (h : ArchRel W ar l) {q : ArchKey} (hn : ∀ (j : Nat) (a : Archetype), ar.archetypes[j]? = some a →
    a.descriptor.len = q.1.length → a.descriptor.archetypeId ≠ q.2) : keyIndex l q = none := by
  refine keyIndex_none ?_
  intro j k hj hk
  rw [h.key] at hj
  cases hb : ar.archetypes[j]? with
  | none => rw [hb] at hj; cases hj
  | some b =>
    rw [hb] at hj
    cases hj
    obtain ⟨cts', hd'⟩ := h.wf hb
    obtain ⟨k1, k2⟩ := hk
    have k1 : b.descriptor.ids.length = q.1.length := k1
    rw [hd'.wf.ids_length] at k1
    exact hn j b hb k1 k2

/-- What an operation may do to the archetypes: keep them, or append an empty one. -/
def Ext (ar ar' : ArchetypeRegistry) : Prop :=
  ar' = ar ∨ ∃ a, ar'.archetypes = ar.archetypes ++ [a] ∧ a.entityCount = 0

theorem intern (h : ArchRel W ar l) {d : ArchetypeDescriptor} {cts : List CompTy} (hd : d.isValid = true → DescOK W d cts)
    {q : ArchKey} (hq : q.1 = d.ids) (hlen : d.ids.length = d.len) (hid : d.archetypeId = q.2) :
    ∃ x, ar.findOrCreateArchetype env d = .ok x ∧ ArchRel W x.1 (keyIntern l q).1 ∧
      x.2.map UInt16.toNat = (keyIntern l q).2 ∧ Ext ar x.1 := by
  unfold keyIntern
  cases hv : d.isValid with
  | false =>
    have : q.2 = 4294967295 := by
      rw [← hid]
      unfold ArchetypeDescriptor.isValid at hv
      exact bne_eq_false_iff_eq.mp hv
    rw [if_pos this, ARInv.findOrCreate_invalid hv]
    exact ⟨_, rfl, h, rfl, Or.inl rfl⟩
  | true =>
    have : ¬ q.2 = 4294967295 := by
      rw [← hid]
      unfold ArchetypeDescriptor.isValid at hv
      exact bne_iff_ne.mp hv
    rw [if_neg this]
    have hd := hd hv
    obtain ⟨cs, hi⟩ := h.1
    have hql : d.len = q.1.length := by rw [hq, hlen]
    rcases hi.findOrCreate_spec hd with ⟨i, a, h1, h2, h3, h4⟩ | ⟨hno, ⟨h1, h2⟩ | ⟨ar', a, i, h1, h2, h3, h4⟩⟩
    · rw [h.index_some h2 (h3.trans hql) (h4.trans hid)]
      exact ⟨_, h1, h, rfl, Or.inl rfl⟩
    · rw [h.index_none (q := q) (fun j a ha hl hc => hno j a ha (hl.trans hql.symm) (hc.trans hid.symm))]
      simp only []
      rw [if_neg (by rw [h.length]; omega)]
      exact ⟨_, h2, h, rfl, Or.inl rfl⟩
    · rw [h.index_none (q := q) (fun j a ha hl hc => hno j a ha (hl.trans hql.symm) (hc.trans hid.symm))]
      simp only []
      rw [if_pos (by rw [h.length]; omega)]
      refine ⟨_, h2, ⟨⟨_, h4.inv⟩, ?_⟩, ?_, Or.inr ⟨a, h4.archetypes, h4.rep.count⟩⟩
      · unfold ArchetypeRegistry.keysOf
        simp only []
        rw [h4.archetypes, List.map_append, List.map_cons, List.map_nil, h4.desc]
        rw [h.2]
        unfold ArchetypeRegistry.keysOf
        congr 2
        exact Prod.ext hq hid.symm
      · simp only [Option.map_some, h3, h.length]

theorem find (h : ArchRel W ar l) {g : Group} (hg : W.OkGroup g) :
    ∃ x, (ArchCall.find g).run env ar = .ok x ∧ (ArchCall.find g).ref env l = some (l, x.2) ∧ x.1 = ar := by
  unfold ArchCall.run ArchCall.ref
  dsimp only
  cases hk : g.key env with
  | none =>
    refine ⟨(ar, none), ?_, rfl, rfl⟩
    have : ar.findArchetype env (g.descriptor env).archetype = .ok none := by
      rw [Group.descriptor_invalid_of_not_WF (Group.key_none hk)]
      unfold ArchetypeRegistry.findArchetype
      rw [if_pos (Or.inr (by decide))]
    simp only [this, ok_bind, pure_eq_ok]
  | some k =>
    obtain ⟨hw, rfl⟩ := Group.key_some hk
    simp only []
    by_cases hid : groupId env g.idSet = 4294967295
    · rw [if_pos hid]
      refine ⟨(ar, none), ?_, rfl, rfl⟩
      have : ar.findArchetype env (g.descriptor env).archetype = .ok none := by
        rw [Group.descriptor_invalid_of_hash ((Group.archetypeId_idSet hw).trans hid)]
        unfold ArchetypeRegistry.findArchetype
        rw [if_pos (Or.inr (by decide))]
      simp only [this, ok_bind, pure_eq_ok]
    · rw [if_neg hid]
      have hv : (g.descriptor env).isValid = true :=
        Group.isValid_iff.mpr ⟨hw, by rw [Group.archetypeId_idSet hw]; exact hid⟩
      have gs := Group.spec hv
      have hd := Group.descOK hg hv
      obtain ⟨cs, hi⟩ := h.1
      have hql : (g.descriptor env).archetype.len = g.idSet.length := by rw [← gs.ids_eq, hd.wf.ids_length]
      have hqi : (g.descriptor env).archetype.archetypeId = groupId env g.idSet := by rw [gs.archetypeId_eq, gs.ids_eq]
      rcases hi.findArchetype_spec (env := env) hd.wf hd.valid with ⟨i, a, h1, h2, h3, h4⟩ | ⟨h1, h2⟩
      · refine ⟨(ar, some i), ?_, ?_, rfl⟩
        · simp only [h1, ok_bind, pure_eq_ok]
        · rw [h.index_some h2 (q := (g.idSet, groupId env g.idSet)) (h3.trans hql) (h4.trans hqi)]
      · refine ⟨(ar, none), ?_, ?_, rfl⟩
        · simp only [h1, ok_bind, pure_eq_ok]
        · rw [h.index_none (q := (g.idSet, groupId env g.idSet))
            (fun j a ha hl hc => h2 j a ha (hl.trans hql.symm) (hc.trans hqi.symm))]

theorem findOrCreate (h : ArchRel W ar l) {g : Group} (hg : W.OkGroup g) :
    ∃ x l', (ArchCall.findOrCreate g).run env ar = .ok x ∧ (ArchCall.findOrCreate g).ref env l = some (l', x.2) ∧
      ArchRel W x.1 l' ∧ Ext ar x.1 := by
  unfold ArchCall.run ArchCall.ref
  dsimp only
  cases hk : g.key env with
  | none =>
    refine ⟨(ar, none), l, ?_, rfl, h, Or.inl rfl⟩
    have : ar.findOrCreateArchetype env (g.descriptor env).archetype = .ok (ar, none) := by
      rw [Group.descriptor_invalid_of_not_WF (Group.key_none hk)]
      exact ARInv.findOrCreate_invalid (by decide)
    simp only [this, ok_bind, pure_eq_ok, Option.map_none]
  | some k =>
    obtain ⟨hw, rfl⟩ := Group.key_some hk
    simp only []
    by_cases hid : groupId env g.idSet = 4294967295
    · refine ⟨(ar, none), l, ?_, ?_, h, Or.inl rfl⟩
      · have : ar.findOrCreateArchetype env (g.descriptor env).archetype = .ok (ar, none) := by
          rw [Group.descriptor_invalid_of_hash ((Group.archetypeId_idSet hw).trans hid)]
          exact ARInv.findOrCreate_invalid (by decide)
        simp only [this, ok_bind, pure_eq_ok, Option.map_none]
      · unfold keyIntern
        rw [if_pos hid]
    · have hv : (g.descriptor env).isValid = true :=
        Group.isValid_iff.mpr ⟨hw, by rw [Group.archetypeId_idSet hw]; exact hid⟩
      have gs := Group.spec hv
      have hd := Group.descOK hg hv
      obtain ⟨x, h1, h2, h3, h4⟩ := h.intern (fun _ => hd) (q := (g.idSet, groupId env g.idSet)) gs.ids_eq.symm
        hd.wf.ids_length (by rw [gs.archetypeId_eq, gs.ids_eq])
      refine ⟨(x.1, x.2.map UInt16.toNat), (keyIntern l (g.idSet, groupId env g.idSet)).1, ?_, ?_, h2, h4⟩
      · simp only [h1, ok_bind, pure_eq_ok]
      · rw [h3]

/-- The two positions are different, so both references can be handed out. -/
theorem disjoint (h : ArchRel W ar l) {src i : UInt16} {a b : Archetype} (ha : ar.archetypes[src.toNat]? = some a)
    (hb : ar.archetypes[i.toNat]? = some b) (hl : a.descriptor.len ≠ b.descriptor.len) :
    disjointMut ar.archetypes src.toNat i.toNat = some (src.toNat, i.toNat) := by
  refine disjointMut_ne (List.getElem?_eq_some_iff.mp ha).1 (List.getElem?_eq_some_iff.mp hb).1 ?_
  intro he
  rw [he, hb] at ha
  cases ha
  exact hl rfl

theorem Ext.old {ar ar' : ArchetypeRegistry} (h : Ext ar ar') {i : Nat} {a : Archetype} (ha : ar.archetypes[i]? = some a) :
    ar'.archetypes[i]? = some a := by
  rcases h with rfl | ⟨b, h1, _⟩
  · exact ha
  · rw [h1, List.getElem?_append_left (List.getElem?_eq_some_iff.mp ha).1]; exact ha

/-- The end of both moves: the destination descriptor is found or created, and differs from the source. -/
theorem move (h : ArchRel W ar l) {src : UInt16} {a : Archetype} (ha : ar.archetypes[src.toNat]? = some a)
    {d : ArchetypeDescriptor} {cts : List CompTy} (hd : d.isValid = true → DescOK W d cts) {q : ArchKey} (hq : q.1 = d.ids)
    (hlen : d.ids.length = d.len) (hid : d.archetypeId = q.2) (hne : d.len ≠ a.descriptor.len) :
    ∃ x, ar.findOrCreateArchetype env d = .ok x ∧ ArchRel W x.1 (keyIntern l q).1 ∧ Ext ar x.1 ∧
      (match x.2 with
        | none => (keyIntern l q).2 = none
        | some dst => (keyIntern l q).2 = some dst.toNat ∧
          disjointMut x.1.archetypes src.toNat dst.toNat = some (src.toNat, dst.toNat)) := by
  obtain ⟨⟨ar', o⟩, h1, h2, h3, h4⟩ := h.intern (env := env) hd hq hlen hid
  refine ⟨_, h1, h2, h4, ?_⟩
  cases o with
  | none => exact h3.symm
  | some dst =>
    have h3 : some dst.toNat = (keyIntern l q).2 := h3
    refine ⟨h3.symm, ?_⟩
    have hv : d.isValid = true := by
      cases hv : d.isValid with
      | true => rfl
      | false => rw [ARInv.findOrCreate_invalid hv] at h1; cases h1
    obtain ⟨cs, hi⟩ := h.1
    have hb : ∃ b, ar'.archetypes[dst.toNat]? = some b ∧ b.descriptor.len = d.len := by
      rcases hi.findOrCreate_spec (hd hv) with ⟨i, b, g1, g2, g3, g4⟩ | ⟨hno, ⟨g1, g2⟩ | ⟨ar'', b, i, g1, g2, g3, g4⟩⟩
      · rw [h1] at g1; cases g1; exact ⟨b, g2, g3⟩
      · rw [h1] at g2; cases g2
      · rw [h1] at g2
        cases g2
        refine ⟨b, ?_, by rw [g4.desc]⟩
        rw [g4.archetypes, g3, List.getElem?_append_right (Nat.le_refl _)]; simp
    obtain ⟨b, hb, hbl⟩ := hb
    exact h2.disjoint (h4.old ha) hb (by rw [hbl]; exact fun h => hne h.symm)

theorem adding (h : ArchRel W ar l) {src : UInt16} {c : CompTy} (hok : (ArchCall.adding src c).Ok W l) :
    match (ArchCall.adding src c).ref env l with
    | none => (ArchCall.adding src c).run env ar = .error (.panic .indexOutOfBounds)
    | some y => ∃ x, (ArchCall.adding src c).run env ar = .ok x ∧ x.2 = y.2 ∧ ArchRel W x.1 y.1 ∧ Ext ar x.1 := by
  obtain ⟨hc, hu⟩ := hok
  unfold ArchCall.run ArchCall.ref ArchetypeRegistry.findOrCreateAdding
  dsimp only
  have hll := h.length
  by_cases hout : l.length < src.toNat
  · rw [if_pos hout, if_pos (show src.toNat > ar.archetypes.length by omega)]
    exact ⟨_, rfl, rfl, h, Or.inl rfl⟩
  · rw [if_neg hout, if_neg (show ¬ src.toNat > ar.archetypes.length by omega)]
    cases ha : ar.archetypes[src.toNat]? with
    | none =>
      rw [h.key, ha]
      simp only [Option.map_none, Shard.index, ha]
      rfl
    | some a =>
      rw [h.key] at hu
      rw [h.key, index_of_getElem? ha]
      rw [ha] at hu
      rw [ha]
      simp only [Option.map_some, ok_bind]
      have hu := hu _ rfl
      obtain ⟨cts, hd⟩ := h.wf ha
      have hdl := hd.length
      have hil := hd.wf.ids_length
      have hle := hd.le
      by_cases hm : c.id ∈ a.descriptor.ids
      · rw [if_pos (Or.inl hm), ArchetypeDescriptor.addComponent_present hd.wf hm]
        exact ⟨_, rfl, rfl, h, Or.inl rfl⟩
      by_cases h14 : a.descriptor.ids.length = 14
      · rw [if_pos (Or.inr h14), ArchetypeDescriptor.addComponent_full (by omega)]
        exact ⟨_, rfl, rfl, h, Or.inl rfl⟩
      rw [if_neg (fun hx => hx.elim hm h14)]
      have hm' : c ∉ cts := fun hx => hm ((hd.id_mem hc).mpr hx)
      by_cases h13 : a.descriptor.ids.length = 13
      · rw [if_pos h13, ArchetypeDescriptor.addComponent_thirteen hd.wf (by omega) hm]
        rfl
      · rw [if_neg h13]
        obtain ⟨nd, cts', n1, n2, n3, n4, n5, n7, n6⟩ := hd.add hc hm' (by omega)
        have hids : nd.ids = insertId c.id a.descriptor.ids := by
          refine AscSet.unique n5 ((insertId_asc hd.wf.ids_sorted hm).congr ?_)
          intro i
          unfold AddedIds
          rw [hd.ids_eq, List.mem_map]
        obtain ⟨x, m1, m2, m3, m4⟩ := h.move (env := env) ha (d := nd) (cts := cts')
          (q := (insertId c.id a.descriptor.ids, plainId env (insertId c.id a.descriptor.ids)))
          (fun hv => n6 hv (by rw [hids]; exact hu hm)) hids.symm n7 (by rw [n4, hids]) (by omega)
        rw [n1]
        simp only [ok_bind, m1]
        obtain ⟨ar', o⟩ := x
        cases o with
        | none => exact ⟨_, rfl, m4.symm, m2, m3⟩
        | some dst =>
          simp only [] at m4 ⊢
          rw [m4.2]
          exact ⟨_, rfl, m4.1.symm, m2, m3⟩

theorem removing (h : ArchRel W ar l) {src : UInt16} {c : CompTy} (hok : (ArchCall.removing src c).Ok W l) :
    match (ArchCall.removing src c).ref env l with
    | none => (ArchCall.removing src c).run env ar = .error (.panic .indexOutOfBounds)
    | some y => ∃ x, (ArchCall.removing src c).run env ar = .ok x ∧ x.2 = y.2 ∧ ArchRel W x.1 y.1 ∧ Ext ar x.1 := by
  obtain ⟨hc, hu⟩ := hok
  unfold ArchCall.run ArchCall.ref ArchetypeRegistry.findOrCreateRemoving
  dsimp only
  have hll := h.length
  by_cases hout : l.length < src.toNat
  · rw [if_pos hout, if_pos (show src.toNat > ar.archetypes.length by omega)]
    exact ⟨_, rfl, rfl, h, Or.inl rfl⟩
  · rw [if_neg hout, if_neg (show ¬ src.toNat > ar.archetypes.length by omega)]
    cases ha : ar.archetypes[src.toNat]? with
    | none =>
      rw [h.key, ha]
      simp only [Option.map_none, Shard.index, ha]
      rfl
    | some a =>
      rw [h.key] at hu
      rw [h.key, index_of_getElem? ha]
      rw [ha] at hu
      rw [ha]
      simp only [Option.map_some, ok_bind]
      rw [CompTy.descriptor_id]
      have hu := hu _ rfl
      obtain ⟨cts, hd⟩ := h.wf ha
      have hdl := hd.length
      have hil := hd.wf.ids_length
      have hle := hd.le
      have hpos := hd.pos
      by_cases h1 : a.descriptor.ids.length = 1
      · rw [if_pos (Or.inr h1), ArchetypeDescriptor.removeComponent_one (by omega)]
        exact ⟨_, rfl, rfl, h, Or.inl rfl⟩
      by_cases hm : c.id ∈ a.descriptor.ids
      · rw [if_neg (fun hx => hx.elim (fun hy => hy hm) h1)]
        have hm' : c ∈ cts := (hd.id_mem hc).mp hm
        by_cases h14 : a.descriptor.ids.length = 14
        · rw [if_pos h14, ArchetypeDescriptor.removeComponent_fourteen hd.wf (by omega) hm]
          rfl
        · rw [if_neg h14]
          obtain ⟨nd, cts', n1, n2, n3, n4, n5, n7, n6⟩ := hd.remove hm' (by omega) (by omega)
          have hids : nd.ids = a.descriptor.ids.erase c.id := by
            refine AscSet.unique n5 ((erase_asc hd.wf.ids_sorted).congr ?_)
            intro i
            unfold RemovedIds
            rw [hd.ids_eq, List.mem_map]
            constructor
            · rintro ⟨q1, c', q2, rfl⟩
              exact ⟨c', q2, fun hx => q1 (by rw [hx]), rfl⟩
            · rintro ⟨c', q1, q2, rfl⟩
              exact ⟨fun hx => q2 (W.id_inj (hd.has c' q1) hc hx), c', q1, rfl⟩
          obtain ⟨x, m1, m2, m3, m4⟩ := h.move (env := env) ha (d := nd) (cts := cts')
            (q := (a.descriptor.ids.erase c.id, plainId env (a.descriptor.ids.erase c.id)))
            (fun hv => n6 hv (by rw [hids]; exact hu hm h1)) hids.symm n7 (by rw [n4, hids]) (by omega)
          rw [n1]
          simp only [ok_bind, m1]
          obtain ⟨ar', o⟩ := x
          cases o with
          | none => exact ⟨_, rfl, m4.symm, m2, m3⟩
          | some dst =>
            simp only [] at m4 ⊢
            rw [m4.2]
            exact ⟨_, rfl, m4.1.symm, m2, m3⟩
      · rw [if_pos (Or.inl hm), ArchetypeDescriptor.removeComponent_absent hd.wf hm]
        exact ⟨_, rfl, rfl, h, Or.inl rfl⟩

/-- One call. -/
theorem step (h : ArchRel W ar l) {c : ArchCall} (hok : c.Ok W l) :
    match c.ref env l with
    | none => c.run env ar = .error (.panic .indexOutOfBounds)
    | some y => ∃ x, c.run env ar = .ok x ∧ x.2 = y.2 ∧ ArchRel W x.1 y.1 ∧ Ext ar x.1 := by
  cases c with
  | find g =>
    obtain ⟨x, h1, h2, h3⟩ := h.find hok
    rw [h2]
    exact ⟨x, h1, rfl, by rw [h3]; exact h, Or.inl h3⟩
  | findOrCreate g =>
    obtain ⟨x, l', h1, h2, h3, h4⟩ := h.findOrCreate hok
    rw [h2]
    exact ⟨x, h1, rfl, h3, h4⟩
  | adding src c => exact h.adding hok
  | removing src c => exact h.removing hok

/-- Any sequence of calls: the same answers, and a panic at the same place. -/
theorem run : ∀ {calls : List ArchCall} {ar : ArchetypeRegistry} {l : List ArchKey}, ArchRel W ar l → OkCalls W l calls →
    (runArch env ar calls).1 = (refArch env l calls).1 ∧
    match (refArch env l calls).2 with
    | none => (runArch env ar calls).2 = .error (.panic .indexOutOfBounds)
    | some l' => ∃ ar', (runArch env ar calls).2 = .ok ar' ∧ ArchRel W ar' l' ∧
        ∃ new, ar'.archetypes = ar.archetypes ++ new ∧ ∀ a ∈ new, a.entityCount = 0
  | [], ar, l, h, _ => ⟨rfl, ar, rfl, h, [], by simp, by simp⟩
  | c :: rest, ar, l, h, hok => by
    have hst := h.step hok.1
    unfold runArch refArch
    have hrest := hok.2
    cases hr : c.ref env l with
    | none =>
      rw [hr] at hst
      simp only [] at hst
      rw [hst]
      exact ⟨rfl, rfl⟩
    | some y =>
      rw [hr] at hst
      obtain ⟨x, h1, h2, h3, h4⟩ := hst
      obtain ⟨i1, i2⟩ := run h3 (hrest y hr)
      rw [h1]
      simp only []
      refine ⟨by rw [i1, h2], ?_⟩
      cases hr2 : (refArch env y.1 rest).2 with
      | none => rw [hr2] at i2; exact i2
      | some l' =>
        rw [hr2] at i2
        obtain ⟨ar', j1, j2, new, j3, j4⟩ := i2
        refine ⟨ar', j1, j2, ?_⟩
        rcases h4 with h4 | ⟨a, h4, h5⟩
        · exact ⟨new, by rw [j3, h4], j4⟩
        · refine ⟨a :: new, by rw [j3, h4, List.append_assoc]; rfl, ?_⟩
          intro b hb
          rcases List.mem_cons.mp hb with rfl | hb
          · exact h5
          · exact j4 b hb

end ArchRel

end Shard
