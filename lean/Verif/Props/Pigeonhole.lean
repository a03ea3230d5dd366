import Verif.Proofs.Pigeonhole
import Verif.Proofs.CollisionMove
import Verif.Proofs.ByteOrder
import Verif.Props.Collision
import Verif.Props.Hash
import Verif.Props.Names
import Verif.Props.Lifecycle
/-!
# C101: with enough component types, collisions cannot be avoided
-/

set_option autoImplicit false

namespace Shard

variable {env : Env}

/-- The facts about a component type that the rest of the development assumes (`World`): the size and the alignment fit 16
bits, the alignment is a power of two that divides the size, and the type is not empty unless the allocator takes that. -/
structure PlainType (env : Env) (c : CompTy) : Prop where
  size_lt : c.size < 65536
  align_lt : c.align < 65536
  align_pow : ∃ k, c.align = 2 ^ k
  mult : c.size % c.align = 0
  zst : 0 < c.size ∨ env.zstAllocOk = true

/-- The program with the component types `ts` that uses the component set `s` only. -/
def World.single (ts : List CompTy) (hid : ∀ c ∈ ts, ∀ c' ∈ ts, c.id = c'.id → c = c') (hp : ∀ c ∈ ts, PlainType env c)
    (s : List UInt16) : World env where
  Has c := c ∈ ts
  Used t := t = s
  id_inj := fun h h' he => hid _ h _ h' he
  size_lt := fun h => (hp _ h).size_lt
  align_lt := fun h => (hp _ h).align_lt
  align_pow := fun h => (hp _ h).align_pow
  mult := fun h => (hp _ h).mult
  zst := fun h => (hp _ h).zst
  noClash := fun h1 h2 _ _ => by rw [h1, h2]

/-- After the first creation there is one entity, in the first row of an archetype for its components. -/
theorem first_creation {W : World env} {g : Group} (hg : W.OkGroup g) (hv : (g.descriptor env).isValid = true) {vals : List Val}
    (ht : TypedVals g vals) : ∃ (r : Registry) (e : Entity) (k : Nat) (a : Archetype), Registry.default.createEntity env g vals = .ok (r, .ok e) ∧ Reachable W r ∧
      r.archetypes.archetypes[k]? = some a ∧ a.entityCount ≤ 1 ∧ a.descriptor.len = g.length ∧
      a.descriptor.ids = g.idSet ∧ a.descriptor.archetypeId = (g.descriptor env).archetype.archetypeId ∧
      r.entities.entities.length < MAX_ENTITY_HANDLE_VALUE := by
  have gs := Group.spec hv
  have hi := RInv.empty W
  rcases hi.createEntity_spec hg hv ht with ⟨r, cs, e, h1, h2, _, _⟩ | ⟨r, cs, _, _, _, _, _, h7, _⟩ | ⟨_, _, _, ai, ct, h5, _⟩
  · have hadm : (Call.create g vals).Admissible W Registry.default := ⟨ht, fun _ => hg⟩
    have hst := Steps.snoc Steps.nil hadm (run_create_ok h1)
    obtain ⟨k, a, q1, q2, q3, q4⟩ := h2.home
    obtain ⟨ct, w1, w2⟩ := h2.inv.arch.content q2
    have hlive : ∀ (j : Nat) (x : Entity), ct.ents[j]? = some x → x = e := by
      intro j x hx
      apply Classical.byContradiction
      intro hne
      have hl : r.entities.loc env x = some (k, j) := (h2.inv.placed _ _ _).mpr ⟨ct, w1, hx⟩
      have h3 := h2.stay x hne
      unfold Registry.archOf at h3
      rw [hl] at h3
      have h4 : Registry.default.entities.loc env x = none := by
        cases hd : Registry.default.entities.loc env x with
        | none => rfl
        | some kj =>
          obtain ⟨ct', z, _⟩ := (hi.placed _ _ _).mp hd
          cases z
      rw [h4] at h3
      cases h3
    have hcount : ct.ents.length ≤ 1 := by
      apply Classical.byContradiction
      intro hgt
      have e0 : ct.ents[0]? = some e := by
        have := List.getElem?_eq_getElem (l := ct.ents) (i := 0) (by omega)
        rw [this, hlive 0 _ this]
      have e1 : ct.ents[1]? = some e := by
        have := List.getElem?_eq_getElem (l := ct.ents) (i := 1) (by omega)
        rw [this, hlive 1 _ this]
      have l0 : r.entities.loc env e = some (k, 0) := (h2.inv.placed _ _ _).mpr ⟨ct, w1, e0⟩
      have l1 : r.entities.loc env e = some (k, 1) := (h2.inv.placed _ _ _).mpr ⟨ct, w1, e1⟩
      rw [l0] at l1
      cases l1
    refine ⟨r, e, k, a, h1, ⟨_, hst⟩, q2, by rw [w2.count]; omega, ?_, q3, ?_, ?_⟩
    · have := congrArg List.length q3
      rw [(Group.idSet_perm g).length_eq, List.length_map, w2.desc.ids_eq, List.length_map] at this
      rw [← this]
      exact w2.desc.length.symm
    · rw [q4, ← gs.ids_eq, ← gs.archetypeId_eq]
    · have := (C07_slot_recycling (r' := r) hst).2.2.2.1
      rw [this]
      show max 0 (0 + 1) < MAX_ENTITY_HANDLE_VALUE
      decide
  · exfalso
    rcases h7 with ⟨_, hno⟩ | ⟨hl, _⟩
    · refine hno ⟨?_, Or.inr (by decide)⟩
      rw [← gs.ids_eq, ← gs.archetypeId_eq, gs.id]
      exact (Group.isValid_iff.mp hv).2
    · exact absurd hl (by decide)
  · cases h5

/-- The ids of a group of distinct types, in ascending order. -/
theorem Group.idSet_asc {g : Group} (hn : (g.map (fun c => c.id)).Nodup) : g.idSet.Pairwise (fun a b => a < b) :=
  ((Group.idSet_sorted g).and ((Group.idSet_perm g).nodup_iff.mpr hn)).imp (fun ⟨a, b⟩ => UInt16.lt_of_le_of_ne a b)

/-- **C101** (creations) Every program with 37 component types or more can go wrong: among its types there are two groups of
14, each with a type the other lacks, such that `create_entity` refuses both of them always, or, on a new registry, an entity
of the first can be created but the creation of an entity of the second then writes out of bounds (if some type is more than
64 times as large as another one), or creates an entity that has the components of the first group and no others. -/
theorem C101_creations (env : Env) (ts : List CompTy) (hlen : 37 ≤ ts.length) (hn : (ts.map (fun c => c.id)).Nodup)
    (hp : ∀ c ∈ ts, PlainType env c) :
    ∃ g1 g2 : Group, g1.Sublist ts ∧ g2.Sublist ts ∧ g1.length = 14 ∧ g2.length = 14 ∧ (∃ c ∈ g1, c ∉ g2) ∧ (∃ c ∈ g2, c ∉ g1) ∧
      ((∀ (r : Registry) (vals : List Val), r.createEntity env g1 vals = .ok (r, .err vals) ∧
          r.createEntity env g2 vals = .ok (r, .err vals)) ∨
        ∀ vals1 vals2, TypedVals g1 vals1 → TypedVals g2 vals2 →
          ∃ r1 e1, Registry.default.createEntity env g1 vals1 = .ok (r1, .ok e1) ∧
            (r1.createEntity env g2 vals2 = .error (.ub .outOfBounds) ∧ (∃ c ∈ g1, ∃ c' ∈ g2, 64 * c.size < c'.size) ∨
              ∃ r2 e2, r1.createEntity env g2 vals2 = .ok (r2, .ok e2) ∧
                ∀ c ∈ ts, r2.hasComponent env c e2 = .ok (decide (c ∈ g1)))) := by
  have hnd : ts.Nodup := List.Pairwise.of_map (fun c : CompTy => c.id) (fun a b h he => h (by rw [he])) hn
  have hinj : ∀ c ∈ ts, ∀ c' ∈ ts, c.id = c'.id → c = c' := by
    intro c hc c' hc' he
    clear hlen hp hnd
    induction ts with
    | nil => cases hc
    | cons x t ih =>
      rw [List.map_cons, List.nodup_cons] at hn
      rcases List.mem_cons.mp hc with rfl | h1
      · rcases List.mem_cons.mp hc' with rfl | h2
        · rfl
        · exact absurd (List.mem_map.mpr ⟨c', h2, he.symm⟩) hn.1
      · rcases List.mem_cons.mp hc' with rfl | h2
        · exact absurd (List.mem_map.mpr ⟨c, h1, he⟩) hn.1
        · exact ih hn.2 h1 h2
  obtain ⟨(g1 : Group), (g2 : Group), s1, s2, l1, l2, hid, hd1, hd2⟩ := combos_collide (l := ts) (k := 14) (m := 37) (n := 2 ^ 32)
    (fun g => Spec.groupId env.bigEndian (Group.idSet g)) hnd hlen (by decide) (fun s => fnv1a32_lt _)
    ⟨6107086800, by decide +kernel, by decide⟩
  have n1 : (g1.map (fun c => c.id)).Nodup := (s1.map _).nodup hn
  have n2 : (g2.map (fun c => c.id)).Nodup := (s2.map _).nodup hn
  refine ⟨g1, g2, s1, s2, l1, l2, hd1, hd2, ?_⟩
  have v1 := C24_wellformed_groups_partial env g1 (by omega) n1 _ (Group.idSet_perm g1) (Group.idSet_sorted g1)
  have v2 := C24_wellformed_groups_partial env g2 (by omega) n2 _ (Group.idSet_perm g2) (Group.idSet_sorted g2)
  have hid : Spec.groupId env.bigEndian g1.idSet = Spec.groupId env.bigEndian g2.idSet := hid
  by_cases hmax : Spec.groupId env.bigEndian g1.idSet = 4294967295
  · left
    intro r vals
    exact ⟨v1.2.1 hmax r vals, v2.2.1 (by rw [← hid]; exact hmax) r vals⟩
  · right
    intro vals1 vals2 t1 t2
    let W : World env := World.single ts hinj hp g1.idSet
    have hv1 := v1.1.mpr hmax
    have hv2 := v2.1.mpr (by rw [← hid]; exact hmax)
    obtain ⟨r1, e1, k, a, h1, h2, h3, h4, h5, h6, h7, h8⟩ := first_creation (W := W) (g := g1)
      ⟨fun c hc => s1.subset hc, rfl⟩ hv1 t1
    refine ⟨r1, e1, h1, ?_⟩
    have hg2 : ∀ c ∈ g2, W.Has c := fun c hc => s2.subset hc
    have hlen' : a.descriptor.len = g2.length := by rw [h5, l1, l2]
    have hids : a.descriptor.archetypeId = (g2.descriptor env).archetype.archetypeId := by
      rw [h7]
      apply UInt32.toNat_inj.mp
      rw [((C57_group_ids env g1 _ (Group.idSet_perm g1) (Group.idSet_sorted g1)).2.1 hv1).2,
        ((C57_group_ids env g2 _ (Group.idSet_perm g2) (Group.idSet_sorted g2)).2.1 hv2).2, hid]
    have hc := C99_create_partial h2 hg2 hv2 t2 h3 hlen' hids (by omega) h8
    by_cases hf : RowFits a.descriptor (g2.descriptor env).archetype a.entityCount a.rowsAtPush
    · right
      obtain ⟨r2, e2, hcr⟩ := hc.1 hf
      refine ⟨r2, e2, hcr, ?_⟩
      have haf := C99_after_partial h2 hg2 hv2 t2 h3 hlen' hids (by omega) h8 hcr
      intro c hc
      have hpl := haf.2.1
      rw [placeOf_eq] at hpl
      have hcomp := haf.2.2.2.2.2.1 c
      obtain ⟨a2, ha2⟩ : ∃ a2, r2.archetypes.archetypes[k]? = some a2 := by
        have := congrArg List.length haf.2.2.2.1
        rw [List.length_map, List.length_map] at this
        exact ⟨_, List.getElem?_eq_getElem (by have := (List.getElem?_eq_some_iff.mp h3).1; omega)⟩
      have hh := (getComponent_loc (c := c) hpl ha2).2
      have hmem : c.id ∈ a.descriptor.components.map (fun d => d.id) ↔ c ∈ g1 := by
        show c.id ∈ a.descriptor.ids ↔ _
        rw [h6, (Group.idSet_perm g1).mem_iff, List.mem_map]
        constructor
        · rintro ⟨c', hc', he⟩
          rw [← hinj c' (s1.subset hc') c hc he]
          exact hc'
        · intro hx
          exact ⟨c, hx, rfl⟩
      rw [hmem] at hcomp
      by_cases hx : c ∈ g1
      · rw [hcomp.mpr hx, decide_eq_true hx]
      · rw [hh, decide_eq_false hx]
        cases hb : a2.descriptor.hasComponent c with
        | false => rfl
        | true => exact absurd (hcomp.mp (by rw [hh, hb])) hx
    · left
      refine ⟨hc.2 hf, Classical.byContradiction fun hno => hf ?_⟩
      have hsz : ∀ c ∈ g1, ∀ c' ∈ g2, c'.size ≤ 64 * c.size := fun c q1 c' q2 =>
        Nat.le_of_not_lt fun hlt => hno ⟨c, q1, c', q2, hlt⟩
      obtain ⟨cs, hi⟩ := h2.inv
      obtain ⟨ct, _, hrep⟩ := hi.arch.content h3
      have hcap : 128 ≤ a.rowsAtPush := by
        obtain ⟨k, _, hk⟩ := hrep.cap
        have := Nat.pow_pos (n := k) (show 0 < 2 by omega)
        unfold Archetype.rowsAtPush
        split <;> omega
      intro i da dg hda hdg
      have gs := Group.spec hv2
      obtain ⟨c', m2, rfl⟩ := List.mem_map.mp (gs.perm.mem_iff.mp (List.mem_of_getElem? hdg))
      have hda := List.mem_of_getElem? hda
      rw [hrep.desc.comps] at hda
      obtain ⟨c, m1, rfl⟩ := List.mem_map.mp hda
      have m1' : c ∈ g1 := by
        have hx : c.id ∈ g1.idSet := by
          rw [← h6, hrep.desc.ids_eq]
          exact List.mem_map.mpr ⟨c, m1, rfl⟩
        obtain ⟨c2, q1, q2⟩ := List.mem_map.mp ((Group.idSet_perm g1).mem_iff.mp hx)
        rw [← hinj c2 (s1.subset q1) c (hrep.desc.has c m1) q2]
        exact q1
      rw [W.desc_size (hg2 c' m2), W.desc_size (hrep.desc.has c m1)]
      have h9 := hsz c m1' c' m2
      have h10 : c'.size * (a.entityCount + 1) ≤ c'.size * 2 := Nat.mul_le_mul_left _ (by omega)
      have h11 : c.size * 128 ≤ c.size * a.rowsAtPush := Nat.mul_le_mul_left _ hcap
      omega

/-- **C101** (moves) Among 38 component types or more there are two sets of 13 with the same archetype id after
`add_component` or `remove_component`. (What happens then is C100.) -/
theorem C101_moves (env : Env) (ids : List UInt16) (hlen : 38 ≤ ids.length) (hs : ids.Pairwise (fun a b => a < b)) :
    ∃ s t : List UInt16, s.Sublist ids ∧ t.Sublist ids ∧ s.length = 13 ∧ t.length = 13 ∧ (∃ i ∈ s, i ∉ t) ∧ (∃ i ∈ t, i ∉ s) ∧
      plainId env s = plainId env t := by
  obtain ⟨s, t, s1, t1, l1, l2, he, d1, d2⟩ := combos_collide (l := ids) (k := 13) (m := 38) (n := 2 ^ 32)
    (fun s => (plainId env s).toNat) (hs.imp (fun h => UInt16.ne_of_lt h)) hlen (by decide) (fun s => (plainId env s).toNat_lt)
    ⟨5414950296, by decide +kernel, by decide⟩
  exact ⟨s, t, s1, t1, l1, l2, d1, d2, UInt32.toNat_inj.mp he⟩

/-- **C101** (names) Among 65,537 type names or more, two different ones have the same default component id. -/
theorem C101_names (env : Env) (ns : List Name) (hn : ns.Nodup) (hlen : 65537 ≤ ns.length) :
    ∃ n ∈ ns, ∃ n' ∈ ns, n ≠ n' ∧ ∀ (ty ty' size align size' align' : Nat),
      (CompTy.ofName env ty n size align).id = (CompTy.ofName env ty' n' size' align').id := by
  obtain ⟨n, h1, n', h2, hne, he⟩ := pigeonhole (l := ns) (fun n => (CompTy.ofName env 0 n 0 1).id.toNat) (n := 65536) hn
    (fun n _ => (CompTy.ofName env 0 n 0 1).id.toNat_lt) (by omega)
  exact ⟨n, h1, n', h2, hne, fun _ _ _ _ _ _ => UInt16.toNat_inj.mp he⟩

/-- **C101** (types) Hence no program has more than 65,536 component types with distinct ids. -/
theorem C101_types {W : World env} (ts : List CompTy) (hn : ts.Nodup) (hW : ∀ c ∈ ts, W.Has c) : ts.length ≤ 65536 := by
  apply Classical.byContradiction
  intro hgt
  obtain ⟨c, h1, c', h2, hne, he⟩ := pigeonhole (l := ts) (fun c => c.id.toNat) (n := 65536) hn (fun c _ => c.id.toNat_lt) (by omega)
  exact hne (W.id_inj (hW c h1) (hW c' h2) (UInt16.toNat_inj.mp he))

/-- The program with 37 component types `C1`, …, `C37` of one byte each. -/
def exThirtySeven : List CompTy := (List.range 37).map (fun i => ⟨i, UInt16.ofNat (i + 1), 1, 1⟩)

/-- The hypotheses hold of it. -/
example : 37 ≤ exThirtySeven.length ∧ (exThirtySeven.map (fun c => c.id)).Nodup ∧ ∀ c ∈ exThirtySeven, PlainType exEnv c := by
  refine ⟨by decide +kernel, by decide +kernel, fun c hc => ?_⟩
  obtain ⟨i, _, rfl⟩ := List.mem_map.mp hc
  exact ⟨by simp, by simp, ⟨0, rfl⟩, by simp, Or.inl (by simp)⟩

/-- So it can go wrong, and as all its types have the same size, nothing is written out of bounds: two groups are refused, or
an entity lacks a component it was created with. -/
example : ∃ g1 g2 : Group, g1.Sublist exThirtySeven ∧ g2.Sublist exThirtySeven ∧ g1.length = 14 ∧ g2.length = 14 ∧
    ((∀ (r : Registry) (vals : List Val), r.createEntity exEnv g1 vals = .ok (r, .err vals) ∧
        r.createEntity exEnv g2 vals = .ok (r, .err vals)) ∨
      ∀ vals1 vals2, TypedVals g1 vals1 → TypedVals g2 vals2 →
        ∃ r1 e1 r2 e2, Registry.default.createEntity exEnv g1 vals1 = .ok (r1, .ok e1) ∧
          r1.createEntity exEnv g2 vals2 = .ok (r2, .ok e2) ∧ ∃ c ∈ g2, r2.hasComponent exEnv c e2 = .ok false) := by
  have hsize : ∀ c ∈ exThirtySeven, c.size = 1 := fun c hc => by
    obtain ⟨i, _, rfl⟩ := List.mem_map.mp hc
    rfl
  obtain ⟨g1, g2, h1, h2, h3, h4, _, ⟨c, hc2, hc1⟩, h6⟩ := C101_creations exEnv exThirtySeven (by decide +kernel) (by decide +kernel) (fun c hc => by
    obtain ⟨i, _, rfl⟩ := List.mem_map.mp hc
    exact ⟨by simp, by simp, ⟨0, rfl⟩, by simp, Or.inl (by simp)⟩)
  refine ⟨g1, g2, h1, h2, h3, h4, h6.imp (fun h => h) (fun h vals1 vals2 t1 t2 => ?_)⟩
  obtain ⟨r1, e1, q1, q2⟩ := h vals1 vals2 t1 t2
  rcases q2 with ⟨_, a, ha, b, hb, hlt⟩ | ⟨r2, e2, q2, q3⟩
  · rw [hsize a (h1.subset ha), hsize b (h2.subset hb)] at hlt
    omega
  · exact ⟨r1, e1, r2, e2, q1, q2, c, hc2, by rw [q3 c (h2.subset hc2), decide_eq_false hc1]⟩

end Shard
