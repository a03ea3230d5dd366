import Verif.Proofs.RefIter
import Verif.Proofs.Step
/-!
# Every call on the registry is simulated by the reference registry
-/

set_option autoImplicit false

namespace Shard

variable {env : Env} {W : World env}

/-- The reference registry `R` represents the registry `r` with the contents `cs`. -/
structure RRel (W : World env) (r : Registry) (cs : List Content) (R : RReg) : Prop where
  inv : RInv W r cs
  tables : R.tables = tablesOf r.archetypes.idsOf cs
  slots : SlotRel env r.entities R.versions R.free

/-- A step of the reference and the call on the registry agree. -/
def Agree (W : World env) (r : Registry) (call : Call) (x : Except Fault (RReg × Outcome)) : Prop :=
  match x with
  | .error f => call.run env r = .error f
  | .ok (R', out) => ∃ r' cs', call.run env r = .ok (r', out) ∧ RRel W r' cs' R'

namespace RRel

variable {r : Registry} {cs : List Content} {R : RReg}

theorem empty (W : World env) : RRel W Registry.default [] RReg.empty := by
  refine ⟨RInv.empty W, rfl, rfl, rfl, List.nodup_nil, ?_⟩
  intro i en h
  cases h

theorem find_dead (h : RRel W r cs R) {e : Entity} (he : r.entities.entityEntry env e = none) :
    findEntity R.tables e = none := by
  rw [h.tables]
  exact h.inv.placed.find_none (by rw [EntityRegistry.loc_eq_none]; exact he)

theorem find_live (h : RRel W r cs R) {e : Entity} {i k : Nat} {ct : Content} {a : Archetype}
    (hl : r.entities.loc env e = some (i, k)) (hc : cs[i]? = some ct) (ha : r.archetypes.archetypes[i]? = some a) :
    findEntity R.tables e = some (i, k, ⟨ct.cts, a.descriptor.archetypeId, ct.rows⟩, ct.rowVals k) := by
  rw [h.tables]
  refine h.inv.placed.find hl hc ?_
  unfold ArchetypeRegistry.idsOf
  rw [List.getElem?_map, ha]; rfl

theorem rowCount_eq {ar : ArchetypeRegistry} {cs : List Content} {i : Nat} {a : Archetype} {ct : Content}
    (ha : ar.archetypes[i]? = some a) (hc : cs[i]? = some ct) :
    rowCount (tablesOf ar.idsOf cs) i = ct.ents.length := by
  unfold rowCount
  rw [ARInv.table hc ha]
  exact ct.rows_length

/-! ## Removal -/

theorem removed (h : RRel W r cs R) {e : Entity} {r' : Registry} {cs' : List Content} {vs : List Val} {en : EntityEntry}
    (he : r.entities.entityEntry env e = some en) (hr : Removed W r cs e r' cs' vs) :
    ∃ i k ct a, findEntity R.tables e = some (i, k, ⟨ct.cts, a.descriptor.archetypeId, ct.rows⟩, vs) ∧
      Rep W a ct ∧ ct.ents[k]? = some e ∧ vs = ct.rowVals k ∧ r.look env cs e = some (fun c => ct.get c k) ∧
      RRel W r' cs' { R.retire e with tables := onRows R.tables i (swapRemove · k) } := by
  obtain ⟨i, k, ct, hl, hc, hcs, hvs⟩ := hr.rows
  obtain ⟨a, ha, hrep⟩ := h.inv.arch.arch hc
  obtain ⟨ct', q1, q2⟩ := (h.inv.placed _ _ _).mp hl
  rw [hc] at q1; cases q1
  have hk := (List.getElem?_eq_some_iff.mp q2).1
  refine ⟨i, k, ct, a, by rw [hvs]; exact h.find_live hl hc ha, hrep, q2, hvs, look_of hl hc, hr.inv, ?_, ?_⟩
  · simp only []
    rw [hr.descs.idsOf, hcs, h.tables]
    exact (tablesOf_set (ct' := ct.swapPop k) (f := (swapRemove · k)) hc rfl (hrep.rows_swapPop hk)).symm
  · obtain ⟨m, hm1, hm2⟩ := hr.table
    obtain ⟨p1, p2, p3⟩ := (EntityRegistry.entityEntry_iff h.inv.ents.len_le e en).mp he
    have hlt := (List.getElem?_eq_some_iff.mp p1).1
    exact (h.slots.updated hm1).destroyed (R := R) hm2 (by rw [hm1.length]; exact hlt)

theorem destroy (h : RRel W r cs R) (e : Entity) : Agree W r (.destroy e) (R.step env (.destroy e)) := by
  unfold Agree
  simp only [RReg.step, Call.run]
  cases hx : r.entities.entityEntry env e with
  | none =>
    rw [h.find_dead hx, destroyEntity_dead hx]
    exact ⟨r, cs, rfl, h⟩
  | some en =>
    obtain ⟨r', cs', vs, h1, h2⟩ := h.inv.destroyEntity_spec hx
    obtain ⟨i, k, ct, a, q1, _, _, _, _, q2⟩ := h.removed hx h2
    rw [q1, h1]
    exact ⟨r', cs', rfl, q2⟩

theorem removeEntity (h : RRel W r cs R) {g : Group} {e : Entity} (hm : (Call.removeEntity g e).Matched W r) :
    Agree W r (.removeEntity g e) (R.step env (.removeEntity g e)) := by
  unfold Agree
  simp only [RReg.step, Call.run]
  cases hx : r.entities.entityEntry env e with
  | none =>
    rw [h.find_dead hx, removeEntity_dead hx]
    exact ⟨r, cs, rfl, h⟩
  | some en =>
    obtain ⟨a, ct, ha, hct, hr, hk, _, hlook⟩ := h.inv.entry hx
    obtain ⟨hg, hv, hex⟩ := hm (h.inv.live_iff.mpr ⟨_, hlook⟩)
    have hm := (h.inv.hasExactly_iff hlook hg).mp hex
    have hok : W.OkGroup g := hr.okGroup hv (fun c => by
        rw [← hm c]
        constructor
        · intro hcc
          obtain ⟨v, hv, _⟩ := hr.get_some hcc (List.getElem?_eq_some_iff.mp hk).1
          simp [hv]
        · intro hs
          obtain ⟨v, hv⟩ := Option.isSome_iff_exists.mp hs
          exact (hr.mem_of_get hv).1)
    obtain ⟨r2, cs2, vs2, q1, q2, q3⟩ := h.inv.removeEntity_spec hlook hok hv hm
    obtain ⟨i, k, ct', a', p1, p2, p3, p4, p5, p6⟩ := h.removed hx q2
    rw [p1, q1]
    refine ⟨r2, cs2, ?_, p6⟩
    rw [hlook] at p5
    simp only [Option.some.injEq] at p5
    simp only [ok_bind, pure_eq_ok]
    congr 3
    apply List.map_congr_left
    intro c hc
    rw [p4, p2.valOf_row (List.getElem?_eq_some_iff.mp p3).1, congrFun p5 c]

/-! ## Creation -/

theorem create (h : RRel W r cs R) {g : Group} {vals : List Val} (hadm : (Call.create g vals).Admissible W r) :
    Agree W r (.create g vals) (R.step env (.create g vals)) := by
  obtain ⟨ht, hg⟩ := hadm
  unfold Agree
  simp only [RReg.step, Call.run]
  by_cases hwf : 1 ≤ g.length ∧ g.length ≤ 14 ∧ (tyIds g).Nodup
  · rw [if_pos hwf]
    have hw : g.WF := ⟨hwf.1, hwf.2.1, hwf.2.2⟩
    have hg := hg hwf.2.2
    rw [createdId_eq env (by rw [(sortTys_perm g).length_eq]; exact hwf.2.1), sortTys_ids hwf.2.2]
    by_cases hid : groupId env g.idSet = 4294967295
    · have hv : (g.descriptor env).isValid = false := by
        cases hv : (g.descriptor env).isValid with
        | false => rfl
        | true =>
          have := (Group.isValid_iff.mp hv).2
          rw [Group.archetypeId_idSet hw] at this
          exact absurd hid this
      rw [createEntity_invalid hv]
      unfold internTable
      rw [if_pos hid]
      exact ⟨r, cs, rfl, h⟩
    · have hv : (g.descriptor env).isValid = true :=
        Group.isValid_iff.mpr ⟨hw, by rw [Group.archetypeId_idSet hw]; exact hid⟩
      have gs := Group.spec hv
      have hd := Group.descOK hg hv
      have hrel : ArchRel W r.archetypes r.archetypes.keysOf := ⟨⟨cs, h.inv.arch⟩, rfl⟩
      obtain ⟨x, i1, i2, i3, _⟩ := hrel.intern (env := env) (fun _ => hd) (q := (tyIds (sortTys g), groupId env g.idSet))
        (by rw [sortTys_ids hwf.2.2]; exact gs.ids_eq.symm) hd.wf.ids_length (by rw [gs.archetypeId_eq, gs.ids_eq])
      have hhas : ∀ c ∈ sortTys g, W.Has c := fun c hc => hg.has c ((sortTys_perm g).mem_iff.mp hc)
      have hM : MAX_ENTITY_HANDLE_VALUE = 16777215 := rfl
      have hvl : R.versions.length = r.entities.entities.length := by rw [h.slots.versions, List.length_map]
      obtain ⟨k1, k2⟩ := internTable_key R.tables (sortTys g) (groupId env g.idSet)
      rw [h.tables, h.inv.arch.keys_tables, ← h.tables] at k1
      have htab : ∀ {ar1 : ArchetypeRegistry} {cs1 : List Content} {o : Option UInt16},
          r.archetypes.findOrCreateArchetype env (g.descriptor env).archetype = .ok (ar1, o) → ARInv W ar1 cs1 →
          Grown r.archetypes cs ar1 cs1 →
          internTable R.tables (sortTys g) (groupId env g.idSet) = (tablesOf ar1.idsOf cs1, o.map UInt16.toNat) := by
        intro ar1 cs1 o f1 f2 f3
        rw [f1] at i1
        cases i1
        have hk := f3.tables h.inv.arch f2 hhas (id := groupId env g.idSet) i2.2.symm
        rw [← h.tables] at hk
        exact Prod.ext hk.symm (k1.trans i3.symm)
      rcases h.inv.createEntity_spec hg hv ht with ⟨r', cs', e, c1, c2, c3, c4⟩ | ⟨r', cs', c1, c2, c3, c4, _, _, c5⟩ | ⟨c1, c2, _, ai, ct, c3, _, c4, ar1, ai', c5, c6⟩
      · obtain ⟨ar1, cs1, ai, ct, f1, f2, f3, f4, f5, f6, f7, f8⟩ := c2.rows
        obtain ⟨a1, ha1, hr1⟩ := f2.arch f4
        rw [htab f1 f2 f3, c1]
        simp only [Option.map_some]
        rw [if_pos (by omega), rowCount_eq ha1 f4, if_pos f6]
        obtain ⟨iia, ai', ht⟩ := c2.table
        obtain ⟨s1, s2⟩ := h.slots.created h.inv.ents ht
        rw [← s1]
        refine ⟨r', cs', rfl, c2.inv, ?_, s2⟩
        simp only []
        rw [f8.idsOf, f7]
        have hcts : sortTys g = ct.cts := by rw [f5, sortTys_eq hg hv]
        have hsv : (sortTys g).map (fun c => valOf g vals c) = sortVals ct.cts g vals := by
          rw [hcts]; rfl
        rw [hsv]
        refine (tablesOf_set (ct' := ct.push e (sortVals ct.cts g vals)) (f := (· ++ [(e, sortVals ct.cts g vals)])) f4 rfl
          (hr1.rows_push ?_)).symm
        simp [sortVals]
      · rw [c1]
        rcases c5 with ⟨rfl, f1⟩ | ⟨f0, ai, f1⟩
        · rw [htab f1 h.inv.arch (Or.inl ⟨rfl, rfl⟩)]
          simp only [Option.map_none]
          exact ⟨_, cs, rfl, h⟩
        · rw [htab f1 c2.arch c4]
          simp only [Option.map_some]
          rw [if_neg (by omega)]
          refine ⟨r', cs', rfl, c2, rfl, ?_⟩
          rw [c3]; exact h.slots
      · obtain ⟨a, ha, hr⟩ := h.inv.arch.arch c3
        have hfo := h.inv.arch.findOrCreate_spec hd
        have hk1 : internTable R.tables (sortTys g) (groupId env g.idSet) = (R.tables, some ai) := by
          rcases hfo with ⟨i, b, g1, g2, g3, g4⟩ | ⟨hno, ⟨g1, g2⟩ | ⟨ar', b, i, g1, g2, g3, g4⟩⟩
          · rw [c5] at g1; cases g1
            rw [htab c5 h.inv.arch (Or.inl ⟨rfl, rfl⟩), ← h.tables]
            simp [c6]
          · rw [c5] at g2; cases g2
          · rw [c5] at g2; cases g2
            rw [← c6, g3] at ha
            rw [List.getElem?_eq_none (Nat.le_refl _)] at ha; cases ha
        rw [hk1, c1]
        simp only []
        rw [if_pos (by omega), h.tables, rowCount_eq ha c3, if_neg (by omega)]
        cases env.debug <;> rfl
  · rw [if_neg hwf, createEntity_invalid]
    · exact ⟨r, cs, rfl, h⟩
    · cases hv : (g.descriptor env).isValid with
      | false => rfl
      | true =>
        have hw := (Group.isValid_iff.mp hv).1
        exact absurd ⟨hw.pos, hw.le, hw.nodup⟩ hwf

end RRel

end Shard
