import Verif.Spec.Demand
import Verif.Proofs.RefMove
import Verif.Proofs.Counts
import Verif.Props.TwoHomes
/-!
# C105: archetypes are created on demand
-/

set_option autoImplicit false

namespace Shard

variable {env : Env} {W : World env} {r r' : Registry}

/-! ## Lists of keys -/

theorem tyIds_sortTys (g : Group) : tyIds (sortTys g) = sortIds (tyIds g) := by
  unfold sortTys sortIds
  induction g with
  | nil => rfl
  | cons c g ih =>
    rw [List.foldr_cons, insertTy_ids, ih]
    rfl

theorem sortIds_eq {g : Group} (h : (g.map (fun c => c.id)).Nodup) : sortIds (g.map (fun c => c.id)) = g.idSet := by
  rw [← sortTys_ids h, tyIds_sortTys]
  rfl

theorem onRows_keys (ts : List RTable) (i : Nat) (f : List (Entity × List Val) → List (Entity × List Val)) :
    (onRows ts i f).map RTable.key = ts.map RTable.key := by
  apply List.ext_getElem?
  intro j
  unfold onRows
  rw [List.getElem?_map, List.getElem?_map, List.getElem?_modify]
  cases ts[j]? with
  | none => rfl
  | some t =>
    simp only [Option.map_some]
    split <;> rfl

theorem internTable_keys (ts : List RTable) (cts : List CompTy) (id : UInt32) :
    (internTable ts cts id).1.map RTable.key = (keyIntern (ts.map RTable.key) (tyIds cts, id)).1 := by
  rcases (internTable_key ts cts id).2 with ⟨h1, h2⟩ | ⟨h1, h2⟩
  · rw [h1, h2]
  · rw [h1, h2, List.map_append]; rfl

theorem keyIntern_none {l : List ArchKey} {q : ArchKey} (h : (keyIntern l q).2 = none) : (keyIntern l q).1 = l := by
  unfold keyIntern at h ⊢
  split
  · rfl
  · next hq =>
    rw [if_neg hq] at h
    cases hk : keyIndex l q with
    | some i => rfl
    | none =>
      rw [hk] at h
      simp only [] at h ⊢
      split
      · next hl => rw [if_pos hl] at h; cases h
      · rfl

theorem keyIntern_cases (l : List ArchKey) (q : ArchKey) : (keyIntern l q).1 = l ∨ (keyIntern l q).1 = l ++ [q] := by
  unfold keyIntern
  split
  · exact Or.inl rfl
  · split
    · exact Or.inl rfl
    · split
      · exact Or.inr rfl
      · exact Or.inl rfl

theorem keyIndex_of_mem : ∀ {l : List ArchKey} {q : ArchKey}, q ∈ l → ∃ i, keyIndex l q = some i
  | k :: l, q, h => by
    unfold keyIndex
    by_cases hk : k.1.length = q.1.length ∧ k.2 = q.2
    · rw [if_pos hk]; exact ⟨0, rfl⟩
    · rw [if_neg hk]
      rcases List.mem_cons.mp h with rfl | h
      · exact absurd ⟨rfl, rfl⟩ hk
      · obtain ⟨i, hi⟩ := keyIndex_of_mem h
        exact ⟨i + 1, by rw [hi]; rfl⟩

theorem keyIntern_of_mem {l : List ArchKey} {q : ArchKey} (h : q ∈ l) : (keyIntern l q).1 = l := by
  obtain ⟨i, hi⟩ := keyIndex_of_mem h
  unfold keyIntern
  rw [hi]
  split <;> rfl

/-- The keys of all tables of the reference that represents the registry. -/
theorem RRel.keys {cs : List Content} {R : RReg} (h : RRel W r cs R) : R.tables.map RTable.key = r.archetypes.keysOf := by
  rw [h.tables, h.inv.arch.keys_tables]

theorem RInv.rrel {cs : List Content} (hi : RInv W r cs) : ∃ R : RReg, RRel W r cs R := by
  obtain ⟨fl, hfl⟩ := hi.ents.free
  exact ⟨⟨r.entities.entities.map (fun en => en.version), fl, tablesOf r.archetypes.idsOf cs⟩, hi, rfl, rfl, hfl⟩

/-! ## One call -/

theorem create_keys (hr : Reachable W r) {g : Group} {vals : List Val} (hadm : (Call.create g vals).Admissible W r) {out : Outcome}
    (hrun : (Call.create g vals).run env r = .ok (r', out)) :
    r'.archetypes.keysOf =
      if g.Fine then (keyIntern r.archetypes.keysOf (createdKey env (sortIds (g.map (fun c => c.id))))).1 else r.archetypes.keysOf := by
  obtain ⟨cs, hi⟩ := hr.inv
  obtain ⟨R, h⟩ := hi.rrel
  have ha := h.create hadm
  unfold Agree at ha
  rw [hrun] at ha
  simp only [RReg.step] at ha
  by_cases hf : g.Fine
  · have hf' : 1 ≤ g.length ∧ g.length ≤ 14 ∧ (tyIds g).Nodup := hf
    rw [if_pos hf]
    rw [if_pos hf'] at ha
    have hk := internTable_keys R.tables (sortTys g) (createdId env (sortTys g))
    have hq : (tyIds (sortTys g), createdId env (sortTys g)) = createdKey env (sortIds (g.map (fun c => c.id))) := by
      unfold createdId createdKey
      rw [tyIds_sortTys]; rfl
    have hk2 := (internTable_key R.tables (sortTys g) (createdId env (sortTys g))).1
    rw [hq, h.keys] at hk hk2
    generalize internTable R.tables (sortTys g) (createdId env (sortTys g)) = y at ha hk hk2
    obtain ⟨ts, o⟩ := y
    cases o with
    | none =>
      obtain ⟨r1, cs1, h1, h2⟩ := ha
      cases h1
      rw [← h2.keys, keyIntern_none hk2.symm, h.keys]
    | some i =>
      simp only [] at ha
      rw [← hk]
      by_cases hv : R.versions.length < 16777215
      · rw [if_pos hv] at ha
        by_cases hc : rowCount ts i < 8388608
        · rw [if_pos hc] at ha
          obtain ⟨r1, cs1, h1, h2⟩ := ha
          cases h1
          rw [← h2.keys]
          simp only [onRows_keys]
        · rw [if_neg hc] at ha
          cases ha
      · rw [if_neg hv] at ha
        obtain ⟨r1, cs1, h1, h2⟩ := ha
        cases h1
        rw [← h2.keys]
  · have hf' : ¬ (1 ≤ g.length ∧ g.length ≤ 14 ∧ (tyIds g).Nodup) := hf
    rw [if_neg hf]
    rw [if_neg hf'] at ha
    obtain ⟨r1, cs1, h1, h2⟩ := ha
    cases h1
    rw [← h2.keys, h.keys]

/-- The table of a live entity in the reference has the ids of the entity. -/
theorem RRel.find_ids {cs : List Content} {R : RReg} (h : RRel W r cs R) {e : Entity} {i k : Nat} {t : RTable} {vals : List Val}
    (hf : findEntity R.tables e = some (i, k, t, vals)) : Live env r e ∧ AscSet (tyIds t.cts) (HasId W r e) ∧ ∀ c ∈ t.cts, W.Has c := by
  cases hx : r.entities.entityEntry env e with
  | none => rw [h.find_dead hx] at hf; cases hf
  | some en =>
    obtain ⟨a, ct, ha, hct, hr, hk, hloc, hlook⟩ := h.inv.entry hx
    rw [h.find_live hloc hct ha] at hf
    cases hf
    have hkl := (List.getElem?_eq_some_iff.mp hk).1
    have hmem : ∀ c', ((fun c => ct.get c en.indexInArchetype.value.toNat) c').isSome ↔ c' ∈ ct.cts := by
      intro c'
      constructor
      · intro hs
        obtain ⟨w, hw⟩ := Option.isSome_iff_exists.mp hs
        exact (hr.mem_of_get hw).1
      · intro hcc
        obtain ⟨w, hw, _⟩ := hr.get_some hcc hkl
        simp only [hw, Option.isSome_some]
    have hids : tyIds ct.cts = a.descriptor.ids := hr.desc.ids_eq.symm
    refine ⟨h.inv.live_iff.mpr ⟨_, hlook⟩, ?_, hr.desc.has⟩
    rw [hids]
    exact (h.inv.ids_of hlook hr hmem).1

theorem add_keys (hr : Reachable W r) {e : Entity} {c : CompTy} {v : Val} (hadm : (Call.add e c v).Admissible W r) {out : Outcome}
    (hrun : (Call.add e c v).run env r = .ok (r', out)) {s : List UInt16} (hs : Live env r e → AscSet s (HasId W r e)) :
    r'.archetypes.keysOf =
      if out.success = true then (keyIntern r.archetypes.keysOf (changedKey env (insertId c.id s))).1 else r.archetypes.keysOf := by
  obtain ⟨cs, hi⟩ := hr.inv
  obtain ⟨R, h⟩ := hi.rrel
  have ha := h.add hadm
  unfold Agree at ha
  rw [hrun] at ha
  simp only [RReg.step] at ha
  have href : ∀ {x : Except Fault (RReg × Outcome)}, x = R.refuse v → (match x with
      | .error f => (.ok (r', out) : M (Registry × Outcome)) = .error f
      | .ok (R', out') => ∃ r1 cs1, (.ok (r', out) : M (Registry × Outcome)) = .ok (r1, out') ∧ RRel W r1 cs1 R') →
      out.success = false ∧ r'.archetypes.keysOf = r.archetypes.keysOf := by
    rintro x rfl ⟨r1, cs1, h1, h2⟩
    cases h1
    exact ⟨rfl, by rw [← h2.keys, h.keys]⟩
  have hno : out.success = false ∧ r'.archetypes.keysOf = r.archetypes.keysOf → r'.archetypes.keysOf =
      if out.success = true then (keyIntern r.archetypes.keysOf (changedKey env (insertId c.id s))).1 else r.archetypes.keysOf := by
    rintro ⟨h1, h2⟩
    rw [h1, h2]; rfl
  cases hfe : findEntity R.tables e with
  | none =>
    rw [hfe] at ha
    exact hno (href rfl ha)
  | some x =>
    obtain ⟨i, k, t, vals⟩ := x
    rw [hfe] at ha
    obtain ⟨hl, hids, hhas⟩ := h.find_ids hfe
    have hst : s = tyIds t.cts := (hs hl).unique hids
    simp only [] at ha
    by_cases h1 : c ∈ t.cts ∨ t.cts.length = 14
    · rw [if_pos h1] at ha
      exact hno (href rfl ha)
    · rw [if_neg h1] at ha
      by_cases h2 : t.cts.length = 13
      · rw [if_pos h2] at ha; cases ha
      · rw [if_neg h2] at ha
        have hk := internTable_keys R.tables (insertTy c t.cts) (changedId env (insertTy c t.cts))
        have hq : (tyIds (insertTy c t.cts), changedId env (insertTy c t.cts)) = changedKey env (insertId c.id s) := by
          unfold changedId changedKey
          rw [insertTy_ids, hst]
        rw [hq, h.keys] at hk
        generalize internTable R.tables (insertTy c t.cts) (changedId env (insertTy c t.cts)) = y at ha hk
        obtain ⟨ts, o⟩ := y
        cases o with
        | none => exact hno (href rfl ha)
        | some d =>
          simp only [] at ha
          by_cases hc : rowCount ts d < 8388608
          · rw [if_pos hc] at ha
            obtain ⟨r1, cs1, g1, g2⟩ := ha
            cases g1
            rw [← g2.keys, ← hk]
            simp only [if_true]
            rw [onRows_keys, onRows_keys]
          · rw [if_neg hc] at ha
            cases ha

theorem remove_keys (hr : Reachable W r) {e : Entity} {c : CompTy} (hadm : (Call.remove e c).Admissible W r) {out : Outcome}
    (hrun : (Call.remove e c).run env r = .ok (r', out)) {s : List UInt16} (hs : Live env r e → AscSet s (HasId W r e)) :
    r'.archetypes.keysOf =
      if out.success = true then (keyIntern r.archetypes.keysOf (changedKey env (s.erase c.id))).1 else r.archetypes.keysOf := by
  obtain ⟨cs, hi⟩ := hr.inv
  obtain ⟨R, h⟩ := hi.rrel
  have ha := h.remove hadm
  unfold Agree at ha
  rw [hrun] at ha
  simp only [RReg.step] at ha
  have hno : (∃ r1 cs1, (.ok (r', out) : M (Registry × Outcome)) = .ok (r1, { success := false }) ∧ RRel W r1 cs1 R) →
      r'.archetypes.keysOf =
      if out.success = true then (keyIntern r.archetypes.keysOf (changedKey env (s.erase c.id))).1 else r.archetypes.keysOf := by
    rintro ⟨r1, cs1, h1, h2⟩
    cases h1
    rw [← h2.keys, h.keys]; rfl
  cases hfe : findEntity R.tables e with
  | none =>
    rw [hfe] at ha
    exact hno ha
  | some x =>
    obtain ⟨i, k, t, vals⟩ := x
    rw [hfe] at ha
    obtain ⟨hl, hids, hhas⟩ := h.find_ids hfe
    have hst : s = tyIds t.cts := (hs hl).unique hids
    simp only [] at ha
    by_cases h1 : c ∉ t.cts ∨ t.cts.length = 1
    · rw [if_pos h1] at ha
      exact hno ha
    · rw [if_neg h1] at ha
      by_cases h2 : t.cts.length = 14
      · rw [if_pos h2] at ha; cases ha
      · rw [if_neg h2] at ha
        have hk := internTable_keys R.tables (t.cts.erase c) (changedId env (t.cts.erase c))
        have hq : (tyIds (t.cts.erase c), changedId env (t.cts.erase c)) = changedKey env (s.erase c.id) := by
          unfold changedId changedKey
          rw [erase_ids hadm.1 hhas, hst]
        rw [hq, h.keys] at hk
        generalize internTable R.tables (t.cts.erase c) (changedId env (t.cts.erase c)) = y at ha hk
        obtain ⟨ts, o⟩ := y
        cases o with
        | none => exact hno ha
        | some d =>
          simp only [] at ha
          by_cases hc : rowCount ts d < 8388608
          · rw [if_pos hc] at ha
            obtain ⟨r1, cs1, g1, g2⟩ := ha
            cases g1
            rw [← g2.keys, ← hk]
            simp only [if_true]
            rw [onRows_keys, onRows_keys]
          · rw [if_neg hc] at ha
            cases ha

/-- The other calls create no archetype. -/
theorem other_keys (hr : Reachable W r) {call : Call} (hadm : call.Admissible W r) {out : Outcome}
    (hrun : call.run env r = .ok (r', out)) (hc : call.reshapes = false) : r'.archetypes.keysOf = r.archetypes.keysOf := by
  obtain ⟨cs, hi⟩ := hr.inv
  obtain ⟨cs', hst⟩ := hi.step hadm hrun
  have hcnt := hi.step_count hadm hrun
  rw [hc] at hcnt
  apply List.ext_getElem?
  intro j
  unfold ArchetypeRegistry.keysOf
  rw [List.getElem?_map, List.getElem?_map]
  cases ha : r.archetypes.archetypes[j]? with
  | none =>
    rw [List.getElem?_eq_none_iff] at ha
    rw [List.getElem?_eq_none (by simp at hcnt; omega)]
  | some a =>
    obtain ⟨a', h1, h2, _⟩ := hst.arch.old j a ha
    rw [h1]
    simp only [Option.map_some, h2]

/-! ## Histories -/

theorem ownIds_snoc (hist : List (Call × Outcome)) (x : Call × Outcome) (e : Entity) : ownIds (hist ++ [x]) e =
    match x.1 with
    | .create g _ => if x.2.created = some e then sortIds (g.map (fun c => c.id)) else ownIds hist e
    | .add e' c _ => if e' = e ∧ x.2.success = true then insertId c.id (ownIds hist e) else ownIds hist e
    | .remove e' c => if e' = e ∧ x.2.success = true then (ownIds hist e).erase c.id else ownIds hist e
    | _ => ownIds hist e := by
  unfold ownIds
  rw [List.foldl_append]
  rfl

theorem demands_state (env : Env) (hist : List (Call × Outcome)) :
    (hist.foldl (fun (s : List (Call × Outcome) × List ArchKey) x => (s.1 ++ [x], s.2 ++ asks env s.1 x)) ([], [])).1 = hist := by
  suffices h : ∀ (hist : List (Call × Outcome)) (s : List (Call × Outcome) × List ArchKey),
      (hist.foldl (fun (s : List (Call × Outcome) × List ArchKey) x => (s.1 ++ [x], s.2 ++ asks env s.1 x)) s).1 = s.1 ++ hist by
    have := h hist ([], [])
    simpa using this
  intro hist
  induction hist with
  | nil => intro s; simp
  | cons x hist ih => intro s; rw [List.foldl_cons, ih]; simp

theorem demands_snoc (env : Env) (hist : List (Call × Outcome)) (x : Call × Outcome) :
    demands env (hist ++ [x]) = demands env hist ++ asks env hist x := by
  unfold demands
  rw [List.foldl_append]
  simp only [List.foldl_cons, List.foldl_nil]
  rw [demands_state]

/-- An entity has the components the outcomes tell. -/
theorem Steps.ownIds {hist : List (Call × Outcome)} (hs : Steps env (Call.Admissible W) Registry.default hist r) {e : Entity}
    (he : Live env r e) : AscSet (ownIds hist e) (HasId W r e) := by
  induction hs with
  | nil =>
    have := (Steps.liveHandles (W := W) (fun _ _ h => h) (hist := []) Steps.nil).2 e
    simp [Shard.liveHandles] at this
    exact absurd he this
  | snoc h1 h2 h3 ih =>
    rename_i hist r1 r2 call out
    have hr1 : Reachable W r1 := ⟨_, h1⟩
    have hr2 : Reachable W r2 := ⟨_, h1.snoc h2 h3⟩
    obtain ⟨cs1, hcs⟩ := hr1.inv
    obtain ⟨cs2, hst⟩ := hcs.step h2 h3
    have hl := hst.live hcs e
    rw [ownIds_snoc]
    by_cases hc : out.created = some e
    · obtain ⟨g, vals, rfl⟩ := hst.place.only e hc
      simp only [hc, if_true]
      have hm := hst.place.made g vals e rfl hc
      have hv : g.Fine := by
        rcases hst.abs with ⟨k1, _⟩ | ⟨k1, _⟩
        · simp only [Call.run] at h3
          cases hvv : (g.descriptor env).isValid with
          | false => rw [createEntity_invalid hvv] at h3; cases h3; cases hc
          | true =>
            have hw := (Group.isValid_iff.mp hvv).1
            exact ⟨hw.pos, hw.le, hw.nodup⟩
        · simp only [Call.run] at h3
          cases hx : r1.createEntity env g vals with
          | error f => rw [hx] at h3; cases h3
          | ok x =>
            rw [hx] at h3
            obtain ⟨r3, res⟩ := x
            cases res with
            | ok e' => cases h3; cases k1
            | err w => cases h3; cases hc
      rw [sortIds_eq hv.2.2]
      exact hm.set hr2
    · have hbef : Live env r1 e ∧ out.vacated ≠ some e := by
        cases hc' : out.created with
        | some e' =>
          have ht := hst.table
          unfold TableStep at ht
          rw [hc'] at hl ht
          refine ⟨?_, fun hv => by rw [hv] at ht; exact ht⟩
          rcases hl.mp he with rfl | hx
          · exact absurd hc' hc
          · exact hx
        | none =>
          rw [hc'] at hl
          cases hv : out.vacated with
          | some e' =>
            rw [hv] at hl
            exact ⟨(hl.mp he).2, fun hx => (hl.mp he).1 (Option.some.inj hx).symm⟩
          | none => rw [hv] at hl; exact ⟨hl.mp he, fun hx => by cases hx⟩
      have ih := ih hbef.1
      by_cases hm : call.moves e ∧ out.success = true
      · obtain ⟨hm1, hm2⟩ := hm
        cases call with
        | add e' c v =>
          have hm1 : e = e' := hm1
          subst hm1
          simp only [hm2, and_self, if_true]
          cases hx : r1.addComponent env e c v with
          | error f => simp only [Call.run, hx] at h3; cases h3
          | ok x =>
            obtain ⟨r3, res⟩ := x
            cases res with
            | ok u =>
              rw [run_add_ok hx] at h3; cases h3
              obtain ⟨q1, q2, _⟩ := add_ids hr1 h2 hx
              refine (insertId_asc ih.1 (fun hmem => q2 ((ih.2 _).mp hmem))).congr (fun i => ?_)
              rw [q1, ih.2]
            | err w => rw [run_add_err hx] at h3; cases h3; cases hm2
        | remove e' c =>
          have hm1 : e = e' := hm1
          subst hm1
          simp only [hm2, and_self, if_true]
          cases hx : r1.removeComponent env e c with
          | error f => simp only [Call.run, hx] at h3; cases h3
          | ok x =>
            obtain ⟨r3, res⟩ := x
            cases res with
            | ok u =>
              rw [run_remove_ok hx] at h3; cases h3
              obtain ⟨q1, _⟩ := remove_ids hr1 h2 hx
              refine (erase_asc ih.1).congr (fun i => ?_)
              rw [q1, ih.2]
            | err w => rw [run_remove_err hx] at h3; cases h3; cases hm2
        | _ => exact hm1.elim
      · have hkeep : AscSet (Shard.ownIds hist e) (HasId W r2 e) := by
          obtain ⟨s', hh'⟩ := h1.home (W := W) (fun _ _ h => h) hbef.1
          have := (hh'.step (hst.place.stay e hc hbef.2 hm) hst.arch).set hr2
          rw [ih.unique (hh'.set hr1)]
          exact this
        cases call with
        | create g vals => simp only [hc, if_false]; exact hkeep
        | add e' c v =>
          simp only []
          rw [if_neg (fun hx => hm ⟨hx.1.symm, hx.2⟩)]
          exact hkeep
        | remove e' c =>
          simp only []
          rw [if_neg (fun hx => hm ⟨hx.1.symm, hx.2⟩)]
          exact hkeep
        | _ => exact hkeep

/-- A history can be cut in two. -/
theorem Steps.unappend {ok : Registry → Call → Prop} {r0 : Registry} {a b : List (Call × Outcome)}
    (h : Steps env ok r0 (a ++ b) r) : ∃ r1, Steps env ok r0 a r1 ∧ Steps env ok r1 b r := by
  suffices hsuff : ∀ {hist : List (Call × Outcome)} {r : Registry}, Steps env ok r0 hist r → ∀ b, hist = a ++ b →
      ∃ r1, Steps env ok r0 a r1 ∧ Steps env ok r1 b r from hsuff h b rfl
  intro hist r h
  induction h with
  | nil =>
    intro b hb
    obtain ⟨rfl, rfl⟩ := List.append_eq_nil_iff.mp hb.symm
    exact ⟨r0, Steps.nil, Steps.nil⟩
  | snoc h1 h2 h3 ih =>
    intro b hb
    rcases List.eq_nil_or_concat b with rfl | ⟨b', y, rfl⟩
    · rw [List.append_nil] at hb
      rw [← hb]
      exact ⟨_, h1.snoc h2 h3, Steps.nil⟩
    · rw [List.concat_eq_append, ← List.append_assoc] at hb
      obtain ⟨e1, e2⟩ := List.append_inj' hb rfl
      cases e2
      obtain ⟨r1, k1, k2⟩ := ih b' e1
      rw [List.concat_eq_append]
      exact ⟨r1, k1, k2.snoc h2 h3⟩

theorem Steps.empty {ok : Registry → Call → Prop} {hist : List (Call × Outcome)} (h : Steps env ok r hist r') (he : hist = []) : r = r' := by
  cases h with
  | nil => rfl
  | snoc h1 h2 h3 => exact absurd he (by simp)

theorem Steps.single {ok : Registry → Call → Prop} {call : Call} {out : Outcome} (h : Steps env ok r [(call, out)] r') :
    ok r call ∧ call.run env r = .ok (r', out) := by
  suffices hsuff : ∀ {hist : List (Call × Outcome)} {r' : Registry}, Steps env ok r hist r' → hist = [(call, out)] →
      ok r call ∧ call.run env r = .ok (r', out) from hsuff h rfl
  intro hist r' h
  cases h with
  | nil => intro hx; cases hx
  | snoc h1 h2 h3 =>
    intro hx
    obtain ⟨e1, e2⟩ := List.append_inj' (s₂ := []) hx rfl
    subst e1
    cases e2
    rw [h1.empty rfl]
    exact ⟨h2, h3⟩

/-- What one call does to the keys of the archetypes. -/
theorem Steps.keys_step {hist : List (Call × Outcome)} (hs : Steps env (Call.Admissible W) Registry.default hist r) {call : Call}
    (hadm : call.Admissible W r) {out : Outcome} (hrun : call.run env r = .ok (r', out)) :
    r'.archetypes.keysOf = (asks env hist (call, out)).foldl (fun l q => (keyIntern l q).1) r.archetypes.keysOf := by
  have hr : Reachable W r := ⟨_, hs⟩
  unfold asks
  cases call with
  | create g vals =>
    rw [create_keys hr hadm hrun]
    simp only []
    split <;> rfl
  | add e c v =>
    rw [add_keys hr hadm hrun (fun he => hs.ownIds he)]
    simp only []
    split <;> rfl
  | remove e c =>
    rw [remove_keys hr hadm hrun (fun he => hs.ownIds he)]
    simp only []
    split <;> rfl
  | _ => exact other_keys hr hadm hrun rfl


/-- The ids of the two kinds of keys are the ids the code computes. -/
theorem createdKey_eq (env : Env) {s : List UInt16} (h : s.length ≤ 14) : createdKey env s = (s, groupId env s) := by
  have hk : tyIds (s.map (fun i => (⟨0, i, 0, 1⟩ : CompTy))) = s := by
    unfold tyIds
    rw [List.map_map]
    exact List.map_id _
  have := createdId_eq env (cts := s.map (fun i => (⟨0, i, 0, 1⟩ : CompTy))) (by simpa using h)
  unfold createdId at this
  rw [hk] at this
  unfold createdKey
  rw [this]

theorem changedKey_eq (env : Env) {s : List UInt16} (h1 : 1 ≤ s.length) (h : s.length ≤ 14) : changedKey env s = (s, plainId env s) := by
  have hk : tyIds (s.map (fun i => (⟨0, i, 0, 1⟩ : CompTy))) = s := by
    unfold tyIds
    rw [List.map_map]
    exact List.map_id _
  have := changedId_eq env (cts := s.map (fun i => (⟨0, i, 0, 1⟩ : CompTy))) (by simpa using h1) (by simpa using h)
  unfold changedId at this
  rw [hk] at this
  unfold changedKey
  rw [this]

theorem Home.key {e : Entity} {s : List UInt16} {id : UInt32} (h : Home env r e s id) : (s, id) ∈ r.archetypes.keysOf := by
  obtain ⟨ai, a, _, h2, h3, h4⟩ := h
  unfold ArchetypeRegistry.keysOf
  refine List.mem_map.mpr ⟨a, List.mem_of_getElem? h2, ?_⟩
  rw [← h3, ← h4]
  rfl

/-- A call that succeeds got what it asked for. -/
theorem Steps.served_step {hist : List (Call × Outcome)} (hs : Steps env (Call.Admissible W) Registry.default hist r) {call : Call}
    (hadm : call.Admissible W r) {out : Outcome} (hrun : call.run env r = .ok (r', out)) (hok : out.success = true) :
    ∀ q ∈ asks env hist (call, out), q ∈ r'.archetypes.keysOf := by
  have hs' := hs.snoc hadm hrun
  have hr : Reachable W r := ⟨_, hs⟩
  have hr' : Reachable W r' := ⟨_, hs'⟩
  obtain ⟨cs, hi⟩ := hr.inv
  obtain ⟨cs', hst⟩ := hi.step hadm hrun
  have hmv : ∀ e, call.moves e → changedKey env (Shard.ownIds (hist ++ [(call, out)]) e) ∈ r'.archetypes.keysOf := by
    intro e hm
    obtain ⟨s, hh⟩ := hst.place.moved e hm hok
    have hl : Live env r' e := by
      obtain ⟨ai, _, h1, _⟩ := hh
      cases hx : r'.entities.entityEntry env e with
      | none => unfold Registry.archOf EntityRegistry.loc at h1; rw [hx] at h1; cases h1
      | some en =>
        obtain ⟨_, _, _, _, _, _, _, hlook⟩ := hst.inv.entry hx
        exact hst.inv.live_iff.mpr ⟨_, hlook⟩
    have hset := hh.set hr'
    obtain ⟨_, _, _, _, _, _, h1, h2, _⟩ := stored_home hs' hl hset
    rw [(hs'.ownIds hl).unique hset, changedKey_eq env h1 h2]
    exact hh.key
  intro q hq
  unfold asks at hq
  cases call with
  | create g vals =>
    simp only [] at hq
    by_cases hf : g.Fine
    · rw [if_pos hf, List.mem_singleton] at hq
      subst hq
      rcases hst.abs with ⟨_, e, he, _⟩ | ⟨h1, _⟩
      · rw [sortIds_eq hf.2.2, createdKey_eq env (by rw [g.idSet_perm.length_eq, List.length_map]; exact hf.2.1)]
        exact (hst.place.made g vals e rfl he).key
      · rw [hok] at h1; cases h1
    · rw [if_neg hf] at hq; cases hq
  | add e c v =>
    simp only [hok, if_true, List.mem_singleton] at hq
    subst hq
    have := hmv e rfl
    rw [ownIds_snoc] at this
    simp only [hok, and_self, if_true] at this
    exact this
  | remove e c =>
    simp only [hok, if_true, List.mem_singleton] at hq
    subst hq
    have := hmv e rfl
    rw [ownIds_snoc] at this
    simp only [hok, and_self, if_true] at this
    exact this
  | _ => cases hq

/-! ## The theorems -/

/-- **C105, exactly, for every history**: the archetypes of a registry, in the order of their positions, are what the
calls asked for, in order, each key the first time it is asked for — unless the key has the reserved id or there are 65,534
archetypes. -/
theorem C105_keys {hist : List (Call × Outcome)} (hs : Steps env (Call.Admissible W) Registry.default hist r) :
    r.archetypes.keysOf = (demands env hist).foldl (fun l q => (keyIntern l q).1) [] := by
  induction hs with
  | nil => rfl
  | snoc h1 h2 h3 ih => rw [h1.keys_step h2 h3, ih, demands_snoc, List.foldl_append]

/-- The components the demands are computed from are the components of the entities. -/
theorem C105_own {hist : List (Call × Outcome)} (hs : Steps env (Call.Admissible W) Registry.default hist r) {e : Entity}
    (he : Live env r e) : AscSet (ownIds hist e) (HasId W r e) := hs.ownIds he

/-- No two archetypes have the same key. -/
theorem C105_once (hr : Reachable W r) : r.archetypes.keysOf.Nodup := by
  obtain ⟨cs, hi⟩ := hr.inv
  unfold ArchetypeRegistry.keysOf
  rw [List.nodup_iff_pairwise_ne, List.pairwise_map, List.pairwise_iff_getElem]
  intro i j h1 h2 hij he
  have he1 := congrArg Prod.fst he
  have he2 := congrArg Prod.snd he
  have ha := List.getElem?_eq_getElem h1
  have hb := List.getElem?_eq_getElem h2
  obtain ⟨ct1, _, r1⟩ := hi.arch.content ha
  obtain ⟨ct2, _, r2⟩ := hi.arch.content hb
  have hl : r.archetypes.archetypes[i].descriptor.len = r.archetypes.archetypes[j].descriptor.len := by
    rw [← r1.desc.wf.ids_length, ← r2.desc.wf.ids_length]
    exact congrArg List.length he1
  have := hi.arch.unique_index ha hb hl he2
  omega

/-- Every archetype was asked for. -/
theorem C105_source {hist : List (Call × Outcome)} (hs : Steps env (Call.Admissible W) Registry.default hist r) :
    (∀ q ∈ r.archetypes.keysOf, q ∈ demands env hist) ∧ r.archetypes.archetypes.length ≤ (demands env hist).length := by
  have hsub : r.archetypes.keysOf.Sublist (demands env hist) := by
    rw [C105_keys hs]
    suffices h : ∀ (d l : List ArchKey), (d.foldl (fun l q => (keyIntern l q).1) l).Sublist (l ++ d) by
      simpa using h (demands env hist) []
    intro d
    induction d with
    | nil => intro l; simp
    | cons q d ih =>
      intro l
      rw [List.foldl_cons]
      refine (ih _).trans ?_
      rcases keyIntern_cases l q with h | h
      · rw [h]
        exact (List.sublist_cons_self q d).append_left l
      · rw [h]; simp
  refine ⟨fun q hq => hsub.mem hq, ?_⟩
  have := hsub.length_le
  unfold ArchetypeRegistry.keysOf at this
  rw [List.length_map] at this
  exact this

/-- A call never takes an archetype away or changes its key: the keys only grow at the end. -/
theorem C105_stays {hist more : List (Call × Outcome)} (hs : Steps env (Call.Admissible W) Registry.default hist r)
    (hm : Steps env (Call.Admissible W) r more r') : r.archetypes.keysOf <+: r'.archetypes.keysOf := by
  induction hm with
  | nil => exact List.prefix_refl _
  | snoc h1 h2 h3 ih =>
    rename_i more r1 r2 call out
    refine ih.trans ?_
    rw [(hs.append h1).keys_step h2 h3]
    generalize asks env _ _ = d
    generalize r1.archetypes.keysOf = l
    induction d generalizing l with
    | nil => exact List.prefix_refl _
    | cons q d ihd =>
      rw [List.foldl_cons]
      refine List.IsPrefix.trans ?_ (ihd _)
      rcases keyIntern_cases l q with h | h
      · rw [h]; exact List.prefix_refl _
      · rw [h]; exact List.prefix_append _ _

/-- Every call that succeeded got what it asked for, and the archetype is still there in the end. -/
theorem C105_served {before after : List (Call × Outcome)} {x : Call × Outcome}
    (hs : Steps env (Call.Admissible W) Registry.default (before ++ x :: after) r) (hok : x.2.success = true) :
    ∀ q ∈ asks env before x, q ∈ r.archetypes.keysOf := by
  obtain ⟨r1, h1, h2⟩ := hs.unappend
  obtain ⟨r2, h3, h4⟩ := Steps.unappend (a := [x]) (b := after) h2
  intro q hq
  refine (C105_stays (h1.append h3) h4).subset ?_
  obtain ⟨call, out⟩ := x
  obtain ⟨hadm, hrun⟩ := h3.single
  exact h1.served_step hadm hrun hok q hq

/-- Calls other than `create_entity` and successful calls of `add_component` and `remove_component` leave the archetypes
alone. -/
theorem C105_quiet (hr : Reachable W r) {call : Call} (hadm : call.Admissible W r) {out : Outcome}
    (hrun : call.run env r = .ok (r', out)) (hq : call.reshapes = true → out.success = false ∧ ∀ g vals, call ≠ .create g vals) :
    r'.archetypes.keysOf = r.archetypes.keysOf := by
  obtain ⟨hist, hs⟩ := hr
  rw [hs.keys_step hadm hrun]
  unfold asks
  cases call with
  | create g vals => exact absurd rfl ((hq rfl).2 g vals)
  | add e c v => simp only [(hq rfl).1]; rfl
  | remove e c => simp only [(hq rfl).1]; rfl
  | _ => rfl

/-- **C105, when no creation is refused**: the archetypes are exactly the different keys that were asked for, in the order
they were first asked for. -/
theorem C105_exact {hist : List (Call × Outcome)} (hs : Steps env (Call.Admissible W) Registry.default hist r)
    (hn : NoRefusal hist) : r.archetypes.keysOf = (demands env hist).eraseDups := by
  induction hs with
  | nil => rfl
  | snoc h1 h2 h3 ih =>
    rename_i hist r1 r2 call out
    have ih := ih (fun x hx => hn x (List.mem_append_left _ hx))
    have hstep := h1.keys_step h2 h3
    rw [demands_snoc, List.eraseDups_append, ← ih]
    have hone : asks env hist (call, out) = [] ∨ ∃ q, asks env hist (call, out) = [q] ∧ q ∈ r2.archetypes.keysOf := by
      have hsv := fun hok => h1.served_step h2 h3 hok
      have hcase : asks env hist (call, out) = [] ∨ ∃ q, asks env hist (call, out) = [q] ∧ out.success = true := by
        unfold asks
        cases call with
        | create g vals =>
          simp only []
          by_cases hf : g.Fine
          · rw [if_pos hf]
            exact Or.inr ⟨_, rfl, hn _ (List.mem_append_right _ (List.mem_singleton.mpr rfl)) g vals rfl hf⟩
          · rw [if_neg hf]; exact Or.inl rfl
        | add e c v =>
          simp only []
          by_cases hok : out.success = true
          · rw [if_pos hok]; exact Or.inr ⟨_, rfl, hok⟩
          · rw [if_neg hok]; exact Or.inl rfl
        | remove e c =>
          simp only []
          by_cases hok : out.success = true
          · rw [if_pos hok]; exact Or.inr ⟨_, rfl, hok⟩
          · rw [if_neg hok]; exact Or.inl rfl
        | _ => exact Or.inl rfl
      rcases hcase with h | ⟨q, h, hok⟩
      · exact Or.inl h
      · exact Or.inr ⟨q, h, hsv hok q (by rw [h]; exact List.mem_singleton.mpr rfl)⟩
    rcases hone with h | ⟨q, h, hmem⟩
    · rw [hstep, h]; simp [List.removeAll]
    · rw [hstep, h] at hmem
      rw [hstep, h]
      simp only [List.foldl_cons, List.foldl_nil] at hmem ⊢
      by_cases hin : q ∈ r1.archetypes.keysOf
      · rw [keyIntern_of_mem hin]
        have : q ∈ demands env hist := by rw [ih] at hin; exact List.mem_eraseDups.mp hin
        simp [List.removeAll, this]
      · rcases keyIntern_cases r1.archetypes.keysOf q with h' | h'
        · rw [h'] at hmem; exact absurd hmem hin
        · rw [h']
          have : q ∉ demands env hist := by rw [ih] at hin; exact fun hx => hin (List.mem_eraseDups.mpr hx)
          have hr : List.removeAll [q] (demands env hist) = [q] := by simp [List.removeAll, this]
          rw [hr]
          rfl

/-! ## Example -/

set_option maxRecDepth 100000 in
/-- Nine calls ask for eight archetypes, two of them twice: `{A, B}` and `{A}` (created), `{A, B, C}` (changed), `{A, B}`
again, `{C}` (created), `{A, B}` and `{A}` (changed), and `{A}` (created) again. No creation is refused, so there are six
archetypes, in this order. -/
example : (demands exEnv (thCalls.zip thOuts)).map Prod.fst =
      [[exA.id, exB.id], [exA.id], [exA.id, exB.id, exC.id], [exA.id, exB.id], [exC.id], [exA.id, exB.id], [exA.id], [exA.id]] ∧
    NoRefusal (thCalls.zip thOuts) ∧ thR.archetypes.archetypes.length = 6 ∧
    thR.archetypes.keysOf.map Prod.fst =
      [[exA.id, exB.id], [exA.id], [exA.id, exB.id, exC.id], [exC.id], [exA.id, exB.id], [exA.id]] := by
  refine ⟨by decide +kernel, ?_, by decide +kernel, by decide +kernel⟩
  intro x hx _ _ _ _
  exact List.all_eq_true.mp (show (thCalls.zip thOuts).all (fun x => x.2.success) = true by decide +kernel) x hx

example := C105_exact thSteps
example := C105_source thSteps
example := C105_once (W := exWorld) ⟨_, thSteps⟩

set_option maxRecDepth 100000 in
/-- The seventh call, which gives the entity with the component `A` a `B`, got the archetype for `{A, B}` it asked for. -/
example : changedKey exEnv [exA.id, exB.id] ∈ thR.archetypes.keysOf := by
  have h : thCalls.zip thOuts = (thCalls.take 6).zip (thOuts.take 6) ++
      (.add exE2 exB exValB, { success := true, given := [exValB] }) :: (thCalls.drop 7).zip (thOuts.drop 7) := by
    have h6 : thOuts.drop 6 = { success := true, given := [exValB] } :: thOuts.drop 7 := by decide +kernel
    have hl : (thCalls.take 6).length = (thOuts.take 6).length := by decide +kernel
    have h1 : thCalls = thCalls.take 6 ++ .add exE2 exB exValB :: thCalls.drop 7 := rfl
    have h2 : thOuts = thOuts.take 6 ++ { success := true, given := [exValB] } :: thOuts.drop 7 := by
      rw [← h6, List.take_append_drop]
    conv => lhs; rw [h1, h2]
    rw [List.zip_append hl]
    rfl
  have hs := thSteps
  rw [h] at hs
  exact C105_served hs rfl _ (by decide +kernel)

end Shard
