import Verif.Proofs.History
/-!
# From the results of API calls to steps of a history
-/

namespace Shard

variable {env : Env} {W : World env} {r r' : Registry} {cs cs' : List Content}

theorem RInv.sameEntity (h : RInv W r cs) (h' : RInv W r' cs') {x : Entity} (hl : r'.look env cs' x = r.look env cs x) :
    SameEntity W r r' x := by
  refine ⟨?_, fun c hc => ?_⟩
  · rw [h'.live_iff, h.live_iff, hl]
  · rw [h'.hasComponent_eq hc, h.hasComponent_eq hc, h'.getComponent_eq hc, h.getComponent_eq hc, hl]
    exact ⟨rfl, rfl⟩

theorem run_create_ok {g : Group} {vals : List Val} {e : Entity} (h : r.createEntity env g vals = .ok (r', .ok e)) :
    (Call.create g vals).run env r = .ok (r', { success := true, created := some e, given := vals }) := by
  simp only [Call.run, h, ok_bind]; rfl

theorem run_create_err {g : Group} {vals vs : List Val} (h : r.createEntity env g vals = .ok (r', .err vs)) :
    (Call.create g vals).run env r = .ok (r', { success := false, given := vals, returned := vs }) := by
  simp only [Call.run, h, ok_bind]; rfl

theorem run_destroy {e : Entity} {b : Bool} {d : List Val} (h : r.destroyEntity env e = .ok (r', b, d)) :
    (Call.destroy e).run env r = .ok (r', { success := b, vacated := if b then some e else none, dropped := d }) := by
  simp only [Call.run, h, ok_bind]; rfl

theorem run_removeEntity_some {g : Group} {e : Entity} {vs : List Val} (h : r.removeEntity env g e = .ok (r', some vs)) :
    (Call.removeEntity g e).run env r = .ok (r', { success := true, vacated := some e, returned := vs }) := by
  simp only [Call.run, h, ok_bind]; rfl

theorem run_add_ok {e : Entity} {c : CompTy} {v : Val} (h : r.addComponent env e c v = .ok (r', .ok ())) :
    (Call.add e c v).run env r = .ok (r', { success := true, given := [v] }) := by
  simp only [Call.run, h, ok_bind]; rfl

theorem run_add_err {e : Entity} {c : CompTy} {v w : Val} (h : r.addComponent env e c v = .ok (r', .err w)) :
    (Call.add e c v).run env r = .ok (r', { success := false, given := [v], returned := [w] }) := by
  simp only [Call.run, h, ok_bind]; rfl

theorem run_remove_ok {e : Entity} {c : CompTy} {w : Val} (h : r.removeComponent env e c = .ok (r', .ok w)) :
    (Call.remove e c).run env r = .ok (r', { success := true, returned := [w] }) := by
  simp only [Call.run, h, ok_bind]; rfl

theorem run_remove_err {e : Entity} {c : CompTy} (h : r.removeComponent env e c = .ok (r', .err ())) :
    (Call.remove e c).run env r = .ok (r', { success := false }) := by
  simp only [Call.run, h, ok_bind]; rfl

/-- The abstract effect of a successful creation. -/
theorem RInv.create_ok (h : RInv W r cs) {g : Group} {vals : List Val} (hadm : (Call.create g vals).Admissible W r)
    {e : Entity} (hc : r.createEntity env g vals = .ok (r', .ok e)) :
    ∃ cs', StepInv W r cs (.create g vals) { success := true, created := some e, given := vals } r' cs' ∧
      r.look env cs e = none ∧ r'.look env cs' = AMap.set (r.look env cs) e (some (lookupTy g vals)) := by
  obtain ⟨cs', hs⟩ := h.step hadm (run_create_ok hc)
  have := hs.abs
  simp only [AMap.Step, Option.some.injEq, exists_eq_left'] at this
  rcases this with ⟨_, h1, h2⟩ | ⟨h1, _⟩
  · exact ⟨cs', hs, h1, h2⟩
  · cases h1

theorem RInv.create_err (h : RInv W r cs) {g : Group} {vals vs : List Val} (hadm : (Call.create g vals).Admissible W r)
    (hc : r.createEntity env g vals = .ok (r', .err vs)) :
    ∃ cs', StepInv W r cs (.create g vals) { success := false, given := vals, returned := vs } r' cs' ∧
      vs = vals ∧ r'.look env cs' = r.look env cs := by
  obtain ⟨cs', hs⟩ := h.step hadm (run_create_err hc)
  have := hs.abs
  simp only [AMap.Step] at this
  rcases this with ⟨h1, _⟩ | ⟨_, h1, h2⟩
  · cases h1
  · exact ⟨cs', hs, h1, h2⟩

theorem RInv.destroy_ok (h : RInv W r cs) {e : Entity} {b : Bool} {d : List Val}
    (hc : r.destroyEntity env e = .ok (r', b, d)) :
    ∃ cs', StepInv W r cs (.destroy e) { success := b, vacated := if b then some e else none, dropped := d } r' cs' ∧
      (b = true ↔ Live env r e) ∧ r'.look env cs' = AMap.set (r.look env cs) e none := by
  obtain ⟨cs', hs⟩ := h.step (call := .destroy e) trivial (run_destroy hc)
  have := hs.abs
  rw [h.live_iff]
  simp only [AMap.Step] at this
  cases hl : r.look env cs e with
  | none =>
    rw [hl] at this
    refine ⟨cs', hs, by simp [this.1], ?_⟩
    rw [this.2]
    funext x
    unfold AMap.set
    split
    · next hx => rw [hx, hl]
    · rfl
  | some f =>
    rw [hl] at this
    exact ⟨cs', hs, by simp [this.1], this.2⟩

theorem Reachable.snoc (h : Reachable W r) {call : Call} (hadm : call.Admissible W r) {out : Outcome}
    (hr : call.run env r = .ok (r', out)) : Reachable W r' := by
  obtain ⟨hist, hs⟩ := h
  exact ⟨_, hs.snoc hadm hr⟩

/-! ## Entity iteration -/

theorem liveFrom_sorted {l : List EntityEntry} (hl : l.length ≤ 16777215) : ∀ (n cur : Nat), l.length ≤ cur + n →
    (liveFrom env l cur).Pairwise (fun a b => a.index < b.index)
  | 0, cur, h => by rw [liveFrom_end (by omega)]; exact List.Pairwise.nil
  | n + 1, cur, h => by
    rcases Nat.lt_or_ge cur l.length with hlt | hge
    · have hx := List.getElem?_eq_getElem hlt
      have ih := liveFrom_sorted hl n (cur + 1) (by omega)
      have ih2 := (liveFrom_nodup (env := env) hl n (cur + 1) (by omega)).2
      rw [liveFrom_cons hx]
      have ht : (UInt32.ofNat cur).toNat = cur := by rw [UInt32.toNat_ofNat']; omega
      split
      · refine List.pairwise_cons.mpr ⟨fun e he => ?_, ih⟩
        have := ih2 e he
        rw [UInt32.lt_iff_toNat_lt, Entity.index_newUnchecked _ _ (by rw [ht]; omega), ht]
        omega
      · exact ih
    · rw [liveFrom_end hge]; exact List.Pairwise.nil

theorem RInv.iterEntities_sorted (h : RInv W r cs) : (r.iterEntities env).Pairwise (fun a b => a.index < b.index) := by
  unfold Registry.iterEntities
  rw [iter_eq]
  exact liveFrom_sorted h.ents.len_le r.entities.entities.length 0 (by omega)

theorem RInv.iterEntities_ext (h : RInv W r cs) (h' : RInv W r' cs') (hl : ∀ x, Live env r x ↔ Live env r' x) :
    r.iterEntities env = r'.iterEntities env := by
  apply List.Perm.eq_of_pairwise (le := fun a b => a.index < b.index) _ h.iterEntities_sorted h'.iterEntities_sorted
  · exact (List.perm_ext_iff_of_nodup h.iterEntities_nodup h'.iterEntities_nodup).mpr hl
  · intro a b _ _ h1 h2
    exact absurd (UInt32.lt_trans h1 h2) (UInt32.lt_irrefl _)

theorem RInv.some_component (h : RInv W r cs) {e : Entity} {f : CompTy → Option Val} (hf : r.look env cs e = some f) :
    ∃ c, (f c).isSome := by
  obtain ⟨en, a, ct, _, _, _, hr, _, hm⟩ := h.stored_at hf
  have hp : 0 < ct.cts.length := by
    have h1 := hr.desc.length
    have h2 := hr.desc.wf.len_pos
    omega
  exact ⟨ct.cts[0], (hm _).mpr (List.getElem_mem hp)⟩

/-! ## Component moves and stores -/

theorem RInv.add_ok (h : RInv W r cs) {e : Entity} {c : CompTy} {v : Val} (hadm : (Call.add e c v).Admissible W r)
    (hc : r.addComponent env e c v = .ok (r', .ok ())) :
    ∃ cs' f, StepInv W r cs (.add e c v) { success := true, given := [v] } r' cs' ∧ r.look env cs e = some f ∧
      f c = none ∧ r'.look env cs' = AMap.set (r.look env cs) e (some (setComp f c (some v))) := by
  obtain ⟨cs', hs⟩ := h.step hadm (run_add_ok hc)
  have := hs.abs
  simp only [AMap.Step] at this
  cases hl : r.look env cs e with
  | none => rw [hl] at this; simp at this
  | some f =>
    rw [hl] at this
    rcases this with ⟨_, h1, h2⟩ | ⟨h1, _⟩
    · exact ⟨cs', f, hs, rfl, h1, h2⟩
    · cases h1

theorem RInv.add_err (h : RInv W r cs) {e : Entity} {c : CompTy} {v w : Val} (hadm : (Call.add e c v).Admissible W r)
    (hc : r.addComponent env e c v = .ok (r', .err w)) : r' = r ∧ w = v := by
  obtain ⟨cs', hs⟩ := h.step hadm (run_add_err hc)
  have habs := hs.abs
  have hw : w = v := by
    simp only [AMap.Step] at habs
    cases hl : r.look env cs e with
    | none => rw [hl] at habs; simpa using habs.2.1
    | some f =>
      rw [hl] at habs
      rcases habs with ⟨h1, _⟩ | ⟨_, h1, _⟩
      · cases h1
      · simpa using h1
  refine ⟨?_, hw⟩
  rcases h.add_step hadm with ⟨r1, out, cs1, q1, _, q3, _⟩ | ⟨flt, q1, _⟩
  · rw [run_add_err hc] at q1
    cases q1
    exact (q3 rfl).1
  · rw [run_add_err hc] at q1; cases q1

theorem RInv.remove_ok (h : RInv W r cs) {e : Entity} {c : CompTy} {w : Val} (hadm : (Call.remove e c).Admissible W r)
    (hc : r.removeComponent env e c = .ok (r', .ok w)) :
    ∃ cs' f, StepInv W r cs (.remove e c) { success := true, returned := [w] } r' cs' ∧ r.look env cs e = some f ∧
      f c = some w ∧ (∃ c', c' ≠ c ∧ (f c').isSome) ∧
      r'.look env cs' = AMap.set (r.look env cs) e (some (setComp f c none)) := by
  obtain ⟨cs', hs⟩ := h.step hadm (run_remove_ok hc)
  have := hs.abs
  simp only [AMap.Step] at this
  cases hl : r.look env cs e with
  | none => rw [hl] at this; simp at this
  | some f =>
    rw [hl] at this
    rcases this with ⟨_, v, h1, h2, h3, h4⟩ | ⟨h1, _⟩
    · cases h3
      exact ⟨cs', f, hs, rfl, h1, h2, h4⟩
    · cases h1

theorem RInv.remove_err (h : RInv W r cs) {e : Entity} {c : CompTy} (hadm : (Call.remove e c).Admissible W r)
    (hc : r.removeComponent env e c = .ok (r', .err ())) : r' = r := by
  rcases h.remove_step hadm with ⟨r1, out, cs1, q1, _, q3, _⟩ | ⟨flt, q1, _⟩
  · rw [run_remove_err hc] at q1
    cases q1
    exact (q3 rfl).1
  · rw [run_remove_err hc] at q1; cases q1

/-- Reads of an entity whose abstract entry changed in one component. -/
theorem RInv.sameOthers (h : RInv W r cs) (h' : RInv W r' cs') {e : Entity} {c : CompTy} {f : CompTy → Option Val}
    {x : Option Val} (hf : r.look env cs e = some f) (hf' : r'.look env cs' e = some (setComp f c x)) :
    SameOthers W r r' e c := by
  intro c' hc' hne
  have : setComp f c x c' = f c' := if_neg hne
  rw [h'.hasComponent_eq hc', h.hasComponent_eq hc', h'.getComponent_eq hc', h.getComponent_eq hc', hf, hf']
  simp [this]

theorem AMap.set_self {a : AMap} {e : Entity} {x : Option (CompTy → Option Val)} : a.set e x e = x := if_pos rfl

theorem AMap.set_ne {a : AMap} {e y : Entity} {x : Option (CompTy → Option Val)} (h : y ≠ e) : a.set e x y = a y := if_neg h

theorem RInv.onlyWritten (h : RInv W r cs) (h' : RInv W r' cs') {e : Entity} {c : CompTy} (hc : W.Has c) {v old : Val}
    (hl : AMap.Replaced (r.look env cs) e c v old (r'.look env cs')) : OnlyWritten W r r' e c old v := by
  obtain ⟨f, h1, h2, h3⟩ := hl
  have hf' : r'.look env cs' e = some (setComp f c (some v)) := by rw [h3, AMap.set_self]
  have hcc : setComp f c (some v) c = some v := if_pos rfl
  refine ⟨h.live_iff.mpr ⟨f, h1⟩, h'.live_iff.mpr ⟨_, hf'⟩, ?_, ?_, ?_, h.sameOthers h' h1 hf', fun x hx => ?_⟩
  · rw [h.getComponent_eq hc, h1]; exact congrArg _ h2
  · rw [h'.getComponent_eq hc, hf']; exact congrArg _ hcc
  · rw [h'.hasComponent_eq hc, hf']; simp only [Option.bind_some, hcc]; rfl
  · exact h.sameEntity h' (by rw [h3, AMap.set_ne hx])

/-! ## Permuted groups -/

open Archetype in
theorem asSortedPointers_length {g : Group} {vals : List Val} : (asSortedPointers env g vals).length = 14 := by
  unfold asSortedPointers
  have : ∀ (l : List Nat) (acc : List (Option Val)), acc.length = 14 →
      (l.foldl (fun ptrs i => ptrs.set (g.slot env i) vals[i]?) acc).length = 14 := by
    intro l
    induction l with
    | nil => intro acc h; exact h
    | cons x l ih => intro acc h; exact ih _ (by rw [List.length_set]; exact h)
  exact this _ _ (by simp [MAX_COMPONENTS_PER_ENTITY])

open Archetype in
theorem asSortedPointers_pad {g : Group} (gs : GroupSpec env g) {vals : List Val} {k : Nat} (hk : g.length ≤ k) (hk' : k < 14) :
    (asSortedPointers env g vals)[k]? = some none := by
  unfold asSortedPointers
  have : ∀ n, n ≤ g.length → ((List.range n).foldl (fun ptrs i => ptrs.set (g.slot env i) vals[i]?)
      (List.replicate MAX_COMPONENTS_PER_ENTITY (none : Option Val)))[k]? = some none := by
    intro n
    induction n with
    | zero => intro _; exact List.getElem?_replicate_of_lt hk'
    | succ n ih =>
      intro hn
      rw [List.range_succ, List.foldl_append, List.foldl_cons, List.foldl_nil, List.getElem?_set_ne, ih (by omega)]
      have := gs.slot_lt (i := n) (by omega)
      rw [gs.components_length] at this
      omega
  exact this _ (Nat.le_refl _)

open Archetype in
theorem asSortedPointers_perm {g g' : Group} (gs : GroupSpec env g) (gs' : GroupSpec env g') {vals vals' : List Val}
    (hl : vals.length = g.length) (hl' : vals'.length = g'.length) (hp : (g.zip vals).Perm (g'.zip vals')) :
    asSortedPointers env g' vals' = asSortedPointers env g vals := by
  have hgp : g.Perm g' := by
    have := hp.map Prod.fst
    rwa [List.map_fst_zip (by omega), List.map_fst_zip (by omega)] at this
  have hgl := hgp.length_eq
  have ha := Group.archetype_perm env hgp
  apply List.ext_getElem?
  intro k
  rcases Nat.lt_or_ge k 14 with hk | hk
  · rcases Nat.lt_or_ge k g.length with hkg | hkg
    · obtain ⟨j, hj, hs⟩ := gs.slot_surj hkg
      obtain ⟨j', hj', hs'⟩ := gs'.slot_surj (show k < g'.length by omega)
      have e1 := asSortedPointers_spec gs (vals := vals) hj
      have e2 := asSortedPointers_spec gs' (vals := vals') hj'
      rw [hs] at e1
      rw [hs'] at e2
      rw [e1, e2]
      congr 1
      have d1 := gs.slot j hj
      have d2 := gs'.slot j' hj'
      rw [hs] at d1
      rw [hs', ha, d1] at d2
      have hid : g[j].id = g'[j'].id := congrArg ComponentDescriptor.id (Option.some.inj d2)
      have hm : (g[j], vals[j]'(by omega)) ∈ g'.zip vals' := by
        rw [← hp.mem_iff, List.mem_iff_getElem?]
        exact ⟨j, by rw [List.getElem?_zip_eq_some]; exact ⟨List.getElem?_eq_getElem hj, List.getElem?_eq_getElem (by omega)⟩⟩
      obtain ⟨j2, hj2⟩ := List.mem_iff_getElem?.mp hm
      rw [List.getElem?_zip_eq_some] at hj2
      obtain ⟨b1, b2⟩ := List.getElem?_eq_some_iff.mp hj2.1
      have : j2 = j' := gs'.wf.id_inj b1 hj' (by rw [b2, hid])
      subst this
      rw [hj2.2, List.getElem?_eq_getElem]
    · rw [asSortedPointers_pad gs hkg hk, asSortedPointers_pad gs' (by omega) hk]
  · rw [List.getElem?_eq_none (by rw [asSortedPointers_length]; exact hk),
      List.getElem?_eq_none (by rw [asSortedPointers_length]; exact hk)]

open Archetype in
/-- Creation with a permuted tuple: literally the same registry and the same handle. -/
theorem createEntity_perm (r : Registry) {g g' : Group} {vals vals' : List Val}
    (hl : vals.length = g.length) (hl' : vals'.length = g'.length) (hp : (g.zip vals).Perm (g'.zip vals')) :
    r.createEntity env g' vals' = (r.createEntity env g vals).map (fun x =>
      (x.1, match x.2 with
        | .ok e => .ok e
        | .err _ => .err vals')) := by
  have hgp : g.Perm g' := by
    have := hp.map Prod.fst
    rwa [List.map_fst_zip (by omega), List.map_fst_zip (by omega)] at this
  have ha := Group.archetype_perm env hgp
  have hv' := Group.isValid_perm env hgp
  cases hv : (g.descriptor env).isValid with
  | false =>
    rw [createEntity_invalid hv, createEntity_invalid (hv'.trans hv)]
    rfl
  | true =>
    have hpush : ∀ (a : Archetype) (e : Entity),
        a.pushEntityUnchecked env e g' vals' = a.pushEntityUnchecked env e g vals := by
      intro a e
      unfold pushEntityUnchecked writeEntityUnchecked
      rw [hv', ha, asSortedPointers_perm (Group.spec hv) (Group.spec (hv'.trans hv)) hl hl' hp]
    unfold Registry.createEntity
    rw [hv', hv, ha]
    simp only [hpush, not_true_eq_false, if_false]
    generalize hF : ArchetypeRegistry.findOrCreateArchetype env r.archetypes (g.descriptor env).archetype = F
    cases F with
    | error f => rfl
    | ok f =>
      simp only [ok_bind]
      cases f.2 with
      | none => rfl
      | some ai =>
        simp only []
        cases index f.1.archetypes ai.toNat with
        | error f => rfl
        | ok a =>
          simp only [ok_bind]
          cases unwrap (IndexInArchetype.new (UInt32.ofNat a.entityCount)) with
          | error f => rfl
          | ok iia =>
            simp only [ok_bind]
            cases unwrap (ArchetypeIndex.new ai) with
            | error f => rfl
            | ok aix =>
              simp only [ok_bind]
              cases r.entities.createEntity env iia aix with
              | error f => rfl
              | ok c =>
                simp only [ok_bind]
                cases c.2 with
                | none => rfl
                | some e =>
                  simp only []
                  cases a.pushEntityUnchecked env e g vals with
                  | error f => rfl
                  | ok p => rfl

end Shard
