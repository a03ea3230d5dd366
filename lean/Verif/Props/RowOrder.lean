import Verif.Spec.Reference
import Verif.Proofs.Step
import Verif.Proofs.Observe
import Verif.Proofs.RefRows
import Verif.Props.Example
/-!
# C95: rows keep their order

The rows of an archetype (`Registry::create_entity`, src/registry/registry.rs; `Archetype::{push_entity_unchecked,
swap_drop_unchecked, swap_to_last_unchecked}`, src/archetype/data_access.rs) form a sequence: a new row goes to the end, and a row that
leaves is replaced by the last one. Stated with the handle slices of the archetypes and the entries of the handles only.
-/

set_option autoImplicit false

namespace Shard.RowOrder

variable {env : Env} {W : World env} {r r' : Registry}

/-- The handles of the archetype with number `i`, in the order of its rows; none if there is no such archetype. -/
def rowsAt (r : Registry) (i : Nat) : List Entity :=
  match r.archetypes.archetypes[i]? with
  | none => []
  | some a => match a.entities with
    | .ok l => l
    | .error _ => []

/-- Where the entry of the handle says that the entity is stored: number of the archetype and row. -/
def placeOf (env : Env) (r : Registry) (e : Entity) : Option (Nat × Nat) :=
  match r.entities.entityEntry env e with
  | none => none
  | some en => some ((en.archetypeIndex env).toNat, en.indexInArchetype.value.toNat)

/-- The handle `e` leaves row `k` of archetype `i` and the handle in the last row takes its place. -/
def Leaves (r r' : Registry) (e : Entity) (i k : Nat) : Prop :=
  (rowsAt r i)[k]? = some e ∧ rowsAt r' i = swapRemove (rowsAt r i) k

/-- The handle `e` is appended to archetype `j`. -/
def Joins (r r' : Registry) (e : Entity) (j : Nat) : Prop := rowsAt r' j = rowsAt r j ++ [e]

/-- The rows of an archetype are as before. -/
def Keeps (r r' : Registry) (i : Nat) : Prop := rowsAt r' i = rowsAt r i

theorem rowsAt_eq {cs : List Content} (h : RInv W r cs) (i : Nat) :
    rowsAt r i = ((cs[i]?).map (fun ct => ct.ents)).getD [] := by
  unfold rowsAt
  cases hi : r.archetypes.archetypes[i]? with
  | none =>
    have : cs[i]? = none := by
      rw [List.getElem?_eq_none_iff] at hi ⊢
      rw [h.arch.len]; exact hi
    rw [this]; rfl
  | some a =>
    obtain ⟨ct, h1, h2⟩ := h.arch.content hi
    simp only []
    rw [h2.entities_ok, h1]
    rfl

theorem placeOf_eq (e : Entity) : placeOf env r e = r.entities.loc env e := by
  unfold placeOf EntityRegistry.loc
  cases r.entities.entityEntry env e <;> rfl

theorem place_iff {cs : List Content} (h : RInv W r cs) (e : Entity) (i k : Nat) :
    placeOf env r e = some (i, k) ↔ (rowsAt r i)[k]? = some e := by
  rw [placeOf_eq, rowsAt_eq h, h.placed e i k]
  cases hi : cs[i]? with
  | none => simp
  | some ct => simp

theorem keeps_of_entities {cs cs' : List Content} (h : RInv W r cs) (h' : RInv W r' cs') (he : r'.entities = r.entities)
    (i : Nat) : Keeps r r' i := by
  unfold Keeps
  apply List.ext_getElem?
  intro k
  apply Option.ext
  intro e
  rw [← place_iff h, ← place_iff h', placeOf_eq, placeOf_eq, he]

theorem grown_rows {ar ar' : ArchetypeRegistry} {cs cs' : List Content} (h : Grown ar cs ar' cs') (i : Nat) :
    ((cs'[i]?).map (fun ct => ct.ents)).getD [] = ((cs[i]?).map (fun ct => ct.ents)).getD [] := by
  rcases h with ⟨_, rfl⟩ | ⟨a, cts, _, _, _, rfl⟩
  · rfl
  · by_cases hi : i < cs.length
    · rw [List.getElem?_append_left hi]
    · rw [List.getElem?_append_right (by omega), List.getElem?_eq_none (l := cs) (by omega)]
      cases hx : i - cs.length with
      | zero => rfl
      | succ n => rfl

theorem swapPop_eq {ct : Content} {k : Nat} (hk : k < ct.ents.length) : (ct.swapPop k).ents = swapRemove ct.ents k := by
  apply List.ext_getElem?
  intro j
  rw [swapPop_ents hk, swapRemove_getElem? hk]

theorem removed {cs cs' : List Content} {e : Entity} {vs : List Val} (h : RInv W r cs) (hx : Removed W r cs e r' cs' vs) :
    ∃ i k, Leaves r r' e i k ∧ ∀ n, n ≠ i → Keeps r r' n := by
  obtain ⟨i, k, ct, h1, h2, h3, _⟩ := hx.rows
  obtain ⟨ct', q1, q2⟩ := (h.placed _ _ _).mp h1
  rw [h2] at q1; cases q1
  have hi := (List.getElem?_eq_some_iff.mp h2).1
  refine ⟨i, k, ⟨?_, ?_⟩, fun n hn => ?_⟩
  · rw [rowsAt_eq h, h2]; exact q2
  · rw [rowsAt_eq h, rowsAt_eq hx.inv, h3, h2, List.getElem?_set_self hi]
    exact swapPop_eq (List.getElem?_eq_some_iff.mp q2).1
  · unfold Keeps
    rw [rowsAt_eq h, rowsAt_eq hx.inv, h3, List.getElem?_set_ne (Ne.symm hn)]

theorem created {cs cs' : List Content} {e : Entity} {g : Group} {vals : List Val} (h : RInv W r cs)
    (hx : CreatedAt W r cs e g vals r' cs') : ∃ j, Joins r r' e j ∧ ∀ n, n ≠ j → Keeps r r' n := by
  obtain ⟨ar1, cs1, ai, ct, _, _, h3, h4, _, _, h5, _⟩ := hx.rows
  have hi := (List.getElem?_eq_some_iff.mp h4).1
  refine ⟨ai.toNat, ?_, fun n hn => ?_⟩
  · unfold Joins
    rw [rowsAt_eq h, rowsAt_eq hx.inv, ← grown_rows h3, h5, h4, List.getElem?_set_self hi]
    rfl
  · unfold Keeps
    rw [rowsAt_eq h, rowsAt_eq hx.inv, ← grown_rows h3, h5, List.getElem?_set_ne (Ne.symm hn)]

theorem moved {cs cs' : List Content} {e : Entity} {src : UInt16} {k : Nat} {ct : Content} {P : CompTy → Prop}
    {find : M (ArchetypeRegistry × Option (Nat × UInt16 × Nat))} {val : CompTy → Val} (h : RInv W r cs)
    (h' : RInv W r' cs') (hc : cs[src.toNat]? = some ct) (hk : ct.ents[k]? = some e)
    (hx : RowsMoved W r cs e src k ct P find val r' cs') :
    ∃ i k j, i ≠ j ∧ Leaves r r' e i k ∧ Joins r r' e j ∧ ∀ n, n ≠ i → n ≠ j → Keeps r r' n := by
  obtain ⟨ar1, cs1, dai, b, ctD, _, hT, _, h3, _⟩ := hx
  have hc1 := hT.grown.get hc
  have hi := (List.getElem?_eq_some_iff.mp hc1).1
  have hj := (List.getElem?_eq_some_iff.mp hT.content).1
  refine ⟨src.toNat, k, dai.toNat, hT.ne, ⟨?_, ?_⟩, ?_, fun n h1 h2 => ?_⟩
  · rw [rowsAt_eq h, hc]; exact hk
  · rw [rowsAt_eq h, rowsAt_eq h', h3, hc, List.getElem?_set_ne hT.ne.symm, List.getElem?_set_self hi]
    exact swapPop_eq (List.getElem?_eq_some_iff.mp hk).1
  · unfold Joins
    rw [rowsAt_eq h, rowsAt_eq h', ← grown_rows hT.grown, h3, hT.content, List.getElem?_set_self (by simpa using hj)]
    rfl
  · unfold Keeps
    rw [rowsAt_eq h, rowsAt_eq h', ← grown_rows hT.grown, h3, List.getElem?_set_ne (Ne.symm h2),
      List.getElem?_set_ne (Ne.symm h1)]

/-- What a call does to the rows of all archetypes, by its outcome. -/
inductive Effect (r r' : Registry) (call : Call) (out : Outcome) : Prop where
  /-- an entity is made: it is appended to one archetype -/
  | made (e : Entity) (j : Nat) (hc : ∃ g vals, call = .create g vals) (ho : out.created = some e) (hv : out.vacated = none) (hj : Joins r r' e j)
      (hk : ∀ n, n ≠ j → Keeps r r' n)
  /-- an entity is ended: its row goes, the last row takes its place -/
  | ended (e : Entity) (i k : Nat) (hd : call = .destroy e ∨ ∃ g, call = .removeEntity g e) (ho : out.vacated = some e)
      (hc : out.created = none) (hl : Leaves r r' e i k)
      (hk : ∀ n, n ≠ i → Keeps r r' n)
  /-- an entity gets or loses a component: it is appended to another archetype, its row goes -/
  | moved (e : Entity) (i k j : Nat) (hm : (∃ c v, call = .add e c v) ∨ ∃ c, call = .remove e c)
      (ho : out.created = none ∧ out.vacated = none) (hs : out.success = true) (hne : i ≠ j)
      (hl : Leaves r r' e i k) (hj : Joins r r' e j) (hk : ∀ n, n ≠ i → n ≠ j → Keeps r r' n)
  /-- every other call leaves all rows as they are -/
  | none (ho : out.created = none ∧ out.vacated = none)
      (hs : out.success = false ∨ ((∀ e c v, call ≠ .add e c v) ∧ ∀ e c, call ≠ .remove e c))
      (hk : ∀ n, Keeps r r' n)

theorem step {cs : List Content} (h : RInv W r cs) {call : Call} (hadm : call.Admissible W r) {out : Outcome}
    (hrun : call.run env r = .ok (r', out)) : Effect r r' call out := by
  cases call with
  | create g vals =>
    obtain ⟨ht, hg⟩ := hadm
    simp only [Call.run] at hrun
    cases hv : (g.descriptor env).isValid with
    | false =>
      rw [createEntity_invalid hv] at hrun
      cases hrun
      exact .none ⟨rfl, rfl⟩ (Or.inl rfl) (fun _ => rfl)
    | true =>
      have hok := hg (Group.spec hv).wf.nodup
      rcases h.createEntity_spec hok hv ht with ⟨r1, cs', e, h1, h2, _⟩ | ⟨r1, cs', h1, h2, h3, _⟩ | ⟨h1, _⟩
      · rw [h1] at hrun
        cases hrun
        obtain ⟨j, q1, q2⟩ := created h h2
        exact .made e j ⟨g, vals, rfl⟩ rfl rfl q1 q2
      · rw [h1] at hrun
        cases hrun
        exact .none ⟨rfl, rfl⟩ (Or.inl rfl) (keeps_of_entities h h2 h3)
      · rw [h1] at hrun
        cases hb : env.debug <;> rw [hb] at hrun <;> cases hrun
  | destroy e =>
    simp only [Call.run] at hrun
    cases hx : r.entities.entityEntry env e with
    | none =>
      rw [destroyEntity_dead hx] at hrun
      cases hrun
      exact .none ⟨rfl, rfl⟩ (Or.inl rfl) (fun _ => rfl)
    | some en =>
      obtain ⟨r1, cs', vs, h1, h2⟩ := h.destroyEntity_spec hx
      rw [h1] at hrun
      cases hrun
      obtain ⟨i, k, q1, q2⟩ := removed h h2
      exact .ended e i k (Or.inl rfl) rfl rfl q1 q2
  | removeEntity g e =>
    simp only [Call.run] at hrun
    cases hx : r.entities.entityEntry env e with
    | none =>
      rw [removeEntity_dead hx] at hrun
      cases hrun
      exact .none ⟨rfl, rfl⟩ (Or.inl rfl) (fun _ => rfl)
    | some en =>
      cases hy : r.removeEntity env g e with
      | error f => rw [hy] at hrun; cases hrun
      | ok x =>
        obtain ⟨r1, o⟩ := x
        obtain ⟨cs', vs, h1, h2, l, rfl⟩ := h.removeEntity_any hx hy
        rw [hy] at hrun
        cases hrun
        obtain ⟨i, k, q1, q2⟩ := removed h h2
        exact .ended e i k (Or.inr ⟨g, rfl⟩) rfl rfl q1 q2
  | add e c v =>
    obtain ⟨hW, hv, hu⟩ := hadm
    simp only [Call.run] at hrun
    cases hx : r.look env cs e with
    | none =>
      rw [addComponent_dead (h.look_none.mp hx)] at hrun
      cases hrun
      exact .none ⟨rfl, rfl⟩ (Or.inl rfl) (fun _ => rfl)
    | some f =>
      obtain ⟨en, a, ct, he, ha, hct, hr, hfe, hm⟩ := h.stored_at hx
      have hadd : ∀ i, AddedIds ct.cts c i ↔ (i = c.id ∨ HasId W r e i) := by
        intro i
        unfold AddedIds
        rw [h.hasId_iff hx]
        constructor
        · rintro (hi | ⟨c', h1, h2⟩)
          · exact Or.inl hi
          · exact Or.inr ⟨c', h2, (hm c').mpr h1⟩
        · rintro (hi | ⟨c', h1, h2⟩)
          · exact Or.inl hi
          · exact Or.inr ⟨c', (hm c').mp h2, h1⟩
      obtain ⟨_, ct0, _, hc0, _, hk, _, _⟩ := h.entry he
      rw [hct] at hc0; cases hc0
      rcases h.addComponent_spec he hct hW hv (fun _ _ s hs =>
        hu (h.live_iff.mpr ⟨f, hx⟩) s (hs.congr hadd)) with ⟨h1, _⟩ | ⟨h1, _⟩ | ⟨h1, _⟩ | ⟨_, _, _, r1, cs', h3, h4, _, h6⟩
      · rw [h1] at hrun
        cases hrun
        exact .none ⟨rfl, rfl⟩ (Or.inl rfl) (fun _ => rfl)
      · rw [h1] at hrun; cases hrun
      · rw [h1] at hrun; cases hrun
      · rw [h3] at hrun
        cases hrun
        obtain ⟨i, k, j, q1, q2, q3, q4⟩ := moved h h4.inv hct hk h6
        exact .moved e i k j (Or.inl ⟨c, v, rfl⟩) ⟨rfl, rfl⟩ rfl q1 q2 q3 q4
  | remove e c =>
    obtain ⟨hW, hu⟩ := hadm
    simp only [Call.run] at hrun
    cases hx : r.look env cs e with
    | none =>
      rw [removeComponent_dead (h.look_none.mp hx)] at hrun
      cases hrun
      exact .none ⟨rfl, rfl⟩ (Or.inl rfl) (fun _ => rfl)
    | some f =>
      obtain ⟨en, a, ct, he, ha, hct, hr, hfe, hm⟩ := h.stored_at hx
      have hrem : ∀ i, RemovedIds ct.cts c i ↔ (i ≠ c.id ∧ HasId W r e i) := by
        intro i
        unfold RemovedIds
        rw [h.hasId_iff hx]
        constructor
        · rintro ⟨c', h1, h2, rfl⟩
          refine ⟨fun hid => h2 (W.id_inj (hr.desc.has _ h1) hW hid), c', rfl, (hm c').mpr h1⟩
        · rintro ⟨h1, c', rfl, h2⟩
          exact ⟨c', (hm c').mp h2, fun hc => h1 (congrArg _ hc), rfl⟩
      obtain ⟨_, ct0, _, hc0, _, hk, _, _⟩ := h.entry he
      rw [hct] at hc0; cases hc0
      rcases h.removeComponent_spec he hct hW (fun _ h2 _ s hs => by
        refine hu (h.live_iff.mpr ⟨f, hx⟩) s ?_ (hs.congr hrem)
        intro hnil
        obtain ⟨c', m1, m2⟩ := exists_ne_of_two hr.nodup h2 c
        have := (hs.2 c'.id).mpr ⟨c', m1, m2, rfl⟩
        rw [hnil] at this
        cases this) with ⟨h1, _⟩ | ⟨h1, _⟩ | ⟨h1, _⟩ | ⟨_, _, _, _, r1, cs', v, _, h4, h5, _, h6⟩
      · rw [h1] at hrun
        cases hrun
        exact .none ⟨rfl, rfl⟩ (Or.inl rfl) (fun _ => rfl)
      · rw [h1] at hrun; cases hrun
      · rw [h1] at hrun; cases hrun
      · rw [h4] at hrun
        cases hrun
        obtain ⟨i, k, j, q1, q2, q3, q4⟩ := moved h h5.inv hct hk h6
        exact .moved e i k j (Or.inr ⟨c, rfl⟩) ⟨rfl, rfl⟩ rfl q1 q2 q3 q4
  | write e c v =>
    obtain ⟨hW, hv⟩ := hadm
    simp only [Call.run] at hrun
    rcases h.replaceComponent_spec hW e hv with ⟨h1, h2⟩ | ⟨r1, cs', f, old, h1, h2, h3, h4, h5, h6, h7, h8, _⟩
    · rw [h2] at hrun
      cases hrun
      exact .none ⟨rfl, rfl⟩ (Or.inl rfl) (fun _ => rfl)
    · rw [h1] at hrun
      cases hrun
      exact .none ⟨rfl, rfl⟩ (Or.inr ⟨fun _ _ _ hx => (by cases hx), fun _ _ hx => (by cases hx)⟩) (keeps_of_entities h h2 h7)
  | writeIn g e j v =>
    obtain ⟨hg, hval, hv⟩ := hadm
    simp only [Call.run] at hrun
    rcases h.getComponentsMut_eq hg hval e with ⟨h1, h2⟩ | ⟨f, ai, ref, h1, h2, h3, h4⟩
    · rw [h2] at hrun
      cases hrun
      exact .none ⟨rfl, rfl⟩ (Or.inl rfl) (fun _ => rfl)
    · rw [h3] at hrun
      simp only [ok_bind, List.getElem?_map] at hrun
      cases hj : g[j]? with
      | none =>
        rw [hj] at hrun
        cases hrun
        exact .none ⟨rfl, rfl⟩ (Or.inl rfl) (fun _ => rfl)
      | some c =>
        rw [hj] at hrun
        simp only [Option.map_some] at hrun
        obtain ⟨r1, cs', old, s1, s2, _, _, s5, _⟩ := h.replaceAt_spec (h4 c (List.mem_of_getElem? hj)) (hv c hj)
        rw [s1] at hrun
        cases hrun
        exact .none ⟨rfl, rfl⟩ (Or.inr ⟨fun _ _ _ hx => (by cases hx), fun _ _ hx => (by cases hx)⟩) (keeps_of_entities h s2 s5)
  | writeIter it g n j k v =>
    obtain ⟨hg, hval, hv, hx⟩ := hadm
    simp only [Call.run] at hrun
    obtain ⟨items, h1, _, h2⟩ := h.items_spec hg hval it hx
    rw [h1] at hrun
    simp only [ok_bind] at hrun
    cases hn : items[n]? with
    | none =>
      rw [hn] at hrun
      cases hrun
      exact .none ⟨rfl, rfl⟩ (Or.inl rfl) (fun _ => rfl)
    | some x =>
      obtain ⟨ai, ss⟩ := x
      obtain ⟨ct, h3, h4, h5⟩ := h2 _ (List.mem_of_getElem? hn)
      rw [hn] at hrun
      simp only [] at h3 h5 hrun
      cases hj : ss[j]? with
      | none =>
        rw [hj] at hrun
        cases hrun
        exact .none ⟨rfl, rfl⟩ (Or.inl rfl) (fun _ => rfl)
      | some s =>
        rw [hj] at hrun
        simp only [] at hrun
        by_cases hk : k < s.len
        · rw [if_pos hk] at hrun
          rw [h5] at hj
          obtain ⟨c, e, q1, q2, q3, q4⟩ := h.slice_ref h3 h4 hj hk
          rw [q2] at hrun
          obtain ⟨r1, cs', old, s1, s2, _, _, s5, _⟩ := h.replaceAt_spec q4 (hv c q1)
          rw [s1] at hrun
          cases hrun
          exact .none ⟨rfl, rfl⟩ (Or.inr ⟨fun _ _ _ hx => (by cases hx), fun _ _ hx => (by cases hx)⟩) (keeps_of_entities h s2 s5)
        · rw [if_neg hk] at hrun
          cases hrun
          exact .none ⟨rfl, rfl⟩ (Or.inl rfl) (fun _ => rfl)

/-- Every handle is found where its entry says, and nowhere else. -/
theorem C95_agree (h : Reachable W r) (e : Entity) (i k : Nat) :
    placeOf env r e = some (i, k) ↔ (rowsAt r i)[k]? = some e := by
  obtain ⟨cs, hcs⟩ := h.inv
  exact place_iff hcs e i k

/-- What a call does to the rows. -/
theorem C95_rows (h : Reachable W r) {call : Call} (hadm : call.Admissible W r) {out : Outcome}
    (hrun : call.run env r = .ok (r', out)) : Effect r r' call out := by
  obtain ⟨cs, hcs⟩ := h.inv
  exact step hcs hadm hrun

/-- The rows of an archetype after a row has left. -/
theorem leaves_place {cs cs' : List Content} (h : RInv W r cs) (h' : RInv W r' cs') {e x : Entity} {i k : Nat}
    (hl : Leaves r r' e i k) {n m : Nat} (hx : x ≠ e) (hp : placeOf env r x = some (n, m)) (hni : n = i) :
    placeOf env r' x = some (i, if m + 1 = (rowsAt r i).length then k else m) := by
  subst hni
  rw [place_iff h] at hp
  rw [place_iff h', hl.2]
  have hk := (List.getElem?_eq_some_iff.mp hl.1).1
  have hm := (List.getElem?_eq_some_iff.mp hp).1
  have hne : m ≠ k := by
    rintro rfl
    rw [hl.1] at hp
    exact hx (Option.some.inj hp).symm
  rw [swapRemove_getElem? hk]
  by_cases hl' : m + 1 = (rowsAt r n).length
  · rw [if_pos hl', if_neg (by omega), if_pos rfl, ← hp]
    congr 1
    omega
  · rw [if_neg hl', if_neg (by omega), if_neg hne]
    exact hp

/-- The entity a call is about: made, ended or given another set of component types by it. -/
def Concerns (call : Call) (out : Outcome) (x : Entity) : Prop :=
  out.created = some x ∨ out.vacated = some x ∨
    (out.success = true ∧ ((∃ c v, call = .add x c v) ∨ ∃ c, call = .remove x c))

theorem keeps_place {cs cs' : List Content} (h : RInv W r cs) (h' : RInv W r' cs') {x : Entity} {n m : Nat}
    (hk : Keeps r r' n) (hp : placeOf env r x = some (n, m)) : placeOf env r' x = placeOf env r x := by
  rw [hp, place_iff h', hk, ← place_iff h]
  exact hp

theorem joins_place {cs cs' : List Content} (h : RInv W r cs) (h' : RInv W r' cs') {e x : Entity} {n m : Nat}
    (hj : Joins r r' e n) (hp : placeOf env r x = some (n, m)) : placeOf env r' x = placeOf env r x := by
  rw [hp, place_iff h', hj]
  rw [place_iff h] at hp
  rw [List.getElem?_append_left (List.getElem?_eq_some_iff.mp hp).1]
  exact hp

/-- **C95**: where the other entities are after a call: at the place they had, except for one: if an entity leaves an
archetype, the entity in the last row takes its row. -/
theorem C95_others (h : Reachable W r) {call : Call} (hadm : call.Admissible W r) {out : Outcome}
    (hrun : call.run env r = .ok (r', out)) {x : Entity} (hx : ¬ Concerns call out x) (hl : Live env r x) :
    placeOf env r' x = placeOf env r x ∨
      ∃ e i k, Concerns call out e ∧ placeOf env r e = some (i, k) ∧
        placeOf env r x = some (i, (rowsAt r i).length - 1) ∧ placeOf env r' x = some (i, k) := by
  obtain ⟨cs, hcs⟩ := h.inv
  obtain ⟨cs', hst⟩ := hcs.step hadm hrun
  have hcs' := hst.inv
  have hsome : ∃ n m, placeOf env r x = some (n, m) := by
    obtain ⟨f, hf⟩ := hcs.live_iff.mp hl
    obtain ⟨en, _, _, he, _⟩ := hcs.stored_at hf
    exact ⟨(en.archetypeIndex env).toNat, en.indexInArchetype.value.toNat, by unfold placeOf; rw [he]⟩
  obtain ⟨n, m, hp⟩ := hsome
  have leave : ∀ {e i k}, x ≠ e → Concerns call out e → Leaves r r' e i k → n = i →
      (placeOf env r' x = placeOf env r x ∨
      ∃ e i k, Concerns call out e ∧ placeOf env r e = some (i, k) ∧
        placeOf env r x = some (i, (rowsAt r i).length - 1) ∧ placeOf env r' x = some (i, k)) := by
    intro e i k hne hc hlv hni
    have key := leaves_place hcs hcs' hlv hne hp hni
    subst hni
    by_cases hm : m + 1 = (rowsAt r n).length
    · rw [if_pos hm] at key
      refine Or.inr ⟨e, n, k, hc, (place_iff hcs _ _ _).mpr hlv.1, ?_, key⟩
      rw [hp]
      congr 2
      omega
    · rw [if_neg hm] at key
      left
      rw [key, hp]
  cases step hcs hadm hrun with
  | made e j _ ho hv hj hk =>
    left
    by_cases hn : n = j
    · subst hn; exact joins_place hcs hcs' hj hp
    · exact keeps_place hcs hcs' (hk n hn) hp
  | ended e i k _ ho hc hlv hk =>
    by_cases hn : n = i
    · exact leave (fun hxe => hx (Or.inr (Or.inl (by rw [hxe]; exact ho)))) (Or.inr (Or.inl ho)) hlv hn
    · exact Or.inl (keeps_place hcs hcs' (hk n hn) hp)
  | moved e i k j hm ho hs hne hlv hj hk =>
    have hc : Concerns call out e := Or.inr (Or.inr ⟨hs, hm⟩)
    by_cases hn : n = i
    · exact leave (fun hxe => hx (hxe ▸ hc)) hc hlv hn
    · left
      by_cases hn' : n = j
      · subst hn'; exact joins_place hcs hcs' hj hp
      · exact keeps_place hcs hcs' (hk n hn hn') hp
  | none ho hs hk => exact Or.inl (keeps_place hcs hcs' (hk n) hp)

theorem concerns_unique {call : Call} {out : Outcome} (h : Effect r r' call out) {x y : Entity}
    (hx : Concerns call out x) (hy : Concerns call out y) : x = y := by
  cases h with
  | made e j hc ho hv hj hk =>
    obtain ⟨g, vals, rfl⟩ := hc
    have key : ∀ z, Concerns (.create g vals) out z → z = e := by
      rintro z (h1 | h1 | ⟨_, ⟨_, _, h1⟩ | ⟨_, h1⟩⟩)
      · rw [ho] at h1; exact (Option.some.inj h1).symm
      · rw [hv] at h1; cases h1
      · cases h1
      · cases h1
    rw [key x hx, key y hy]
  | ended e i k hd ho hc hlv hk =>
    have key : ∀ z, Concerns call out z → z = e := by
      rintro z (h1 | h1 | ⟨_, ⟨_, _, h1⟩ | ⟨_, h1⟩⟩)
      · rw [hc] at h1; cases h1
      · rw [ho] at h1; exact (Option.some.inj h1).symm
      · rcases hd with hd | ⟨g, hd⟩ <;> (rw [hd] at h1; cases h1)
      · rcases hd with hd | ⟨g, hd⟩ <;> (rw [hd] at h1; cases h1)
    rw [key x hx, key y hy]
  | moved e i k j hm ho hs hne hlv hj hk =>
    have key : ∀ z, Concerns call out z → z = e := by
      rintro z (h1 | h1 | ⟨_, ⟨_, _, h1⟩ | ⟨_, h1⟩⟩)
      · rw [ho.1] at h1; cases h1
      · rw [ho.2] at h1; cases h1
      · rcases hm with ⟨_, _, hm⟩ | ⟨_, hm⟩ <;> (rw [hm] at h1; cases h1)
        rfl
      · rcases hm with ⟨_, _, hm⟩ | ⟨_, hm⟩ <;> (rw [hm] at h1; cases h1)
        rfl
    rw [key x hx, key y hy]
  | none ho hs hk =>
    rcases hx with h1 | h1 | ⟨h0, h1⟩
    · rw [ho.1] at h1; cases h1
    · rw [ho.2] at h1; cases h1
    · rcases hs with hs | ⟨hs1, hs2⟩
      · rw [hs] at h0; cases h0
      · rcases h1 with ⟨_, _, h1⟩ | ⟨_, h1⟩
        · exact absurd h1 (hs1 _ _ _)
        · exact absurd h1 (hs2 _ _)

/-- **C95**: every call moves at most one entity it is not about. -/
theorem C95_one (h : Reachable W r) {call : Call} (hadm : call.Admissible W r) {out : Outcome}
    (hrun : call.run env r = .ok (r', out)) {x y : Entity} (hx : ¬ Concerns call out x) (hy : ¬ Concerns call out y)
    (hlx : Live env r x) (hly : Live env r y) (hmx : placeOf env r' x ≠ placeOf env r x)
    (hmy : placeOf env r' y ≠ placeOf env r y) : x = y := by
  rcases C95_others h hadm hrun hx hlx with h1 | ⟨e, i, k, c1, p1, q1, s1⟩
  · exact absurd h1 hmx
  rcases C95_others h hadm hrun hy hly with h2 | ⟨e', i', k', c2, p2, q2, s2⟩
  · exact absurd h2 hmy
  have hee : e = e' := concerns_unique (C95_rows h hadm hrun) c1 c2
  subst hee
  rw [p1] at p2
  cases p2
  rw [C95_agree h] at q1 q2
  rw [q1] at q2
  exact Option.some.inj q2

/-- A call that ends no entity and changes no set of component types. -/
def Gentle (call : Call) : Prop :=
  match call with
  | .create _ _ | .write _ _ _ | .writeIn _ _ _ _ | .writeIter _ _ _ _ _ _ => True
  | _ => False

/-- **C95**: as long as entities are only made and components only overwritten, no row moves: the rows of every archetype
are the rows it had, followed by those of the entities made since. -/
theorem C95_prefix (h : Reachable W r) {hist : List (Call × Outcome)}
    (hs : Steps env (fun r call => call.Admissible W r ∧ Gentle call) r hist r') (i : Nat) :
    ∃ new, rowsAt r' i = rowsAt r i ++ new ∧ new.Sublist (hist.filterMap (fun x => x.2.created)) := by
  suffices Reachable W r' ∧
      ∃ new, rowsAt r' i = rowsAt r i ++ new ∧ new.Sublist (hist.filterMap (fun x => x.2.created)) from this.2
  induction hs with
  | nil => exact ⟨h, [], by simp, List.Sublist.refl _⟩
  | @snoc hist r1 r2 call out _ h2 h3 ih =>
    obtain ⟨hr, new, h4, h5⟩ := ih
    refine ⟨hr.snoc h2.1 h3, ?_⟩
    rw [List.filterMap_append]
    cases C95_rows hr h2.1 h3 with
    | made e j hc ho hv hj hk =>
      by_cases hij : i = j
      · subst hij
        refine ⟨new ++ [e], ?_, h5.append ?_⟩
        · rw [hj, h4, List.append_assoc]
        · simp [ho]
      · exact ⟨new, by rw [hk i hij, h4], h5.trans (List.sublist_append_left _ _)⟩
    | ended e _ _ hd ho hc hlv hk =>
      rcases hd with rfl | ⟨g, rfl⟩ <;> exact absurd h2.2 id
    | moved e _ _ j hm ho hs hne hlv hj hk =>
      rcases hm with ⟨_, _, rfl⟩ | ⟨_, rfl⟩ <;> exact absurd h2.2 id
    | none ho hs hk => exact ⟨new, by rw [hk i, h4], h5.trans (List.sublist_append_left _ _)⟩

/-! ## Examples -/

/-- Four entities in one archetype. -/
def rowCalls : List Call :=
  [.create [exA] [exValA], .create [exA] [exValA'], .create [exA] [exValA], .create [exA] [exValA'], .create [exB] [exValB]]

def rowR : Registry := (okOr ([], Registry.default) (runCalls exEnv Registry.default rowCalls)).2
def rowOuts : List Outcome := (okOr ([], Registry.default) (runCalls exEnv Registry.default rowCalls)).1
def rowE (i : UInt32) : Entity := Entity.newUnchecked i 0

set_option maxRecDepth 100000 in
theorem rowRun : runCalls exEnv Registry.default rowCalls = .ok (rowOuts, rowR) := by
  decide +kernel

theorem rowReachable : Reachable exWorld rowR := by
  have := Steps.of_run (calls := rowCalls) (ok := Call.Admissible exWorld)
    (fun r call hc => exCheck_ok (List.all_eq_true.mp (show rowCalls.all exCheck = true by decide +kernel) call hc) r)
    Steps.nil rowRun
  exact ⟨_, this⟩

set_option maxRecDepth 100000 in
/-- The second entity is destroyed: the last one takes its row, the others stay; then the first one gets a component: the
entity in the last row takes row 0. -/
example : rowsAt rowR 0 = [rowE 0, rowE 1, rowE 2, rowE 3] ∧
    (match (Call.destroy (rowE 1)).run exEnv rowR with
     | .ok (r1, o1) => decide (o1.vacated = some (rowE 1) ∧ rowsAt r1 0 = [rowE 0, rowE 3, rowE 2] ∧
        placeOf exEnv r1 (rowE 3) = some (0, 1) ∧ placeOf exEnv r1 (rowE 2) = placeOf exEnv rowR (rowE 2) ∧
        rowsAt r1 1 = [rowE 4]) && (match (Call.add (rowE 0) exB exValB).run exEnv r1 with
         | .ok (r2, o2) => decide (o2.success = true ∧ rowsAt r2 0 = [rowE 2, rowE 3] ∧ rowsAt r2 2 = [rowE 0] ∧
            rowsAt r2 1 = [rowE 4])
         | _ => false)
     | _ => false) = true := by
  decide +kernel

/-- The hypotheses of the theorems hold for that history. -/
example : Reachable exWorld rowR ∧ (Call.destroy (rowE 1)).Admissible exWorld rowR ∧
    (Call.add (rowE 0) exB exValB).Admissible exWorld rowR ∧ Live exEnv rowR (rowE 3) ∧
    Gentle (.create [exA] [exValA]) :=
  ⟨rowReachable, exCheck_ok (by decide +kernel) _, exCheck_ok (by decide +kernel) _,
   by show rowE 3 ∈ rowR.iterEntities exEnv; decide +kernel, trivial⟩

end Shard.RowOrder
