import Verif.Model.Examples
import Verif.Proofs.Programs
import Verif.Props.InvalidGroups
import Verif.Props.Iteration
/-!
# C77: the examples and the benchmark

The examples give `Rotation` the name of `Position`. So the two types have the same id, and the calls of the examples
that use both fail. With a name of its own for `Rotation`, everything the examples describe happens.
-/

set_option autoImplicit false

namespace Shard

open CrateTests Examples

variable {env : Env} {r : Registry}

/-! ## The types -/

/-- `Position`, with its id. -/
def exPos : CompTy := ⟨31, 54869, 12, 4⟩
/-- `Rotation`, with a name of its own. -/
def exRot : CompTy := ⟨32, 30029, 16, 4⟩
/-- `Rotation`, as shipped. -/
def exBad : CompTy := ⟨32, 54869, 16, 4⟩

theorem position_eq (env : Env) : position env = exPos := by
  obtain ⟨d, b, z⟩ := env; revert d b z; decide +kernel

theorem rotation_eq (env : Env) : rotation env rotationName = exRot := by
  obtain ⟨d, b, z⟩ := env; revert d b z; decide +kernel

theorem rotation_bad (env : Env) : rotation env positionName = exBad := by
  obtain ⟨d, b, z⟩ := env; revert d b z; decide +kernel

/-- A value of `Position`. -/
def IsPosition (p : Val) : Prop := p.ty = 31 ∧ p.bytes.length = 12
/-- A value of `Rotation`. -/
def IsRotation (q : Val) : Prop := q.ty = 32 ∧ q.bytes.length = 16

theorem examplesCheck (env : Env) :
    worldCheck env [exPos, exRot] [[54869], [30029], [30029, 54869], []] = true := by
  obtain ⟨d, b, z⟩ := env; revert d b z; decide +kernel

/-- The types and component sets of the examples. -/
def examplesWorld (env : Env) : World env :=
  World.ofLists env [exPos, exRot] [[54869], [30029], [30029, 54869], []] (examplesCheck env)

theorem examplesFew : FewSets (examplesWorld env) := ⟨_, fun _ hs => hs, by decide⟩

theorem examplesHas {c : CompTy} (h : c ∈ [exPos, exRot]) : (examplesWorld env).Has c := h

theorem validPos (env : Env) : (Group.descriptor env [exPos]).isValid = true := by
  obtain ⟨d, b, z⟩ := env; revert d b z; decide +kernel

theorem validRot (env : Env) : (Group.descriptor env [exRot]).isValid = true := by
  obtain ⟨d, b, z⟩ := env; revert d b z; decide +kernel

theorem validBoth (env : Env) : (Group.descriptor env [exPos, exRot]).isValid = true := by
  obtain ⟨d, b, z⟩ := env; revert d b z; decide +kernel

theorem badRepeats : Group.Repeats [exPos, exBad] := by unfold Group.Repeats; decide

theorem createPos {p : Val} (hp : IsPosition p) (r : Registry) :
    (Call.create [exPos] [p]).Admissible (examplesWorld env) r := by
  refine (createCheck_ok (h := examplesCheck env) ?_ r).1
  simp only [createCheck, typedCheck, List.zip, List.zipWith, List.all, hp.1, hp.2]
  rfl

theorem createBoth {p q : Val} (hp : IsPosition p) (hq : IsRotation q) (r : Registry) :
    (Call.create [exPos, exRot] [p, q]).Admissible (examplesWorld env) r ∧ (examplesWorld env).OkGroup [exPos, exRot] := by
  refine createCheck_ok (h := examplesCheck env) (vals := [p, q]) ?_ r
  simp only [createCheck, typedCheck, List.zip, List.zipWith, List.all, hp.1, hp.2, hq.1, hq.2]
  rfl

theorem create_invalid {g : Group} {vals : List Val} (h : g.Repeats) (r : Registry) :
    r.createEntity env g vals = .ok (r, .err vals) := by
  have hinv : ComponentGroupDescriptor.INVALID.isValid = false := by decide +kernel
  unfold Registry.createEntity
  rw [h.descriptor, hinv]
  rfl

/-- Adding a component whose id the entity already has fails, whatever the type is. -/
theorem add_same_id {W : World env} {cs : List Content} (h : RInv W r cs) {e : Entity} {f : CompTy → Option Val}
    {c c' : CompTy} (hf : r.look env cs e = some f) (hc : f c ≠ none) (hi : c'.id = c.id) (v : Val) :
    r.addComponent env e c' v = .ok (r, .err v) := by
  obtain ⟨en, he⟩ := h.live_entry.mp (h.live_iff.mpr ⟨f, hf⟩)
  obtain ⟨a, ct, ha, hct, hrep, hk, _, hl⟩ := h.entry he
  rw [hf] at hl
  cases hl
  have hmem : c ∈ ct.cts := by
    refine Decidable.byContradiction (fun hn => hc ?_)
    simp only [Content.get, lookupTy_none hn, Option.bind_none]
  have hd : a.descriptor.addComponent env c'.descriptor = .ok none := by
    refine ArchetypeDescriptor.addComponent_present hrep.desc.wf ?_
    rw [hrep.desc.ids_eq]
    exact List.mem_map.mpr ⟨c, hmem, hi.symm⟩
  have hlt := (List.getElem?_eq_some_iff.mp ha).1
  unfold Registry.addComponent ArchetypeRegistry.findOrCreateAdding
  rw [he]
  simp only
  rw [if_neg (by omega), index_of_getElem? ha]
  simp only [ok_bind]
  rw [hd]
  rfl

/-! ## The example with `add_component` and `remove_component` -/

theorem create_then {g : Group} {vals : List Val} {e : Entity} {r' : Registry}
    (h : r.createEntity env g vals = .ok (r', .ok e)) : create env r g vals = .ok (r', e) := by
  unfold create
  rw [h]
  rfl

/-- The registry with one entity, a `Position`. -/
theorem onePosition {p : Val} (hp : IsPosition p) : ∃ r e cs,
    create env Registry.default [exPos] [p] = .ok (r, e) ∧ Busy (examplesWorld env) r 1 cs ∧
    r.look env cs e = some (lookupTy [exPos] [p]) := by
  obtain ⟨cs0, h0⟩ := Traced.busy (W := examplesWorld env) (N := 0) ⟨[], [], Steps.nil, RRel.empty _⟩ examplesFew (Nat.le_refl _)
  obtain ⟨r, e, cs, a1, a2, a3, a4⟩ := h0.createAny (by decide) (createPos hp _) (validPos env)
  exact ⟨r, e, cs, create_then a1, a2, by rw [a4, AMap.set_self]⟩

theorem examplesIds {N : Nat} {cs : List Content} (h : Busy (examplesWorld env) r N cs) {e : Entity} {f : CompTy → Option Val}
    (hf : r.look env cs e = some f) :
    idsOf env [exPos, exRot] r e = ([exPos, exRot].filter (fun c => (f c).isSome)).map (fun c => c.id) := by
  unfold idsOf
  congr 1
  refine List.filter_congr (fun c hc => ?_)
  rw [h.inv.hasComponent_eq (examplesHas hc), hf]
  simp

theorem Busy.removeLast {W : World env} {N : Nat} {cs : List Content} (h : Busy W r N cs) (hN : N < STORAGE_LIMIT)
    {e : Entity} {c : CompTy} (hadm : (Call.remove e c).Admissible W r) (hyes : r.hasComponent env c e = .ok true)
    (ht : AscSet [] (WithoutId W r e c)) : r.removeComponent env e c = .ok (r, .err ()) := by
  obtain ⟨hist, h1, h2, h3, hw⟩ := h
  exact ((C75_ordinary_programs h1 (Or.inr hw) (by omega)).2.2.1 e c [] hadm hyes ht).1 rfl

theorem addRemove_shipped (env : Env) {p q : Val} (hp : IsPosition p) :
    addRemove env positionName p q = .ok (false, false) := by
  obtain ⟨r, e, cs, a1, a2, a3⟩ := onePosition (env := env) hp
  have b1 : r.addComponent env e exBad q = .ok (r, .err q) :=
    add_same_id a2.inv a3 (c := exPos) (c' := exBad) (by simp [lookupTy]) rfl q
  have hid := examplesIds a2 a3
  have c1 : r.removeComponent env e exPos = .ok (r, .err ()) := by
    refine a2.removeLast (by decide) (removeCheck_ok (hw := examplesCheck env) (t := []) ?_) ?_
      (withoutId_check (hw := examplesCheck env) (by rw [hid]; rfl))
    · unfold removeCheck
      rw [hid]
      rfl
    · rw [a2.inv.hasComponent_eq (examplesHas List.mem_cons_self), a3]
      rfl
  obtain ⟨left, d1, _⟩ := a2.inv.drop_eq
  unfold addRemove
  rw [position_eq, rotation_bad]
  refine (ok_then a1 _).trans ?_
  refine (ok_then b1 _).trans ?_
  refine (ok_then c1 _).trans ?_
  refine (ok_then d1 _).trans ?_
  rfl

theorem addRemove_renamed (env : Env) {p q : Val} (hp : IsPosition p) (hq : IsRotation q) :
    addRemove env rotationName p q = .ok (true, true) := by
  obtain ⟨r, e, cs, a1, a2, a3⟩ := onePosition (env := env) hp
  have hid := examplesIds a2 a3
  obtain ⟨r2, cs2, b1, b2, b3⟩ := a2.addAny (c := exRot) (v := q) (t := [30029, 54869]) (by decide) a3 rfl
    (by
      refine addCheck_ok (hw := examplesCheck env) (t := [30029, 54869]) ?_
      unfold addCheck
      rw [hid, hq.1, hq.2]
      rfl)
    (withId_check (hw := examplesCheck env) (by rw [hid]; rfl)) (by decide)
    (by clear hid a3 a2 a1; obtain ⟨d, b, z⟩ := env; revert d b z; decide +kernel)
  have b4 : r2.look env cs2 e = some (setComp (lookupTy [exPos] [p]) exRot (some q)) := by rw [b3, AMap.set_self]
  have hid2 := examplesIds b2 b4
  obtain ⟨r3, cs3, c1, c2, c3⟩ := b2.removeAny (c := exPos) (v := p) (t := [30029]) (by decide) b4 rfl
    (by
      refine removeCheck_ok (hw := examplesCheck env) (t := [30029]) ?_
      unfold removeCheck
      rw [hid2]
      rfl)
    (withoutId_check (hw := examplesCheck env) (by rw [hid2]; rfl)) (by decide) (by decide)
    (by clear hid hid2 a3 a2 a1 b1 b2 b3 b4; obtain ⟨d, b, z⟩ := env; revert d b z; decide +kernel)
  obtain ⟨left, d1, _⟩ := c2.inv.drop_eq
  unfold addRemove
  rw [position_eq, rotation_eq]
  refine (ok_then a1 _).trans ?_
  refine (ok_then b1 _).trans ?_
  refine (ok_then c1 _).trans ?_
  refine (ok_then d1 _).trans ?_
  rfl

/-! ## The example with `create_entity` and `destroy_entity` -/

theorem createDestroy_shipped (env : Env) {p q : Val} (hp : IsPosition p) :
    createDestroy env positionName p q = .ok (false, true) := by
  obtain ⟨r, e, cs, a1, a2, a3⟩ := onePosition (env := env) hp
  obtain ⟨r3, cs3, d, c1, c2, c3⟩ := a2.destroyOne a3
  obtain ⟨left, d1, _⟩ := c2.inv.drop_eq
  unfold createDestroy
  rw [position_eq, rotation_bad]
  refine (ok_then a1 _).trans ?_
  refine (ok_then (create_invalid badRepeats r) _).trans ?_
  refine (ok_then c1 _).trans ?_
  refine (ok_then d1 _).trans ?_
  rfl

theorem createDestroy_renamed (env : Env) {p q : Val} (hp : IsPosition p) (hq : IsRotation q) :
    createDestroy env rotationName p q = .ok (true, true) := by
  obtain ⟨r, e, cs, a1, a2, a3⟩ := onePosition (env := env) hp
  obtain ⟨r2, e2, cs2, b1, b2, b3, b4⟩ := a2.createAny (by decide) (createBoth hp hq r).1 (validBoth env)
  have hne : e ≠ e2 := by
    intro h
    rw [h, b3] at a3
    cases a3
  obtain ⟨r3, cs3, d, c1, c2, c3⟩ := b2.destroyOne (e := e) (f := lookupTy [exPos] [p]) (by rw [b4, AMap.set_ne hne, a3])
  obtain ⟨left, d1, _⟩ := c2.inv.drop_eq
  unfold createDestroy
  rw [position_eq, rotation_eq]
  refine (ok_then a1 _).trans ?_
  refine (ok_then b1 _).trans ?_
  refine (ok_then c1 _).trans ?_
  refine (ok_then d1 _).trans ?_
  rfl

/-! ## The example with iterators -/

theorem createIgnoring_invalid {g : Group} {vals : List Val} (h : g.Repeats) : ∀ n, createIgnoring env g vals n r = .ok r
  | 0 => rfl
  | n + 1 => by
    unfold createIgnoring
    refine (ok_then (create_invalid h r) _).trans ?_
    exact createIgnoring_invalid h n

theorem iterations_shipped (env : Env) (n : Nat) (p q : Val) :
    iterations env positionName n p q = .ok ⟨[], [[], []], [], [], []⟩ := by
  unfold iterations
  rw [position_eq, rotation_bad]
  refine (ok_then (createIgnoring_invalid badRepeats n) _).trans ?_
  clear n p q
  obtain ⟨d, b, z⟩ := env; revert d b z; decide +kernel

/-- The rows after `k` calls. -/
def bothRows (p q : Val) (k : Nat) : List (Entity × List Val) := (List.range k).map (fun i => (nth i, [q, p]))

/-- The reference registry after `k` calls. -/
def bothRef (id : UInt32) (p q : Val) : Nat → RReg
  | 0 => RReg.empty
  | k + 1 => ⟨List.replicate (k + 1) 0, [], [⟨[exRot, exPos], id, bothRows p q (k + 1)⟩]⟩

theorem bothRows_length (p q : Val) (k : Nat) : (bothRows p q k).length = k := by simp [bothRows]

theorem bothRows_succ (p q : Val) (k : Nat) : bothRows p q k ++ [(nth k, [q, p])] = bothRows p q (k + 1) := by
  simp [bothRows, List.range_succ]

theorem bothId_ne (env : Env) : createdId env [exRot, exPos] ≠ 4294967295 := by
  obtain ⟨d, b, z⟩ := env; revert d b z; decide +kernel

theorem both_create {p q : Val} (hp : IsPosition p) (hq : IsRotation q) (k : Nat) (hk : k < 8388608) (r : Registry)
    (h : Traced (examplesWorld env) r (bothRef (createdId env [exRot, exPos]) p q k)) :
    ∃ r', r.createEntity env [exPos, exRot] [p, q] = .ok (r', .ok (nth k)) ∧
      Traced (examplesWorld env) r' (bothRef (createdId env [exRot, exPos]) p q (k + 1)) := by
  have hs : sortTys [exPos, exRot] = [exRot, exPos] := by decide
  have hv : [exRot, exPos].map (fun c => valOf [exPos, exRot] [p, q] c) = [q, p] := rfl
  have hid := bothId_ne env
  refine h.create (createBoth hp hq r).1 (out := madeOut (nth k) [p, q]) ?_ rfl
  cases k with
  | zero =>
    rw [create_step (ts := [⟨[exRot, exPos], createdId env [exRot, exPos], []⟩]) (i := 0) (by decide)]
    · rw [hs, hv]
      rfl
    · rw [hs]
      unfold internTable
      rw [if_neg hid]
      rfl
    · exact Nat.zero_lt_succ _
    · exact Nat.zero_lt_succ _
  | succ k =>
    rw [create_step (ts := (bothRef (createdId env [exRot, exPos]) p q (k + 1)).tables) (i := 0) (by decide)]
    · rw [hs, hv]
      unfold bothRef
      simp only [next_replicate, RReg.alloc, onRows, List.modify_zero_cons, bothRows_succ, ← List.replicate_succ']
      rfl
    · rw [hs]
      unfold internTable
      rw [if_neg hid]
      unfold bothRef tableIndex
      rw [if_pos ⟨rfl, rfl⟩]
    · unfold bothRef; simp; omega
    · unfold bothRef rowCount; simp [bothRows_length]; omega

theorem createIgnoring_ref {g : Group} {vals : List Val} {m : Nat} {Q : Nat → Registry → Prop}
    (hstep : ∀ k r, Q k r → k < m → ∃ r' e, r.createEntity env g vals = .ok (r', .ok e) ∧ Q (k + 1) r') :
    ∀ (n lo : Nat) (r : Registry), Q lo r → lo + n ≤ m → ∃ r', createIgnoring env g vals n r = .ok r' ∧ Q (lo + n) r'
  | 0, lo, r, h, _ => ⟨r, rfl, h⟩
  | n + 1, lo, r, h, hm => by
    obtain ⟨r1, e, h1, h2⟩ := hstep lo r h (by omega)
    obtain ⟨r2, h3, h4⟩ := createIgnoring_ref hstep n (lo + 1) r1 h2 (by omega)
    refine ⟨r2, ?_, by rw [show lo + (n + 1) = lo + 1 + n by omega]; exact h4⟩
    unfold createIgnoring
    exact (ok_then h1 _).trans h3

/-- What the iterators show of `n` entities with both components. -/
def bothSeen (n : Nat) (p q : Val) : Seen :=
  ⟨(List.range n).map nth, [List.replicate n p, List.replicate n q], [[List.replicate n p]], [],
    [((List.range n).map nth, [List.replicate n q])]⟩

theorem map_const_range {α : Type} (n : Nat) (x : α) : (List.range n).map (fun _ => x) = List.replicate n x := by
  rw [List.map_const', List.length_range]

theorem both_answers {id : UInt32} {p q : Val} (k : Nat) (hid : id = createdId env [exRot, exPos])
    (h : Traced (examplesWorld env) r (bothRef id p q (k + 1))) (hok : (examplesWorld env).OkGroup [exPos, exRot]) :
    ∃ items1 items2 items3 x, r.iterEntities env = (List.range (k + 1)).map nth ∧
      r.iterComponentsExact env [exPos, exRot] = .ok [List.replicate (k + 1) p, List.replicate (k + 1) q] ∧
      r.iterComponentsMatching env [exPos] = .ok items1 ∧ items1.map Prod.snd = [[List.replicate (k + 1) p]] ∧
      r.iterFilteredComponentsMatching env [exPos] (fun d => ! d.hasComponent exRot) = .ok items2 ∧
      items2.map Prod.snd = [] ∧
      r.iterEntityComponentsMatching env [exRot] = .ok items3 ∧
      items3.map Prod.snd = [((List.range (k + 1)).map nth, [List.replicate (k + 1) q])] ∧ r.drop = .ok x := by
  obtain ⟨hist, cs, _, h2⟩ := h
  have hpos : ∀ c ∈ [exPos], (examplesWorld env).Has c := by
    intro c hc; rw [List.mem_singleton] at hc; subst hc; exact examplesHas List.mem_cons_self
  have hrot : ∀ c ∈ [exRot], (examplesWorld env).Has c := by
    intro c hc; rw [List.mem_singleton] at hc; subst hc; exact examplesHas (List.mem_cons_of_mem _ List.mem_cons_self)
  have hob : Observing (fun d => ! d.hasComponent exRot) := by
    intro d d' _ _ h3
    simp only [ArchetypeDescriptor.hasComponent, h3]
  obtain ⟨left, hdrop⟩ := h2.answers.drop
  refine ⟨_, _, _, _, ?_, ?_, (h2.answers.matching [exPos] hpos (validPos env)).2.1, ?_,
    (h2.answers.filtered [exPos] _ hpos (validPos env) hob).2.1, ?_,
    (h2.answers.matching [exRot] hrot (validRot env)).1, ?_, hdrop⟩
  · rw [h2.answers.entities]
    exact entities_replicate _ _
  · rw [(h2.answers.exactly [exPos, exRot] hok (validBoth env)).2.1]
    have hs : sortTys [exPos, exRot] = [exRot, exPos] := by decide
    unfold RReg.exactly exactIndex bothRef tableIndex
    rw [hs, if_pos ⟨rfl, hid⟩]
    simp only [Option.bind_some, List.getElem?_cons_zero, List.map_cons, List.map_nil, RTable.column, bothRows, List.map_map]
    rw [← map_const_range, ← map_const_range]
    rfl
  · have hm : ∀ l, ((RReg.matching ⟨List.replicate (k + 1) 0, [], [⟨[exRot, exPos], id, l⟩]⟩ [exPos] (fun _ => true)).map
        (fun x => (x.1, x.2.2))).map Prod.snd = [[l.map (fun x => valOf [exRot, exPos] x.2 exPos)]] := fun l => rfl
    unfold bothRef
    rw [hm]
    unfold bothRows
    rw [List.map_map, ← map_const_range]
    rfl
  · have hm : ∀ l, ((RReg.matching ⟨List.replicate (k + 1) 0, [], [⟨[exRot, exPos], id, l⟩]⟩ [exPos]
        (fun d => ! d.hasComponent exRot)).map (fun x => (x.1, x.2.2))).map Prod.snd = [] := by
      intro l
      have hsub : ∀ id, (ArchetypeDescriptor.hasComponent ⟨id, [exRot.descriptor, exPos.descriptor], 2⟩ exRot) = true := by
        intro id
        show (binarySearchByKey [exRot.descriptor, exPos.descriptor] exRot.id.toNat (fun e => e.id.toNat)).isFound = true
        decide +kernel
      have hd : (RTable.desc ⟨[exRot, exPos], id, l⟩).hasComponent exRot = true := hsub id
      unfold RReg.matching visits
      rw [show visitOrder [⟨[exRot, exPos], id, l⟩] = [(⟨[exRot, exPos], id, l⟩, 0)] from rfl, List.filter_cons_of_neg]
      · rfl
      · simp [hd]
    unfold bothRef
    rw [hm]
  · have hm : ∀ l, (RReg.matching ⟨List.replicate (k + 1) 0, [], [⟨[exRot, exPos], id, l⟩]⟩ [exRot] (fun _ => true)).map
        Prod.snd = [(l.map Prod.fst, [l.map (fun x => valOf [exRot, exPos] x.2 exRot)])] := fun l => rfl
    unfold bothRef
    rw [hm]
    unfold bothRows
    rw [List.map_map, List.map_map, ← map_const_range]
    rfl

theorem iterations_renamed (env : Env) {n : Nat} (h0 : 0 < n) (hn : n ≤ STORAGE_LIMIT) {p q : Val} (hp : IsPosition p)
    (hq : IsRotation q) : iterations env rotationName n p q = .ok (bothSeen n p q) := by
  have hS : STORAGE_LIMIT = 8388608 := rfl
  obtain ⟨r, a1, a2⟩ := createIgnoring_ref (env := env) (m := n)
    (Q := fun k r => Traced (examplesWorld env) r (bothRef (createdId env [exRot, exPos]) p q k))
    (fun k r h hk => (both_create hp hq k (by omega) r h).elim (fun r' x => ⟨r', _, x⟩)) n 0 Registry.default
    ⟨[], [], Steps.nil, RRel.empty _⟩ (by omega)
  rw [Nat.zero_add] at a2
  obtain ⟨k, rfl⟩ : ∃ k, n = k + 1 := ⟨n - 1, by omega⟩
  obtain ⟨i1, i2, i3, x, b1, b2, b3, b4, b5, b6, b7, b8, b9⟩ := both_answers k rfl a2 (createBoth hp hq r).2
  unfold iterations
  rw [position_eq, rotation_eq]
  refine (ok_then a1 _).trans ?_
  simp only
  refine (ok_then b2 _).trans ?_
  refine (ok_then b3 _).trans ?_
  refine (ok_then b5 _).trans ?_
  refine (ok_then b7 _).trans ?_
  refine (ok_then b9 _).trans ?_
  rw [b1, b4, b6, b8]
  rfl

/-! ## The benchmark -/

/-- `P`, with its id. -/
def bP : CompTy := ⟨41, 50307, 12, 4⟩
/-- `R`, with its id. -/
def bR : CompTy := ⟨42, 50105, 12, 4⟩
/-- `S`, with its id. -/
def bS : CompTy := ⟨43, 50478, 12, 4⟩

theorem benchP_eq (env : Env) : benchP env = bP := by obtain ⟨d, b, z⟩ := env; revert d b z; decide +kernel
theorem benchR_eq (env : Env) : benchR env = bR := by obtain ⟨d, b, z⟩ := env; revert d b z; decide +kernel
theorem benchS_eq (env : Env) : benchS env = bS := by obtain ⟨d, b, z⟩ := env; revert d b z; decide +kernel

theorem benchCheck (env : Env) :
    worldCheck env [bP, bR, bS] [[50307], [50307, 50478], [50105, 50307, 50478]] = true := by
  obtain ⟨d, b, z⟩ := env; revert d b z; decide +kernel

/-- The types and component sets of the benchmark. -/
def benchWorld (env : Env) : World env :=
  World.ofLists env [bP, bR, bS] [[50307], [50307, 50478], [50105, 50307, 50478]] (benchCheck env)

theorem benchFew : FewSets (benchWorld env) := ⟨_, fun _ hs => hs, by decide⟩

theorem bP_has : (benchWorld env).Has bP := show bP ∈ [bP, bR, bS] from List.mem_cons_self

theorem validP (env : Env) : (Group.descriptor env [bP]).isValid = true := by
  obtain ⟨d, b, z⟩ := env; revert d b z; decide +kernel

theorem validPS (env : Env) : (Group.descriptor env [bP, bS]).isValid = true := by
  obtain ⟨d, b, z⟩ := env; revert d b z; decide +kernel

theorem validPRS (env : Env) : (Group.descriptor env [bP, bR, bS]).isValid = true := by
  obtain ⟨d, b, z⟩ := env; revert d b z; decide +kernel

/-- A value of the type with number `ty`, three `f32`. -/
def IsBench (ty : Nat) (v : Val) : Prop := v.ty = ty ∧ v.bytes.length = 12

theorem benchCreate_ok {N : Nat} {cs : List Content} (h : Busy (benchWorld env) r N cs) (hN : N < STORAGE_LIMIT)
    (first second : Bool) {p q s : Val} (hp : IsBench 41 p) (hq : IsBench 42 q) (hs : IsBench 43 s) :
    ∃ r' e cs' f, benchCreate env first second p q s r = .ok (r', e) ∧ Busy (benchWorld env) r' (N + 1) cs' ∧
      r.look env cs e = none ∧ r'.look env cs' = AMap.set (r.look env cs) e (some f) ∧ f bP = some p := by
  unfold benchCreate
  rw [benchP_eq, benchR_eq, benchS_eq]
  cases first with
  | true =>
    have hadm : (Call.create [bP, bS] [p, s]).Admissible (benchWorld env) r := by
      refine (createCheck_ok (h := benchCheck env) ?_ r).1
      simp only [createCheck, typedCheck, List.zip, List.zipWith, List.all, hp.1, hp.2, hs.1, hs.2]
      rfl
    obtain ⟨r', e, cs', a1, a2, a3, a4⟩ := h.createAny hN hadm (validPS env)
    exact ⟨r', e, cs', _, create_then a1, a2, a3, a4, rfl⟩
  | false =>
    cases second with
    | true =>
      have hadm : (Call.create [bP] [p]).Admissible (benchWorld env) r := by
        refine (createCheck_ok (h := benchCheck env) ?_ r).1
        simp only [createCheck, typedCheck, List.zip, List.zipWith, List.all, hp.1, hp.2]
        rfl
      obtain ⟨r', e, cs', a1, a2, a3, a4⟩ := h.createAny hN hadm (validP env)
      exact ⟨r', e, cs', _, create_then a1, a2, a3, a4, rfl⟩
    | false =>
      have hadm : (Call.create [bP, bR, bS] [p, q, s]).Admissible (benchWorld env) r := by
        refine (createCheck_ok (h := benchCheck env) ?_ r).1
        simp only [createCheck, typedCheck, List.zip, List.zipWith, List.all, hp.1, hp.2, hq.1, hq.2, hs.1, hs.2]
        rfl
      obtain ⟨r', e, cs', a1, a2, a3, a4⟩ := h.createAny hN hadm (validPRS env)
      exact ⟨r', e, cs', _, create_then a1, a2, a3, a4, rfl⟩

theorem benchSetup_ok (random : Nat → Bool × Bool) {p q s : Nat → Val} (hp : ∀ i, IsBench 41 (p i))
    (hq : ∀ i, IsBench 42 (q i)) (hs : ∀ i, IsBench 43 (s i)) : ∀ (n i : Nat) {r : Registry} {N : Nat} {cs : List Content},
    Busy (benchWorld env) r N cs → N + n ≤ STORAGE_LIMIT →
    ∃ r' es cs', benchSetup env random p q s n i r = .ok (r', es) ∧ Busy (benchWorld env) r' (N + n) cs' ∧
      es.length = n ∧ es.Nodup ∧ (∀ e ∈ es, r.look env cs e = none) ∧
      (∀ k e, es[k]? = some e → ∃ f, r'.look env cs' e = some f ∧ f bP = some (p (i + k))) ∧
      (∀ e, e ∉ es → r'.look env cs' e = r.look env cs e)
  | 0, i, r, N, cs, h, _ => ⟨r, [], cs, rfl, h, rfl, List.nodup_nil, fun _ hx => (by cases hx),
      fun _ _ hx => (by simp at hx), fun _ _ => rfl⟩
  | n + 1, i, r, N, cs, h, hN => by
    obtain ⟨r1, e, cs1, f, a1, a2, a3, a4, a5⟩ :=
      benchCreate_ok h (by omega) (random i).1 (random i).2 (hp i) (hq i) (hs i)
    obtain ⟨r2, es, cs2, b1, b2, b3, b4, b5, b6, b7⟩ := benchSetup_ok random hp hq hs n (i + 1) a2 (by omega)
    have he : r1.look env cs1 e = some f := by rw [a4, AMap.set_self]
    have hne : e ∉ es := fun hm => by rw [b5 e hm] at he; cases he
    have hother : ∀ x, x ≠ e → r1.look env cs1 x = r.look env cs x := fun x hx => by rw [a4, AMap.set_ne hx]
    refine ⟨r2, e :: es, cs2, ?_, ?_, by simp [b3], List.nodup_cons.mpr ⟨hne, b4⟩, ?_, ?_, ?_⟩
    · unfold benchSetup
      refine (ok_then a1 _).trans ?_
      refine (ok_then b1 _).trans ?_
      rfl
    · rw [show N + (n + 1) = N + 1 + n by omega]; exact b2
    · intro x hx
      rcases List.mem_cons.mp hx with rfl | hx
      · exact a3
      · by_cases hxe : x = e
        · rw [hxe]; exact a3
        · rw [← hother x hxe]; exact b5 x hx
    · intro k x hx
      cases k with
      | zero =>
        rw [List.getElem?_cons_zero] at hx
        cases hx
        exact ⟨f, by rw [b7 _ hne, he], a5⟩
      | succ k =>
        rw [List.getElem?_cons_succ] at hx
        obtain ⟨f', h1, h2⟩ := b6 k x hx
        exact ⟨f', h1, by rw [h2]; congr 2; omega⟩
    · intro x hx
      rw [List.mem_cons, not_or] at hx
      rw [b7 x hx.2, hother x hx.1]

theorem benchLookups_ok {V : Entity → Val} : ∀ (es : List Entity), (∀ e ∈ es, r.getComponent env bP e = .ok (some (V e))) →
    benchLookups env r es = .ok (es.map V)
  | [], _ => rfl
  | e :: es, h => by
    unfold benchLookups
    rw [benchP_eq]
    refine (ok_then (h e List.mem_cons_self) _).trans ?_
    refine (ok_then (show unwrap (some (V e)) = .ok (V e) from rfl) _).trans ?_
    refine (ok_then (benchLookups_ok es (fun x hx => h x (List.mem_cons_of_mem _ hx))) _).trans ?_
    rfl

/-- Slices of one component type, in one list. -/
theorem flat_values {V : Entity → Val} {items : List (Nat × List Entity × List (List Val))}
    (ha : ∀ x ∈ items, Aligned env r [bP] x.2.1 x.2.2)
    (hV : ∀ e ∈ items.flatMap (fun x => x.2.1), r.getComponent env bP e = .ok (some (V e))) :
    items.flatMap (fun x => x.2.2.flatten) = (items.flatMap (fun x => x.2.1)).map V := by
  induction items with
  | nil => rfl
  | cons x items ih =>
    rw [List.flatMap_cons, List.flatMap_cons, List.map_append,
      ih (fun y hy => ha y (List.mem_cons_of_mem _ hy))
        (fun e he => hV e (by rw [List.flatMap_cons]; exact List.mem_append_right _ he))]
    congr 1
    obtain ⟨h1, h2⟩ := ha x List.mem_cons_self
    obtain ⟨col, h3, h4, h5⟩ := h2 0 bP rfl
    have hcols : x.2.2 = [col] := by
      cases hx : x.2.2 with
      | nil => rw [hx] at h3; cases h3
      | cons c t =>
        rw [hx] at h1 h3
        cases h3
        cases t with
        | nil => rfl
        | cons y t => simp at h1
    rw [hcols]
    simp only [List.flatten_cons, List.flatten_nil, List.append_nil]
    refine List.ext_getElem? (fun k => ?_)
    rw [List.getElem?_map]
    cases hk : x.2.1[k]? with
    | none =>
      rw [List.getElem?_eq_none_iff] at hk
      exact List.getElem?_eq_none (by omega)
    | some e =>
      have h6 := h5 k e hk
      rw [hV e (by rw [List.flatMap_cons]; exact List.mem_append_left _ (List.mem_of_getElem? hk))] at h6
      injection h6 with h7
      rw [← h7]
      rfl

/-! ## The theorems -/

/-- The claim: the calls of the examples do what the comments beside them say. -/
def C77_statement : Prop :=
  ∀ (env : Env) (p q : Val), IsPosition p → IsRotation q →
    addRemove env positionName p q = .ok (true, true) ∧ createDestroy env positionName p q = .ok (true, true) ∧
    iterations env positionName 10000 p q = .ok (bothSeen 10000 p q)

/-- The values of the examples' types used below. -/
def zeroPosition : Val := ⟨31, List.replicate 12 0⟩
/-- Likewise. -/
def zeroRotation : Val := ⟨32, List.replicate 16 0⟩

theorem zero_values : IsPosition zeroPosition ∧ IsRotation zeroRotation := ⟨⟨rfl, rfl⟩, ⟨rfl, rfl⟩⟩

/-- **C77** is false: `add_component(entity, rotation)` fails in the example. -/
theorem C77_violated : ¬ C77_statement := by
  intro h
  have h1 := (h exEnv _ _ zero_values.1 zero_values.2).1
  rw [addRemove_shipped exEnv zero_values.1] at h1
  cases h1

/-- **C77** (partial: two of the three examples call functions that fail, and the third iterates over nothing) As
shipped, with any values: no example faults; `add_component` and `remove_component` fail; the creation with both
components fails, the destruction succeeds; and whatever the number of calls is, the third example sees no entities and
no components. With a name of its own for `Rotation`, all these calls succeed, and the iterators show the `n` entities
with the values given; the filter excludes them. -/
theorem C77_examples_partial (env : Env) (p q : Val) (hp : IsPosition p) (hq : IsRotation q) :
    (addRemove env positionName p q = .ok (false, false) ∧ createDestroy env positionName p q = .ok (false, true) ∧
      ∀ n, iterations env positionName n p q = .ok ⟨[], [[], []], [], [], []⟩) ∧
    addRemove env rotationName p q = .ok (true, true) ∧ createDestroy env rotationName p q = .ok (true, true) ∧
    ∀ n, 0 < n → n ≤ STORAGE_LIMIT → iterations env rotationName n p q = .ok (bothSeen n p q) :=
  ⟨⟨addRemove_shipped env hp, createDestroy_shipped env hp, fun n => iterations_shipped env n p q⟩,
    addRemove_renamed env hp hq, createDestroy_renamed env hp hq, fun _ h0 hn => iterations_renamed env h0 hn hp hq⟩

/-- **C77** (benchmark) Whatever the random values are, the set-up of the benchmark creates its 1,000,000 entities (or
any other number up to the storage limit); the handles are different; looking up any of them gives the `P` it was
created with; entity iteration visits each of them once, and iteration over `P` each of the values once. -/
theorem C77_benchmark (env : Env) (random : Nat → Bool × Bool) (p q s : Nat → Val) (hp : ∀ i, IsBench 41 (p i))
    (hq : ∀ i, IsBench 42 (q i)) (hs : ∀ i, IsBench 43 (s i)) (n : Nat) (hn : n ≤ STORAGE_LIMIT) :
    ∃ r es, benchSetup env random p q s n 0 Registry.default = .ok (r, es) ∧ es.length = n ∧ es.Nodup ∧
      (∀ chosen : List (Fin n), benchLookups env r (chosen.map (fun i => es.getD i.val Entity.INVALID)) =
        .ok (chosen.map (fun i => p i.val))) ∧
      (r.iterEntities env).Perm es ∧
      (∃ items, r.iterComponentsMatching env [benchP env] = .ok items ∧
        (items.flatMap (fun x => x.2.flatten)).Perm ((List.range n).map p)) ∧
      ∃ x, r.drop = .ok x := by
  obtain ⟨cs0, h0⟩ := Traced.busy (W := benchWorld env) (N := 0) ⟨[], [], Steps.nil, RRel.empty _⟩ benchFew (Nat.le_refl _)
  obtain ⟨r, es, cs, a1, a2, a3, a4, a5, a6, a7⟩ := benchSetup_ok random hp hq hs n 0 h0 (by omega)
  have hget : ∀ k e, es[k]? = some e → r.getComponent env bP e = .ok (some (p k)) := by
    intro k e he
    obtain ⟨f, h1, h2⟩ := a6 k e he
    rw [Nat.zero_add] at h2
    rw [a2.inv.getComponent_eq bP_has, h1]
    simp [h2]
  have hlive : ∀ e, Live env r e ↔ e ∈ es := by
    intro e
    rw [a2.inv.live_iff]
    constructor
    · rintro ⟨f, hf⟩
      refine Decidable.byContradiction (fun hne => ?_)
      rw [a7 e hne] at hf
      have := h0.inv.live_iff.mpr ⟨f, hf⟩
      exact absurd this (by unfold Live; rw [show Registry.default.iterEntities env = [] from rfl]; simp)
    · intro he
      obtain ⟨k, hk, rfl⟩ := List.mem_iff_getElem.mp he
      obtain ⟨f, h1, _⟩ := a6 k _ (List.getElem?_eq_getElem hk)
      exact ⟨f, h1⟩
  have hV : ∀ e ∈ es, r.getComponent env bP e = .ok (some (p (es.idxOf e))) := by
    intro e he
    have hlt := List.idxOf_lt_length_of_mem he
    exact hget _ e (by rw [List.getElem?_eq_getElem hlt, List.getElem_idxOf hlt])
  have hmap : es.map (fun e => p (es.idxOf e)) = (List.range n).map p := by
    refine List.ext_getElem (by simp [a3]) (fun i h1 h2 => ?_)
    rw [List.length_map] at h1
    rw [List.getElem_map, List.getElem_map, List.getElem_range, a4.idxOf_getElem i h1]
  have hreach : Reachable (benchWorld env) r := a2.elim (fun hist x => ⟨hist, x.1⟩)
  obtain ⟨left, hdrop, _⟩ := a2.inv.drop_eq
  have hperm : ∀ {l : List Entity}, l.Nodup → (∀ e, e ∈ l ↔ e ∈ es) → l.Perm es := fun h1 h2 =>
    (List.perm_ext_iff_of_nodup h1 a4).mpr h2
  refine ⟨r, es, a1, a3, a4, ?_, ?_, ?_, _, hdrop⟩
  · intro chosen
    have hin : ∀ i : Fin n, es[i.val]? = some (es.getD i.val Entity.INVALID) := fun i => by
      have : i.val < es.length := by rw [a3]; exact i.isLt
      rw [List.getD_eq_getElem?_getD, List.getElem?_eq_getElem this, Option.getD_some]
    rw [benchLookups_ok (V := fun e => p (es.idxOf e)), List.map_map]
    · congr 1
      refine List.map_congr_left (fun i _ => ?_)
      obtain ⟨h1, h2⟩ := List.getElem?_eq_some_iff.mp (hin i)
      rw [Function.comp, ← h2, a4.idxOf_getElem _ h1]
    · intro e he
      obtain ⟨i, _, rfl⟩ := List.mem_map.mp he
      exact hV _ (List.mem_of_getElem? (hin i))
  · exact hperm (a2.inv.iterEntities_nodup) (fun e => hlive e)
  · have hg : ∀ c ∈ [bP], (benchWorld env).Has c := by
      intro c hc; rw [List.mem_singleton] at hc; subst hc; exact bP_has
    obtain ⟨items, b1, b2, b3, b4, b5⟩ := C30_matching_iteration hreach hg (validP env)
    have hall : ∀ e, e ∈ items.flatMap (fun x => x.2.1) ↔ e ∈ es := by
      intro e
      rw [b4, ← hlive]
      refine ⟨fun h => h.1, fun h => ⟨h, ?_⟩⟩
      intro c hc
      rw [List.mem_singleton] at hc
      subst hc
      obtain ⟨k, hk, rfl⟩ := List.mem_iff_getElem.mp ((hlive e).mp h)
      obtain ⟨f, h1, h2⟩ := a6 k _ (List.getElem?_eq_getElem hk)
      rw [a2.inv.hasComponent_eq bP_has, h1]
      simp [h2]
    refine ⟨_, by rw [benchP_eq]; exact b2, ?_⟩
    rw [List.flatMap_map, flat_values b5 (fun e he => hV e ((hall e).mp he)), ← hmap]
    exact (hperm b3 hall).map _

set_option maxRecDepth 100000 in
/-- The examples with zeros, computed independently of the theorems. -/
example : IsPosition zeroPosition ∧ IsRotation zeroRotation ∧
    addRemove exEnv positionName zeroPosition zeroRotation = .ok (false, false) ∧
    addRemove exEnv rotationName zeroPosition zeroRotation = .ok (true, true) ∧
    createDestroy exEnv positionName zeroPosition zeroRotation = .ok (false, true) ∧
    createDestroy exEnv rotationName zeroPosition zeroRotation = .ok (true, true) ∧
    iterations exEnv positionName 2 zeroPosition zeroRotation = .ok ⟨[], [[], []], [], [], []⟩ ∧
    iterations exEnv rotationName 2 zeroPosition zeroRotation = .ok (bothSeen 2 zeroPosition zeroRotation) := by
  refine ⟨zero_values.1, zero_values.2, ?_⟩
  decide +kernel

/-- Values for the benchmark below. -/
def benchVal (ty i : Nat) : Val := ⟨ty, UInt8.ofNat i :: List.replicate 11 0⟩

set_option maxRecDepth 100000 in
/-- The benchmark with four entities: three archetypes, and the `P`s in the order of the archetypes. -/
example : (∀ ty i, IsBench ty (benchVal ty i)) ∧ 4 ≤ STORAGE_LIMIT ∧
    (match benchSetup exEnv (fun i => (i % 2 == 0, i % 3 == 0)) (benchVal 41) (benchVal 42) (benchVal 43) 4 0 Registry.default with
      | .ok (r, es) => es == (List.range 4).map nth && r.archetypes.archetypes.length == 3 &&
          decide (benchLookups exEnv r [nth 3, nth 0] = .ok [benchVal 41 3, benchVal 41 0]) &&
          decide ((r.iterComponentsMatching exEnv [benchP exEnv]).map (fun l => l.flatMap (fun x => x.2.flatten)) =
            .ok [benchVal 41 3, benchVal 41 0, benchVal 41 2, benchVal 41 1])
      | .error _ => false) = true := by
  refine ⟨fun ty i => ⟨rfl, rfl⟩, by decide, ?_⟩
  decide +kernel

end Shard
