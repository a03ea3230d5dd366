import Verif.Props.Conformance
import Verif.Proofs.Programs
/-!
# C76: the crate's test with random choices passes whatever the choices are

`test_registry` (`registry/tests.rs:60-201`) destroys entities and removes components at random. The proof is for all
sequences of random values and for all numbers of entities.
-/

set_option autoImplicit false

namespace Shard

open CrateTests

variable {env : Env} {r : Registry}

theorem testWorld_check (env : Env) : worldCheck env [tA, tB, tC] [[1, 2], [2, 3], [1, 2, 3]] = true := by
  obtain ⟨d, b, z⟩ := env; revert d b z; decide +kernel

/-- The types and component sets of the test. -/
def testWorld (env : Env) : World env := World.ofLists env [tA, tB, tC] [[1, 2], [2, 3], [1, 2, 3]] (testWorld_check env)

theorem testWorld_has {c : CompTy} : (testWorld env).Has c ↔ c ∈ [tA, tB, tC] := Iff.rfl

theorem has2 : ∀ c ∈ [tA, tB], (testWorld env).Has c := by
  intro c hc
  refine testWorld_has.mpr ?_
  revert hc
  simp only [List.mem_cons, List.not_mem_nil, or_false]
  rintro (h | h)
  · exact Or.inl h
  · exact Or.inr (Or.inl h)

theorem has2' : ∀ c ∈ [tC, tB], (testWorld env).Has c := by
  intro c hc
  refine testWorld_has.mpr ?_
  revert hc
  simp only [List.mem_cons, List.not_mem_nil, or_false]
  rintro (h | h)
  · exact Or.inr (Or.inr h)
  · exact Or.inr (Or.inl h)

theorem usizeBytes_length (env : Env) (n : Nat) : (usizeBytes env n).length = 8 := by
  unfold usizeBytes
  simp only
  split <;> simp

theorem valid2 (env : Env) : (Group.descriptor env [tA, tB]).isValid = true := by
  obtain ⟨d, b, z⟩ := env; revert d b z; decide +kernel

theorem valid2' (env : Env) : (Group.descriptor env [tC, tB]).isValid = true := by
  obtain ⟨d, b, z⟩ := env; revert d b z; decide +kernel

theorem valid3 (env : Env) : (Group.descriptor env [tA, tB, tC]).isValid = true := by
  obtain ⟨d, b, z⟩ := env; revert d b z; decide +kernel

theorem create2_adm (x y : Nat) (r : Registry) :
    (Call.create [tA, tB] [vA env x, vB env y]).Admissible (testWorld env) r := by
  refine (createCheck_ok (h := testWorld_check env) ?_ r).1
  simp only [createCheck, typedCheck, vA, vB, List.zip, List.zipWith, List.all, usizeBytes_length]
  rfl

theorem create3_adm (x y z : Nat) (r : Registry) :
    (Call.create [tA, tB, tC] [vA env x, vB env y, vC env z]).Admissible (testWorld env) r := by
  refine (createCheck_ok (h := testWorld_check env) ?_ r).1
  simp only [createCheck, typedCheck, vA, vB, vC, List.zip, List.zipWith, List.all, usizeBytes_length]
  rfl

/-! ## Creating one after the other -/

theorem create_ok_of {g : Group} {vals : List Val} {e : Entity} {r' : Registry}
    (h : r.createEntity env g vals = .ok (r', .ok e)) : create env r g vals = .ok (r', e) := by
  unfold create
  rw [h]
  rfl

theorem createMany_ref {g : Group} {vals : Nat → List Val} {m off : Nat} {Q : Nat → Registry → Prop}
    (hstep : ∀ k r, Q k r → k < m → ∃ r', r.createEntity env g (vals k) = .ok (r', .ok (nth (off + k))) ∧ Q (k + 1) r') :
    ∀ (n lo : Nat) (r : Registry), Q lo r → lo + n ≤ m →
      ∃ r', createMany env g vals n lo r = .ok (r', (List.range' lo n).map (fun i => nth (off + i))) ∧ Q (lo + n) r'
  | 0, lo, r, h, _ => ⟨r, rfl, h⟩
  | n + 1, lo, r, h, hm => by
    obtain ⟨r1, h1, h2⟩ := hstep lo r h (by omega)
    obtain ⟨r2, h3, h4⟩ := createMany_ref hstep n (lo + 1) r1 h2 (by omega)
    refine ⟨r2, ?_, by rw [show lo + (n + 1) = lo + 1 + n by omega]; exact h4⟩
    unfold createMany
    simp only [create_ok_of h1, h3, ok_bind, List.range'_succ, List.map_cons]
    rfl

/-- The rows of the first table after `k` calls. -/
def rows2 (env : Env) (count k : Nat) : List (Entity × List Val) :=
  (List.range k).map (fun i => (nth i, [vA env i, vB env (count - i)]))

/-- The rows of the second table after `k` calls. -/
def rows3 (env : Env) (count k : Nat) : List (Entity × List Val) :=
  (List.range k).map (fun i => (nth (count + i), [vA env i, vB env (count - i), vC env i]))

/-- The reference registry after `k` calls of the first loop. -/
def first (env : Env) (id2 : UInt32) (count : Nat) : Nat → RReg
  | 0 => RReg.empty
  | k + 1 => ⟨List.replicate (k + 1) 0, [], [⟨[tA, tB], id2, rows2 env count (k + 1)⟩]⟩

/-- The reference registry after `k` calls of the second loop. -/
def second (env : Env) (id2 id3 : UInt32) (count : Nat) : Nat → RReg
  | 0 => ⟨List.replicate count 0, [], [⟨[tA, tB], id2, rows2 env count count⟩]⟩
  | k + 1 => ⟨List.replicate (count + (k + 1)) 0, [],
      [⟨[tA, tB], id2, rows2 env count count⟩, ⟨[tA, tB, tC], id3, rows3 env count (k + 1)⟩]⟩

theorem rows2_length (count k : Nat) : (rows2 env count k).length = k := by simp [rows2]

theorem rows3_length (count k : Nat) : (rows3 env count k).length = k := by simp [rows3]

theorem rows2_succ (count k : Nat) : rows2 env count k ++ [(nth k, [vA env k, vB env (count - k)])] =
    rows2 env count (k + 1) := by simp [rows2, List.range_succ]

theorem rows3_succ (count k : Nat) :
    rows3 env count k ++ [(nth (count + k), [vA env k, vB env (count - k), vC env k])] = rows3 env count (k + 1) := by
  simp [rows3, List.range_succ]

theorem createdId2_ne (env : Env) : createdId env [tA, tB] ≠ 4294967295 := by
  obtain ⟨d, b, z⟩ := env; revert d b z; decide +kernel

theorem createdId3_ne (env : Env) : createdId env [tA, tB, tC] ≠ 4294967295 := by
  obtain ⟨d, b, z⟩ := env; revert d b z; decide +kernel

theorem first_create (count k : Nat) (hk : k < 8388608) (r : Registry)
    (h : Traced (testWorld env) r (first env (createdId env [tA, tB]) count k)) :
    ∃ r', r.createEntity env [tA, tB] [vA env k, vB env (count - k)] = .ok (r', .ok (nth (0 + k))) ∧
      Traced (testWorld env) r' (first env (createdId env [tA, tB]) count (k + 1)) := by
  have hs : sortTys [tA, tB] = [tA, tB] := by decide
  have hv : [tA, tB].map (fun c => valOf [tA, tB] [vA env k, vB env (count - k)] c) = [vA env k, vB env (count - k)] := rfl
  have hid := createdId2_ne env
  rw [Nat.zero_add]
  refine h.create (create2_adm _ _ r) (out := madeOut (nth k) [vA env k, vB env (count - k)]) ?_ rfl
  cases k with
  | zero =>
    rw [create_step (ts := [⟨[tA, tB], createdId env [tA, tB], []⟩]) (i := 0) (by decide)]
    · rw [hs, hv]
      rfl
    · rw [hs]
      unfold internTable
      rw [if_neg hid]
      rfl
    · exact Nat.zero_lt_succ _
    · exact Nat.zero_lt_succ _
  | succ k =>
    rw [create_step (ts := (first env (createdId env [tA, tB]) count (k + 1)).tables) (i := 0) (by decide)]
    · rw [hs, hv]
      unfold first
      simp only [next_replicate, RReg.alloc, onRows, List.modify_zero_cons, rows2_succ, ← List.replicate_succ']
      rfl
    · rw [hs]
      unfold internTable
      rw [if_neg hid]
      unfold first tableIndex
      rw [if_pos ⟨rfl, rfl⟩]
    · unfold first; simp; omega
    · unfold first rowCount; simp [rows2_length]; omega

theorem second_create (count k : Nat) (hk : count + k < 8388608) (r : Registry)
    (h : Traced (testWorld env) r (second env (createdId env [tA, tB]) (createdId env [tA, tB, tC]) count k)) :
    ∃ r', r.createEntity env [tA, tB, tC] [vA env k, vB env (count - k), vC env k] = .ok (r', .ok (nth (count + k))) ∧
      Traced (testWorld env) r' (second env (createdId env [tA, tB]) (createdId env [tA, tB, tC]) count (k + 1)) := by
  have hs : sortTys [tA, tB, tC] = [tA, tB, tC] := by decide
  have hv : [tA, tB, tC].map (fun c => valOf [tA, tB, tC] [vA env k, vB env (count - k), vC env k] c) =
    [vA env k, vB env (count - k), vC env k] := rfl
  have hid := createdId3_ne env
  generalize hid2 : createdId env [tA, tB] = id2 at h ⊢
  refine h.create (create3_adm _ _ _ r) (out := madeOut (nth (count + k))
    [vA env k, vB env (count - k), vC env k]) ?_ rfl
  cases k with
  | zero =>
    rw [create_step (ts := [⟨[tA, tB], id2, rows2 env count count⟩, ⟨[tA, tB, tC], createdId env [tA, tB, tC], []⟩])
      (i := 1) (by decide)]
    · rw [hs, hv]
      unfold second
      simp only [next_replicate, RReg.alloc, onRows, ← List.replicate_succ']
      rfl
    · rw [hs]
      unfold internTable
      rw [if_neg hid]
      unfold second tableIndex
      rw [if_neg (fun h => absurd (show 2 = 3 from h.1) (by decide))]
      rfl
    · unfold second; simp; omega
    · unfold rowCount; simp
  | succ k =>
    rw [create_step (ts := (second env id2 (createdId env [tA, tB, tC]) count (k + 1)).tables) (i := 1) (by decide)]
    · rw [hs, hv]
      unfold second
      simp only [next_replicate, RReg.alloc, onRows, List.modify_succ_cons, List.modify_zero_cons, rows3_succ,
        ← List.replicate_succ']
      rfl
    · rw [hs]
      unfold internTable
      rw [if_neg hid]
      unfold second tableIndex
      rw [if_neg (fun h => absurd (show 2 = 3 from h.1) (by decide))]
      unfold tableIndex
      rw [if_pos ⟨rfl, rfl⟩]
      rfl
    · unfold second; simp; omega
    · unfold second rowCount; simp [rows3_length]; omega

/-! ## The assertions about iterators -/

theorem forEach_ok {α : Type} {l : List α} {f : α → M Unit} (h : ∀ x ∈ l, f x = .ok ()) : forEach l f = .ok () := by
  induction l with
  | nil => rfl
  | cons x l ih =>
    unfold forEach
    rw [h x List.mem_cons_self]
    exact ih (fun y hy => h y (List.mem_cons_of_mem _ hy))

theorem forEnumerated_ok {α : Type} [DecidableEq α] {n : Nat} {f : Nat → α} :
    forEnumerated ((List.range n).map f) (fun i v => assertEq v (f i)) = .ok () := by
  refine forEach_ok (fun x hx => ?_)
  obtain ⟨v, i⟩ := x
  rw [List.mem_zipIdx_iff_getElem?] at hx
  simp only [List.getElem?_map] at hx
  obtain ⟨j, h1, h2⟩ := Option.map_eq_some_iff.mp hx
  obtain ⟨h3, h4⟩ := List.getElem?_eq_some_iff.mp h1
  rw [List.getElem_range] at h4
  subst h4
  simp only [assertEq, assertThat, h2, decide_true]
  rfl

/-- What the assertions after the first loop see. -/
theorem first_answers {id2 : UInt32} {count : Nat} (hc : 0 < count) (h : Traced (testWorld env) r (first env id2 count count)) :
    r.iterEntities env = (List.range count).map nth ∧
    r.iterEntityComponentsMatching env [tA, tB] = .ok [(0, (List.range count).map nth,
      [(List.range count).map (fun i => vA env i), (List.range count).map (fun i => vB env (count - i))])] := by
  obtain ⟨hist, cs, _, h2⟩ := h
  obtain ⟨k, rfl⟩ : ∃ k, count = k + 1 := ⟨count - 1, by omega⟩
  refine ⟨?_, ?_⟩
  · rw [h2.answers.entities]
    exact entities_replicate _ _
  · rw [(h2.answers.matching [tA, tB] has2
      (valid2 env)).1]
    have hm : ∀ l, RReg.matching ⟨List.replicate (k + 1) 0, [], [⟨[tA, tB], id2, l⟩]⟩ [tA, tB] (fun _ => true) =
        [(0, l.map Prod.fst, [l.map (fun x => valOf [tA, tB] x.2 tA), l.map (fun x => valOf [tA, tB] x.2 tB)])] :=
      fun l => rfl
    unfold first
    rw [hm]
    unfold rows2
    simp only [List.map_map]
    rfl

/-- What the assertion after the second loop sees. -/
theorem second_answers {id2 id3 : UInt32} {count : Nat} (hc : 0 < count)
    (h : Traced (testWorld env) r (second env id2 id3 count count)) :
    ∃ items, r.iterComponentsMatching env [tA, tB] = .ok items ∧ items.length = 2 := by
  obtain ⟨hist, cs, _, h2⟩ := h
  obtain ⟨k, rfl⟩ : ∃ k, count = k + 1 := ⟨count - 1, by omega⟩
  refine ⟨_, (h2.answers.matching [tA, tB] has2
      (valid2 env)).2.1, ?_⟩
  unfold RReg.matching second
  generalize rows2 env (k + 1) (k + 1) = l2
  generalize rows3 env (k + 1) (k + 1) = l3
  rfl

/-! ## Entities with default values -/

/-- The components of an entity created by the third loop. -/
def comps2 (env : Env) : CompTy → Option Val := lookupTy [tA, tB] [defA env, defB env]

/-- The components of such an entity after a `C` was added. -/
def comps3 (env : Env) : CompTy → Option Val := setComp (comps2 env) tC (some (defC env))

theorem testFewSets : FewSets (testWorld env) := ⟨[[1, 2], [2, 3], [1, 2, 3]], fun _ hs => hs, by decide⟩

namespace Busy

variable {N : Nat} {cs : List Content}

theorem createOne (h : Busy (testWorld env) r N cs) (hN : N < STORAGE_LIMIT) :
    ∃ r' e cs', r.createEntity env [tA, tB] [defA env, defB env] = .ok (r', .ok e) ∧ Busy (testWorld env) r' (N + 1) cs' ∧
      r.look env cs e = none ∧ r'.look env cs' = AMap.set (r.look env cs) e (some (comps2 env)) :=
  h.createAny hN (create2_adm 1 2 r) (valid2 env)

theorem createAll : ∀ (n lo : Nat) {r : Registry} {N : Nat} {cs : List Content}, Busy (testWorld env) r N cs →
    N + n ≤ STORAGE_LIMIT →
    ∃ r' es cs', createMany env [tA, tB] (fun _ => [defA env, defB env]) n lo r = .ok (r', es) ∧
      Busy (testWorld env) r' (N + n) cs' ∧ es.Nodup ∧ (∀ e ∈ es, r.look env cs e = none) ∧
      (∀ e ∈ es, r'.look env cs' e = some (comps2 env)) ∧
      (∀ e, r.look env cs e ≠ none → r'.look env cs' e = r.look env cs e)
  | 0, lo, r, N, cs, h, _ => ⟨r, [], cs, rfl, h, List.nodup_nil, fun _ hx => (by cases hx), fun _ hx => (by cases hx),
      fun _ _ => rfl⟩
  | n + 1, lo, r, N, cs, h, hN => by
    obtain ⟨r1, e, cs1, a1, a2, a3, a4⟩ := h.createOne (by omega)
    obtain ⟨r2, es, cs2, b1, b2, b3, b4, b5, b6⟩ := createAll n (lo + 1) a2 (by omega)
    have he : r1.look env cs1 e = some (comps2 env) := by rw [a4, AMap.set_self]
    have hother : ∀ x, x ≠ e → r1.look env cs1 x = r.look env cs x := fun x hx => by rw [a4, AMap.set_ne hx]
    refine ⟨r2, e :: es, cs2, ?_, ?_, ?_, ?_, ?_, ?_⟩
    · unfold createMany
      simp only [create_ok_of a1, b1, ok_bind]
      rfl
    · rw [show N + (n + 1) = N + 1 + n by omega]; exact b2
    · refine List.nodup_cons.mpr ⟨fun hm => ?_, b3⟩
      rw [b4 e hm] at he
      cases he
    · intro x hx
      rcases List.mem_cons.mp hx with rfl | hx
      · exact a3
      · by_cases hxe : x = e
        · rw [hxe]; exact a3
        · rw [← hother x hxe]; exact b4 x hx
    · intro x hx
      rcases List.mem_cons.mp hx with rfl | hx
      · rw [b6 _ (by rw [he]; simp), he]
      · exact b5 x hx
    · intro x hx
      have hxe : x ≠ e := fun h => hx (h ▸ a3)
      rw [b6 x (by rw [hother x hxe]; exact hx), hother x hxe]

theorem ids (h : Busy (testWorld env) r N cs) {e : Entity} {f : CompTy → Option Val} (hf : r.look env cs e = some f) :
    idsOf env [tA, tB, tC] r e = ([tA, tB, tC].filter (fun c => (f c).isSome)).map (fun c => c.id) := by
  unfold idsOf
  congr 1
  refine List.filter_congr (fun c hc => ?_)
  rw [h.inv.hasComponent_eq (testWorld_has.mpr hc), hf]
  simp

theorem hasOne (h : Busy (testWorld env) r N cs) {e : Entity} {f : CompTy → Option Val} (hf : r.look env cs e = some f) {c : CompTy}
    (hc : c ∈ [tA, tB, tC]) : r.hasComponent env c e = .ok (f c).isSome := by
  rw [h.inv.hasComponent_eq (testWorld_has.mpr hc), hf]
  rfl

theorem addOne (h : Busy (testWorld env) r N cs) (hN : N < STORAGE_LIMIT) {e : Entity}
    (hf : r.look env cs e = some (comps2 env)) :
    ∃ r' cs', r.addComponent env e tC (defC env) = .ok (r', .ok ()) ∧ Busy (testWorld env) r' N cs' ∧
      r'.look env cs' = AMap.set (r.look env cs) e (some (comps3 env)) := by
  have hid := h.ids hf
  have hadm : (Call.add e tC (defC env)).Admissible (testWorld env) r := by
    refine addCheck_ok (hw := testWorld_check env) (t := [1, 2, 3]) ?_
    unfold addCheck
    rw [hid, show (defC env).bytes.length = 8 from usizeBytes_length env 3]
    rfl
  refine h.addAny hN hf rfl hadm (withId_check (hw := testWorld_check env) (t := [1, 2, 3]) (by rw [hid]; rfl)) (by decide) ?_
  clear hid hadm hf h
  obtain ⟨d, b, z⟩ := env; revert d b z; decide +kernel

theorem removeOne (h : Busy (testWorld env) r N cs) (hN : N < STORAGE_LIMIT) {e : Entity} {c : CompTy} (hc : c = tC ∨ c = tA)
    (hf : r.look env cs e = some (comps3 env)) :
    ∃ r' cs' v, r.removeComponent env e c = .ok (r', .ok v) ∧ Busy (testWorld env) r' N cs' ∧
      r'.look env cs' = AMap.set (r.look env cs) e (some (setComp (comps3 env) c none)) := by
  have hid := h.ids hf
  have key : ∃ t, (Call.remove e c).Admissible (testWorld env) r ∧ AscSet t (WithoutId (testWorld env) r e c) ∧
      t.length = 2 ∧ plainId env t ≠ ARCHETYPE_ID_INVALID := by
    rcases hc with rfl | rfl
    · refine ⟨[1, 2], removeCheck_ok (hw := testWorld_check env) (t := [1, 2]) ?_,
        withoutId_check (hw := testWorld_check env) (by rw [hid]; rfl), rfl, ?_⟩
      · unfold removeCheck
        rw [hid]
        rfl
      · clear hid hf h
        obtain ⟨d, b, z⟩ := env; revert d b z; decide +kernel
    · refine ⟨[2, 3], removeCheck_ok (hw := testWorld_check env) (t := [2, 3]) ?_,
        withoutId_check (hw := testWorld_check env) (by rw [hid]; rfl), rfl, ?_⟩
      · unfold removeCheck
        rw [hid]
        rfl
      · clear hid hf h
        obtain ⟨d, b, z⟩ := env; revert d b z; decide +kernel
  obtain ⟨t, hadm, hasc, hl, hp⟩ := key
  obtain ⟨v, hv⟩ : ∃ v, comps3 env c = some v := by rcases hc with rfl | rfl <;> exact ⟨_, rfl⟩
  obtain ⟨r', cs', h1, h2, h3⟩ := h.removeAny hN hf hv hadm hasc (by omega) (by omega) hp
  exact ⟨r', cs', v, h1, h2, h3⟩

theorem addAll : ∀ (es : List Entity) {r : Registry} {cs : List Content}, Busy (testWorld env) r N cs → N < STORAGE_LIMIT →
    es.Nodup → (∀ e ∈ es, r.look env cs e = some (comps2 env)) →
    ∃ r' cs', addMany env es r = .ok r' ∧ Busy (testWorld env) r' N cs' ∧ (∀ e ∈ es, r'.look env cs' e = some (comps3 env)) ∧
      (∀ e, e ∉ es → r'.look env cs' e = r.look env cs e)
  | [], r, cs, h, _, _, _ => ⟨r, cs, rfl, h, fun _ hx => (by cases hx), fun _ _ => rfl⟩
  | e :: es, r, cs, h, hN, hn, ha => by
    obtain ⟨hn1, hn2⟩ := List.nodup_cons.mp hn
    obtain ⟨r1, cs1, a1, a2, a3⟩ := h.addOne hN (ha e List.mem_cons_self)
    have he : r1.look env cs1 e = some (comps3 env) := by rw [a3, AMap.set_self]
    have hother : ∀ x, x ≠ e → r1.look env cs1 x = r.look env cs x := fun x hx => by rw [a3, AMap.set_ne hx]
    obtain ⟨r2, cs2, b1, b2, b3, b4⟩ := addAll es a2 hN hn2 (fun x hx => by
      rw [hother x (fun h => hn1 (h ▸ hx))]
      exact ha x (List.mem_cons_of_mem _ hx))
    have hh : r1.hasComponent env tC e = .ok true := a2.hasOne he (by decide)
    refine ⟨r2, cs2, ?_, b2, ?_, ?_⟩
    · unfold addMany
      simp only [a1, hh, ok_bind, isOk, assertThat]
      exact b1
    · intro x hx
      rcases List.mem_cons.mp hx with rfl | hx
      · rw [b4 _ hn1, he]
      · exact b3 x hx
    · intro x hx
      rw [List.mem_cons, not_or] at hx
      rw [b4 x hx.2, hother x hx.1]

theorem changeOne (first second : Bool) (h : Busy (testWorld env) r N cs) (hN : N < STORAGE_LIMIT) {e : Entity}
    (hf : r.look env cs e = some (comps3 env)) :
    ∃ r' cs', change env first second e r = .ok r' ∧ Busy (testWorld env) r' N cs' ∧
      (∀ x, x ≠ e → r'.look env cs' x = r.look env cs x) := by
  unfold change
  cases first with
  | true =>
    obtain ⟨r1, cs1, d, a1, a2, a3⟩ := h.destroyOne hf
    refine ⟨r1, cs1, ?_, a2, fun x hx => by rw [a3, AMap.set_ne hx]⟩
    simp only [if_true, a1, ok_bind]
    rfl
  | false =>
    cases second with
    | true =>
      obtain ⟨r1, cs1, v, a1, a2, a3⟩ := h.removeOne hN (Or.inl rfl) hf
      have he : r1.look env cs1 e = some (setComp (comps3 env) tC none) := by rw [a3, AMap.set_self]
      have hg : ∀ c ∈ [tA, tB], (testWorld env).Has c := has2
      refine ⟨r1, cs1, ?_, a2, fun x hx => by rw [a3, AMap.set_ne hx]⟩
      have q1 : r1.hasComponents env [tA, tB] e = .ok true := by rw [a2.inv.hasComponents_eq hg (valid2 env), he]; rfl
      have q2 : r1.getComponents env [tA, tB] e = .ok (some [defA env, defB env]) := by
        rw [a2.inv.getComponents_eq hg (valid2 env), he]; rfl
      have q3 : r1.hasComponent env tC e = .ok false := a2.hasOne he (by decide)
      simp only [Bool.false_eq_true, if_false, a1, ok_bind, q1, q2, q3, assertEq, decide_true]
      rfl
    | false =>
      obtain ⟨r1, cs1, v, a1, a2, a3⟩ := h.removeOne hN (Or.inr rfl) hf
      have he : r1.look env cs1 e = some (setComp (comps3 env) tA none) := by rw [a3, AMap.set_self]
      have hg : ∀ c ∈ [tC, tB], (testWorld env).Has c := has2'
      refine ⟨r1, cs1, ?_, a2, fun x hx => by rw [a3, AMap.set_ne hx]⟩
      have q1 : r1.hasComponents env [tC, tB] e = .ok true := by rw [a2.inv.hasComponents_eq hg (valid2' env), he]; rfl
      have q2 : r1.getComponents env [tC, tB] e = .ok (some [defC env, defB env]) := by
        rw [a2.inv.getComponents_eq hg (valid2' env), he]; rfl
      have q3 : r1.hasComponent env tA e = .ok false := a2.hasOne he (by decide)
      simp only [Bool.false_eq_true, if_false, a1, ok_bind, q1, q2, q3, assertEq, decide_true]
      rfl

theorem changeAll (random : Nat → Bool × Bool) : ∀ (i : Nat) (es : List Entity) {r : Registry} {cs : List Content},
    Busy (testWorld env) r N cs → N < STORAGE_LIMIT → es.Nodup → (∀ e ∈ es, r.look env cs e = some (comps3 env)) →
    ∃ r' cs', changeMany env random i es r = .ok r' ∧ Busy (testWorld env) r' N cs'
  | _, [], r, cs, h, _, _, _ => ⟨r, cs, rfl, h⟩
  | i, e :: es, r, cs, h, hN, hn, ha => by
    obtain ⟨hn1, hn2⟩ := List.nodup_cons.mp hn
    obtain ⟨r1, cs1, a1, a2, a3⟩ := h.changeOne (random i).1 (random i).2 hN (ha e List.mem_cons_self)
    obtain ⟨r2, cs2, b1, b2⟩ := changeAll random (i + 1) es a2 hN hn2 (fun x hx => by
      rw [a3 x (fun h => hn1 (h ▸ hx))]
      exact ha x (List.mem_cons_of_mem _ hx))
    refine ⟨r2, cs2, ?_, b2⟩
    unfold changeMany
    simp only [a1, ok_bind]
    exact b1

end Busy

theorem first_second {id2 id3 : UInt32} {count : Nat} (hc : 0 < count) :
    first env id2 count count = second env id2 id3 count 0 := by
  obtain ⟨k, rfl⟩ : ∃ k, count = k + 1 := ⟨count - 1, by omega⟩
  rfl

theorem second_versions {id2 id3 : UInt32} {count k : Nat} : (second env id2 id3 count k).versions.length = count + k := by
  cases k <;> simp [second]

theorem firstPhase (env : Env) (count : Nat) (hc : 0 < count) (hm : count < 8388608) :
    ∃ r id2, createMany env [tA, tB] (fun i => [vA env i, vB env (count - i)]) count 0 Registry.default =
      .ok (r, (List.range count).map nth) ∧ id2 = createdId env [tA, tB] ∧ Traced (testWorld env) r (first env id2 count count) := by
  obtain ⟨r1, a1, a2⟩ := createMany_ref (env := env) (m := count) (off := 0)
    (Q := fun k r => Traced (testWorld env) r (first env (createdId env [tA, tB]) count k))
    (fun k r h hk => first_create count k (by omega) r h) count 0 Registry.default
    ⟨[], [], Steps.nil, RRel.empty _⟩ (by omega)
  simp only [Nat.zero_add] at a1 a2
  rw [← List.range_eq_range'] at a1
  exact ⟨r1, _, a1, rfl, a2⟩

theorem secondPhase {count : Nat} (hm : count + count ≤ 8388608) {id2 : UInt32} (hi : id2 = createdId env [tA, tB])
    (h : ∀ id3, Traced (testWorld env) r (second env id2 id3 count 0)) :
    ∃ r' id3 es, createMany env [tA, tB, tC] (fun i => [vA env i, vB env (count - i), vC env i]) count 0 r =
      .ok (r', es) ∧ Traced (testWorld env) r' (second env id2 id3 count count) := by
  subst hi
  obtain ⟨r2, b1, b2⟩ := createMany_ref (env := env) (m := count) (off := count)
    (Q := fun k r => Traced (testWorld env) r (second env (createdId env [tA, tB]) (createdId env [tA, tB, tC]) count k))
    (fun k r h hk => second_create count k (by omega) r h) count 0 r (h _) (by omega)
  rw [Nat.zero_add] at b2
  exact ⟨r2, _, _, b1, b2⟩

theorem thirdPhase {N : Nat} {cs : List Content} (h : Busy (testWorld env) r N cs) {more : Nat} (hm : N + more < STORAGE_LIMIT)
    (random : Nat → Bool × Bool) :
    ∃ r1 r2 r3 es x, createMany env [tA, tB] (fun _ => [defA env, defB env]) more 0 r = .ok (r1, es) ∧
      addMany env es r1 = .ok r2 ∧ changeMany env random 0 es r2 = .ok r3 ∧ r3.drop = .ok x := by
  obtain ⟨r3, es, cs3, c1, c2, c3, _, c5, _⟩ := h.createAll more 0 (Nat.le_of_lt hm)
  obtain ⟨r4, cs4, d1, d2, d3, _⟩ := c2.addAll es hm c3 c5
  obtain ⟨r5, cs5, e1, e2⟩ := d2.changeAll random 0 es hm c3 d3
  obtain ⟨left, f1, _⟩ := e2.inv.drop_eq
  exact ⟨r3, r4, r5, es, _, c1, d1, e1, f1⟩

theorem firstChecks {count : Nat} : forEach [(0, (List.range count).map nth,
      [(List.range count).map (fun i => vA env i), (List.range count).map (fun i => vB env (count - i))])]
    (fun item => do
      forEach item.2.1 (fun e => assertThat (item.2.1.contains e))
      let a ← index item.2.2 0
      let b ← index item.2.2 1
      forEnumerated a (fun i v => assertEq v (vA env i))
      forEnumerated b (fun i v => assertEq v (vB env (count - i)))) = .ok () := by
  refine forEach_ok (fun item hi => ?_)
  rw [List.mem_singleton] at hi
  subst hi
  have g2 : forEach ((List.range count).map nth) (fun e => assertThat (((List.range count).map nth).contains e)) = .ok () := by
    refine forEach_ok (fun e he => ?_)
    rw [List.contains_iff_mem.mpr he]
    rfl
  simp only [g2, index, ok_bind, List.getElem?_cons_zero, List.getElem?_cons_succ, forEnumerated_ok]

theorem glue {count more : Nat} {random : Nat → Bool × Bool} {r1 r2 r3 r4 r5 : Registry} {es1 es2 es : List Entity}
    {items : List (Nat × List Entity × List (List Val))} {items2 : List (Nat × List (List Val))} {x : List Val × List Archetype}
    (a1 : createMany env [tA, tB] (fun i => [vA env i, vB env (count - i)]) count 0 Registry.default = .ok (r1, es1))
    (g1 : forEach (r1.iterEntities env) (fun e => assertThat (es1.contains e)) = .ok ())
    (a4 : r1.iterEntityComponentsMatching env [tA, tB] = .ok items)
    (g3 : forEach items (fun item => do
      forEach item.2.1 (fun e => assertThat (item.2.1.contains e))
      let a ← index item.2.2 0
      let b ← index item.2.2 1
      forEnumerated a (fun i v => assertEq v (vA env i))
      forEnumerated b (fun i v => assertEq v (vB env (count - i)))) = .ok ())
    (b1 : createMany env [tA, tB, tC] (fun i => [vA env i, vB env (count - i), vC env i]) count 0 r1 = .ok (r2, es2))
    (b3 : r2.iterComponentsMatching env [tA, tB] = .ok items2) (b4 : items2.length = 2)
    (c1 : createMany env [tA, tB] (fun _ => [defA env, defB env]) more 0 r2 = .ok (r3, es))
    (d1 : addMany env es r3 = .ok r4) (e1 : changeMany env random 0 es r4 = .ok r5) (f1 : r5.drop = .ok x) :
    testRegistrySecond env count more random = .ok () := by
  unfold testRegistrySecond
  refine (ok_then a1 _).trans ?_
  refine (ok_then g1 _).trans ?_
  refine (ok_then a4 _).trans ?_
  refine (ok_then g3 _).trans ?_
  refine (ok_then b1 _).trans ?_
  refine (ok_then b3 _).trans ?_
  refine (ok_then (show assertEq items2.length 2 = .ok () by rw [b4]; rfl) _).trans ?_
  refine (ok_then c1 _).trans ?_
  refine (ok_then d1 _).trans ?_
  refine (ok_then e1 _).trans ?_
  refine (ok_then f1 _).trans ?_
  rfl

theorem testRegistrySecond_pass (env : Env) (count more : Nat) (hc : 0 < count) (hm : 2 * count + more < STORAGE_LIMIT)
    (random : Nat → Bool × Bool) : testRegistrySecond env count more random = .ok () := by
  have hS : STORAGE_LIMIT = 8388608 := rfl
  obtain ⟨r1, id2, a1, hi, a2⟩ := firstPhase env count hc (by omega)
  obtain ⟨a3, a4⟩ := first_answers hc a2
  obtain ⟨r2, id3, es2, b1, b2⟩ := secondPhase (count := count) (by omega) hi (fun id3 => by rw [← first_second hc]; exact a2)
  obtain ⟨items, b3, b4⟩ := second_answers hc b2
  obtain ⟨cs2, hbusy⟩ := b2.busy testFewSets (N := 2 * count) (by rw [second_versions]; omega)
  obtain ⟨r3, r4, r5, es, x, c1, d1, e1, f1⟩ := thirdPhase hbusy hm random
  have g1 : forEach (r1.iterEntities env) (fun e => assertThat (((List.range count).map nth).contains e)) = .ok () := by
    refine forEach_ok (fun e he => ?_)
    rw [a3] at he
    rw [List.contains_iff_mem.mpr he]
    rfl
  exact glue a1 g1 a4 firstChecks b1 b3 b4 c1 d1 e1 f1

/-- **C76** (registry) `test_registry` passes, whatever the random values are; so does the same test with any number
`count ≥ 1` of entities in the first loops and any number `more` in the last ones, below the storage limit. -/
theorem C76_random_test (env : Env) (random : Nat → Bool × Bool) :
    testRegistry env random = .ok () ∧
    ∀ count more, 0 < count → 2 * count + more < STORAGE_LIMIT → testRegistrySecond env count more random = .ok () := by
  refine ⟨?_, fun count more hc hm => testRegistrySecond_pass env count more hc hm random⟩
  unfold testRegistry
  refine (ok_then (fixedTests_pass env (testRegistryFirst env) (by simp [fixedTests])) _).trans ?_
  exact testRegistrySecond_pass env 32 1000 (by decide) (by decide) random

/-- **C76** (entities) The test of the entity table passes with any number of entities below `2^24 - 1`; the crate's
number is 1024. -/
theorem C76_many_entities (env : Env) :
    testManyEntities env 1024 = .ok () ∧ ∀ count, count < 2 ^ 24 - 1 → testManyEntities env count = .ok () :=
  ⟨testManyEntities_pass env 1024 (by decide), testManyEntities_pass env⟩

/-- **C76** (the rest) The tests without loops pass, and so does the test of the constructors, for every capacity. -/
theorem C76_other_tests (env : Env) : (∀ t ∈ fixedTests env, t = .ok ()) ∧ testArchetypeConstructors env = .ok () ∧
    ∀ capacity, constructAndDrop env (Group.descriptor env [tA, tB]).archetype capacity = .ok () :=
  ⟨fixedTests_pass env, testArchetypeConstructors_pass env, constructAndDrop_ok env⟩

/-- The assertions are not vacuous: with an expected value changed, a test fails. -/
example : (do
      let (r, e) ← create exEnv Registry.default [tA, tB] [defA exEnv, defB exEnv]
      assertEq (← r.getComponent exEnv tA e) (some (vA exEnv 2))) = .error (.panic .assertFailed) := by
  decide +kernel

set_option maxRecDepth 100000 in
/-- With no entities in the first loops, the test fails at the number of archetypes that match. -/
example : testRegistrySecond exEnv 0 0 (fun _ => (true, true)) = .error (.panic .assertFailed) := by decide +kernel

set_option maxRecDepth 100000 in
/-- The hypotheses of `C76_random_test` with small numbers, computed independently of the theorem. -/
example : 0 < 2 ∧ 2 * 2 + 3 < STORAGE_LIMIT ∧
    testRegistrySecond exEnv 2 3 (fun i => (i % 2 == 0, i % 3 == 0)) = .ok () := by decide +kernel

end Shard
