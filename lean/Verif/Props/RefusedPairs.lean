import Verif.Proofs.RefusedPairs
import Verif.Props.Limits
/-!
# C103: which small component sets are refused for their archetype id
-/

set_option autoImplicit false

namespace Shard

/-- The pairs of component ids, smaller first, whose archetype id is the reserved one. -/
def RefusedPair : Bool → UInt16 → UInt16 → Prop
  | false, i, j => (i = 17891 ∧ j = 64606) ∨ (i = 35535 ∧ j = 59250)
  | true, i, j => i = 6226 ∧ j = 14085

theorem hash_ff {a b c d : UInt8} (h : Spec.fnv1a32 ([a, b, c, d] ++ List.replicate 24 255) = 4294967295) :
    [a, b, c, d] = [24, 82, 55, 5] ∨ [a, b, c, d] = [227, 69, 94, 252] ∨ [a, b, c, d] = [207, 138, 114, 231] := by
  rw [fnv1a32_eq, List.foldl_append] at h
  have e : (List.replicate 24 (255 : UInt8)).foldl fnvStep 561242743 = 4294967295 := by decide +kernel
  have h := foldl_fnvStep_inj _ ((UInt32.toNat_inj.mp h : _ = (4294967295 : UInt32)).trans e.symm)
  have hm := scan_spec scan_ff (congrArg UInt32.toNat h)
  have fin : ∀ {a' b' c' d' : UInt8}, c.toNat = c'.toNat → d.toNat = d'.toNat →
      [a', b', c', d'].foldl fnvStep FNV_OFFSET_BASIS_32 = 561242743 → [a, b, c, d] = [a', b', c', d'] := by
    intro a' b' c' d' hc hd he
    obtain rfl := UInt8.toNat_inj.mp hc
    obtain rfl := UInt8.toNat_inj.mp hd
    have := fnvStep2_inj (fnvStep_inj (fnvStep_inj (h.trans he.symm)))
    rw [this.1, this.2]
  simp only [List.mem_cons, Prod.mk.injEq, List.not_mem_nil, or_false] at hm
  rcases hm with ⟨hc, hd⟩ | ⟨hc, hd⟩ | ⟨hc, hd⟩
  · exact .inl (fin hc hd (by decide +kernel))
  · exact .inr (.inl (fin hc hd (by decide +kernel)))
  · exact .inr (.inr (fin hc hd (by decide +kernel)))

theorem hash_00 (a b c d : UInt8) : Spec.fnv1a32 ([a, b, c, d] ++ List.replicate 24 0) ≠ 4294967295 := by
  intro h
  rw [fnv1a32_eq, List.foldl_append] at h
  have e : (List.replicate 24 (0 : UInt8)).foldl fnvStep 1542227295 = 4294967295 := by decide +kernel
  have h := foldl_fnvStep_inj _ ((UInt32.toNat_inj.mp h : _ = (4294967295 : UInt32)).trans e.symm)
  have hm := scan_spec scan_00 (congrArg UInt32.toNat h)
  cases hm

/-- **C103** Of all pairs of different component ids exactly two have the reserved archetype id in a group on little-endian
targets, and exactly one on big-endian targets. -/
theorem C103_pairs (bigEndian : Bool) {i j : UInt16} (hij : i < j) :
    Spec.groupId bigEndian [i, j] = 4294967295 ↔ RefusedPair bigEndian i j := by
  constructor
  · intro h
    obtain ⟨a, b, ei, hi⟩ := idBytes_two bigEndian i
    obtain ⟨c, d, ej, hj⟩ := idBytes_two bigEndian j
    replace h : Spec.fnv1a32 (Spec.idBytes bigEndian i ++ (Spec.idBytes bigEndian j ++ []) ++ List.replicate 24 255) = 4294967295 := h
    rw [ei, ej] at h
    have hx := hash_ff h
    clear h
    have key : ∀ {i' j' : UInt16} {a' b' c' d' : UInt8}, [a, b, c, d] = [a', b', c', d'] → Spec.idBytes bigEndian i' = [a', b'] →
        Spec.idBytes bigEndian j' = [c', d'] → i = i' ∧ j = j' := by
      intro i' j' a' b' c' d' he h1 h2
      obtain ⟨rfl, rfl, rfl, rfl⟩ : a = a' ∧ b = b' ∧ c = c' ∧ d = d' := by simpa using he
      exact ⟨hi i' h1, hj j' h2⟩
    clear ei ej
    cases bigEndian with
    | false =>
      rcases hx with h | h | h
      · obtain ⟨rfl, rfl⟩ := key (i' := 21016) (j' := 1335) h (by decide) (by decide)
        exact absurd hij (by decide)
      · exact .inl (key h (by decide) (by decide))
      · exact .inr (key h (by decide) (by decide))
    | true =>
      rcases hx with h | h | h
      · exact key h (by decide) (by decide)
      · obtain ⟨rfl, rfl⟩ := key (i' := 58181) (j' := 24316) h (by decide) (by decide)
        exact absurd hij (by decide)
      · obtain ⟨rfl, rfl⟩ := key (i' := 53130) (j' := 29415) h (by decide) (by decide)
        exact absurd hij (by decide)
  · intro h
    cases bigEndian with
    | false => rcases h with ⟨rfl, rfl⟩ | ⟨rfl, rfl⟩ <;> decide +kernel
    | true => obtain ⟨rfl, rfl⟩ := h; decide +kernel

/-- **C103** (moves) No pair has the reserved archetype id where `add_component` and `remove_component` compute it. -/
theorem C103_moved (bigEndian : Bool) (i j : UInt16) : Spec.movedId bigEndian [i, j] ≠ 4294967295 := by
  obtain ⟨a, b, ei, _⟩ := idBytes_two bigEndian i
  obtain ⟨c, d, ej, _⟩ := idBytes_two bigEndian j
  intro h
  have h : Spec.fnv1a32 (Spec.idBytes bigEndian i ++ (Spec.idBytes bigEndian j ++ []) ++ List.replicate 24 0) = 4294967295 := h
  rw [ei, ej] at h
  exact hash_00 a b c d h

/-- **C103** (`create_entity`) A group of two different component types is invalid exactly if its ids are such a pair, in
either order; `create_entity` refuses these in every registry. -/
theorem C103_create (env : Env) (x y : CompTy) (hne : x.id ≠ y.id) :
    ((Group.descriptor env [x, y]).isValid = false ↔ RefusedPair env.bigEndian x.id y.id ∨ RefusedPair env.bigEndian y.id x.id) ∧
    (RefusedPair env.bigEndian x.id y.id ∨ RefusedPair env.bigEndian y.id x.id → ∀ (r : Registry) (vals : List Val),
      r.createEntity env [x, y] vals = .ok (r, .err vals)) := by
  have order : ∀ {be : Bool} {i j : UInt16}, RefusedPair be i j → i < j := by
    intro be i j h
    cases be with
    | false => rcases h with ⟨rfl, rfl⟩ | ⟨rfl, rfl⟩ <;> decide
    | true => obtain ⟨rfl, rfl⟩ := h; decide
  have nd : (([x, y] : Group).map (fun c => c.id)).Nodup := by simpa using hne
  have main : ∀ i j : UInt16, i < j → ([i, j] : List UInt16).Perm (([x, y] : Group).map (fun c => c.id)) →
      ((Group.descriptor env [x, y]).isValid = false ↔ RefusedPair env.bigEndian i j) ∧
      (RefusedPair env.bigEndian i j → ∀ (r : Registry) (vals : List Val), r.createEntity env [x, y] vals = .ok (r, .err vals)) := by
    intro i j hij hp
    have h := C24_wellformed_groups_partial env [x, y] (by simp) nd [i, j] hp (by simpa using UInt16.le_of_lt hij)
    refine ⟨?_, fun hr => h.2.1 ((C103_pairs _ hij).mpr hr)⟩
    rw [← C103_pairs _ hij]
    cases hv : (Group.descriptor env [x, y]).isValid with
    | true => exact ⟨fun h => (Bool.noConfusion h), fun hx => absurd hx (h.1.mp hv)⟩
    | false =>
      refine ⟨fun _ => ?_, fun _ => rfl⟩
      by_cases hx : Spec.groupId env.bigEndian [i, j] = 4294967295
      · exact hx
      · rw [h.1.mpr hx] at hv; cases hv
  rcases UInt16.lt_or_lt_of_ne hne with hlt | hlt
  · have no : ¬ RefusedPair env.bigEndian y.id x.id := fun h => UInt16.lt_asymm hlt (order h)
    have := main x.id y.id hlt (List.Perm.refl _)
    simpa only [no, or_false] using this
  · have no : ¬ RefusedPair env.bigEndian x.id y.id := fun h => UInt16.lt_asymm hlt (order h)
    have := main y.id x.id hlt (List.Perm.swap _ _ _)
    simpa only [no, false_or] using this

/-- **C103** (larger sets) Whatever the other components are, at most one component id in a given place of the ascending list
gives the reserved archetype id. -/
theorem C103_at_most_one (bigEndian : Bool) (p q : List UInt16) {b c : UInt16} :
    (Spec.groupId bigEndian (p ++ b :: q) = 4294967295 → Spec.groupId bigEndian (p ++ c :: q) = 4294967295 → b = c) ∧
    (Spec.movedId bigEndian (p ++ b :: q) = 4294967295 → Spec.movedId bigEndian (p ++ c :: q) = 4294967295 → b = c) := by
  have h := C102_one_place bigEndian (s := p ++ b :: q) (t := p ++ c :: q) ⟨p, b, c, q, rfl, rfl⟩
  have e : p ++ b :: q = p ++ c :: q → b = c := fun h => (List.cons.inj (List.append_cancel_left h)).1
  exact ⟨fun h1 h2 => e (h.1.mp (h1.trans h2.symm)), fun h1 h2 => e (h.2.mp (h1.trans h2.symm))⟩

theorem plainId_two (env : Env) (t : List UInt16) (h1 : 1 ≤ t.length) (h2 : t.length ≤ 2) : plainId env t ≠ ARCHETYPE_ID_INVALID := by
  intro h
  have hm := computeArchetypeId_moved env (t.map idOnly) (by simpa using h1) (by rw [List.length_map]; omega)
  have ids : (t.map idOnly).map (fun d => d.id) = t := by
    rw [List.map_map]
    exact List.map_id'' (fun _ => rfl) t
  have h : ArchetypeDescriptor.computeArchetypeId env (t.map idOnly) = ARCHETYPE_ID_INVALID := h
  rw [ids, h] at hm
  match t, h1, h2, hm with
  | [i], _, _, hm =>
    have hm : (4294967295 : Nat) = i.toNat := hm
    have := i.toNat_lt
    omega
  | [i, j], _, _, hm => exact C103_moved env.bigEndian i j hm.symm

variable {env : Env} {W : World env} {r : Registry}

/-- **C103** (`add_component`) So a second component can be added whenever the archetype exists or another one can be made. -/
theorem C103_add (hr : Reachable W r) {e : Entity} {c : CompTy} {v : Val} (hadm : (Call.add e c v).Admissible W r)
    (hl : Live env r e) (hn : r.hasComponent env c e = .ok false) {t : List UInt16} (ht : AscSet t (WithId W r e c))
    (h1 : 1 ≤ t.length) (h2 : t.length ≤ 2) (hfew : FewerThan STORAGE_LIMIT (fun x => HasSet W r x t)) :
    (∃ r', r.addComponent env e c v = .ok (r', .ok ())) ↔
      (HasArchetype r.archetypes t.length (plainId env t) ∨ r.archetypes.archetypes.length < 65534) := by
  rw [(C53_add_progress hr hadm hl hn ht (by omega) hfew).1, Room]
  exact ⟨fun h => h.2, fun h => ⟨plainId_two env t h1 h2, h⟩⟩

/-- **C103** (`remove_component`) And one of three components, or one of two, can be removed likewise. -/
theorem C103_remove (hr : Reachable W r) {e : Entity} {c : CompTy} (hadm : (Call.remove e c).Admissible W r)
    (hy : r.hasComponent env c e = .ok true) {t : List UInt16} (ht : AscSet t (WithoutId W r e c))
    (h1 : 1 ≤ t.length) (h2 : t.length ≤ 2) (hfew : FewerThan STORAGE_LIMIT (fun x => HasSet W r x t)) :
    (∃ r' v, r.removeComponent env e c = .ok (r', .ok v)) ↔
      (HasArchetype r.archetypes t.length (plainId env t) ∨ r.archetypes.archetypes.length < 65534) := by
  rw [(C54_remove_progress hr hadm hy ht h1 (by omega) hfew).1, Room]
  exact ⟨fun h => h.2, fun h => ⟨plainId_two env t h1 h2, h⟩⟩

/-- Both pairs of `C103_create` in either order, and a pair that is accepted. -/
example (r : Registry) (v w : Val) :
    r.createEntity exEnv [⟨1, 35535, 4, 4⟩, ⟨2, 59250, 4, 4⟩] [v, w] = .ok (r, .err [v, w]) ∧
    r.createEntity exEnv [⟨2, 64606, 4, 4⟩, ⟨1, 17891, 4, 4⟩] [v, w] = .ok (r, .err [v, w]) ∧
    (Group.descriptor exEnv [exA, exB]).isValid = true := by
  refine ⟨(C103_create exEnv _ _ (by decide)).2 (.inl (.inr ⟨rfl, rfl⟩)) r _,
    (C103_create exEnv _ _ (by decide)).2 (.inr (.inl ⟨rfl, rfl⟩)) r _, ?_⟩
  cases hv : (Group.descriptor exEnv [exA, exB]).isValid with
  | true => rfl
  | false =>
    have := (C103_create exEnv exA exB (by decide)).1.mp hv
    simp only [RefusedPair, exEnv, exA, exB] at this
    exact absurd this (by decide)

set_option maxRecDepth 100000 in
/-- `C103_add` on `exR`: `exE2` has only `A`, so `B` can be added. -/
example : ∃ r', exR.addComponent exEnv exE2 exB exValB = .ok (r', .ok ()) := by
  refine (C103_add exReachable (c := exB) (t := [10, 20]) (exCheck_ok (by decide +kernel) _) (by unfold Live; rw [exR_live.1]; decide)
    (by decide +kernel) ⟨by decide, fun i => ?_⟩ (by decide) (by decide) (exFew (fun _ h => h.1))).mpr (Or.inr (by decide +kernel))
  unfold WithId
  rw [exHasId]
  have : ([exA, exB, exC].filter (fun c => exR.hasComponent exEnv c exE2 = .ok true)).map (fun c => c.id) = [10] := by
    decide +kernel
  rw [this, show exB.id = 20 from rfl]
  simp only [List.mem_cons, List.not_mem_nil, or_false]
  exact Or.comm

end Shard
