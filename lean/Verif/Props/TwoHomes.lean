import Verif.Proofs.SingleIds
import Verif.Proofs.Home
import Verif.Props.OnePlace
import Verif.Props.Exact
import Verif.Props.Roundtrip
/-!
# C104: entities created with a component set and entities moved to it are never stored together
-/

set_option autoImplicit false

namespace Shard

/-! ## The two ids of a component set -/

/-- Hashing `k` filling bytes, modulo 32. -/
def padMod (x : Nat) : Nat → Nat → Nat
  | 0, h => h
  | k + 1, h => padMod x k ((h ^^^ x) * 19 % 32)

theorem padMod_table : ∀ r : Fin 32, ∀ k : Fin 12, padMod 31 (2 * (k.val + 1)) r.val ≠ padMod 0 (2 * (k.val + 1)) r.val := by
  decide +kernel

theorem pad_mod (b : UInt8) : ∀ (k h : Nat),
    (List.replicate k b).foldl (fun h b => (h ^^^ b.toNat) * 16777619 % 2 ^ 32) h % 32 = padMod (b.toNat % 32) k (h % 32)
  | 0, h => rfl
  | k + 1, h => by
    rw [List.replicate_succ, List.foldl_cons, pad_mod b k, padMod]
    congr 1
    have := Nat.xor_mod_two_pow (a := h) (b := b.toNat) (n := 5)
    rw [show (2 : Nat) ^ 5 = 32 from rfl] at this
    rw [← this]
    omega

/-- Filling up with `0xFF` and with zeros never gives the same hash. -/
theorem pads_differ (bs : List UInt8) {k : Nat} (h1 : 1 ≤ k) (h2 : k ≤ 12) :
    Spec.fnv1a32 (bs ++ List.replicate (2 * k) 255) ≠ Spec.fnv1a32 (bs ++ List.replicate (2 * k) 0) := by
  intro h
  unfold Spec.fnv1a32 at h
  rw [List.foldl_append, List.foldl_append] at h
  have h : _ % 32 = _ % 32 := congrArg (· % 32) h
  rw [pad_mod, pad_mod] at h
  have := padMod_table ⟨_, Nat.mod_lt (bs.foldl (fun h b => (h ^^^ b.toNat) * 16777619 % 2 ^ 32) 2166136261) (by decide : 32 > 0)⟩
    ⟨k - 1, by omega⟩
  simp only [show k - 1 + 1 = k by omega] at this
  exact this h

/-- The component ids whose group of one has the archetype id of another lone component. -/
def MixedUp : Bool → UInt16 → UInt16 → Prop
  | false, i, j => (i = 20339 ∧ j = 62381) ∨ (i = 52513 ∧ j = 31177)
  | true, i, j => (i = 29519 ∧ j = 62381) ∨ (i = 8653 ∧ j = 31177)

theorem lone_small {a b : UInt8} (h : Spec.fnv1a32 ([a, b] ++ List.replicate 26 255) < 65536) :
    [a, b] = [115, 79] ∨ [a, b] = [33, 205] := by
  have ha := UInt8.toNat_lt256 a
  have hb := UInt8.toNat_lt256 b
  have ht := allBelow_iff (allBelow_iff largeId_table _ ha) _ hb
  rw [fnv1a32_eq, List.foldl_append, fnvTail_toNat] at h
  simp only [List.foldl, fnvStep_stepN] at h
  rw [show FNV_OFFSET_BASIS_32.toNat = 2166136261 by decide] at h
  rcases largeId_cases ht with h' | h' | h'
  · omega
  · left
    have h1 : a.toNat = (115 : UInt8).toNat := by show a.toNat = 115; omega
    have h2 : b.toNat = (79 : UInt8).toNat := by show b.toNat = 79; omega
    rw [UInt8.toNat_inj.mp h1, UInt8.toNat_inj.mp h2]
  · right
    have h1 : a.toNat = (33 : UInt8).toNat := by show a.toNat = 33; omega
    have h2 : b.toNat = (205 : UInt8).toNat := by show b.toNat = 205; omega
    rw [UInt8.toNat_inj.mp h1, UInt8.toNat_inj.mp h2]

/-- **C104** (lone components) The archetype id of a created entity with the only component `i` is that of an entity that was
left with the only component `j` for two pairs of different components, and for no others. -/
theorem C104_lone (bigEndian : Bool) (i j : UInt16) :
    Spec.groupId bigEndian [i] = Spec.movedId bigEndian [j] ↔ MixedUp bigEndian i j := by
  constructor
  · intro h
    obtain ⟨a, b, ei, hi⟩ := idBytes_two bigEndian i
    replace h : Spec.fnv1a32 (Spec.idBytes bigEndian i ++ [] ++ List.replicate 26 255) = j.toNat := h
    have hj : ∀ {i' j' : UInt16}, i = i' → Spec.groupId bigEndian [i'] = j'.toNat → j = j' := by
      rintro _ j' rfl h'
      exact UInt16.toNat_inj.mp (h.symm.trans h')
    rw [ei] at h
    have hs := lone_small (a := a) (b := b) (by
      have := j.toNat_lt
      simp only [List.append_nil] at h
      omega)
    have key : ∀ {i' j' : UInt16} {a' b' : UInt8}, [a, b] = [a', b'] → Spec.idBytes bigEndian i' = [a', b'] →
        Spec.groupId bigEndian [i'] = j'.toNat → i = i' ∧ j = j' := by
      intro i' j' a' b' he h1 h2
      have hi' := hi i' (h1.trans he.symm)
      exact ⟨hi', hj hi' h2⟩
    clear h hj hi ei
    cases bigEndian with
    | false =>
      rcases hs with h | h
      · exact .inl (key h (by decide) (by decide +kernel))
      · exact .inr (key h (by decide) (by decide +kernel))
    | true =>
      rcases hs with h | h
      · exact .inl (key h (by decide) (by decide +kernel))
      · exact .inr (key h (by decide) (by decide +kernel))
  · intro h
    cases bigEndian <;> rcases h with ⟨rfl, rfl⟩ | ⟨rfl, rfl⟩ <;> decide +kernel

/-- **C104** (ids) `create_entity` and `add_component` or `remove_component` never compute the same archetype id for a set of 1
to 13 components; they do for every set of 14. -/
theorem C104_ids (bigEndian : Bool) (s : List UInt16) (h1 : 1 ≤ s.length) (h14 : s.length ≤ 14) :
    Spec.groupId bigEndian s = Spec.movedId bigEndian s ↔ s.length = 14 := by
  match s, h1, h14 with
  | [i], _, _ =>
    rw [C104_lone]
    constructor
    · intro h
      cases bigEndian <;> rcases h with ⟨rfl, h⟩ | ⟨rfl, h⟩ <;> exact absurd h (by decide)
    · intro h
      cases h
  | i :: j :: s, _, h14 =>
    have hm : Spec.movedId bigEndian (i :: j :: s) = Spec.fnv1a32 ((i :: j :: s).flatMap (Spec.idBytes bigEndian) ++
        List.replicate (28 - 2 * (i :: j :: s).length) 0) := rfl
    rw [hm, Spec.groupId]
    constructor
    · intro h
      by_cases hl : (i :: j :: s).length = 14
      · exact hl
      · have hlen : (i :: j :: s).length = s.length + 2 := rfl
        rw [show 28 - 2 * (i :: j :: s).length = 2 * (14 - (i :: j :: s).length) by omega] at h
        exact absurd h (pads_differ _ (by omega) (by omega))
    · intro h
      rw [h]
      rfl

theorem ids_differ (env : Env) (s : List UInt16) (h1 : 1 ≤ s.length) (h14 : s.length ≤ 14) :
    groupId env s = plainId env s ↔ s.length = 14 := by
  have ids : (s.map idOnly).map (fun d => d.id) = s := by
    rw [List.map_map]
    exact List.map_id'' (fun _ => rfl) s
  have e1 := computeArchetypeId_group env (s.map idOnly) (by rw [List.length_map]; exact h14)
  have e2 := computeArchetypeId_moved env (s.map idOnly) (by rw [List.length_map]; exact h1) (by rw [List.length_map]; exact h14)
  rw [ids] at e1 e2
  rw [List.length_map] at e1
  rw [← C104_ids env.bigEndian s h1 h14, ← e1, ← e2, UInt32.toNat_inj]
  rfl

/-! ## What programs see -/

variable {env : Env} {W : World env} {r r' r'' : Registry}

/-- The number of the archetype a live entity is stored in. -/
def storedIn (env : Env) (r : Registry) (e : Entity) : Option UInt16 := (r.entities.entityEntry env e).map (fun en => en.archetypeIndex env)

theorem Steps.append {ok : Registry → Call → Prop} {r0 : Registry} {hist more : List (Call × Outcome)} (h1 : Steps env ok r0 hist r)
    (h2 : Steps env ok r more r') : Steps env ok r0 (hist ++ more) r' := by
  induction h2 with
  | nil => rw [List.append_nil]; exact h1
  | snoc _ q2 q3 ih => rw [← List.append_assoc]; exact Steps.snoc ih q2 q3

theorem add_ids (hr : Reachable W r) {e : Entity} {c : CompTy} {v : Val} (hadm : (Call.add e c v).Admissible W r)
    (hadd : r.addComponent env e c v = .ok (r', .ok ())) :
    (∀ i, HasId W r' e i ↔ i = c.id ∨ HasId W r e i) ∧ ¬ HasId W r e c.id ∧ Live env r e ∧ r.hasComponent env c e = .ok false := by
  obtain ⟨cs, h⟩ := hr.inv
  obtain ⟨cs', f, hst, hf, hnone, hlook⟩ := h.add_ok hadm hadd
  have h' := hst.inv
  have hf' : r'.look env cs' e = some (setComp f c (some v)) := by rw [hlook, AMap.set_self]
  refine ⟨?_, ?_, h.live_iff.mpr ⟨f, hf⟩, by rw [h.hasComponent_eq hadm.1, hf]; simp [hnone]⟩
  · intro i
    rw [h.hasId_iff hf, h'.hasId_iff hf']
    constructor
    · rintro ⟨c', rfl, h2⟩
      by_cases hc : c' = c
      · exact .inl (by rw [hc])
      · unfold setComp at h2
        rw [if_neg hc] at h2
        exact .inr ⟨c', rfl, h2⟩
    · rintro (rfl | ⟨c', rfl, h2⟩)
      · exact ⟨c, rfl, by unfold setComp; rw [if_pos rfl]; rfl⟩
      · refine ⟨c', rfl, ?_⟩
        unfold setComp
        split
        · rfl
        · exact h2
  · rw [h.hasId_iff hf]
    rintro ⟨c', hid, h2⟩
    rw [W.id_inj (h.has_of_look hf h2) hadm.1 hid, hnone] at h2
    cases h2

theorem remove_ids (hr : Reachable W r) {e : Entity} {c : CompTy} {w : Val} (hadm : (Call.remove e c).Admissible W r)
    (hrem : r.removeComponent env e c = .ok (r', .ok w)) :
    (∀ i, HasId W r' e i ↔ i ≠ c.id ∧ HasId W r e i) ∧ Live env r e ∧ r.hasComponent env c e = .ok true := by
  obtain ⟨cs, h⟩ := hr.inv
  obtain ⟨cs', f, hst, hf, hsome, _, hlook⟩ := h.remove_ok hadm hrem
  have h' := hst.inv
  have hf' : r'.look env cs' e = some (setComp f c none) := by rw [hlook, AMap.set_self]
  refine ⟨?_, h.live_iff.mpr ⟨f, hf⟩, by rw [h.hasComponent_eq hadm.1, hf]; simp [hsome]⟩
  intro i
  rw [h.hasId_iff hf, h'.hasId_iff hf']
  constructor
  · rintro ⟨c', rfl, h2⟩
    unfold setComp at h2
    by_cases hc : c' = c
    · rw [if_pos hc] at h2; cases h2
    · rw [if_neg hc] at h2
      exact ⟨fun hid => hc (W.id_inj (h.has_of_look hf h2) hadm.1 hid), c', rfl, h2⟩
  · rintro ⟨h1, c', rfl, h2⟩
    refine ⟨c', rfl, ?_⟩
    unfold setComp
    rw [if_neg (fun hx => h1 (by rw [hx]))]
    exact h2

/-- An entity whose components were changed has at most 13 of them. -/
theorem add_small (hr : Reachable W r) {e : Entity} {c : CompTy} {v : Val} (hadm : (Call.add e c v).Admissible W r)
    (hadd : r.addComponent env e c v = .ok (r', .ok ())) {t : List UInt16} (ht : AscSet t (HasId W r' e)) : t.length ≤ 13 := by
  obtain ⟨q1, _, q3, q4⟩ := add_ids hr hadm hadd
  obtain ⟨cs, h⟩ := hr.inv
  obtain ⟨_, f, _, hf, hnone, _⟩ := h.add_ok hadm hadd
  obtain ⟨s, hs, _⟩ := h.ascSet q3
  obtain ⟨t', ht', hl⟩ := withId hadm.1 q4 hs
  have e : t = t' := ht.unique (ht'.congr fun i => (q1 i).symm)
  subst e
  rcases h.add_cases hadm hf hnone hs ht' with ⟨_, hx⟩ | ⟨_, hx⟩ | ⟨h1, _⟩ | ⟨h1, _⟩
  · rw [hadd] at hx; cases hx
  · rw [hadd] at hx; cases hx
  · omega
  · omega

theorem remove_small (hr : Reachable W r) {e : Entity} {c : CompTy} {w : Val} (hadm : (Call.remove e c).Admissible W r)
    (hrem : r.removeComponent env e c = .ok (r', .ok w)) {t : List UInt16} (ht : AscSet t (HasId W r' e)) : t.length ≤ 13 := by
  obtain ⟨q1, q3, q4⟩ := remove_ids hr hadm hrem
  obtain ⟨cs, h⟩ := hr.inv
  obtain ⟨s, hs, _⟩ := h.ascSet q3
  obtain ⟨t', ht', hl⟩ := withoutId hadm.1 q4 hs
  have e : t = t' := ht.unique (ht'.congr fun i => (q1 i).symm)
  subst e
  omega

theorem remove_admissible (hr : Reachable W r) {e : Entity} {c : CompTy} {v : Val} (hadm : (Call.add e c v).Admissible W r)
    (hadd : r.addComponent env e c v = .ok (r', .ok ())) : (Call.remove e c).Admissible W r' := by
  obtain ⟨ids, new, hl, _⟩ := add_ids hr hadm hadd
  obtain ⟨cs, h⟩ := hr.inv
  obtain ⟨_, f, _, hf, _, _⟩ := h.add_ok hadm hadd
  obtain ⟨en, a, ct, _, _, _, hrep, _, hm⟩ := h.stored_at hf
  obtain ⟨q1, q2⟩ := h.ids_of hf hrep hm
  refine ⟨hadm.1, fun _ s1 _ hs1 => ?_⟩
  have : AscSet s1 (HasId W r e) := by
    refine hs1.congr fun i => ?_
    rw [ids]
    constructor
    · rintro ⟨h1, h2 | h2⟩
      · exact absurd h2 h1
      · exact h2
    · intro h2
      exact ⟨fun hx => new (hx ▸ h2), .inr h2⟩
  rw [this.unique q1]
  exact hrep.desc.used

theorem Home.set (hr : Reachable W r) {e : Entity} {s : List UInt16} {id : UInt32} (hh : Home env r e s id) : AscSet s (HasId W r e) := by
  obtain ⟨ai, a, h1, h2, h3, _⟩ := hh
  unfold Registry.archOf EntityRegistry.loc at h1
  cases hl : r.entities.entityEntry env e with
  | none => rw [hl] at h1; cases h1
  | some en =>
    rw [hl] at h1
    cases h1
    obtain ⟨a', q1, q2⟩ := (C29_storage_partial hr).2.2.1 e en hl
    have h2 : r.archetypes.archetypes[(en.archetypeIndex env).toNat]? = some a := h2
    rw [h2] at q1; cases q1
    rw [← h3]
    exact q2

theorem Steps.moved_small {hist : List (Call × Outcome)} (hs : Steps env (Call.Admissible W) Registry.default hist r) {e : Entity}
    (he : Live env r e) (hmv : movedLast hist e = true) {s : List UInt16} {id : UInt32} (hh : Home env r e s id) : s.length ≤ 13 := by
  induction hs generalizing s id with
  | nil => cases hmv
  | snoc h1 h2 h3 ih =>
    rename_i hist r1 r2 call out
    have hr1 : Reachable W r1 := ⟨_, h1⟩
    have hr2 : Reachable W r2 := ⟨_, h1.snoc h2 h3⟩
    obtain ⟨cs1, hcs⟩ := hr1.inv
    obtain ⟨cs2, hst⟩ := hcs.step h2 h3
    have hl := hst.live hcs e
    obtain ⟨m1, m2, m3⟩ := movedLast_snoc hist (call, out) e
    simp only [] at m1 m2 m3
    by_cases hc : out.created = some e
    · rw [m1 hc] at hmv; cases hmv
    · have hbef : Live env r1 e ∧ out.vacated ≠ some e := by
        cases hc' : out.created with
        | some e' =>
          have ht := hst.table
          unfold TableStep at ht
          rw [hc'] at hl ht
          refine ⟨?_, fun hv => by rw [hv] at ht; exact ht⟩
          rcases hl.mp he with rfl | hx
          · exact absurd hc' hc
          · exact hx
        | none =>
          rw [hc'] at hl
          cases hv : out.vacated with
          | some e' =>
            rw [hv] at hl
            exact ⟨(hl.mp he).2, fun hx => (hl.mp he).1 (Option.some.inj hx).symm⟩
          | none => rw [hv] at hl; exact ⟨hl.mp he, fun hx => by cases hx⟩
      by_cases hm : call.moves e ∧ out.success = true
      · have hset := hh.set hr2
        obtain ⟨hm1, hm2⟩ := hm
        cases call with
        | add e' c v =>
          have hm1 : e = e' := hm1
          subst hm1
          cases hx : r1.addComponent env e c v with
          | error f => simp only [Call.run, hx] at h3; cases h3
          | ok x =>
            obtain ⟨r3, res⟩ := x
            cases res with
            | ok u =>
              rw [run_add_ok hx] at h3; cases h3
              exact add_small hr1 h2 hx hset
            | err w => rw [run_add_err hx] at h3; cases h3; cases hm2
        | remove e' c =>
          have hm1 : e = e' := hm1
          subst hm1
          cases hx : r1.removeComponent env e c with
          | error f => simp only [Call.run, hx] at h3; cases h3
          | ok x =>
            obtain ⟨r3, res⟩ := x
            cases res with
            | ok u =>
              rw [run_remove_ok hx] at h3; cases h3
              exact remove_small hr1 h2 hx hset
            | err w => rw [run_remove_err hx] at h3; cases h3; cases hm2
        | _ => exact hm1.elim
      · rw [m3 hc hm] at hmv
        obtain ⟨s', hh'⟩ := h1.home (W := W) (fun _ _ h => h) hbef.1
        have := (hh'.step (hst.place.stay e hc hbef.2 hm) hst.arch).set hr2
        rw [(hh.set hr2).unique this]
        exact ih hbef.1 hmv hh'

theorem stored_home {hist : List (Call × Outcome)} (hs : Steps env (Call.Admissible W) Registry.default hist r) {e : Entity}
    (he : Live env r e) {s : List UInt16} (hset : AscSet s (HasId W r e)) :
    ∃ k a, storedIn env r e = some k ∧ r.archetypes.archetypes[k.toNat]? = some a ∧ a.descriptor.ids = s ∧
      a.descriptor.len = s.length ∧ 1 ≤ s.length ∧ s.length ≤ 14 ∧ (movedLast hist e = true → s.length ≤ 13) ∧
      a.descriptor.archetypeId = if movedLast hist e then plainId env s else groupId env s := by
  have hr : Reachable W r := ⟨_, hs⟩
  obtain ⟨cs, h⟩ := hr.inv
  obtain ⟨s', hh⟩ := hs.home (W := W) (fun _ _ h => h) he
  obtain ⟨ai, a, h1, h2, h3, h4⟩ := id hh
  unfold Registry.archOf EntityRegistry.loc at h1
  cases hl : r.entities.entityEntry env e with
  | none => rw [hl] at h1; cases h1
  | some en =>
    rw [hl] at h1
    cases h1
    obtain ⟨a', q1, q2⟩ := (C29_storage_partial hr).2.2.1 e en hl
    have h2 : r.archetypes.archetypes[(en.archetypeIndex env).toNat]? = some a := h2
    rw [h2] at q1; cases q1
    have hids : a.descriptor.ids = s := q2.unique hset
    have e' : s' = s := h3.symm.trans hids
    subst e'
    obtain ⟨ct, _, hrep⟩ := h.arch.content h2
    refine ⟨_, a, by rw [storedIn, hl]; rfl, h2, hids, ?_, ?_, ?_, fun hm => hs.moved_small he hm hh, h4⟩
    all_goals
      have h1 := hrep.desc.wf.len_pos
      have h2 : a.descriptor.len ≤ 14 := hrep.desc.wf.len_le
      have h3 : a.descriptor.ids.length = a.descriptor.len := by
        unfold ArchetypeDescriptor.ids
        rw [List.length_map, hrep.desc.wf.components_length]
      rw [hids] at h3
      omega

theorem home_id {s : List UInt16} {m : Bool} (b : Bool) (h1 : 1 ≤ s.length) (h14 : s.length ≤ 14)
    (h13 : m = true ∨ b = true → s.length ≤ 13) :
    (if m then plainId env s else groupId env s) = (if b then plainId env s else groupId env s) ↔ m = b := by
  have h := ids_differ env s h1 h14
  cases m <;> cases b <;> simp only [Bool.false_eq_true, if_false, if_true, reduceCtorEq, iff_false, Bool.true_eq_false]
  · have := h13 (.inr rfl)
    exact fun hx => by have := h.mp hx; omega
  · have := h13 (.inl rfl)
    exact fun hx => by have := h.mp hx.symm; omega

/-- **C104** Two live entities with the same component set are stored in the same archetype exactly
if the last structural change of both was their creation, or of both `add_component` or `remove_component`. -/
theorem C104_apart {hist : List (Call × Outcome)} (hs : Steps env (Call.Admissible W) Registry.default hist r) {e e' : Entity}
    (he : Live env r e) (he' : Live env r e') {s : List UInt16} (hset : AscSet s (HasId W r e)) (hset' : AscSet s (HasId W r e')) :
    storedIn env r e = storedIn env r e' ↔ movedLast hist e = movedLast hist e' := by
  have hr : Reachable W r := ⟨_, hs⟩
  obtain ⟨cs, h⟩ := hr.inv
  obtain ⟨k, a, q1, q2, q3, q4, q5, q6, q8, q7⟩ := stored_home hs he hset
  obtain ⟨k', a', p1, p2, p3, p4, _, _, p8, p7⟩ := stored_home hs he' hset'
  have hsmall := fun hx : movedLast hist e = true ∨ movedLast hist e' = true => hx.elim q8 p8
  rw [q1, p1, ← home_id (env := env) _ q5 q6 hsmall, ← q7, ← p7]
  constructor
  · intro hk
    cases hk
    rw [q2] at p2; cases p2
    rfl
  · intro hid
    exact congrArg some (UInt16.toNat_inj.mp (h.arch.unique_index q2 p2 (q4.trans p4.symm) hid))

/-- **C104** (later) An entity that has the same component set at a later time is then stored where it was
exactly if its last structural changes before both times are of the same kind. -/
theorem C104_later {hist more : List (Call × Outcome)} (hs : Steps env (Call.Admissible W) Registry.default hist r)
    (hm : Steps env (Call.Admissible W) r more r') {e : Entity} (he : Live env r e) (he' : Live env r' e) {s : List UInt16}
    (hset : AscSet s (HasId W r e)) (hset' : AscSet s (HasId W r' e)) :
    storedIn env r' e = storedIn env r e ↔ movedLast (hist ++ more) e = movedLast hist e := by
  have hs' : Steps env (Call.Admissible W) Registry.default (hist ++ more) r' := hs.append hm
  obtain ⟨cs', h'⟩ := Reachable.inv (W := W) ⟨_, hs'⟩
  obtain ⟨cs, h⟩ := Reachable.inv (W := W) ⟨_, hs⟩
  obtain ⟨k, a, q1, q2, q3, q4, q5, q6, q8, q7⟩ := stored_home hs he hset
  obtain ⟨k', a', p1, p2, p3, p4, _, _, p8, p7⟩ := stored_home hs' he' hset'
  obtain ⟨b, b1, b2⟩ := hm.descriptors (W := W) (fun _ _ h => h) h q2
  have hsmall := fun hx : movedLast (hist ++ more) e = true ∨ movedLast hist e = true => hx.elim p8 q8
  rw [q1, p1, ← home_id (env := env) _ q5 q6 hsmall, ← q7, ← p7, ← b2]
  constructor
  · intro hk
    cases hk
    rw [b1] at p2; cases p2
    rfl
  · intro hid
    exact congrArg some (UInt16.toNat_inj.mp (h'.arch.unique_index p2 b1 (by rw [b2, p4, q4]) hid))

/-- **C104** (round trip) If a component is added and removed again, the entity is stored where it was only if an earlier
`add_component` or `remove_component` had put it there; a created entity ends up in another archetype. -/
theorem C104_round_trip {hist : List (Call × Outcome)} (hs : Steps env (Call.Admissible W) Registry.default hist r) {e : Entity}
    {c : CompTy} {v w : Val} (hadm : (Call.add e c v).Admissible W r) (hadd : r.addComponent env e c v = .ok (r', .ok ()))
    (hrem : r'.removeComponent env e c = .ok (r'', .ok w)) :
    storedIn env r'' e = storedIn env r e ↔ movedLast hist e = true := by
  have hr : Reachable W r := ⟨_, hs⟩
  have hrm := remove_admissible hr hadm hadd
  obtain ⟨_, _, he, _⟩ := add_ids hr hadm hadd
  obtain ⟨s, hset, _⟩ := Exists.elim hr.inv (fun _ h => h.ascSet he)
  have same := ((C16_add_remove_partial hr hadm hadd hset).1 _ _ hrem).2 e
  have hm : Steps env (Call.Admissible W) r ([] ++ [(Call.add e c v, { success := true, given := [v] })] ++
      [(Call.remove e c, { success := true, returned := [w] })]) r'' :=
    (Steps.nil.snoc hadm (run_add_ok hadd)).snoc hrm (run_remove_ok hrem)
  have hset' : AscSet s (HasId W r'' e) := by
    refine hset.congr fun i => ?_
    constructor
    · rintro ⟨c', h1, h2, h3⟩
      exact ⟨c', h1, h2, by rw [(same.2 c' h1).1]; exact h3⟩
    · rintro ⟨c', h1, h2, h3⟩
      exact ⟨c', h1, h2, by rw [← (same.2 c' h1).1]; exact h3⟩
  rw [C104_later hs hm he (same.1.mpr he) hset hset']
  have hml : movedLast (hist ++ ([] ++ [(Call.add e c v, { success := true, given := [v] })] ++
      [(Call.remove e c, { success := true, returned := [w] })])) e = true := by
    rw [← List.append_assoc]
    exact (movedLast_snoc _ _ e).2.1 (by simp) rfl rfl
  rw [hml]
  exact eq_comm

/-- **C104** (exact iteration) Exact iteration yields exactly the entities with exactly these
components whose last structural change was their creation. -/
theorem C104_exact {hist : List (Call × Outcome)} (hs : Steps env (Call.Admissible W) Registry.default hist r) {g : Group}
    (hg : W.OkGroup g) (hv : (g.descriptor env).isValid = true) :
    ∃ ents cols o, r.iterEntityComponentsExact env g = .ok (ents, cols) ∧ r.iterComponentsExact env g = .ok cols ∧
      r.iterEntityComponentsExactMut env g = .ok o ∧
      r.iterComponentsExactMut env g = .ok (o.map (fun x => (x.1, x.2.2))) ∧
      (∀ x, o = some x → x.2.1 = ents ∧ AlignedMut W r g x.1 x.2.1 x.2.2) ∧ (o = none → ents = []) ∧
      Aligned env r g ents cols ∧ ents.Nodup ∧
      ∀ e, e ∈ ents ↔ HasExactly W r e g ∧ movedLast hist e = false := by
  obtain ⟨ents, cols, o, h1, h2, h3, h4, h5, h6, h7, h8, h9⟩ := C34_exact_iteration_partial hs hg hv
  refine ⟨ents, cols, o, h1, h2, h3, h4, h5, h6, h7, h8, fun e => ?_⟩
  have hlen := ((C57_group_ids env g _ (Group.idSet_perm g) (Group.idSet_sorted g)).1.mp hv)
  rw [h9, eq_comm (a := plainId env g.idSet), ids_differ env _ hlen.1 hlen.2.1]
  refine and_congr_right fun he => ⟨fun h => ?_, .inl⟩
  rcases h with h | h
  · exact h
  · cases hm : movedLast hist e with
    | false => rfl
    | true =>
      have hset : AscSet g.idSet (HasId W r e) := by
        refine ⟨(List.Pairwise.and (Group.idSet_sorted g) hlen.2.2.1).imp (fun h => UInt16.lt_of_le_of_ne h.1 h.2), fun i => ?_⟩
        rw [(Group.idSet_perm g).mem_iff, List.mem_map]
        constructor
        · rintro ⟨c, hc, rfl⟩
          exact ⟨c, hg.has c hc, rfl, (he.2 c (hg.has c hc)).mpr hc⟩
        · rintro ⟨c, h1, rfl, h2⟩
          exact ⟨c, (he.2 c h1).mp h2, rfl⟩
      obtain ⟨_, _, _, _, _, _, _, _, q, _⟩ := stored_home hs he.1 hset
      have := q hm
      omega

/-! ## Examples -/

def loneA : CompTy := ⟨1, 20339, 1, 1⟩
def loneB : CompTy := ⟨2, 62381, 1, 1⟩
def loneC : CompTy := ⟨3, 5, 1, 1⟩

set_option maxRecDepth 100000 in
/-- **C104** (lone components, what a program sees) An entity with the components 62381 and 5 from which 5 is removed is put into
the archetype of component 20339 if an entity was created with this one: it has lost its component 62381, it appears to
have the component 20339, and reading that reads uninitialised memory. -/
theorem C104_lone_witness : ∃ r,
    (do let x ← Registry.default.createEntity exEnv [loneA] [⟨1, [7]⟩]
        let y ← x.1.createEntity exEnv [loneB, loneC] [⟨2, [8]⟩, ⟨3, [9]⟩]
        y.1.removeComponent exEnv (Entity.newUnchecked 1 0) loneC) = .ok (r, .ok ⟨3, [9]⟩) ∧
    r.hasComponent exEnv loneB (Entity.newUnchecked 1 0) = .ok false ∧
    r.hasComponent exEnv loneA (Entity.newUnchecked 1 0) = .ok true ∧
    r.getComponent exEnv loneA (Entity.newUnchecked 1 0) = .error (.ub .uninit) :=
  ⟨(okOr (Registry.default, .err ()) (do
      let x ← Registry.default.createEntity exEnv [loneA] [⟨1, [7]⟩]
      let y ← x.1.createEntity exEnv [loneB, loneC] [⟨2, [8]⟩, ⟨3, [9]⟩]
      y.1.removeComponent exEnv (Entity.newUnchecked 1 0) loneC)).1, by decide +kernel⟩

/-- `exCalls`; then the entity with `A` is given a `B` that is taken away again, and another is created with `A`. -/
def thCalls : List Call := exCalls ++ [.add exE2 exB exValB, .remove exE2 exB, .create [exA] [exValA]]

def thR : Registry := (okOr ([], Registry.default) (runCalls exEnv Registry.default thCalls)).2
def thOuts : List Outcome := (okOr ([], Registry.default) (runCalls exEnv Registry.default thCalls)).1

set_option maxRecDepth 100000 in
theorem thSteps : Steps exEnv (Call.Admissible exWorld) Registry.default (thCalls.zip thOuts) thR := by
  have := Steps.of_run (calls := thCalls) (ok := Call.Admissible exWorld)
    (fun r call hc => exCheck_ok (List.all_eq_true.mp (show thCalls.all exCheck = true by decide +kernel) call hc) r)
    Steps.nil (show runCalls exEnv Registry.default thCalls = .ok (thOuts, thR) by decide +kernel)
  simpa using this

set_option maxRecDepth 100000 in
/-- Two entities with the component `A` alone, of which exact iteration finds one. -/
example : storedIn exEnv thR exE2 ≠ storedIn exEnv thR (Entity.newUnchecked 3 0) ∧
    thR.hasComponent exEnv exA exE2 = .ok true ∧ thR.hasComponent exEnv exA (Entity.newUnchecked 3 0) = .ok true ∧
    thR.iterEntityComponentsExact exEnv [exA] = .ok ([Entity.newUnchecked 3 0], [[exValA]]) ∧
    movedLast (thCalls.zip thOuts) exE2 = true ∧ movedLast (thCalls.zip thOuts) (Entity.newUnchecked 3 0) = false := by
  refine ⟨?_, by decide +kernel, by decide +kernel, by decide +kernel, by decide +kernel, by decide +kernel⟩
  have ids : ∀ e, ([exA, exB, exC].filter (fun c => thR.hasComponent exEnv c e = .ok true)).map (fun c => c.id) = [10] →
      AscSet [10] (HasId exWorld thR e) := by
    intro e he
    refine ⟨by decide, fun i => ?_⟩
    rw [← he, List.mem_map]
    constructor
    · rintro ⟨c, h1, h2⟩
      obtain ⟨h1, h3⟩ := List.mem_filter.mp h1
      exact ⟨c, h1, h2, by simpa using h3⟩
    · rintro ⟨c, h1, h2, h3⟩
      exact ⟨c, List.mem_filter.mpr ⟨h1, by simpa using h3⟩, h2⟩
  intro h
  have := (C104_apart thSteps (e := exE2) (e' := Entity.newUnchecked 3 0) (s := [10]) (by unfold Live; decide +kernel)
    (by unfold Live; decide +kernel) (ids _ (by decide +kernel)) (ids _ (by decide +kernel))).mp h
  exact absurd this (by decide +kernel)

set_option maxRecDepth 100000 in
/-- The round trip of `exE2`, which was created with `A`, ends in another archetype. -/
example : ∃ r1 r2, exR.addComponent exEnv exE2 exB exValB = .ok (r1, .ok ()) ∧
    r1.removeComponent exEnv exE2 exB = .ok (r2, .ok exValB) ∧ storedIn exEnv r2 exE2 ≠ storedIn exEnv exR exE2 := by
  obtain ⟨r1, h1⟩ := exists_ok (show (exR.addComponent exEnv exE2 exB exValB).map Prod.snd = .ok (.ok ()) by decide +kernel)
  have h2 : (do let x ← exR.addComponent exEnv exE2 exB exValB; x.1.removeComponent exEnv exE2 exB).map Prod.snd = .ok (.ok exValB) := by
    decide +kernel
  rw [h1] at h2
  obtain ⟨r2, h3⟩ := exists_ok (x := r1.removeComponent exEnv exE2 exB) h2
  refine ⟨r1, r2, h1, h3, fun h => ?_⟩
  have := (C104_round_trip exSteps (exCheck_ok (by decide +kernel) _) h1 h3).mp h
  exact absurd this (by decide +kernel)

end Shard
