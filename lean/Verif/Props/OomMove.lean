import Verif.Proofs.OomMove
import Verif.Props.Oom
import Verif.Props.ComponentLimit
/-!
# C62: panics inside `add_component` and `remove_component`
-/

set_option autoImplicit false

namespace Shard

variable {env : Env} {W : World env} {r r' : Registry}

/-- The claim of **C62**: if `add_component` or `remove_component` panics and the caller catches the panic ("Panics in
case of allocation failure"), all entities read as before and the registry can still be dropped. -/
def C62_statement_reads : Prop :=
  ∀ (env : Env) (W : World env) (r : Registry), Reachable W r → ∀ (fail : Nat → Bool) (e : Entity) (c : CompTy) (v : Val)
    (r' : Registry),
    ((Call.add e c v).Admissible W r ∧ r.addComponentOom fail env e c v = .ok (r', none)) ∨
    ((Call.remove e c).Admissible W r ∧ r.removeComponentOom fail env e c = .ok (r', none)) →
    ∀ (x : Entity) (c' : CompTy), Live env r x → W.Has c' → r'.getComponent env c' x = r.getComponent env c' x

/-- Second half: the registry can be dropped. -/
def C62_statement_drop : Prop :=
  ∀ (env : Env) (W : World env) (r : Registry), Reachable W r → ∀ (fail : Nat → Bool) (e : Entity) (c : CompTy) (v : Val)
    (r' : Registry),
    ((Call.add e c v).Admissible W r ∧ r.addComponentOom fail env e c v = .ok (r', none)) ∨
    ((Call.remove e c).Admissible W r ∧ r.removeComponentOom fail env e c = .ok (r', none)) →
    ∃ dropped left, r'.drop = .ok (dropped, left)

/-- The registry after a failed move of `e` to the full archetype of the component ids `t`, when allocation number `k`
(0 for the entity handles, `i + 1` for the `i`-th component) was the first to fail while that archetype was grown. -/
structure FailedMove (W : World env) (r : Registry) (e : Entity) (t : List UInt16) (k : Nat) (r' : Registry) : Prop where
  /-- The same handles are live, -/
  live : ∀ x, Live env r' x ↔ Live env r x
  /-- with the same components. -/
  has : ∀ x c, r'.hasComponent env c x = r.hasComponent env c x
  /-- The entity itself now has the components of the entity in the last row of its archetype. -/
  self : ∃ ai a y, r.archOf env e = some ai ∧ r.archetypes.archetypes[ai]? = some a ∧
    a.entityAt (a.entityCount - 1) = .ok y ∧ ∀ c, W.Has c → r'.getComponent env c e = r.getComponent env c y
  /-- The column of the destination that could not be allocated is behind a null pointer; everything else is as it was. -/
  others : ∀ x, x ≠ e → ∀ c, W.Has c → r'.getComponent env c x =
    open Classical in if Home env r x t (plainId env t) ∧ k ≠ 0 ∧ t[k - 1]? = some c.id
      then .error (.ub .nullDeref) else r.getComponent env c x
  /-- The registry cannot be dropped. -/
  drop : ∃ u, r'.drop = .error (.ub u)

theorem HalfMoved.failed {cs : List Content} {e : Entity} {en : EntityEntry} {a a1 : Archetype} {ct : Content} {di : Nat}
    {b b' : Archetype} {ctD : Content} {k : Nat} {t : List UInt16}
    (h2 : HalfMoved W r cs e en a a1 ct di b b' ctD k r') (h : RInv W r cs) (hk : k ≤ t.length)
    (hbi : b.descriptor.ids = t) (hba : b.descriptor.archetypeId = plainId env t)
    (hids : ctD.cts.map (fun c => c.id) = t) : FailedMove W r e t k r' := by
  have hrD := h.arch.rep _ _ _ h2.dst h2.dstContent
  have hlen : ctD.cts.length = t.length := by rw [← hids, List.length_map]
  obtain ⟨y, y1, y2, y3⟩ := h2.last h
  refine ⟨h2.live h, fun x c => h2.has x c, ?_, ?_, h2.drop_ub h (by omega)⟩
  · refine ⟨_, a, y, ?_, h2.src, y2, fun c hc => h2.get_self h y3 hc⟩
    unfold Registry.archOf
    rw [EntityRegistry.loc_of_entry h2.entry]
    rfl
  · intro x hx c hc
    obtain ⟨q1, q2⟩ := h2.get_other h hx hc
    have hhome : Home env r x t (plainId env t) ↔ (r.entities.loc env x).map Prod.fst = some di := by
      constructor
      · rintro ⟨aj, b', w1, w2, w3, w4⟩
        obtain ⟨ct', _, hr'⟩ := h.arch.content w2
        have e1 := h.arch.unique_index w2 h2.dst
          (by rw [← hr'.desc.wf.ids_length, w3, ← hbi, hrD.desc.wf.ids_length]) (by rw [w4, hba])
        subst e1
        exact w1
      · intro hl
        exact ⟨di, b, hl, h2.dst, hbi, hba⟩
    have hcol : (∃ j, j + 1 = k ∧ ctD.cts[j]? = some c) ↔ k ≠ 0 ∧ t[k - 1]? = some c.id := by
      rw [← hids]
      constructor
      · rintro ⟨j, rfl, hj⟩
        refine ⟨by omega, ?_⟩
        rw [Nat.add_sub_cancel, List.getElem?_map, hj]
        rfl
      · rintro ⟨h0, hj⟩
        refine ⟨k - 1, by omega, ?_⟩
        rw [List.getElem?_map] at hj
        cases hx : ctD.cts[k - 1]? with
        | none => rw [hx] at hj; cases hj
        | some c' =>
          rw [hx] at hj
          rw [W.id_inj (hrD.desc.world_of hx) hc (Option.some.inj hj)]
    split
    · next hcond =>
      obtain ⟨w1, w2⟩ := hcond
      obtain ⟨j, w3, w4⟩ := hcol.mpr w2
      exact q1 j w3 w4 (hhome.mp w1)
    · next hcond =>
      exact q2 (fun j w3 w4 w5 => hcond ⟨hhome.mpr w5, hcol.mp ⟨j, w3, w4⟩⟩)

/-- **C62** (partial: exactly what happens), `add_component`. Let `s` be the component ids of the entity and `t` those it
is to have.
* For a handle that is not live, or an entity that has the component, no allocation is made.
* With 13 components the call panics and the registry is as it was.
* Otherwise, if the archetype for `t` neither has to be created nor grown, or none of the allocations for it fails, the
  call behaves as described elsewhere.
* If the archetype is missing and one of its allocations fails, the panic leaves the registry as it was.
* If it is full and an allocation fails while it is grown, the registry is as described by `FailedMove`: the handle `e`
  reads the components of another entity. -/
theorem C62_add_panic_partial (hr : Reachable W r) (fail : Nat → Bool) {e : Entity} {c : CompTy} {v : Val}
    (hadm : (Call.add e c v).Admissible W r) :
    (¬ (Live env r e ∧ r.hasComponent env c e = .ok false) →
      r.addComponentOom fail env e c v = (r.addComponent env e c v).map (fun x => (x.1, some x.2))) ∧
    (Live env r e → r.hasComponent env c e = .ok false → ∀ s t, AscSet s (HasId W r e) → AscSet t (WithId W r e c) →
      (s.length = 13 → r.addComponentOom fail env e c v = .ok (r, none)) ∧
      (s.length ≠ 13 → (s.length ≤ 12 → MissingIds env r t ∨ MustGrowIds env r t → ∀ k, k ≤ t.length → fail k = false) →
        r.addComponentOom fail env e c v = (r.addComponent env e c v).map (fun x => (x.1, some x.2))) ∧
      (s.length ≤ 12 → MissingIds env r t → (∃ k, k ≤ t.length ∧ fail k = true) →
        r.addComponentOom fail env e c v = .ok (r, none)) ∧
      (s.length ≤ 12 → MustGrowIds env r t → ∀ k, k ≤ t.length → fail k = true → (∀ j, j < k → fail j = false) →
        ∃ r', r.addComponentOom fail env e c v = .ok (r', none) ∧ FailedMove W r e t k r')) := by
  obtain ⟨cs, h⟩ := hr.inv
  have hW := hadm.1
  refine ⟨fun hno => h.addOom_idle hW (fun f hf => ?_), fun hl hn s t hs ht => ?_⟩
  · cases hfc : f c with
    | some v => rfl
    | none => exact absurd ⟨h.live_iff.mpr ⟨f, hf⟩, by rw [h.hasComponent_eq hW, hf]; simp [hfc]⟩ hno
  · obtain ⟨f, hf⟩ := h.live_iff.mp hl
    have hnone : f c = none := by
      rw [h.hasComponent_eq hW, hf] at hn
      simpa using hn
    refine ⟨fun h13 => h.addOom_limit hadm hf hnone hs h13, fun h13 hc => h.addOom_calm hadm hf hnone hs ht h13 hc,
      fun h12 hm hk => h.addOom_missing hadm hf hnone hs ht h12 hm hk, fun h12 hm k hk hfk hb => ?_⟩
    obtain ⟨r', en, a, a1, ct, di, b, b', ctD, w1, w2, w3, w4, w5⟩ := h.addOom_grow hadm hf hnone hs ht h12 hm hk hfk hb
    exact ⟨r', w1, w2.failed h hk w3 w4 w5⟩

/-- **C62** (partial: exactly what happens), `remove_component`; the limit is 14 components here. -/
theorem C62_remove_panic_partial (hr : Reachable W r) (fail : Nat → Bool) {e : Entity} {c : CompTy}
    (hadm : (Call.remove e c).Admissible W r) :
    (r.hasComponent env c e ≠ .ok true →
      r.removeComponentOom fail env e c = (r.removeComponent env e c).map (fun x => (x.1, some x.2))) ∧
    (r.hasComponent env c e = .ok true → ∀ s t, AscSet s (HasId W r e) → AscSet t (WithoutId W r e c) →
      (s.length = 14 → r.removeComponentOom fail env e c = .ok (r, none)) ∧
      (s.length ≠ 14 → (2 ≤ s.length → MissingIds env r t ∨ MustGrowIds env r t → ∀ k, k ≤ t.length → fail k = false) →
        r.removeComponentOom fail env e c = (r.removeComponent env e c).map (fun x => (x.1, some x.2))) ∧
      (2 ≤ s.length → s.length ≤ 13 → MissingIds env r t → (∃ k, k ≤ t.length ∧ fail k = true) →
        r.removeComponentOom fail env e c = .ok (r, none)) ∧
      (2 ≤ s.length → s.length ≤ 13 → MustGrowIds env r t → ∀ k, k ≤ t.length → fail k = true →
        (∀ j, j < k → fail j = false) →
        ∃ r', r.removeComponentOom fail env e c = .ok (r', none) ∧ FailedMove W r e t k r')) := by
  obtain ⟨cs, h⟩ := hr.inv
  have hW := hadm.1
  refine ⟨fun hno => h.removeOom_idle hW (fun f hf => ?_), fun hy s t hs ht => ?_⟩
  · cases hfc : f c with
    | none => rfl
    | some v => exact absurd ((h.has_iff hf hW).mpr (by rw [hfc]; rfl)) hno
  · cases hf : r.look env cs e with
    | none => rw [h.hasComponent_eq hW, hf] at hy; cases hy
    | some f =>
      have hsome := (h.has_iff hf hW).mp hy
      refine ⟨fun h14 => h.removeOom_limit hadm hf hsome hs h14, fun h14 hc => h.removeOom_calm hadm hf hsome hs ht h14 hc,
        fun h2 h13 hm hk => h.removeOom_missing hadm hf hsome hs ht h2 h13 hm hk, fun h2 h13 hm k hk hfk hb => ?_⟩
      obtain ⟨r', en, a, a1, ct, di, b, b', ctD, w1, w2, w3, w4, w5⟩ :=
        h.removeOom_grow hadm hf hsome hs ht h2 h13 hm hk hfk hb
      exact ⟨r', w1, w2.failed h hk w3 w4 w5⟩

/-! ## The counterexamples -/

def isOkM {α : Type} : M α → Bool
  | .ok _ => true
  | .error _ => false

/-- The ids of the full and of the missing archetypes, checked by computation. -/
def growCheck (env : Env) (r : Registry) (t : List UInt16) : Bool :=
  r.archetypes.archetypes.any (fun a => decide (a.descriptor.len = t.length) &&
    decide (a.descriptor.archetypeId = plainId env t) && decide (a.entityCount = a.capacity) &&
    decide (a.capacity < 8388608))

theorem growCheck_ok {env : Env} {r : Registry} {t : List UInt16} (h : growCheck env r t = true) : MustGrowIds env r t := by
  obtain ⟨a, ha, hx⟩ := List.any_eq_true.mp h
  simp only [Bool.and_eq_true, decide_eq_true_iff] at hx
  exact ⟨a, ha, hx.1.1.1, hx.1.1.2, hx.1.2, hx.2⟩

def missingCheck (env : Env) (r : Registry) (t : List UInt16) : Bool :=
  decide (plainId env t ≠ ARCHETYPE_ID_INVALID) && !r.archetypes.archetypes.any (fun a =>
    decide (a.descriptor.len = t.length) && decide (a.descriptor.archetypeId = plainId env t)) &&
    decide (r.archetypes.archetypes.length < 65534)

theorem missingCheck_ok {env : Env} {r : Registry} {t : List UInt16} (h : missingCheck env r t = true) :
    MissingIds env r t := by
  unfold missingCheck at h
  simp only [Bool.and_eq_true, decide_eq_true_iff, Bool.not_eq_true', List.any_eq_false, not_and] at h
  exact ⟨h.1.1, fun ⟨a, ha, h1, h2⟩ => h.1.2 a ha h1 h2, h.2⟩

/-- Two component types of one byte each, and all their combinations. -/
def exTypesMv : List CompTy := exTs 2
def exSetsMv : List (List UInt16) := [[1], [2], [1, 2]]
def exWorldMv : World exEnv := World.ofLists exEnv exTypesMv exSetsMv (by decide +kernel)

/-- Another value of the first type. -/
def exValT' : Val := ⟨1, [77]⟩

/-- The last two of 130 entities. -/
def exE129 : Entity := Entity.newUnchecked 128 0
def exE130 : Entity := Entity.newUnchecked 129 0

/-- 128 entities created with the first component and given the second, and two more with the first. -/
def exMoveCalls : List Call :=
  (List.range 128).flatMap (fun i => [.create [exT 1] [exValT 1],
    .add (Entity.newUnchecked (UInt32.ofNat i) 0) (exT 2) (exValT 2)]) ++
    [.create [exT 1] [exValT 1], .create [exT 1] [exValT']]
def exMoveR : Registry := runTo exEnv exTypesMv exSetsMv exMoveCalls

/-- The registry after an attempt to add the second component to the first of the two, when no memory could be had for
the column of the first component in the full archetype. -/
def exMoveR' : Registry :=
  (okOr (exMoveR, none) (exMoveR.addComponentOom (fun k => k == 1) exEnv exE129 (exT 2) (exValT 2))).1

set_option maxRecDepth 100000 in
/-- What happens: both handles now read the value of the second entity; the first of the 128 cannot be read any more; the
registry cannot be dropped. -/
theorem C62_add_witness :
    (exMoveR.addComponentOom (fun k => k == 1) exEnv exE129 (exT 2) (exValT 2)).map (fun x => x.2) = .ok none ∧
    exMoveR.getComponent exEnv (exT 1) exE129 = .ok (some (exValT 1)) ∧
    exMoveR.getComponent exEnv (exT 1) exE130 = .ok (some exValT') ∧
    exMoveR'.getComponent exEnv (exT 1) exE129 = .ok (some exValT') ∧
    exMoveR'.getComponent exEnv (exT 1) exE130 = .ok (some exValT') ∧
    exMoveR.getComponent exEnv (exT 1) exE1 = .ok (some (exValT 1)) ∧
    exMoveR'.getComponent exEnv (exT 1) exE1 = .error (.ub .nullDeref) ∧
    exMoveR'.drop = .error (.ub .nullDeref) ∧ exE129 ∈ exMoveR.iterEntities exEnv ∧
    (runChecked exEnv exTypesMv exSetsMv Registry.default exMoveCalls).isSome = true ∧
    addCheck exEnv exTypesMv exSetsMv exMoveR exE129 (exT 2) (exValT 2) [1, 2] = true ∧
    growCheck exEnv exMoveR [1, 2] = true ∧ missingCheck exEnv exMoveR [2] = true ∧
    ascCheck [1] (idsOf exEnv exTypesMv exMoveR exE129) = true ∧
    ascCheck [1, 2] (2 :: idsOf exEnv exTypesMv exMoveR exE129) = true ∧
    exMoveR.hasComponent exEnv (exT 2) exE129 = .ok false := by decide +kernel

theorem exMoveReachable : Reachable exWorldMv exMoveR := runTo_reachable C62_add_witness.2.2.2.2.2.2.2.2.2.1

theorem exMoveAdmissible : (Call.add exE129 (exT 2) (exValT 2)).Admissible exWorldMv exMoveR :=
  addCheck_ok C62_add_witness.2.2.2.2.2.2.2.2.2.2.1

/-- 128 entities with both components, of which each is left the first, and two more with both. -/
def exBackCalls : List Call :=
  (List.range 128).flatMap (fun i => [.create (exTs 2) (exValTs 2), .remove (Entity.newUnchecked (UInt32.ofNat i) 0) (exT 2)]) ++
    [.create (exTs 2) (exValTs 2), .create (exTs 2) [exValT', exValT 2]]
def exBackR : Registry := runTo exEnv exTypesMv exSetsMv exBackCalls

/-- The registry after an attempt to remove the second component from the first of the two, when no memory could be had
for the entity handles of the full archetype. -/
def exBackR' : Registry := (okOr (exBackR, none) (exBackR.removeComponentOom (fun k => k == 0) exEnv exE129 (exT 2))).1

set_option maxRecDepth 100000 in
/-- What happens: both handles now read the value of the second entity, and the registry cannot be dropped. -/
theorem C62_remove_witness :
    (exBackR.removeComponentOom (fun k => k == 0) exEnv exE129 (exT 2)).map (fun x => x.2) = .ok none ∧
    exBackR.getComponent exEnv (exT 1) exE129 = .ok (some (exValT 1)) ∧
    exBackR'.getComponent exEnv (exT 1) exE129 = .ok (some exValT') ∧
    exBackR'.getComponent exEnv (exT 1) exE130 = .ok (some exValT') ∧ isOkM exBackR'.drop = false ∧
    exE129 ∈ exBackR.iterEntities exEnv ∧
    (runChecked exEnv exTypesMv exSetsMv Registry.default exBackCalls).isSome = true ∧
    removeCheck exEnv exTypesMv exSetsMv exBackR exE129 (exT 2) [1] = true ∧
    growCheck exEnv exBackR [1] = true ∧ exBackR.hasComponent exEnv (exT 2) exE129 = .ok true ∧
    ascCheck [1] ((idsOf exEnv exTypesMv exBackR exE129).filter (fun i => decide (i ≠ (exT 2).id))) = true := by
  decide +kernel

theorem exBackReachable : Reachable exWorldMv exBackR := runTo_reachable C62_remove_witness.2.2.2.2.2.2.1

theorem exBackAdmissible : (Call.remove exE129 (exT 2)).Admissible exWorldMv exBackR :=
  removeCheck_ok C62_remove_witness.2.2.2.2.2.2.2.1

theorem okOr_fst_of {α : Type} {r : Registry} {m : M (Registry × Option α)} (h : m.map (fun x => x.2) = .ok none) :
    m = .ok ((okOr (r, none) m).1, none) := by
  cases m with
  | error f => cases h
  | ok x =>
    obtain ⟨a, b⟩ := x
    cases h
    rfl

/-- **C62 is false**, first half: an entity reads the component of another. -/
theorem C62_reads_violated : ¬ C62_statement_reads := by
  intro h
  obtain ⟨h1, h2, _, h4, _, _, _, _, h9, _⟩ := C62_add_witness
  have := h exEnv exWorldMv exMoveR exMoveReachable _ exE129 (exT 2) (exValT 2) exMoveR'
    (Or.inl ⟨exMoveAdmissible, okOr_fst_of h1⟩) exE129 (exT 1) h9 (by show exT 1 ∈ exTs 2; decide)
  rw [h2, h4] at this
  cases this

/-- **C62 is false**, second half: the registry cannot be dropped. -/
theorem C62_drop_violated : ¬ C62_statement_drop := by
  intro h
  obtain ⟨h1, _, _, _, _, _, _, h8, _⟩ := C62_add_witness
  obtain ⟨d, l, hd⟩ := h exEnv exWorldMv exMoveR exMoveReachable _ exE129 (exT 2) (exValT 2) exMoveR'
    (Or.inl ⟨exMoveAdmissible, okOr_fst_of h1⟩)
  rw [h8] at hd
  cases hd

/-- `remove_component` falsifies it as well. -/
theorem C62_remove_violated : ¬ C62_statement_reads ∧ ¬ C62_statement_drop := by
  obtain ⟨h1, h2, h3, _, h5, h6, _⟩ := C62_remove_witness
  refine ⟨fun h => ?_, fun h => ?_⟩
  · have := h exEnv exWorldMv exBackR exBackReachable _ exE129 (exT 2) (exValT 2) exBackR'
      (Or.inr ⟨exBackAdmissible, okOr_fst_of h1⟩) exE129 (exT 1) h6 (by show exT 1 ∈ exTs 2; decide)
    rw [h2, h3] at this
    cases this
  · obtain ⟨d, l, hd⟩ := h exEnv exWorldMv exBackR exBackReachable _ exE129 (exT 2) (exValT 2) exBackR'
      (Or.inr ⟨exBackAdmissible, okOr_fst_of h1⟩)
    rw [hd] at h5
    cases h5

/-- The cases of the theorems occur: in `exMoveR` the archetype of both components must grow and that of the second is
missing; in `exBackR` that of the first must grow. (`exRT` has entities with 13 and 14 components.) -/
example : MustGrowIds exEnv exMoveR [1, 2] ∧ MissingIds exEnv exMoveR [2] ∧
    AscSet [1] (HasId exWorldMv exMoveR exE129) ∧ AscSet [1, 2] (WithId exWorldMv exMoveR exE129 (exT 2)) ∧
    exMoveR.hasComponent exEnv (exT 2) exE129 = .ok false ∧
    MustGrowIds exEnv exBackR [1] ∧ exBackR.hasComponent exEnv (exT 2) exE129 = .ok true ∧
    AscSet [1] (WithoutId exWorldMv exBackR exE129 (exT 2)) := by
  obtain ⟨_, _, _, _, _, _, _, _, _, _, _, h1, h2, h3, h4, h5⟩ := C62_add_witness
  obtain ⟨_, _, _, _, _, _, _, _, g1, g2, g3⟩ := C62_remove_witness
  exact ⟨growCheck_ok h1, missingCheck_ok h2, ids_check h3, withId_check h4, h5, growCheck_ok g1, g2, withoutId_check g3⟩

end Shard
