import Verif.Proofs.Oom
import Verif.Props.Violations
/-!
# C61: allocation failures inside `create_entity`
-/

set_option autoImplicit false

namespace Shard

variable {env : Env} {W : World env} {r r' : Registry}

/-- First half of the claim of **C61**: if an allocation fails inside `create_entity` and the caller catches the panic
("Panics in case of allocation failure"), the registry can still be dropped. -/
def C61_statement_drop : Prop :=
  ∀ (env : Env) (W : World env) (r : Registry), Reachable W r → ∀ (fail : Nat → Bool) (g : Group) (vals : List Val)
    (r' : Registry), W.OkGroup g → TypedVals g vals → r.createEntityOom fail env g vals = .ok (r', none) →
    ∃ dropped left, r'.drop = .ok (dropped, left)

/-- Second half: the entities that were there can be read as before. -/
def C61_statement_reads : Prop :=
  ∀ (env : Env) (W : World env) (r : Registry), Reachable W r → ∀ (fail : Nat → Bool) (g : Group) (vals : List Val)
    (r' : Registry), W.OkGroup g → TypedVals g vals → r.createEntityOom fail env g vals = .ok (r', none) →
    ∀ (x : Entity) (c : CompTy), Live env r x → W.Has c → r'.getComponent env c x = r.getComponent env c x

/-- **C61** (partial: exactly what happens) Let `g` be a valid group.
* If no archetype has to be allocated or grown, or none of the allocations for it (number 0 for the entity handles,
  number `i + 1` for the `i`-th component in ascending order of ids) fails, `create_entity` behaves as described elsewhere.
* If the archetype is missing and one of its allocations fails, the panic leaves the registry as it was.
* If the archetype is full and allocation number `k` is the first to fail while it is grown, the panic unwinds out of a
  registry in which a new handle `e`, which the caller never gets, is live and has the components of `g`, but reading any
  of them (of positive size) is undefined behaviour; in which the component belonging to number `k` of every entity in the
  archetype is behind a null pointer, while everything else is as before; and which cannot be dropped without undefined
  behaviour. -/
theorem C61_allocation_failure_partial (hr : Reachable W r) (fail : Nat → Bool) {g : Group} (hg : W.OkGroup g)
    (hv : (g.descriptor env).isValid = true) (vals : List Val) :
    ((Missing env r g ∨ MustGrow env r g → ∀ k, k ≤ g.length → fail k = false) →
      r.createEntityOom fail env g vals = (r.createEntity env g vals).map (fun x => (x.1, some x.2))) ∧
    (Missing env r g → (∃ k, k ≤ g.length ∧ fail k = true) → r.createEntityOom fail env g vals = .ok (r, none)) ∧
    (MustGrow env r g → ∀ k, k ≤ g.length → fail k = true → (∀ j, j < k → fail j = false) → ∃ r' e,
      r.createEntityOom fail env g vals = .ok (r', none) ∧
      ¬ Live env r e ∧ (∀ x, Live env r' x ↔ x = e ∨ Live env r x) ∧
      (∀ c, W.Has c → r'.hasComponent env c e = .ok (decide (c ∈ g))) ∧
      (∀ c, c ∈ g → 0 < c.size → ∃ u, r'.getComponent env c e = .error (.ub u)) ∧
      (∀ x, x ≠ e → ∀ c, W.Has c → r'.hasComponent env c x = r.hasComponent env c x ∧
        r'.getComponent env c x =
          open Classical in if Home env r x g.idSet (groupId env g.idSet) ∧ k ≠ 0 ∧ g.idSet[k - 1]? = some c.id
            then .error (.ub .nullDeref) else r.getComponent env c x) ∧
      ∃ u, r'.drop = .error (.ub u)) := by
  obtain ⟨cs, h⟩ := hr.inv
  refine ⟨fun hc => h.createOom_calm hg hv hc, fun hm hf => h.createOom_missing hg hv hm hf, fun hm k hk hf hb => ?_⟩
  have gs := Group.spec hv
  have hmem : ∀ c, c ∈ g.cts env ↔ c ∈ g := fun c => gs.mem_cts hg
  obtain ⟨r', e, ai, a, a', ct, h1, h2⟩ := h.createOom_grow hg hv (vals := vals) hm hk hf hb
  have hids : ct.cts.map (fun c => c.id) = g.idSet := by
    rw [h2.cts, ← gs.ids_eq, (Group.descOK (W := W) hg hv).ids_eq]
  have hlen : ct.cts.length = g.length := by rw [h2.cts]; exact (Group.cts_perm gs hg.has).1
  refine ⟨r', e, h1, ?_, ?_, ?_, ?_, ?_, h2.drop_ub h (by omega)⟩
  · rw [h.live_entry, h2.dead]; simp
  · intro x
    have hl : Live env r' x ↔ ∃ en, r'.entities.entityEntry env x = some en := mem_iter h2.inv
    rw [hl, h.live_entry]
    by_cases hx : x = e
    · subst hx
      obtain ⟨en, he, _⟩ := EntityRegistry.entry_of_loc h2.entry
      exact ⟨fun _ => Or.inl rfl, fun _ => ⟨en, he⟩⟩
    · rw [h2.others x hx]
      simp [hx]
  · intro c hc
    rw [h2.has_new hc]
    congr 1
    rw [decide_eq_decide, h2.cts]
    exact hmem c
  · intro c hc hs
    exact h2.get_new (hg.has c hc) (by rw [h2.cts, hmem]; exact hc) hs
  · intro x hx c hc
    refine ⟨h2.has_other hx c, ?_⟩
    obtain ⟨q1, q2⟩ := h2.get_other h hx hc
    have hhome : Home env r x g.idSet (groupId env g.idSet) ↔ (r.entities.loc env x).map Prod.fst = some ai := by
      have had : a.descriptor.ids = g.idSet := by rw [h2.rep.desc.ids_eq, hids]
      constructor
      · rintro ⟨aj, b', w1, w2, w3, w4⟩
        obtain ⟨ct', _, hr'⟩ := h.arch.content w2
        have e1 := h.arch.unique_index w2 h2.arch
          (by rw [← hr'.desc.wf.ids_length, w3, ← had, h2.rep.desc.wf.ids_length]) (by rw [w4, h2.id])
        subst e1
        exact w1
      · intro hl
        exact ⟨ai, a, hl, h2.arch, had, h2.id⟩
    have hcol : (∃ j, j + 1 = k ∧ ct.cts[j]? = some c) ↔ k ≠ 0 ∧ g.idSet[k - 1]? = some c.id := by
      rw [← hids]
      constructor
      · rintro ⟨j, rfl, hj⟩
        refine ⟨by omega, ?_⟩
        rw [Nat.add_sub_cancel, List.getElem?_map, hj]
        rfl
      · rintro ⟨h0, hj⟩
        refine ⟨k - 1, by omega, ?_⟩
        rw [List.getElem?_map] at hj
        cases hx : ct.cts[k - 1]? with
        | none => rw [hx] at hj; cases hj
        | some c' =>
          rw [hx] at hj
          rw [W.id_inj (h2.rep.desc.world_of hx) hc (Option.some.inj hj)]
    split
    · next hcond =>
      obtain ⟨w1, w2⟩ := hcond
      obtain ⟨j, w3, w4⟩ := hcol.mpr w2
      exact q1 j w3 w4 (hhome.mp w1)
    · next hcond =>
      exact q2 (fun j w3 w4 w5 => hcond ⟨hhome.mpr w5, hcol.mp ⟨j, w3, w4⟩⟩)

/-! ## The counterexample -/

/-- 128 entities with an `A` each: the archetype is full. -/
def exFullCalls : List Call := List.replicate 128 (.create [exA] [exValA])
def exFullR : Registry := (okOr ([], Registry.default) (runCalls exEnv Registry.default exFullCalls)).2
def exFullOuts : List Outcome := (okOr ([], Registry.default) (runCalls exEnv Registry.default exFullCalls)).1

set_option maxRecDepth 100000 in
theorem exFullReachable : Reachable exWorld exFullR := by
  refine ⟨exFullCalls.zip exFullOuts, ?_⟩
  have := Steps.of_run (calls := exFullCalls) (ok := Call.Admissible exWorld)
    (fun r call hc => exCheck_ok (List.all_eq_true.mp (show exFullCalls.all exCheck = true by decide +kernel) call hc) r)
    Steps.nil (show runCalls exEnv Registry.default exFullCalls = .ok (exFullOuts, exFullR) by decide +kernel)
  simpa using this

/-- The registry after a creation during which the memory for the column of `A` could not be had. -/
def exFullR' : Registry := (okOr (exFullR, none) (exFullR.createEntityOom (fun k => k == 1) exEnv [exA] [exValA])).1

set_option maxRecDepth 100000 in
/-- What happens: the first entity cannot be read any more, and the registry cannot be dropped. -/
theorem C61_witness :
    exFullR.createEntityOom (fun k => k == 1) exEnv [exA] [exValA] = .ok (exFullR', none) ∧
    exFullR.getComponent exEnv exA exE1 = .ok (some exValA) ∧
    exFullR'.getComponent exEnv exA exE1 = .error (.ub .nullDeref) ∧
    exFullR'.drop = .error (.ub .nullDeref) ∧ (exFullR.iterEntities exEnv).length = 128 ∧
    (exFullR'.iterEntities exEnv).length = 129 ∧ (exFullR.iterEntities exEnv).head? = some exE1 := by decide +kernel

theorem exOkA : exWorld.OkGroup [exA] ∧ TypedVals [exA] [exValA] := by
  have h := exCheck_ok (call := .create [exA] [exValA]) (by decide) Registry.default
  exact ⟨h.2 (by decide +kernel), h.1⟩

/-- **C61 is false**, first half: the registry cannot be dropped. -/
theorem C61_drop_violated : ¬ C61_statement_drop := by
  intro h
  obtain ⟨d, l, hd⟩ := h exEnv exWorld exFullR exFullReachable _ [exA] [exValA] _ exOkA.1 exOkA.2 C61_witness.1
  rw [C61_witness.2.2.2.1] at hd
  cases hd

/-- **C61 is false**, second half: another entity cannot be read. -/
theorem C61_reads_violated : ¬ C61_statement_reads := by
  intro h
  obtain ⟨h1, h2, h3, _, _, _, h7⟩ := C61_witness
  have := h exEnv exWorld exFullR exFullReachable _ [exA] [exValA] _ exOkA.1 exOkA.2 h1 exE1 exA
    (List.mem_of_head? h7) (by show exA ∈ [exA, exB, exC]; decide)
  rw [h2, h3] at this
  cases this

set_option maxRecDepth 100000 in
/-- The three cases of `C61_allocation_failure_partial` occur: in `exFullR` the archetype of `A` must grow, in the empty
registry it is missing. -/
example : MustGrow exEnv exFullR [exA] ∧ Missing exEnv Registry.default [exA] := by
  have hs : Group.idSet [exA] = [exA.id] := by simp [Group.idSet]
  unfold MustGrow Missing HasArchetype
  rw [hs]
  refine ⟨⟨?_, by decide +kernel⟩, by simp [Registry.default, ArchetypeRegistry.default], by decide⟩
  have : exFullR.archetypes.archetypes.any (fun a => a.descriptor.len == 1 && (a.descriptor.archetypeId == groupId exEnv [exA.id]) &&
    (a.entityCount == a.capacity) && decide (a.capacity < 8388608)) = true := by decide +kernel
  obtain ⟨a, ha, hx⟩ := List.any_eq_true.mp this
  simp only [Bool.and_eq_true, beq_iff_eq, decide_eq_true_iff] at hx
  exact ⟨a, ha, hx.1.1.1, hx.1.1.2, hx.1.2, hx.2⟩

end Shard
