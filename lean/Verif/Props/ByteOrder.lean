import Verif.Proofs.ByteOrder
/-!
# C80: the byte order of the machine

Archetype ids are hashes of the bytes of component ids, in the byte order of the machine (`to_ne_bytes`). A program sees
nothing of that but the order in which archetypes are visited.
-/

set_option autoImplicit false

namespace Shard

variable {env env' : Env} {W : World env} {W' : World env'}

/-- **C80** The same program on two machines, of possibly different byte order, build profile and allocator: every sequence
of calls that satisfies the assumptions on one satisfies them on the other, has the same outcomes call by call (the same
handles, values and refusals), and ends alike: both runs stop with the same fault, or the registries answer every query
alike, iterators over several archetypes up to the order of the archetypes. -/
theorem C80_byte_order (P : SameProgram W W') {calls : List Call} (h : OkRun W Registry.default calls)
    (hf : ∀ c ∈ calls, c.OrderFree) :
    OkRun W' Registry.default calls ∧
      (runAll env' Registry.default calls).1 = (runAll env Registry.default calls).1 ∧
      EndAlike W env' (runAll env Registry.default calls).2 (runAll env' Registry.default calls).2 :=
  order_run P (RRel.empty W) (RRel.empty W') h hf

/-- The other byte order. -/
def exBig : Env := { exEnv with bigEndian := !exEnv.bigEndian }

/-- `exWorld` on the other machine. -/
def exWorldBig : World exBig :=
  .ofLists exBig [exA, exB, exC] [[10], [20], [30], [10, 20], [10, 30], [20, 30], [10, 20, 30]] (by decide +kernel)

theorem exSameProgram : SameProgram exWorld exWorldBig where
  has := fun _ => Iff.rfl
  used := fun _ => Iff.rfl
  kinds := fun s hs => (show ∀ s ∈ ([[10], [20], [30], [10, 20], [10, 30], [20, 30], [10, 20, 30]] : List (List UInt16)),
    (Spec.groupId exBig.bigEndian s = Spec.movedId exBig.bigEndian s ↔
      Spec.groupId exEnv.bigEndian s = Spec.movedId exEnv.bigEndian s) by decide +kernel) s hs
  created := by
    intro s h1 h2
    by_cases hn : s = []
    · subst hn; exact iff_of_eq (congrArg (· = 2 ^ 32 - 1) rfl)
    · have hs : exWorld.Used s := exUsed h1 hn (fun i hi => by obtain ⟨c, hc, rfl⟩ := h2 i hi; exact exHas_id hc)
      exact (show ∀ s ∈ ([[10], [20], [30], [10, 20], [10, 30], [20, 30], [10, 20, 30]] : List (List UInt16)),
        (Spec.groupId exBig.bigEndian s = 2 ^ 32 - 1 ↔ Spec.groupId exEnv.bigEndian s = 2 ^ 32 - 1) by decide +kernel) s hs
  changed := fun s hs => (show ∀ s ∈ ([[10], [20], [30], [10, 20], [10, 30], [20, 30], [10, 20, 30]] : List (List UInt16)),
    (Spec.movedId exBig.bigEndian s = 2 ^ 32 - 1 ↔ Spec.movedId exEnv.bigEndian s = 2 ^ 32 - 1) by decide +kernel) s hs

/-- The hypotheses hold for `exCalls2` on a little-endian and a big-endian machine; the outcomes, computed on both. -/
example : exEnv.bigEndian ≠ exBig.bigEndian ∧ SameProgram exWorld exWorldBig ∧ OkRun exWorld Registry.default exCalls2 ∧
    ∀ c ∈ exCalls2, c.OrderFree := by
  refine ⟨by decide, exSameProgram, exOkRun _ (by decide +kernel), ?_⟩
  intro c hc
  simp only [exCalls2, exCalls, List.mem_append, List.mem_cons, List.not_mem_nil, or_false] at hc
  rcases hc with (rfl | rfl | rfl | rfl | rfl | rfl) | (rfl | rfl | rfl | rfl | rfl | rfl | rfl | rfl | rfl) <;> trivial

set_option maxRecDepth 100000 in
example : (runAll exBig Registry.default exCalls2).1.map (fun o => o.success) =
      [true, true, true, true, true, true, true, false, true, true, false, false, true, false, true] ∧
    (runAll exBig Registry.default exCalls2).2.map (fun r => r.iterEntities exBig) =
      .ok [exE2, exE4, Entity.newUnchecked 3 0] := by
  decide +kernel

/-- Two entities with two components each. -/
def exTwoPairs : List Call := [.create [exA, exB] [exValA, exValB], .create [exB, exC] [exValB, exValC]]

set_option maxRecDepth 100000 in
/-- **C80** The exception is needed: two entities with the components `A`, `B` and `B`, `C`; the iterator over `B` visits the
archetype of the first before that of the second on a little-endian machine, and the other way round on a big-endian one. -/
theorem C80_order_differs : ∃ r r', (runAll exEnv Registry.default exTwoPairs).2 = .ok r ∧
    (runAll exBig Registry.default exTwoPairs).2 = .ok r' ∧
    r.iterEntityComponentsMatching exEnv [exB] = .ok [(0, [Entity.newUnchecked 0 0], [[exValB]]), (1, [Entity.newUnchecked 1 0], [[exValB]])] ∧
    r'.iterEntityComponentsMatching exBig [exB] = .ok [(1, [Entity.newUnchecked 1 0], [[exValB]]), (0, [Entity.newUnchecked 0 0], [[exValB]])] := by
  have h1 : (runAll exEnv Registry.default exTwoPairs).2.bind (fun r => r.iterEntityComponentsMatching exEnv [exB]) =
      .ok [(0, [Entity.newUnchecked 0 0], [[exValB]]), (1, [Entity.newUnchecked 1 0], [[exValB]])] := by decide +kernel
  have h2 : (runAll exBig Registry.default exTwoPairs).2.bind (fun r => r.iterEntityComponentsMatching exBig [exB]) =
      .ok [(1, [Entity.newUnchecked 1 0], [[exValB]]), (0, [Entity.newUnchecked 0 0], [[exValB]])] := by decide +kernel
  cases hr : (runAll exEnv Registry.default exTwoPairs).2 with
  | error f => rw [hr] at h1; cases h1
  | ok r =>
    cases hr' : (runAll exBig Registry.default exTwoPairs).2 with
    | error f => rw [hr'] at h2; cases h2
    | ok r' =>
      rw [hr] at h1
      rw [hr'] at h2
      exact ⟨r, r', rfl, rfl, h1, h2⟩

end Shard
