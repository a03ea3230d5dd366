import Verif.Proofs.RenamingStep
import Verif.Props.ByteOrder
/-!
# C88: the names of components

The id of a component type comes from its `NAME` (`component.rs:15`); archetype ids are hashes of these ids. A program sees
nothing of the names but the order in which archetypes are visited and the order in which the components of an entity are
dropped.
-/

set_option autoImplicit false

namespace Shard

variable {env env' : Env} {ρ : Renaming} {W : World env} {W' : World env'}

/-- **C88** Two programs, on whatever machines, that differ in the component ids only: every sequence of calls that
satisfies the assumptions in one satisfies them in the other, has the same outcomes call by call (the same handles, values
and refusals; the values a call drops may come in another order), and ends alike: both runs stop with the same fault, or
the registries answer every query alike, iterators over several archetypes up to the order of the archetypes. -/
theorem C88_names (P : RenamedProgram ρ W W') {calls : List Call} (h : OkRun W Registry.default calls)
    (hf : ∀ c ∈ calls, c.OrderFree) :
    OkRun W' Registry.default (calls.map (Call.ren ρ)) ∧
      SameOutcomes (runAll env' Registry.default (calls.map (Call.ren ρ))).1 (runAll env Registry.default calls).1 ∧
      RenamedEnd ρ W env' (runAll env Registry.default calls).2
        (runAll env' Registry.default (calls.map (Call.ren ρ))).2 :=
  ren_run P (RRel.empty W) (RRel.empty W') h hf

/-- Exchange two ids. -/
def Renaming.swap (a b : UInt16) : Renaming where
  to i := if i = a then b else if i = b then a else i
  back i := if i = a then b else if i = b then a else i
  back_to i := by
    by_cases h1 : i = a
    · subst h1
      by_cases h2 : b = i
      · subst h2; simp
      · simp [h2]
    · by_cases h2 : i = b
      · subst h2; simp [h1]
      · simp [h1, h2]
  to_back i := by
    by_cases h1 : i = a
    · subst h1
      by_cases h2 : b = i
      · subst h2; simp
      · simp [h2]
    · by_cases h2 : i = b
      · subst h2; simp [h1]
      · simp [h1, h2]

/-- One renaming after another. -/
def Renaming.comp (ρ σ : Renaming) : Renaming where
  to i := σ.to (ρ.to i)
  back i := ρ.back (σ.back i)
  back_to i := by rw [σ.back_to, ρ.back_to]
  to_back i := by rw [ρ.to_back, σ.to_back]

/-- **C88** (any ids) Whatever distinct ids the component types of a program have in two versions of it, there is a renaming
from the ones to the others. -/
theorem C88_renaming_exists : ∀ {l l' : List UInt16}, l.Nodup → l'.Nodup → l.length = l'.length →
    ∃ ρ : Renaming, l.map ρ.to = l'
  | [], [], _, _, _ => ⟨⟨id, id, fun _ => rfl, fun _ => rfl⟩, rfl⟩
  | a :: l, a' :: l', h, h', hl => by
    obtain ⟨h1, h2⟩ := List.nodup_cons.mp h
    obtain ⟨h1', h2'⟩ := List.nodup_cons.mp h'
    obtain ⟨ρ, hρ⟩ := C88_renaming_exists h2 h2' (by simpa using hl)
    refine ⟨ρ.comp (Renaming.swap (ρ.to a) a'), ?_⟩
    rw [List.map_cons]
    have ha : (ρ.comp (Renaming.swap (ρ.to a) a')).to a = a' := by simp [Renaming.comp, Renaming.swap]
    have hrest : l.map (ρ.comp (Renaming.swap (ρ.to a) a')).to = l' := by
      rw [← hρ]
      refine List.map_congr_left (fun i hi => ?_)
      have n1 : ρ.to i ≠ ρ.to a := fun hx => h1 (by rw [← ρ.inj hx]; exact hi)
      have n2 : ρ.to i ≠ a' := fun hx => h1' (by rw [← hρ, ← hx]; exact List.mem_map.mpr ⟨i, hi, rfl⟩)
      simp [Renaming.comp, Renaming.swap, n1, n2]
    rw [ha, hrest]
  | [], _ :: _, _, _, hl => by cases hl
  | _ :: _, [], _, _, hl => by cases hl

/-! ## An example -/

/-- The ids of `A` and `C` exchanged. -/
def exSwap : Renaming := Renaming.swap 10 30

/-- `exWorld` with the ids exchanged, on the other machine. -/
def exWorldSwap : World exBig :=
  .ofLists exBig [exA.ren exSwap, exB.ren exSwap, exC.ren exSwap]
    [[10], [20], [30], [10, 20], [10, 30], [20, 30], [10, 20, 30]] (by decide +kernel)

theorem Renaming.set_perm (ρ : Renaming) (s : List UInt16) : (ρ.set s).Perm (s.map ρ.to) := List.mergeSort_perm _ _

/-- The sets of `exWorld` under the exchange. -/
def exSwapSets : List (List UInt16 × List UInt16) :=
  [([10], [30]), ([20], [20]), ([30], [10]), ([10, 20], [20, 30]), ([10, 30], [10, 30]), ([20, 30], [10, 20]),
    ([10, 20, 30], [10, 20, 30])]

theorem exSwap_used {s : List UInt16} (h : exWorld.Used s) : (s, exSwap.set s) ∈ exSwapSets := by
  have hmap : ∀ s ∈ ([[10], [20], [30], [10, 20], [10, 30], [20, 30], [10, 20, 30]] : List (List UInt16)),
      ∃ p ∈ exSwapSets, p.1 = s := by decide +kernel
  have hpair : ∀ p ∈ exSwapSets, p.2.Pairwise (fun a b => a < b) ∧ p.2.isPerm (p.1.map exSwap.to) = true := by
    decide +kernel
  have hasc : ∀ s ∈ ([[10], [20], [30], [10, 20], [10, 30], [20, 30], [10, 20, 30]] : List (List UInt16)),
      s.Pairwise (fun a b => a < b) := by decide +kernel
  obtain ⟨⟨s', t⟩, hp, rfl⟩ := hmap s h
  obtain ⟨h1, h2⟩ := hpair _ hp
  have he : exSwap.set s' = t :=
    List.Perm.eq_of_pairwise (fun a b _ _ x y => absurd (UInt16.lt_trans x y) (UInt16.lt_irrefl _))
      (AscSet.ren (ρ := exSwap) (Q := (· ∈ s')) (Q' := fun i => exSwap.back i ∈ s') ⟨hasc _ h, fun _ => Iff.rfl⟩
        (fun i => by rw [exSwap.back_to])).1 h1 ((exSwap.set_perm s').trans (List.isPerm_iff.mp h2).symm)
  rw [he]; exact hp

theorem exRenamed : RenamedProgram exSwap exWorld exWorldSwap where
  has := fun c => mem_ren (g := [exA, exB, exC])
  used := by
    intro s h
    constructor
    · intro hm
      have hp := exSwap.set_perm s
      have hall : ∀ t ∈ ([[10], [20], [30], [10, 20], [10, 30], [20, 30], [10, 20, 30]] : List (List UInt16)),
          t ≠ [] ∧ ∀ i ∈ t, exSwap.back i = 10 ∨ exSwap.back i = 20 ∨ exSwap.back i = 30 := by decide +kernel
      obtain ⟨h1, h2⟩ := hall _ hm
      refine exUsed h ?_ ?_
      · rintro rfl
        exact h1 (by simp [Renaming.set])
      · intro i hi
        have := h2 (exSwap.to i) (hp.mem_iff.mpr (List.mem_map.mpr ⟨i, hi, rfl⟩))
        rwa [exSwap.back_to] at this
    · intro hm
      exact (show ∀ p ∈ exSwapSets,
        p.2 ∈ ([[10], [20], [30], [10, 20], [10, 30], [20, 30], [10, 20, 30]] : List (List UInt16)) by decide +kernel) _
        (exSwap_used hm)
  kinds := fun s hs => (show ∀ p ∈ exSwapSets,
    (Spec.groupId exBig.bigEndian p.2 = Spec.movedId exBig.bigEndian p.2 ↔
      Spec.groupId exEnv.bigEndian p.1 = Spec.movedId exEnv.bigEndian p.1) by decide +kernel) _ (exSwap_used hs)
  created := by
    intro s h1 h2
    by_cases hn : s = []
    · subst hn
      rw [show exSwap.set [] = [] by simp [Renaming.set]]
      decide +kernel
    · have hs : exWorld.Used s := exUsed h1 hn (fun i hi => by obtain ⟨c, hc, rfl⟩ := h2 i hi; exact exHas_id hc)
      exact (show ∀ p ∈ exSwapSets,
        (Spec.groupId exBig.bigEndian p.2 = 2 ^ 32 - 1 ↔ Spec.groupId exEnv.bigEndian p.1 = 2 ^ 32 - 1)
        by decide +kernel) _ (exSwap_used hs)
  changed := fun s hs => (show ∀ p ∈ exSwapSets,
    (Spec.movedId exBig.bigEndian p.2 = 2 ^ 32 - 1 ↔ Spec.movedId exEnv.bigEndian p.1 = 2 ^ 32 - 1)
    by decide +kernel) _ (exSwap_used hs)

/-- The hypotheses hold for `exCalls2` and the exchanged ids, on a little-endian and a big-endian machine. -/
example : exA.ren exSwap ≠ exA ∧ RenamedProgram exSwap exWorld exWorldSwap ∧ OkRun exWorld Registry.default exCalls2 ∧
    ∀ c ∈ exCalls2, c.OrderFree := by
  refine ⟨by decide, exRenamed, exOkRun _ (by decide +kernel), ?_⟩
  intro c hc
  simp only [exCalls2, exCalls, List.mem_append, List.mem_cons, List.not_mem_nil, or_false] at hc
  rcases hc with (rfl | rfl | rfl | rfl | rfl | rfl) | (rfl | rfl | rfl | rfl | rfl | rfl | rfl | rfl | rfl) <;> trivial

/-- An entity with the components `A` and `C`, made and destroyed. -/
def exMadeAndEnded : List Call := [.create [exA, exC] [exValA, exValC], .destroy (Entity.newUnchecked 0 0)]

set_option maxRecDepth 100000 in
/-- **C88** The exception for dropped values is needed: `destroy_entity` drops the components in the order of their ids. -/
theorem C88_drop_order_differs :
    (runAll exEnv Registry.default exMadeAndEnded).1.map (fun o => o.dropped) = [[], [exValA, exValC]] ∧
    (runAll exEnv Registry.default (exMadeAndEnded.map (Call.ren exSwap))).1.map (fun o => o.dropped) =
      [[], [exValC, exValA]] := by
  decide +kernel

/-- Two entities with a component in common. -/
def exTwoKinds : List Call := [.create [exA, exB] [exValA, exValB], .create [exB, exC] [exValB, exValC]]

set_option maxRecDepth 100000 in
/-- **C88** The exception for the iterators is needed: which archetype comes first is decided by the ids (the numbers
are the indices of the archetypes, the first entity being in the first archetype). -/
theorem C88_iteration_order_differs :
    ((runAll exEnv Registry.default exTwoKinds).2 >>= fun r => r.iterEntityComponentsMatching exEnv [exB]).map
        (fun l => l.map (fun x => x.1)) = .ok [0, 1] ∧
    ((runAll exEnv Registry.default (exTwoKinds.map (Call.ren exSwap))).2 >>= fun r =>
        r.iterEntityComponentsMatching exEnv [exB.ren exSwap]).map (fun l => l.map (fun x => x.1)) =
      .ok [1, 0] := by
  decide +kernel

end Shard
