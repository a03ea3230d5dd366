import Verif.Spec.Footprint
import Verif.Props.Growth
import Verif.Props.Ordinary
import Verif.Proofs.Programs
/-!
# C83: the memory of a registry is bounded by its largest population, however long it runs
-/

set_option autoImplicit false

namespace Shard

variable {env : Env} {W : World env} {r : Registry} {cs : List Content}

/-- The entities of one archetype are live entities. -/
theorem RInv.rows_le (h : RInv W r cs) {i : Nat} {a : Archetype} (ha : r.archetypes.archetypes[i]? = some a) :
    a.entityCount ≤ (r.iterEntities env).length := by
  obtain ⟨ct, hc, hr⟩ := h.arch.content ha
  rw [hr.count]
  refine (h.ents_nodup hc).length_le_of_subset (fun e he => ?_)
  obtain ⟨k, hk⟩ := List.mem_iff_getElem?.mp he
  exact h.live_iff.mpr ⟨_, h.row_look hc hk⟩

theorem liveCount_mono (h : List (Call × Outcome)) (x : Call × Outcome) : (liveCount h).2 ≤ (liveCount (h ++ [x])).2 := by
  rw [liveCount_snoc]
  split
  · exact Nat.le_max_left _ _
  · exact Nat.le_refl _
  · exact Nat.le_refl _

theorem Steps.peak_le {hist : List (Call × Outcome)} (hs : Steps env (Call.Admissible W) Registry.default hist r) (i : Nat) :
    peakRows i (statesOf env Registry.default (hist.map Prod.fst)) ≤ (liveCount hist).2 := by
  induction hs with
  | nil => exact Nat.le_refl 0
  | snoc h1 h2 h3 ih =>
    next hist r1 r2 call out =>
    obtain ⟨pre, hp⟩ := h1.states
    have e1 : statesOf env Registry.default (hist.map Prod.fst) = pre ++ [r1] := by
      have := hp []
      rw [List.append_nil] at this
      exact this
    have e2 : statesOf env Registry.default ((hist ++ [(call, out)]).map Prod.fst) = pre ++ [r1] ++ [r2] := by
      rw [List.map_append, hp]
      simp only [List.map_cons, List.map_nil, statesOf, h3, List.append_assoc, List.cons_append, List.nil_append]
    rw [e2, peakRows_append]
    rw [e1] at ih
    have hm := liveCount_mono hist (call, out)
    have hs2 := h1.snoc h2 h3
    have h7 := (C07_slot_recycling (r' := r2) hs2).2.2.1
    have hcl := hs2.count_le
    have hrow : rowsIn i r2 ≤ (r2.iterEntities env).length := by
      unfold rowsIn
      cases hx : r2.archetypes.archetypes[i]? with
      | none => exact Nat.zero_le _
      | some a =>
        obtain ⟨cs, hi⟩ := (show Reachable W r2 from ⟨_, hs2⟩).inv
        exact hi.rows_le hx
    omega

theorem sum_take_pad (f : Option Block → Nat) (hf : f none = 0) (l : List (Option Block)) (n : Nat)
    (h : ∀ i, n ≤ i → i < l.length → l[i]? = some none) : (l.map f).sum = ((l.take n).map f).sum := by
  have hz : ∀ m : List (Option Block), (∀ x ∈ m, x = none) → (m.map f).sum = 0 := by
    intro m hm
    induction m with
    | nil => rfl
    | cons x m ih =>
      rw [List.map_cons, List.sum_cons, ih (fun y hy => hm y (List.mem_cons_of_mem _ hy)), hm x List.mem_cons_self, hf]
  have hd : ((l.drop n).map f).sum = 0 := by
    refine hz _ (fun x hx => ?_)
    obtain ⟨k, hk⟩ := List.mem_iff_getElem?.mp hx
    rw [List.getElem?_drop] at hk
    have hlt := (List.getElem?_eq_some_iff.mp hk).1
    rw [h _ (by omega) hlt] at hk
    injection hk with hk
    exact hk.symm
  conv => lhs; rw [← List.take_append_drop n l]
  rw [List.map_append, List.sum_append, hd, Nat.add_zero]

theorem sum_blocks (f : Option Block → Nat) (cap : Nat) (cts : List CompTy) (l : List (Option Block))
    (hl : l.length = cts.length) (h : ∀ (i : Nat) (c : CompTy), cts[i]? = some c → ∃ b, l[i]? = some b ∧ f b = c.size * cap) :
    (l.map f).sum = cap * (cts.map (fun c => c.size)).sum := by
  induction cts generalizing l with
  | nil =>
    rw [List.length_eq_zero_iff.mp hl]
    rfl
  | cons c cts ih =>
    cases l with
    | nil => cases hl
    | cons b l =>
      obtain ⟨b', hb, hf⟩ := h 0 c rfl
      injection hb with hb
      subst hb
      rw [List.map_cons, List.sum_cons, List.map_cons, List.sum_cons, Nat.mul_add, hf, Nat.mul_comm cap c.size,
        ih l (by simpa using hl) (fun i c' hc => h (i + 1) c' hc)]

/-- The memory of an archetype is its capacity times the bytes of an entity. -/
theorem Rep.allocated {a : Archetype} {ct : Content} (h : Rep W a ct) : a.allocated = a.capacity * rowBytes a.descriptor := by
  have hc := h.cols
  obtain ⟨l, h1, h2, _⟩ := h.ents.arr
  have hsz : (a.descriptor.components.map (fun c => c.size)) = ct.cts.map (fun c => c.size) := by
    rw [h.desc.comps, List.map_map]
    refine List.map_congr_left (fun c hm => ?_)
    exact Nat.mod_eq_of_lt (W.size_lt (h.desc.has c hm))
  unfold Archetype.allocated rowBytes
  rw [h1, hsz, sum_take_pad _ rfl a.pointers ct.cts.length (fun i h1 h2 => hc.rest i h1 (by rw [← hc.ptrs_len]; exact h2)),
    sum_blocks _ a.capacity ct.cts]
  · simp only
    rw [h2, Nat.mul_add, Nat.mul_comm 4]
  · rw [List.length_take, hc.ptrs_len, Nat.min_eq_left hc.cts_le]
  · intro i c hi
    have hlt := (List.getElem?_eq_some_iff.mp hi).1
    obtain ⟨b, hb, hok⟩ := hc.col i c (ct.cols[i]'(by rw [hc.cols_len]; exact hlt)) hi (List.getElem?_eq_getElem _)
    refine ⟨some b, ?_, hok.size⟩
    rw [List.getElem?_take, if_pos hlt]
    exact hb

theorem CapFor.lt {cap p q : Nat} (h : CapFor cap p) (hq : p ≤ q) : cap = 128 ∨ cap < 2 * q := by
  obtain ⟨⟨k, hk⟩, _, h3⟩ := h
  cases k with
  | zero => left; omega
  | succ k =>
    right
    rw [Nat.pow_succ] at hk
    rcases Nat.lt_or_ge (128 * 2 ^ k) p with hlt | hge
    · omega
    · have := h3 k hge
      have : 0 < 2 ^ k := Nat.pow_pos (by omega)
      omega

theorem sum_bound (l : List Archetype) (B : Nat)
    (h : ∀ a ∈ l, a.allocated ≤ B * rowBytes a.descriptor) :
    (l.map Archetype.allocated).sum ≤ B * (l.map (fun a => rowBytes a.descriptor)).sum := by
  induction l with
  | nil => exact Nat.le_refl 0
  | cons a l ih =>
    rw [List.map_cons, List.sum_cons, List.map_cons, List.sum_cons, Nat.mul_add]
    exact Nat.add_le_add (h a List.mem_cons_self) (ih (fun b hb => h b (List.mem_cons_of_mem _ hb)))

theorem sum_le_mul {α : Type} (l : List α) (f : α → Nat) (B : Nat) (h : ∀ a ∈ l, f a ≤ B) : (l.map f).sum ≤ l.length * B := by
  induction l with
  | nil => exact Nat.zero_le _
  | cons a l ih =>
    rw [List.map_cons, List.sum_cons, List.length_cons, Nat.succ_mul, Nat.add_comm]
    exact Nat.add_le_add (ih (fun b hb => h b (List.mem_cons_of_mem _ hb))) (h a List.mem_cons_self)

/-- **C83** After any history, however long: the entity table has exactly as many entries as there were ever entities
live at the same time (`p`), every archetype holds exactly its capacity times the bytes of one of its entities, its
capacity is 128 or less than `2 * p`, and so all archetypes together hold at most `max 128 (2 * p)` times the bytes of
one entity of each archetype; for a program whose component sets are listed in `L` that is a bound that mentions neither
the length of the history nor its calls. -/
theorem C83_memory_bound {hist : List (Call × Outcome)} (hs : Steps env (Call.Admissible W) Registry.default hist r) :
    r.entities.entities.length = (liveCount hist).2 ∧
    (∀ a ∈ r.archetypes.archetypes, a.allocated = a.capacity * rowBytes a.descriptor ∧
      (a.capacity = 128 ∨ a.capacity < 2 * (liveCount hist).2)) ∧
    r.allocated ≤
      max 128 (2 * (liveCount hist).2) * (r.archetypes.archetypes.map (fun a => rowBytes a.descriptor)).sum ∧
    ∀ (L : List (List UInt16)) (S : Nat), (∀ s, W.Used s → s ∈ L) → (∀ c, W.Has c → c.size ≤ S) →
      r.allocated ≤ max 128 (2 * (liveCount hist).2) * (2 * L.length * (14 * S + 4)) := by
  obtain ⟨cs, hi⟩ := (show Reachable W r from ⟨_, hs⟩).inv
  have hA : ∀ a ∈ r.archetypes.archetypes, a.allocated = a.capacity * rowBytes a.descriptor ∧
      (a.capacity = 128 ∨ a.capacity < 2 * (liveCount hist).2) := by
    intro a ha
    obtain ⟨i, hx⟩ := List.mem_iff_getElem?.mp ha
    obtain ⟨ct, _, hr⟩ := hi.arch.content hx
    exact ⟨hr.allocated, (C79_capacity_of_peak hs hx).1.lt (hs.peak_le i)⟩
  have hT : r.allocated ≤
      max 128 (2 * (liveCount hist).2) * (r.archetypes.archetypes.map (fun a => rowBytes a.descriptor)).sum := by
    refine sum_bound _ _ (fun a ha => ?_)
    obtain ⟨h1, h2⟩ := hA a ha
    rw [h1]
    exact Nat.mul_le_mul_right _ (by omega)
  refine ⟨(C07_slot_recycling (r' := r) hs).2.2.2.1, hA, hT, fun L S hL hS => Nat.le_trans hT (Nat.mul_le_mul_left _ ?_)⟩
  refine Nat.le_trans (sum_le_mul _ _ (14 * S + 4) (fun a ha => ?_))
    (Nat.mul_le_mul_right _ ((C75_archetype_count hs).2 L hL))
  obtain ⟨i, hx⟩ := List.mem_iff_getElem?.mp ha
  obtain ⟨ct, _, hr⟩ := hi.arch.content hx
  unfold rowBytes
  have hc : a.descriptor.components.length ≤ 14 := by
    rw [hr.desc.comps, List.length_map]
    exact hr.cols.cts_le
  have := sum_le_mul a.descriptor.components (fun c => c.size) S (fun c hm => by
    rw [hr.desc.comps] at hm
    obtain ⟨c', hm', rfl⟩ := List.mem_map.mp hm
    exact Nat.le_trans (Nat.mod_le _ _) (hS c' (hr.desc.has c' hm')))
  have := Nat.mul_le_mul_right S hc
  omega

/-- 40 times: make an entity, destroy it. -/
def exCycle : List Call :=
  (List.range 40).flatMap (fun k => [Call.create [exA] [exValA], .destroy (Entity.newUnchecked 0 (UInt8.ofNat k))])

set_option maxRecDepth 100000 in
/-- C83 at work: after 129 creations and two destructions the only archetype holds 256 entities' worth of memory; after 40
times making and destroying an entity it holds what it held after the first, and the entity table has one entry. -/
example : ((statesOf exEnv Registry.default exWave).getLast?.map (fun r =>
      (r.allocated, r.archetypes.archetypes.map (fun a => rowBytes a.descriptor), r.entities.entities.length))
        = some (256 * 8, [8], 129)) ∧
    ((statesOf exEnv Registry.default exCycle).length = 81 ∧
      (statesOf exEnv Registry.default exCycle).map Registry.allocated = 0 :: List.replicate 80 (128 * 8)) ∧
    (∀ call ∈ exCycle, ∀ r, call.Admissible exWorld r) := by
  refine ⟨by decide +kernel, ⟨by decide +kernel, by decide +kernel⟩, fun call hc r => exCheck_ok ?_ r⟩
  obtain ⟨k, _, hk⟩ := List.mem_flatMap.mp hc
  rcases List.mem_cons.mp hk with rfl | hk
  · decide
  · rw [List.mem_singleton.mp hk]; rfl

end Shard
