import Verif.Spec.FlatMemory
import Verif.Model.FlatArchetype
import Verif.Proofs.Memory
/-!
# Flat memory: computations, owned blocks, the primitive operations
-/

set_option autoImplicit false

namespace Shard.Flat

variable {A : Allocator} {env : Env} {h h' h'' : Heap} {α β : Type}

/-! ## Computations -/

/-- The allocator has returned null, and is one that does so. -/
def Refusal (A : Allocator) (h : Heap) : Prop := h.refused = true ∧ A.Fails

/-- The computation ends normally in a state that satisfies `Q`, or an assertion stops it after the allocator has returned
null. -/
def wp (A : Allocator) (x : FM α) (h : Heap) (Q : α → Heap → Prop) : Prop :=
  (∃ a h', x h = (.ok a, h') ∧ Q a h') ∨ ∃ h', x h = (.error (.panic .assertFailed), h') ∧ Refusal A h'

theorem wp_pure {a : α} {Q : α → Heap → Prop} (hq : Q a h) : wp A (pure a) h Q := .inl ⟨a, h, rfl, hq⟩

theorem bind_ok {x : FM α} {f : α → FM β} {a : α} (hx : x h = (.ok a, h')) : (x >>= f) h = f a h' := by
  show (ExceptT.bindCont f (x h).1) (x h).2 = _
  rw [hx]; rfl

theorem bind_error {x : FM α} {f : α → FM β} {e : Fault} (hx : x h = (.error e, h')) : (x >>= f) h = (.error e, h') := by
  show (ExceptT.bindCont f (x h).1) (x h).2 = _
  rw [hx]; rfl

theorem wp_bind {x : FM α} {f : α → FM β} {Q : β → Heap → Prop} (hx : wp A x h (fun a h' => wp A (f a) h' Q)) :
    wp A (x >>= f) h Q := by
  rcases hx with ⟨a, h', hx, hf⟩ | ⟨h', hx, ha⟩
  · rcases hf with ⟨b, h2, hf, hq⟩ | ⟨h2, hf, ha⟩
    · exact .inl ⟨b, h2, (bind_ok hx).trans hf, hq⟩
    · exact .inr ⟨h2, (bind_ok hx).trans hf, ha⟩
  · exact .inr ⟨h', bind_error hx, ha⟩

theorem wp_mono {x : FM α} {P Q : α → Heap → Prop} (hx : wp A x h P) (hpq : ∀ a h', P a h' → Q a h') : wp A x h Q := by
  rcases hx with ⟨a, h', hx, hp⟩ | hx
  · exact .inl ⟨a, h', hx, hpq _ _ hp⟩
  · exact .inr hx

theorem wp_lift {m : M α} {a : α} {Q : α → Heap → Prop} (hm : m = .ok a) (hq : Q a h) : wp A (liftM m : FM α) h Q := by
  subst hm
  exact .inl ⟨a, h, rfl, hq⟩

theorem wp_then {m : M α} {a : α} {f : α → FM β} {Q : β → Heap → Prop} (hm : m = .ok a) (hq : wp A (f a) h Q) :
    wp A ((liftM m : FM α) >>= f) h Q := wp_bind (wp_lift hm hq)

theorem wp_assert {p : Ptr} {Q : Unit → Heap → Prop} (hp : p.addr ≠ 0 → Q () h) (hf : p.addr = 0 → Refusal A h) :
    wp A (assertNonNull p) h Q := by
  by_cases hz : p.addr = 0
  · refine .inr ⟨h, ?_, hf hz⟩
    simp [assertNonNull, ensure, hz]; rfl
  · refine .inl ⟨(), h, ?_, hp hz⟩
    simp [assertNonNull, ensure, hz]; rfl

theorem wp_loop {σ τ : Type} {R : Nat → σ → τ → Heap → Prop} {f : Nat → σ → M σ} {g : Nat → τ → FM τ} :
    ∀ {n lo : Nat} {s s' : σ} {t : τ} {h : Heap},
    (∀ i s s' t h, lo ≤ i → i < lo + n → R i s t h → f i s = .ok s' → wp A (g i t) h (fun t' h' => R (i + 1) s' t' h')) →
    forRange lo n f s = .ok s' → R lo s t h → wp A (loop lo n g t) h (R (lo + n) s')
  | 0, lo, s, s', t, h, _, hf, hR => by
    simp only [forRange, Except.ok.injEq] at hf
    subst hf
    exact wp_pure hR
  | n + 1, lo, s, s', t, h, hstep, hf, hR => by
    unfold forRange at hf
    cases h1 : f lo s with
    | error e => rw [h1] at hf; cases hf
    | ok s1 =>
      rw [h1] at hf
      refine wp_bind (wp_mono (hstep lo s s1 t h (Nat.le_refl _) (by omega) hR h1) (fun t' h' hR' => ?_))
      have := wp_loop (R := R) (f := f) (g := g) (n := n) (lo := lo + 1)
        (fun i s s' t h h1 h2 => hstep i s s' t h (by omega) (by omega)) hf hR'
      rw [show lo + 1 + n = lo + (n + 1) by omega] at this
      exact this

theorem wp_mapLoop {f : Nat → M α} {g : Nat → FM α} :
    ∀ {n lo : Nat} {l : List α},
    (∀ i a, lo ≤ i → i < lo + n → f i = .ok a → wp A (g i) h (fun b h' => b = a ∧ h' = h)) →
    mapRange lo n f = .ok l → wp A (mapLoop lo n g) h (fun l' h' => l' = l ∧ h' = h)
  | 0, _, _, _, hf => by
    simp only [mapRange, Except.ok.injEq] at hf
    exact wp_pure ⟨hf, rfl⟩
  | n + 1, lo, l, hstep, hf => by
    unfold mapRange at hf
    cases h1 : f lo with
    | error e => rw [h1] at hf; cases hf
    | ok a =>
      rw [h1] at hf
      cases h2 : mapRange (lo + 1) n f with
      | error e => rw [h2] at hf; cases hf
      | ok as =>
        rw [h2] at hf
        cases hf
        have ih := wp_mapLoop (f := f) (g := g) (n := n) (lo := lo + 1)
          (fun i a h1 h2 => hstep i a (by omega) (by omega)) h2
        refine wp_bind (wp_mono (hstep lo a (Nat.le_refl _) (by omega) h1) ?_)
        rintro b h' ⟨rfl, rfl⟩
        refine wp_bind (wp_mono ih ?_)
        rintro bs h'' ⟨rfl, rfl⟩
        exact wp_pure ⟨rfl, rfl⟩

/-! ## Changes of the memory -/

/-- From `h` to `h'` only the allocations in `P` and new ones changed; those of them that are live afterwards are `P'`. -/
structure Step (h : Heap) (P : Nat → Prop) (h' : Heap) (P' : Nat → Prop) : Prop where
  wf : h'.WF
  le : h.next ≤ h'.next
  same : ∀ {id : Nat}, id < h.next → ¬ P id → Same h h' id
  sub : ∀ {id : Nat}, P' id → P id ∨ h.next ≤ id
  live : ∀ {id : Nat}, h'.allocs id ≠ none → P id ∨ h.next ≤ id → P' id
  refused : h'.refused = h.refused

theorem Same.refl (h : Heap) (id : Nat) : Same h h id := ⟨rfl, fun _ _ _ => rfl⟩

theorem Same.trans {id : Nat} (a : Same h h' id) (b : Same h' h'' id) : Same h h'' id :=
  ⟨b.allocs.trans a.allocs, fun hal k hk => (b.mem (a.allocs.trans hal) k hk).trans (a.mem hal k hk)⟩

theorem Heap.WF.dead (hw : h.WF) {id : Nat} (hid : h.next ≤ id) : h.allocs id = none := by
  cases ha : h.allocs id with
  | none => rfl
  | some al => have := hw.lt ha; omega

theorem Step.refl (hw : h.WF) (P : Nat → Prop) : Step h P h P where
  wf := hw
  le := Nat.le_refl _
  same := fun _ _ => Same.refl _ _
  sub := .inl
  live := fun hl hp => hp.elim id (fun hp => absurd (hw.dead hp) hl)
  refused := rfl

theorem Step.trans {P P' P'' : Nat → Prop} (a : Step h P h' P') (b : Step h' P' h'' P'') : Step h P h'' P'' where
  wf := b.wf
  le := Nat.le_trans a.le b.le
  same := fun {id} hid hp => (a.same hid hp).trans (b.same (Nat.lt_of_lt_of_le hid a.le) (fun hp' => by
    rcases a.sub hp' with h1 | h1
    · exact hp h1
    · omega))
  sub := fun {id} hp => by
    rcases b.sub hp with h1 | h1
    · exact a.sub h1
    · exact .inr (Nat.le_trans a.le h1)
  live := fun {id} hl hp => by
    by_cases h1 : h'.next ≤ id
    · exact b.live hl (.inr h1)
    · by_cases h2 : P' id
      · exact b.live hl (.inl h2)
      · have hs := b.same (by omega) h2
        exact absurd (a.live (by rw [← hs.allocs]; exact hl) hp) h2
  refused := b.refused.trans a.refused

theorem Step.frame {P P' : Nat → Prop} (a : Step h P h' P') (Q : Nat → Prop) :
    Step h (fun i => P i ∨ Q i) h' (fun i => P' i ∨ Q i) where
  wf := a.wf
  le := a.le
  same := fun hid hp => a.same hid (fun h1 => hp (.inl h1))
  sub := fun hp => by
    rcases hp with h1 | h1
    · exact (a.sub h1).elim (fun h => .inl (.inl h)) .inr
    · exact .inl (.inr h1)
  live := fun {id} hl hp => by
    rcases hp with (h1 | h1) | h1
    · exact .inl (a.live hl (.inl h1))
    · exact .inr h1
    · exact .inl (a.live hl (.inr h1))
  refused := a.refused

theorem Step.congr {P P' Q Q' : Nat → Prop} (a : Step h P h' P') (hp : ∀ i, P i ↔ Q i) (hp' : ∀ i, P' i ↔ Q' i) :
    Step h Q h' Q' := by
  have e : P = Q := funext fun i => propext (hp i)
  have e' : P' = Q' := funext fun i => propext (hp' i)
  subst e e'
  exact a

/-! ## Objects in memory -/

/-- The contents of an allocation. -/
structure Obj where
  align : Nat
  size : Nat
  cell : Nat → Option Cell

/-- The pointer `p` is null, or points to the first byte of an allocation with the given contents. -/
def PRep (h : Heap) (p : Ptr) : Option Obj → Prop
  | none => p = Ptr.null
  | some o => p.addr ≠ 0 ∧ h.allocs p.prov = some ⟨p.addr, o.size, o.align⟩ ∧ ∀ k, k < o.size → h.mem (p.addr + k) = o.cell k

theorem PRep.congr {p : Ptr} {o o' : Obj} (hp : PRep h p (some o)) (ha : o.align = o'.align) (hs : o.size = o'.size)
    (hc : ∀ k, k < o.size → o.cell k = o'.cell k) : PRep h p (some o') := by
  obtain ⟨h1, h2, h3⟩ := hp
  refine ⟨h1, by rw [h2, ha, hs], fun k hk => ?_⟩
  rw [h3 k (by omega), hc k (by omega)]

theorem PRep.same {p : Ptr} {o : Option Obj} (hp : PRep h p o) (hs : p.addr ≠ 0 → Same h h' p.prov) : PRep h' p o := by
  cases o with
  | none => exact hp
  | some o =>
    obtain ⟨h1, h2, h3⟩ := hp
    have hs := hs h1
    exact ⟨h1, by rw [hs.allocs, h2], fun k hk => by rw [← h3 k hk]; exact hs.mem h2 k hk⟩

/-- A column of an archetype. -/
def blockObj (b : Block) : Obj := ⟨b.align, b.bytes.length, fun k => (b.bytes[k]?.join).map .comp⟩

/-- The array of handles. -/
def entObj (l : List (Option Entity)) : Obj := ⟨4, 4 * l.length, fun k => (l[k / 4]?.join).map (fun e => .ent e (k % 4))⟩

/-! ## The primitive operations -/

theorem powerOfTwo_pos {n : Nat} (h : powerOfTwo n = true) : 0 < n := by
  unfold powerOfTwo at h
  rw [List.any_eq_true] at h
  obtain ⟨k, _, hk⟩ := h
  have : n = 2 ^ k := by simpa using hk
  rw [this]; exact Nat.pow_pos (by omega)

/-- A new allocation with contents `f`. -/
theorem add_step (hA : A.Ok) (hw : h.WF) {b size align : Nat} {f : Nat → Option Cell}
    (hp : A.place h size align = some b) (hal : powerOfTwo align = true) :
    PRep (h.add b size align f) ⟨h.next, b⟩ (some ⟨align, size, f⟩) ∧
      Step h (fun _ => False) (h.add b size align f) (fun i => i = h.next) := by
  have hpos := hA.pos hw hp
  refine ⟨⟨by show b ≠ 0; omega, by simp [Heap.add], fun k hk => ?_⟩, ?_⟩
  · have : b ≤ b + k ∧ b + k < b + size := by constructor <;> (simp only [] at hk; omega)
    simp only [Heap.add]
    rw [if_pos this, Nat.add_sub_cancel_left]
  · have hget : ∀ {id : Nat} {al : Alloc}, (h.add b size align f).allocs id = some al →
        (id = h.next ∧ al = ⟨b, size, align⟩) ∨ (id < h.next ∧ h.allocs id = some al) := by
      intro id al hid
      simp only [Heap.add] at hid
      split at hid
      · cases hid; exact .inl ⟨by assumption, rfl⟩
      · exact .inr ⟨hw.lt hid, hid⟩
    refine ⟨⟨?_, ?_, ?_, ?_, ?_⟩, Nat.le_succ _, ?_, ?_, ?_, rfl⟩
    · intro id al hid
      rcases hget hid with ⟨h1, _⟩ | ⟨h1, _⟩ <;> (show id < h.next + 1; omega)
    · intro id al hid
      rcases hget hid with ⟨_, rfl⟩ | ⟨_, h1⟩
      · exact hpos
      · exact hw.pos h1
    · intro id al hid
      rcases hget hid with ⟨_, rfl⟩ | ⟨_, h1⟩
      · exact hA.aligned hw hp hal
      · exact hw.aligned h1
    · intro id al hid
      rcases hget hid with ⟨_, rfl⟩ | ⟨_, h1⟩
      · exact hA.top hw hp
      · exact hw.top h1
    · intro i j a c hi hj hij x y hx hy
      rcases hget hi with ⟨h1, rfl⟩ | ⟨_, h1⟩ <;> rcases hget hj with ⟨h2, rfl⟩ | ⟨_, h2⟩
      · omega
      · exact hA.fresh hw hp h2 x y hx hy
      · exact fun e => hA.fresh hw hp h1 y x hy hx e.symm
      · exact hw.disj h1 h2 hij x y hx hy
    · intro id hid _
      refine ⟨by simp only [Heap.add]; rw [if_neg (by omega)], fun {al} hal k hk => ?_⟩
      simp only [Heap.add]
      rw [if_neg]
      rintro ⟨h1, h2⟩
      exact hA.fresh hw hp hal (al.base + k - b) k (by omega) hk (by omega)
    · intro id hid
      exact .inr (by omega)
    · intro id hl hid
      rcases hid with hid | hid
      · exact hid.elim
      · cases ha : (h.add b size align f).allocs id with
        | none => exact absurd ha hl
        | some al =>
          rcases hget ha with ⟨h1, _⟩ | ⟨h1, _⟩
          · exact h1
          · omega

theorem free_wf (hw : h.WF) (id : Nat) : (h.free id).WF := by
  have hget : ∀ {i : Nat} {al : Alloc}, (h.free id).allocs i = some al → i ≠ id ∧ h.allocs i = some al := by
    intro i al hi
    simp only [Heap.free] at hi
    split at hi
    · cases hi
    · exact ⟨by assumption, hi⟩
  exact ⟨fun h1 => hw.lt (hget h1).2, fun h1 => hw.pos (hget h1).2, fun h1 => hw.aligned (hget h1).2,
    fun h1 => hw.top (hget h1).2, fun h1 h2 => hw.disj (hget h1).2 (hget h2).2⟩

theorem free_step (hw : h.WF) (id : Nat) : Step h (fun i => i = id) (h.free id) (fun _ => False) where
  wf := free_wf hw id
  le := Nat.le_refl _
  same := fun {i} _ hi => ⟨by simp only [Heap.free]; rw [if_neg hi], fun _ _ _ => rfl⟩
  sub := fun hf => hf.elim
  live := fun {i} hl hi => by
    simp only [Heap.free] at hl
    rcases hi with hi | hi
    · rw [if_pos hi] at hl; exact hl rfl
    · split at hl
      · exact hl rfl
      · exact hl (hw.dead hi)
  refused := rfl

theorem alloc_spec (hA : A.Ok) (hw : h.WF) {size align : Nat} {b : Block} (hb : allocBlock env size align = .ok b) :
    wp A (alloc A env size align) h (fun p h' => (p = Ptr.null ∧ Refusal A h') ∨
      (PRep h' p (some (blockObj b)) ∧ p.prov = h.next ∧ Step h (fun _ => False) h' (fun i => i = h.next))) := by
  unfold allocBlock at hb
  by_cases h1 : powerOfTwo align = false
  · rw [if_pos h1] at hb; cases hb
  rw [if_neg h1] at hb
  by_cases h2 : size = 0 ∧ ¬ env.zstAllocOk
  · rw [if_pos h2] at hb; cases hb
  rw [if_neg h2] at hb
  cases hb
  cases hp : A.place h size align with
  | none =>
    refine .inl ⟨Ptr.null, h.refuse, ?_, .inl ⟨rfl, rfl, h, size, align, hp⟩⟩
    unfold alloc
    rw [if_neg h1, if_neg h2]
    simp only [hp]
  | some x =>
    refine .inl ⟨⟨h.next, x⟩, h.add x size align (fun _ => none), ?_, .inr ?_⟩
    · unfold alloc
      rw [if_neg h1, if_neg h2]
      simp only [hp]
    · obtain ⟨a, b⟩ := add_step hA hw hp (f := fun _ => none) (by simpa using h1)
      refine ⟨a.congr rfl (by simp [blockObj]) (fun k hk => ?_), rfl, b⟩
      simp only at hk
      simp [blockObj, List.getElem?_replicate, hk]

/-- Reallocation, for any contents. -/
theorem realloc_spec (hA : A.Ok) (hw : h.WF) {p : Ptr} {o : Obj} (hp : PRep h p (some o)) {newSize : Nat}
    (hal : powerOfTwo o.align = true) (hz : ¬ (newSize = 0 ∧ ¬ env.zstAllocOk)) :
    wp A (realloc A env p o.size o.align newSize) h (fun q h' => (q = Ptr.null ∧ Refusal A h') ∨
      (PRep h' q (some ⟨o.align, newSize, fun k => if k < o.size then o.cell k else none⟩) ∧ q.prov = h.next ∧
        Step h (fun i => i = p.prov) h' (fun i => i = h.next))) := by
  obtain ⟨h1, h2, h3⟩ := hp
  cases hpl : A.place (h.free p.prov) newSize o.align with
  | none =>
    refine .inl ⟨Ptr.null, h.refuse, ?_, .inl ⟨rfl, rfl, _, _, _, hpl⟩⟩
    unfold realloc
    rw [h2]
    simp only [ne_eq, not_true_eq_false, if_false, or_self, if_neg hz, hpl]
  | some x =>
    refine .inl ⟨⟨h.next, x⟩,
      (h.free p.prov).add x newSize o.align (fun k => if k < o.size then h.mem (p.addr + k) else none), ?_, .inr ?_⟩
    · unfold realloc
      rw [h2]
      simp only [ne_eq, not_true_eq_false, if_false, or_self, if_neg hz, hpl]
    · obtain ⟨a, b⟩ := add_step hA (free_wf hw p.prov) hpl
        (f := fun k => if k < o.size then h.mem (p.addr + k) else none) hal
      refine ⟨a.congr rfl rfl (fun k hk => ?_), rfl, (free_step hw p.prov).trans b⟩
      show (if k < o.size then h.mem (p.addr + k) else none) = if k < o.size then o.cell k else none
      split
      · rw [h3 k (by assumption)]
      · rfl

theorem dealloc_spec (hw : h.WF) {p : Ptr} {o : Obj} (hp : PRep h p (some o)) :
    wp A (dealloc p o.size o.align) h (fun _ h' => Step h (fun i => i = p.prov) h' (fun _ => False)) := by
  obtain ⟨h1, h2, h3⟩ := hp
  refine .inl ⟨(), h.free p.prov, ?_, free_step hw p.prov⟩
  unfold dealloc
  rw [h2]
  simp only [ne_eq, not_true_eq_false, if_false, or_self]

theorem PRep.inBounds {p : Ptr} {o : Obj} (hp : PRep h p (some o)) {off n : Nat} (hn : off + n ≤ o.size) :
    h.inBounds (p.plus off) n = true := by
  obtain ⟨h1, h2, h3⟩ := hp
  unfold Heap.inBounds Ptr.plus
  rw [h2]
  exact decide_eq_true ⟨by simp only []; omega, by simp only []; omega⟩

theorem Ptr.plus_zero (p : Ptr) : p.plus 0 = p := rfl

theorem offset_zero (p : Ptr) : wp A (offset p 0) h (fun q h' => q = p ∧ h' = h) := by
  refine .inl ⟨p, h, ?_, rfl, rfl⟩
  unfold offset
  rw [if_pos (.inl rfl)]; rfl

theorem offset_spec {p : Ptr} {o : Obj} (hp : PRep h p (some o)) {n : Nat} (hn : n ≤ o.size) :
    wp A (offset p n) h (fun q h' => q = p.plus n ∧ h' = h) := by
  refine .inl ⟨p.plus n, h, ?_, rfl, rfl⟩
  unfold offset
  rw [if_pos (.inr (hp.inBounds (off := 0) (by omega)))]

theorem readCells_spec {p : Ptr} {o : Obj} (hp : PRep h p (some o)) {off n : Nat} (hn : off + n ≤ o.size) :
    wp A (readCells (p.plus off) n) h
      (fun cs h' => cs = (List.range n).map (fun k => o.cell (off + k)) ∧ h' = h) := by
  refine .inl ⟨_, h, ?_, rfl, rfl⟩
  unfold readCells
  rw [if_neg (by have := hp.1; show p.addr + off ≠ 0; omega), if_pos (hp.inBounds hn)]
  congr 2
  apply List.map_congr_left
  intro k hk
  rw [List.mem_range] at hk
  obtain ⟨_, _, h3⟩ := hp
  rw [← h3 (off + k) (by omega)]
  show h.mem (p.addr + off + k) = _
  rw [Nat.add_assoc]

/-- The contents after writing `cs` at `off`. -/
def Obj.write (o : Obj) (off : Nat) (cs : List (Option Cell)) : Obj :=
  { o with cell := fun k => if off ≤ k ∧ k < off + cs.length then cs.getD (k - off) none else o.cell k }

theorem writeCells_spec (hw : h.WF) {p : Ptr} {o : Obj} (hp : PRep h p (some o)) {off : Nat} {cs : List (Option Cell)}
    (hn : off + cs.length ≤ o.size) :
    wp A (writeCells (p.plus off) cs) h
      (fun _ h' => PRep h' p (some (o.write off cs)) ∧ Step h (fun i => i = p.prov) h' (fun i => i = p.prov)) := by
  refine .inl ⟨(), ⟨h.next, h.allocs, fun x => if p.addr + off ≤ x ∧ x < p.addr + off + cs.length then
    cs.getD (x - (p.addr + off)) none else h.mem x, h.refused⟩, ?_, ?_, ?_⟩
  · unfold writeCells
    rw [if_neg (by have := hp.1; show p.addr + off ≠ 0; omega), if_pos (hp.inBounds hn)]
    rfl
  · obtain ⟨h1, h2, h3⟩ := hp
    refine ⟨h1, h2, fun k hk => ?_⟩
    simp only [Obj.write]
    by_cases hc : off ≤ k ∧ k < off + cs.length
    · rw [if_pos (by omega), if_pos hc]
      congr 1; omega
    · rw [if_neg (by omega), if_neg hc]
      exact h3 k hk
  · obtain ⟨h1, h2, h3⟩ := hp
    refine ⟨⟨fun h4 => hw.lt h4, fun h4 => hw.pos h4, fun h4 => hw.aligned h4, fun h4 => hw.top h4,
      fun h4 h5 => hw.disj h4 h5⟩, Nat.le_refl _, ?_, fun h4 => .inl h4, ?_, rfl⟩
    · intro id hid hne
      refine ⟨rfl, fun {al} hal k hk => ?_⟩
      simp only []
      rw [if_neg]
      rintro ⟨h4, h5⟩
      exact hw.disj hal h2 hne k (al.base + k - p.addr) hk (by simp only []; omega) (by simp only []; omega)
    · intro id hl hid
      rcases hid with hid | hid
      · exact hid
      · exact absurd (hw.dead hid) hl

end Shard.Flat
