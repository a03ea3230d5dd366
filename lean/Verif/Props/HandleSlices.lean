import Verif.Model.HandleSlices
import Verif.Proofs.CallBorrowsRegistry
import Verif.Proofs.Observe
import Verif.Props.Example
/-!
# C93: slices of handles and uninitialised memory
-/

set_option autoImplicit false

namespace Shard.HandleSlices

open Borrow (ebind_inv index_inv findOrCreate_inv disjointMut_inv)

variable {env : Env} {W : World env} {r : Registry}

/-- Something has been stored in every element of the slice. -/
def Init (s : Slice) : Prop := ∀ o ∈ s, ∃ e, o = some e

/-- The calls that put an entity at a new place of an archetype. -/
def Grows : Call → Prop
  | .create _ _ => True
  | .add _ _ _ => True
  | .remove _ _ => True
  | _ => False

/-! ## Archetypes -/

/-- The memory for the handles of an archetype. -/
structure Filled (a : Archetype) (l : List (Option Entity)) : Prop where
  mem : a.entityAssociations = some l
  len : l.length = a.capacity
  count : a.entityCount ≤ l.length
  init : ∀ k, k < a.entityCount → ∃ e, l[k]? = some (some e)

theorem Filled.of_rep {a : Archetype} {ct : Content} (h : Rep W a ct) : ∃ l, Filled a l := by
  obtain ⟨h1, l, hl, h2, h3⟩ := h.ents
  refine ⟨l, hl, h2, by rw [h.count, h2]; exact h1, fun k hk => ?_⟩
  rw [h.count] at hk
  exact ⟨_, h3 k _ (List.getElem?_eq_getElem hk)⟩

theorem Filled.slice {a : Archetype} {l : List (Option Entity)} (h : Filled a l) :
    ∃ s, a.entitiesRaw = .ok s ∧ Init s := by
  refine ⟨l.take a.entityCount, ?_, fun o ho => ?_⟩
  · unfold Archetype.entitiesRaw
    rw [h.mem]
    simp only []
    rw [if_pos h.count]
  · obtain ⟨k, hk, rfl⟩ := List.mem_take_iff_getElem.mp ho
    obtain ⟨e, he⟩ := h.init k (by omega)
    rw [List.getElem?_eq_getElem (by omega)] at he
    injection he with he
    exact ⟨e, he⟩

theorem Filled.resizeCapacity {a a' : Archetype} {l l' : List (Option Entity)} {change : Nat} (h : Filled a l)
    (hr : a.resizeCapacity env (change : Int) = .ok a') (hl : a'.entityAssociations = some l') :
    a'.entityCount = a.entityCount ∧ ∀ k, k < a.entityCount → ∃ e, l'[k]? = some (some e) := by
  unfold Archetype.resizeCapacity at hr
  simp only [] at hr
  by_cases hn : (a.capacity : Int) + (change : Int) ≤ 0 ∨ (a.capacity : Int) + (change : Int) ≥ (MAX_ENTITIES_PER_ARCHETYPE : Int)
  · rw [if_pos hn] at hr
    unfold Archetype.dealloc at hr
    obtain ⟨x, _, hr⟩ := ebind_inv hr
    split at hr
    · injection hr with hr
      subst hr
      rw [show a.entityAssociations = some l from h.mem] at hl
      injection hl with hl
      subst hl
      exact ⟨rfl, h.init⟩
    · rw [h.mem] at hr
      simp only [] at hr
      split at hr
      · cases hr
      · injection hr with hr
        subst hr
        cases hl
  · rw [if_neg hn, h.mem] at hr
    simp only [] at hr
    by_cases hlen : l.length ≠ a.capacity
    · rw [if_pos hlen] at hr
      cases hr
    · rw [if_neg hlen] at hr
      obtain ⟨ptrs, _, hr⟩ := ebind_inv hr
      injection hr with hr
      subst hr
      injection hl with hl
      subst hl
      refine ⟨rfl, fun k hk => ?_⟩
      have h1 := h.len
      have h2 := h.count
      rw [List.getElem?_append_left (by rw [List.length_take]; omega), List.getElem?_take_of_lt (by omega)]
      exact h.init k hk

theorem Filled.resize {a a' : Archetype} {l l' : List (Option Entity)} (h : Filled a l)
    (hr : a.resizeIfNecessary env = .ok a') (hl : a'.entityAssociations = some l') :
    a'.entityCount = a.entityCount ∧ ∀ k, k < a.entityCount → ∃ e, l'[k]? = some (some e) := by
  unfold Archetype.resizeIfNecessary at hr
  by_cases hf : a.isFull = true
  · rw [if_pos hf] at hr
    exact h.resizeCapacity hr hl
  · rw [if_neg hf] at hr
    injection hr with hr
    subst hr
    rw [h.mem] at hl
    injection hl with hl
    subst hl
    exact ⟨rfl, h.init⟩

/-- One more place: all elements but the last one have been stored. -/
theorem grown {a : Archetype} {l : List (Option Entity)} {n : Nat} {s : Slice} (ha : a.entityAssociations = some l)
    (hc : a.entityCount = n + 1) (hi : ∀ k, k < n → ∃ e, l[k]? = some (some e)) (hs : a.entitiesRaw = .ok s) :
    ∃ (es : List Entity) (o : Option Entity), s = es.map some ++ [o] := by
  unfold Archetype.entitiesRaw at hs
  rw [ha] at hs
  simp only [] at hs
  split at hs
  · rename_i hle
    injection hs with hs
    subst hs
    rw [hc] at hle ⊢
    refine ⟨(l.take n).map (fun o => o.getD Entity.INVALID), l[n], ?_⟩
    rw [List.take_succ_eq_append_getElem (by omega), List.map_map]
    congr 1
    conv => lhs; rw [← List.map_id (l.take n)]
    refine List.map_congr_left fun o ho => ?_
    obtain ⟨k, hk, rfl⟩ := List.mem_take_iff_getElem.mp ho
    obtain ⟨e, he⟩ := hi k (by omega)
    rw [List.getElem?_eq_getElem (by omega)] at he
    injection he with he
    simp [he]
  · cases hs

theorem Filled.swapAt {a a' : Archetype} {l : List (Option Entity)} {i j : Nat} (h : Filled a l)
    (hs : a.swapEntityAt i j = .ok a') : ∃ l', Filled a' l' ∧ a'.entityCount = a.entityCount := by
  unfold Archetype.swapEntityAt at hs
  rw [h.mem] at hs
  simp only [] at hs
  split at hs
  · split at hs
    · rename_i hij
      injection hs with hs
      subst hs
      refine ⟨_, ⟨rfl, by simp [h.len], by simp [h.count], fun k hk => ?_⟩, rfl⟩
      have hk' : k < a.entityCount := hk
      have hc := h.count
      rw [List.getElem?_set, List.getElem?_set]
      obtain ⟨ei, hei⟩ := h.init i hij.1
      obtain ⟨ej, hej⟩ := h.init j hij.2
      simp only [List.getD_eq_getElem?_getD, hei, hej, List.length_set]
      split
      · rw [if_pos (by omega)]
        exact ⟨ei, rfl⟩
      · split
        · rw [if_pos (by omega)]
          exact ⟨ej, rfl⟩
        · exact h.init k hk'
    · cases hs
  · cases hs

theorem Filled.swap {a a' : Archetype} {l : List (Option Entity)} {i j : Nat} (h : Filled a l)
    (hs : a.swapEntities i j = .ok a') : ∃ l', Filled a' l' ∧ a'.entityCount = a.entityCount := by
  unfold Archetype.swapEntities at hs
  obtain ⟨ptrs, _, hs⟩ := ebind_inv hs
  exact Filled.swapAt (a := { a with pointers := ptrs }) ⟨h.mem, h.len, h.count, h.init⟩ hs

theorem Filled.shorter {a : Archetype} {l : List (Option Entity)} (h : Filled a l) {n : Nat} (hn : n ≤ a.entityCount) :
    Filled { a with entityCount := n } l :=
  ⟨h.mem, h.len, Nat.le_trans hn h.count, fun k hk => h.init k (Nat.lt_of_lt_of_le hk hn)⟩

theorem subU32_inv {a n : Nat} (ha : 0 < a) (h : subU32 env a 1 = .ok n) : n = a - 1 := by
  unfold subU32 at h
  rw [if_pos (by omega)] at h
  injection h with h
  exact h.symm

theorem ofSwap_ok {a : Archetype} {l : List (Option Entity)} (h : Filled a l) (idx : Nat) :
    ∃ L, ofSwap a idx = .ok L ∧ ∀ s ∈ L, Init s := by
  unfold ofSwap
  split
  · exact ⟨[], rfl, by simp⟩
  · obtain ⟨s, hs, hi⟩ := h.slice
    rw [hs]
    exact ⟨[s], rfl, fun t ht => by rw [List.mem_singleton.mp ht]; exact hi⟩

theorem ofLookup_ok {a : Archetype} {l : List (Option Entity)} (h : Filled a l) (b : Bool) :
    ∃ L, ofLookup b a = .ok L ∧ ∀ s ∈ L, Init s := by
  unfold ofLookup
  split
  · obtain ⟨s, hs, hi⟩ := h.slice
    rw [hs]
    exact ⟨[s], rfl, fun t ht => by rw [List.mem_singleton.mp ht]; exact hi⟩
  · exact ⟨[], rfl, by simp⟩

theorem Filled.swapDrop {a : Archetype} {l : List (Option Entity)} {idx : Nat} {x : Archetype × Bool × List Val}
    (h : Filled a l) (hpos : 0 < a.entityCount) (hx : a.swapDropUnchecked env idx = .ok x) : ∃ l', Filled x.1 l' := by
  unfold Archetype.swapDropUnchecked at hx
  obtain ⟨_, _, hx⟩ := ebind_inv hx
  obtain ⟨last, hlast, hx⟩ := ebind_inv hx
  split at hx
  · obtain ⟨_, _, hx⟩ := ebind_inv hx
    obtain ⟨n, hn, hx⟩ := ebind_inv hx
    injection hx with hx
    subst hx
    have := subU32_inv hpos hn
    exact ⟨l, h.shorter (by omega)⟩
  · obtain ⟨b, hb, hx⟩ := ebind_inv hx
    obtain ⟨l', hl', hc⟩ := h.swap hb
    obtain ⟨_, _, hx⟩ := ebind_inv hx
    obtain ⟨_, _, hx⟩ := ebind_inv hx
    obtain ⟨n, hn, hx⟩ := ebind_inv hx
    injection hx with hx
    subst hx
    have := subU32_inv (by omega) hn
    exact ⟨l', hl'.shorter (by omega)⟩

theorem Filled.swapRemove {a : Archetype} {l : List (Option Entity)} {g : Group} {idx : Nat} {x : Archetype × List Val × Bool}
    (h : Filled a l) (hpos : 0 < a.entityCount) (hx : a.swapRemoveUnchecked env g idx = .ok x) : ∃ l', Filled x.1 l' := by
  unfold Archetype.swapRemoveUnchecked at hx
  obtain ⟨_, _, hx⟩ := ebind_inv hx
  obtain ⟨last, hlast, hx⟩ := ebind_inv hx
  split at hx
  · obtain ⟨_, _, hx⟩ := ebind_inv hx
    obtain ⟨n, hn, hx⟩ := ebind_inv hx
    injection hx with hx
    subst hx
    have := subU32_inv hpos hn
    exact ⟨l, h.shorter (by omega)⟩
  · obtain ⟨b, hb, hx⟩ := ebind_inv hx
    obtain ⟨l', hl', hc⟩ := h.swap hb
    obtain ⟨_, _, hx⟩ := ebind_inv hx
    obtain ⟨_, _, hx⟩ := ebind_inv hx
    obtain ⟨n, hn, hx⟩ := ebind_inv hx
    injection hx with hx
    subst hx
    have := subU32_inv (by omega) hn
    exact ⟨l', hl'.shorter (by omega)⟩

theorem Filled.swapToLast {a : Archetype} {l : List (Option Entity)} {idx : Nat} {x : Archetype × Bool}
    (h : Filled a l) (hx : a.swapToLastUnchecked env idx = .ok x) : ∃ l', Filled x.1 l' := by
  unfold Archetype.swapToLastUnchecked at hx
  obtain ⟨_, _, hx⟩ := ebind_inv hx
  obtain ⟨last, hlast, hx⟩ := ebind_inv hx
  split at hx
  · injection hx with hx
    subst hx
    exact ⟨l, h⟩
  · obtain ⟨b, hb, hx⟩ := ebind_inv hx
    obtain ⟨l', hl', hc⟩ := h.swap hb
    injection hx with hx
    subst hx
    exact ⟨l', hl'⟩

/-- A store in the slice succeeds only if the slice is in bounds. -/
theorem setEntityAt_inv {a a' : Archetype} {i : Nat} {e : Entity} (h : a.setEntityAt i e = .ok a') :
    ∃ l s, a.entityAssociations = some l ∧ a.entitiesRaw = .ok s := by
  unfold Archetype.setEntityAt at h
  unfold Archetype.entitiesRaw
  cases ha : a.entityAssociations with
  | none => rw [ha] at h; cases h
  | some l =>
    rw [ha] at h
    simp only [] at h ⊢
    by_cases hc : a.entityCount ≤ l.length
    · rw [if_pos hc]
      exact ⟨l, _, rfl, rfl⟩
    · rw [if_neg hc] at h
      cases h

theorem entitiesRaw_congr {a b : Archetype} (h1 : a.entityAssociations = b.entityAssociations) (h2 : a.entityCount = b.entityCount) :
    a.entitiesRaw = b.entitiesRaw := by
  unfold Archetype.entitiesRaw
  rw [h1, h2]

theorem copyCommon_inv {src dst d : Archetype} {i j : Nat} (h : Archetype.copyCommonComponents src i dst j = .ok d) :
    d.entityAssociations = dst.entityAssociations ∧ d.entityCount = dst.entityCount := by
  unfold Archetype.copyCommonComponents at h
  obtain ⟨ptrs, _, h⟩ := ebind_inv h
  injection h with h
  subst h
  exact ⟨rfl, rfl⟩

/-- Pushing an entity: the slice made after it, in an archetype that differs only in the components. -/
theorem Filled.pushed {a b d : Archetype} {l : List (Option Entity)} {i : Nat} {e : Entity} (h : Filled a l)
    (hr : a.resizeIfNecessary env = .ok b) (h1 : d.entityAssociations = b.entityAssociations)
    (h2 : d.entityCount = b.entityCount + 1) {d' : Archetype} (hs : d.setEntityAt i e = .ok d') :
    ∃ s, { b with entityCount := b.entityCount + 1 }.entitiesRaw = .ok s ∧
      ∃ (es : List Entity) (o : Option Entity), s = es.map some ++ [o] := by
  obtain ⟨l', s, hl', hs'⟩ := setEntityAt_inv hs
  obtain ⟨hc, hi⟩ := h.resize hr (h1 ▸ hl')
  refine ⟨s, ?_, ?_⟩
  · rw [← hs']
    exact entitiesRaw_congr h1.symm h2.symm
  · exact grown hl' h2 (fun k hk => hi k (by omega)) hs'

theorem writeSingle_inv {a a' : Archetype} {c : CompTy} {i : Nat} {v : Val} (h : a.writeSingleComponentUnchecked c i v = .ok a') :
    a'.entityAssociations = a.entityAssociations ∧ a'.entityCount = a.entityCount := by
  unfold Archetype.writeSingleComponentUnchecked at h
  obtain ⟨p, _, h⟩ := ebind_inv h
  unfold Archetype.writeRef at h
  obtain ⟨_, _, h⟩ := ebind_inv h
  obtain ⟨_, _, h⟩ := ebind_inv h
  obtain ⟨_, _, h⟩ := ebind_inv h
  injection h with h
  subst h
  exact ⟨rfl, rfl⟩

/-- A new archetype. -/
def Blank (a : Archetype) : Prop :=
  a.entityCount = 0 ∧ a.capacity = 128 ∧ a.entityAssociations = some (List.replicate 128 none)

theorem Blank.filled {a : Archetype} (h : Blank a) : ∃ l, Filled a l :=
  ⟨_, h.2.2, by rw [h.2.1]; exact List.length_replicate, by rw [h.1]; exact Nat.zero_le _, fun k hk => by rw [h.1] at hk; omega⟩

theorem findOrCreate_blank {ar : ArchetypeRegistry} {d : ArchetypeDescriptor} {f : ArchetypeRegistry × Option UInt16}
    (h : ar.findOrCreateArchetype env d = .ok f) :
    f.1 = ar ∨ ∃ a i, f.1.archetypes = ar.archetypes ++ [a] ∧ Blank a ∧ f.2 = some i ∧ i.toNat = ar.archetypes.length := by
  have h0 := h
  unfold ArchetypeRegistry.findOrCreateArchetype at h
  split at h
  · injection h with h
    subst h
    exact .inl rfl
  · obtain ⟨s, _, h⟩ := ebind_inv h
    split at h
    · obtain ⟨k, _, h⟩ := ebind_inv h
      obtain ⟨a, ha, h⟩ := ebind_inv h
      injection h with h
      subst h
      exact .inl rfl
    · split at h
      · injection h with h
        subst h
        exact .inl rfl
      · obtain ⟨a, ha, h⟩ := ebind_inv h
        obtain ⟨_, _, h⟩ := ebind_inv h
        injection h with h
        subst h
        refine .inr ⟨a, _, rfl, ?_, rfl, ?_⟩
        · unfold Archetype.withCapacity at ha
          obtain ⟨_, _, ha⟩ := ebind_inv ha
          rw [if_pos (by decide)] at ha
          obtain ⟨_, _, ha⟩ := ebind_inv ha
          injection ha with ha
          subst ha
          exact ⟨rfl, rfl, rfl⟩
        · rcases findOrCreate_inv h0 _ rfl with ⟨h1, _⟩ | ⟨_, _, h2⟩
          · have := congrArg (fun x : ArchetypeRegistry => x.archetypes.length) h1
            simp at this
          · exact h2

/-- The first entity of an archetype: its place is not yet initialised. -/
theorem Blank.pushed {a b : Archetype} (h : Blank a) (hr : a.resizeIfNecessary env = .ok b) :
    { b with entityCount := b.entityCount + 1 }.entitiesRaw = .ok [none] := by
  unfold Archetype.resizeIfNecessary Archetype.isFull at hr
  rw [if_neg (by rw [h.1, h.2.1]; decide)] at hr
  injection hr with hr
  subst hr
  unfold Archetype.entitiesRaw
  simp only [h.2.2, h.1, List.length_replicate]
  rw [if_pos (by decide), List.take_replicate]
  rfl

/-! ## The calls -/

/-- All slices but the last one are initialised; the last one may only lack its last element, and only if the call puts an
entity there. -/
def Fine (c : Call) (L : List Slice) : Prop :=
  (∀ s ∈ L.dropLast, Init s) ∧
  ∀ s, L.getLast? = some s → Init s ∨ (Grows c ∧ ∃ es : List Entity, s = es.map some ++ [none])

theorem Fine.of_init {c : Call} {L : List Slice} (h : ∀ s ∈ L, Init s) : Fine c L :=
  ⟨fun s hs => h s ((List.dropLast_sublist _).subset hs), fun s hs => .inl (h s (List.mem_of_getLast? hs))⟩

theorem Fine.snoc {c : Call} {L : List Slice} {s : Slice} (h : ∀ s ∈ L, Init s) (hc : Grows c)
    (hs : ∃ (es : List Entity) (o : Option Entity), s = es.map some ++ [o]) : Fine c (L ++ [s]) := by
  refine ⟨by rw [List.dropLast_concat]; exact h, fun t ht => ?_⟩
  rw [List.getLast?_concat] at ht
  injection ht with ht
  subst ht
  obtain ⟨es, o, rfl⟩ := hs
  cases o with
  | none => exact .inr ⟨hc, es, rfl⟩
  | some e =>
    refine .inl fun o ho => ?_
    rcases List.mem_append.mp ho with h | h
    · obtain ⟨x, _, rfl⟩ := List.mem_map.mp h
      exact ⟨x, rfl⟩
    · rw [List.mem_singleton.mp h]
      exact ⟨e, rfl⟩

theorem arch_filled {cs : List Content} (hI : RInv W r cs) {i : Nat} {a : Archetype} (ha : r.archetypes.archetypes[i]? = some a) :
    ∃ l, Filled a l := by
  have hi := (List.getElem?_eq_some_iff.mp ha).1
  exact Filled.of_rep (hI.arch.rep i a _ ha (List.getElem?_eq_getElem (hI.arch.len ▸ hi)))

/-- The archetypes after `find_or_create_archetype`; one that was not there before is blank. -/
theorem found_filled {cs : List Content} (hI : RInv W r cs) {d : ArchetypeDescriptor} {f : ArchetypeRegistry × Option UInt16}
    (hf : r.archetypes.findOrCreateArchetype env d = .ok f) {i : Nat} {a : Archetype} (ha : f.1.archetypes[i]? = some a) :
    (∃ l, Filled a l) ∧ (r.archetypes.archetypes.length ≤ i → Blank a) := by
  rcases findOrCreate_blank hf with h | ⟨b, _, h, hb, _, _⟩
  · rw [h] at ha
    exact ⟨arch_filled hI ha, fun hle => absurd (List.getElem?_eq_some_iff.mp ha).1 (by omega)⟩
  · rw [h] at ha
    by_cases hi : i < r.archetypes.archetypes.length
    · rw [List.getElem?_append_left hi] at ha
      exact ⟨arch_filled hI ha, fun hle => absurd hi (by omega)⟩
    · rw [List.getElem?_append_right (by omega)] at ha
      have hab : a = b := by
        have := List.mem_of_getElem? ha
        simpa using this
      subst hab
      exact ⟨hb.filled, fun _ => hb⟩

theorem create_ok {cs : List Content} (hI : RInv W r cs) {g : Group} {vals : List Val}
    {x : Registry × Registry.Res Entity (List Val)} (hx : r.createEntity env g vals = .ok x) :
    ∃ L, create env r g vals = .ok L ∧ Fine (.create g vals) L ∧
      ∀ e, x.2 = .ok e → r.archetypes.archetypes.length < x.1.archetypes.archetypes.length → L.getLast? = some [none] := by
  have hx0 := hx
  unfold create
  rw [hx]
  simp only [Except.bind, bind]
  cases hout : x.2 with
  | err v => exact ⟨[], rfl, Fine.of_init (by simp), fun e he => by cases he⟩
  | ok e =>
    simp only []
    unfold Registry.createEntity at hx
    split at hx
    · injection hx with hx
      subst hx
      cases hout
    · obtain ⟨f, hf, hx⟩ := ebind_inv hx
      rw [hf]
      simp only []
      cases hi : f.2 with
      | none =>
        rw [hi] at hx
        injection hx with hx
        subst hx
        cases hout
      | some ai =>
        rw [hi] at hx
        simp only [] at hx ⊢
        obtain ⟨a, ha, hx⟩ := ebind_inv hx
        rw [ha]
        simp only []
        obtain ⟨_, _, hx⟩ := ebind_inv hx
        obtain ⟨_, _, hx⟩ := ebind_inv hx
        obtain ⟨c, _, hx⟩ := ebind_inv hx
        split at hx
        · injection hx with hx
          subst hx
          cases hout
        · obtain ⟨p, hp, hx⟩ := ebind_inv hx
          injection hx with hx
          subst hx
          unfold Archetype.pushEntityUnchecked at hp
          obtain ⟨_, _, hp⟩ := ebind_inv hp
          obtain ⟨_, _, hp⟩ := ebind_inv hp
          obtain ⟨b, hb, hp⟩ := ebind_inv hp
          obtain ⟨d, hd, hp⟩ := ebind_inv hp
          unfold Archetype.writeEntityUnchecked at hd
          obtain ⟨_, _, hd⟩ := ebind_inv hd
          obtain ⟨_, _, hd⟩ := ebind_inv hd
          obtain ⟨_, _, hd⟩ := ebind_inv hd
          obtain ⟨ptrs, _, hd⟩ := ebind_inv hd
          obtain ⟨⟨l, hl⟩, hblank⟩ := found_filled hI hf (index_inv ha)
          obtain ⟨s, hs, hform⟩ := hl.pushed hb (d := { b with entityCount := b.entityCount + 1, pointers := ptrs }) rfl rfl hd
          rw [hb]
          simp only []
          rw [hs]
          refine ⟨[s], rfl, Fine.snoc (L := []) (by simp) trivial hform, fun _ _ hlt => ?_⟩
          simp only [ArchetypeRegistry.setArchetype, List.length_set] at hlt
          rcases findOrCreate_inv hf ai hi with ⟨h1, _⟩ | ⟨_, _, h2⟩
          · rw [h1] at hlt
            omega
          · have := (hblank (by omega)).pushed hb
            rw [hs] at this
            injection this with this
            rw [this]
            rfl

theorem destroy_ok {cs : List Content} (hI : RInv W r cs) {e : Entity} {x : Registry × Bool × List Val}
    (hx : r.destroyEntity env e = .ok x) : ∃ L, destroy env r e = .ok L ∧ ∀ s ∈ L, Init s := by
  unfold destroy
  unfold Registry.destroyEntity at hx
  cases he : r.entities.entityEntry env e with
  | none => exact ⟨[], rfl, by simp⟩
  | some en =>
    rw [he] at hx
    simp only [] at hx ⊢
    obtain ⟨a, ha, hlt⟩ := Borrow.entry_row hI he
    obtain ⟨l, hl⟩ := arch_filled hI ha
    obtain ⟨a', ha', hx⟩ := ebind_inv hx
    rw [Borrow.getUnchecked_of ha] at ha'
    injection ha' with ha'
    subst ha'
    obtain ⟨s, hs, hx⟩ := ebind_inv hx
    obtain ⟨L1, h1, i1⟩ := ofSwap_ok hl en.indexInArchetype.value.toNat
    obtain ⟨l', hl'⟩ := hl.swapDrop (by omega) hs
    obtain ⟨L2, h2, i2⟩ := ofLookup_ok hl' s.2.1
    refine ⟨L1 ++ L2, ?_, fun s hs => (List.mem_append.mp hs).elim (i1 s) (i2 s)⟩
    rw [Borrow.getUnchecked_of ha]
    simp only [Except.bind, bind]
    rw [h1]
    simp only []
    rw [hs]
    simp only []
    rw [h2]
    rfl

theorem removeEntity_ok {cs : List Content} (hI : RInv W r cs) {g : Group} {e : Entity} {x : Registry × Option (List Val)}
    (hx : r.removeEntity env g e = .ok x) : ∃ L, removeEntity env r g e = .ok L ∧ ∀ s ∈ L, Init s := by
  unfold removeEntity
  unfold Registry.removeEntity at hx
  cases he : r.entities.entityEntry env e with
  | none => exact ⟨[], rfl, by simp⟩
  | some en =>
    rw [he] at hx
    simp only [] at hx ⊢
    obtain ⟨a, ha, hlt⟩ := Borrow.entry_row hI he
    obtain ⟨l, hl⟩ := arch_filled hI ha
    obtain ⟨a', ha', hx⟩ := ebind_inv hx
    rw [Borrow.getUnchecked_of ha] at ha'
    injection ha' with ha'
    subst ha'
    obtain ⟨s, hs, hx⟩ := ebind_inv hx
    obtain ⟨L1, h1, i1⟩ := ofSwap_ok hl en.indexInArchetype.value.toNat
    obtain ⟨l', hl'⟩ := hl.swapRemove (by omega) hs
    obtain ⟨L2, h2, i2⟩ := ofLookup_ok hl' s.2.2
    refine ⟨L1 ++ L2, ?_, fun s hs => (List.mem_append.mp hs).elim (i1 s) (i2 s)⟩
    rw [Borrow.getUnchecked_of ha]
    simp only [Except.bind, bind]
    rw [h1]
    simp only []
    rw [hs]
    simp only []
    rw [h2]
    rfl

theorem move_ok {src dst d d' : Archetype} {ls ld : List (Option Entity)} {idx i : Nat} {e : Entity} {s : Archetype × Bool}
    {p : Archetype × Nat} (hsrc : Filled src ls) (hdst : Filled dst ld) (hs : src.swapToLastUnchecked env idx = .ok s)
    (hp : dst.pushUninitializedEntity env = .ok p) (h1 : d.entityAssociations = p.1.entityAssociations)
    (h2 : d.entityCount = p.1.entityCount) (hd : d.setEntityAt i e = .ok d') :
    ∃ L t, move env src idx dst = .ok (L ++ [t]) ∧ (∀ s ∈ L, Init s) ∧
      (∃ (es : List Entity) (o : Option Entity), t = es.map some ++ [o]) ∧ (Blank dst → t = [none]) := by
  obtain ⟨L1, e1, i1⟩ := ofSwap_ok hsrc idx
  obtain ⟨l', hl'⟩ := hsrc.swapToLast hs
  obtain ⟨L2, e2, i2⟩ := ofLookup_ok hl' s.2
  obtain ⟨s3, e3, i3⟩ := hl'.slice
  have hp0 := hp
  unfold Archetype.pushUninitializedEntity at hp
  obtain ⟨b, hb, hp⟩ := ebind_inv hp
  injection hp with hp
  obtain ⟨t, ht, hform⟩ := hdst.pushed hb (d := d) (by rw [h1, ← hp]) (by rw [h2, ← hp]) hd
  refine ⟨L1 ++ L2 ++ [s3], t, ?_, ?_, hform, fun hbl => ?_⟩
  · unfold move
    rw [e1]
    simp only [Except.bind, bind]
    rw [hs]
    simp only []
    rw [e2]
    simp only []
    rw [hp0]
    simp only []
    rw [e3]
    simp only []
    rw [← hp]
    simp only []
    rw [ht]
    simp only [pure, Except.pure, List.append_assoc, List.cons_append, List.nil_append]
  · intro s hs
    rcases List.mem_append.mp hs with h | h
    · exact (List.mem_append.mp h).elim (i1 s) (i2 s)
    · rw [List.mem_singleton.mp h]
      exact i3
  · have := hbl.pushed hb
    rw [ht] at this
    injection this

/-- Where `find_or_create_archetype_adding_component` and `…_removing_component` lead. -/
theorem found_pair {cs : List Content} (hI : RInv W r cs) {d : ArchetypeDescriptor} {f : ArchetypeRegistry × Option UInt16}
    (hf : r.archetypes.findOrCreateArchetype env d = .ok f) {dst : UInt16} (hdst : f.2 = some dst) {i : Nat} {p : Nat × Nat}
    (hp : disjointMut f.1.archetypes i dst.toNat = some p) {a b : Archetype} (ha : f.1.archetypes[p.1]? = some a)
    (hb : f.1.archetypes[p.2]? = some b) :
    (∃ l, Filled a l) ∧ (∃ l, Filled b l) ∧ (r.archetypes.archetypes.length < f.1.archetypes.length → Blank b) := by
  obtain ⟨h1, h2⟩ := found_filled hI hf hb
  refine ⟨(found_filled hI hf ha).1, h1, fun hlt => h2 ?_⟩
  rw [(disjointMut_inv hp).1]
  rcases findOrCreate_inv hf dst hdst with ⟨h3, _⟩ | ⟨_, _, h3⟩
  · rw [h3] at hlt
    omega
  · exact Nat.le_of_eq h3.symm

theorem add_ok {cs : List Content} (hI : RInv W r cs) {e : Entity} {c : CompTy} {v : Val}
    {x : Registry × Registry.Res Unit Val} (hx : r.addComponent env e c v = .ok x) :
    ∃ L, add env r e c = .ok L ∧ Fine (.add e c v) L ∧
      (x.2 = .ok () → r.archetypes.archetypes.length < x.1.archetypes.archetypes.length → L.getLast? = some [none]) := by
  unfold add
  unfold Registry.addComponent at hx
  cases he : r.entities.entityEntry env e with
  | none =>
    rw [he] at hx
    injection hx with hx
    subst hx
    exact ⟨[], rfl, Fine.of_init (by simp), fun h => by cases h⟩
  | some en =>
    rw [he] at hx
    simp only [] at hx ⊢
    obtain ⟨f, hf, hx⟩ := ebind_inv hx
    rw [hf]
    simp only [Except.bind, bind]
    cases hi : f.2 with
    | none =>
      rw [hi] at hx
      injection hx with hx
      subst hx
      exact ⟨[], rfl, Fine.of_init (by simp), fun h => by cases h⟩
    | some y =>
      obtain ⟨si, dai, di⟩ := y
      rw [hi] at hx
      simp only [] at hx ⊢
      unfold ArchetypeRegistry.findOrCreateAdding at hf
      split at hf
      · injection hf with hf
        subst hf
        cases hi
      obtain ⟨a, _, hf⟩ := ebind_inv hf
      obtain ⟨nd, _, hf⟩ := ebind_inv hf
      cases nd with
      | none =>
        injection hf with hf
        subst hf
        cases hi
      | some nd =>
        simp only [] at hf
        obtain ⟨f1, hf1, hf⟩ := ebind_inv hf
        cases hd1 : f1.2 with
        | none =>
          rw [hd1] at hf
          injection hf with hf
          subst hf
          cases hi
        | some dst1 =>
          rw [hd1] at hf
          simp only [] at hf
          cases hp1 : disjointMut f1.1.archetypes (en.archetypeIndex env).toNat dst1.toNat with
          | none =>
            rw [hp1] at hf
            injection hf with hf
            subst hf
            cases hi
          | some p1 =>
            rw [hp1] at hf
            injection hf with hf
            subst hf
            injection hi with hi
            injection hi with hi1 hi2
            injection hi2 with hi2 hi3
            subst hi1 hi2 hi3
            obtain ⟨src, hsrc, hx⟩ := ebind_inv hx
            obtain ⟨dst, hdst, hx⟩ := ebind_inv hx
            obtain ⟨s, hs, hx⟩ := ebind_inv hx
            obtain ⟨ents, _, hx⟩ := ebind_inv hx
            obtain ⟨p, hp, hx⟩ := ebind_inv hx
            obtain ⟨sIdx, _, hx⟩ := ebind_inv hx
            obtain ⟨dIdx, _, hx⟩ := ebind_inv hx
            obtain ⟨d2, h2, hx⟩ := ebind_inv hx
            obtain ⟨d3, h3, hx⟩ := ebind_inv hx
            obtain ⟨hh, _, hx⟩ := ebind_inv hx
            obtain ⟨d4, h4, hx⟩ := ebind_inv hx
            obtain ⟨src2, _, hx⟩ := ebind_inv hx
            obtain ⟨_, _, hx⟩ := ebind_inv hx
            obtain ⟨_, _, hx⟩ := ebind_inv hx
            injection hx with hx
            subst hx
            obtain ⟨⟨ls, hls⟩, ⟨ld, hld⟩, hbl⟩ := found_pair hI hf1 hd1 hp1 (index_inv hsrc) (index_inv hdst)
            have c2 := copyCommon_inv h2
            have c3 := writeSingle_inv h3
            obtain ⟨L, t, e1, i1, k1, k2⟩ := move_ok hls hld hs hp (c3.1.trans c2.1) (c3.2.trans c2.2) h4
            refine ⟨L ++ [t], ?_, Fine.snoc i1 trivial k1, fun _ hlt => ?_⟩
            · rw [hsrc]
              simp only []
              rw [hdst]
              exact e1
            · simp only [ArchetypeRegistry.setArchetype, List.length_set] at hlt
              rw [k2 (hbl hlt), List.getLast?_concat]

theorem remove_ok {cs : List Content} (hI : RInv W r cs) {e : Entity} {c : CompTy}
    {x : Registry × Registry.Res Val Unit} (hx : r.removeComponent env e c = .ok x) :
    ∃ L, remove env r e c = .ok L ∧ Fine (.remove e c) L ∧
      (∀ v, x.2 = .ok v → r.archetypes.archetypes.length < x.1.archetypes.archetypes.length → L.getLast? = some [none]) := by
  unfold remove
  unfold Registry.removeComponent at hx
  cases he : r.entities.entityEntry env e with
  | none =>
    rw [he] at hx
    injection hx with hx
    subst hx
    exact ⟨[], rfl, Fine.of_init (by simp), fun v h => by cases h⟩
  | some en =>
    rw [he] at hx
    simp only [] at hx ⊢
    obtain ⟨f, hf, hx⟩ := ebind_inv hx
    rw [hf]
    simp only [Except.bind, bind]
    cases hi : f.2 with
    | none =>
      rw [hi] at hx
      injection hx with hx
      subst hx
      exact ⟨[], rfl, Fine.of_init (by simp), fun v h => by cases h⟩
    | some y =>
      obtain ⟨si, dai, di⟩ := y
      rw [hi] at hx
      simp only [] at hx ⊢
      unfold ArchetypeRegistry.findOrCreateRemoving at hf
      split at hf
      · injection hf with hf
        subst hf
        cases hi
      obtain ⟨a, _, hf⟩ := ebind_inv hf
      obtain ⟨nd, _, hf⟩ := ebind_inv hf
      cases nd with
      | none =>
        injection hf with hf
        subst hf
        cases hi
      | some nd =>
        simp only [] at hf
        obtain ⟨f1, hf1, hf⟩ := ebind_inv hf
        cases hd1 : f1.2 with
        | none =>
          rw [hd1] at hf
          injection hf with hf
          subst hf
          cases hi
        | some dst1 =>
          rw [hd1] at hf
          simp only [] at hf
          cases hp1 : disjointMut f1.1.archetypes (en.archetypeIndex env).toNat dst1.toNat with
          | none =>
            rw [hp1] at hf
            injection hf with hf
            subst hf
            cases hi
          | some p1 =>
            rw [hp1] at hf
            injection hf with hf
            subst hf
            injection hi with hi
            injection hi with hi1 hi2
            injection hi2 with hi2 hi3
            subst hi1 hi2 hi3
            obtain ⟨src, hsrc, hx⟩ := ebind_inv hx
            obtain ⟨dst, hdst, hx⟩ := ebind_inv hx
            obtain ⟨s, hs, hx⟩ := ebind_inv hx
            obtain ⟨ents, _, hx⟩ := ebind_inv hx
            obtain ⟨p, hp, hx⟩ := ebind_inv hx
            obtain ⟨sIdx, _, hx⟩ := ebind_inv hx
            obtain ⟨dIdx, _, hx⟩ := ebind_inv hx
            obtain ⟨d2, h2, hx⟩ := ebind_inv hx
            obtain ⟨w, _, hx⟩ := ebind_inv hx
            obtain ⟨hh, _, hx⟩ := ebind_inv hx
            obtain ⟨d4, h4, hx⟩ := ebind_inv hx
            obtain ⟨src2, _, hx⟩ := ebind_inv hx
            obtain ⟨_, _, hx⟩ := ebind_inv hx
            obtain ⟨_, _, hx⟩ := ebind_inv hx
            injection hx with hx
            subst hx
            obtain ⟨⟨ls, hls⟩, ⟨ld, hld⟩, hbl⟩ := found_pair hI hf1 hd1 hp1 (index_inv hsrc) (index_inv hdst)
            have c2 := copyCommon_inv h2
            obtain ⟨L, t, e1, i1, k1, k2⟩ := move_ok hls hld hs hp c2.1 c2.2 h4
            refine ⟨L ++ [t], ?_, Fine.snoc i1 trivial k1, fun _ _ hlt => ?_⟩
            · rw [hsrc]
              simp only []
              rw [hdst]
              exact e1
            · simp only [ArchetypeRegistry.setArchetype, List.length_set] at hlt
              rw [k2 (hbl hlt), List.getLast?_concat]

theorem slices_ok {l : List Archetype} (h : ∀ a ∈ l, ∃ m, Filled a m) :
    ∃ L, l.mapM Archetype.entitiesRaw = .ok L ∧ ∀ s ∈ L, Init s := by
  induction l with
  | nil => exact ⟨[], rfl, by simp⟩
  | cons a l ih =>
    obtain ⟨m, hm⟩ := h a (by simp)
    obtain ⟨s, hs, hi⟩ := hm.slice
    obtain ⟨L, hL, hI⟩ := ih fun b hb => h b (by simp [hb])
    refine ⟨s :: L, ?_, fun t ht => ?_⟩
    · rw [List.mapM_cons, hs]
      simp only [Except.bind, bind] at hL ⊢
      rw [hL]
      rfl
    · rcases List.mem_cons.mp ht with rfl | ht
      · exact hi
      · exact hI t ht

/-- **C93, the part that holds.** Whenever a call makes a reference to the handles of an archetype, all of them have been
stored before, with one exception: the last slice made by a call that puts an entity at a new place may contain that place,
and only that place may be uninitialised. -/
theorem C93_partial (hr : Reachable W r) {c : Call} {r' : Registry} {out : Outcome} (hrun : c.run env r = .ok (r', out)) :
    ∃ L, ofCall env r c = .ok L ∧ Fine c L := by
  obtain ⟨cs, hI⟩ := hr.inv
  cases c with
  | create g vals =>
    obtain ⟨x, hx, _⟩ := ebind_inv hrun
    obtain ⟨L, h1, h2, _⟩ := create_ok hI hx
    exact ⟨L, h1, h2⟩
  | destroy e =>
    obtain ⟨x, hx, _⟩ := ebind_inv hrun
    obtain ⟨L, h1, h2⟩ := destroy_ok hI hx
    exact ⟨L, h1, Fine.of_init h2⟩
  | removeEntity g e =>
    obtain ⟨x, hx, _⟩ := ebind_inv hrun
    obtain ⟨L, h1, h2⟩ := removeEntity_ok hI hx
    exact ⟨L, h1, Fine.of_init h2⟩
  | add e c v =>
    obtain ⟨x, hx, _⟩ := ebind_inv hrun
    obtain ⟨L, h1, h2, _⟩ := add_ok hI hx
    exact ⟨L, h1, h2⟩
  | remove e c =>
    obtain ⟨x, hx, _⟩ := ebind_inv hrun
    obtain ⟨L, h1, h2, _⟩ := remove_ok hI hx
    exact ⟨L, h1, h2⟩
  | write e c v => exact ⟨[], rfl, Fine.of_init (by simp)⟩
  | writeIn g e j v => exact ⟨[], rfl, Fine.of_init (by simp)⟩
  | writeIter it g n j k v =>
    obtain ⟨L, h1, h2⟩ := slices_ok (l := r.archetypes.archetypes) fun a ha => by
      obtain ⟨i, hi⟩ := List.mem_iff_getElem?.mp ha
      exact arch_filled hI hi
    exact ⟨L, h1, Fine.of_init h2⟩

/-- Between calls every slice of handles that can be asked for is initialised. -/
theorem C93_between (hr : Reachable W r) {a : Archetype} (ha : a ∈ r.archetypes.archetypes) :
    ∃ s, a.entitiesRaw = .ok s ∧ Init s := by
  obtain ⟨cs, hI⟩ := hr.inv
  obtain ⟨i, hi⟩ := List.mem_iff_getElem?.mp ha
  obtain ⟨l, hl⟩ := arch_filled hI hi
  exact hl.slice

/-- **C93 is violated by the first entity of every archetype.** A call that succeeds and for which a new archetype is made
makes a `&mut [Entity]` whose only element is uninitialised. -/
theorem C93_violated (hr : Reachable W r) {c : Call} {r' : Registry} {out : Outcome} (hrun : c.run env r = .ok (r', out))
    (hs : out.success = true) (hnew : r.archetypes.archetypes.length < r'.archetypes.archetypes.length) (hc : Grows c) :
    ∃ L s, ofCall env r c = .ok L ∧ s ∈ L ∧ ¬ Init s := by
  have key : ∀ L : List Slice, ofCall env r c = .ok L → L.getLast? = some [none] →
      ∃ L s, ofCall env r c = .ok L ∧ s ∈ L ∧ ¬ Init s := fun L h1 h2 =>
    ⟨L, _, h1, List.mem_of_getLast? h2, fun h => by obtain ⟨_, h⟩ := h none (by simp); cases h⟩
  obtain ⟨cs, hI⟩ := hr.inv
  cases c with
  | create g vals =>
    obtain ⟨x, hx, hrun⟩ := ebind_inv hrun
    obtain ⟨L, h1, _, h3⟩ := create_ok hI hx
    cases ho : x.2 with
    | ok e =>
      rw [ho] at hrun
      injection hrun with hrun
      injection hrun with h4 h5
      exact key L h1 (h3 e ho (h4 ▸ hnew))
    | err v =>
      rw [ho] at hrun
      injection hrun with hrun
      injection hrun with h4 h5
      subst h5
      cases hs
  | add e c v =>
    obtain ⟨x, hx, hrun⟩ := ebind_inv hrun
    obtain ⟨L, h1, _, h3⟩ := add_ok hI hx
    cases ho : x.2 with
    | ok e =>
      rw [ho] at hrun
      injection hrun with hrun
      injection hrun with h4 h5
      exact key L h1 (h3 ho (h4 ▸ hnew))
    | err v =>
      rw [ho] at hrun
      injection hrun with hrun
      injection hrun with h4 h5
      subst h5
      cases hs
  | remove e c =>
    obtain ⟨x, hx, hrun⟩ := ebind_inv hrun
    obtain ⟨L, h1, _, h3⟩ := remove_ok hI hx
    cases ho : x.2 with
    | ok e =>
      rw [ho] at hrun
      injection hrun with hrun
      injection hrun with h4 h5
      exact key L h1 (h3 e ho (h4 ▸ hnew))
    | err v =>
      rw [ho] at hrun
      injection hrun with hrun
      injection hrun with h4 h5
      subst h5
      cases hs
  | destroy e => cases hc
  | removeEntity g e => cases hc
  | write e c v => cases hc
  | writeIn g e j v => cases hc
  | writeIter it g n j k v => cases hc

/-! ## Examples -/

/-- The first entity of the first program: the slice is one uninitialised handle. -/
example : ofCall exEnv Registry.default (.create [exA] [exValA]) = .ok [[none]] := by decide +kernel

/-- The hypotheses of `C93_violated` hold for it. -/
example : (match (Call.create [exA] [exValA]).run exEnv Registry.default with
    | .ok (r', out) => out.success && decide (0 < r'.archetypes.archetypes.length)
    | .error _ => false) = true := by decide +kernel

set_option maxRecDepth 100000 in
/-- In `exR` there is no entity with exactly `exA` and `exB` any more, but there was one: its place is used again, and the
slice is initialised. -/
example : ofCall exEnv exR (.create [exA, exB] [exValA, exValB]) = .ok [[some exE3]] := by decide +kernel

set_option maxRecDepth 100000 in
/-- A second entity with `exA`: the first handle is initialised, the second is not. -/
example : ofCall exEnv exR (.create [exA] [exValA]) = .ok [[some exE2, none]] := by decide +kernel

set_option maxRecDepth 100000 in
/-- Adding a component: the slice of the source and that of the destination. -/
example : ofCall exEnv exR (.add exE2 exC exValC) = .ok [[some exE2], [none]] := by decide +kernel

end Shard.HandleSlices
