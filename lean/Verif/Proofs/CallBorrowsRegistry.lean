import Verif.Proofs.CallBorrows
import Verif.Proofs.Registry
/-!
# Stacked Borrows: the archetype registry and the calls
-/

set_option autoImplicit false

namespace Shard.Borrow

variable {env : Env} {W : World env} {T : Tags} {σ : State}

/-- Only the vector's pointer. -/
def vec (p : Nat) : Refs := fun _ => [(true, p)]

theorem vec_top {p i : Nat} : (vec p).Top true p i := ⟨true, [], rfl, fun h => h⟩

/-- More references than the vector's pointer. -/
def Above' (S : Refs) (p : Nat) : Prop := ∀ i, ∃ a, S i = a ++ vec p i

theorem Above'.push {S : Refs} {p : Nat} {I : List Nat} {x : Bool × Nat} (h : Above' S p) : Above' (S.push I x) p := by
  intro i
  obtain ⟨a, ha⟩ := h i
  unfold Refs.push
  by_cases hi : i ∈ I
  · exact ⟨x :: a, by rw [if_pos hi, ha]; rfl⟩
  · exact ⟨a, by rw [if_neg hi, ha]⟩

theorem Above'.vec {p : Nat} : Above' (vec p) p := fun _ => ⟨[], rfl⟩

theorem archs_take (n k : Nat) : (archs n).take k = ((List.range n).take k).map .struct := by
  unfold archs
  rw [List.map_take]

theorem archs_drop (n k : Nat) : (archs n).drop k = ((List.range n).drop k).map .struct := by
  unfold archs
  rw [List.map_drop]

theorem mem_take_range {n k i : Nat} : i ∈ (List.range n).take k ↔ i < k ∧ i < n := by
  rw [List.mem_take_iff_getElem]
  simp only [List.getElem_range, List.length_range]
  constructor
  · rintro ⟨j, hj, rfl⟩
    omega
  · rintro ⟨h1, h2⟩
    exact ⟨i, by omega, rfl⟩

theorem mem_drop_range {n k i : Nat} : i ∈ (List.range n).drop k ↔ k ≤ i ∧ i < n := by
  rw [List.mem_drop_iff_getElem]
  simp only [List.getElem_range, List.length_range]
  constructor
  · rintro ⟨j, hj, rfl⟩
    omega
  · rintro ⟨h1, h2⟩
    exact ⟨i - k, by omega, by omega⟩

theorem Good.getMut {n i : Nat} (h : Good (vec T.registry) T σ) (hi : i < n) :
    ∃ t σ' S, getMut T n i σ = .ok (t, σ') ∧ Good S T σ' ∧ S.Top true t i ∧ Above' S T.registry := by
  obtain ⟨u, σ1, e1, h1⟩ := h.retag (k := .mutRef) (t := T.registry) (List.range n) (fun _ _ => vec_top)
  obtain ⟨t, σ2, e2, h2⟩ := h1.retag1 (k := .mutRef) (t := u) (i := i) (Refs.top_push (List.mem_range.mpr hi))
  refine ⟨t, σ2, _, ?_, h2, Refs.top_one, Above'.vec.push.push⟩
  unfold Borrow.getMut archs
  rw [e1]
  exact e2

theorem Good.readSource {n i : Nat} (h : Good (vec T.registry) T σ) (hi : i < n) :
    ∃ σ', readSource T n i σ = .ok σ' ∧ Good (vec T.registry) T σ' := by
  obtain ⟨u, σ1, e1, h1⟩ := h.retag (k := .ref) (t := T.registry) (List.range n) (fun _ _ => vec_top.read)
  obtain ⟨t, σ2, e2, h2⟩ := h1.retag1 (k := .ref) (t := u) (i := i) (Refs.top_push (List.mem_range.mpr hi))
  obtain ⟨σ3, e3, h3⟩ := h2.peek (t := t) (i := i) Refs.top_one
  refine ⟨σ3, ?_, h3.pop.pop⟩
  unfold Borrow.readSource archs
  rw [e1]
  simp only [Except.bind, bind]
  rw [e2]
  exact e3

theorem Good.disjoint {n i j : Nat} (h : Good (vec T.registry) T σ) (hi : i < n) (hj : j < n) (hij : i ≠ j) :
    ∃ t u σ' S, disjoint T n i j σ = .ok (t, u, σ') ∧ Good S T σ' ∧ S.Top true t i ∧ S.Top true u j ∧ Above' S T.registry := by
  obtain ⟨t0, σ1, e1, h1⟩ := h.retag (k := .mutRef) (t := T.registry) (List.range n) (fun _ _ => vec_top)
  obtain ⟨t1, σ2, e2, h2⟩ := h1.retag (k := .mutRef) (t := t0) (List.range n) (fun _ hm => Refs.top_push hm)
  obtain ⟨t2, σ3, e3, h3⟩ := h2.retag (k := .raw) (t := t1) (List.range n) (fun _ hm => Refs.top_push hm)
  obtain ⟨hd, σ4, e4, h4⟩ := h3.retag (k := .mutRef) (t := t2) ((List.range n).take (min i j + 1))
    (fun _ hm => Refs.top_push (List.mem_of_mem_take hm))
  obtain ⟨tl, σ5, e5, h5⟩ := h4.retag (k := .mutRef) (t := t2) ((List.range n).drop (min i j + 1))
    (fun k hm => Refs.Top.push (Refs.top_push (List.mem_of_mem_drop hm)) (fun hk => by
      have := (mem_take_range.mp hk).1
      have := (mem_drop_range.mp hm).1
      omega))
  have hhead : ∀ k, k < n → k < min i j + 1 → Refs.Top ((((((vec T.registry).push (List.range n) (true, t0)).push (List.range n)
      (true, t1)).push (List.range n) (true, t2)).push ((List.range n).take (min i j + 1)) (true, hd)).push
      ((List.range n).drop (min i j + 1)) (true, tl)) true hd k := fun k hk hk' =>
    Refs.Top.push (Refs.top_push (mem_take_range.mpr ⟨hk', hk⟩)) (fun hm => by have := (mem_drop_range.mp hm).1; omega)
  have htail : ∀ k, k < n → min i j + 1 ≤ k → Refs.Top ((((((vec T.registry).push (List.range n) (true, t0)).push (List.range n)
      (true, t1)).push (List.range n) (true, t2)).push ((List.range n).take (min i j + 1)) (true, hd)).push
      ((List.range n).drop (min i j + 1)) (true, tl)) true tl k := fun k hk hk' => Refs.top_push (mem_drop_range.mpr ⟨hk', hk⟩)
  obtain ⟨t3, σ6, e6, h6⟩ := h5.retag1 (k := .mutRef) (t := if i < j then hd else tl) (i := i) (by
    split
    · exact hhead i hi (by omega)
    · exact htail i hi (by omega))
  obtain ⟨t4, σ7, e7, h7⟩ := h6.retag1 (k := .mutRef) (t := if i < j then tl else hd) (i := j) (by
    refine Refs.Top.push ?_ (by simpa using Ne.symm hij)
    split
    · exact htail j hj (by omega)
    · exact hhead j hj (by omega))
  refine ⟨t3, t4, σ7, _, ?_, h7, Refs.Top.push Refs.top_one (by simpa using hij), Refs.top_one,
    Above'.vec.push.push.push.push.push.push.push⟩
  unfold Borrow.disjoint
  rw [archs_take, archs_drop]
  unfold archs
  rw [e1]
  simp only [Except.bind, bind]
  rw [e2]
  simp only []
  rw [e3]
  simp only []
  rw [e4]
  simp only []
  rw [e5]
  simp only []
  rw [e6]
  simp only []
  rw [e7]
  rfl

theorem Good.pushArch {n : Nat} {moved : Bool} (h : Good (vec T.registry) T σ) :
    ∃ T' σ', pushArch T n moved σ = .ok (T', σ') ∧ Good (vec T'.registry) T' σ' := by
  unfold Borrow.pushArch
  cases moved with
  | false =>
    obtain ⟨σ1, e1, h1⟩ := h.access1 (w := true) (i := n) vec_top
    refine ⟨T, σ1, ?_, h1⟩
    rw [if_neg (by simp), e1]
    rfl
  | true =>
    obtain ⟨σ1, e1, h1⟩ := h.access (w := true) (t := T.registry) (List.range n) (fun _ _ => vec_top)
    have h2 : Good (vec σ1.next) { T with registry := σ1.next } (σ1.alloc Loc.isStruct).2 := by
      have h2 := Holds.alloc h1 Loc.isStruct
      unfold Good
      rw [show towers { T with registry := σ1.next } (vec σ1.next) = _ from funext fun l => ?_]
      · exact h2
      · cases l <;> rfl
    obtain ⟨σ3, e3, h3⟩ := h2.access (w := true) (t := σ1.next) (List.range (n + 1)) (fun _ _ => vec_top)
    refine ⟨{ T with registry := σ1.next }, σ3, ?_, h3⟩
    rw [if_pos rfl]
    unfold archs
    rw [e1]
    simp only [Except.bind, bind]
    rw [show (σ1.alloc Loc.isStruct).1 = σ1.next from rfl, e3]
    rfl

theorem ebind_inv {ε α β : Type} {x : Except ε α} {f : α → Except ε β} {y : β} (h : (x >>= f) = .ok y) :
    ∃ a, x = .ok a ∧ f a = .ok y := by
  cases x with
  | error e => cases h
  | ok a => exact ⟨a, rfl, h⟩

theorem index_inv {α : Type} {l : List α} {i : Nat} {a : α} (h : index l i = .ok a) : l[i]? = some a := by
  unfold index at h
  cases hl : l[i]? with
  | none => rw [hl] at h; cases h
  | some b =>
    rw [hl] at h
    cases h
    rfl

theorem findOrCreate_inv {ar : ArchetypeRegistry} {d : ArchetypeDescriptor} {f : ArchetypeRegistry × Option UInt16}
    (h : ar.findOrCreateArchetype env d = .ok f) : ∀ i, f.2 = some i →
    (f.1 = ar ∧ i.toNat < ar.archetypes.length) ∨
    (∃ a, f.1.archetypes = ar.archetypes ++ [a] ∧ i.toNat = ar.archetypes.length) := by
  intro i hi
  unfold ArchetypeRegistry.findOrCreateArchetype at h
  split at h
  · injection h with h
    subst h
    cases hi
  · obtain ⟨s, _, h⟩ := ebind_inv h
    split at h
    · obtain ⟨k, _, h⟩ := ebind_inv h
      obtain ⟨a, ha, h⟩ := ebind_inv h
      injection h with h
      subst h
      injection hi with hi
      subst hi
      exact .inl ⟨rfl, (List.getElem?_eq_some_iff.mp (index_inv ha)).1⟩
    · split at h
      · injection h with h
        subst h
        cases hi
      · rename_i hlt
        obtain ⟨a, _, h⟩ := ebind_inv h
        obtain ⟨_, _, h⟩ := ebind_inv h
        injection h with h
        subst h
        injection hi with hi
        subst hi
        refine .inr ⟨a, rfl, ?_⟩
        have hM : MAX_ARCHETYPE_COUNT = 65534 := rfl
        rw [UInt16.toNat_sub, UInt16.toNat_ofNat']
        simp only [List.length_append, List.length_cons, List.length_nil]
        have : (1 : UInt16).toNat = 1 := rfl
        rw [this]
        omega

theorem allocCols_ok {S : Refs} {i : Nat} (ds : List ComponentDescriptor) {T : Tags} {σ : State} (h : Good S T σ) :
    ∃ T' σ', forCols (allocCols i) 0 ds (T, σ) = .ok (T', σ') ∧ Good S T' σ' ∧ T'.registry = T.registry := by
  obtain ⟨⟨T', σ'⟩, e, h1, h2⟩ := forCols_ok (f := allocCols i) (P := fun x => Good S x.1 x.2 ∧ x.1.registry = T.registry)
    (fun c d x ⟨hx, hr⟩ => ⟨_, rfl, hx.allocCol i c, hr⟩) ds 0 (T, σ) ⟨h, rfl⟩
  exact ⟨T', σ', e, h1, h2⟩

theorem Good.findOrCreate {ar : ArchetypeRegistry} {d : ArchetypeDescriptor} {moved : Bool}
    {f : ArchetypeRegistry × Option UInt16} (hf : ar.findOrCreateArchetype env d = .ok f) (h : Good (vec T.registry) T σ) :
    ∃ (o : Option (Nat × Nat)) (T' : Tags) (σ' : State) (S : Refs),
      findOrCreate env T ar d moved σ = .ok (f.1, o, T', σ') ∧ Good S T' σ' ∧ Above' S T'.registry ∧
      o.map Prod.fst = f.2.map UInt16.toNat ∧ ∀ x, o = some x → S.Top true x.2 x.1 := by
  unfold Borrow.findOrCreate
  rw [lift_ok hf]
  simp only [Except.bind, bind]
  cases hi : f.2 with
  | none =>
    exact ⟨none, T, σ, _, rfl, h, Above'.vec, rfl, fun _ h => by cases h⟩
  | some i =>
    rcases findOrCreate_inv hf i hi with ⟨h1, h2⟩ | ⟨a, h1, h2⟩
    · obtain ⟨t, σ1, S, e1, k1, k2, k3⟩ := h.getMut h2
      refine ⟨some (i.toNat, t), T, σ1, S, ?_, k1, k3, rfl, fun x hx => ?_⟩
      · simp only []
        rw [if_pos (by rw [h1]), h1, e1]
        rfl
      · injection hx with hx
        subst hx
        exact k2
    · obtain ⟨T1, σ1, e1, k1, r1⟩ := allocCols_ok (i := ar.archetypes.length) d.components (h.allocEnt ar.archetypes.length)
      rw [show T.registry = T1.registry from r1.symm] at k1
      obtain ⟨T2, σ2, e2, k2⟩ := k1.pushArch (n := ar.archetypes.length) (moved := moved)
      obtain ⟨t, σ3, S, e3, k3, k4, k5⟩ := k2.getMut (n := f.1.archetypes.length) (i := i.toNat) (by rw [h1, h2]; simp)
      refine ⟨some (i.toNat, t), T2, σ3, S, ?_, k3, k5, rfl, fun x hx => ?_⟩
      · simp only []
        rw [if_neg (by rw [h1]; simp), e1]
        simp only []
        rw [e2]
        simp only []
        rw [e3]
        rfl
      · injection hx with hx
        subst hx
        exact k4

theorem Good.base {S : Refs} {p : Nat} (h : Good S T σ) (ha : Above' S p) : Good (vec p) T σ := h.weaken ha

theorem Good.create {r : Registry} {g : Group} {vals : List Val} {moved : Bool} {x : Registry × Registry.Res Entity (List Val)}
    (hx : r.createEntity env g vals = .ok x) (h : Good (vec T.registry) T σ) :
    ∃ T' σ', create env T r g vals moved σ = .ok (x.1, T', σ') ∧ Good (vec T'.registry) T' σ' := by
  have hx0 := hx
  unfold Borrow.create
  rw [lift_ok hx]
  simp only [Except.bind, bind]
  unfold Registry.createEntity at hx
  split at hx
  · rename_i hv
    rw [if_pos hv]
    exact ⟨T, σ, rfl, h⟩
  · rename_i hv
    rw [if_neg hv]
    obtain ⟨f, hf, hx⟩ := ebind_inv hx
    obtain ⟨o, T1, σ1, S, e1, h1, a1, ho, hs⟩ := h.findOrCreate (moved := moved) hf
    rw [e1]
    simp only []
    cases o with
    | none => exact ⟨T1, σ1, rfl, h1.base a1⟩
    | some y =>
      obtain ⟨i, t⟩ := y
      cases hi : f.2 with
      | none => rw [hi] at ho; cases ho
      | some ai =>
        rw [hi] at ho hx
        simp only [Option.map_some, Option.some.injEq] at ho
        subst ho
        simp only [] at hx
        obtain ⟨a, ha, hx⟩ := ebind_inv hx
        have ht : S.Top true t ai.toNat := hs _ rfl
        simp only []
        rw [lift_ok ha]
        simp only []
        obtain ⟨σ2, e2, h2⟩ := h1.peek ht.read
        rw [e2]
        simp only []
        cases x.2 with
        | err v => exact ⟨T1, σ2, rfl, h2.base a1⟩
        | ok v =>
          obtain ⟨T3, σ3, e3, h3, r3⟩ := h2.pushEntity (a := a) ht
          simp only []
          rw [e3]
          exact ⟨T3, σ3, rfl, by rw [r3]; exact h3.base a1⟩

section
variable {r : Registry} {cs : List Content}

/-- Where a live entity is. -/
theorem entry_row (h : RInv W r cs) {e : Entity} {en : EntityEntry} (he : r.entities.entityEntry env e = some en) :
    ∃ a, r.archetypes.archetypes[(en.archetypeIndex env).toNat]? = some a ∧ en.indexInArchetype.value.toNat < a.entityCount := by
  obtain ⟨a, ct, h1, h2, h3, h4, _⟩ := h.entry he
  refine ⟨a, h1, ?_⟩
  rw [h3.count]
  exact (List.getElem?_eq_some_iff.mp h4).1

theorem getUnchecked_of {ar : ArchetypeRegistry} {i : UInt16} {a : Archetype} (h : ar.archetypes[i.toNat]? = some a) :
    ar.getUnchecked i = .ok a := by
  unfold ArchetypeRegistry.getUnchecked
  first
  | exact indexUnchecked_of_getElem? h
  | exact index_of_getElem? h

theorem Good.destroy (hI : RInv W r cs) {e : Entity} {x : Registry × Bool × List Val}
    (hx : r.destroyEntity env e = .ok x) (h : Good (vec T.registry) T σ) :
    ∃ σ', destroy env T r e σ = .ok (x.1, T, σ') ∧ Good (vec T.registry) T σ' := by
  unfold Borrow.destroy
  rw [lift_ok hx]
  simp only [Except.bind, bind]
  cases he : r.entities.entityEntry env e with
  | none => exact ⟨σ, rfl, h⟩
  | some en =>
    obtain ⟨a, ha, hlt⟩ := entry_row hI he
    simp only []
    rw [lift_ok (getUnchecked_of ha)]
    simp only []
    obtain ⟨t, σ1, S, e1, h1, k1, a1⟩ := h.getMut (n := r.archetypes.archetypes.length)
      (i := (en.archetypeIndex env).toNat) (List.getElem?_eq_some_iff.mp ha).1
    rw [e1]
    simp only []
    obtain ⟨σ2, e2, h2⟩ := h1.swapDrop (a := a) k1 hlt
    rw [e2]
    simp only []
    split
    · exact ⟨σ2, rfl, h2.base a1⟩
    · obtain ⟨σ3, e3, h3⟩ := h2.readEnts (count := a.entityCount - 1)
        (ls := [.entity (en.archetypeIndex env).toNat en.indexInArchetype.value.toNat]) k1.read (fun l hl => by
          rw [List.mem_singleton.mp hl]
          exact mem_ents (by omega))
      rw [e3]
      exact ⟨σ3, rfl, h3.base a1⟩

theorem Good.remove (hI : RInv W r cs) {g : Group} {e : Entity} {x : Registry × Option (List Val)}
    (hx : r.removeEntity env g e = .ok x) (h : Good (vec T.registry) T σ) :
    ∃ σ', remove env T r g e σ = .ok (x.1, T, σ') ∧ Good (vec T.registry) T σ' := by
  unfold Borrow.remove
  rw [lift_ok hx]
  simp only [Except.bind, bind]
  cases he : r.entities.entityEntry env e with
  | none => exact ⟨σ, rfl, h⟩
  | some en =>
    obtain ⟨a, ha, hlt⟩ := entry_row hI he
    simp only []
    rw [lift_ok (getUnchecked_of ha)]
    simp only []
    obtain ⟨t, σ1, S, e1, h1, k1, a1⟩ := h.getMut (n := r.archetypes.archetypes.length)
      (i := (en.archetypeIndex env).toNat) (List.getElem?_eq_some_iff.mp ha).1
    rw [e1]
    simp only []
    obtain ⟨σ2, e2, h2⟩ := h1.swapRemove (a := a) k1 hlt
    rw [e2]
    simp only []
    split
    · exact ⟨σ2, rfl, h2.base a1⟩
    · obtain ⟨σ3, e3, h3⟩ := h2.readEnts (count := a.entityCount - 1)
        (ls := [.entity (en.archetypeIndex env).toNat en.indexInArchetype.value.toNat]) k1.read (fun l hl => by
          rw [List.mem_singleton.mp hl]
          exact mem_ents (by omega))
      rw [e3]
      exact ⟨σ3, rfl, h3.base a1⟩

theorem disjointMut_inv {α : Type} {l : List α} {i j : Nat} {p : Nat × Nat} (h : disjointMut l i j = some p) :
    p = (i, j) ∧ i ≠ j ∧ i < l.length ∧ j < l.length := by
  unfold disjointMut at h
  split at h
  · cases h
  · split at h
    · injection h with h
      subst h
      refine ⟨Prod.ext (by show _ = i; omega) (by show _ = j; omega), by omega, by omega, by omega⟩
    · injection h with h
      subst h
      refine ⟨Prod.ext (by show _ = i; omega) (by show _ = j; omega), by omega, by omega, by omega⟩

theorem Good.moveTo (hI : RInv W r cs) {w : Bool} {e : Entity} {en : EntityEntry} {nd : ArchetypeDescriptor} {id : UInt16}
    {moved : Bool} {f : ArchetypeRegistry × Option UInt16} (he : r.entities.entityEntry env e = some en)
    (hf : r.archetypes.findOrCreateArchetype env nd = .ok f) (h : Good (vec T.registry) T σ) :
    ∃ T' σ', moveTo env w T r en nd id moved σ = .ok (T', σ') ∧ Good (vec T'.registry) T' σ' := by
  obtain ⟨a, ha, hlt⟩ := entry_row hI he
  obtain ⟨o, T1, σ1, S, e1, h1, a1, ho, hs⟩ := h.findOrCreate (moved := moved) hf
  unfold Borrow.moveTo
  rw [e1]
  simp only [Except.bind, bind]
  cases o with
  | none => exact ⟨T1, σ1, rfl, h1.base a1⟩
  | some y =>
    obtain ⟨j, t⟩ := y
    simp only []
    cases hd : disjointMut f.1.archetypes (en.archetypeIndex env).toNat j with
    | none => exact ⟨T1, σ1, rfl, h1.base a1⟩
    | some p =>
      obtain ⟨hp, hij, hi, hj⟩ := disjointMut_inv hd
      subst hp
      simp only []
      obtain ⟨t1, u1, σ2, S2, e2, h2, k1, k2, a2⟩ := (h1.base a1).disjoint hi hj hij
      rw [e2]
      simp only []
      have hfa : f.1.archetypes[(en.archetypeIndex env).toNat]? = some a := by
        cases h2 : f.2 with
        | none => rw [h2] at ho; cases ho
        | some k =>
          rcases findOrCreate_inv hf k h2 with ⟨h3, _⟩ | ⟨b, h3, _⟩
          · rw [h3]; exact ha
          · rw [h3, List.getElem?_append_left (List.getElem?_eq_some_iff.mp ha).1]; exact ha
      rw [lift_ok (index_of_getElem? hfa)]
      simp only []
      rw [lift_ok (index_of_getElem? (List.getElem?_eq_getElem hj))]
      simp only []
      obtain ⟨T3, σ3, e3, h3, r3⟩ := h2.move (w := w) (a := a) (b := f.1.archetypes[j]) (id := id) k1 k2 hij hlt
      exact ⟨T3, σ3, e3, by rw [r3]; exact h3.base a2⟩

theorem Good.add (hI : RInv W r cs) {e : Entity} {c : CompTy} {v : Val} {moved : Bool} {x : Registry × Registry.Res Unit Val}
    (hx : r.addComponent env e c v = .ok x) (h : Good (vec T.registry) T σ) :
    ∃ T' σ', add env T r e c v moved σ = .ok (x.1, T', σ') ∧ Good (vec T'.registry) T' σ' := by
  unfold Borrow.add
  rw [lift_ok hx]
  simp only [Except.bind, bind]
  cases he : r.entities.entityEntry env e with
  | none => exact ⟨T, σ, rfl, h⟩
  | some en =>
    obtain ⟨a, ha, hlt⟩ := entry_row hI he
    have hi := (List.getElem?_eq_some_iff.mp ha).1
    simp only []
    rw [lift_ok (index_of_getElem? ha)]
    simp only []
    obtain ⟨σ1, e1, h1⟩ := h.readSource hi
    rw [e1]
    simp only []
    unfold Registry.addComponent at hx
    rw [he] at hx
    simp only [] at hx
    obtain ⟨f, hf, _⟩ := ebind_inv hx
    unfold ArchetypeRegistry.findOrCreateAdding at hf
    rw [if_neg (by omega)] at hf
    obtain ⟨a', ha', hf⟩ := ebind_inv hf
    rw [index_of_getElem? ha] at ha'
    injection ha' with ha'
    subst ha'
    obtain ⟨nd, hnd, hf⟩ := ebind_inv hf
    rw [lift_ok hnd]
    simp only []
    cases nd with
    | none => exact ⟨T, σ1, rfl, h1⟩
    | some nd =>
      simp only [] at hf
      obtain ⟨f1, hf1, _⟩ := ebind_inv hf
      obtain ⟨T2, σ2, e2, h2⟩ := h1.moveTo (w := true) (id := c.id) (moved := moved) hI he hf1
      simp only []
      rw [e2]
      exact ⟨T2, σ2, rfl, h2⟩

theorem Good.removeComp (hI : RInv W r cs) {e : Entity} {c : CompTy} {moved : Bool} {x : Registry × Registry.Res Val Unit}
    (hx : r.removeComponent env e c = .ok x) (h : Good (vec T.registry) T σ) :
    ∃ T' σ', removeComp env T r e c moved σ = .ok (x.1, T', σ') ∧ Good (vec T'.registry) T' σ' := by
  unfold Borrow.removeComp
  rw [lift_ok hx]
  simp only [Except.bind, bind]
  cases he : r.entities.entityEntry env e with
  | none => exact ⟨T, σ, rfl, h⟩
  | some en =>
    obtain ⟨a, ha, hlt⟩ := entry_row hI he
    have hi := (List.getElem?_eq_some_iff.mp ha).1
    simp only []
    rw [lift_ok (index_of_getElem? ha)]
    simp only []
    obtain ⟨σ1, e1, h1⟩ := h.readSource hi
    rw [e1]
    simp only []
    unfold Registry.removeComponent at hx
    rw [he] at hx
    simp only [] at hx
    obtain ⟨f, hf, _⟩ := ebind_inv hx
    unfold ArchetypeRegistry.findOrCreateRemoving at hf
    rw [if_neg (by omega)] at hf
    obtain ⟨a', ha', hf⟩ := ebind_inv hf
    rw [index_of_getElem? ha] at ha'
    injection ha' with ha'
    subst ha'
    obtain ⟨nd, hnd, hf⟩ := ebind_inv hf
    rw [show a.descriptor.removeComponent env c.id = .ok nd from hnd, lift_ok rfl]
    simp only []
    cases nd with
    | none => exact ⟨T, σ1, rfl, h1⟩
    | some nd =>
      simp only [] at hf
      obtain ⟨f1, hf1, _⟩ := ebind_inv hf
      obtain ⟨T2, σ2, e2, h2⟩ := h1.moveTo (w := false) (id := c.id) (moved := moved) hI he hf1
      simp only []
      rw [e2]
      exact ⟨T2, σ2, rfl, h2⟩

end

theorem Good.dropArch {i : Nat} {a : Archetype} (h : Good (vec T.registry) T σ) :
    ∃ σ', dropArch T i a σ = .ok σ' ∧ Good (vec T.registry) T σ' := by
  obtain ⟨t, σ1, e1, h1⟩ := h.retag1 (k := .mutRef) (t := T.registry) (i := i) vec_top
  obtain ⟨σ2, e2, h2⟩ := h1.peek (t := t) (i := i) (Refs.top_one (w := true)).read
  unfold Borrow.dropArch
  rw [e1]
  simp only [Except.bind, bind]
  rw [e2]
  simp only []
  split
  · exact ⟨σ2, rfl, h2.pop⟩
  · obtain ⟨σ3, e3, h3⟩ := h2.dropEntities (d := a.descriptor) (k := 0) (n := a.entityCount) (t := t) (i := i) Refs.top_one
    obtain ⟨t1, σ4, e4, h4⟩ := h3.retag1 (k := .mutRef) (t := t) (i := i) Refs.top_one
    obtain ⟨σ5, e5, h5⟩ := forCols_ok (f := fun c d σ => do
        let σ ← State.access σ false t1 [.struct i]
        let σ ← σ.access true (T.col i c) (rows i c d.size 0 a.capacity)
        σ.access true t1 [.struct i])
      (P := Good (((vec T.registry).push [i] (true, t)).push [i] (true, t1)) T) (fun c d τ hτ => by
        obtain ⟨τ1, q1, k1⟩ := hτ.access1 (w := false) (t := t1) (i := i) (Refs.top_one (w := true)).read
        obtain ⟨τ2, q2, k2⟩ := k1.col (w := true) (i := i) (c := c) (size := d.size) (k := 0) (n := a.capacity)
        obtain ⟨τ3, q3, k3⟩ := k2.access1 (w := true) (t := t1) (i := i) Refs.top_one
        refine ⟨τ3, ?_, k3⟩
        rw [q1]
        simp only [Except.bind, bind]
        rw [q2]
        exact q3) a.descriptor.components 0 _ h4
    obtain ⟨σ6, e6, h6⟩ := h5.ent (w := true) (i := i) (n := a.capacity)
    obtain ⟨σ7, e7, h7⟩ := h6.access1 (w := true) (t := t1) (i := i) Refs.top_one
    refine ⟨σ7, ?_, h7.pop.pop⟩
    rw [e3]
    simp only []
    rw [e4]
    simp only [Except.bind, bind] at e5 ⊢
    rw [e5]
    simp only []
    rw [e6]
    exact e7

theorem Good.dropArchs : ∀ (as : List Archetype) (i : Nat) {σ : State}, Good (vec T.registry) T σ →
    ∃ σ', dropArchs T i as σ = .ok σ'
  | [], _, σ, _ => ⟨σ, rfl⟩
  | a :: as, i, σ, h => by
    obtain ⟨σ1, e1, h1⟩ := h.dropArch (i := i) (a := a)
    obtain ⟨σ2, e2⟩ := Good.dropArchs as (i + 1) h1
    refine ⟨σ2, ?_⟩
    unfold Borrow.dropArchs
    rw [e1]
    exact e2

end Shard.Borrow
