import Verif.Model.Override
import Verif.Spec.Api
import Verif.Proofs.Basic
/-!
# Registries whose columns are aligned more strictly

Two registries that differ only in the alignments of the columns behave alike, provided those of the second one are multiples
of those of the first one. Each function of the model is treated in turn.
-/

set_option autoImplicit false

namespace Shard.Align

variable {env : Env} {q : Bool}

/-! ## Computations -/

/-- If `x` succeeds, so does `y`, with a related result; if `x` panics, so does `y`. -/
def Sim {α β : Type} (R : α → β → Prop) (x : M α) (y : M β) : Prop :=
  match x with
  | .ok a => ∃ b, y = .ok b ∧ R a b
  | .error (.panic k) => y = .error (.panic k)
  | .error (.ub _) => True

theorem Sim.ok {α β : Type} {R : α → β → Prop} {a : α} {b : β} (h : R a b) : Sim R (.ok a) (.ok b) := ⟨b, rfl, h⟩

theorem Sim.pure {α β : Type} {R : α → β → Prop} {a : α} {b : β} (h : R a b) : Sim R (Pure.pure a : M α) (Pure.pure b : M β) :=
  ⟨b, rfl, h⟩

theorem Sim.error {α β : Type} {R : α → β → Prop} (e : Fault) : Sim R (.error e : M α) (.error e : M β) := by
  cases e <;> first | rfl | trivial

theorem Sim.refl {α : Type} {R : α → α → Prop} (hR : ∀ a, R a a) (x : M α) : Sim R x x := by
  cases x with
  | ok a => exact .ok (hR a)
  | error e => exact .error e

theorem Sim.eq {α : Type} {x y : M α} (h : x = y) : Sim (fun a b => b = a) x y := by
  subst h; exact Sim.refl (R := fun a b => b = a) (fun _ => rfl) x

theorem Sim.mono {α β : Type} {R S : α → β → Prop} {x : M α} {y : M β} (h : Sim R x y) (hRS : ∀ a b, R a b → S a b) : Sim S x y := by
  match x, h with
  | .ok a, ⟨b, h1, h2⟩ => exact ⟨b, h1, hRS _ _ h2⟩
  | .error (.panic k), h => exact h
  | .error (.ub _), _ => trivial

theorem Sim.bind {α β γ δ : Type} {R : α → β → Prop} {S : γ → δ → Prop} {x : M α} {y : M β} {f : α → M γ} {g : β → M δ}
    (h : Sim R x y) (hf : ∀ a b, R a b → Sim S (f a) (g b)) : Sim S (x >>= f) (y >>= g) := by
  match x, h with
  | .ok a, ⟨b, h1, h2⟩ => subst h1; exact hf a b h2
  | .error (.panic k), h =>
    have h : y = _ := h
    subst h
    rfl
  | .error (.ub _), _ => trivial

/-- The common case: both sides begin with the same computation. -/
theorem Sim.same {α γ δ : Type} {S : γ → δ → Prop} {x y : M α} {f : α → M γ} {g : α → M δ} (h : x = y)
    (hf : ∀ a, Sim S (f a) (g a)) : Sim S (x >>= f) (y >>= g) :=
  Sim.bind (.eq h) (fun a b hb => by subst hb; exact hf _)

theorem Sim.forRange {σ τ : Type} {R : σ → τ → Prop} {f : Nat → σ → M σ} {g : Nat → τ → M τ}
    (hf : ∀ i s t, R s t → Sim R (f i s) (g i t)) : ∀ (n lo : Nat) (s : σ) (t : τ), R s t → Sim R (forRange lo n f s) (forRange lo n g t)
  | 0, _, _, _, h => .ok h
  | n + 1, lo, s, t, h => by
    have := hf lo s t h
    unfold Shard.forRange
    match hx : f lo s, this with
    | .ok s', ⟨t', h1, h2⟩ =>
      rw [h1]
      exact Sim.forRange hf n (lo + 1) s' t' h2
    | .error (.panic k), h =>
      have h : g lo t = _ := h
      rw [h]; rfl
    | .error (.ub _), _ => trivial

theorem Sim.mapM {α β : Type} {f g : α → M β} (hf : ∀ a, Sim (fun x y => y = x) (f a) (g a)) :
    ∀ (l : List α), Sim (fun x y => y = x) (l.mapM f) (l.mapM g)
  | [] => by simp only [List.mapM_nil]; exact .pure rfl
  | a :: l => by
    simp only [List.mapM_cons]
    exact Sim.bind (hf a) (fun x y h => Sim.bind (Sim.mapM hf l) (fun _ _ h' => by subst h; subst h'; exact .pure rfl))

theorem Sim.mapRange {α : Type} {f g : Nat → M α} (hf : ∀ i, Sim (fun x y => y = x) (f i) (g i)) :
    ∀ (n lo : Nat), Sim (fun x y => y = x) (mapRange lo n f) (mapRange lo n g)
  | 0, _ => .ok rfl
  | n + 1, lo => by
    have := hf lo
    unfold Shard.mapRange
    match hx : f lo, this with
    | .ok s', ⟨t', h1, h2⟩ =>
      subst h2
      rw [h1]
      simp only []
      have := Sim.mapRange hf n (lo + 1)
      match hy : Shard.mapRange (lo + 1) n f, this with
      | .ok s2, ⟨t2, h3, h4⟩ => subst h4; rw [h3]; exact .ok rfl
      | .error (.panic k), h =>
        have h : Shard.mapRange (lo + 1) n g = _ := h
        rw [h]; rfl
      | .error (.ub _), _ => trivial
    | .error (.panic k), h =>
      have h : g lo = _ := h
      rw [h]; rfl
    | .error (.ub _), _ => trivial

/-! ## Lists -/

/-- Lists of the same length with related elements. -/
def LRel {α β : Type} (R : Nat → α → β → Prop) (l : List α) (l' : List β) : Prop :=
  l'.length = l.length ∧ ∀ (i : Nat) x y, l[i]? = some x → l'[i]? = some y → R i x y

namespace LRel

variable {α β : Type} {R : Nat → α → β → Prop} {l : List α} {l' : List β}

theorem get (h : LRel R l l') {i : Nat} {x : α} (hx : l[i]? = some x) : ∃ y, l'[i]? = some y ∧ R i x y := by
  have hi : i < l'.length := by rw [h.1]; exact (List.getElem?_eq_some_iff.mp hx).1
  exact ⟨l'[i], List.getElem?_eq_getElem hi, h.2 i _ _ hx (List.getElem?_eq_getElem hi)⟩

theorem none (h : LRel R l l') {i : Nat} (hx : l[i]? = none) : l'[i]? = none := by
  rw [List.getElem?_eq_none_iff] at hx ⊢; rw [h.1]; exact hx

theorem index (h : LRel R l l') (i : Nat) : Sim (R i) (index l i) (index l' i) := by
  unfold Shard.index
  cases hx : l[i]? with
  | none => rw [h.none hx]; exact .error _
  | some x => obtain ⟨y, h1, h2⟩ := h.get hx; rw [h1]; exact .ok h2

theorem indexUnchecked (h : LRel R l l') (i : Nat) : Sim (R i) (indexUnchecked l i) (indexUnchecked l' i) := by
  unfold Shard.indexUnchecked
  cases hx : l[i]? with
  | none => rw [h.none hx]; exact .error _
  | some x => obtain ⟨y, h1, h2⟩ := h.get hx; rw [h1]; exact .ok h2

theorem set (h : LRel R l l') {i : Nat} {x : α} {y : β} (hxy : R i x y) : LRel R (l.set i x) (l'.set i y) := by
  refine ⟨by rw [List.length_set, List.length_set, h.1], fun j a b ha hb => ?_⟩
  rw [List.getElem?_set] at ha hb
  split at ha
  · rename_i hij
    subst hij
    rw [if_pos rfl] at hb
    split at ha <;> split at hb <;> first | (cases ha; cases hb; exact hxy) | (cases ha; done) | (cases hb; done)
  · rename_i hij
    rw [if_neg hij] at hb
    exact h.2 j a b ha hb

theorem setIndex (h : LRel R l l') {i : Nat} {x : α} {y : β} (hxy : R i x y) : Sim (LRel R) (setIndex l i x) (setIndex l' i y) := by
  unfold Shard.setIndex
  rw [h.1]
  split
  · exact .ok (h.set hxy)
  · exact .error _

theorem take (h : LRel R l l') (n : Nat) : LRel R (l.take n) (l'.take n) := by
  refine ⟨by rw [List.length_take, List.length_take, h.1], fun i x y hx hy => ?_⟩
  rw [List.getElem?_take] at hx hy
  split at hx
  · rename_i hin
    rw [if_pos hin] at hy
    exact h.2 i x y hx hy
  · cases hx

theorem append (h : LRel R l l') {x : α} {y : β} (hxy : R l.length x y) : LRel R (l ++ [x]) (l' ++ [y]) := by
  refine ⟨by simp [h.1], fun i a b ha hb => ?_⟩
  rcases Nat.lt_trichotomy i l.length with hi | hi | hi
  · rw [List.getElem?_append_left hi] at ha
    rw [List.getElem?_append_left (by rw [h.1]; exact hi)] at hb
    exact h.2 i a b ha hb
  · subst hi
    simp at ha
    rw [← h.1] at hb
    simp at hb
    subst ha; subst hb
    exact hxy
  · rw [List.getElem?_eq_none (by simp; omega)] at ha; cases ha

theorem map {γ : Type} {f : α → γ} {g : β → γ} (h : LRel R l l') (hfg : ∀ i x y, R i x y → g y = f x) : l'.map g = l.map f := by
  apply List.ext_getElem?
  intro i
  rw [List.getElem?_map, List.getElem?_map]
  cases hx : l[i]? with
  | none => rw [h.none hx]; rfl
  | some x => obtain ⟨y, h1, h2⟩ := h.get hx; rw [h1]; simp [hfg i x y h2]

end LRel

/-! ## Descriptors -/

/-- Descriptors of the same component, the second one with a stricter alignment and, if `q`, perhaps a drop handler that does
nothing. -/
structure Like (q : Bool) (c c' : ComponentDescriptor) : Prop where
  id : c'.id = c.id
  size : c'.size = c.size
  drop : c'.drop = c.drop ∨ q = true ∧ c'.drop = none
  dvd : c.align ∣ c'.align
  pow : powerOfTwo c.align = true → powerOfTwo c'.align = true

theorem Like.refl (c : ComponentDescriptor) : Like q c c := ⟨rfl, rfl, Or.inl rfl, Nat.dvd_refl _, fun h => h⟩

abbrev Comps (q : Bool) := LRel (fun _ => Like q)

theorem Comps.refl (l : List ComponentDescriptor) : Comps q l l :=
  ⟨rfl, fun i x y hx hy => by rw [hx] at hy; cases hy; exact .refl _⟩

theorem Comps.getD {l l' : List ComponentDescriptor} (h : Comps q l l') (i : Nat) :
    Like q (l.getD i ComponentDescriptor.INVALID) (l'.getD i ComponentDescriptor.INVALID) := by
  simp only [List.getD_eq_getElem?_getD]
  cases hx : l[i]? with
  | none => rw [h.none hx]; exact .refl _
  | some x => obtain ⟨y, h1, h2⟩ := h.get hx; rw [h1]; exact h2

/-- Archetype descriptors that differ in alignments only. -/
structure Desc (q : Bool) (d d' : ArchetypeDescriptor) : Prop where
  id : d'.archetypeId = d.archetypeId
  len : d'.len = d.len
  comps : Comps q d.comps d'.comps

theorem Desc.refl (d : ArchetypeDescriptor) : Desc q d d := ⟨rfl, rfl, .refl _⟩

theorem Desc.components {d d' : ArchetypeDescriptor} (h : Desc q d d') : Comps q d.components d'.components := by
  unfold ArchetypeDescriptor.components
  rw [h.len]
  exact h.comps.take _

theorem Comps.search {l l' : List ComponentDescriptor} (h : Comps q l l') (key : Nat) :
    binarySearchByKey l' key (fun e => e.id.toNat) = binarySearchByKey l key (fun e => e.id.toNat) := by
  unfold binarySearchByKey
  rw [h.map (f := fun e => e.id.toNat) (g := fun e => e.id.toNat) (fun _ x y hxy => by rw [hxy.id]), h.1]

theorem Comps.computeId {l l' : List ComponentDescriptor} (h : Comps q l l') :
    ArchetypeDescriptor.computeArchetypeId env l' = ArchetypeDescriptor.computeArchetypeId env l := by
  have hb : ArchetypeDescriptor.idBytes env l' = ArchetypeDescriptor.idBytes env l := by
    unfold ArchetypeDescriptor.idBytes
    rw [h.1]
    congr 1
    funext bytes i
    rw [(h.getD i).id]
  match l, l', h with
  | [], [], _ => rfl
  | [a], [b], h => exact congrArg UInt16.toUInt32 (h.2 0 a b rfl rfl).id
  | a :: a' :: t, b :: b' :: t', _ =>
    show fnv1aHash32 _ _ = fnv1aHash32 _ _
    rw [hb]
  | [], _ :: _, h => cases h.1
  | _ :: _, [], h => cases h.1
  | [_], _ :: _ :: _, h => cases h.1
  | _ :: _ :: _, [_], h => cases h.1

theorem Desc.containsSubset {d d' : ArchetypeDescriptor} (h : Desc q d d') (o : ArchetypeDescriptor) :
    d'.containsSubset o = d.containsSubset o := by
  have hl : ∀ n i, ArchetypeDescriptor.containsLoop d' o n i = ArchetypeDescriptor.containsLoop d o n i := by
    intro n
    induction n with
    | zero => intro i; rfl
    | succ n ih =>
      intro i
      unfold ArchetypeDescriptor.containsLoop
      rw [h.len, ih]
      simp only [(h.comps.getD _).id]
  unfold ArchetypeDescriptor.containsSubset
  rw [h.len, hl]

theorem Desc.hasComponent {d d' : ArchetypeDescriptor} (h : Desc q d d') (c : CompTy) : d'.hasComponent c = d.hasComponent c := by
  unfold ArchetypeDescriptor.hasComponent
  rw [Comps.search h.components]

/-- Both absent, or both present and related. -/
def ORel {α β : Type} (R : α → β → Prop) : Option α → Option β → Prop
  | none, none => True
  | some a, some b => R a b
  | _, _ => False

theorem Desc.addComponent {d d' : ArchetypeDescriptor} (h : Desc q d d') {c c' : ComponentDescriptor} (hc : Like q c c') :
    Sim (ORel (Desc q)) (d.addComponent env c) (d'.addComponent env c') := by
  unfold ArchetypeDescriptor.addComponent
  rw [h.len, hc.id, Comps.search (h.comps.take d.len)]
  split
  · exact .ok trivial
  · split
    · exact .ok trivial
    · refine Sim.bind (R := Comps q) (Sim.forRange (fun i s t hst => ?_) _ _ _ _ h.comps) (fun s t hst => ?_)
      · exact Sim.bind (h.comps.index i) (fun x y hxy => hst.setIndex hxy)
      · exact Sim.bind (hst.setIndex hc) (fun s t hst => .pure ⟨Comps.computeId (hst.take _), rfl, hst⟩)

theorem Desc.removeComponent {d d' : ArchetypeDescriptor} (h : Desc q d d') (i : UInt16) :
    Sim (ORel (Desc q)) (d.removeComponent env i) (d'.removeComponent env i) := by
  unfold ArchetypeDescriptor.removeComponent
  rw [h.len, Comps.search (h.comps.take d.len)]
  split
  · exact .ok trivial
  · split
    · refine Sim.bind (R := Comps q) (Sim.forRange (fun i s t hst => ?_) _ _ _ _ h.comps) (fun s t hst => ?_)
      · exact Sim.bind (h.comps.index _) (fun x y hxy => hst.setIndex hxy)
      · exact .pure ⟨Comps.computeId (hst.take _), rfl, hst⟩
    · exact .ok trivial

/-! ## Memory -/

/-- Blocks with the same bytes. If the first one has the alignment `al`, the second one has the alignment `al'`. -/
structure Blk (al al' : Nat) (b b' : Block) : Prop where
  bytes : b'.bytes = b.bytes
  dvd : b.align ∣ b'.align
  align : b.align = al → b'.align = al'

theorem Like.alloc {c c' : ComponentDescriptor} (h : Like q c c') (n : Nat) :
    Sim (Blk c.align c'.align) (allocBlock env n c.align) (allocBlock env n c'.align) := by
  unfold allocBlock
  split
  · trivial
  · rename_i hp
    rw [if_neg (c := powerOfTwo c'.align = false) (by rw [h.pow (by simpa using hp)]; decide)]
    split
    · trivial
    · exact .ok ⟨rfl, h.dvd, fun _ => rfl⟩

theorem Like.realloc {c c' : ComponentDescriptor} (h : Like q c c') {p p' : Option Block} (hp : ORel (Blk c.align c'.align) p p')
    (old n : Nat) : Sim (Blk c.align c'.align) (reallocBlock env p old c.align n) (reallocBlock env p' old c'.align n) := by
  match p, p', hp with
  | none, none, _ => trivial
  | some b, some b', hp =>
    unfold reallocBlock
    simp only []
    split
    · trivial
    · rename_i hb
      have h1 : b.bytes.length = old := Classical.byContradiction fun hx => hb (Or.inl hx)
      have h2 : b.align = c.align := Classical.byContradiction fun hx => hb (Or.inr hx)
      rw [if_neg (c := b'.bytes.length ≠ old ∨ b'.align ≠ c'.align) (by rw [hp.bytes, hp.align h2, h1]; simp)]
      split
      · trivial
      · rw [hp.bytes]; exact .ok ⟨rfl, h.dvd, fun _ => rfl⟩

theorem Like.dealloc {c c' : ComponentDescriptor} {p p' : Option Block} (hp : ORel (Blk c.align c'.align) p p')
    (n : Nat) : Sim (fun _ _ => True) (deallocBlock p n c.align) (deallocBlock p' n c'.align) := by
  match p, p', hp with
  | none, none, _ => trivial
  | some b, some b', hp =>
    unfold deallocBlock
    simp only []
    split
    · trivial
    · rename_i hb
      have h1 : b.bytes.length = n := Classical.byContradiction fun hx => hb (Or.inl hx)
      have h2 : b.align = c.align := Classical.byContradiction fun hx => hb (Or.inr hx)
      rw [if_neg (c := b'.bytes.length ≠ n ∨ b'.align ≠ c'.align) (by rw [hp.bytes, hp.align h2, h1]; simp)]
      exact .ok trivial

/-- Pointers to blocks with the same bytes. -/
abbrev Ptr2 (al al' : Nat) := ORel (Blk al al')

section
variable {al al' : Nat} {p p' : Option Block}

theorem Ptr2.readBytes (h : Ptr2 al al' p p') (off n : Nat) : readBytes p off n = Shard.readBytes p' off n := by
  match p, p', h with
  | none, none, _ => rfl
  | some b, some b', h => unfold Shard.readBytes; simp only [h.bytes]

theorem Ptr2.writeBytes (h : Ptr2 al al' p p') (off : Nat) (bs : List (Option TByte)) :
    Sim (Blk al al') (writeBytes p off bs) (Shard.writeBytes p' off bs) := by
  match p, p', h with
  | none, none, _ => trivial
  | some b, some b', h =>
    unfold Shard.writeBytes
    simp only [h.bytes]
    split
    · exact .ok ⟨by simp only [h.bytes], h.dvd, h.align⟩
    · exact .error _

theorem Ptr2.checkAligned (h : Ptr2 al al' p p') (k off : Nat) :
    Sim (fun _ _ => True) (checkAligned p k off) (Shard.checkAligned p' k off) := by
  match p, p', h with
  | none, none, _ => trivial
  | some b, some b', h =>
    unfold Shard.checkAligned
    simp only []
    split
    · rename_i hk
      rw [if_pos ⟨Nat.mod_eq_zero_of_dvd (Nat.dvd_trans (Nat.dvd_of_mod_eq_zero hk.1) h.dvd), hk.2⟩]
      exact .ok trivial
    · trivial

theorem Ptr2.readVal (h : Ptr2 al al' p p') (ty size k off : Nat) :
    Sim (fun x y => y = x) (readVal p ty size k off) (Shard.readVal p' ty size k off) := by
  unfold Shard.readVal
  exact Sim.bind (h.checkAligned k off) (fun _ _ _ => Sim.same (h.readBytes _ _) (fun _ => .eq rfl))

theorem Ptr2.readSlice (h : Ptr2 al al' p p') (ty size k off len : Nat) :
    Sim (fun x y => y = x) (readSlice p ty size k off len) (Shard.readSlice p' ty size k off len) := by
  match p, p', h with
  | none, none, _ => trivial
  | some b, some b', h =>
    unfold Shard.readSlice
    exact Sim.bind (Ptr2.checkAligned (p := some b) (p' := some b') h k off) (fun _ _ _ =>
      Sim.mapRange (fun i => Ptr2.readVal (p := some b) (p' := some b') h ty size k _) _ _)

theorem Ptr2.swapBytes (h : Ptr2 al al' p p') (o1 o2 n : Nat) :
    Sim (Blk al al') (Archetype.swapBytes p o1 o2 n) (Archetype.swapBytes p' o1 o2 n) := by
  unfold Archetype.swapBytes
  split
  · trivial
  · refine Sim.same (h.readBytes _ _) (fun b1 => Sim.same (h.readBytes _ _) (fun b2 => ?_))
    exact Sim.bind (h.writeBytes _ _) (fun q q' hq => Ptr2.writeBytes (p := some q) (p' := some q') hq _ _)

end

end Shard.Align
