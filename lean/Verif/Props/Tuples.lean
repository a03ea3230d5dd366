import Verif.Model.Tuples
import Verif.Spec.Tuples
import Verif.Proofs.Observe
import Verif.Props.Example
/-!
# C87: tuples of every length
-/

set_option autoImplicit false

namespace Shard

variable {env : Env}

theorem rank_of_sorted : ∀ {l : List Nat} {k x : Nat}, SortedLt l → l[k]? = some x →
    (l.filter (fun y => decide (y < x))).length = k
  | [], k, x, _, hk => by simp at hk
  | y :: l, 0, x, hs, hk => by
    simp only [List.getElem?_cons_zero, Option.some.injEq] at hk
    subst hk
    obtain ⟨h1, _⟩ := List.pairwise_cons.mp hs
    rw [List.length_eq_zero_iff, List.filter_eq_nil_iff]
    intro z hz
    rcases List.mem_cons.mp hz with rfl | hz
    · simp
    · have := h1 z hz; simp; omega
  | y :: l, k + 1, x, hs, hk => by
    rw [List.getElem?_cons_succ] at hk
    obtain ⟨h1, h2⟩ := List.pairwise_cons.mp hs
    have := h1 x (List.mem_of_getElem? hk)
    rw [List.filter_cons_of_pos (by simpa using this), List.length_cons, rank_of_sorted h2 hk]

theorem GroupSpec.slot_rank {g : Group} (gs : GroupSpec env g) {i : Nat} (hi : i < g.length) :
    g.slot env i = idRank g g[i] := by
  have h1 := gs.slot i hi
  have h2 : ((g.descriptor env).archetype.components.map (fun c => c.id.toNat))[g.slot env i]? = some g[i].id.toNat := by
    rw [List.getElem?_map, h1]; rfl
  have h3 := rank_of_sorted gs.desc.sorted h2
  rw [← h3]
  have hp := gs.perm.map (fun c => c.id.toNat)
  rw [(hp.filter _).length_eq, List.map_map]
  unfold idRank
  rw [List.filter_map, List.length_map]
  rfl

/-- The implementations, in general form. -/
theorem groupImpls_elems : ∀ I ∈ groupImpls, I.elems = (List.range I.elems.length).map (fun i => (i + 1, i)) ∧
    1 ≤ I.elems.length ∧ I.elems.length ≤ 14 := by decide +kernel

theorem groupImpls_tuple : ∀ m ∈ tupleImpls, 2 ≤ m.elems.length := by decide +kernel

namespace GroupImpl

theorem group_length (I : GroupImpl) (T : Nat → CompTy) : (I.group T).length = I.elems.length := by simp [group]

theorem elem_at {I : GroupImpl} (hI : I ∈ groupImpls) {p : Nat × Nat} (hp : p ∈ I.elems) :
    p.2 < I.elems.length ∧ p.1 = p.2 + 1 := by
  rw [(groupImpls_elems I hI).1] at hp
  obtain ⟨i, hi, rfl⟩ := List.mem_map.mp hp
  exact ⟨List.mem_range.mp hi, rfl⟩

theorem group_at {I : GroupImpl} (hI : I ∈ groupImpls) {T : Nat → CompTy} {i : Nat} (hi : i < I.elems.length) :
    (I.group T)[i]? = some (T (i + 1)) := by
  unfold group
  rw [List.getElem?_map, (groupImpls_elems I hI).1, List.getElem?_map, List.getElem?_range hi]
  rfl

theorem slotOf_eq {I : GroupImpl} (hI : I ∈ groupImpls) {T : Nat → CompTy}
    (hv : ((I.group T).descriptor env).isValid = true) {i : Nat} (hi : i < I.elems.length) :
    I.slotOf env T i = .ok ((I.group T).slot env i) := by
  cases I with
  | single => rfl
  | tuple m =>
    have hm : m ∈ tupleImpls := by
      rcases List.mem_cons.mp hI with h | h
      · cases h
      · obtain ⟨m', h1, h2⟩ := List.mem_map.mp h
        cases h2; exact h1
    have h2 := groupImpls_tuple m hm
    have hl : ((tuple m).group T).length = m.elems.length := group_length _ _
    have hslot : ((tuple m).group T).slot env i = (((tuple m).group T).descriptor env).unsortedToSorted.getD i 0 := by
      unfold Group.slot
      split
      · next h => rw [h] at hl; simp at hl; omega
      · rfl
    rw [hslot]
    obtain ⟨hwf, hid⟩ := Group.isValid_iff.mp hv
    have hlen : (((tuple m).group T).descriptor env).unsortedToSorted.length = 14 := by
      rw [Group.descriptor_eq hwf hid]
      have := hwf.le
      have h14 : MAX_COMPONENTS_PER_ENTITY = 14 := rfl
      simp only [ComponentGroupDescriptor.computeSortMappings, List.length_append, List.length_map, List.length_range,
        List.length_replicate]
      omega
    have h14 := (groupImpls_elems _ hI).2.2
    unfold slotOf
    have hlt : i < (((tuple m).group T).descriptor env).unsortedToSorted.length := by omega
    simp only []
    rw [index_lt hlt, List.getD_eq_getElem?_getD, List.getElem?_eq_getElem hlt]
    rfl

theorem slotOf_rank {I : GroupImpl} (hI : I ∈ groupImpls) {T : Nat → CompTy}
    (hv : ((I.group T).descriptor env).isValid = true) {i : Nat} (hi : i < I.elems.length) :
    I.slotOf env T i = .ok (idRank (I.group T) (T (i + 1))) ∧ idRank (I.group T) (T (i + 1)) < I.elems.length := by
  have gs := Group.spec hv
  have hl := group_length I T
  have h1 := gs.slot_rank (i := i) (by omega)
  have h2 : (I.group T)[i]'(by omega) = T (i + 1) := by
    have := group_at hI (T := T) hi
    rw [List.getElem?_eq_getElem (by omega)] at this
    exact Option.some.inj this
  rw [h2] at h1
  refine ⟨by rw [slotOf_eq hI hv hi, h1], ?_⟩
  rw [← h1]
  have := gs.slot_lt (i := i) (by omega)
  rw [gs.components_length, hl] at this
  exact this

theorem rank_inj {I : GroupImpl} (hI : I ∈ groupImpls) {T : Nat → CompTy}
    (hv : ((I.group T).descriptor env).isValid = true) {i j : Nat} (hi : i < I.elems.length) (hj : j < I.elems.length)
    (h : idRank (I.group T) (T (i + 1)) = idRank (I.group T) (T (j + 1))) : i = j := by
  have gs := Group.spec hv
  have hl := group_length I T
  have e1 := slotOf_eq hI hv hi
  have e2 := slotOf_eq hI hv hj
  rw [(slotOf_rank hI hv hi).1] at e1
  rw [(slotOf_rank hI hv hj).1, ← h] at e2
  rw [e1] at e2
  exact gs.slot_inj (by omega) (by omega) (Except.ok.inj e2)

/-- Every place below the length belongs to a component. -/
theorem rank_surj {I : GroupImpl} (hI : I ∈ groupImpls) {T : Nat → CompTy}
    (hv : ((I.group T).descriptor env).isValid = true) {k : Nat} (hk : k < I.elems.length) :
    ∃ i, i < I.elems.length ∧ idRank (I.group T) (T (i + 1)) = k := by
  have gs := Group.spec hv
  have hl := group_length I T
  obtain ⟨j, hj, he⟩ := gs.slot_surj (show k < (I.group T).length by omega)
  refine ⟨j, by omega, ?_⟩
  have e1 := slotOf_eq hI hv (T := T) (i := j) (by omega)
  rw [(slotOf_rank hI hv (by omega)).1, he] at e1
  exact Except.ok.inj e1

theorem asSortedPointers_ok {I : GroupImpl} (hI : I ∈ groupImpls) {T : Nat → CompTy}
    (hv : ((I.group T).descriptor env).isValid = true) {vals : List Val} (hlen : vals.length = I.elems.length)
    {ptrs : List (Option Val)} (hp : ptrs.length = 14) :
    ∃ ptrs', I.asSortedPointers env T vals ptrs = .ok ptrs' ∧ ptrs'.length = 14 ∧
      (∀ i, i < I.elems.length → ptrs'[idRank (I.group T) (T (i + 1))]? = some vals[i]?) ∧
      ∀ k, I.elems.length ≤ k → ptrs'[k]? = ptrs[k]? := by
  have h14 := (groupImpls_elems I hI).2.2
  have key : ∀ n, n ≤ I.elems.length → ∃ ptrs', ((List.range n).map (fun i => (i + 1, i))).foldlM
      (fun ptrs p => do
        let s ← I.slotOf env T p.2
        let v ← index vals p.2
        setIndex ptrs s (some v)) ptrs = (.ok ptrs' : M _) ∧ ptrs'.length = 14 ∧
      (∀ i, i < n → ptrs'[idRank (I.group T) (T (i + 1))]? = some vals[i]?) ∧
      ∀ k, I.elems.length ≤ k → ptrs'[k]? = ptrs[k]? := by
    intro n
    induction n with
    | zero => intro _; exact ⟨ptrs, rfl, hp, by intro i hi; omega, fun _ _ => rfl⟩
    | succ n ih =>
      intro hn
      obtain ⟨q, q1, q2, q3, q4⟩ := ih (by omega)
      obtain ⟨s1, s2⟩ := slotOf_rank hI hv (T := T) (i := n) (by omega)
      refine ⟨q.set (idRank (I.group T) (T (n + 1))) (some (vals[n]'(by omega))), ?_, by simp [q2], ?_, ?_⟩
      · rw [List.range_succ, List.map_append, List.foldlM_append, q1]
        show (do
          let s ← I.slotOf env T n
          let v ← index vals n
          setIndex q s (some v)) >>= _ = _
        rw [s1, ok_bind, index_lt (by omega), ok_bind, setIndex_lt (by omega)]
        rfl
      · intro i hi
        by_cases hin : i = n
        · subst hin
          rw [List.getElem?_set_self (by omega), List.getElem?_eq_getElem]
        · rw [List.getElem?_set_ne, q3 i (by omega)]
          intro he
          exact hin (rank_inj hI hv (by omega) (by omega) he).symm
      · intro k hk
        rw [List.getElem?_set_ne (by omega), q4 k hk]
  obtain ⟨p, k1, k2⟩ := key _ (Nat.le_refl _)
  refine ⟨p, ?_, k2⟩
  unfold asSortedPointers
  rw [(groupImpls_elems I hI).1]
  exact k1

end GroupImpl

theorem idRank_perm {g g' : Group} (hp : g.Perm g') (c : CompTy) : idRank g c = idRank g' c := (hp.filter _).length_eq

open GroupImpl in
/-- **C87** (which groups there are) There is exactly one implementation for each length from 1 to 14: the implementing
type is `T1` or `(T1, …, Tn)`, and the position named in the macro invocation is the position in the tuple. All these
tuples are sealed. -/
theorem C87_lengths :
    (∀ n, (∃ I ∈ groupImpls, I.elems.length = n) ↔ 1 ≤ n ∧ n ≤ 14) ∧
    (groupImpls.map (fun I => I.elems.length)).Nodup ∧
    (∀ I ∈ groupImpls, ∀ i, i < I.elems.length → I.elems[i]? = some (i + 1, i)) ∧
    (∀ m ∈ tupleImpls, m.len = m.elems.length ∧ m.elems.map Prod.fst ∈ sealedImpls) ∧
    ∀ l, l ∈ sealedImpls ↔ ∃ n, 2 ≤ n ∧ n ≤ 16 ∧ l = (List.range n).map (· + 1) := by
  refine ⟨fun n => ⟨?_, ?_⟩, by decide +kernel, ?_, by decide +kernel, fun l => ⟨?_, ?_⟩⟩
  · rintro ⟨I, hI, rfl⟩
    exact (groupImpls_elems I hI).2
  · rintro ⟨h1, h2⟩
    have : ∀ n, n < 15 → 1 ≤ n → ∃ I ∈ groupImpls, I.elems.length = n := by decide +kernel
    exact this n (by omega) h1
  · intro I hI i hi
    rw [(groupImpls_elems I hI).1, List.getElem?_map, List.getElem?_range hi]
    rfl
  · intro hl
    have : ∀ l ∈ sealedImpls, 2 ≤ l.length ∧ l.length ≤ 16 ∧ l = (List.range l.length).map (· + 1) := by decide +kernel
    exact ⟨l.length, this l hl⟩
  · rintro ⟨n, h1, h2, rfl⟩
    have : ∀ n, n < 17 → 2 ≤ n → (List.range n).map (· + 1) ∈ sealedImpls := by decide +kernel
    exact this n (by omega) h1

open GroupImpl in
/-- **C87** (values) For a tuple of any length: `as_sorted_pointers` puts the pointer to each field at the place of its
type in the order of the ids and leaves the rest of the array alone; and `read_from_sorted_pointers`, for the same tuple
type or any other order of the same types, returns each field at the position of its type. -/
theorem C87_round_trip {I : GroupImpl} (hI : I ∈ groupImpls) {T : Nat → CompTy}
    (hv : ((I.group T).descriptor env).isValid = true) {vals : List Val} (ht : TypedVals (I.group T) vals)
    {ptrs : List (Option Val)} (hp : ptrs.length = MAX_COMPONENTS_PER_ENTITY) :
    ∃ ptrs', I.asSortedPointers env T vals ptrs = .ok ptrs' ∧
      (∀ (i : Nat) c, (I.group T)[i]? = some c → ptrs'[idRank (I.group T) c]? = some vals[i]?) ∧
      (∀ k, (I.group T).length ≤ k → ptrs'[k]? = ptrs[k]?) ∧
      I.readFromSortedPointers env T ptrs' = .ok vals ∧
      ∀ J ∈ groupImpls, ∀ S : Nat → CompTy, (J.group S).Perm (I.group T) →
        ∃ vals', J.readFromSortedPointers env S ptrs' = .ok vals' ∧ vals'.length = (J.group S).length ∧
          ∀ (i j : Nat) c, (I.group T)[i]? = some c → (J.group S)[j]? = some c → vals'[j]? = vals[i]? := by
  have hl := group_length I T
  have hlen : vals.length = I.elems.length := by rw [ht.1, hl]
  obtain ⟨ptrs', q1, q2, q3, q4⟩ := asSortedPointers_ok hI hv hlen hp
  have hat : ∀ (i : Nat) c, (I.group T)[i]? = some c → i < I.elems.length ∧ c = T (i + 1) := by
    intro i c hc
    have hi := (List.getElem?_eq_some_iff.mp hc).1
    rw [hl] at hi
    rw [group_at hI hi] at hc
    exact ⟨hi, (Option.some.inj hc).symm⟩
  have read : ∀ J ∈ groupImpls, ∀ S : Nat → CompTy, (J.group S).Perm (I.group T) →
        ∃ vals', J.readFromSortedPointers env S ptrs' = .ok vals' ∧ vals'.length = (J.group S).length ∧
          ∀ (i j : Nat) c, (I.group T)[i]? = some c → (J.group S)[j]? = some c → vals'[j]? = vals[i]? := by
    intro J hJ S hperm
    have hvJ : ((J.group S).descriptor env).isValid = true := by rw [Group.isValid_perm env hperm.symm]; exact hv
    have hlJ := group_length J S
    have hnd := (Group.spec hv).wf.nodup'
    -- the value for each position
    have each : ∀ j, j < J.elems.length → ∃ (i : Nat) (v : Val), (I.group T)[i]? = some (S (j + 1)) ∧ vals[i]? = some v ∧
        (do let s ← J.slotOf env S j
            let ptr ← index ptrs' s
            readAs (S (j + 1)) ptr) = .ok v := by
      intro j hj
      have hm : S (j + 1) ∈ I.group T := hperm.mem_iff.mp (List.mem_of_getElem? (group_at hJ hj))
      obtain ⟨i, hi⟩ := List.mem_iff_getElem?.mp hm
      obtain ⟨hlt, hc⟩ := hat i _ hi
      have hvi : vals[i]? = some (vals[i]'(by omega)) := List.getElem?_eq_getElem _
      refine ⟨i, _, hi, hvi, ?_⟩
      have hty := ht.2 i _ _ hi hvi
      have h3 := q3 i hlt
      rw [(slotOf_rank hJ hvJ hj).1, ok_bind, idRank_perm hperm, hc, index_of_getElem? h3, ok_bind, hvi, ← hc]
      unfold readAs
      simp only []
      exact if_pos hty
    let get : Nat × Nat → Val := fun p => ((do
      let s ← J.slotOf env S p.2
      let ptr ← index ptrs' s
      readAs (S p.1) ptr : M Val).toOption).getD default
    have hread : J.readFromSortedPointers env S ptrs' = .ok (J.elems.map get) := by
      unfold readFromSortedPointers
      refine mapM_ok _ (fun p hpm => ?_)
      obtain ⟨h1, h2⟩ := elem_at hJ hpm
      obtain ⟨i, v, _, _, h3⟩ := each p.2 h1
      rw [← h2] at h3
      show _ = Except.ok (get p)
      have : get p = v := by
        show ((_ : M Val).toOption).getD default = v
        rw [h3]; rfl
      rw [this, h3]
    refine ⟨_, hread, by rw [List.length_map, hlJ], ?_⟩
    intro i j c hi hj
    have hjl := (List.getElem?_eq_some_iff.mp hj).1
    rw [hlJ] at hjl
    rw [group_at hJ hjl] at hj
    cases hj
    obtain ⟨i', v, h1, h2, h3⟩ := each j hjl
    have hii : i = i' := by
      obtain ⟨a1, a2⟩ := List.getElem?_eq_some_iff.mp hi
      obtain ⟨b1, b2⟩ := List.getElem?_eq_some_iff.mp h1
      exact (List.getElem_inj hnd).mp (a2.trans b2.symm)
    subst hii
    rw [h2, List.getElem?_map, (groupImpls_elems J hJ).1, List.getElem?_map, List.getElem?_range hjl]
    show some (get (j + 1, j)) = some v
    show some (((_ : M Val).toOption).getD default) = some v
    rw [h3]; rfl
  refine ⟨ptrs', q1, ?_, by rw [hl]; exact q4, ?_, read⟩
  · intro i c hc
    obtain ⟨h1, rfl⟩ := hat i c hc
    exact q3 i h1
  · obtain ⟨vals', r1, r2, r3⟩ := read I hI T (List.Perm.refl _)
    rw [r1]
    congr 1
    apply List.ext_getElem?
    intro i
    rcases Nat.lt_or_ge i I.elems.length with hi | hi
    · exact r3 i i _ (group_at hI hi) (group_at hI hi)
    · rw [List.getElem?_eq_none (by omega), List.getElem?_eq_none (by omega)]

theorem mapM_at {α β : Type} {f : α → M β} : ∀ {l : List α} {l' : List β}, l.mapM f = .ok l' →
    l'.length = l.length ∧ ∀ (i : Nat) a, l[i]? = some a → ∃ b, f a = .ok b ∧ l'[i]? = some b
  | [], l', h => by
    cases h
    exact ⟨rfl, by intro i a h; simp at h⟩
  | a :: l, l', h => by
    rw [List.mapM_cons] at h
    cases hf : f a with
    | error e => rw [hf] at h; cases h
    | ok b =>
      cases hl : l.mapM f with
      | error e => rw [hf, hl] at h; cases h
      | ok bs =>
        rw [hf, hl] at h
        cases h
        obtain ⟨h1, h2⟩ := mapM_at hl
        refine ⟨by simp [h1], ?_⟩
        intro i x hx
        cases i with
        | zero =>
          simp only [List.getElem?_cons_zero, Option.some.injEq] at hx
          subst hx
          exact ⟨b, hf, rfl⟩
        | succ i => exact h2 i x hx

theorem mapM_total {α β : Type} {f : α → M β} {l : List α} (h : ∀ a ∈ l, ∃ b, f a = .ok b) : ∃ l', l.mapM f = .ok l' := by
  induction l with
  | nil => exact ⟨[], rfl⟩
  | cons a l ih =>
    obtain ⟨b, hb⟩ := h a List.mem_cons_self
    obtain ⟨bs, hbs⟩ := ih (fun x hx => h x (List.mem_cons_of_mem _ hx))
    exact ⟨b :: bs, by rw [List.mapM_cons, hb, hbs]; rfl⟩

open GroupImpl in
/-- **C87** (references and slices) For a tuple of any length and any array of pointers in the order of the ids: the
tuple of references and the tuple of slices have the pointer of each type at the position of the type. -/
theorem C87_references {I : GroupImpl} (hI : I ∈ groupImpls) {T : Nat → CompTy}
    (hv : ((I.group T).descriptor env).isValid = true) {α : Type} {ptrs : List (Option α)}
    (hp : ∀ k, k < (I.group T).length → ∃ x, ptrs[k]? = some (some x)) (len : Nat) :
    ∃ refs slices, I.pointersAsRefTuple env T ptrs = .ok refs ∧ I.sliceUnchecked env T ptrs len = .ok slices ∧
      refs.map Prod.fst = I.group T ∧ slices.map Prod.fst = I.group T ∧
      ∀ (i : Nat) c x, (I.group T)[i]? = some c → ptrs[idRank (I.group T) c]? = some (some x) →
        refs[i]? = some (c, x) ∧ slices[i]? = some (c, x, len) := by
  have hl := group_length I T
  have each : ∀ p ∈ I.elems, ∃ x, ptrs[idRank (I.group T) (T p.1)]? = some (some x) ∧
      I.slotOf env T p.2 = .ok (idRank (I.group T) (T p.1)) := by
    intro p hpm
    obtain ⟨h1, h2⟩ := elem_at hI hpm
    obtain ⟨h3, h4⟩ := slotOf_rank hI hv h1
    rw [← h2] at h3 h4
    obtain ⟨x, hx⟩ := hp _ (by rw [hl]; exact h4)
    exact ⟨x, hx, h3⟩
  have hr : ∃ refs, I.pointersAsRefTuple env T ptrs = .ok refs := by
    refine mapM_total (fun p hpm => ?_)
    obtain ⟨x, h1, h2⟩ := each p hpm
    exact ⟨(T p.1, x), by rw [h2, ok_bind, index_of_getElem? h1]; rfl⟩
  have hs : ∃ slices, I.sliceUnchecked env T ptrs len = .ok slices := by
    refine mapM_total (fun p hpm => ?_)
    obtain ⟨x, h1, h2⟩ := each p hpm
    exact ⟨(T p.1, x, len), by rw [h2, ok_bind, index_of_getElem? h1]; rfl⟩
  obtain ⟨refs, hr⟩ := hr
  obtain ⟨slices, hs⟩ := hs
  obtain ⟨r1, r2⟩ := mapM_at hr
  obtain ⟨s1, s2⟩ := mapM_at hs
  have atp : ∀ i, i < I.elems.length → ∃ x, ptrs[idRank (I.group T) (T (i + 1))]? = some (some x) ∧
      refs[i]? = some (T (i + 1), x) ∧ slices[i]? = some (T (i + 1), x, len) := by
    intro i hi
    have he : I.elems[i]? = some (i + 1, i) := C87_lengths.2.2.1 I hI i hi
    obtain ⟨x, h1, h2⟩ := each _ (List.mem_of_getElem? he)
    refine ⟨x, h1, ?_, ?_⟩
    · obtain ⟨b, b1, b2⟩ := r2 i _ he
      rw [h2, ok_bind, index_of_getElem? h1] at b1
      cases b1; exact b2
    · obtain ⟨b, b1, b2⟩ := s2 i _ he
      rw [h2, ok_bind, index_of_getElem? h1] at b1
      cases b1; exact b2
  refine ⟨refs, slices, hr, hs, ?_, ?_, ?_⟩
  · apply List.ext_getElem?
    intro i
    rcases Nat.lt_or_ge i I.elems.length with hi | hi
    · obtain ⟨x, _, h2, _⟩ := atp i hi
      rw [List.getElem?_map, h2, group_at hI hi]; rfl
    · rw [List.getElem?_eq_none (by simp; omega), List.getElem?_eq_none (by omega)]
  · apply List.ext_getElem?
    intro i
    rcases Nat.lt_or_ge i I.elems.length with hi | hi
    · obtain ⟨x, _, _, h2⟩ := atp i hi
      rw [List.getElem?_map, h2, group_at hI hi]; rfl
    · rw [List.getElem?_eq_none (by simp; omega), List.getElem?_eq_none (by omega)]
  · intro i c x hc hx
    have hi := (List.getElem?_eq_some_iff.mp hc).1
    rw [hl] at hi
    rw [group_at hI hi] at hc
    cases hc
    obtain ⟨y, h1, h2, h3⟩ := atp i hi
    rw [hx] at h1; cases h1
    exact ⟨h2, h3⟩

open GroupImpl in
/-- **C87** (the general model) On every implementation, the functions for groups of any length that the rest of the
model uses are what the macros expand to. -/
theorem C87_expansion {I : GroupImpl} (hI : I ∈ groupImpls) {T : Nat → CompTy}
    (hv : ((I.group T).descriptor env).isValid = true) :
    (∀ vals, TypedVals (I.group T) vals →
      I.asSortedPointers env T vals (List.replicate MAX_COMPONENTS_PER_ENTITY none) =
        .ok (Archetype.asSortedPointers env (I.group T) vals)) ∧
    ∀ (ptrs : List (Option Ref)) refs, I.pointersAsRefTuple env T ptrs = .ok refs →
      Archetype.tuplePointers env (I.group T) ptrs = refs.map (fun p => (p.1, some p.2)) := by
  have hl := group_length I T
  have gs := Group.spec hv
  refine ⟨fun vals ht => ?_, fun ptrs refs hr => ?_⟩
  · obtain ⟨ptrs', q1, q2, q3, q4⟩ := asSortedPointers_ok hI hv (vals := vals) (by rw [ht.1, hl])
      (ptrs := List.replicate MAX_COMPONENTS_PER_ENTITY none) (by simp [MAX_COMPONENTS_PER_ENTITY])
    rw [q1]
    congr 1
    apply List.ext_getElem?
    intro k
    rcases Nat.lt_or_ge k 14 with hk | hk
    · rcases Nat.lt_or_ge k I.elems.length with hkn | hkn
      · obtain ⟨i, hi, he⟩ := rank_surj hI hv (T := T) hkn
        have h1 := q3 i hi
        rw [he] at h1
        have h2 := asSortedPointers_spec gs (vals := vals) (j := i) (by omega)
        have h3 := slotOf_eq hI hv (T := T) hi
        rw [(slotOf_rank hI hv hi).1, he] at h3
        rw [h1, Except.ok.inj h3, h2]
      · rw [q4 k hkn, asSortedPointers_pad gs (by omega) hk]
        exact List.getElem?_replicate_of_lt hk
    · rw [List.getElem?_eq_none (by omega), List.getElem?_eq_none (by rw [asSortedPointers_length]; exact hk)]
  · obtain ⟨r1, r2⟩ := mapM_at hr
    apply List.ext_getElem?
    intro i
    unfold Archetype.tuplePointers
    rw [List.getElem?_mapIdx]
    rcases Nat.lt_or_ge i I.elems.length with hi | hi
    · have he : I.elems[i]? = some (i + 1, i) := C87_lengths.2.2.1 I hI i hi
      obtain ⟨b, b1, b2⟩ := r2 i _ he
      rw [slotOf_eq hI hv hi, ok_bind] at b1
      rw [group_at hI hi, List.getElem?_map, b2]
      simp only [Option.map_some]
      cases hx : ptrs[(I.group T).slot env i]? with
      | none => rw [index, hx] at b1; cases b1
      | some o =>
        rw [index_of_getElem? hx] at b1
        cases o with
        | none => cases b1
        | some x =>
          cases b1
          simp [List.getD_eq_getElem?_getD, hx]
    · rw [List.getElem?_eq_none (by omega), List.getElem?_eq_none (by simp; omega)]
      rfl

/-! ## Examples -/

set_option maxRecDepth 100000 in
/-- C87: the tuple type `(B, A, C)` of the example world, its implementation, and values of it. -/
example : ∃ I ∈ groupImpls, ∃ T : Nat → CompTy, I.group T = [exB, exA, exC] ∧
    ((I.group T).descriptor exEnv).isValid = true ∧ TypedVals (I.group T) [exValB, exValA, exValC] ∧
    I.asSortedPointers exEnv T [exValB, exValA, exValC] (List.replicate 14 none) =
      .ok ([some exValA, some exValB, some exValC] ++ List.replicate 11 none) := by
  refine ⟨.tuple ⟨3, [(1, 0), (2, 1), (3, 2)]⟩, by decide +kernel, fun k => if k = 1 then exB else if k = 2 then exA else exC,
    by decide +kernel, by decide +kernel, ⟨by decide +kernel, ?_⟩, by decide +kernel⟩
  intro i c v h1 h2
  have : i = 0 ∨ i = 1 ∨ i = 2 ∨ 3 ≤ i := by omega
  rcases this with rfl | rfl | rfl | hi
  · cases h1; cases h2; exact ⟨rfl, rfl⟩
  · cases h1; cases h2; exact ⟨rfl, rfl⟩
  · cases h1; cases h2; exact ⟨rfl, rfl⟩
  · rw [List.getElem?_eq_none (by simpa using hi)] at h2; cases h2

end Shard
