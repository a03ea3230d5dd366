import Verif.Model.RawDescriptor
import Verif.Proofs.Descriptors
import Verif.Proofs.HashSpec
import Verif.Proofs.Oom
/-!
# Descriptors with arbitrary fields: what the checked functions answer
-/

set_option autoImplicit false

namespace Shard

variable {env : Env}

theorem index_ge {α : Type} {l : List α} {i : Nat} (h : l.length ≤ i) : index l i = .error (.panic .indexOutOfBounds) := by
  unfold index
  rw [List.getElem?_eq_none h]

theorem setIndex_ge {α : Type} {l : List α} {i : Nat} {a : α} (h : l.length ≤ i) :
    setIndex l i a = .error (.panic .indexOutOfBounds) := by
  unfold setIndex
  rw [if_neg (by omega)]

namespace ArchetypeDescriptor

theorem slice_ok {d : ArchetypeDescriptor} (hc : d.comps.length = 14) (h : d.len ≤ 14) : d.componentsAny = .ok d.components := by
  unfold componentsAny
  rw [if_pos (by omega)]

theorem slice_long {d : ArchetypeDescriptor} (hc : d.comps.length = 14) (h : 14 < d.len) :
    d.componentsAny = .error (.panic .indexOutOfBounds) := by
  unfold componentsAny
  rw [if_neg (by omega)]

/-- The inner loop, for a position inside the array of `o`. -/
theorem findLoop_eq {d o : ArchetypeDescriptor} (hd : d.comps.length = 14) {i : Nat} (hi : i < o.comps.length) :
    ∀ (n j : Nat), j ≤ 14 → findLoop d o i n j =
      if o.comps[i].id ∈ ((d.comps.drop j).take n).map (fun (c : ComponentDescriptor) => c.id) then .ok true
      else if j + n ≤ 14 then .ok false else .error (.panic .indexOutOfBounds)
  | 0, j, hj => by simp [findLoop, hj]
  | n + 1, j, hj => by
    unfold findLoop
    by_cases hj' : j < 14
    · have hjl : j < d.comps.length := by omega
      simp only [index_lt hjl, index_lt hi, ok_bind, pure_eq_ok]
      rw [List.drop_eq_getElem_cons hjl, List.take_succ_cons, List.map_cons]
      by_cases he : d.comps[j].id = o.comps[i].id
      · rw [if_pos (by simpa using he), if_pos (by rw [he]; exact List.mem_cons_self)]
      · rw [if_neg (by simpa using he), findLoop_eq hd hi n (j + 1) (by omega)]
        have hm : (o.comps[i].id ∈ d.comps[j].id :: ((d.comps.drop (j + 1)).take n).map (fun (c : ComponentDescriptor) => c.id)) ↔
            o.comps[i].id ∈ ((d.comps.drop (j + 1)).take n).map (fun (c : ComponentDescriptor) => c.id) := by
          rw [List.mem_cons]
          exact ⟨fun h => h.resolve_left (fun h => he h.symm), Or.inr⟩
        have ha : j + 1 + n = j + (n + 1) := by omega
        simp only [hm, ha]
    · rw [index_ge (by omega), error_bind, List.drop_eq_nil_of_le (by omega)]
      simp
      omega

theorem findLoop_all {d o : ArchetypeDescriptor} (hd : d.comps.length = 14) {i : Nat} (hi : i < o.comps.length) :
    findLoop d o i d.len 0 = if o.comps[i].id ∈ d.ids then .ok true
      else if d.len ≤ 14 then .ok false else .error (.panic .indexOutOfBounds) := by
  have := findLoop_eq hd hi d.len 0 (by omega)
  rw [List.drop_zero, Nat.zero_add] at this
  exact this

/-- The inner loop, for a position outside the array of `o`. -/
theorem findLoop_outside {d o : ArchetypeDescriptor} (hd : d.comps.length = 14) {i : Nat} (hi : o.comps.length ≤ i)
    {n : Nat} (hn : 1 ≤ n) : findLoop d o i n 0 = .error (.panic .indexOutOfBounds) := by
  obtain ⟨n, rfl⟩ : ∃ m, n = m + 1 := ⟨n - 1, by omega⟩
  unfold findLoop
  rw [index_lt (by omega), ok_bind, index_ge hi, error_bind]

/-- `contains_subset` from position `i`. -/
theorem containsOuter_eq {d o : ArchetypeDescriptor} (hd : d.comps.length = 14) (ho : o.comps.length = 14) :
    ∀ (n i : Nat), i ≤ 14 → (n = 0 ∨ 1 ≤ d.len) → containsOuter d o n i =
      if ∀ id ∈ ((o.comps.drop i).take n).map (fun (c : ComponentDescriptor) => c.id), id ∈ d.ids then
        (if i + n ≤ 14 then .ok true else .error (.panic .indexOutOfBounds))
      else if d.len ≤ 14 then .ok false else .error (.panic .indexOutOfBounds)
  | 0, i, hi, _ => by simp [containsOuter, hi]
  | n + 1, i, hi, hl => by
    have hl : 1 ≤ d.len := by omega
    unfold containsOuter
    by_cases hi' : i < 14
    · have hil : i < o.comps.length := by omega
      have ha : i + 1 + n = i + (n + 1) := by omega
      rw [findLoop_all hd hil, List.drop_eq_getElem_cons hil, List.take_succ_cons,
        List.map_cons]
      by_cases hm : o.comps[i].id ∈ d.ids
      · rw [if_pos hm, ok_bind, if_pos rfl, containsOuter_eq hd ho n (i + 1) (by omega) (Or.inr hl)]
        have : (∀ id ∈ o.comps[i].id :: ((o.comps.drop (i + 1)).take n).map (fun (c : ComponentDescriptor) => c.id), id ∈ d.ids) ↔
            ∀ id ∈ ((o.comps.drop (i + 1)).take n).map (fun (c : ComponentDescriptor) => c.id), id ∈ d.ids := by
          rw [List.forall_mem_cons]
          exact ⟨fun h => h.2, fun h => ⟨hm, h⟩⟩
        simp only [this, ha]
      · have : ¬ ∀ id ∈ o.comps[i].id :: ((o.comps.drop (i + 1)).take n).map (fun (c : ComponentDescriptor) => c.id), id ∈ d.ids :=
          fun h => hm (h _ List.mem_cons_self)
        rw [if_neg hm, if_neg this]
        split
        · rfl
        · rfl
    · rw [findLoop_outside hd (by omega) hl, error_bind, List.drop_eq_nil_of_le (by omega)]
      simp
      omega

/-- `excludes_subset` from position `i`, for a descriptor of at most 14 components. -/
theorem excludesOuter_eq {d o : ArchetypeDescriptor} (hd : d.comps.length = 14) (ho : o.comps.length = 14)
    (hl : 1 ≤ d.len) (hl' : d.len ≤ 14) :
    ∀ (n i : Nat), i ≤ 14 → excludesOuter d o n i =
      if ∀ id ∈ ((o.comps.drop i).take n).map (fun (c : ComponentDescriptor) => c.id), id ∉ d.ids then
        (if i + n ≤ 14 then .ok true else .error (.panic .indexOutOfBounds))
      else .ok false
  | 0, i, hi => by simp [excludesOuter, hi]
  | n + 1, i, hi => by
    unfold excludesOuter
    by_cases hi' : i < 14
    · have hil : i < o.comps.length := by omega
      have ha : i + 1 + n = i + (n + 1) := by omega
      rw [findLoop_all hd hil, List.drop_eq_getElem_cons hil, List.take_succ_cons,
        List.map_cons]
      by_cases hm : o.comps[i].id ∈ d.ids
      · have : ¬ ∀ id ∈ o.comps[i].id :: ((o.comps.drop (i + 1)).take n).map (fun (c : ComponentDescriptor) => c.id), id ∉ d.ids :=
          fun h => h _ List.mem_cons_self hm
        rw [if_pos hm, if_neg this]
        rfl
      · rw [if_neg hm, if_pos hl', ok_bind, if_neg (by decide),
          excludesOuter_eq hd ho hl hl' n (i + 1) (by omega)]
        have : (∀ id ∈ o.comps[i].id :: ((o.comps.drop (i + 1)).take n).map (fun (c : ComponentDescriptor) => c.id), id ∉ d.ids) ↔
            ∀ id ∈ ((o.comps.drop (i + 1)).take n).map (fun (c : ComponentDescriptor) => c.id), id ∉ d.ids := by
          rw [List.forall_mem_cons]
          exact ⟨fun h => h.2, fun h => ⟨hm, h⟩⟩
        simp only [this, ha]
    · rw [findLoop_outside hd (by omega) hl, error_bind, List.drop_eq_nil_of_le (by omega)]
      simp
      omega

/-- `excludes_subset` of a descriptor without components. -/
theorem excludesOuter_empty {d o : ArchetypeDescriptor} (h : d.len = 0) : ∀ n i, excludesOuter d o n i = .ok true
  | 0, _ => rfl
  | n + 1, i => by
    unfold excludesOuter
    rw [h]
    exact excludesOuter_empty h n (i + 1)

/-- `contains_subset` on any two descriptors. -/
theorem containsSubsetAny_eq {d o : ArchetypeDescriptor} (hd : d.comps.length = 14) (ho : o.comps.length = 14) :
    d.containsSubsetAny o =
      if o.len > d.len then .ok false
      else if ∀ id ∈ o.ids, id ∈ d.ids then (if o.len ≤ 14 then .ok true else .error (.panic .indexOutOfBounds))
      else if d.len ≤ 14 then .ok false else .error (.panic .indexOutOfBounds) := by
  unfold containsSubsetAny
  split
  · rfl
  · rw [containsOuter_eq hd ho o.len 0 (by omega) (by omega), List.drop_zero, Nat.zero_add]
    rfl

/-- `excludes_subset` on any two descriptors. -/
theorem excludesSubsetAny_eq {d o : ArchetypeDescriptor} (hd : d.comps.length = 14) (ho : o.comps.length = 14) :
    d.excludesSubsetAny o =
      if d.len = 0 ∨ o.len = 0 then .ok true
      else if d.len ≤ 14 then
        (if ∀ id ∈ o.ids, id ∉ d.ids then (if o.len ≤ 14 then .ok true else .error (.panic .indexOutOfBounds))
         else .ok false)
      else if (o.comps.getD 0 ComponentDescriptor.INVALID).id ∈ d.ids then .ok false
      else .error (.panic .indexOutOfBounds) := by
  unfold excludesSubsetAny
  by_cases h0 : d.len = 0
  · rw [if_pos (Or.inl h0), excludesOuter_empty h0]
  · by_cases h1 : o.len = 0
    · rw [if_pos (Or.inr h1), h1]
      rfl
    · rw [if_neg (by omega)]
      by_cases hl : d.len ≤ 14
      · rw [if_pos hl, excludesOuter_eq hd ho (by omega) hl o.len 0 (by omega), List.drop_zero, Nat.zero_add]
        rfl
      · rw [if_neg hl]
        obtain ⟨m, hm⟩ : ∃ m, o.len = m + 1 := ⟨o.len - 1, by omega⟩
        have h00 : 0 < o.comps.length := by omega
        have hg : o.comps.getD 0 ComponentDescriptor.INVALID = o.comps[0] := by simp [List.getD, h00]
        rw [hm, hg]
        unfold excludesOuter
        rw [findLoop_all hd h00]
        by_cases hmem : o.comps[0].id ∈ d.ids
        · rw [if_pos hmem, if_pos hmem]; rfl
        · rw [if_neg hmem, if_neg hmem, if_neg hl]; rfl

/-- `compute_archetype_id` of at most 14 descriptors. -/
theorem computeArchetypeIdAny_ok {ds : List ComponentDescriptor} (h : ds.length ≤ 14) :
    computeArchetypeIdAny env ds = .ok (computeArchetypeId env ds) := by
  match ds, h with
  | [], _ => rfl
  | [d], _ => rfl
  | d :: d' :: l, h =>
    obtain ⟨b, h1, h2, h3⟩ := forRange_inv
      (f := fun i bytes => do
        let x ← index (d :: d' :: l) i
        let b := u16ToNeBytes env x.id
        let bytes ← setIndex bytes (i * 2 + 0) b.1
        setIndex bytes (i * 2 + 1) b.2)
      (fun i (s : List UInt8) => s.length = 28 ∧ s = (List.range i).foldl
        (fun bytes i =>
          let b := u16ToNeBytes env (((d :: d' :: l).getD i ComponentDescriptor.INVALID).id)
          (bytes.set (i * 2 + 0) b.1).set (i * 2 + 1) b.2)
        (List.replicate (MAX_COMPONENTS_PER_ENTITY * 2) 0))
      (d :: d' :: l).length 0 (List.replicate (MAX_COMPONENTS_PER_ENTITY * 2) 0)
      ⟨by simp [MAX_COMPONENTS_PER_ENTITY], rfl⟩ (by
        intro i s _ hi ⟨hs, he⟩
        have hil : i < (d :: d' :: l).length := by omega
        simp only [index_lt hil, ok_bind]
        rw [setIndex_lt (by omega), ok_bind, setIndex_lt (by rw [List.length_set]; omega)]
        refine ⟨_, rfl, by simpa using hs, ?_⟩
        rw [List.range_succ, List.foldl_append, ← he, List.foldl_cons, List.foldl_nil]
        have hg : (d :: d' :: l).getD i ComponentDescriptor.INVALID = (d :: d' :: l)[i] := by
          rw [List.getD_eq_getElem?_getD, List.getElem?_eq_getElem hil]; rfl
        simp only [hg])
    rw [Nat.zero_add] at h3
    unfold computeArchetypeIdAny
    simp only [h1, ok_bind]
    rw [h3]
    rfl

/-- `compute_archetype_id` of more than 14 descriptors. -/
theorem computeArchetypeIdAny_long {ds : List ComponentDescriptor} (h : 14 < ds.length) :
    computeArchetypeIdAny env ds = .error (.panic .indexOutOfBounds) := by
  match ds, h with
  | d :: d' :: l, h =>
    have := forRange_fault
      (f := fun i bytes => do
        let x ← index (d :: d' :: l) i
        let b := u16ToNeBytes env x.id
        let bytes ← setIndex bytes (i * 2 + 0) b.1
        setIndex bytes (i * 2 + 1) b.2)
      (e := .panic .indexOutOfBounds)
      (fun _ (s : List UInt8) => s.length = 28) 14 (d :: d' :: l).length 0
      (List.replicate (MAX_COMPONENTS_PER_ENTITY * 2) 0) h (by simp [MAX_COMPONENTS_PER_ENTITY]) (by
        intro i s _ hi hs
        have hil : i < (d :: d' :: l).length := by omega
        simp only [index_lt hil, ok_bind]
        rw [setIndex_lt (by omega), ok_bind, setIndex_lt (by rw [List.length_set]; omega)]
        exact ⟨_, rfl, by simpa using hs⟩) (by
        intro s hs
        have hil : 0 + 14 < (d :: d' :: l).length := by omega
        simp only [index_lt hil, ok_bind]
        rw [setIndex_ge (by omega), error_bind])
    unfold computeArchetypeIdAny
    simp only [this, error_bind]

theorem forRange_length {α : Type} {f : Nat → List α → M (List α)} (hf : ∀ i v v', f i v = .ok v' → v'.length = v.length) :
    ∀ (n lo : Nat) (v v' : List α), forRange lo n f v = .ok v' → v'.length = v.length
  | 0, _, v, v', h => by cases h; rfl
  | n + 1, lo, v, v', h => by
    unfold forRange at h
    cases h1 : f lo v with
    | error e => rw [h1] at h; cases h
    | ok v1 =>
      rw [h1] at h
      rw [forRange_length hf n (lo + 1) v1 v' h, hf _ _ _ h1]

theorem shift_length {α : Type} {l v v' : List α} {i j : Nat} (h : (do let x ← index l i; setIndex v j x) = Except.ok v') :
    v'.length = v.length := by
  cases h1 : index l i with
  | error e => rw [h1] at h; cases h
  | ok x =>
    rw [h1, ok_bind] at h
    unfold setIndex at h
    split at h
    · cases h; exact List.length_set
    · cases h

/-- `add_component` with checked slices, for a length of at most 14. -/
theorem addComponentAny_eq {d : ArchetypeDescriptor} (hd : d.comps.length = 14) (h : d.len ≤ 14) (cd : ComponentDescriptor) :
    d.addComponentAny env cd = d.addComponent env cd := by
  unfold addComponentAny addComponent
  have hM : MAX_COMPONENTS_PER_ENTITY = 14 := rfl
  split
  · rfl
  · rename_i hne
    simp only [slice_ok hd h, ok_bind]
    show (match binarySearchByKey (d.comps.take d.len) cd.id.toNat (fun e => e.id.toNat) with
      | .found _ => _ | .insertAt ins => _) = _
    cases binarySearchByKey (d.comps.take d.len) cd.id.toNat (fun e => e.id.toNat) with
    | found _ => rfl
    | insertAt ins =>
      show (forRange ins (d.len + 1 - ins) _ d.comps >>= _) = (forRange ins (d.len + 1 - ins) _ d.comps >>= _)
      cases h1 : forRange ins (d.len + 1 - ins) (fun i v => do
        let x ← index d.comps i
        setIndex v (i + 1) x) d.comps with
      | error e => rfl
      | ok v =>
        have hv : v.length = 14 := by
          rw [forRange_length (fun i v v' hv => shift_length hv) _ _ _ _ h1, hd]
        simp only [ok_bind]
        by_cases hi : ins < v.length
        · have hc : (v.set ins cd).length = 14 := by rw [List.length_set, hv]
          rw [setIndex_lt hi, ok_bind, ok_bind, slice_ok (d := ⟨d.archetypeId, v.set ins cd, d.len + 1⟩) hc
            (by show d.len + 1 ≤ 14; omega), ok_bind, computeArchetypeIdAny_ok, ok_bind]
          · rfl
          · show ((v.set ins cd).take (d.len + 1)).length ≤ 14
            rw [List.length_take]; omega
        · rw [setIndex_ge (by omega)]; rfl

/-- `remove_component` with checked slices, for a length of at most 14. -/
theorem removeComponentAny_eq {d : ArchetypeDescriptor} (hd : d.comps.length = 14) (h : d.len ≤ 14) (id : UInt16) :
    d.removeComponentAny env id = d.removeComponent env id := by
  unfold removeComponentAny removeComponent
  split
  · rfl
  · simp only [slice_ok hd h, ok_bind]
    show (match binarySearchByKey (d.comps.take d.len) id.toNat (fun e => e.id.toNat) with
      | .found _ => _ | .insertAt _ => _) = _
    cases binarySearchByKey (d.comps.take d.len) id.toNat (fun e => e.id.toNat) with
    | insertAt _ => rfl
    | found fi =>
      show (forRange fi (d.len - fi) _ d.comps >>= _) = (forRange fi (d.len - fi) _ d.comps >>= _)
      cases h1 : forRange fi (d.len - fi) (fun i v => do
        let x ← index d.comps (i + 1)
        setIndex v i x) d.comps with
      | error e => rfl
      | ok v =>
        have hv : v.length = 14 := by
          rw [forRange_length (fun i v v' hv => shift_length hv) _ _ _ _ h1, hd]
        simp only [ok_bind]
        rw [slice_ok (d := ⟨d.archetypeId, v, d.len - 1⟩) hv (by show d.len - 1 ≤ 14; omega), ok_bind,
          computeArchetypeIdAny_ok, ok_bind]
        · rfl
        · show (v.take (d.len - 1)).length ≤ 14
          rw [List.length_take]; omega

/-- Shifting and storing is inserting, whatever the components are. -/
theorem addLoop_take {comps v : List ComponentDescriptor} {i n : Nat} {cd : ComponentDescriptor} (hc : comps.length = 14)
    (hn : n ≤ 12) (hi : i ≤ n) (hvl : v.length = 14)
    (hvj : ∀ j, v[j]? = if i + 1 ≤ j ∧ j ≤ n + 1 then comps[j - 1]? else comps[j]?) :
    (v.set i cd).take (n + 1) = (comps.take n).take i ++ cd :: (comps.take n).drop i := by
  have hlen : ((comps.take n).take i).length = i := by rw [List.length_take, List.length_take, hc]; omega
  apply List.ext_getElem?
  intro j
  rw [List.getElem?_take]
  by_cases hj : j < n + 1
  · rw [if_pos hj]
    rcases Nat.lt_trichotomy j i with hji | hji | hji
    · rw [List.getElem?_set_ne (by omega), hvj, if_neg (by omega), List.getElem?_append_left (by simp; omega),
        List.getElem?_take_of_lt hji, List.getElem?_take_of_lt (by omega)]
    · subst hji
      rw [List.getElem?_set_self (by omega), List.getElem?_append_right (by simp; omega)]
      rw [hlen, Nat.sub_self]
      rfl
    · rw [List.getElem?_set_ne (by omega), hvj, if_pos (by omega), List.getElem?_append_right (by simp; omega)]
      rw [hlen]
      obtain ⟨k, rfl⟩ : ∃ k, j = i + k + 1 := ⟨j - i - 1, by omega⟩
      rw [show i + k + 1 - i = k + 1 by omega, List.getElem?_cons_succ, List.getElem?_drop, Nat.add_sub_cancel,
        List.getElem?_take_of_lt (by omega)]
  · rw [if_neg hj, List.getElem?_eq_none]
    simp; omega

/-- `add_component` on any descriptor with at most 14 components, sorted or not. -/
theorem addComponent_any {d : ArchetypeDescriptor} (hd : d.comps.length = 14) (h : d.len ≤ 14) (cd : ComponentDescriptor) :
    (d.addComponent env cd = .ok none ∧ (d.len = 14 ∨ cd.id ∈ d.ids)) ∨
    (d.len = 13 ∧ d.addComponent env cd = .error (.panic .indexOutOfBounds)) ∨
    (d.len ≤ 12 ∧ ∃ d' pre post, d.addComponent env cd = .ok (some d') ∧ d.ids = pre ++ post ∧
      d'.ids = pre ++ cd.id :: post ∧ d'.archetypeId.toNat = Spec.movedId env.bigEndian d'.ids) := by
  have hM : MAX_COMPONENTS_PER_ENTITY = 14 := rfl
  by_cases h14 : d.len = 14
  · exact Or.inl ⟨addComponent_full h14, Or.inl h14⟩
  have hcl : (d.comps.take d.len).length = d.len := by rw [List.length_take, hd]; omega
  rcases binarySearchByKey_any (d.comps.take d.len) cd.id.toNat (fun e => e.id.toNat) with ⟨i, hi, hs, he⟩ | ⟨i, hs, hi⟩
  · refine Or.inl ⟨?_, Or.inr (List.mem_map.mpr ⟨_, List.getElem_mem hi, UInt16.toNat_inj.mp he⟩)⟩
    unfold addComponent
    rw [if_neg (by omega)]
    simp only [hs]
  · by_cases h13 : d.len = 13
    · refine Or.inr (Or.inl ⟨h13, ?_⟩)
      unfold addComponent
      rw [if_neg (by omega)]
      simp only [hs]
      rw [h13, addLoop_panic hd (by omega)]
      rfl
    · obtain ⟨v, hv, hvl, hvj⟩ := addLoop_spec (ins := i) (len := d.len) hd (by omega) (by omega)
      have hadd : d.addComponent env cd =
          .ok (some ⟨computeArchetypeId env ((v.set i cd).take (d.len + 1)), v.set i cd, d.len + 1⟩) := by
        unfold addComponent
        rw [if_neg (by omega)]
        simp only [hs, hv, ok_bind]
        rw [setIndex_lt (by omega)]
        rfl
      have hcomp := addLoop_take (cd := cd) hd (by omega) (show i ≤ d.len by omega) hvl hvj
      refine Or.inr (Or.inr ⟨by omega, _, ((d.comps.take d.len).take i).map (fun c => c.id),
        ((d.comps.take d.len).drop i).map (fun c => c.id), hadd, ?_, ?_, ?_⟩)
      · rw [← List.map_append, List.take_append_drop]
        rfl
      · show ((v.set i cd).take (d.len + 1)).map (fun c => c.id) = _
        rw [hcomp, List.map_append, List.map_cons]
      · show (computeArchetypeId env ((v.set i cd).take (d.len + 1))).toNat =
          Spec.movedId env.bigEndian (((v.set i cd).take (d.len + 1)).map (fun c => c.id))
        refine computeArchetypeId_moved env _ ?_ ?_
        · rw [List.length_take, List.length_set, hvl]; omega
        · rw [List.length_take, List.length_set, hvl]; omega

/-- `remove_component` on any descriptor with at most 14 components, sorted or not. -/
theorem removeComponent_any {d : ArchetypeDescriptor} (hd : d.comps.length = 14) (h : d.len ≤ 14) (id : UInt16) :
    (d.removeComponent env id = .ok none ∧ (d.len = 1 ∨ id ∉ d.ids ∨ ¬ d.ids.Pairwise (· < ·))) ∨
    (d.len = 14 ∧ id ∈ d.ids ∧ d.removeComponent env id = .error (.panic .indexOutOfBounds)) ∨
    (2 ≤ d.len ∧ d.len ≤ 13 ∧ ∃ d' pre post, d.removeComponent env id = .ok (some d') ∧ d.ids = pre ++ id :: post ∧
      d'.ids = pre ++ post ∧ d'.archetypeId.toNat = Spec.movedId env.bigEndian d'.ids) := by
  by_cases h1 : d.len = 1
  · exact Or.inl ⟨removeComponent_one h1, Or.inl h1⟩
  have hcl : (d.comps.take d.len).length = d.len := by rw [List.length_take, hd]; omega
  rcases binarySearchByKey_any (d.comps.take d.len) id.toNat (fun e => e.id.toNat) with ⟨i, hi, hs, he⟩ | ⟨i, hs, hi⟩
  · have he' : (d.comps.take d.len)[i].id = id := UInt16.toNat_inj.mp he
    have hids : d.ids = ((d.comps.take d.len).take i).map (fun c => c.id) ++ id ::
        ((d.comps.take d.len).drop (i + 1)).map (fun c => c.id) := by
      unfold ids components
      conv => lhs; rw [← List.take_append_drop i (d.comps.take d.len), List.drop_eq_getElem_cons hi, List.map_append,
        List.map_cons, he']
    by_cases h14 : d.len = 14
    · refine Or.inr (Or.inl ⟨h14, by rw [hids]; simp, ?_⟩)
      unfold removeComponent
      rw [if_neg h1]
      simp only [hs]
      rw [h14, removeLoop_panic hd (by omega)]
      rfl
    · obtain ⟨v, hv, hvl, hvj⟩ := removeLoop_spec (fi := i) (len := d.len) hd (by omega) (by omega)
      have hrem : d.removeComponent env id = .ok (some ⟨computeArchetypeId env (v.take (d.len - 1)), v, d.len - 1⟩) := by
        unfold removeComponent
        rw [if_neg h1]
        simp only [hs, hv, ok_bind]
        rfl
      have hcomp : v.take (d.len - 1) = (d.comps.take d.len).take i ++ (d.comps.take d.len).drop (i + 1) := by
        rw [← List.eraseIdx_eq_take_drop_succ]
        apply List.ext_getElem?
        intro j
        rw [List.getElem?_take, List.getElem?_eraseIdx]
        by_cases hj : j < d.len - 1
        · rw [if_pos hj, hvj]
          by_cases hji : j < i
          · rw [if_neg (by omega), if_pos hji, List.getElem?_take_of_lt (by omega)]
          · rw [if_pos (by omega), if_neg hji, List.getElem?_take_of_lt (by omega)]
        · rw [if_neg hj, if_neg (by omega), List.getElem?_eq_none (by omega)]
      refine Or.inr (Or.inr ⟨by omega, by omega, _, _, _, hrem, hids, ?_, ?_⟩)
      · show (v.take (d.len - 1)).map (fun c => c.id) = _
        rw [hcomp, List.map_append]
      · show (computeArchetypeId env (v.take (d.len - 1))).toNat =
          Spec.movedId env.bigEndian ((v.take (d.len - 1)).map (fun c => c.id))
        refine computeArchetypeId_moved env _ ?_ ?_
        · rw [List.length_take, hvl]; omega
        · rw [List.length_take, hvl]; omega
  · refine Or.inl ⟨?_, Or.inr ?_⟩
    · unfold removeComponent
      rw [if_neg h1]
      simp only [hs]
    · by_cases hm : id ∈ d.ids
      · refine Or.inr fun hp => ?_
        have hsort : SortedLt ((d.comps.take d.len).map (fun (e : ComponentDescriptor) => e.id.toNat)) := by
          unfold ids components at hp
          rw [List.pairwise_map] at hp
          unfold SortedLt
          rw [List.pairwise_map]
          exact hp.imp (fun h => UInt16.lt_iff_toNat_lt.mp h)
        obtain ⟨x, hx, hxe⟩ := List.mem_map.mp hm
        obtain ⟨k, hk, hkx⟩ := List.getElem_of_mem hx
        have hf := binarySearchByKey_found hsort hk
        have : (d.comps.take d.len)[k].id = id := by rw [← hxe, ← hkx]; rfl
        rw [this, hs] at hf
        cases hf
      · exact Or.inl hm

/-- `has_component` on any descriptor with at most 14 components, sorted or not. -/
theorem hasComponent_any {d : ArchetypeDescriptor} (hd : d.comps.length = 14) (h : d.len ≤ 14) (c : CompTy) :
    ∃ b, d.hasComponentAny c = .ok b ∧ (b = true → c.id ∈ d.ids) ∧
      (d.ids.Pairwise (· < ·) → c.id ∈ d.ids → b = true) := by
  refine ⟨(binarySearchByKey (d.comps.take d.len) c.id.toNat (fun e => e.id.toNat)).isFound, ?_, ?_, ?_⟩
  · unfold hasComponentAny
    rw [slice_ok hd h]
    rfl
  · rcases binarySearchByKey_any (d.comps.take d.len) c.id.toNat (fun e => e.id.toNat) with ⟨i, hi, hs, he⟩ | ⟨i, hs, hi⟩
    · exact fun _ => List.mem_map.mpr ⟨_, List.getElem_mem hi, UInt16.toNat_inj.mp he⟩
    · rw [hs]; exact fun h => absurd h Bool.false_ne_true
  · intro hp hm
    have hsort : SortedLt ((d.comps.take d.len).map (fun (e : ComponentDescriptor) => e.id.toNat)) := by
      unfold ids components at hp
      rw [List.pairwise_map] at hp
      unfold SortedLt
      rw [List.pairwise_map]
      exact hp.imp (fun h => UInt16.lt_iff_toNat_lt.mp h)
    obtain ⟨x, hx, hxe⟩ := List.mem_map.mp hm
    obtain ⟨k, hk, hkx⟩ := List.getElem_of_mem hx
    have hf := binarySearchByKey_found hsort hk
    have : (d.comps.take d.len)[k].id = c.id := by rw [← hxe, ← hkx]; rfl
    rw [this] at hf
    rw [hf]
    rfl

end ArchetypeDescriptor

end Shard
