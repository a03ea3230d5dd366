import Verif.Proofs.Memory
import Verif.Proofs.World
/-!
# The archetype: representation invariant and specifications of its operations

`Rep W a ct` says that the raw memory of the archetype `a` represents the content `ct`: a list of entities and, per
component type, a column of values.
-/

namespace Shard

/-- The logical content of an archetype. -/
structure Content where
  cts : List CompTy
  ents : List Entity
  cols : List (List Val)

/-- Exchange two elements. -/
def swapAt {α : Type} (l : List α) (i j : Nat) : List α :=
  match l[i]?, l[j]? with
  | some x, some y => (l.set i y).set j x
  | _, _ => l

theorem swapAt_length {α : Type} (l : List α) (i j : Nat) : (swapAt l i j).length = l.length := by
  unfold swapAt; split <;> simp

theorem swapAt_eq {α : Type} {l : List α} {i j : Nat} (hi : i < l.length) (hj : j < l.length) :
    swapAt l i j = (l.set i l[j]).set j l[i] := by
  unfold swapAt
  rw [List.getElem?_eq_getElem hi, List.getElem?_eq_getElem hj]

theorem getElem?_swapAt {α : Type} {l : List α} {i j : Nat} (hi : i < l.length) (hj : j < l.length) (k : Nat) :
    (swapAt l i j)[k]? = if k = j then l[i]? else if k = i then l[j]? else l[k]? := by
  rw [swapAt_eq hi hj]
  by_cases h1 : k = j
  · subst h1
    rw [if_pos rfl, List.getElem?_set_self (by simpa using hj), List.getElem?_eq_getElem hi]
  · rw [if_neg h1, List.getElem?_set_ne (Ne.symm h1)]
    by_cases h2 : k = i
    · subst h2
      rw [if_pos rfl, List.getElem?_set_self hi, List.getElem?_eq_getElem hj]
    · rw [if_neg h2, List.getElem?_set_ne (Ne.symm h2)]

theorem swapAt_self {α : Type} (l : List α) (i : Nat) : swapAt l i i = l := by
  by_cases hi : i < l.length
  · apply List.ext_getElem?
    intro k
    rw [getElem?_swapAt hi hi]
    by_cases h : k = i
    · rw [if_pos h, h]
    · rw [if_neg h, if_neg h]
  · unfold swapAt
    rw [List.getElem?_eq_none (by omega)]

/-! ## Looking up a column -/

theorem lookupTy_of_getElem? {α : Type} : ∀ {cts : List CompTy} {cols : List α} {i : Nat} {c : CompTy} {vs : α},
    cts.Nodup → cts[i]? = some c → cols[i]? = some vs → lookupTy cts cols c = some vs
  | [], _, i, c, vs, _, h, _ => by simp at h
  | _ :: _, [], i, c, vs, _, _, h => by simp at h
  | c' :: cs, v :: vs', 0, c, vs, _, h1, h2 => by
    simp at h1 h2
    simp [lookupTy, h1, h2]
  | c' :: cs, v :: vs', i + 1, c, vs, hn, h1, h2 => by
    simp only [List.getElem?_cons_succ] at h1 h2
    obtain ⟨hn1, hn2⟩ := List.nodup_cons.mp hn
    have hne : c' ≠ c := by rintro rfl; exact hn1 (List.mem_of_getElem? h1)
    simp only [lookupTy, if_neg hne]
    exact lookupTy_of_getElem? hn2 h1 h2

theorem lookupTy_none {α : Type} : ∀ {cts : List CompTy} {cols : List α} {c : CompTy}, c ∉ cts → lookupTy cts cols c = none
  | [], _, _, _ => by simp [lookupTy]
  | _ :: _, [], _, _ => by simp [lookupTy]
  | c' :: cs, v :: vs, c, h => by
    rw [List.mem_cons, not_or] at h
    simp only [lookupTy, if_neg (Ne.symm h.1)]
    exact lookupTy_none h.2

theorem lookupTy_some_mem {α : Type} : ∀ {cts : List CompTy} {cols : List α} {c : CompTy} {vs : α},
    lookupTy cts cols c = some vs → ∃ i : Nat, cts[i]? = some c ∧ cols[i]? = some vs
  | [], _, _, _, h => by simp [lookupTy] at h
  | _ :: _, [], _, _, h => by simp [lookupTy] at h
  | c' :: cs, v :: vs', c, vs, h => by
    unfold lookupTy at h
    split at h
    · next he => cases h; exact ⟨0, by simp [he], by simp⟩
    · obtain ⟨i, h1, h2⟩ := lookupTy_some_mem h
      exact ⟨i + 1, by simpa using h1, by simpa using h2⟩

theorem lookupTy_map {α β : Type} (f : α → β) : ∀ (cts : List CompTy) (cols : List α) (c : CompTy),
    lookupTy cts (cols.map f) c = (lookupTy cts cols c).map f
  | [], _, _ => by simp [lookupTy]
  | _ :: _, [], _ => by simp [lookupTy]
  | c' :: cs, v :: vs, c => by
    simp only [List.map_cons, lookupTy]
    split
    · rfl
    · exact lookupTy_map f cs vs c

namespace Content

/-- The value of component `c` in row `k`. -/
def get (ct : Content) (c : CompTy) (k : Nat) : Option Val := (lookupTy ct.cts ct.cols c).bind (fun vs => vs[k]?)

/-- The empty content. -/
def empty (cts : List CompTy) : Content := ⟨cts, [], cts.map (fun _ => [])⟩

/-- Append a row. -/
def push (ct : Content) (e : Entity) (sv : List Val) : Content :=
  ⟨ct.cts, ct.ents ++ [e], List.zipWith (fun col v => col ++ [v]) ct.cols sv⟩

/-- Exchange two rows. -/
def swap (ct : Content) (i j : Nat) : Content := ⟨ct.cts, swapAt ct.ents i j, ct.cols.map (fun col => swapAt col i j)⟩

/-- Remove the last row. -/
def pop (ct : Content) : Content := ⟨ct.cts, ct.ents.dropLast, ct.cols.map List.dropLast⟩

/-- The values of row `k`, in column order. -/
def rowVals (ct : Content) (k : Nat) : List Val := ct.cols.map (fun col => (col[k]?).getD default)

/-- Overwrite the value of column `i` in row `k`. -/
def setVal (ct : Content) (i k : Nat) (v : Val) : Content :=
  ⟨ct.cts, ct.ents, ct.cols.modify i (fun col => col.set k v)⟩

end Content

/-! ## The representation predicate -/

/-- The blocks `ptrs` hold the columns `cols`. -/
structure Cols (cts : List CompTy) (cap : Nat) (ptrs : List (Option Block)) (cols : List (List Val)) : Prop where
  ptrs_len : ptrs.length = 14
  cts_le : cts.length ≤ 14
  cols_len : cols.length = cts.length
  col : ∀ (i : Nat) (c : CompTy) (vs : List Val), cts[i]? = some c → cols[i]? = some vs → ∃ b, ptrs[i]? = some (some b) ∧ ColOK c cap b vs
  rest : ∀ i, cts.length ≤ i → i < 14 → ptrs[i]? = some none

/-- The entity array `ea` holds the entities `es`. -/
structure EntsOK (cap : Nat) (ea : Option (List (Option Entity))) (es : List Entity) : Prop where
  len : es.length ≤ cap
  arr : ∃ l, ea = some l ∧ l.length = cap ∧ ∀ (k : Nat) (e : Entity), es[k]? = some e → l[k]? = some (some e)

/-- The capacities that occur: `128 * 2^k`, at most `2^23`. -/
def CapOK (cap : Nat) : Prop := ∃ k, k ≤ 16 ∧ cap = 128 * 2 ^ k

/-- The archetype `a` represents the content `ct`. -/
structure Rep {env : Env} (W : World env) (a : Archetype) (ct : Content) : Prop where
  desc : DescOK W a.descriptor ct.cts
  cols : Cols ct.cts a.capacity a.pointers ct.cols
  lens : ∀ (i : Nat) (col : List Val), ct.cols[i]? = some col → col.length = ct.ents.length
  ents : EntsOK a.capacity a.entityAssociations ct.ents
  count : a.entityCount = ct.ents.length
  cap : CapOK a.capacity

theorem CapOK.pos {cap : Nat} (h : CapOK cap) : 0 < cap := by
  obtain ⟨k, _, rfl⟩ := h
  exact Nat.mul_pos (by omega) (Nat.pow_pos (by omega))

theorem CapOK.le {cap : Nat} (h : CapOK cap) : cap ≤ 8388608 := by
  obtain ⟨k, hk, rfl⟩ := h
  have := Nat.pow_le_pow_right (show 0 < 2 by omega) hk
  omega

theorem CapOK.double {cap : Nat} (h : CapOK cap) (hlt : cap < 8388608) : CapOK (2 * cap) ∧ 2 * cap ≤ 8388608 := by
  obtain ⟨k, hk, rfl⟩ := h
  have hk' : k < 16 := by
    rcases Nat.lt_or_ge k 16 with h | h
    · exact h
    · have := Nat.pow_le_pow_right (show 0 < 2 by omega) h
      omega
  have h1 : CapOK (2 * (128 * 2 ^ k)) := ⟨k + 1, by omega, by rw [Nat.pow_succ]; omega⟩
  exact ⟨h1, h1.le⟩

theorem CapOK.default : CapOK 128 := ⟨0, by omega, rfl⟩

/-! ## Loops over the columns -/

/-- A loop that rewrites column after column. -/
theorem ptrLoop {n : Nat} {f : Nat → List (Option Block) → M (List (Option Block))} {ptrs : List (Option Block)}
    (P Q : Nat → Option Block → Prop) (hlen : n ≤ ptrs.length)
    (hP : ∀ i, i < n → ∃ p, ptrs[i]? = some p ∧ P i p)
    (hf : ∀ i, i < n → ∀ ptrs' p, ptrs'.length = ptrs.length → ptrs'[i]? = some p → P i p →
      ∃ b, f i ptrs' = .ok (ptrs'.set i (some b)) ∧ Q i (some b)) :
    ∃ ptrs', forRange 0 n f ptrs = .ok ptrs' ∧ ptrs'.length = ptrs.length ∧
      (∀ i, i < n → ∃ p, ptrs'[i]? = some p ∧ Q i p) ∧ ∀ i, n ≤ i → ptrs'[i]? = ptrs[i]? := by
  obtain ⟨s, h1, h2, h3, h4⟩ := forRange_inv (f := f)
    (fun k s => s.length = ptrs.length ∧ (∀ i, i < k → ∃ p, s[i]? = some p ∧ Q i p) ∧ ∀ i, k ≤ i → s[i]? = ptrs[i]?)
    n 0 ptrs ⟨rfl, by intro i h; omega, by intro i _; rfl⟩ (by
      intro i s hi hi' ⟨hs, hdone, hrest⟩
      obtain ⟨p, hp, hPp⟩ := hP i (by omega)
      obtain ⟨b, hfb, hQ⟩ := hf i (by omega) s p hs (by rw [hrest i (Nat.le_refl _), hp]) hPp
      refine ⟨_, hfb, by simpa using hs, ?_, ?_⟩
      · intro j hj
        by_cases hji : i = j
        · subst hji
          exact ⟨some b, List.getElem?_set_self (by omega), hQ⟩
        · rw [List.getElem?_set_ne hji]
          exact hdone j (by omega)
      · intro j hj
        rw [List.getElem?_set_ne (by omega)]
        exact hrest j (by omega))
  refine ⟨s, h1, h2, ?_, ?_⟩
  · intro i hi; exact h3 i (by omega)
  · intro i hi; exact h4 i (by omega)

/-- A loop over all columns of a represented archetype. -/
theorem Cols.loop {cts : List CompTy} {cap cap' : Nat} {ptrs : List (Option Block)} {cols cols' : List (List Val)}
    {f : Nat → List (Option Block) → M (List (Option Block))} (h : Cols cts cap ptrs cols)
    (hl' : cols'.length = cts.length)
    (hf : ∀ (i : Nat) (c : CompTy) (vs vs' : List Val), cts[i]? = some c → cols[i]? = some vs → cols'[i]? = some vs' →
      ∀ ptrs' b, ptrs'.length = 14 → ptrs'[i]? = some (some b) → ColOK c cap b vs →
        ∃ b', f i ptrs' = .ok (ptrs'.set i (some b')) ∧ ColOK c cap' b' vs') :
    ∃ ptrs', forRange 0 cts.length f ptrs = .ok ptrs' ∧ Cols cts cap' ptrs' cols' := by
  have hpl := h.ptrs_len
  have hcl := h.cts_le
  obtain ⟨s, h1, h2, h3, h4⟩ := ptrLoop (n := cts.length) (f := f) (ptrs := ptrs)
    (P := fun i p => ∃ b c vs, p = some b ∧ cts[i]? = some c ∧ cols[i]? = some vs ∧ ColOK c cap b vs)
    (Q := fun i p => ∃ b c vs, p = some b ∧ cts[i]? = some c ∧ cols'[i]? = some vs ∧ ColOK c cap' b vs)
    (by omega)
    (by
      intro i hi
      have hi2 : i < cols.length := by rw [h.cols_len]; exact hi
      obtain ⟨b, hb, hok⟩ := h.col i cts[i] cols[i] (List.getElem?_eq_getElem hi) (List.getElem?_eq_getElem hi2)
      exact ⟨some b, hb, b, cts[i], cols[i], rfl, List.getElem?_eq_getElem hi, List.getElem?_eq_getElem hi2, hok⟩)
    (by
      rintro i hi ptrs' p hpl' hp ⟨b, c, vs, rfl, hc, hvs, hok⟩
      have hi' : i < cols'.length := by omega
      obtain ⟨b', hb', hok'⟩ := hf i c vs cols'[i] hc hvs (List.getElem?_eq_getElem hi') ptrs' b (by omega) hp hok
      exact ⟨b', hb', b', c, cols'[i], rfl, hc, List.getElem?_eq_getElem hi', hok'⟩)
  refine ⟨s, h1, by omega, hcl, hl', ?_, fun i h5 h6 => by rw [h4 i h5]; exact h.rest i h5 h6⟩
  intro i c vs hc hvs
  obtain ⟨p, hp, b, c', vs', rfl, hc', hvs', hok⟩ := h3 i (List.getElem?_eq_some_iff.mp hc).1
  rw [hc] at hc'; cases hc'
  rw [hvs] at hvs'; cases hvs'
  exact ⟨b, hp, hok⟩

/-- Columns after exchange of two rows, etc.: relabelling without touching memory. -/
theorem Cols.take {cts : List CompTy} {cap : Nat} {ptrs : List (Option Block)} {cols : List (List Val)}
    (h : Cols cts cap ptrs cols) (n : Nat) : Cols cts cap ptrs (cols.map (fun col => col.take n)) := by
  refine ⟨h.ptrs_len, h.cts_le, by rw [List.length_map, h.cols_len], ?_, h.rest⟩
  intro i c vs hc hvs
  rw [List.getElem?_map] at hvs
  cases hx : cols[i]? with
  | none => rw [hx] at hvs; cases hvs
  | some col =>
    rw [hx] at hvs
    cases hvs
    obtain ⟨b, hb, hok⟩ := h.col i c col hc hx
    exact ⟨b, hb, hok.take n⟩

namespace Rep

variable {env : Env} {W : World env} {a : Archetype} {ct : Content}

theorem nodup (h : Rep W a ct) : ct.cts.Nodup := by
  have := h.desc.nodup
  unfold List.Nodup at this ⊢
  rw [List.pairwise_map] at this
  exact this.imp (by intro a b hab he; exact hab (by rw [he]))

theorem lookupTy_eq (h : Rep W a ct) {i : Nat} {c : CompTy} {vs : List Val} (hc : ct.cts[i]? = some c)
    (hvs : ct.cols[i]? = some vs) : lookupTy ct.cts ct.cols c = some vs := lookupTy_of_getElem? h.nodup hc hvs

/-- The column of a component type of the archetype. -/
theorem column (h : Rep W a ct) {i : Nat} {c : CompTy} (hc : ct.cts[i]? = some c) :
    ∃ vs b, ct.cols[i]? = some vs ∧ a.pointers[i]? = some (some b) ∧ ColOK c a.capacity b vs ∧ vs.length = ct.ents.length := by
  have hi := (List.getElem?_eq_some_iff.mp hc).1
  have hi2 : i < ct.cols.length := by rw [h.cols.cols_len]; exact hi
  have hvs := List.getElem?_eq_getElem hi2
  obtain ⟨b, hb, hok⟩ := h.cols.col i c _ hc hvs
  exact ⟨_, b, hvs, hb, hok, h.lens i _ hvs⟩

/-- Every row has a value for every component type of the archetype. -/
theorem get_some (h : Rep W a ct) {c : CompTy} {k : Nat} (hc : c ∈ ct.cts) (hk : k < ct.ents.length) :
    ∃ v, ct.get c k = some v ∧ v.HasTy c := by
  obtain ⟨i, hi, rfl⟩ := List.mem_iff_getElem.mp hc
  obtain ⟨vs, b, h1, h2, h3, h4⟩ := h.column (List.getElem?_eq_getElem hi)
  have hk' : k < vs.length := by omega
  refine ⟨vs[k], ?_, ?_⟩
  · unfold Content.get
    rw [h.lookupTy_eq (List.getElem?_eq_getElem hi) h1]
    simp [hk']
  · obtain ⟨p, q, _⟩ := h3.cells k _ (List.getElem?_eq_getElem hk')
    exact ⟨p, q⟩

theorem get_none (_h : Rep W a ct) {c : CompTy} {k : Nat} (hc : c ∉ ct.cts) : ct.get c k = none := by
  unfold Content.get
  rw [lookupTy_none hc]; rfl

theorem get_isSome (h : Rep W a ct) {c : CompTy} {k : Nat} (hk : k < ct.ents.length) :
    (ct.get c k).isSome = true ↔ c ∈ ct.cts := by
  constructor
  · intro hs
    refine Classical.byContradiction fun hc => ?_
    rw [h.get_none hc] at hs; cases hs
  · intro hc
    obtain ⟨v, hv, _⟩ := h.get_some hc hk
    rw [hv]; rfl

theorem mem_of_get (h : Rep W a ct) {c : CompTy} {k : Nat} {v : Val} (hv : ct.get c k = some v) :
    c ∈ ct.cts ∧ v.HasTy c ∧ k < ct.ents.length := by
  unfold Content.get at hv
  cases hx : lookupTy ct.cts ct.cols c with
  | none => rw [hx] at hv; cases hv
  | some vs =>
    rw [hx] at hv
    simp only [Option.bind_some] at hv
    obtain ⟨i, h1, h2⟩ := lookupTy_some_mem hx
    obtain ⟨vs', b, h3, _, h5, h6⟩ := h.column h1
    rw [h2] at h3; cases h3
    obtain ⟨p, q, _⟩ := h5.cells k v hv
    refine ⟨List.mem_of_getElem? h1, ⟨p, q⟩, ?_⟩
    have := (List.getElem?_eq_some_iff.mp hv).1
    omega

theorem size_le (h : Rep W a ct) : ct.ents.length ≤ 8388608 := by
  have := h.ents.len
  have := h.cap.le
  omega

/-! ### Reading -/

theorem readRef_ok (h : Rep W a ct) {i k : Nat} {c : CompTy} {v : Val} (hc : ct.cts[i]? = some c)
    (hv : ct.get c k = some v) : a.readRef c ⟨i, c.size * k⟩ = .ok v := by
  obtain ⟨vs, b, h1, h2, h3, h4⟩ := h.column hc
  unfold Content.get at hv
  rw [h.lookupTy_eq hc h1] at hv
  unfold Archetype.readRef
  rw [index_of_getElem? h2]
  exact h3.read hv

theorem componentRef_ok (h : Rep W a ct) {i k : Nat} {c : CompTy} (hc : ct.cts[i]? = some c) :
    a.componentRef c k = .ok ⟨i, c.size * k⟩ := by
  unfold Archetype.componentRef
  rw [h.desc.search hc]

theorem getComponentUnchecked_ok (h : Rep W a ct) {k : Nat} {c : CompTy} {v : Val} (hv : ct.get c k = some v) :
    a.getComponentUnchecked c k = .ok v := by
  obtain ⟨i, hi, he⟩ := List.mem_iff_getElem.mp (h.mem_of_get hv).1
  have hc : ct.cts[i]? = some c := by rw [List.getElem?_eq_getElem hi, he]
  unfold Archetype.getComponentUnchecked
  rw [h.componentRef_ok hc]
  exact h.readRef_ok hc hv

theorem readComponentUnchecked_ok (h : Rep W a ct) {k : Nat} {c : CompTy} {v : Val} (hv : ct.get c k = some v) :
    a.readComponentUnchecked c k = .ok v := h.getComponentUnchecked_ok hv

theorem getComponentUncheckedMut_ok (h : Rep W a ct) {i k : Nat} {c : CompTy} (hc : ct.cts[i]? = some c)
    (hk : k < ct.ents.length) : a.getComponentUncheckedMut c k = .ok ⟨i, c.size * k⟩ := by
  obtain ⟨v, hv, _⟩ := h.get_some (List.mem_of_getElem? hc) hk
  unfold Archetype.getComponentUncheckedMut
  rw [h.componentRef_ok hc]
  simp only [ok_bind, h.readRef_ok hc hv]
  rfl

end Rep

end Shard
