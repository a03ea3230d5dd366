import Verif.Proofs.ArchetypeRegistry
import Verif.Proofs.Loc
/-!
# Placement of entities in archetypes, and what moving rows does to it
-/

namespace Shard

variable {env : Env} {W : World env}

/-- `L` gives the archetype and row of every entity stored in `cs`. -/
def Placed (L : Entity → Option (Nat × Nat)) (cs : List Content) : Prop :=
  ∀ e ai k, L e = some (ai, k) ↔ ∃ ct, cs[ai]? = some ct ∧ ct.ents[k]? = some e

/-- The components of an entity. -/
def look (L : Entity → Option (Nat × Nat)) (cs : List Content) (e : Entity) : Option (CompTy → Option Val) :=
  (L e).bind (fun p => (cs[p.1]?).map (fun ct c => ct.get c p.2))

/-- All stored values. -/
def stored (cs : List Content) : List Val := (cs.map (fun ct => ct.cols.flatten)).flatten

theorem look_eq_none_iff {L : Entity → Option (Nat × Nat)} {cs : List Content} (hp : Placed L cs) {e : Entity} :
    look L cs e = none ↔ L e = none := by
  unfold look
  cases h : L e with
  | none => simp
  | some p =>
    obtain ⟨ct, h1, _⟩ := (hp e p.1 p.2).mp h
    simp [h1]

theorem look_of {L : Entity → Option (Nat × Nat)} {cs : List Content} {e : Entity} {ai k : Nat} {ct : Content}
    (h : L e = some (ai, k)) (hc : cs[ai]? = some ct) : look L cs e = some (fun c => ct.get c k) := by
  unfold look; rw [h]; simp [hc]

/-! ## Adding an empty archetype -/

theorem Placed.append {L : Entity → Option (Nat × Nat)} {cs : List Content} (h : Placed L cs) (cts : List CompTy) :
    Placed L (cs ++ [Content.empty cts]) := by
  intro e ai k
  rw [h e ai k]
  constructor
  · rintro ⟨ct, h1, h2⟩
    exact ⟨ct, by rw [List.getElem?_append_left (List.getElem?_eq_some_iff.mp h1).1]; exact h1, h2⟩
  · rintro ⟨ct, h1, h2⟩
    rw [List.getElem?_append] at h1
    split at h1
    · exact ⟨ct, h1, h2⟩
    · rw [List.getElem?_singleton] at h1
      split at h1
      · cases h1; simp [Content.empty] at h2
      · cases h1

theorem look_append {L : Entity → Option (Nat × Nat)} {cs : List Content} (h : Placed L cs) (cts : List CompTy)
    (x : Entity) : look L (cs ++ [Content.empty cts]) x = look L cs x := by
  unfold look
  cases hx : L x with
  | none => rfl
  | some p =>
    obtain ⟨ct, h1, _⟩ := (h x p.1 p.2).mp hx
    simp only [Option.bind_some]
    rw [List.getElem?_append_left (List.getElem?_eq_some_iff.mp h1).1]

theorem stored_append (cs : List Content) (cts : List CompTy) : stored (cs ++ [Content.empty cts]) = stored cs := by
  unfold stored
  rw [List.map_append, List.flatten_append]
  have : (Content.empty cts).cols.flatten = [] := by
    rw [List.flatten_eq_nil_iff]
    intro l hl
    unfold Content.empty at hl
    simp at hl
    exact hl.2
  simp [this]

/-! ## Appending a row -/

/-- The placement after `e` was put in row `k` of archetype `ai`. -/
def locPush (L : Entity → Option (Nat × Nat)) (e : Entity) (ai k : Nat) (x : Entity) : Option (Nat × Nat) :=
  if x = e then some (ai, k) else L x

theorem Placed.push {L : Entity → Option (Nat × Nat)} {cs : List Content} (h : Placed L cs) {e : Entity} (he : L e = none)
    {ai : Nat} {ct ct' : Content} (hc : cs[ai]? = some ct) (hct : ct'.ents = ct.ents ++ [e]) :
    Placed (locPush L e ai ct.ents.length) (cs.set ai ct') := by
  have hlt := (List.getElem?_eq_some_iff.mp hc).1
  have hnot : ∀ (bi k : Nat) (b : Content), cs[bi]? = some b → b.ents[k]? = some e → False := by
    intro bi k b h1 h2
    have := (h e bi k).mpr ⟨b, h1, h2⟩
    rw [he] at this; cases this
  intro x bi k
  unfold locPush
  by_cases hbi : ai = bi
  · subst hbi
    rw [List.getElem?_set_self hlt]
    by_cases hx : x = e
    · subst hx
      rw [if_pos rfl]
      constructor
      · intro hh
        have : ct.ents.length = k := by injection hh with hh; injection hh
        subst this
        exact ⟨ct', rfl, by rw [hct, List.getElem?_append_right (Nat.le_refl _)]; simp⟩
      · rintro ⟨b, h1, h2⟩
        cases h1
        rw [hct, List.getElem?_append] at h2
        split at h2
        · exact absurd h2 (fun h2 => hnot ai k ct hc h2)
        · rw [List.getElem?_singleton] at h2
          split at h2
          · have : k = ct.ents.length := by omega
            rw [this]
          · cases h2
    · rw [if_neg hx, h x ai k]
      constructor
      · rintro ⟨b, h1, h2⟩
        rw [hc] at h1; cases h1
        exact ⟨ct', rfl, by rw [hct, List.getElem?_append_left (List.getElem?_eq_some_iff.mp h2).1]; exact h2⟩
      · rintro ⟨b, h1, h2⟩
        cases h1
        rw [hct, List.getElem?_append] at h2
        split at h2
        · exact ⟨ct, hc, h2⟩
        · rw [List.getElem?_singleton] at h2
          split at h2
          · cases h2; exact absurd rfl hx
          · cases h2
  · rw [List.getElem?_set_ne hbi]
    by_cases hx : x = e
    · subst hx
      rw [if_pos rfl]
      constructor
      · intro hh; injection hh with hh; injection hh with hh _; exact absurd hh hbi
      · rintro ⟨b, h1, h2⟩; exact absurd h2 (fun h2 => hnot bi k b h1 h2)
    · rw [if_neg hx, h x bi k]

theorem look_push {L : Entity → Option (Nat × Nat)} {cs : List Content} (h : Placed L cs) {e : Entity}
    {ai : Nat} {a : Archetype} {ct : Content} (hr : Rep W a ct) (hc : cs[ai]? = some ct) {sv : List Val}
    (hs : sv.length = ct.cts.length) (x : Entity) :
    look (locPush L e ai ct.ents.length) (cs.set ai (ct.push e sv)) x =
      if x = e then some (fun c => lookupTy ct.cts sv c) else look L cs x := by
  have hlt := (List.getElem?_eq_some_iff.mp hc).1
  by_cases hx : x = e
  · rw [if_pos hx, look_of (ai := ai) (k := ct.ents.length) (by unfold locPush; rw [if_pos hx]) (List.getElem?_set_self hlt)]
    congr 1
    funext c
    rw [hr.get_push hs, if_pos rfl]
  · rw [if_neg hx]
    cases hl : L x with
    | none => unfold look locPush; rw [if_neg hx, hl]; rfl
    | some p =>
      obtain ⟨bi, k⟩ := p
      obtain ⟨b, h1, h2⟩ := (h x bi k).mp hl
      rw [look_of hl h1]
      by_cases hbi : ai = bi
      · subst hbi
        rw [hc] at h1; cases h1
        rw [look_of (ai := ai) (k := k) (by unfold locPush; rw [if_neg hx, hl]) (List.getElem?_set_self hlt)]
        congr 1
        funext c
        have := (List.getElem?_eq_some_iff.mp h2).1
        rw [hr.get_push hs, if_neg (by omega)]
      · rw [look_of (ai := bi) (k := k) (by unfold locPush; rw [if_neg hx, hl]) (by rw [List.getElem?_set_ne hbi]; exact h1)]

/-! ## Removing a row -/

/-- The placement after row `k` of archetype `ai`, holding `e`, was replaced by the last row (`last`). -/
def locSwapPop (L : Entity → Option (Nat × Nat)) (e : Entity) (ai k last : Nat) (x : Entity) : Option (Nat × Nat) :=
  if x = e then none else if L x = some (ai, last) then some (ai, k) else L x

theorem Placed.inj {L : Entity → Option (Nat × Nat)} {cs : List Content} (h : Placed L cs) {e x : Entity} {p : Nat × Nat}
    (he : L e = some p) (hx : L x = some p) : e = x := by
  obtain ⟨ct, h1, h2⟩ := (h e p.1 p.2).mp he
  obtain ⟨ct', h1', h2'⟩ := (h x p.1 p.2).mp hx
  rw [h1] at h1'; cases h1'
  rw [h2] at h2'; exact Option.some.inj h2'

theorem Placed.swapPop {L : Entity → Option (Nat × Nat)} {cs : List Content} (h : Placed L cs) {e : Entity} {ai k : Nat}
    (he : L e = some (ai, k)) {ct : Content} (hc : cs[ai]? = some ct) :
    Placed (locSwapPop L e ai k (ct.ents.length - 1)) (cs.set ai (ct.swapPop k)) := by
  have hlt := (List.getElem?_eq_some_iff.mp hc).1
  obtain ⟨ct', q1, q2⟩ := (h e ai k).mp he
  rw [hc] at q1; cases q1
  have hk := (List.getElem?_eq_some_iff.mp q2).1
  intro x bi j
  unfold locSwapPop
  by_cases hbi : ai = bi
  · subst hbi
    rw [List.getElem?_set_self hlt]
    have key : (∃ c', some (ct.swapPop k) = some c' ∧ c'.ents[j]? = some x) ↔
        (if ct.ents.length - 1 ≤ j then none else if j = k then ct.ents[ct.ents.length - 1]? else ct.ents[j]?) = some x := by
      rw [← swapPop_ents hk j]
      constructor
      · rintro ⟨c', h1, h2⟩; cases h1; exact h2
      · intro h; exact ⟨_, rfl, h⟩
    rw [key]
    have hL : ∀ (i : Nat), L x = some (ai, i) ↔ ct.ents[i]? = some x := by
      intro i
      rw [h x ai i]
      constructor
      · rintro ⟨c', h1, h2⟩; rw [hc] at h1; cases h1; exact h2
      · intro h; exact ⟨ct, hc, h⟩
    have huniq : ∀ (i : Nat), ct.ents[i]? = some x → ∀ (i' : Nat), ct.ents[i']? = some x → i = i' := by
      intro i h1 i' h2
      have h1 := (hL i).mpr h1
      have h2 := (hL i').mpr h2
      rw [h1] at h2; injection h2 with h2; injection h2
    by_cases hx : x = e
    · subst hx
      rw [if_pos rfl]
      constructor
      · intro h; cases h
      · intro hh
        split at hh
        · cases hh
        · split at hh
          · have := huniq _ q2 _ hh; omega
          · have := huniq _ q2 _ hh; omega
    · rw [if_neg hx]
      split
      · next hlast =>
        have hl := (hL _).mp hlast
        constructor
        · intro hh
          injection hh with hh; injection hh with _ hh
          subst hh
          have hkl : k ≠ ct.ents.length - 1 := by
            intro hkl
            rw [← hkl, q2] at hl
            exact hx (Option.some.inj hl).symm
          rw [if_neg (by omega), if_pos rfl]; exact hl
        · intro hh
          split at hh
          · cases hh
          · split at hh
            · next hjk => rw [hjk]
            · have := huniq _ hl _ hh; omega
      · next hlast =>
        rw [hL j]
        have hl : ct.ents[ct.ents.length - 1]? ≠ some x := fun hl => hlast ((hL _).mpr hl)
        constructor
        · intro hh
          have hj := (List.getElem?_eq_some_iff.mp hh).1
          have : j ≠ ct.ents.length - 1 := by rintro rfl; exact hl hh
          rw [if_neg (by omega)]
          have : j ≠ k := by rintro rfl; rw [q2] at hh; exact hx (Option.some.inj hh).symm
          rw [if_neg this]; exact hh
        · intro hh
          split at hh
          · cases hh
          · split at hh
            · exact absurd hh hl
            · exact hh
  · rw [List.getElem?_set_ne hbi, ← h x bi j]
    by_cases hx : x = e
    · subst hx
      rw [if_pos rfl, he]
      constructor
      · intro h; cases h
      · intro h; injection h with h; injection h with h _; exact absurd h hbi
    · rw [if_neg hx]
      split
      · next hlast =>
        rw [hlast]
        constructor
        · intro h; injection h with h; injection h with h _; exact absurd h hbi
        · intro h; injection h with h; injection h with h _; exact absurd h hbi
      · rfl

theorem look_swapPop {L : Entity → Option (Nat × Nat)} {cs : List Content} (h : Placed L cs) {e : Entity} {ai k : Nat}
    (he : L e = some (ai, k)) {a : Archetype} {ct : Content} (hr : Rep W a ct) (hc : cs[ai]? = some ct) (x : Entity) :
    look (locSwapPop L e ai k (ct.ents.length - 1)) (cs.set ai (ct.swapPop k)) x = if x = e then none else look L cs x := by
  have hlt := (List.getElem?_eq_some_iff.mp hc).1
  obtain ⟨ct', q1, q2⟩ := (h e ai k).mp he
  rw [hc] at q1; cases q1
  have hk := (List.getElem?_eq_some_iff.mp q2).1
  by_cases hx : x = e
  · rw [if_pos hx]; unfold look locSwapPop; rw [if_pos hx]; rfl
  · rw [if_neg hx]
    by_cases hlast : L x = some (ai, ct.ents.length - 1)
    · have hkl : k ≠ ct.ents.length - 1 := by
        intro hkl
        rw [← hkl] at hlast
        exact hx (h.inj hlast he)
      rw [look_of (ai := ai) (k := k) (by unfold locSwapPop; rw [if_neg hx, if_pos hlast]) (List.getElem?_set_self hlt),
        look_of hlast hc]
      congr 1
      funext c
      rw [hr.get_swapPop hk, if_neg (by omega), if_pos rfl]
    · have hL' : locSwapPop L e ai k (ct.ents.length - 1) x = L x := by unfold locSwapPop; rw [if_neg hx, if_neg hlast]
      cases hl : L x with
      | none => unfold look; rw [hL', hl]; rfl
      | some p =>
        obtain ⟨bi, j⟩ := p
        obtain ⟨b, h1, h2⟩ := (h x bi j).mp hl
        rw [look_of hl h1]
        by_cases hbi : ai = bi
        · subst hbi
          rw [hc] at h1; cases h1
          rw [look_of (hL'.trans hl) (List.getElem?_set_self hlt)]
          congr 1
          funext c
          have hj := (List.getElem?_eq_some_iff.mp h2).1
          have hj1 : j ≠ ct.ents.length - 1 := by rintro rfl; exact hlast hl
          have hj2 : j ≠ k := by rintro rfl; exact hx (h.inj hl he)
          rw [hr.get_swapPop hk, if_neg (by omega), if_neg hj2]
        · rw [look_of (hL'.trans hl) (by rw [List.getElem?_set_ne hbi]; exact h1)]

/-! ## Overwriting a value -/

theorem Placed.setVal {L : Entity → Option (Nat × Nat)} {cs : List Content} (h : Placed L cs) {ai : Nat} {ct ct' : Content}
    (hc : cs[ai]? = some ct) (hct : ct'.ents = ct.ents) : Placed L (cs.set ai ct') := by
  have hlt := (List.getElem?_eq_some_iff.mp hc).1
  intro x bi k
  rw [h x bi k]
  by_cases hbi : ai = bi
  · subst hbi
    rw [List.getElem?_set_self hlt]
    constructor
    · rintro ⟨b, h1, h2⟩; rw [hc] at h1; cases h1; exact ⟨ct', rfl, by rw [hct]; exact h2⟩
    · rintro ⟨b, h1, h2⟩; cases h1; exact ⟨ct, hc, by rw [← hct]; exact h2⟩
  · rw [List.getElem?_set_ne hbi]

theorem look_setVal {L : Entity → Option (Nat × Nat)} {cs : List Content} (h : Placed L cs) {e : Entity} {ai k i : Nat}
    (he : L e = some (ai, k)) {a : Archetype} {ct : Content} (hr : Rep W a ct) (hc : cs[ai]? = some ct) {c : CompTy} {v : Val}
    (hi : ct.cts[i]? = some c) (x : Entity) :
    look L (cs.set ai (ct.setVal i k v)) x =
      if x = e then some (fun c' => if c' = c then some v else ct.get c' k) else look L cs x := by
  have hlt := (List.getElem?_eq_some_iff.mp hc).1
  obtain ⟨ct', q1, q2⟩ := (h e ai k).mp he
  rw [hc] at q1; cases q1
  have hk := (List.getElem?_eq_some_iff.mp q2).1
  obtain ⟨v0, hv0, _⟩ := hr.get_some (List.mem_of_getElem? hi) hk
  have hg := fun c' k' => Content.get_setVal (v := v) hr.nodup hi c' k' (k := k) (by rw [hv0]; rfl)
  by_cases hx : x = e
  · subst hx
    rw [if_pos rfl, look_of he (List.getElem?_set_self hlt)]
    congr 1
    funext c'
    rw [hg]
    simp
  · rw [if_neg hx]
    cases hl : L x with
    | none => unfold look; rw [hl]; rfl
    | some p =>
      obtain ⟨bi, j⟩ := p
      obtain ⟨b, h1, h2⟩ := (h x bi j).mp hl
      rw [look_of hl h1]
      by_cases hbi : ai = bi
      · subst hbi
        rw [hc] at h1; cases h1
        rw [look_of hl (List.getElem?_set_self hlt)]
        congr 1
        funext c'
        rw [hg, if_neg]
        rintro ⟨_, rfl⟩
        exact hx (h.inj hl he)
      · rw [look_of hl (by rw [List.getElem?_set_ne hbi]; exact h1)]

/-! ## The stored values -/

theorem stored_set {cs : List Content} {ai : Nat} {ct ct' : Content} (hc : cs[ai]? = some ct) :
    (stored (cs.set ai ct') ++ ct.cols.flatten).Perm (stored cs ++ ct'.cols.flatten) := by
  induction cs generalizing ai with
  | nil => simp at hc
  | cons b cs ih =>
    cases ai with
    | zero =>
      simp at hc
      subst hc
      simp only [List.set_cons_zero, stored, List.map_cons, List.flatten_cons]
      have h1 : (ct'.cols.flatten ++ (cs.map (fun ct => ct.cols.flatten)).flatten ++ b.cols.flatten).Perm
          (b.cols.flatten ++ (ct'.cols.flatten ++ (cs.map (fun ct => ct.cols.flatten)).flatten)) := List.perm_append_comm
      refine h1.trans ?_
      rw [List.append_assoc]
      exact List.Perm.append_left _ List.perm_append_comm
    | succ ai =>
      simp only [List.getElem?_cons_succ] at hc
      have := ih hc
      simp only [List.set_cons_succ, stored, List.map_cons, List.flatten_cons, List.append_assoc] at this ⊢
      exact List.Perm.append_left _ this

theorem flatten_push : ∀ (cols : List (List Val)) (sv : List Val), sv.length = cols.length →
    ((List.zipWith (fun col v => col ++ [v]) cols sv).flatten).Perm (cols.flatten ++ sv)
  | [], [], _ => by simp
  | [], _ :: _, h => by simp at h
  | _ :: _, [], h => by simp at h
  | col :: cols, v :: sv, h => by
    have ih := flatten_push cols sv (by simpa using h)
    simp only [List.zipWith_cons_cons, List.flatten_cons, List.append_assoc]
    refine List.Perm.append_left _ ?_
    refine (List.Perm.cons v ih).trans ?_
    exact List.perm_middle.symm

theorem stored_push {cs : List Content} {ai : Nat} {a : Archetype} {ct : Content} (hr : Rep W a ct) (hc : cs[ai]? = some ct)
    {e : Entity} {sv : List Val} (hs : sv.length = ct.cts.length) :
    (stored (cs.set ai (ct.push e sv))).Perm (stored cs ++ sv) := by
  have h1 := stored_set (ct' := ct.push e sv) hc
  have h2 := flatten_push ct.cols sv (by rw [hs, hr.cols.cols_len])
  have h3 : (stored cs ++ (ct.push e sv).cols.flatten).Perm ((stored cs ++ sv) ++ ct.cols.flatten) := by
    rw [List.append_assoc]
    exact List.Perm.append_left _ (h2.trans List.perm_append_comm)
  exact (List.perm_append_right_iff _).mp (h1.trans h3)

theorem swapAt_perm (l : List Val) (i j : Nat) : (swapAt l i j).Perm l := by
  by_cases hi : i < l.length
  · by_cases hj : j < l.length
    · rw [swapAt_eq hi hj, List.perm_iff_count]
      intro x
      rw [List.count_set (by simpa using hj), List.count_set hi]
      have hij : (l.set i l[j])[j]'(by simpa using hj) = l[j] := by
        by_cases h : i = j
        · subst h; simp
        · rw [List.getElem_set_ne h]
      rw [hij]
      have e1 : (if (l[i] == x) = true then 1 else 0) ≤ l.count x := by
        split
        · next h => exact List.count_pos_iff.mpr (eq_of_beq h ▸ List.getElem_mem hi)
        · omega
      omega
    · unfold swapAt; rw [List.getElem?_eq_none (l := l) (i := j) (by omega)]; split <;> first | exact List.Perm.refl _ | (next h1 h2 => cases h2)
  · unfold swapAt; rw [List.getElem?_eq_none (l := l) (i := i) (by omega)]

theorem swapPop_col {col : List Val} {k : Nat} (hk : k < col.length) :
    ((swapAt col k (col.length - 1)).dropLast ++ [(col[k]?).getD default]).Perm col := by
  have hl : col.length - 1 < col.length := by omega
  have hlen : (swapAt col k (col.length - 1)).length = col.length := swapAt_length _ _ _
  have hne : swapAt col k (col.length - 1) ≠ [] := by
    intro h; rw [h] at hlen; simp at hlen; omega
  have hlast : (swapAt col k (col.length - 1)).getLast hne = (col[k]?).getD default := by
    have := getElem?_swapAt hk hl (col.length - 1)
    rw [if_pos rfl] at this
    rw [List.getLast_eq_getElem]
    have h2 : (swapAt col k (col.length - 1))[(swapAt col k (col.length - 1)).length - 1]? = col[k]? := by rw [hlen]; exact this
    rw [List.getElem?_eq_getElem (by omega)] at h2
    rw [← h2]; rfl
  rw [← hlast, List.dropLast_concat_getLast]
  exact swapAt_perm _ _ _

theorem flatten_swapPop {n k : Nat} (hk : k < n) : ∀ (cols : List (List Val)), (∀ col ∈ cols, col.length = n) →
    ((cols.map (fun col => (swapAt col k (n - 1)).dropLast)).flatten ++ cols.map (fun col => (col[k]?).getD default)).Perm
      cols.flatten
  | [], _ => by simp
  | col :: cols, h => by
    have ih := flatten_swapPop hk cols (fun c hc => h c (List.mem_cons_of_mem _ hc))
    have hc := h col List.mem_cons_self
    have h1 := swapPop_col (col := col) (k := k) (by omega)
    rw [hc] at h1
    simp only [List.map_cons, List.flatten_cons]
    refine List.Perm.trans ?_ (List.Perm.append h1 ih)
    simp only [List.append_assoc]
    refine List.Perm.append_left _ ?_
    simp only [List.cons_append, List.nil_append]
    exact List.perm_middle

theorem stored_swapPop {cs : List Content} {ai k : Nat} {a : Archetype} {ct : Content} (hr : Rep W a ct)
    (hc : cs[ai]? = some ct) (hk : k < ct.ents.length) :
    (stored (cs.set ai (ct.swapPop k)) ++ ct.rowVals k).Perm (stored cs) := by
  have h1 := stored_set (ct' := ct.swapPop k) hc
  have h2 := flatten_swapPop hk ct.cols (by
    intro col hcol
    obtain ⟨i, hi, rfl⟩ := List.mem_iff_getElem.mp hcol
    exact hr.lens i _ (List.getElem?_eq_getElem hi))
  have h3 : (ct.swapPop k).cols = ct.cols.map (fun col => (swapAt col k (ct.ents.length - 1)).dropLast) := by
    unfold Content.swapPop Content.pop Content.swap
    simp [List.map_map, Function.comp_def]
  rw [← h3] at h2
  have h4 : ((stored (cs.set ai (ct.swapPop k)) ++ ct.rowVals k) ++ (ct.swapPop k).cols.flatten).Perm
      (stored cs ++ (ct.swapPop k).cols.flatten) := by
    refine List.Perm.trans ?_ h1
    rw [List.append_assoc]
    exact List.Perm.append_left _ (List.perm_append_comm.trans h2)
  exact (List.perm_append_right_iff _).mp h4

theorem set_perm {l : List Val} {k : Nat} (hk : k < l.length) (v : Val) : (l.set k v ++ [l[k]]).Perm (l ++ [v]) := by
  induction l generalizing k with
  | nil => simp at hk
  | cons x l ih =>
    cases k with
    | zero =>
      simp only [List.set_cons_zero, List.getElem_cons_zero]
      have h1 : (v :: l ++ [x]).Perm (v :: x :: l) := List.Perm.cons v (List.perm_append_comm (l₂ := [x]))
      have h2 : (x :: l ++ [v]).Perm (x :: v :: l) := List.Perm.cons x (List.perm_append_comm (l₂ := [v]))
      exact h1.trans ((List.Perm.swap x v l).trans h2.symm)
    | succ k =>
      simp only [List.set_cons_succ, List.getElem_cons_succ, List.cons_append]
      exact List.Perm.cons x (ih (by simpa using hk))

theorem flatten_modify {cols : List (List Val)} {i k : Nat} {col : List Val} (hi : cols[i]? = some col) (hk : k < col.length)
    (v : Val) : ((cols.modify i (fun col => col.set k v)).flatten ++ [col[k]]).Perm (cols.flatten ++ [v]) := by
  induction cols generalizing i with
  | nil => simp at hi
  | cons x cols ih =>
    cases i with
    | zero =>
      simp at hi; subst hi
      simp only [List.modify_zero_cons, List.flatten_cons]
      have h1 := set_perm hk v
      have h2 : (x.set k v ++ cols.flatten ++ [x[k]]).Perm (x.set k v ++ [x[k]] ++ cols.flatten) := by
        rw [List.append_assoc, List.append_assoc]; exact List.Perm.append_left _ List.perm_append_comm
      have h3 : (x ++ [v] ++ cols.flatten).Perm (x ++ cols.flatten ++ [v]) := by
        rw [List.append_assoc, List.append_assoc]; exact List.Perm.append_left _ List.perm_append_comm
      exact h2.trans ((h1.append_right _).trans h3)
    | succ i =>
      simp only [List.getElem?_cons_succ] at hi
      simp only [List.modify_succ_cons, List.flatten_cons, List.append_assoc]
      exact List.Perm.append_left _ (ih hi)

theorem stored_setVal {cs : List Content} {ai i k : Nat} {a : Archetype} {ct : Content} (hr : Rep W a ct)
    (hc : cs[ai]? = some ct) {c : CompTy} {v old : Val} (hi : ct.cts[i]? = some c) (hold : ct.get c k = some old) :
    (stored (cs.set ai (ct.setVal i k v)) ++ [old]).Perm (stored cs ++ [v]) := by
  have h1 := stored_set (ct' := ct.setVal i k v) hc
  have hil : i < ct.cols.length := by rw [hr.cols.cols_len]; exact (List.getElem?_eq_some_iff.mp hi).1
  have hcol := List.getElem?_eq_getElem hil
  unfold Content.get at hold
  rw [lookupTy_of_getElem? hr.nodup hi hcol] at hold
  simp only [Option.bind_some] at hold
  obtain ⟨hk, hke⟩ := List.getElem?_eq_some_iff.mp hold
  have h2 := flatten_modify hcol hk v
  rw [hke] at h2
  have h4 : ((stored (cs.set ai (ct.setVal i k v)) ++ [old]) ++ ct.cols.flatten).Perm
      ((stored cs ++ [v]) ++ ct.cols.flatten) := by
    have p1 : ((stored (cs.set ai (ct.setVal i k v)) ++ [old]) ++ ct.cols.flatten).Perm
        ((stored (cs.set ai (ct.setVal i k v)) ++ ct.cols.flatten) ++ [old]) := by
      rw [List.append_assoc, List.append_assoc]; exact List.Perm.append_left _ List.perm_append_comm
    have p2 := h1.append_right [old]
    have p3 : (stored cs ++ (ct.setVal i k v).cols.flatten ++ [old]).Perm (stored cs ++ (ct.cols.flatten ++ [v])) := by
      rw [List.append_assoc]; exact List.Perm.append_left _ h2
    have p4 : (stored cs ++ (ct.cols.flatten ++ [v])).Perm ((stored cs ++ [v]) ++ ct.cols.flatten) := by
      rw [List.append_assoc]; exact List.Perm.append_left _ List.perm_append_comm
    exact p1.trans (p2.trans (p3.trans p4))
  exact (List.perm_append_right_iff _).mp h4

end Shard
