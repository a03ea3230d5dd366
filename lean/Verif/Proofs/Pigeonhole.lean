/-!
# The pigeonhole principle, and the sublists of a given length
-/

set_option autoImplicit false

namespace Shard

variable {α : Type}

theorem nodup_below {l : List Nat} {n : Nat} (hn : l.Nodup) (hl : ∀ x ∈ l, x < n) : l.length ≤ n := by
  induction n generalizing l with
  | zero =>
    cases l with
    | nil => exact Nat.le_refl _
    | cons a t => exact absurd (hl a List.mem_cons_self) (Nat.not_lt_zero _)
  | succ n ih =>
    have h1 := ih (l := l.erase n) (hn.erase n) (fun x hx => by
      have h2 := hl x (List.mem_of_mem_erase hx)
      have h3 : x ≠ n := fun he => by
        subst he
        exact (List.Nodup.not_mem_erase hn) hx
      omega)
    by_cases hm : n ∈ l
    · rw [List.length_erase_of_mem hm] at h1
      omega
    · rw [List.erase_of_not_mem hm] at h1
      omega

/-- More items than values: two items have the same value. -/
theorem pigeonhole {l : List α} (f : α → Nat) {n : Nat} (hn : l.Nodup) (hf : ∀ a ∈ l, f a < n) (hl : n < l.length) :
    ∃ a ∈ l, ∃ b ∈ l, a ≠ b ∧ f a = f b := by
  apply Classical.byContradiction
  intro hno
  have hinj : ∀ a ∈ l, ∀ b ∈ l, f a = f b → a = b := fun a ha b hb he =>
    Classical.byContradiction fun hne => hno ⟨a, ha, b, hb, hne, he⟩
  have hnd : (l.map f).Nodup := by
    clear hf hl hno
    induction l with
    | nil => exact List.nodup_nil
    | cons a t ih =>
      obtain ⟨h1, h2⟩ := List.nodup_cons.mp hn
      rw [List.map_cons, List.nodup_cons]
      refine ⟨fun hm => ?_, ih h2 (fun x hx y hy => hinj x (List.mem_cons_of_mem _ hx) y (List.mem_cons_of_mem _ hy))⟩
      obtain ⟨b, hb, he⟩ := List.mem_map.mp hm
      rw [hinj a List.mem_cons_self b (List.mem_cons_of_mem _ hb) he.symm] at h1
      exact h1 hb
  have := nodup_below (n := n) hnd (fun x hx => by
    obtain ⟨a, ha, rfl⟩ := List.mem_map.mp hx
    exact hf a ha)
  rw [List.length_map] at this
  omega

/-- The sublists with `k` items. -/
def combos : Nat → List α → List (List α)
  | 0, _ => [[]]
  | _ + 1, [] => []
  | k + 1, x :: xs => (combos k xs).map (fun s => x :: s) ++ combos (k + 1) xs

theorem mem_combos {k : Nat} {l s : List α} (h : s ∈ combos k l) : s.Sublist l ∧ s.length = k := by
  induction l generalizing k s with
  | nil =>
    cases k with
    | zero => rw [combos, List.mem_singleton] at h; subst h; exact ⟨List.Sublist.refl _, rfl⟩
    | succ k => cases h
  | cons x xs ih =>
    cases k with
    | zero => rw [combos, List.mem_singleton] at h; subst h; exact ⟨List.nil_sublist _, rfl⟩
    | succ k =>
      rw [combos, List.mem_append, List.mem_map] at h
      rcases h with ⟨t, ht, rfl⟩ | h
      · obtain ⟨h1, h2⟩ := ih ht
        exact ⟨h1.cons_cons x, by rw [List.length_cons, h2]⟩
      · obtain ⟨h1, h2⟩ := ih h
        exact ⟨h1.cons x, h2⟩

theorem nodup_combos {k : Nat} {l : List α} (hn : l.Nodup) : (combos k l).Nodup := by
  induction l generalizing k with
  | nil => cases k <;> simp [combos]
  | cons x xs ih =>
    obtain ⟨h1, h2⟩ := List.nodup_cons.mp hn
    cases k with
    | zero => simp [combos]
    | succ k =>
      rw [combos, List.nodup_append]
      refine ⟨?_, ih h2, ?_⟩
      · have := ih (k := k) h2
        unfold List.Nodup at this ⊢
        rw [List.pairwise_map]
        exact this.imp (fun hne he => hne (List.cons.inj he).2)
      · intro s hs t ht he
        subst he
        obtain ⟨u, _, rfl⟩ := List.mem_map.mp hs
        exact h1 ((mem_combos ht).1.subset List.mem_cons_self)

/-- Row `n` of Pascal's triangle, up to the item with number 14. -/
def pascalRow : Nat → List Nat
  | 0 => [1, 0, 0, 0, 0, 0, 0, 0, 0, 0, 0, 0, 0, 0, 0]
  | n + 1 => List.zipWith (fun a b => a + b) (pascalRow n) (0 :: pascalRow n)

theorem pascalRow_eq (l : List α) : ∀ k, k < 15 → (pascalRow l.length)[k]? = some (combos k l).length := by
  induction l with
  | nil =>
    intro k hk
    match k, hk with
    | 0, _ => rfl
    | k + 1, hk =>
      have : ∀ k : Fin 15, (pascalRow 0)[k.val]? = some (if k.val = 0 then 1 else 0) := by decide
      exact (this ⟨k + 1, hk⟩).trans (by simp [combos])
  | cons x xs ih =>
    intro k hk
    rw [List.length_cons, pascalRow, List.getElem?_zipWith, ih k hk]
    cases k with
    | zero => simp [combos]
    | succ k =>
      rw [List.getElem?_cons_succ, ih k (by omega)]
      simp only [combos, List.length_append, List.length_map]
      rw [Nat.add_comm]

/-- A sublist of a list without repetitions that has only items of another sublist is a sublist of it. -/
theorem sublist_of_items {l s t : List α} (hn : l.Nodup) (hs : s.Sublist l) (ht : t.Sublist l) (h : ∀ a ∈ s, a ∈ t) : s.Sublist t := by
  induction l generalizing s t with
  | nil => rw [List.sublist_nil.mp hs]; exact List.nil_sublist _
  | cons x xs ih =>
    obtain ⟨h1, h2⟩ := List.nodup_cons.mp hn
    have hx : ∀ {s t : List α}, s.Sublist xs → (∀ a ∈ s, a ∈ x :: t) → ∀ a ∈ s, a ∈ t := by
      intro s t hq hh a ha
      rcases List.mem_cons.mp (hh a ha) with he | hb
      · rw [he] at ha; exact absurd (hq.subset ha) h1
      · exact hb
    cases hs with
    | cons _ hs =>
      cases ht with
      | cons _ ht => exact ih h2 hs ht h
      | cons_cons _ ht => exact (ih h2 hs ht (hx hs h)).cons x
    | cons_cons _ hs =>
      cases ht with
      | cons _ ht => exact absurd (ht.subset (h x List.mem_cons_self)) h1
      | cons_cons _ ht => exact (ih h2 hs ht (hx hs (fun a ha => h a (List.mem_cons_of_mem _ ha)))).cons_cons x

/-- Among the sublists of length `k` of a list without repetitions, two different ones have the same value, if there are
more of them than values; and each has an item the other one lacks. -/
theorem combos_collide {l : List α} {k m n : Nat} (f : List α → Nat) (hn : l.Nodup) (hlen : m ≤ l.length) (hk : k < 15)
    (hf : ∀ s, f s < n) (hc : ∃ c, (pascalRow m)[k]? = some c ∧ n < c) :
    ∃ s t : List α, s.Sublist l ∧ t.Sublist l ∧ s.length = k ∧ t.length = k ∧ f s = f t ∧ (∃ a ∈ s, a ∉ t) ∧ ∃ a ∈ t, a ∉ s := by
  obtain ⟨c, hc, hlt⟩ := hc
  have hl : (l.take m).length = m := by rw [List.length_take]; omega
  have hsub := List.take_sublist m l
  have hn' := hsub.nodup hn
  have := pascalRow_eq (l.take m) k hk
  rw [hl, hc] at this
  obtain ⟨s, hs, t, ht, hne, he⟩ := pigeonhole (l := combos k (l.take m)) f (nodup_combos hn') (fun a _ => hf a)
    (by rw [← Option.some.inj this]; exact hlt)
  obtain ⟨s1, s2⟩ := mem_combos hs
  obtain ⟨t1, t2⟩ := mem_combos ht
  have key : ∀ {s t : List α}, s.Sublist (l.take m) → t.Sublist (l.take m) → s.length = k → t.length = k → s ≠ t → ∃ a ∈ s, a ∉ t := by
    intro s t s1 t1 s2 t2 hne
    apply Classical.byContradiction
    intro hno
    have hsubset : ∀ a ∈ s, a ∈ t := fun a ha => Classical.byContradiction fun hx => hno ⟨a, ha, hx⟩
    exact hne ((sublist_of_items hn' s1 t1 hsubset).eq_of_length (by rw [s2, t2]))
  exact ⟨s, t, s1.trans hsub, t1.trans hsub, s2, t2, he, key s1 t1 s2 t2 hne, key t1 s1 t2 s2 (Ne.symm hne)⟩

end Shard
