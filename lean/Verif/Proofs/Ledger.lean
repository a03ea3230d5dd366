import Verif.Proofs.IterProps
import Verif.Proofs.Progress
/-!
# The values a registry stores, listed by entity and component type
-/

set_option autoImplicit false

namespace Shard

variable {env : Env} {W : World env} {r r' : Registry} {cs cs' : List Content}

/-- The values of one archetype, each with its entity and its type. -/
def Content.items (ct : Content) : List (Entity × CompTy × Val) :=
  (ct.cts.zip ct.cols).flatMap (fun x => (ct.ents.zip x.2).map (fun y => (y.1, x.1, y.2)))

theorem zip_map_snd {α β : Type} : ∀ {l : List α} {m : List β}, m.length = l.length → (l.zip m).map (fun y => y.2) = m
  | [], [], _ => rfl
  | _ :: l, _ :: m, h => by
    simp only [List.zip_cons_cons, List.map_cons, List.cons.injEq, true_and]
    exact zip_map_snd (by simpa using h)
  | [], _ :: _, h => by simp at h
  | _ :: _, [], h => by simp at h

theorem Rep.items_vals {a : Archetype} {ct : Content} (h : Rep W a ct) : ct.items.map (fun x => x.2.2) = ct.cols.flatten := by
  have hl : ct.cols.length = ct.cts.length := h.cols.cols_len
  have hc : ∀ x ∈ ct.cts.zip ct.cols, x.2.length = ct.ents.length := by
    intro x hx
    obtain ⟨i, hi⟩ := List.mem_iff_getElem?.mp (List.of_mem_zip hx).2
    exact h.lens i _ hi
  unfold Content.items
  rw [List.map_flatMap]
  have : ∀ (l : List (CompTy × List Val)), (∀ x ∈ l, x.2.length = ct.ents.length) →
      l.flatMap (fun x => ((ct.ents.zip x.2).map (fun y => (y.1, x.1, y.2))).map (fun x => x.2.2)) =
        (l.map (fun x => x.2)).flatten := by
    intro l hl
    induction l with
    | nil => rfl
    | cons x l ih =>
      rw [List.flatMap_cons, List.map_cons, List.flatten_cons, ih (fun y hy => hl y (List.mem_cons_of_mem _ hy)),
        List.map_map]
      congr 1
      exact zip_map_snd (hl x List.mem_cons_self)
  rw [this _ hc, zip_map_snd hl]

theorem Rep.mem_items {a : Archetype} {ct : Content} (h : Rep W a ct) {e : Entity} {c : CompTy} {v : Val} :
    (e, c, v) ∈ ct.items ↔ ∃ k : Nat, ct.ents[k]? = some e ∧ ct.get c k = some v := by
  unfold Content.items
  rw [List.mem_flatMap]
  constructor
  · rintro ⟨⟨c', col⟩, h1, h2⟩
    obtain ⟨⟨e', v'⟩, h3, h4⟩ := List.mem_map.mp h2
    cases h4
    obtain ⟨i, hi⟩ := List.mem_iff_getElem?.mp h1
    obtain ⟨k, hk⟩ := List.mem_iff_getElem?.mp h3
    rw [List.getElem?_zip_eq_some] at hi hk
    refine ⟨k, hk.1, ?_⟩
    unfold Content.get
    rw [h.lookupTy_eq hi.1 hi.2]
    simpa using hk.2
  · rintro ⟨k, h1, h2⟩
    have hm := (h.mem_of_get h2).1
    obtain ⟨i, hi⟩ := List.mem_iff_getElem?.mp hm
    obtain ⟨vs, b, h3, _⟩ := h.column hi
    refine ⟨(c, vs), ?_, ?_⟩
    · rw [List.mem_iff_getElem?]
      exact ⟨i, List.getElem?_zip_eq_some.mpr ⟨hi, h3⟩⟩
    · rw [List.mem_map]
      refine ⟨(e, v), ?_, rfl⟩
      rw [List.mem_iff_getElem?]
      refine ⟨k, List.getElem?_zip_eq_some.mpr ⟨h1, ?_⟩⟩
      unfold Content.get at h2
      rw [h.lookupTy_eq hi h3] at h2
      simpa using h2

theorem zip_pairwise_fst {α β : Type} {R : α → α → Prop} : ∀ {l : List α} {m : List β}, l.Pairwise R →
    (l.zip m).Pairwise (fun x y => R x.1 y.1)
  | [], _, _ => by simp
  | _ :: _, [], _ => by simp
  | a :: l, b :: m, h => by
    obtain ⟨h1, h2⟩ := List.pairwise_cons.mp h
    rw [List.zip_cons_cons, List.pairwise_cons]
    exact ⟨fun x hx => h1 _ (List.of_mem_zip hx).1, zip_pairwise_fst h2⟩

theorem RInv.items_nodup (h : RInv W r cs) {i : Nat} {ct : Content} (hc : cs[i]? = some ct) : ct.items.Nodup := by
  obtain ⟨a, ha, hr⟩ := h.arch.arch hc
  unfold Content.items List.Nodup
  rw [List.pairwise_flatMap]
  constructor
  · intro x hx
    rw [List.pairwise_map]
    exact (zip_pairwise_fst (h.ents_nodup hc)).imp (by
      intro p q hpq heq
      exact hpq (Prod.mk.inj heq).1)
  · refine (zip_pairwise_fst hr.nodup).imp ?_
    intro p q hpq x hx y hy heq
    obtain ⟨_, _, rfl⟩ := List.mem_map.mp hx
    obtain ⟨_, _, rfl⟩ := List.mem_map.mp hy
    exact hpq (Prod.mk.inj (Prod.mk.inj heq).2).1

/-- All values of the registry, each with its entity and its type. -/
def allItems (cs : List Content) : List (Entity × CompTy × Val) := cs.flatMap Content.items

theorem RInv.allItems_spec (h : RInv W r cs) : (allItems cs).Nodup ∧ (allItems cs).map (fun x => x.2.2) = stored cs ∧
    ∀ e c v, (e, c, v) ∈ allItems cs ↔ W.Has c ∧ r.getComponent env c e = .ok (some v) := by
  refine ⟨?_, ?_, fun e c v => ?_⟩
  · unfold allItems List.Nodup
    rw [List.pairwise_flatMap]
    constructor
    · intro ct hct
      obtain ⟨i, hi⟩ := List.mem_iff_getElem?.mp hct
      exact h.items_nodup hi
    · rw [List.pairwise_iff_getElem]
      intro i j hi hj hij x hx y hy heq
      subst heq
      obtain ⟨e, c, v⟩ := x
      have hi' := List.getElem?_eq_getElem hi
      have hj' := List.getElem?_eq_getElem hj
      obtain ⟨_, _, hri⟩ := h.arch.arch hi'
      obtain ⟨_, _, hrj⟩ := h.arch.arch hj'
      obtain ⟨k, h1, _⟩ := hri.mem_items.mp hx
      obtain ⟨k', h2, _⟩ := hrj.mem_items.mp hy
      have := (h.row_inj hi' hj' h1 h2).1
      omega
  · have : ∀ l : List Content, (∀ ct ∈ l, ct ∈ cs) → (l.flatMap Content.items).map (fun x => x.2.2) = stored l := by
      intro l
      induction l with
      | nil => intro _; rfl
      | cons ct l ih =>
        intro hl
        rw [List.flatMap_cons, List.map_append, ih (fun x hx => hl x (List.mem_cons_of_mem _ hx))]
        obtain ⟨i, hi⟩ := List.mem_iff_getElem?.mp (hl ct List.mem_cons_self)
        obtain ⟨_, _, hr⟩ := h.arch.arch hi
        rw [hr.items_vals]
        unfold stored
        rw [List.map_cons, List.flatten_cons]
    exact this cs (fun _ h => h)
  · unfold allItems
    rw [List.mem_flatMap]
    constructor
    · rintro ⟨ct, hct, hx⟩
      obtain ⟨i, hi⟩ := List.mem_iff_getElem?.mp hct
      obtain ⟨_, _, hr⟩ := h.arch.arch hi
      obtain ⟨k, h1, h2⟩ := hr.mem_items.mp hx
      have hW := hr.desc.has c (hr.mem_of_get h2).1
      refine ⟨hW, ?_⟩
      rw [h.getComponent_eq hW, h.row_look hi h1]
      simp [h2]
    · rintro ⟨hW, hg⟩
      rw [h.getComponent_eq hW] at hg
      cases hf : r.look env cs e with
      | none => rw [hf] at hg; cases hg
      | some f =>
        rw [hf] at hg
        have hfc : f c = some v := by simpa using hg
        obtain ⟨en, he⟩ := h.look_some hf
        obtain ⟨a, ct, ha, hct, hr, hk, _, hlook⟩ := h.entry he
        rw [hlook] at hf; cases hf
        exact ⟨ct, List.mem_of_getElem? hct, hr.mem_items.mpr ⟨_, hk, hfc⟩⟩

/-- The ledger of a history of disciplined calls. -/
theorem Steps.ledger {ok : Registry → Call → Prop} (hok : ∀ r call, ok r call → call.Disciplined W r)
    {hist : List (Call × Outcome)} {r : Registry} (hs : Steps env ok Registry.default hist r) :
    ∃ cs, RInv W r cs ∧ (stored cs ++ hist.flatMap (fun x => x.2.returned) ++ hist.flatMap (fun x => x.2.dropped)).Perm
      (hist.flatMap (fun x => x.2.given)) := by
  induction hs with
  | nil => exact ⟨[], RInv.empty W, List.Perm.refl _⟩
  | snoc h1 h2 h3 ih =>
    rename_i hist r1 r2 call out
    obtain ⟨cs, hcs, hp⟩ := ih
    have hd := hok _ _ h2
    obtain ⟨cs', hst⟩ := hcs.step hd.1 h3
    refine ⟨cs', hst.inv, ?_⟩
    have hl := hst.ledger hd.2
    simp only [List.flatMap_append, List.flatMap_cons, List.flatMap_nil, List.append_nil]
    have hp' := hp.append_right out.given
    refine List.Perm.trans ?_ hp'
    rw [List.perm_iff_count] at hl ⊢
    intro v
    have := hl v
    simp only [List.count_append] at this ⊢
    omega

end Shard
