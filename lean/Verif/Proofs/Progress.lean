import Verif.Proofs.Observe
import Verif.Proofs.IterProps
import Verif.Spec.Limits
/-!
# When calls succeed
-/

namespace Shard

variable {env : Env} {W : World env} {r r' : Registry} {cs cs' : List Content}

theorem AscSet.unique {s t : List UInt16} {P : UInt16 → Prop} (h : AscSet s P) (h' : AscSet t P) : s = t := by
  apply sorted_perm_ids (h.1.imp UInt16.le_of_lt) (h'.1.imp UInt16.le_of_lt)
  rw [List.perm_ext_iff_of_nodup (h.1.imp (fun hlt he => by subst he; exact UInt16.lt_irrefl _ hlt))
    (h'.1.imp (fun hlt he => by subst he; exact UInt16.lt_irrefl _ hlt))]
  intro i
  rw [h.2, h'.2]

/-- The ids of a live entity. -/
theorem RInv.ascSet (h : RInv W r cs) {e : Entity} (hl : Live env r e) :
    ∃ s, AscSet s (HasId W r e) ∧ 1 ≤ s.length ∧ s.length ≤ 14 := by
  obtain ⟨f, hf⟩ := h.live_iff.mp hl
  obtain ⟨en, a, ct, he, ha, hct, hr, hfe, hm⟩ := h.stored_at hf
  obtain ⟨h1, h2⟩ := h.ids_of hf hr hm
  have := hr.desc.le
  have := hr.desc.pos
  exact ⟨_, h1, by omega, by omega⟩

/-- The ids of an entity with one more component. -/
theorem withId {e : Entity} {c : CompTy} (hc : W.Has c)
    (hn : r.hasComponent env c e = .ok false) {s : List UInt16} (hs : AscSet s (HasId W r e)) :
    ∃ t, AscSet t (WithId W r e c) ∧ t.length = s.length + 1 := by
  have hnot : c.id ∉ s := by
    intro hm
    obtain ⟨c', h1, h2, h3⟩ := (hs.2 _).mp hm
    rw [W.id_inj h1 hc h2, hn] at h3
    cases h3
  have hp : ((c.id :: s).mergeSort (fun a b => decide (a ≤ b))).Perm (c.id :: s) := List.mergeSort_perm _ _
  have hnd : (c.id :: s).Nodup := List.nodup_cons.mpr ⟨hnot, hs.1.imp (fun hlt he => by subst he; exact UInt16.lt_irrefl _ hlt)⟩
  have hsort : ((c.id :: s).mergeSort (fun a b => decide (a ≤ b))).Pairwise (fun a b => decide (a ≤ b)) := by
    apply List.pairwise_mergeSort
    · intro a b c; simp only [decide_eq_true_eq]; exact UInt16.le_trans
    · intro a b; simp only [Bool.or_eq_true, decide_eq_true_eq]; exact UInt16.le_total a b
  have hnd' := hp.nodup_iff.mpr hnd
  refine ⟨_, ⟨((hsort.imp (fun hx => of_decide_eq_true hx)).and hnd').imp (fun ⟨a, b⟩ => UInt16.lt_of_le_of_ne a b), ?_⟩, ?_⟩
  · intro i
    rw [hp.mem_iff, List.mem_cons]
    unfold WithId
    rw [hs.2]
  · rw [hp.length_eq]; rfl

/-- The ids of an entity with one component less. -/
theorem withoutId {e : Entity} {c : CompTy} (hc : W.Has c)
    (hy : r.hasComponent env c e = .ok true) {s : List UInt16} (hs : AscSet s (HasId W r e)) :
    ∃ t, AscSet t (WithoutId W r e c) ∧ t.length + 1 = s.length := by
  have hnd : s.Nodup := hs.1.imp (fun hlt he => by subst he; exact UInt16.lt_irrefl _ hlt)
  have hm : c.id ∈ s := (hs.2 _).mpr ⟨c, hc, rfl, hy⟩
  refine ⟨s.erase c.id, ⟨hs.1.sublist List.erase_sublist, ?_⟩, ?_⟩
  · intro i
    rw [hnd.mem_erase_iff, hs.2]
    rfl
  · rw [List.length_erase_of_mem hm]
    have := List.length_pos_of_mem hm
    omega

/-- A full archetype holds that many entities with exactly its component types. -/
theorem RInv.not_full (h : RInv W r cs) {P : CompTy → Prop} {Q : Entity → Prop} (hq : FewerThan STORAGE_LIMIT Q)
    (hpq : ∀ x f, r.look env cs x = some f → (∀ c, (f c).isSome ↔ P c) → Q x) : ¬ FullSet cs P := by
  rintro ⟨ai, ct, h1, h2, h3⟩
  have := hq ct.ents (h.ents_nodup h1) (fun x hx => by
    obtain ⟨k, hk⟩ := List.mem_iff_getElem?.mp hx
    have hl := h.row_look h1 hk
    obtain ⟨a, _, hr⟩ := h.arch.arch h1
    refine hpq x _ hl (fun c => ?_)
    rw [← h2 c]
    constructor
    · intro hs
      obtain ⟨v, hv⟩ := Option.isSome_iff_exists.mp hs
      exact (hr.mem_of_get hv).1
    · intro hm
      obtain ⟨v, hv, _⟩ := hr.get_some hm (List.getElem?_eq_some_iff.mp hk).1
      simp [hv])
  rw [h3] at this
  exact absurd this (Nat.lt_irrefl _)

theorem RInv.not_full_group (h : RInv W r cs) {g : Group} (hg : ∀ c ∈ g, W.Has c)
    (hq : FewerThan STORAGE_LIMIT (fun x => HasExactly W r x g)) : ¬ FullSet cs (fun c => c ∈ g) :=
  h.not_full hq (fun _ _ hx hm => (h.hasExactly_iff hx hg).mpr hm)

theorem RInv.not_full_with (h : RInv W r cs) {e : Entity} {f : CompTy → Option Val} (hf : r.look env cs e = some f)
    {c : CompTy} (hc : W.Has c) {t : List UInt16} (ht : AscSet t (WithId W r e c))
    (hq : FewerThan STORAGE_LIMIT (fun x => HasSet W r x t)) : ¬ FullSet cs (fun c' => c' = c ∨ (f c').isSome) := by
  refine h.not_full hq (fun x fx hx hm => ⟨h.live_iff.mpr ⟨_, hx⟩, fun i => ?_⟩)
  rw [ht.2, h.hasId_iff hx]
  unfold WithId
  rw [h.hasId_iff hf]
  constructor
  · rintro ⟨c', h1, h2⟩
    rcases (hm c').mp h2 with rfl | h3
    · exact Or.inl h1.symm
    · exact Or.inr ⟨c', h1, h3⟩
  · rintro (rfl | ⟨c', h1, h2⟩)
    · exact ⟨c, rfl, (hm c).mpr (Or.inl rfl)⟩
    · exact ⟨c', h1, (hm c').mpr (Or.inr h2)⟩

theorem RInv.not_full_without (h : RInv W r cs) {e : Entity} {f : CompTy → Option Val} (hf : r.look env cs e = some f)
    {c : CompTy} (hc : W.Has c) {t : List UInt16} (ht : AscSet t (WithoutId W r e c))
    (hq : FewerThan STORAGE_LIMIT (fun x => HasSet W r x t)) : ¬ FullSet cs (fun c' => c' ≠ c ∧ (f c').isSome) := by
  refine h.not_full hq (fun x fx hx hm => ⟨h.live_iff.mpr ⟨_, hx⟩, fun i => ?_⟩)
  rw [ht.2, h.hasId_iff hx]
  unfold WithoutId
  rw [h.hasId_iff hf]
  constructor
  · rintro ⟨c', h1, h2⟩
    obtain ⟨h3, h4⟩ := (hm c').mp h2
    exact ⟨fun he => h3 (W.id_inj (h.has_of_look hf h4) hc (h1.trans he)), c', h1, h4⟩
  · rintro ⟨h1, c', h2, h3⟩
    refine ⟨c', h2, (hm c').mpr ⟨?_, h3⟩⟩
    rintro rfl
    exact h1 h2.symm

/-- The exact result of `create_entity` for a valid group. -/
theorem RInv.create_cases (h : RInv W r cs) {g : Group} {vals : List Val} (hadm : (Call.create g vals).Admissible W r)
    (hv : (g.descriptor env).isValid = true) :
    (¬ Room r.archetypes g.length (groupId env g.idSet) ∧ r.createEntity env g vals = .ok (r, .err vals)) ∨
    (Room r.archetypes g.length (groupId env g.idSet) ∧ r.entities.entities.length = MAX_ENTITY_HANDLE_VALUE ∧
      ∃ r', r.createEntity env g vals = .ok (r', .err vals)) ∨
    (Room r.archetypes g.length (groupId env g.idSet) ∧ r.entities.entities.length < MAX_ENTITY_HANDLE_VALUE ∧
      ((∃ r' e, r.createEntity env g vals = .ok (r', .ok e)) ∨
       (FullSet cs (fun c => c ∈ g) ∧
        r.createEntity env g vals = .error (if env.debug then .panic .debugAssert else .ub .nullDeref)))) := by
  cases hx : r.createEntity env g vals with
  | ok x =>
    obtain ⟨r1, res⟩ := x
    cases res with
    | ok e =>
      have h1 := run_create_ok hx
      rcases h.create_step hadm with ⟨r2, out, cs1, q1, _, q3, _⟩ | ⟨f, q1, _⟩
      · rw [h1] at q1; cases q1
        obtain ⟨_, q4, q5⟩ := q3 rfl
        exact Or.inr (Or.inr ⟨q5, q4, Or.inl ⟨r1, e, rfl⟩⟩)
      · rw [h1] at q1; cases q1
    | err vs =>
      have h1 := run_create_err hx
      obtain ⟨_, _, hvs, _⟩ := h.create_err hadm hx
      subst hvs
      rcases h.create_step hadm with ⟨r2, out, cs1, q1, _, _, q3⟩ | ⟨f, q1, _⟩
      · rw [h1] at q1; cases q1
        rcases q3 rfl hv with ⟨q4, q5⟩ | ⟨q4, q5⟩
        · subst q4
          exact Or.inl ⟨q5, rfl⟩
        · exact Or.inr (Or.inl ⟨q5, q4, r1, rfl⟩)
      · rw [h1] at q1; cases q1
  | error flt =>
    rcases h.create_step hadm with ⟨r2, out, cs1, q1, _⟩ | ⟨f, q1, q2, _, q3, q4, q5⟩
    · simp only [Call.run, hx] at q1; cases q1
    · simp only [Call.run, hx] at q1
      cases q1
      exact Or.inr (Or.inr ⟨q4, q3, Or.inr ⟨q5, by rw [q2]⟩⟩)

/-- The exact result of `add_component` of a new component to a live entity. -/
theorem RInv.add_cases (h : RInv W r cs) {e : Entity} {c : CompTy} {v : Val} (hadm : (Call.add e c v).Admissible W r)
    {f : CompTy → Option Val} (hf : r.look env cs e = some f) (hn : f c = none) {s t : List UInt16}
    (hs : AscSet s (HasId W r e)) (ht : AscSet t (WithId W r e c)) :
    (s.length = 14 ∧ r.addComponent env e c v = .ok (r, .err v)) ∨
    (s.length = 13 ∧ r.addComponent env e c v = .error (.panic .indexOutOfBounds)) ∨
    (s.length ≤ 12 ∧ ¬ Room r.archetypes t.length (plainId env t) ∧ r.addComponent env e c v = .ok (r, .err v)) ∨
    (s.length ≤ 12 ∧ Room r.archetypes t.length (plainId env t) ∧
      ((∃ r', r.addComponent env e c v = .ok (r', .ok ())) ∨
       (FullSet cs (fun c' => c' = c ∨ (f c').isSome) ∧ r.addComponent env e c v = .error (.ub .nullDeref)))) := by
  cases hx : r.addComponent env e c v with
  | ok x =>
    obtain ⟨r1, res⟩ := x
    cases res with
    | ok u =>
      have h1 := run_add_ok hx
      rcases h.add_step hadm with ⟨r2, out, cs1, q1, _, _, q3⟩ | ⟨f, q1, _⟩
      · rw [h1] at q1; cases q1
        obtain ⟨s1, t1, q4, q5, q6, q7⟩ := q3 rfl
        rw [q4.unique hs] at q5
        rw [AscSet.unique (P := WithId W r e c) q6 ht] at q7
        exact Or.inr (Or.inr (Or.inr ⟨q5, q7, Or.inl ⟨r1, rfl⟩⟩))
      · rw [h1] at q1; cases q1
    | err w =>
      have h1 := run_add_err hx
      obtain ⟨rfl, rfl⟩ := h.add_err hadm hx
      rcases h.add_step hadm with ⟨r2, out, cs1, q1, _, q3, _⟩ | ⟨f, q1, _⟩
      · rw [h1] at q1; cases q1
        rcases (q3 rfl).2 f hf with q4 | ⟨s1, q4, q5⟩
        · rw [hn] at q4; cases q4
        · rw [q4.unique hs] at q5
          rcases q5 with q5 | ⟨hl, t1, q6, q7⟩
          · exact Or.inl ⟨q5, rfl⟩
          · rw [AscSet.unique (P := WithId W _ e c) q6 ht] at q7
            exact Or.inr (Or.inr (Or.inl ⟨hl, q7, rfl⟩))
      · rw [h1] at q1; cases q1
  | error flt =>
    rcases h.add_step hadm with ⟨r2, out, cs1, q1, _⟩ | ⟨flt', q1, f', s', q2, q3, q4, q5⟩
    · simp only [Call.run, hx] at q1; cases q1
    · simp only [Call.run, hx] at q1
      cases q1
      rw [hf] at q2; cases q2
      rw [q4.unique hs] at q5
      rcases q5 with ⟨rfl, q6⟩ | ⟨rfl, q6, ⟨t1, q7, q8⟩, q9⟩
      · exact Or.inr (Or.inl ⟨q6, rfl⟩)
      · rw [AscSet.unique (P := WithId W r e c) q7 ht] at q8
        exact Or.inr (Or.inr (Or.inr ⟨q6, q8, Or.inr ⟨q9, rfl⟩⟩))

/-- The exact result of `remove_component` of a component of a live entity. -/
theorem RInv.remove_cases (h : RInv W r cs) {e : Entity} {c : CompTy} (hadm : (Call.remove e c).Admissible W r)
    {f : CompTy → Option Val} (hf : r.look env cs e = some f) {v : Val} (hn : f c = some v) {s t : List UInt16}
    (hs : AscSet s (HasId W r e)) (ht : AscSet t (WithoutId W r e c)) :
    (s.length = 1 ∧ r.removeComponent env e c = .ok (r, .err ())) ∨
    (s.length = 14 ∧ r.removeComponent env e c = .error (.panic .indexOutOfBounds)) ∨
    (2 ≤ s.length ∧ s.length ≤ 13 ∧ ¬ Room r.archetypes t.length (plainId env t) ∧
      r.removeComponent env e c = .ok (r, .err ())) ∨
    (2 ≤ s.length ∧ s.length ≤ 13 ∧ Room r.archetypes t.length (plainId env t) ∧
      ((∃ r', r.removeComponent env e c = .ok (r', .ok v)) ∨
       (FullSet cs (fun c' => c' ≠ c ∧ (f c').isSome) ∧ r.removeComponent env e c = .error (.ub .nullDeref)))) := by
  cases hx : r.removeComponent env e c with
  | ok x =>
    obtain ⟨r1, res⟩ := x
    cases res with
    | ok w =>
      have h1 := run_remove_ok hx
      obtain ⟨_, f', _, w1, w2, _⟩ := h.remove_ok hadm hx
      rw [hf] at w1; cases w1
      rw [hn] at w2; cases w2
      rcases h.remove_step hadm with ⟨r2, out, cs1, q1, _, _, q3⟩ | ⟨f, q1, _⟩
      · rw [h1] at q1; cases q1
        obtain ⟨s1, t1, q4, q5, q5', q6, q7⟩ := q3 rfl
        rw [q4.unique hs] at q5 q5'
        rw [AscSet.unique (P := WithoutId W r e c) q6 ht] at q7
        exact Or.inr (Or.inr (Or.inr ⟨q5, q5', q7, Or.inl ⟨r1, rfl⟩⟩))
      · rw [h1] at q1; cases q1
    | err w =>
      have h1 := run_remove_err hx
      have := h.remove_err hadm hx
      subst this
      rcases h.remove_step hadm with ⟨r2, out, cs1, q1, _, q3, _⟩ | ⟨f, q1, _⟩
      · rw [h1] at q1; cases q1
        rcases (q3 rfl).2 f hf with q4 | ⟨s1, q4, q5⟩
        · rw [hn] at q4; cases q4
        · rw [q4.unique hs] at q5
          rcases q5 with q5 | ⟨hl, hl', t1, q6, q7⟩
          · exact Or.inl ⟨q5, rfl⟩
          · rw [AscSet.unique (P := WithoutId W _ e c) q6 ht] at q7
            exact Or.inr (Or.inr (Or.inl ⟨hl, hl', q7, rfl⟩))
      · rw [h1] at q1; cases q1
  | error flt =>
    rcases h.remove_step hadm with ⟨r2, out, cs1, q1, _⟩ | ⟨flt', q1, f', s', q2, q3, q4, q5⟩
    · simp only [Call.run, hx] at q1; cases q1
    · simp only [Call.run, hx] at q1
      cases q1
      rw [hf] at q2; cases q2
      rw [q4.unique hs] at q5
      rcases q5 with ⟨rfl, q6⟩ | ⟨rfl, q6, ⟨t1, q7, q8⟩, q9⟩
      · exact Or.inr (Or.inl ⟨q6, rfl⟩)
      · rw [AscSet.unique (P := WithoutId W r e c) q7 ht] at q8
        obtain ⟨t2, w1, w2⟩ := withoutId hadm.1 ((h.has_iff hf hadm.1).mpr q3) hs
        refine Or.inr (Or.inr (Or.inr ⟨?_, q6, q8, Or.inr ⟨q9, rfl⟩⟩))
        obtain ⟨ai, ct, p1, p2, _⟩ := q9
        obtain ⟨a, _, hr⟩ := h.arch.arch p1
        have hpos := hr.desc.pos
        obtain ⟨m1, m2⟩ := (p2 _).mp (List.getElem_mem (l := ct.cts) (n := 0) (by omega))
        have hW := h.has_of_look hf m2
        have hmt := (w1.2 (ct.cts[0]'(by omega)).id).mpr ⟨fun hid => m1 (W.id_inj hW hadm.1 hid), _, hW, rfl, (h.has_iff hf hW).mpr m2⟩
        have := List.length_pos_of_mem hmt
        omega

/-- A call that respects the discipline and stays within the limits does not fault. -/
theorem RInv.call_safe (h : RInv W r cs) {call : Call} (hd : call.Disciplined W r) (hl : call.WithinLimits W r) :
    ∃ r' out, call.run env r = .ok (r', out) := by
  obtain ⟨hadm, hm⟩ := hd
  cases call with
  | create g vals =>
    rcases h.create_step hadm with ⟨r1, o1, _, q1, _⟩ | ⟨f, _, _, q3, _, _, q5⟩
    · exact ⟨r1, o1, q1⟩
    · exact absurd q5 (h.not_full_group (hadm.2 (Group.spec q3).wf.nodup).has hl)
  | destroy e =>
    obtain ⟨r1, o1, _, q1, _⟩ := h.destroy_step e
    exact ⟨r1, o1, q1⟩
  | removeEntity g e => exact h.removeEntity_safe hm
  | add e c v =>
    rcases h.add_step hadm with ⟨r1, o1, _, q1, _⟩ | ⟨flt, _, f, s, q2, q3, q4, q5⟩
    · exact ⟨r1, o1, q1⟩
    · exfalso
      rcases q5 with ⟨_, q6⟩ | ⟨_, _, ⟨t, q7, _⟩, q9⟩
      · exact hl.1 s q4 q6
      · exact h.not_full_with q2 hadm.1 q7 (hl.2 t q7) q9
  | remove e c =>
    rcases h.remove_step hadm with ⟨r1, o1, _, q1, _⟩ | ⟨flt, _, f, s, q2, q3, q4, q5⟩
    · exact ⟨r1, o1, q1⟩
    · exfalso
      rcases q5 with ⟨_, q6⟩ | ⟨_, _, ⟨t, q7, _⟩, q9⟩
      · exact hl.1 s q4 q6
      · exact h.not_full_without q2 hadm.1 q7 (hl.2 t q7) q9
  | write e c v =>
    obtain ⟨r1, o1, _, q1, _⟩ := h.write_step hadm
    exact ⟨r1, o1, q1⟩
  | writeIn g e j v =>
    obtain ⟨r1, o1, _, q1, _⟩ := h.writeIn_step hadm
    exact ⟨r1, o1, q1⟩
  | writeIter it g n j k v =>
    obtain ⟨r1, o1, _, q1, _⟩ := h.writeIter_step hadm
    exact ⟨r1, o1, q1⟩

/-! ## Archetype lookup -/

theorem World.Desc.descOK {d : ArchetypeDescriptor} (h : W.Desc d) : ∃ cts, DescOK W d cts := by
  induction h with
  | group hg hv => exact ⟨_, Group.descOK hg hv⟩
  | @add d d' c hd hc ha hv hu ih =>
    obtain ⟨cts, hd⟩ := ih
    have hlen := hd.length
    have hle := hd.le
    by_cases hm : c ∈ cts
    · rw [ArchetypeDescriptor.addComponent_present hd.wf ((hd.id_mem hc).mpr hm)] at ha
      cases ha
    by_cases h14 : cts.length = 14
    · rw [ArchetypeDescriptor.addComponent_full (by omega)] at ha; cases ha
    by_cases h13 : cts.length = 13
    · rw [ArchetypeDescriptor.addComponent_thirteen hd.wf (by omega) (fun hx => hm ((hd.id_mem hc).mp hx))] at ha; cases ha
    obtain ⟨nd, cts', n1, _, _, _, _, _, n6⟩ := hd.add hc hm (by omega)
    rw [ha] at n1
    cases n1
    exact ⟨cts', n6 hv hu⟩
  | @remove d d' c hd hc ha hv hu ih =>
    obtain ⟨cts, hd⟩ := ih
    have hlen := hd.length
    have hle := hd.le
    have hpos := hd.pos
    by_cases hm : c ∈ cts
    · by_cases h1 : cts.length = 1
      · rw [ArchetypeDescriptor.removeComponent_one (by omega)] at ha; cases ha
      by_cases h14 : cts.length = 14
      · rw [ArchetypeDescriptor.removeComponent_fourteen hd.wf (by omega) ((hd.id_mem hc).mpr hm)] at ha; cases ha
      obtain ⟨nd, cts', n1, _, _, _, _, _, n6⟩ := hd.remove hm (by omega) (by omega)
      rw [ha] at n1
      cases n1
      exact ⟨cts', n6 hv hu⟩
    · rw [ArchetypeDescriptor.removeComponent_absent hd.wf (fun hx => hm ((hd.id_mem hc).mp hx))] at ha
      cases ha

theorem findArchetype_congr {ar : ArchetypeRegistry} {d d' : ArchetypeDescriptor} (hl : d.len = d'.len)
    (hid : d.archetypeId = d'.archetypeId) : ar.findArchetype env d = ar.findArchetype env d' := by
  unfold ArchetypeRegistry.findArchetype ArchetypeRegistry.searchLevel ArchetypeDescriptor.isValid
  rw [hl, hid]

theorem ARInv.find_of {ar : ArchetypeRegistry} {cs : List Content} (h : ARInv W ar cs) {i : Nat} {a : Archetype}
    (ha : ar.archetypes[i]? = some a) {d : ArchetypeDescriptor} (hl : d.len = a.descriptor.len)
    (hid : d.archetypeId = a.descriptor.archetypeId) : ar.findArchetype env d = .ok (some i) := by
  obtain ⟨ct, _, hr⟩ := h.content ha
  rw [findArchetype_congr hl hid]
  rcases h.findArchetype_spec hr.desc.wf hr.desc.valid with ⟨j, b, h1, h2, h3, h4⟩ | ⟨_, h2⟩
  · rw [h1, h.unique_index ha h2 h3.symm h4.symm]
  · exact absurd rfl (h2 i a ha rfl)

theorem ARInv.find_some {ar : ArchetypeRegistry} {cs : List Content} (h : ARInv W ar cs) {d : ArchetypeDescriptor} (hd : W.Desc d)
    {i : Nat} (hf : ar.findArchetype env d = .ok (some i)) :
    ∃ a, ar.archetypes[i]? = some a ∧ a.descriptor.len = d.len ∧ a.descriptor.archetypeId = d.archetypeId := by
  obtain ⟨cts, hd⟩ := hd.descOK
  rcases h.findArchetype_spec hd.wf hd.valid with ⟨j, b, h1, h2, h3, h4⟩ | ⟨h1, _⟩
  · rw [hf] at h1; cases h1
    exact ⟨b, h2, h3, h4⟩
  · rw [hf] at h1; cases h1

theorem ARInv.findOrCreate_of {ar : ArchetypeRegistry} {cs : List Content} (h : ARInv W ar cs) {i : Nat} {a : Archetype}
    (ha : ar.archetypes[i]? = some a) {d : ArchetypeDescriptor} (hd : W.Desc d) (hl : d.len = a.descriptor.len)
    (hid : d.archetypeId = a.descriptor.archetypeId) : ar.findOrCreateArchetype env d = .ok (ar, some (UInt16.ofNat i)) := by
  obtain ⟨cts, hd⟩ := hd.descOK
  rcases h.findOrCreate_spec hd with ⟨j, b, h1, h2, h3, h4⟩ | ⟨h2, _⟩
  · rw [h1, h.unique_index ha h2 (by rw [h3, hl]) (by rw [h4, hid]), UInt16.ofNat_toNat]
  · exact absurd hid.symm (h2 i a ha hl.symm)

/-- Archetypes keep their index and descriptor over any history. -/
theorem Steps.descriptors {ok : Registry → Call → Prop} (hok : ∀ r call, ok r call → call.Admissible W r) {r0 : Registry}
    {cs0 : List Content} (h0 : RInv W r0 cs0) {hist : List (Call × Outcome)} {r : Registry} (hs : Steps env ok r0 hist r)
    {i : Nat} {a : Archetype} (ha : r0.archetypes.archetypes[i]? = some a) :
    ∃ a', r.archetypes.archetypes[i]? = some a' ∧ a'.descriptor = a.descriptor := by
  induction hs with
  | nil => exact ⟨a, ha, rfl⟩
  | snoc h1 h2 h3 ih =>
    obtain ⟨a1, q1, q2⟩ := ih
    obtain ⟨cs1, hcs⟩ := h1.inv hok h0
    obtain ⟨cs2, hst⟩ := hcs.step (hok _ _ h2) h3
    obtain ⟨a2, q3, q4, _⟩ := hst.arch.old i a1 q1
    exact ⟨a2, q3, q4.trans q2⟩

end Shard
