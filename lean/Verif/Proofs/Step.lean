import Verif.Proofs.IterSpec
/-!
# One step of a history
-/

namespace Shard

variable {env : Env} {W : World env} {r r' : Registry} {cs cs' : List Content}

/-- What a call does to the table of entity entries. -/
def TableStep (env : Env) (r r' : EntityRegistry) (out : Outcome) : Prop :=
  match out.created, out.vacated with
  | some e, none => ∃ iia ai, EntityRegistry.Created env r r' e iia ai
  | none, some e => (∃ en, r.entityEntry env e = some en) ∧ ∃ m, Updated env r m ∧ EntityRegistry.Destroyed env m r' e
  | none, none => Updated env r r'
  | some _, some _ => False

/-- The call moves `x` to another archetype when it succeeds. -/
def Call.moves (call : Call) (x : Entity) : Prop :=
  match call with
  | .add e _ _ => x = e
  | .remove e _ => x = e
  | _ => False

/-- What a call does to the archetype each entity is stored in. -/
structure Places (env : Env) (r : Registry) (call : Call) (out : Outcome) (r' : Registry) : Prop where
  stay : ∀ x, out.created ≠ some x → out.vacated ≠ some x → ¬ (call.moves x ∧ out.success = true) →
    r'.archOf env x = r.archOf env x
  only : ∀ e, out.created = some e → ∃ g vals, call = .create g vals
  made : ∀ g vals e, call = .create g vals → out.created = some e → Home env r' e g.idSet (groupId env g.idSet)
  moved : ∀ e, call.moves e → out.success = true → ∃ s, Home env r' e s (plainId env s)
  count : ∀ g vals, call = .create g vals → r'.archetypes.archetypes.length ≤ r.archetypes.archetypes.length + 1
  reuse : ∀ g vals, call = .create g vals → HasArchetype r.archetypes g.length (groupId env g.idSet) →
    r'.archetypes.archetypes.length = r.archetypes.archetypes.length

/-- A call that moves no entity. -/
theorem Places.same {call : Call} {out : Outcome} (h : r'.entities = r.entities)
    (hl : ∀ g vals, call = .create g vals → r'.archetypes = r.archetypes)
    (hc : out.created = none) (hm : out.success = true → ∀ e, ¬ call.moves e) : Places env r call out r' :=
  ⟨fun x _ _ _ => by unfold Registry.archOf; rw [h], fun e he => (by rw [hc] at he; cases he),
   fun _ _ e _ he => (by rw [hc] at he; cases he),
   fun e h1 h2 => absurd h1 (hm h2 e), fun g vals hx => by rw [hl g vals hx]; omega, fun g vals hx _ => by rw [hl g vals hx]⟩

theorem Places.refl {call : Call} {out : Outcome} (hc : out.created = none) (hs : out.success = false) :
    Places env r call out r :=
  Places.same rfl (fun _ _ _ => rfl) hc (fun h => by rw [hs] at h; cases h)

theorem Places.removed {call : Call} {out : Outcome} {e : Entity} {vs : List Val} (h : Removed W r cs e r' cs' vs)
    (hv : out.vacated = some e) (hc : out.created = none) (hm : ∀ x, ¬ call.moves x) : Places env r call out r' :=
  ⟨fun x _ h2 _ => h.stay x (fun hx => h2 (by rw [hv, hx])), fun e he => (by rw [hc] at he; cases he),
   fun _ _ e _ he => (by rw [hc] at he; cases he),
   fun e h1 _ => absurd h1 (hm e), fun _ _ _ => by rw [h.count]; omega, fun _ _ _ _ => h.count⟩

theorem Places.moved' {call : Call} {out : Outcome} {e : Entity} {f : CompTy → Option Val} (h : Moved W r cs e r' cs' f)
    (hs : out.success = true) (hc : out.created = none) (hm : ∀ x, call.moves x ↔ x = e) : Places env r call out r' :=
  ⟨fun x _ _ h3 => h.stay x (fun hx => h3 ⟨(hm x).mpr hx, hs⟩), fun e he => (by rw [hc] at he; cases he),
   fun _ _ e _ he => (by rw [hc] at he; cases he),
   fun x h1 _ => by rw [(hm x).mp h1]; exact h.home,
   fun _ _ hx => by subst hx; exact absurd ((hm e).mpr rfl) (fun h => h),
   fun _ _ hx _ => by subst hx; exact absurd ((hm e).mpr rfl) (fun h => h)⟩

theorem Places.created {out : Outcome} {e : Entity} {g : Group} {vals : List Val} (h : CreatedAt W r cs e g vals r' cs')
    (hc : out.created = some e) : Places env r (.create g vals) out r' :=
  ⟨fun x h1 _ _ => h.stay x (fun hx => h1 (by rw [hc, hx])),
   fun _ _ => ⟨g, vals, rfl⟩, fun _ _ _ hx he => (by cases hx; rw [hc] at he; cases he; exact h.home),
   fun _ h1 _ => h1.elim, fun _ _ _ => h.count, fun _ _ hx hh => by cases hx; exact h.reuse hh⟩

/-- Everything the invariant proof knows about a call. -/
structure StepInv (W : World env) (r : Registry) (cs : List Content) (call : Call) (out : Outcome) (r' : Registry)
    (cs' : List Content) : Prop where
  inv : RInv W r' cs'
  abs : AMap.Step env (r.look env cs) call out (r'.look env cs')
  table : TableStep env r.entities r'.entities out
  arch : ArchStep r.archetypes r'.archetypes
  place : Places env r call out r'
  ledger : call.Matched W r → (stored cs' ++ out.returned ++ out.dropped).Perm (stored cs ++ out.given)

/-! ## Facts through the API -/

theorem RInv.live_iff (h : RInv W r cs) {e : Entity} : Live env r e ↔ ∃ f, r.look env cs e = some f := by
  unfold Live
  rw [h.mem_iterEntities, Option.isSome_iff_exists]

theorem RInv.dead_iff (h : RInv W r cs) {e : Entity} : ¬ Live env r e ↔ r.look env cs e = none := by
  rw [h.live_iff]
  cases r.look env cs e <;> simp

theorem RInv.has_iff (h : RInv W r cs) {e : Entity} {f : CompTy → Option Val} (hf : r.look env cs e = some f) {c : CompTy}
    (hc : W.Has c) : r.hasComponent env c e = .ok true ↔ (f c).isSome := by
  rw [h.hasComponent_eq hc, hf]
  simp

/-- The component types of an entity are types of the program. -/
theorem RInv.has_of_look (h : RInv W r cs) {e : Entity} {f : CompTy → Option Val} (hf : r.look env cs e = some f) {c : CompTy}
    (hc : (f c).isSome) : W.Has c := by
  obtain ⟨en, he⟩ := h.look_some hf
  obtain ⟨a, ct, ha, hct, hr, hk, _, hlook⟩ := h.entry he
  rw [hlook] at hf; cases hf
  obtain ⟨v, hv⟩ := Option.isSome_iff_exists.mp hc
  exact hr.desc.has _ (hr.mem_of_get hv).1

theorem RInv.hasId_iff (h : RInv W r cs) {e : Entity} {f : CompTy → Option Val} (hf : r.look env cs e = some f) {i : UInt16} :
    HasId W r e i ↔ ∃ c, c.id = i ∧ (f c).isSome := by
  constructor
  · rintro ⟨c, h1, h2, h3⟩
    exact ⟨c, h2, (h.has_iff hf h1).mp h3⟩
  · rintro ⟨c, h2, h3⟩
    have h1 := h.has_of_look hf h3
    exact ⟨c, h1, h2, (h.has_iff hf h1).mpr h3⟩

theorem RInv.hasExactly_iff (h : RInv W r cs) {e : Entity} {f : CompTy → Option Val} (hf : r.look env cs e = some f) {g : Group}
    (hg : ∀ c ∈ g, W.Has c) : HasExactly W r e g ↔ ∀ c, (f c).isSome ↔ c ∈ g := by
  constructor
  · rintro ⟨_, h2⟩ c
    by_cases hc : W.Has c
    · rw [← h2 c hc, h.has_iff hf hc]
    · exact ⟨fun hx => absurd (h.has_of_look hf hx) hc, fun hx => absurd (hg c hx) hc⟩
  · intro hx
    refine ⟨h.live_iff.mpr ⟨f, hf⟩, ?_⟩
    intro c hc
    rw [h.has_iff hf hc, hx c]

/-- The entity together with the content it is stored in. -/
theorem RInv.stored_at (h : RInv W r cs) {e : Entity} {f : CompTy → Option Val} (hf : r.look env cs e = some f) :
    ∃ en a ct, r.entities.entityEntry env e = some en ∧ r.archetypes.archetypes[(en.archetypeIndex env).toNat]? = some a ∧
      cs[(en.archetypeIndex env).toNat]? = some ct ∧ Rep W a ct ∧ f = (fun c => ct.get c en.indexInArchetype.value.toNat) ∧
      ∀ c, (f c).isSome ↔ c ∈ ct.cts := by
  obtain ⟨en, he⟩ := h.look_some hf
  obtain ⟨a, ct, ha, hct, hr, hk, _, hlook⟩ := h.entry he
  have hkl := (List.getElem?_eq_some_iff.mp hk).1
  rw [hlook] at hf; cases hf
  refine ⟨en, a, ct, he, ha, hct, hr, rfl, ?_⟩
  intro c
  constructor
  · intro hs
    obtain ⟨v, hv⟩ := Option.isSome_iff_exists.mp hs
    exact (hr.mem_of_get hv).1
  · intro hm
    obtain ⟨v, hv, _⟩ := hr.get_some hm hkl
    simp [hv]

theorem look_set_ext {a a' : AMap} {e : Entity} {x : Option (CompTy → Option Val)}
    (h : ∀ y, a' y = if y = e then x else a y) : a' = a.set e x := funext h

theorem Grown.archStep {ar ar' : ArchetypeRegistry} {cs cs' : List Content} (h : Grown ar cs ar' cs') : ArchStep ar ar' := h.step

/-- A group with exactly the types of a content is a group of the program. -/
theorem Rep.okGroup {a : Archetype} {ct : Content} (hr : Rep W a ct) {g : Group} (hv : (g.descriptor env).isValid = true)
    (hm : ∀ c, c ∈ ct.cts ↔ c ∈ g) : W.OkGroup g := by
  have hg : ∀ c ∈ g, W.Has c := fun c hc => hr.desc.has c ((hm c).mpr hc)
  refine ⟨hg, ?_⟩
  have gs := Group.spec hv
  have hp : ct.cts.Perm g := by
    rw [List.perm_ext_iff_of_nodup hr.nodup (nodup_of_map gs.wf.nodup)]
    exact hm
  have hids : a.descriptor.ids = (g.descriptor env).archetype.ids := by
    apply sorted_perm_ids (hr.desc.wf.ids_sorted.imp UInt16.le_of_lt) (gs.desc.ids_sorted.imp UInt16.le_of_lt)
    rw [hr.desc.ids_eq]
    refine (hp.map _).trans ?_
    rw [gs.ids_eq]
    exact (List.mergeSort_perm _ _).symm
  rw [← gs.ids_eq, ← hids]
  exact hr.desc.used

/-! ## The calls -/

/-- A full archetype with exactly these component types: the limit at which storage cannot grow (`C37`). -/
def FullSet (cs : List Content) (P : CompTy → Prop) : Prop :=
  ∃ (ai : Nat) (ct : Content), cs[ai]? = some ct ∧ (∀ c, c ∈ ct.cts ↔ P c) ∧ ct.ents.length = 8388608

theorem RInv.create_step (h : RInv W r cs) {g : Group} {vals : List Val}
    (hadm : (Call.create g vals).Admissible W r) :
    (∃ r' out cs', (Call.create g vals).run env r = .ok (r', out) ∧ StepInv W r cs (.create g vals) out r' cs' ∧
      (out.success = true → (g.descriptor env).isValid = true ∧ r.entities.entities.length < MAX_ENTITY_HANDLE_VALUE ∧
        Room r.archetypes g.length (groupId env g.idSet)) ∧
      (out.success = false → (g.descriptor env).isValid = true →
        (r' = r ∧ ¬ Room r.archetypes g.length (groupId env g.idSet)) ∨
        (r.entities.entities.length = MAX_ENTITY_HANDLE_VALUE ∧ Room r.archetypes g.length (groupId env g.idSet)))) ∨
    (∃ f, (Call.create g vals).run env r = .error f ∧ f = (if env.debug then .panic .debugAssert else .ub .nullDeref) ∧
      (g.descriptor env).isValid = true ∧ r.entities.entities.length < MAX_ENTITY_HANDLE_VALUE ∧
      Room r.archetypes g.length (groupId env g.idSet) ∧ FullSet cs (fun c => c ∈ g)) := by
  obtain ⟨ht, hg⟩ := hadm
  simp only [Call.run]
  cases hv : (g.descriptor env).isValid with
  | false =>
    left
    rw [createEntity_invalid hv]
    refine ⟨_, _, cs, rfl, ⟨h, Or.inr ⟨rfl, rfl, rfl⟩, Updated.refl _, ArchStep.refl _, Places.refl rfl rfl, fun _ => ?_⟩, (fun hf => by cases hf),
      fun _ hf => by cases hf⟩
    simp
  | true =>
    have hok := hg (Group.spec hv).wf.nodup
    rcases h.createEntity_spec hok hv ht with ⟨r', cs', e, h1, h2, h3⟩ | ⟨r', cs', h1, h2, h3, h4, h45, h5, _⟩ | ⟨h1, h2, h3, _, _, h41, h42, h43, _⟩
    · left
      rw [h1]
      refine ⟨_, _, cs', rfl, ⟨h2.inv, Or.inl ⟨rfl, e, rfl, h2.dead, look_set_ext h2.look⟩, h2.table, h2.step, Places.created h2 rfl, fun _ => ?_⟩,
        (fun _ => ⟨rfl, h3⟩), fun hf => by cases hf⟩
      simpa using h2.stored
    · left
      rw [h1]
      refine ⟨_, _, cs', rfl, ⟨h2, Or.inr ⟨rfl, rfl, ?_⟩, ?_, h4.step, ?_, fun _ => ?_⟩, (fun hf => by cases hf), fun _ _ => h5⟩
      · unfold Registry.look
        rw [h3]; exact h4.look_eq h.placed
      · show Updated env _ _
        rw [h3]; exact Updated.refl _
      · refine ⟨fun x _ _ _ => by unfold Registry.archOf; rw [h3], fun e he => (by cases he), fun _ _ e _ he => (by cases he),
          fun e h1 _ => h1.elim, fun _ _ _ => ?_, fun _ _ hx hh => by cases hx; rw [h45 hh]⟩
        rcases h4 with ⟨h4, _⟩ | ⟨b, cts, hb, _⟩
        · rw [h4]; omega
        · rw [hb]; simp
      · simp [h4.stored_eq]
    · right
      rw [h1]
      refine ⟨if env.debug then .panic .debugAssert else .ub .nullDeref, ?_, rfl, rfl, h2, h3, _, _, h41, h42, h43⟩
      cases env.debug <;> rfl

theorem RInv.destroy_step (h : RInv W r cs) (e : Entity) :
    ∃ r' out cs', (Call.destroy e).run env r = .ok (r', out) ∧ StepInv W r cs (.destroy e) out r' cs' := by
  simp only [Call.run]
  cases hx : r.entities.entityEntry env e with
  | none =>
    rw [destroyEntity_dead hx]
    refine ⟨_, _, cs, rfl, h, ?_, Updated.refl _, ArchStep.refl _, Places.refl rfl rfl, fun _ => by simp⟩
    simp only [AMap.Step]
    rw [h.look_none.mpr hx]
    simp
  | some en =>
    obtain ⟨r', cs', vs, h1, h2⟩ := h.destroyEntity_spec hx
    rw [h1]
    refine ⟨_, _, cs', rfl, h2.inv, ?_, ⟨⟨en, hx⟩, h2.table⟩, h2.step, Places.removed h2 rfl rfl (fun _ h => h), fun _ => by simpa using h2.stored⟩
    simp only [AMap.Step]
    obtain ⟨a, ct, ha, hct, hr, hk, _, hlook⟩ := h.entry hx
    rw [hlook]
    simpa using look_set_ext h2.look

theorem RInv.removeEntity_step (h : RInv W r cs) {g : Group} {e : Entity} {r' : Registry} {out : Outcome}
    (hrun : (Call.removeEntity g e).run env r = .ok (r', out)) :
    ∃ cs', StepInv W r cs (.removeEntity g e) out r' cs' := by
  simp only [Call.run] at hrun
  cases hx : r.entities.entityEntry env e with
  | none =>
    rw [removeEntity_dead hx] at hrun
    cases hrun
    refine ⟨cs, h, ?_, Updated.refl _, ArchStep.refl _, Places.refl rfl rfl, fun _ => by simp⟩
    simp only [AMap.Step]
    rw [h.look_none.mpr hx]
    simp
  | some en =>
    obtain ⟨a, ct, ha, hct, hr, hk, _, hlook⟩ := h.entry hx
    by_cases hm : (g.descriptor env).isValid = true ∧ ∀ c, (ct.get c en.indexInArchetype.value.toNat).isSome ↔ c ∈ g
    · obtain ⟨hv, hm⟩ := hm
      have hok : W.OkGroup g := hr.okGroup hv (fun c => by
        rw [← hm c]
        constructor
        · intro hcc
          obtain ⟨v, hv, _⟩ := hr.get_some hcc (List.getElem?_eq_some_iff.mp hk).1
          simp [hv]
        · intro hs
          obtain ⟨v, hv⟩ := Option.isSome_iff_exists.mp hs
          exact (hr.mem_of_get hv).1)
      obtain ⟨r2, cs2, vs2, q1, q2, q3⟩ := h.removeEntity_spec hlook hok hv hm
      rw [q1] at hrun
      cases hrun
      refine ⟨cs2, q2.inv, ?_, ⟨⟨en, hx⟩, q2.table⟩, q2.step, Places.removed q2 rfl rfl (fun _ h => h), fun _ => ?_⟩
      · simp only [AMap.Step]
        rw [hlook]
        refine ⟨by simp, look_set_ext q2.look, fun _ _ => ?_⟩
        rw [List.map_map]
        apply List.map_congr_left
        intro c hc
        obtain ⟨v, hv⟩ := Option.isSome_iff_exists.mp ((hm c).mpr hc)
        simp [hv]
      · simp only [List.append_nil]
        exact (List.Perm.append_left _ q3.symm).trans q2.stored
    · cases hy : r.removeEntity env g e with
      | error f => rw [hy] at hrun; cases hrun
      | ok x =>
        obtain ⟨r1, o⟩ := x
        obtain ⟨cs', vs, h1, h2, l, rfl⟩ := h.removeEntity_any hx hy
        rw [hy] at hrun
        cases hrun
        refine ⟨cs', h2.inv, ?_, ⟨⟨en, hx⟩, h2.table⟩, h2.step, Places.removed h2 rfl rfl (fun _ h => h), fun hmt => ?_⟩
        · simp only [AMap.Step]
          rw [hlook]
          exact ⟨by simp, look_set_ext h2.look, fun hv hmm => absurd ⟨hv, hmm⟩ hm⟩
        · obtain ⟨hg, hv, hex⟩ := hmt (h.live_iff.mpr ⟨_, hlook⟩)
          exact absurd ⟨hv, (h.hasExactly_iff hlook hg).mp hex⟩ hm

theorem RInv.removeEntity_safe (h : RInv W r cs) {g : Group} {e : Entity} (hm : (Call.removeEntity g e).Matched W r) :
    ∃ r' out, (Call.removeEntity g e).run env r = .ok (r', out) := by
  simp only [Call.run]
  cases hx : r.entities.entityEntry env e with
  | none => rw [removeEntity_dead hx]; exact ⟨_, _, rfl⟩
  | some en =>
    obtain ⟨a, ct, ha, hct, hr, hk, _, hlook⟩ := h.entry hx
    obtain ⟨hg, hv, hex⟩ := hm (h.live_iff.mpr ⟨_, hlook⟩)
    have hm := (h.hasExactly_iff hlook hg).mp hex
    have hok : W.OkGroup g := hr.okGroup hv (fun c => by
        rw [← hm c]
        constructor
        · intro hcc
          obtain ⟨v, hv, _⟩ := hr.get_some hcc (List.getElem?_eq_some_iff.mp hk).1
          simp [hv]
        · intro hs
          obtain ⟨v, hv⟩ := Option.isSome_iff_exists.mp hs
          exact (hr.mem_of_get hv).1)
    obtain ⟨r2, cs2, vs2, q1, q2, q3⟩ := h.removeEntity_spec hlook hok hv hm
    rw [q1]
    exact ⟨_, _, rfl⟩

/-- Two different elements of a list with at least two pairwise different elements. -/
theorem exists_ne_of_two {α : Type} {l : List α} (hn : l.Nodup) (h2 : 2 ≤ l.length) (c : α) : ∃ c' ∈ l, c' ≠ c := by
  match l, hn, h2 with
  | x :: y :: rest, hn, _ =>
    have hxy : x ≠ y := by
      have := (List.nodup_cons.mp hn).1
      intro hc; subst hc; exact this (by simp)
    by_cases hx : x = c
    · exact ⟨y, by simp, fun hy => hxy (hx.trans hy.symm)⟩
    · exact ⟨x, by simp, hx⟩

/-- How `add_component` on a live entity can fault (`C25`, `C37`). -/
def AddFault (W : World env) (r : Registry) (cs : List Content) (e : Entity) (c : CompTy) (flt : Fault) : Prop :=
  ∃ f s, r.look env cs e = some f ∧ f c = none ∧ AscSet s (HasId W r e) ∧
    ((flt = .panic .indexOutOfBounds ∧ s.length = 13) ∨
      (flt = .ub .nullDeref ∧ s.length ≤ 12 ∧
        (∃ t, AscSet t (fun i => i = c.id ∨ HasId W r e i) ∧ Room r.archetypes t.length (plainId env t)) ∧ FullSet cs (fun c' => c' = c ∨ (f c').isSome)))

/-- Why `add_component` on a live entity can fail (apart from the type being there already). -/
def AddErr (W : World env) (r : Registry) (e : Entity) (c : CompTy) : Prop :=
  ∃ s, AscSet s (HasId W r e) ∧ (s.length = 14 ∨
    s.length ≤ 12 ∧ ∃ t, AscSet t (fun i => i = c.id ∨ HasId W r e i) ∧ ¬ Room r.archetypes t.length (plainId env t))

theorem AscSet.congr {s : List UInt16} {P Q : UInt16 → Prop} (h : AscSet s P) (hpq : ∀ i, P i ↔ Q i) : AscSet s Q :=
  ⟨h.1, fun i => (h.2 i).trans (hpq i)⟩

/-- The ids of an entity, in terms of the content it is stored in. -/
theorem RInv.ids_of (h : RInv W r cs) {e : Entity} {f : CompTy → Option Val} (hf : r.look env cs e = some f) {a : Archetype}
    {ct : Content} (hr : Rep W a ct) (hm : ∀ c, (f c).isSome ↔ c ∈ ct.cts) :
    AscSet a.descriptor.ids (HasId W r e) ∧ a.descriptor.ids.length = ct.cts.length := by
  refine ⟨⟨hr.desc.wf.ids_sorted, ?_⟩, by rw [hr.desc.ids_eq]; simp⟩
  intro i
  rw [h.hasId_iff hf, hr.desc.ids_eq, List.mem_map]
  constructor
  · rintro ⟨c, h1, h2⟩; exact ⟨c, h2, (hm c).mpr h1⟩
  · rintro ⟨c, h1, h2⟩; exact ⟨c, (hm c).mp h2, h1⟩

theorem RInv.add_step (h : RInv W r cs) {e : Entity} {c : CompTy} {v : Val} (hadm : (Call.add e c v).Admissible W r) :
    (∃ r' out cs', (Call.add e c v).run env r = .ok (r', out) ∧ StepInv W r cs (.add e c v) out r' cs' ∧
      (out.success = false → r' = r ∧ ∀ f, r.look env cs e = some f → (f c).isSome ∨ AddErr W r e c) ∧
      (out.success = true → ∃ s t, AscSet s (HasId W r e) ∧ s.length ≤ 12 ∧
        AscSet t (fun i => i = c.id ∨ HasId W r e i) ∧ Room r.archetypes t.length (plainId env t))) ∨
    (∃ flt, (Call.add e c v).run env r = .error flt ∧ AddFault W r cs e c flt) := by
  obtain ⟨hW, hv, hu⟩ := hadm
  simp only [Call.run]
  cases hx : r.look env cs e with
  | none =>
    left
    rw [addComponent_dead (h.look_none.mp hx)]
    refine ⟨_, _, cs, rfl, ⟨h, ?_, Updated.refl _, ArchStep.refl _, Places.refl rfl rfl, fun _ => by simp⟩, fun _ => ⟨rfl, ?_⟩, fun hf => by cases hf⟩
    · simp only [AMap.Step]
      rw [hx]
      simp
    · intro f hf; cases hf
  | some f =>
    obtain ⟨en, a, ct, he, ha, hct, hr, hfe, hm⟩ := h.stored_at hx
    obtain ⟨hids, hidl⟩ := h.ids_of hx hr hm
    have hadd : ∀ i, AddedIds ct.cts c i ↔ (i = c.id ∨ HasId W r e i) := by
      intro i
      unfold AddedIds
      rw [h.hasId_iff hx]
      constructor
      · rintro (hi | ⟨c', h1, h2⟩)
        · exact Or.inl hi
        · exact Or.inr ⟨c', h2, (hm c').mpr h1⟩
      · rintro (hi | ⟨c', h1, h2⟩)
        · exact Or.inl hi
        · exact Or.inr ⟨c', (hm c').mp h2, h1⟩
    have hnone : c ∉ ct.cts → f c = none := by
      intro hc
      cases hfc : f c with
      | none => rfl
      | some v => exact absurd ((hm c).mp (by simp [hfc])) hc
    rcases h.addComponent_spec he hct hW hv (fun _ _ s hs =>
      hu (h.live_iff.mpr ⟨f, hx⟩) s (hs.congr hadd)) with ⟨h1, h2, _⟩ | ⟨h1, h2, h3, _⟩ | ⟨h1, h2, h3, ⟨t, ht1, ht2⟩, h4⟩ | ⟨h1, h2, ⟨t, ht1, ht2⟩, r', cs', h3, h4, h5, _⟩
    · left
      rw [h1]
      refine ⟨_, _, cs, rfl, ⟨h, ?_, Updated.refl _, ArchStep.refl _, Places.refl rfl rfl, fun _ => by simp⟩, fun _ => ⟨rfl, ?_⟩, fun hf => by cases hf⟩
      · simp only [AMap.Step]
        rw [hx]
        simp
      · intro f' hf'
        cases hf'
        rcases h2 with h2 | h2 | ⟨hl, s, h2, h3⟩
        · left; exact (hm c).mpr h2
        · right; exact ⟨_, hids, Or.inl (by omega)⟩
        · right; exact ⟨_, hids, Or.inr ⟨by omega, s, h2.congr hadd, h3⟩⟩
    · right
      rw [h1]
      exact ⟨_, rfl, f, _, hx, hnone h2, hids, Or.inl ⟨rfl, by omega⟩⟩
    · right
      rw [h1]
      obtain ⟨di, ctD, q1, q2, q3, _⟩ := h4
      exact ⟨_, rfl, f, _, hx, hnone h2, hids, Or.inr ⟨rfl, by omega, ⟨t, ht1.congr hadd, ht2⟩, di, ctD, q1, fun c' => by rw [q2]; simp only [hm], q3⟩⟩
    · left
      rw [h3]
      refine ⟨_, _, cs', rfl, ⟨h4.inv, ?_, h4.table, h4.step, Places.moved' h4 rfl rfl (fun _ => Iff.rfl), fun _ => by simpa using h5⟩, (fun hf => by cases hf),
        fun _ => ⟨_, t, hids, by omega, ht1.congr hadd, ht2⟩⟩
      simp only [AMap.Step]
      rw [hx]
      refine Or.inl ⟨by simp, hnone h1, ?_⟩
      rw [hfe]
      exact look_set_ext h4.look

/-- How `remove_component` on a live entity can fault (`C26`, `C37`). -/
def RemoveFault (W : World env) (r : Registry) (cs : List Content) (e : Entity) (c : CompTy) (flt : Fault) : Prop :=
  ∃ f s, r.look env cs e = some f ∧ (f c).isSome ∧ AscSet s (HasId W r e) ∧
    ((flt = .panic .indexOutOfBounds ∧ s.length = 14) ∨
      (flt = .ub .nullDeref ∧ s.length ≤ 13 ∧
        (∃ t, AscSet t (fun i => i ≠ c.id ∧ HasId W r e i) ∧ Room r.archetypes t.length (plainId env t)) ∧ FullSet cs (fun c' => c' ≠ c ∧ (f c').isSome)))

/-- Why `remove_component` on a live entity can fail (apart from the type not being there). -/
def RemoveErr (W : World env) (r : Registry) (e : Entity) (c : CompTy) : Prop :=
  ∃ s, AscSet s (HasId W r e) ∧ (s.length = 1 ∨
    2 ≤ s.length ∧ s.length ≤ 13 ∧ ∃ t, AscSet t (fun i => i ≠ c.id ∧ HasId W r e i) ∧ ¬ Room r.archetypes t.length (plainId env t))

theorem RInv.remove_step (h : RInv W r cs) {e : Entity} {c : CompTy} (hadm : (Call.remove e c).Admissible W r) :
    (∃ r' out cs', (Call.remove e c).run env r = .ok (r', out) ∧ StepInv W r cs (.remove e c) out r' cs' ∧
      (out.success = false → r' = r ∧ ∀ f, r.look env cs e = some f → f c = none ∨ RemoveErr W r e c) ∧
      (out.success = true → ∃ s t, AscSet s (HasId W r e) ∧ 2 ≤ s.length ∧ s.length ≤ 13 ∧
        AscSet t (fun i => i ≠ c.id ∧ HasId W r e i) ∧ Room r.archetypes t.length (plainId env t))) ∨
    (∃ flt, (Call.remove e c).run env r = .error flt ∧ RemoveFault W r cs e c flt) := by
  obtain ⟨hW, hu⟩ := hadm
  simp only [Call.run]
  cases hx : r.look env cs e with
  | none =>
    left
    rw [removeComponent_dead (h.look_none.mp hx)]
    refine ⟨_, _, cs, rfl, ⟨h, ?_, Updated.refl _, ArchStep.refl _, Places.refl rfl rfl, fun _ => by simp⟩, fun _ => ⟨rfl, ?_⟩, fun hf => by cases hf⟩
    · simp only [AMap.Step]
      rw [hx]
      simp
    · intro f hf; cases hf
  | some f =>
    obtain ⟨en, a, ct, he, ha, hct, hr, hfe, hm⟩ := h.stored_at hx
    obtain ⟨hids, hidl⟩ := h.ids_of hx hr hm
    have hrem : ∀ i, RemovedIds ct.cts c i ↔ (i ≠ c.id ∧ HasId W r e i) := by
      intro i
      unfold RemovedIds
      rw [h.hasId_iff hx]
      constructor
      · rintro ⟨c', h1, h2, rfl⟩
        refine ⟨fun hid => h2 (W.id_inj (hr.desc.has _ h1) hW hid), c', rfl, (hm c').mpr h1⟩
      · rintro ⟨h1, c', rfl, h2⟩
        exact ⟨c', (hm c').mp h2, fun hc => h1 (congrArg _ hc), rfl⟩
    have hnone : c ∉ ct.cts → f c = none := by
      intro hc
      cases hfc : f c with
      | none => rfl
      | some v => exact absurd ((hm c).mp (by simp [hfc])) hc
    rcases h.removeComponent_spec he hct hW (fun _ h2 _ s hs => by
      refine hu (h.live_iff.mpr ⟨f, hx⟩) s ?_ (hs.congr hrem)
      intro hnil
      obtain ⟨c', m1, m2⟩ := exists_ne_of_two hr.nodup h2 c
      have := (hs.2 c'.id).mpr ⟨c', m1, m2, rfl⟩
      rw [hnil] at this
      cases this) with ⟨h1, h2, _⟩ | ⟨h1, h2, h3, _⟩ | ⟨h1, h2, h3, h33, ⟨t, ht1, ht2⟩, h4⟩ | ⟨h1, h2, h22, ⟨t, ht1, ht2⟩, r', cs', v, h3, h4, h5, h6, _⟩
    · left
      rw [h1]
      refine ⟨_, _, cs, rfl, ⟨h, ?_, Updated.refl _, ArchStep.refl _, Places.refl rfl rfl, fun _ => by simp⟩, fun _ => ⟨rfl, ?_⟩, fun hf => by cases hf⟩
      · simp only [AMap.Step]
        rw [hx]
        simp
      · intro f' hf'
        cases hf'
        rcases h2 with h2 | h2 | ⟨hl, hl', s, h2, h3⟩
        · left; exact hnone h2
        · right; exact ⟨_, hids, Or.inl (by omega)⟩
        · right; exact ⟨_, hids, Or.inr ⟨by omega, by omega, s, h2.congr hrem, h3⟩⟩
    · right
      rw [h1]
      exact ⟨_, rfl, f, _, hx, (hm c).mpr h2, hids, Or.inl ⟨rfl, by omega⟩⟩
    · right
      rw [h1]
      obtain ⟨di, ctD, q1, q2, q3, _⟩ := h4
      exact ⟨_, rfl, f, _, hx, (hm c).mpr h2, hids, Or.inr ⟨rfl, by omega, ⟨t, ht1.congr hrem, ht2⟩, di, ctD, q1, fun c' => by rw [q2]; simp only [hm], q3⟩⟩
    · left
      rw [h4]
      refine ⟨_, _, cs', rfl, ⟨h5.inv, ?_, h5.table, h5.step, Places.moved' h5 rfl rfl (fun _ => Iff.rfl), fun _ => by simpa using h6⟩, (fun hf => by cases hf),
        fun _ => ⟨_, t, hids, by omega, by omega, ht1.congr hrem, ht2⟩⟩
      simp only [AMap.Step]
      rw [hx]
      obtain ⟨c', m1, m2⟩ := exists_ne_of_two hr.nodup h2 c
      refine Or.inl ⟨by simp, v, ?_, ⟨c', m2, (hm c').mpr m1⟩, rfl, ?_⟩
      · rw [hfe]; exact h3
      · rw [hfe]
        exact look_set_ext h5.look

theorem RInv.write_step (h : RInv W r cs) {e : Entity} {c : CompTy} {v : Val} (hadm : (Call.write e c v).Admissible W r) :
    ∃ r' out cs', (Call.write e c v).run env r = .ok (r', out) ∧ StepInv W r cs (.write e c v) out r' cs' := by
  obtain ⟨hW, hv⟩ := hadm
  simp only [Call.run]
  rcases h.replaceComponent_spec hW e hv with ⟨h1, h2⟩ | ⟨r', cs', f, old, h1, h2, h3, h4, h5, h6, h7, h8, _⟩
  · rw [h2]
    refine ⟨_, _, cs, rfl, h, Or.inr ⟨rfl, rfl, ?_, rfl⟩, Updated.refl _, ArchStep.refl _, Places.refl rfl rfl, fun _ => by simp⟩
    cases hx : r.look env cs e with
    | none => rfl
    | some f => exact h1 f hx
  · rw [h1]
    refine ⟨_, _, cs', rfl, h2, Or.inl ⟨rfl, old, rfl, f, h3, h4, look_set_ext h5⟩, ?_, h8, Places.same h7 (fun _ _ h => by cases h) rfl (fun _ _ h => h), fun _ => by simpa using h6⟩
    show Updated env _ _
    rw [h7]; exact Updated.refl _

/-- `mem::replace` through a reference handed out by the registry. -/
theorem RInv.replaceAt_spec (h : RInv W r cs) {e : Entity} {c : CompTy} {ai : Nat} {p : Ref} (hp : RefTo env r cs e c ai p)
    {v : Val} (hv : v.HasTy c) :
    ∃ r' cs' old, r.replaceAt ai c p v = .ok (r', old) ∧ RInv W r' cs' ∧
      AMap.Replaced (r.look env cs) e c v old (r'.look env cs') ∧ (stored cs' ++ [old]).Perm (stored cs ++ [v]) ∧
      r'.entities = r.entities ∧ ArchStep r.archetypes r'.archetypes ∧ SameShape r cs r' cs' ∧
      RowStored env r cs e c v old r' cs' := by
  obtain ⟨r', cs', f, old, a, s1, s2, s3, s4, s5, s6, s7, s8, s9, s10, s11, s12, s13⟩ := h.store hp hv
  refine ⟨r', cs', old, ?_, s2, ⟨f, s3, s4, look_set_ext s7⟩, s8, s9, s11, s12, s13⟩
  unfold Registry.replaceAt
  rw [s5]
  simp only [ok_bind]
  rw [s6]
  simp only [ok_bind]
  rw [s1]
  rfl

theorem StepInv.unchanged (h : RInv W r cs) {call : Call} {out : Outcome} (ha : AMap.Step env (r.look env cs) call out (r.look env cs))
    (hc : out.created = none) (hv : out.vacated = none) (hl : (out.returned ++ out.dropped).Perm out.given)
    (hs : out.success = false := by rfl) : StepInv W r cs call out r cs := by
  refine ⟨h, ha, ?_, ArchStep.refl _, Places.refl hc hs, fun _ => ?_⟩
  · unfold TableStep
    rw [hc, hv]
    exact Updated.refl _
  · rw [List.append_assoc]
    exact hl.append_left _

theorem RInv.writeIn_step (h : RInv W r cs) {g : Group} {e : Entity} {j : Nat} {v : Val}
    (hadm : (Call.writeIn g e j v).Admissible W r) :
    ∃ r' out cs', (Call.writeIn g e j v).run env r = .ok (r', out) ∧ StepInv W r cs (.writeIn g e j v) out r' cs' := by
  obtain ⟨hg, hval, hv⟩ := hadm
  simp only [Call.run]
  rcases h.getComponentsMut_eq hg hval e with ⟨h1, h2⟩ | ⟨f, ai, ref, h1, h2, h3, h4⟩
  · rw [h2]
    refine ⟨_, _, cs, rfl, StepInv.unchanged h (Or.inr ⟨rfl, rfl, ?_, rfl⟩) rfl rfl (by simp)⟩
    rintro ⟨f, hf, hall⟩
    have := h1 f hf
    rw [show hasAll f g = true from List.all_eq_true.mpr hall] at this
    cases this
  · rw [h3]
    simp only [ok_bind, List.getElem?_map]
    cases hj : g[j]? with
    | none => exact ⟨_, _, cs, rfl, StepInv.unchanged h (Or.inr ⟨rfl, rfl, fun _ => hj, rfl⟩) rfl rfl (by simp)⟩
    | some c =>
      simp only [Option.map_some]
      obtain ⟨r', cs', old, s1, s2, s3, s4, s5, s6, _⟩ := h.replaceAt_spec (h4 c (List.mem_of_getElem? hj)) (hv c hj)
      rw [s1]
      refine ⟨_, _, cs', rfl, s2, Or.inl ⟨rfl, ⟨f, h1, List.all_eq_true.mp h2⟩, c, old, hj, rfl, s3⟩, ?_, s6, Places.same s5 (fun _ _ h => by cases h) rfl (fun _ _ h => h), fun _ => by simpa using s4⟩
      show Updated env _ _
      rw [s5]; exact Updated.refl _

theorem RInv.writeIter_step (h : RInv W r cs) {it : MutIter} {g : Group} {n j k : Nat} {v : Val}
    (hadm : (Call.writeIter it g n j k v).Admissible W r) :
    ∃ r' out cs', (Call.writeIter it g n j k v).run env r = .ok (r', out) ∧
      StepInv W r cs (.writeIter it g n j k v) out r' cs' := by
  obtain ⟨hg, hval, hv, hx⟩ := hadm
  simp only [Call.run]
  obtain ⟨items, h1, _, h2⟩ := h.items_spec hg hval it hx
  rw [h1]
  simp only [ok_bind]
  cases hn : items[n]? with
  | none => exact ⟨_, _, cs, rfl, StepInv.unchanged h (Or.inr ⟨rfl, rfl, rfl⟩) rfl rfl (by simp)⟩
  | some x =>
    obtain ⟨ai, ss⟩ := x
    obtain ⟨ct, h3, h4, h5⟩ := h2 _ (List.mem_of_getElem? hn)
    simp only [] at h3 h5 ⊢
    cases hj : ss[j]? with
    | none => exact ⟨_, _, cs, rfl, StepInv.unchanged h (Or.inr ⟨rfl, rfl, rfl⟩) rfl rfl (by simp)⟩
    | some s =>
      simp only []
      by_cases hk : k < s.len
      · rw [if_pos hk]
        rw [h5] at hj
        obtain ⟨c, e, q1, q2, q3, q4⟩ := h.slice_ref h3 h4 hj hk
        rw [q2]
        obtain ⟨r', cs', old, s1, s2, s3, s4, s5, s6, _⟩ := h.replaceAt_spec q4 (hv c q1)
        rw [s1]
        refine ⟨_, _, cs', rfl, s2, Or.inl ⟨rfl, e, c, old, q1, rfl, ⟨_, h.row_look h3 q3, fun c' hc' => ?_⟩, s3⟩, ?_, s6, Places.same s5 (fun _ _ h => by cases h) rfl (fun _ _ h => h), fun _ => by simpa using s4⟩
        · obtain ⟨a, ha, hr⟩ := h.arch.arch h3
          obtain ⟨v', hv', _⟩ := hr.get_some (h4 c' hc') (List.getElem?_eq_some_iff.mp q3).1
          simp [hv']
        · show Updated env _ _
          rw [s5]; exact Updated.refl _
      · rw [if_neg hk]
        exact ⟨_, _, cs, rfl, StepInv.unchanged h (Or.inr ⟨rfl, rfl, rfl⟩) rfl rfl (by simp)⟩

/-! ## Every call -/

theorem RInv.step (h : RInv W r cs) {call : Call} (hadm : call.Admissible W r) {r' : Registry} {out : Outcome}
    (hrun : call.run env r = .ok (r', out)) : ∃ cs', StepInv W r cs call out r' cs' := by
  cases call with
  | create g vals =>
    rcases h.create_step hadm with ⟨r1, o1, cs', h1, h2, _⟩ | ⟨f, h1, _⟩
    · rw [hrun] at h1; cases h1; exact ⟨cs', h2⟩
    · rw [hrun] at h1; cases h1
  | destroy e =>
    obtain ⟨r1, o1, cs', h1, h2⟩ := h.destroy_step e
    rw [hrun] at h1; cases h1; exact ⟨cs', h2⟩
  | removeEntity g e => exact h.removeEntity_step hrun
  | add e c v =>
    rcases h.add_step hadm with ⟨r1, o1, cs', h1, h2, _⟩ | ⟨f, h1, _⟩
    · rw [hrun] at h1; cases h1; exact ⟨cs', h2⟩
    · rw [hrun] at h1; cases h1
  | remove e c =>
    rcases h.remove_step hadm with ⟨r1, o1, cs', h1, h2, _⟩ | ⟨f, h1, _⟩
    · rw [hrun] at h1; cases h1; exact ⟨cs', h2⟩
    · rw [hrun] at h1; cases h1
  | write e c v =>
    obtain ⟨r1, o1, cs', h1, h2⟩ := h.write_step hadm
    rw [hrun] at h1; cases h1; exact ⟨cs', h2⟩
  | writeIn g e j v =>
    obtain ⟨r1, o1, cs', h1, h2⟩ := h.writeIn_step hadm
    rw [hrun] at h1; cases h1; exact ⟨cs', h2⟩
  | writeIter it g n j k v =>
    obtain ⟨r1, o1, cs', h1, h2⟩ := h.writeIter_step hadm
    rw [hrun] at h1; cases h1; exact ⟨cs', h2⟩

/-- What a call drops. -/
theorem RInv.drops (h : RInv W r cs) {call : Call} {r' : Registry} {out : Outcome}
    (hrun : call.run env r = .ok (r', out)) : AMap.Drops (r.look env cs) call out := by
  have key : ∀ {α : Type} {x : M α} {f : α → M (Registry × Outcome)}, (x >>= f) = .ok (r', out) →
      (∀ y, f y = .ok (r', out) → out.dropped = []) → out.dropped = [] := by
    intro α x f hx hf
    cases x with
    | error e => cases hx
    | ok y => exact hf y hx
  cases call with
  | destroy e =>
    simp only [AMap.Drops, Call.run] at hrun ⊢
    cases hx : r.entities.entityEntry env e with
    | none =>
      rw [destroyEntity_dead hx] at hrun
      rw [h.look_none.mpr hx]
      cases hrun
      rfl
    | some en =>
      obtain ⟨r1, cs1, vs, h1, h2⟩ := h.destroyEntity_spec hx
      obtain ⟨a, ct, ha, hct, hr, hk, _, hlook⟩ := h.entry hx
      rw [h1] at hrun
      rw [hlook]
      cases hrun
      exact h2.row _ hlook
  | create g vals =>
    refine key hrun (fun y hy => ?_)
    split at hy <;> (cases hy; rfl)
  | removeEntity g e =>
    refine key hrun (fun y hy => ?_)
    split at hy <;> (cases hy; rfl)
  | add e c v =>
    refine key hrun (fun y hy => ?_)
    split at hy <;> (cases hy; rfl)
  | remove e c =>
    refine key hrun (fun y hy => ?_)
    split at hy <;> (cases hy; rfl)
  | write e c v =>
    refine key hrun (fun y hy => ?_)
    split at hy <;> (cases hy; rfl)
  | writeIn g e j v =>
    refine key hrun (fun y hy => ?_)
    split at hy
    · cases hy; rfl
    · split at hy
      · refine key hy (fun z hz => ?_)
        cases hz; rfl
      · cases hy; rfl
  | writeIter it g n j k v =>
    refine key hrun (fun y hy => ?_)
    split at hy
    · cases hy; rfl
    · split at hy
      · cases hy; rfl
      · split at hy
        · refine key hy (fun z hz => ?_)
          cases hz; rfl
        · cases hy; rfl

theorem Steps.inv {ok : Registry → Call → Prop} (hok : ∀ r call, ok r call → call.Admissible W r) {r0 : Registry}
    {cs0 : List Content} (h0 : RInv W r0 cs0) {hist : List (Call × Outcome)} {r : Registry} (hs : Steps env ok r0 hist r) :
    ∃ cs, RInv W r cs := by
  induction hs with
  | nil => exact ⟨cs0, h0⟩
  | snoc _ h2 h3 ih =>
    obtain ⟨cs, hcs⟩ := ih
    obtain ⟨cs', h4⟩ := hcs.step (hok _ _ h2) h3
    exact ⟨cs', h4.inv⟩

theorem Reachable.inv (h : Reachable W r) : ∃ cs, RInv W r cs := by
  obtain ⟨hist, hs⟩ := h
  exact hs.inv (fun _ _ h => h) (RInv.empty W)

end Shard
