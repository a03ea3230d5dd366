import Verif.Proofs.Collision
import Verif.Spec.Collision
import Verif.Props.RowOrder
import Verif.Props.Storage
/-!
# C99: what a collision of component sets does
-/

set_option autoImplicit false

namespace Shard

open RowOrder (placeOf)

variable {env : Env} {W : World env} {r r' : Registry}

/-- C99 as intended: a creation whose component set collides with that of an archetype succeeds, if there is room, and every
other entity keeps its components. (That the new entity has the wrong components is `C29_violated`.) -/
def C99_statement : Prop :=
  ∀ (env : Env) (W : World env) (r : Registry) (g : Group) (vals : List Val) (k : Nat) (a : Archetype),
    Reachable W r → (∀ c ∈ g, W.Has c) → (g.descriptor env).isValid = true → TypedVals g vals →
    r.archetypes.archetypes[k]? = some a → a.descriptor.len = g.length →
    a.descriptor.archetypeId = (g.descriptor env).archetype.archetypeId → a.entityCount < 8388608 →
    r.entities.entities.length < MAX_ENTITY_HANDLE_VALUE →
    ∃ r' e, r.createEntity env g vals = .ok (r', .ok e) ∧
      ∀ x c, x ≠ e → W.Has c → r'.getComponent env c x = r.getComponent env c x

theorem colsFit_iff {d : ArchetypeDescriptor} {cts : List CompTy} {g : Group} (hd : d.components = cts.map CompTy.descriptor)
    (hW : ∀ c ∈ cts, W.Has c) (gs : GroupSpec env g) (hg : ∀ c ∈ g, W.Has c) {n cap : Nat} :
    RowFits d (g.descriptor env).archetype n cap ↔ ColsFit cts (g.cts env) n cap := by
  obtain ⟨_, hWg, _⟩ := Group.cts_perm gs hg
  unfold RowFits ColsFit
  rw [hd, Group.cts_comps gs]
  simp only [List.getElem?_map]
  constructor
  · intro h i c cg hc hcg
    have := h i c.descriptor cg.descriptor (by rw [hc]; rfl) (by rw [hcg]; rfl)
    rw [W.desc_size (hW c (List.mem_of_getElem? hc)), W.desc_size (hWg cg (List.mem_of_getElem? hcg)), Nat.mul_succ] at this
    exact this
  · intro h i da dg hda hdg
    obtain ⟨c, hc, rfl⟩ := Option.map_eq_some_iff.mp hda
    obtain ⟨cg, hcg, rfl⟩ := Option.map_eq_some_iff.mp hdg
    rw [W.desc_size (hW c (List.mem_of_getElem? hc)), W.desc_size (hWg cg (List.mem_of_getElem? hcg)), Nat.mul_succ]
    exact h i c cg hc hcg

/-- **C99** (partial: exactly when it goes wrong) A creation whose component set has the number of components and the
archetype id of the archetype `a`, be it by a collision or not: it writes outside of the columns of `a` exactly if the new
row, laid out for the created types, ends behind the memory for the types of `a` in some column. Otherwise it succeeds. -/
theorem C99_create_partial (hr : Reachable W r) {g : Group} {vals : List Val} (hg : ∀ c ∈ g, W.Has c)
    (hv : (g.descriptor env).isValid = true) (ht : TypedVals g vals) {k : Nat} {a : Archetype}
    (ha : r.archetypes.archetypes[k]? = some a) (hlen : a.descriptor.len = g.length)
    (hid : a.descriptor.archetypeId = (g.descriptor env).archetype.archetypeId) (hlt : a.entityCount < 8388608)
    (hroom : r.entities.entities.length < MAX_ENTITY_HANDLE_VALUE) :
    (RowFits a.descriptor (g.descriptor env).archetype a.entityCount a.rowsAtPush →
      ∃ r' e, r.createEntity env g vals = .ok (r', .ok e)) ∧
    (¬ RowFits a.descriptor (g.descriptor env).archetype a.entityCount a.rowsAtPush →
      r.createEntity env g vals = .error (.ub .outOfBounds)) := by
  obtain ⟨cs, h⟩ := hr.inv
  obtain ⟨ct, hct, hrep⟩ := h.arch.content ha
  have hc := h.create_collide hg hv ht ha hrep hlen hid (by rw [← hrep.count]; exact hlt) hroom
  rw [colsFit_iff hrep.desc.comps hrep.desc.has (Group.spec hv) hg, hrep.count]
  exact ⟨fun hf => by obtain ⟨r', e, h1, _⟩ := hc.1 hf; exact ⟨r', e, h1⟩, hc.2⟩

/-- What `C99_create_partial` leaves, in terms of the proofs. -/
theorem collided_of (hr : Reachable W r) {g : Group} {vals : List Val} (hg : ∀ c ∈ g, W.Has c)
    (hv : (g.descriptor env).isValid = true) (ht : TypedVals g vals) {k : Nat} {a : Archetype}
    (ha : r.archetypes.archetypes[k]? = some a) (hlen : a.descriptor.len = g.length)
    (hid : a.descriptor.archetypeId = (g.descriptor env).archetype.archetypeId) (hlt : a.entityCount < 8388608)
    (hroom : r.entities.entities.length < MAX_ENTITY_HANDLE_VALUE) {e : Entity}
    (hcr : r.createEntity env g vals = .ok (r', .ok e)) :
    ∃ cs ct, RInv W r cs ∧ cs[k]? = some ct ∧ Rep W a ct ∧ Collided W r r' e k a ct g := by
  obtain ⟨cs, h⟩ := hr.inv
  obtain ⟨ct, hct, hrep⟩ := h.arch.content ha
  have hc := h.create_collide hg hv ht ha hrep hlen hid (by rw [← hrep.count]; exact hlt) hroom
  by_cases hf : ColsFit ct.cts (g.cts env) ct.ents.length (grownCap a)
  · obtain ⟨r2, e2, h1, h2⟩ := hc.1 hf
    rw [hcr] at h1; cases h1
    exact ⟨cs, ct, h, hct, hrep, h2⟩
  · rw [hc.2 hf] at hcr; cases hcr

theorem placeOf_eq (x : Entity) : placeOf env r x = r.entities.loc env x := by
  unfold placeOf EntityRegistry.loc
  cases r.entities.entityEntry env x <;> rfl

theorem Collided.getComponent_other {e : Entity} {k : Nat} {a : Archetype} {ct : Content} {g : Group} {cs : List Content}
    (h : RInv W r cs) (hct : cs[k]? = some ct) (ha : r.archetypes.archetypes[k]? = some a) (hrep : Rep W a ct)
    (hC : Collided W r r' e k a ct g) {c : CompTy} (hW : W.Has c) {x : Entity} (hx : x ≠ e) :
    ((∀ j, r.entities.loc env x ≠ some (k, j)) → r'.getComponent env c x = r.getComponent env c x) ∧
    (c ∉ ct.cts → r'.getComponent env c x = r.getComponent env c x) ∧
    ∀ (i j : Nat) (cg : CompTy), r.entities.loc env x = some (k, j) → ct.cts[i]? = some c → (g.cts env)[i]? = some cg →
      ((c.size * j + c.size ≤ cg.size * ct.ents.length ∨ cg.size * ct.ents.length + cg.size ≤ c.size * j ∨ cg.size = 0 ∨ c.size = 0) →
        r'.getComponent env c x = r.getComponent env c x) ∧
      (¬ (c.size * j + c.size ≤ cg.size * ct.ents.length ∨ cg.size * ct.ents.length + cg.size ≤ c.size * j ∨ cg.size = 0 ∨ c.size = 0) →
        cg.ty ≠ c.ty → ∃ f, r'.getComponent env c x = .error (.ub f)) := by
  obtain ⟨a1, a', q1, q2, q3, q4, q5, q6, q7⟩ := hC.arch
  have hk := (List.getElem?_eq_some_iff.mp ha).1
  cases he : r.entities.entityEntry env x with
  | none =>
    have he' := hC.others x hx
    rw [he] at he'
    have hsame : r'.getComponent env c x = r.getComponent env c x := by
      unfold Registry.getComponent; rw [he, he']
    refine ⟨fun _ => hsame, fun _ => hsame, ?_⟩
    intro i j cg hl
    rw [EntityRegistry.loc_eq_none.mpr he] at hl; cases hl
  | some en =>
    have he' := hC.others x hx
    rw [he] at he'
    obtain ⟨b, ctb, hb, hctb, hrb, hent, hloc, _⟩ := h.entry he
    by_cases hki : k = (en.archetypeIndex env).toNat
    · have hlock : r.entities.loc env x = some (k, en.indexInArchetype.value.toNat) := by rw [hloc, hki]
      rw [← hki, ha] at hb; cases hb
      rw [← hki, hct] at hctb; cases hctb
      have ha' : r'.archetypes.archetypes[(en.archetypeIndex env).toNat]? = some a' := by
        rw [q1, ← hki]; exact List.getElem?_set_self hk
      have hr' := getComponent_stored (c := c) he' ha'
      have hr := getComponent_stored (c := c) he (by rw [← hki]; exact ha)
      rw [q5] at hr'
      have hjl : en.indexInArchetype.value.toNat < ct.ents.length := (List.getElem?_eq_some_iff.mp hent).1
      refine ⟨fun hno => absurd hlock (hno _), ?_, ?_⟩
      · intro hnot
        have hf : a.descriptor.hasComponent c = false := by
          cases hx : a.descriptor.hasComponent c with
          | false => rfl
          | true => exact absurd ((hrep.desc.hasComponent_iff hW).mp hx) hnot
        rw [hr', hr, hf]; rfl
      · intro i j cg hl hc hcg
        rw [hlock] at hl; cases hl
        have ht : a.descriptor.hasComponent c = true := (hrep.desc.hasComponent_iff hW).mpr (List.mem_of_getElem? hc)
        obtain ⟨m1, m2⟩ := read_collided (a := a) q2 q5 q6 q7 hc hcg
          (show en.indexInArchetype.value.toNat < a1.capacity by rw [q3]; omega)
        obtain ⟨v, hv, _⟩ := hrep.get_some (List.mem_of_getElem? hc) hjl
        have g1 := hrep.getComponentUnchecked_ok hv
        have g2 := q2.getComponentUnchecked_ok hv
        rw [hr', hr, ht]
        constructor
        · intro hap
          rw [m1 hap, g1, g2]
        · intro hov hty
          obtain ⟨f, hf⟩ := m2 hov hty
          exact ⟨f, by rw [hf]; rfl⟩
    · have ha' : r'.archetypes.archetypes[(en.archetypeIndex env).toNat]? = some b := by
        rw [q1]
        show (r.archetypes.archetypes.set k a')[_]? = _
        rw [List.getElem?_set_ne hki]; exact hb
      have hsame : r'.getComponent env c x = r.getComponent env c x := by
        rw [getComponent_stored he' ha', getComponent_stored he hb]
      refine ⟨fun _ => hsame, fun _ => hsame, ?_⟩
      intro i j cg hl
      rw [hloc] at hl
      cases hl
      exact absurd rfl hki

theorem column_of {d : ArchetypeDescriptor} {cts : List CompTy} (hd : d.components = cts.map CompTy.descriptor)
    (hWc : ∀ c ∈ cts, W.Has c) {i : Nat} {c : CompTy} (hW : W.Has c) (hc : d.components[i]? = some c.descriptor) :
    cts[i]? = some c := by
  rw [hd, List.getElem?_map] at hc
  obtain ⟨c', h1, h2⟩ := Option.map_eq_some_iff.mp hc
  rw [h1, W.id_inj (hWc c' (List.mem_of_getElem? h1)) hW (congrArg ComponentDescriptor.id h2)]

/-- **C99** (partial: exactly what it does) After such a creation of the entity `e`: it is stored in the next row of `a`,
every other entity stays where it is, there is no new archetype, and every entity has the components it had. The new
entity has the components of `a`, whatever it was created with. An entity in another archetype keeps its components; in
`a`, an entity in row `j` keeps the component of column `i` if the new row, laid out for the created types, has no byte in
common with row `j` in this column. If it has one and the created type differs, reading the component is undefined
behaviour; this goes for the new entity as well. -/
theorem C99_after_partial (hr : Reachable W r) {g : Group} {vals : List Val} (hg : ∀ c ∈ g, W.Has c)
    (hv : (g.descriptor env).isValid = true) (ht : TypedVals g vals) {k : Nat} {a : Archetype}
    (ha : r.archetypes.archetypes[k]? = some a) (hlen : a.descriptor.len = g.length)
    (hid : a.descriptor.archetypeId = (g.descriptor env).archetype.archetypeId) (hlt : a.entityCount < 8388608)
    (hroom : r.entities.entities.length < MAX_ENTITY_HANDLE_VALUE) {e : Entity}
    (hcr : r.createEntity env g vals = .ok (r', .ok e)) :
    placeOf env r e = none ∧ placeOf env r' e = some (k, a.entityCount) ∧
    (∀ x, x ≠ e → placeOf env r' x = placeOf env r x) ∧
    r'.archetypes.archetypes.map (fun b => b.descriptor) = r.archetypes.archetypes.map (fun b => b.descriptor) ∧
    (∀ (x : Entity) (c : CompTy), x ≠ e → r'.hasComponent env c x = r.hasComponent env c x) ∧
    (∀ c : CompTy, r'.hasComponent env c e = .ok true ↔ c.id ∈ a.descriptor.components.map (fun d => d.id)) ∧
    (∀ (x : Entity) (c : CompTy), x ≠ e → W.Has c → (∀ j, placeOf env r x ≠ some (k, j)) → r'.getComponent env c x = r.getComponent env c x) ∧
    (∀ (x : Entity) (c : CompTy) (i j : Nat) (dg : ComponentDescriptor), x ≠ e → W.Has c → placeOf env r x = some (k, j) → a.descriptor.components[i]? = some c.descriptor →
      (g.descriptor env).archetype.components[i]? = some dg → Apart c.descriptor dg j a.entityCount →
      r'.getComponent env c x = r.getComponent env c x) ∧
    (∀ (x : Entity) (c cg : CompTy) (i j : Nat), W.Has c → W.Has cg → placeOf env r' x = some (k, j) → a.descriptor.components[i]? = some c.descriptor →
      (g.descriptor env).archetype.components[i]? = some cg.descriptor → ¬ Apart c.descriptor cg.descriptor j a.entityCount →
      cg.ty ≠ c.ty → ∃ f, r'.getComponent env c x = .error (.ub f)) := by
  obtain ⟨cs, ct, h, hct, hrep, hC⟩ := collided_of hr hg hv ht ha hlen hid hlt hroom hcr
  obtain ⟨a1, a', q1, q2, q3, q4, q5, q6, q7⟩ := hC.arch
  have hk := (List.getElem?_eq_some_iff.mp ha).1
  have gs := Group.spec hv
  obtain ⟨_, hWg, _⟩ := Group.cts_perm gs hg
  have hap : ∀ {c cg : CompTy} {j n : Nat}, W.Has c → W.Has cg → (Apart c.descriptor cg.descriptor j n ↔
      (c.size * j + c.size ≤ cg.size * n ∨ cg.size * n + cg.size ≤ c.size * j ∨ cg.size = 0 ∨ c.size = 0)) := by
    intro c cg j n h1 h2
    unfold Apart
    rw [W.desc_size h1, W.desc_size h2, Nat.mul_succ, Nat.mul_succ]
  have hplace : ∀ x, x ≠ e → placeOf env r' x = placeOf env r x := fun x hx => by
    unfold placeOf; rw [hC.others x hx]
  have hdesc : r'.archetypes.archetypes.map (fun b => b.descriptor) = r.archetypes.archetypes.map (fun b => b.descriptor) := by
    rw [q1]
    show (r.archetypes.archetypes.set k a').map _ = _
    rw [List.map_set, q5]
    apply List.ext_getElem?
    intro i
    by_cases hik : k = i
    · subst hik
      rw [List.getElem?_set_self (by simpa using hk), List.getElem?_map, ha]; rfl
    · rw [List.getElem?_set_ne hik]
  have hen : ∃ en, r'.entities.entityEntry env e = some en ∧ (en.archetypeIndex env).toNat = k ∧
      en.indexInArchetype.value.toNat = ct.ents.length := EntityRegistry.entry_of_loc hC.loc
  obtain ⟨en, e1, e2, e3⟩ := hen
  have ha' : r'.archetypes.archetypes[(en.archetypeIndex env).toNat]? = some a' := by
    rw [q1, e2]; exact List.getElem?_set_self hk
  refine ⟨?_, ?_, hplace, hdesc, ?_, ?_, ?_, ?_, ?_⟩
  · unfold placeOf; rw [hC.dead]
  · rw [placeOf_eq, hC.loc, hrep.count]
  · intro x c hx
    have he' := hC.others x hx
    cases he : r.entities.entityEntry env x with
    | none =>
      rw [he] at he'
      unfold Registry.hasComponent; rw [he, he']
    | some en' =>
      rw [he] at he'
      obtain ⟨b, ctb, hb, _⟩ := h.entry he
      obtain ⟨b', hb'⟩ : ∃ b', r'.archetypes.archetypes[(en'.archetypeIndex env).toNat]? = some b' ∧
          b'.descriptor = b.descriptor := by
        have := congrArg (fun l => l[(en'.archetypeIndex env).toNat]?) hdesc
        simp only [List.getElem?_map, hb, Option.map_some] at this
        exact Option.map_eq_some_iff.mp this
      rw [hasComponent_stored he' hb'.1, hasComponent_stored he hb, hb'.2]
  · intro c
    rw [hasComponent_stored e1 ha', q5]
    have := hrep.desc.wf.hasComponent_iff c
    unfold ArchetypeDescriptor.ids at this
    rw [← this]
    constructor
    · intro hx; exact Except.ok.inj hx
    · intro hx; rw [hx]
  · intro x c hx hW hno
    refine (hC.getComponent_other h hct ha hrep hW hx).1 (fun j hj => hno j ?_)
    rw [placeOf_eq]; exact hj
  · intro x c i j dg hx hW hp hc hdg hapart
    have hci := column_of hrep.desc.comps hrep.desc.has hW hc
    rw [Group.cts_comps gs, List.getElem?_map] at hdg
    obtain ⟨cg, hcg, rfl⟩ := Option.map_eq_some_iff.mp hdg
    refine ((hC.getComponent_other h hct ha hrep hW hx).2.2 i j cg (by rw [← placeOf_eq]; exact hp) hci hcg).1 ?_
    rw [← hrep.count, ← hap hW (hWg cg (List.mem_of_getElem? hcg))]; exact hapart
  · intro x c cg i j hW hWcg hp hc hcg hapart hty
    have hci := column_of hrep.desc.comps hrep.desc.has hW hc
    have hcgi := column_of (Group.cts_comps gs) hWg hWcg hcg
    rw [hap hW hWcg, hrep.count] at hapart
    by_cases hx : x = e
    · subst hx
      rw [placeOf_eq, hC.loc] at hp
      cases hp
      have htr : a.descriptor.hasComponent c = true := (hrep.desc.hasComponent_iff hW).mpr (List.mem_of_getElem? hci)
      obtain ⟨f, hf⟩ := (read_collided (a := a) q2 q5 q6 q7 hci hcgi
        (show ct.ents.length < a1.capacity by rw [q3]; exact q4)).2 hapart hty
      refine ⟨f, ?_⟩
      rw [getComponent_stored e1 ha', q5, htr, e3, hf]
      rfl
    · rw [hplace x hx, placeOf_eq] at hp
      exact ((hC.getComponent_other h hct ha hrep hW hx).2.2 i j cg hp hci hcgi).2 hapart hty

/-- **C99** (partial: exactly when another entity is harmed) If every Rust type is used under one id: after such a creation
some other entity reads differently exactly if the archetype had a row already and some created type is smaller, but not
empty, than the type of its column. -/
theorem C99_harm_partial (hr : Reachable W r) {g : Group} {vals : List Val} (hg : ∀ c ∈ g, W.Has c)
    (hty : ∀ c c', W.Has c → W.Has c' → c.ty = c'.ty → c = c')
    (hv : (g.descriptor env).isValid = true) (ht : TypedVals g vals) {k : Nat} {a : Archetype}
    (ha : r.archetypes.archetypes[k]? = some a) (hlen : a.descriptor.len = g.length)
    (hid : a.descriptor.archetypeId = (g.descriptor env).archetype.archetypeId) (hlt : a.entityCount < 8388608)
    (hroom : r.entities.entities.length < MAX_ENTITY_HANDLE_VALUE) {e : Entity}
    (hcr : r.createEntity env g vals = .ok (r', .ok e)) :
    (∃ x c, x ≠ e ∧ W.Has c ∧ r'.getComponent env c x ≠ r.getComponent env c x) ↔
    0 < a.entityCount ∧ ∃ (i : Nat) (da dg : ComponentDescriptor), a.descriptor.components[i]? = some da ∧
      (g.descriptor env).archetype.components[i]? = some dg ∧ 0 < dg.size ∧ dg.size < da.size := by
  obtain ⟨cs, ct, h, hct, hrep, hC⟩ := collided_of hr hg hv ht ha hlen hid hlt hroom hcr
  have gs := Group.spec hv
  obtain ⟨hgl, hWg, _⟩ := Group.cts_perm gs hg
  have hcl : ct.cts.length = g.length := by rw [hrep.desc.length, hlen]
  constructor
  · rintro ⟨x, c, hx, hW, hne⟩
    obtain ⟨p1, p2, p3⟩ := hC.getComponent_other h hct ha hrep hW hx
    have hc : c ∈ ct.cts := Classical.byContradiction (fun hn => hne (p2 hn))
    obtain ⟨j, hj⟩ : ∃ j, r.entities.loc env x = some (k, j) := by
      apply Classical.byContradiction
      intro hn
      exact hne (p1 (fun j hj => hn ⟨j, hj⟩))
    obtain ⟨i, hi, hic⟩ := List.mem_iff_getElem.mp hc
    have hci : ct.cts[i]? = some c := by rw [List.getElem?_eq_getElem hi, hic]
    have hcg := List.getElem?_eq_getElem (show i < (g.cts env).length by omega)
    generalize (g.cts env)[i] = cg at hcg
    have hov := fun hap => hne ((p3 i j cg hj hci hcg).1 hap)
    have hjn : j < ct.ents.length := by
      obtain ⟨ct', w1, w2⟩ := (h.placed _ _ _).mp hj
      rw [hct] at w1; cases w1
      exact (List.getElem?_eq_some_iff.mp w2).1
    refine ⟨by rw [hrep.count]; omega, i, c.descriptor, cg.descriptor, hrep.desc.comp_getElem? hci, ?_, ?_⟩
    · rw [Group.cts_comps gs, List.getElem?_map, hcg]; rfl
    · rw [W.desc_size hW, W.desc_size (hWg cg (List.mem_of_getElem? hcg))]
      have h0 : 0 < cg.size := by
        rcases Nat.eq_zero_or_pos cg.size with h0 | h0
        · exact absurd (Or.inr (Or.inr (Or.inl h0))) hov
        · exact h0
      refine ⟨h0, ?_⟩
      rcases Nat.lt_or_ge cg.size c.size with hl | hg'
      · exact hl
      · exfalso
        apply hov
        left
        have h1 := row_le (sz := c.size) hjn
        have h2 := Nat.mul_le_mul_right ct.ents.length hg'
        omega
  · rintro ⟨hpos, i, da, dg, hda, hdg, h0, hsm⟩
    rw [hrep.desc.comps, List.getElem?_map] at hda
    obtain ⟨c, hc, rfl⟩ := Option.map_eq_some_iff.mp hda
    rw [Group.cts_comps gs, List.getElem?_map] at hdg
    obtain ⟨cg, hcg, rfl⟩ := Option.map_eq_some_iff.mp hdg
    have hW := hrep.desc.has c (List.mem_of_getElem? hc)
    have hWcg := hWg cg (List.mem_of_getElem? hcg)
    rw [W.desc_size hW, W.desc_size hWcg] at hsm
    rw [W.desc_size hWcg] at h0
    rw [hrep.count] at hpos
    have hdm := Nat.div_add_mod (cg.size * ct.ents.length) c.size
    have hml := Nat.mod_lt (cg.size * ct.ents.length) (show 0 < c.size by omega)
    have hjn : cg.size * ct.ents.length / c.size < ct.ents.length := by
      rw [Nat.div_lt_iff_lt_mul (by omega), Nat.mul_comm]
      exact Nat.mul_lt_mul_of_pos_left hsm hpos
    generalize hjd : cg.size * ct.ents.length / c.size = j at hdm hjn
    have hent := List.getElem?_eq_getElem hjn
    generalize ct.ents[j] = x at hent
    have hloc : r.entities.loc env x = some (k, j) := (h.placed _ _ _).mpr ⟨ct, hct, hent⟩
    have hx : x ≠ e := by
      rintro rfl
      rw [EntityRegistry.loc_eq_none.mpr hC.dead] at hloc; cases hloc
    refine ⟨x, c, hx, hW, ?_⟩
    obtain ⟨f, hf⟩ := ((hC.getComponent_other h hct ha hrep hW hx).2.2 i j cg hloc hc hcg).2 (by omega) (by
      intro he
      rw [hty cg c hWcg hW he] at hsm
      omega)
    rw [hf]
    obtain ⟨en, e1, e2, e3⟩ := EntityRegistry.entry_of_loc hloc
    obtain ⟨v, hv', _⟩ := hrep.get_some (List.mem_of_getElem? hc) hjn
    rw [getComponent_stored e1 (by rw [e2]; exact ha), (hrep.desc.hasComponent_iff hW).mpr (List.mem_of_getElem? hc), e3,
      hrep.getComponentUnchecked_ok hv']
    intro hcon
    cases hcon

/-! ## Witnesses -/

/-- The two sets of `C29_collision`. In the archetype the first type has two bytes; in the created set all types have one
byte, or the last one has 200. -/
def exClashA : Group := [⟨1, 4083, 2, 1⟩, ⟨2, 53647, 1, 1⟩]
def exClashB : Group := [⟨3, 17631, 1, 1⟩, ⟨4, 55333, 1, 1⟩]
def exClashC : Group := [⟨3, 17631, 1, 1⟩, ⟨4, 55333, 200, 1⟩]

/-- Only the first set is in use. -/
def exClashWorld : World exEnv := .ofLists exEnv (exClashA ++ exClashB) [[4083, 53647]] (by decide +kernel)
def exClashWorld' : World exEnv := .ofLists exEnv (exClashA ++ exClashC) [[4083, 53647]] (by decide +kernel)

def exClashVals : List Val := [⟨1, [1, 2]⟩, ⟨2, [3]⟩]

/-- One entity with the first set. -/
def exClashR : Registry :=
  match Registry.default.createEntity exEnv exClashA exClashVals with
  | .ok (r, _) => r
  | .error _ => Registry.default

set_option maxRecDepth 100000 in
theorem exClashR_eq : Registry.default.createEntity exEnv exClashA exClashVals = .ok (exClashR, .ok (Entity.newUnchecked 0 0)) := by
  decide +kernel

theorem exClash_reachable : Reachable exClashWorld exClashR ∧ Reachable exClashWorld' exClashR :=
  ⟨⟨_, Steps.snoc Steps.nil (createCheck_ok (by decide +kernel) Registry.default).1 (run_create_ok exClashR_eq)⟩,
   ⟨_, Steps.snoc Steps.nil (createCheck_ok (by decide +kernel) Registry.default).1 (run_create_ok exClashR_eq)⟩⟩

/-- The archetype of the first set. -/
def exClashArch : Archetype := exClashR.archetypes.archetypes.headD ⟨⟨0, [], 0⟩, [], none, 0, 0⟩

set_option maxRecDepth 100000 in
/-- The hypotheses of `C99_create_partial`, `C99_after_partial` and `C99_harm_partial` hold for both colliding sets. -/
theorem exClash_hyps :
    (∀ c ∈ exClashB, exClashWorld.Has c) ∧ (∀ c ∈ exClashC, exClashWorld'.Has c) ∧
    (∀ c c', exClashWorld.Has c → exClashWorld.Has c' → c.ty = c'.ty → c = c') ∧
    (exClashB.descriptor exEnv).isValid = true ∧ (exClashC.descriptor exEnv).isValid = true ∧
    TypedVals exClashB [⟨3, [7]⟩, ⟨4, [8]⟩] ∧ TypedVals exClashC [⟨3, [7]⟩, ⟨4, List.replicate 200 8⟩] ∧
    exClashR.archetypes.archetypes[0]? = some exClashArch ∧ exClashArch.descriptor.len = 2 ∧
    exClashArch.descriptor.archetypeId = (exClashB.descriptor exEnv).archetype.archetypeId ∧
    exClashArch.descriptor.archetypeId = (exClashC.descriptor exEnv).archetype.archetypeId ∧
    exClashArch.entityCount = 1 ∧ exClashR.entities.entities.length = 1 := by
  refine ⟨fun c hc => ?_, fun c hc => ?_, ?_, by decide +kernel, by decide +kernel, typedCheck_ok (by decide +kernel),
    typedCheck_ok (by decide +kernel), by decide +kernel, by decide +kernel, by decide +kernel, by decide +kernel,
    by decide +kernel, by decide +kernel⟩
  · show c ∈ exClashA ++ exClashB
    exact List.mem_append_right _ hc
  · show c ∈ exClashA ++ exClashC
    exact List.mem_append_right _ hc
  · show ∀ c c', c ∈ exClashA ++ exClashB → c' ∈ exClashA ++ exClashB → c.ty = c'.ty → c = c'
    have : ∀ c ∈ exClashA ++ exClashB, ∀ c' ∈ exClashA ++ exClashB, c.ty = c'.ty → c = c' := by decide +kernel
    exact fun c c' h1 h2 => this c h1 c' h2

set_option maxRecDepth 100000 in
/-- A collision with a smaller type: another entity, which was fine, cannot be read any more. -/
theorem C99_witness_harm : ∃ r' e, exClashR.createEntity exEnv exClashB [⟨3, [7]⟩, ⟨4, [8]⟩] = .ok (r', .ok e) ∧
    Entity.newUnchecked 0 0 ≠ e ∧
    exClashR.getComponent exEnv ⟨1, 4083, 2, 1⟩ (Entity.newUnchecked 0 0) = .ok (some ⟨1, [1, 2]⟩) ∧
    r'.getComponent exEnv ⟨1, 4083, 2, 1⟩ (Entity.newUnchecked 0 0) = .error (.ub .typeConfusion) := by
  have h : (match exClashR.createEntity exEnv exClashB [⟨3, [7]⟩, ⟨4, [8]⟩] with
    | .ok (r', .ok e) => decide (Entity.newUnchecked 0 0 ≠ e ∧
        exClashR.getComponent exEnv ⟨1, 4083, 2, 1⟩ (Entity.newUnchecked 0 0) = .ok (some ⟨1, [1, 2]⟩) ∧
        r'.getComponent exEnv ⟨1, 4083, 2, 1⟩ (Entity.newUnchecked 0 0) = .error (.ub .typeConfusion))
    | _ => false) = true := by decide +kernel
  split at h
  · rename_i r' e hx
    exact ⟨r', e, hx, of_decide_eq_true h⟩
  · cases h

set_option maxRecDepth 100000 in
/-- A collision with a larger type: the creation writes outside of the column. -/
theorem C99_witness_bounds : exClashR.createEntity exEnv exClashC [⟨3, [7]⟩, ⟨4, List.replicate 200 8⟩] =
    .error (.ub .outOfBounds) := by
  obtain ⟨_, h2, _, _, h5, _, h7, h8, h9, _, h11, h12, h13⟩ := exClash_hyps
  refine (C99_create_partial exClash_reachable.2 h2 h5 h7 h8 h9 h11 (by rw [h12]; decide) (by rw [h13]; decide)).2 ?_
  intro hfit
  exact absurd (hfit 1 (CompTy.descriptor ⟨2, 53647, 1, 1⟩) (CompTy.descriptor ⟨4, 55333, 200, 1⟩) (by decide +kernel) (by decide +kernel)) (by decide +kernel)

/-- **C99** is false. -/
theorem C99_violated : ¬ C99_statement := by
  intro h
  obtain ⟨h1, _, _, h4, _, h6, _, h8, h9, h10, _, h12, h13⟩ := exClash_hyps
  obtain ⟨r2, e2, q1, q2, q3, q4⟩ := C99_witness_harm
  obtain ⟨r', e, w1, w2⟩ := h exEnv exClashWorld exClashR exClashB _ 0 exClashArch exClash_reachable.1 h1 h4 h6 h8 h9 h10
    (by rw [h12]; decide) (by rw [h13]; decide)
  rw [q1] at w1; cases w1
  have := w2 _ ⟨1, 4083, 2, 1⟩ q2 (show _ ∈ exClashA ++ exClashB by decide)
  rw [q3, q4] at this
  cases this

/-- C99 on `exClashR`: both sides of `C99_harm_partial`. -/
example : ∃ r' e, exClashR.createEntity exEnv exClashB [⟨3, [7]⟩, ⟨4, [8]⟩] = .ok (r', .ok e) ∧
    (∃ x c, x ≠ e ∧ exClashWorld.Has c ∧ r'.getComponent exEnv c x ≠ exClashR.getComponent exEnv c x) ∧
    placeOf exEnv r' e = some (0, 1) := by
  obtain ⟨h1, _, h3, h4, _, h6, _, h8, h9, h10, _, h12, h13⟩ := exClash_hyps
  obtain ⟨r', e, q1, _⟩ := C99_witness_harm
  refine ⟨r', e, q1, (C99_harm_partial exClash_reachable.1 h1 h3 h4 h6 h8 h9 h10 (by rw [h12]; decide) (by rw [h13]; decide)
    q1).mpr ⟨by rw [h12]; decide, 0, CompTy.descriptor ⟨1, 4083, 2, 1⟩, CompTy.descriptor ⟨3, 17631, 1, 1⟩,
     by decide +kernel, by decide +kernel, by decide, by decide⟩, ?_⟩
  rw [(C99_after_partial exClash_reachable.1 h1 h4 h6 h8 h9 h10 (by rw [h12]; decide) (by rw [h13]; decide) q1).2.1, h12]

end Shard
