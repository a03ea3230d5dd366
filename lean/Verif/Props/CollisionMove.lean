import Verif.Proofs.CollisionMove
import Verif.Props.Collision
/-!
# C100: what a collision of component sets does to an entity that gains or loses a component
-/

set_option autoImplicit false

namespace Shard

open RowOrder (placeOf)

variable {env : Env} {W : World env} {r r' : Registry}

/-- C100 as intended: `add_component` and `remove_component` do not panic if there is room, and the entity keeps its other
components, whatever archetype id the new component set has. -/
def C100_statement : Prop :=
  ∀ (env : Env) (W : World env) (r : Registry) (e : Entity) (c : CompTy) (v : Val) (ks j : Nat) (a : Archetype), Reachable W r →
    W.Has c → v.HasTy c → placeOf env r e = some (ks, j) → r.archetypes.archetypes[ks]? = some a →
    r.archetypes.archetypes.length < 65534 → (∀ b ∈ r.archetypes.archetypes, b.entityCount < 8388608) → a.descriptor.len ≤ 12 →
    (c.id ∉ a.descriptor.ids → ∃ r', r.addComponent env e c v = .ok (r', .ok ()) ∧
      ∀ c', W.Has c' → c' ≠ c → r'.getComponent env c' e = r.getComponent env c' e) ∧
    (c.id ∈ a.descriptor.ids → 2 ≤ a.descriptor.len → ∃ r' w, r.removeComponent env e c = .ok (r', .ok w) ∧
      r'.getComponent env c e = .ok none ∧ ∀ c', W.Has c' → c' ≠ c → r'.getComponent env c' e = r.getComponent env c' e)

/-- The entity `e` was moved from the archetype `a` to the next row of the archetype `b` at `k'`: it has the component
types of `b`. Those it had keep their values, the types `b` lacks are lost, and the types `b` has in addition (but for
`fresh`, which was written) are read from memory nothing was written to: what an earlier entity left there, or, if the storage had to grow, not initialised.
All other entities keep what they have. -/
structure Misplaced (W : World env) (r r' : Registry) (e : Entity) (a : Archetype) (k' : Nat) (b : Archetype)
    (fresh : CompTy → Prop) : Prop where
  place : placeOf env r' e = some (k', b.entityCount)
  has : ∀ c, W.Has c → (r'.hasComponent env c e = .ok true ↔ c.id ∈ b.descriptor.ids)
  kept : ∀ c, W.Has c → ¬ fresh c → c.id ∈ a.descriptor.ids → c.id ∈ b.descriptor.ids →
    r'.getComponent env c e = r.getComponent env c e
  lost : ∀ c, W.Has c → c.id ∉ b.descriptor.ids → r'.getComponent env c e = .ok none
  stale : ∀ c, W.Has c → ¬ fresh c → c.id ∉ a.descriptor.ids → c.id ∈ b.descriptor.ids →
    (b.entityCount < b.capacity → r'.getComponent env c e = (b.getComponentUnchecked c b.entityCount).map some) ∧
    (b.entityCount = b.capacity → 0 < c.size → r'.getComponent env c e = .error (.ub .uninit))
  others : ∀ (x : Entity) (c : CompTy), x ≠ e → W.Has c →
    r'.getComponent env c x = r.getComponent env c x ∧ r'.hasComponent env c x = r.hasComponent env c x

theorem Strayed.misplaced {cs : List Content} {ct ctD : Content} {a b : Archetype} (h : RInv W r cs) {e : Entity} {en : EntityEntry}
    (he : r.entities.entityEntry env e = some en) (ha : r.archetypes.archetypes[(en.archetypeIndex env).toNat]? = some a)
    (hc : cs[(en.archetypeIndex env).toNat]? = some ct) {k : Nat} (hb : r.archetypes.archetypes[k]? = some b)
    (hcD : cs[k]? = some ctD) {val : CompTy → Option Val} {fresh : CompTy → Prop}
    (hval : ∀ c, ¬ fresh c → val c = ct.get c en.indexInArchetype.value.toNat) (hS : Strayed W r r' e k b ctD val) :
    Misplaced W r r' e a k b fresh := by
  have hra := h.arch.rep _ _ _ ha hc
  have hrb := h.arch.rep _ _ _ hb hcD
  have hloc := EntityRegistry.loc_of_entry he
  obtain ⟨ct0, q1, q2⟩ := (h.placed _ _ _).mp hloc
  rw [hc] at q1; cases q1
  have hj := (List.getElem?_eq_some_iff.mp q2).1
  obtain ⟨b', hb', hL⟩ := hS.dest
  have hread := fun c => getComponent_loc (c := c) hS.loc hb'
  have hhas : ∀ c, b'.descriptor.hasComponent c = true ↔ c.id ∈ b.descriptor.ids := by
    intro c
    rw [hL.desc]; exact hrb.desc.wf.hasComponent_iff c
  refine ⟨?_, ?_, ?_, ?_, ?_, hS.others⟩
  · rw [placeOf_eq, hS.loc, hrb.count]
  · intro c _
    rw [(hread c).2, ← hhas c]
    exact ⟨fun hx => Except.ok.inj hx, fun hx => by rw [hx]⟩
  · intro c hW hf hA hB
    rw [(hread c).1, if_neg (by rw [(hhas c).mpr hB]; simp)]
    obtain ⟨v, hv, _⟩ := hra.get_some ((hra.desc.id_mem hW).mp hA) hj
    rw [hL.row c ((hrb.desc.id_mem hW).mp hB) v ((hval c hf).trans hv), (getComponent_loc (c := c) hloc ha).1,
      if_neg (by rw [(hra.desc.wf.hasComponent_iff c).mpr hA]; simp), hra.getComponentUnchecked_ok hv]
  · intro c hW hB
    rw [(hread c).1, if_pos (fun hx => hB ((hhas c).mp hx))]
  · intro c hW hf hA hB
    rw [(hread c).1, if_neg (by rw [(hhas c).mpr hB]; simp)]
    have hn : val c = none := by
      rw [hval c hf]
      cases hg : ct.get c en.indexInArchetype.value.toNat with
      | none => rfl
      | some w => exact absurd ((hra.desc.id_mem hW).mpr (hra.mem_of_get hg).1) hA
    obtain ⟨s1, s2⟩ := hL.stale c ((hrb.desc.id_mem hW).mp hB) hn
    rw [hrb.count]
    exact ⟨fun h => by rw [s1 h], fun h1 h2 => by rw [s2 h1 h2]; rfl⟩

/-- **C100** (partial: exactly what happens) `add_component` of `c` to an entity of the archetype `a`, if the set of `a` with
`c` has the number of components and the archetype id of the archetype `b`, be it by a collision or not: if `b` has no
column for `c`, the call panics. Otherwise it succeeds, the entity has the added component, and is moved to `b`
(`Misplaced`). Missing: the claim is false for collisions (`C100_violated`). -/
theorem C100_add_partial (hr : Reachable W r) {e : Entity} {c : CompTy} {v : Val} (hW : W.Has c) (hv : v.HasTy c)
    {ks j : Nat} {a : Archetype} (hp : placeOf env r e = some (ks, j)) (ha : r.archetypes.archetypes[ks]? = some a)
    (hn : c.id ∉ a.descriptor.ids) (hl : a.descriptor.len ≤ 12) {s : List UInt16}
    (hs : AscSet s (fun i => i = c.id ∨ i ∈ a.descriptor.ids)) {k : Nat} {b : Archetype}
    (hb : r.archetypes.archetypes[k]? = some b) (hbl : b.descriptor.len = a.descriptor.len + 1)
    (hid : b.descriptor.archetypeId = plainId env s) (hlt : b.entityCount < 8388608) :
    (c.id ∉ b.descriptor.ids → r.addComponent env e c v = .error (.panic .unreachable)) ∧
    (c.id ∈ b.descriptor.ids → ∃ r', r.addComponent env e c v = .ok (r', .ok ()) ∧
      r'.getComponent env c e = .ok (some v) ∧ Misplaced W r r' e a k b (fun c' => c' = c)) := by
  obtain ⟨cs, h⟩ := hr.inv
  rw [placeOf_eq] at hp
  obtain ⟨en, he, e1, e2⟩ := EntityRegistry.entry_of_loc hp
  simp only [] at e1
  subst e1
  obtain ⟨ct, hct, hra⟩ := h.arch.content ha
  obtain ⟨ctD, hcD, hrb⟩ := h.arch.content hb
  have hs' : AscSet s (AddedIds ct.cts c) := hs.congr (fun i => by
    unfold AddedIds
    rw [hra.desc.ids_eq, List.mem_map])
  obtain ⟨h1, h2⟩ := h.add_collide he hct hW hv (fun hm => hn ((hra.desc.id_mem hW).mpr hm)) (by rw [hra.desc.length]; exact hl) hs'
    hb hcD (by rw [hra.desc.length]; exact hbl) hid (by rw [← hrb.count]; exact hlt)
  refine ⟨fun hx => h1 (fun hm => hx ((hrb.desc.id_mem hW).mpr hm)), fun hx => ?_⟩
  obtain ⟨r', q1, q2⟩ := h2 ((hrb.desc.id_mem hW).mp hx)
  refine ⟨r', q1, ?_, q2.misplaced h he ha hct hb hcD (fun c' hc' => if_neg hc')⟩
  obtain ⟨b', hb', hL⟩ := q2.dest
  rw [(getComponent_loc (c := c) q2.loc hb').1, hL.desc, if_neg (by rw [(hrb.desc.wf.hasComponent_iff c).mpr hx]; simp),
    hL.row c ((hrb.desc.id_mem hW).mp hx) v (if_pos rfl)]
  rfl

/-- **C100** (partial: exactly what happens) `remove_component` of `c` from an entity of the archetype `a`, if the set of `a`
without `c` has the number of components and the archetype id of the archetype `b`: the call returns the component and
moves the entity to `b` (`Misplaced`). If `b` has a column for `c`, the entity keeps the value that was returned. -/
theorem C100_remove_partial (hr : Reachable W r) {e : Entity} {c : CompTy} (hW : W.Has c)
    {ks j : Nat} {a : Archetype} (hp : placeOf env r e = some (ks, j)) (ha : r.archetypes.archetypes[ks]? = some a)
    (hn : c.id ∈ a.descriptor.ids) (hl2 : 2 ≤ a.descriptor.len) (hl : a.descriptor.len ≤ 13) {s : List UInt16}
    (hs : AscSet s (fun i => i ≠ c.id ∧ i ∈ a.descriptor.ids)) {k : Nat} {b : Archetype}
    (hb : r.archetypes.archetypes[k]? = some b) (hbl : b.descriptor.len + 1 = a.descriptor.len)
    (hid : b.descriptor.archetypeId = plainId env s) (hlt : b.entityCount < 8388608) :
    ∃ r' v, r.removeComponent env e c = .ok (r', .ok v) ∧ r.getComponent env c e = .ok (some v) ∧
      (c.id ∈ b.descriptor.ids → r'.getComponent env c e = .ok (some v)) ∧ Misplaced W r r' e a k b (fun _ => False) := by
  obtain ⟨cs, h⟩ := hr.inv
  rw [placeOf_eq] at hp
  obtain ⟨en, he, e1, e2⟩ := EntityRegistry.entry_of_loc hp
  simp only [] at e1
  subst e1
  obtain ⟨ct, hct, hra⟩ := h.arch.content ha
  obtain ⟨ctD, hcD, hrb⟩ := h.arch.content hb
  have hs' : AscSet s (RemovedIds ct.cts c) := hs.congr (fun i => by
    unfold RemovedIds
    rw [hra.desc.ids_eq, List.mem_map]
    constructor
    · rintro ⟨h1, c', h2, rfl⟩
      exact ⟨c', h2, fun hx => h1 (by rw [hx]), rfl⟩
    · rintro ⟨c', h2, h1, rfl⟩
      exact ⟨fun hx => h1 (W.id_inj (hra.desc.has c' h2) hW hx), c', h2, rfl⟩)
  obtain ⟨r', v, q1, q3, q2⟩ := h.remove_collide he hct ((hra.desc.id_mem hW).mp hn) (by rw [hra.desc.length]; exact hl2)
    (by rw [hra.desc.length]; exact hl) hs' hb hcD (by rw [hra.desc.length]; exact hbl) hid (by rw [← hrb.count]; exact hlt)
  have hM : Misplaced W r r' e a k b (fun _ => False) := q2.misplaced h he ha hct hb hcD (fun _ _ => rfl)
  have hgv : r.getComponent env c e = .ok (some v) := by
    rw [(getComponent_loc (c := c) (EntityRegistry.loc_of_entry he) ha).1,
      if_neg (by rw [(hra.desc.wf.hasComponent_iff c).mpr hn]; simp), hra.getComponentUnchecked_ok q3]
    rfl
  exact ⟨r', v, q1, hgv, fun hx => by rw [hM.kept c hW (fun h => h) hn hx]; exact hgv, hM⟩

/-- **C100** (partial: a collision costs a component) After `add_component`, if `b` is not the archetype of the new set: the
entity lost a component it had. -/
theorem C100_lost_partial (hr : Reachable W r) {e : Entity} {c : CompTy} {v : Val} (hW : W.Has c) (hv : v.HasTy c)
    {ks j : Nat} {a : Archetype} (hp : placeOf env r e = some (ks, j)) (ha : r.archetypes.archetypes[ks]? = some a)
    (hn : c.id ∉ a.descriptor.ids) (hl : a.descriptor.len ≤ 12) {s : List UInt16}
    (hs : AscSet s (fun i => i = c.id ∨ i ∈ a.descriptor.ids)) {k : Nat} {b : Archetype}
    (hb : r.archetypes.archetypes[k]? = some b) (hbl : b.descriptor.len = a.descriptor.len + 1)
    (hid : b.descriptor.archetypeId = plainId env s) (hlt : b.entityCount < 8388608) (hne : b.descriptor.ids ≠ s)
    (hadd : r.addComponent env e c v = .ok (r', .ok ())) :
    ∃ c' w, W.Has c' ∧ c' ≠ c ∧ r.getComponent env c' e = .ok (some w) ∧ r'.getComponent env c' e = .ok none := by
  obtain ⟨h1, h2⟩ := C100_add_partial hr hW hv hp ha hn hl hs hb hbl hid hlt
  have hcb : c.id ∈ b.descriptor.ids := Classical.byContradiction (fun hx => by rw [h1 hx] at hadd; cases hadd)
  obtain ⟨r2, q1, q2, q3⟩ := h2 hcb
  rw [hadd] at q1; cases q1
  obtain ⟨cs, h⟩ := hr.inv
  obtain ⟨ct, hct, hra⟩ := h.arch.content ha
  obtain ⟨ctD, hcD, hrb⟩ := h.arch.content hb
  -- some id of the new set is not in `b`
  obtain ⟨i, hi, hib⟩ : ∃ i, i ∈ s ∧ i ∉ b.descriptor.ids := by
    apply Classical.byContradiction
    intro hno
    have hsub : ∀ i ∈ s, i ∈ b.descriptor.ids := fun i hi => Classical.byContradiction (fun hx => hno ⟨i, hi, hx⟩)
    have hsn : s.Nodup := hs.1.imp (fun hlt => UInt16.ne_of_lt hlt)
    have hsl : s.length = b.descriptor.ids.length := by
      have hperm : s.Perm (c.id :: a.descriptor.ids) := by
        rw [List.perm_ext_iff_of_nodup hsn (List.nodup_cons.mpr ⟨hn, hra.desc.wf.ids_nodup⟩)]
        intro i
        rw [hs.2 i, List.mem_cons]
      rw [hperm.length_eq, List.length_cons, hra.desc.wf.ids_length, hrb.desc.wf.ids_length, hbl]
    have hsup : ∀ i ∈ b.descriptor.ids, i ∈ s := fun i hi => Classical.byContradiction (fun hx => by
      have := nodup_subset_length (l1 := i :: s) (l2 := b.descriptor.ids) (List.nodup_cons.mpr ⟨hx, hsn⟩) (fun y hy => by
        rcases List.mem_cons.mp hy with rfl | hy
        · exact hi
        · exact hsub y hy)
      simp only [List.length_cons] at this
      omega)
    exact hne (AscSet.unique (P := fun i => i ∈ s) ⟨hrb.desc.wf.ids_sorted, fun i => ⟨hsup i, hsub i⟩⟩ ⟨hs.1, fun _ => Iff.rfl⟩)
  have hia : i ∈ a.descriptor.ids := by
    rcases (hs.2 i).mp hi with rfl | hx
    · exact absurd hcb hib
    · exact hx
  rw [hra.desc.ids_eq] at hia
  obtain ⟨c', hc', rfl⟩ := List.mem_map.mp hia
  have hW' := hra.desc.has c' hc'
  rw [placeOf_eq] at hp
  obtain ⟨ct0, w1, w2⟩ := (h.placed _ _ _).mp hp
  rw [hct] at w1; cases w1
  obtain ⟨w, hw, _⟩ := hra.get_some hc' (List.getElem?_eq_some_iff.mp w2).1
  refine ⟨c', w, hW', fun hx => hib (by rw [hx]; exact hcb), ?_, q3.lost c' hW' hib⟩
  rw [(getComponent_loc (c := c') hp ha).1, (hra.desc.hasComponent_iff hW').mpr hc', hra.getComponentUnchecked_ok hw]
  rfl

/-! ## Examples -/

/-- Five component types; `4083, 53647` and `17631, 55333` collide (`C29_collision`), with `60000` added to both, too. -/
def exStrayTypes : Group :=
  [⟨1, 4083, 1, 1⟩, ⟨2, 53647, 1, 1⟩, ⟨3, 17631, 1, 1⟩, ⟨4, 55333, 1, 1⟩, ⟨5, 60000, 1, 1⟩]

def exStraySets : List (List UInt16) := [[17631, 60000], [17631, 55333, 60000], [4083, 53647], [4083, 60000]]

/-- The sets that are in use do not collide. -/
def exStrayWorld : World exEnv := .ofLists exEnv exStrayTypes exStraySets (by decide +kernel)

/-- An entity gets the set `17631, 55333, 60000`, and is destroyed or not; two others have the sets `4083, 53647` and
`4083, 60000`. -/
def exStrayCalls (destroyed : Bool) : List Call :=
  [.create [⟨3, 17631, 1, 1⟩, ⟨5, 60000, 1, 1⟩] [⟨3, [7]⟩, ⟨5, [8]⟩], .add (Entity.newUnchecked 0 0) ⟨4, 55333, 1, 1⟩ ⟨4, [9]⟩,
   .create [⟨1, 4083, 1, 1⟩, ⟨2, 53647, 1, 1⟩] [⟨1, [1]⟩, ⟨2, [2]⟩], .create [⟨1, 4083, 1, 1⟩, ⟨5, 60000, 1, 1⟩] [⟨1, [3]⟩, ⟨5, [4]⟩]]
  ++ if destroyed then [.destroy (Entity.newUnchecked 0 0)] else []

abbrev exStrayR (destroyed : Bool) : Registry := runTo exEnv exStrayTypes exStraySets (exStrayCalls destroyed)

set_option maxRecDepth 100000 in
theorem exStray_reachable : ∀ d, Reachable exStrayWorld (exStrayR d)
  | true => runTo_reachable (by decide +kernel)
  | false => runTo_reachable (by decide +kernel)

/-- The archetype of the set `4083, 53647`, and that of the set `17631, 55333, 60000`. -/
def exStraySrc (d : Bool) : Archetype := (exStrayR d).archetypes.archetypes[2]?.getD ⟨⟨0, [], 0⟩, [], none, 0, 0⟩
def exStrayDst (d : Bool) : Archetype := (exStrayR d).archetypes.archetypes[1]?.getD ⟨⟨0, [], 0⟩, [], none, 0, 0⟩

set_option maxRecDepth 100000 in
/-- The hypotheses of `C100_add_partial` and `C100_lost_partial` for adding `60000` to the entity with the set
`4083, 53647`. -/
theorem exStray_hyps : ∀ d, exStrayWorld.Has ⟨5, 60000, 1, 1⟩ ∧ Val.HasTy ⟨5, [6]⟩ ⟨5, 60000, 1, 1⟩ ∧
    placeOf exEnv (exStrayR d) (Entity.newUnchecked 1 0) = some (2, 0) ∧
    (exStrayR d).archetypes.archetypes[2]? = some (exStraySrc d) ∧ (60000 : UInt16) ∉ (exStraySrc d).descriptor.ids ∧
    (exStraySrc d).descriptor.len ≤ 12 ∧
    AscSet [4083, 53647, 60000] (fun i => i = 60000 ∨ i ∈ (exStraySrc d).descriptor.ids) ∧
    (exStrayR d).archetypes.archetypes[1]? = some (exStrayDst d) ∧
    (exStrayDst d).descriptor.len = (exStraySrc d).descriptor.len + 1 ∧
    (exStrayDst d).descriptor.archetypeId = plainId exEnv [4083, 53647, 60000] ∧
    (exStrayDst d).entityCount < 8388608 ∧ (exStrayDst d).descriptor.ids ≠ [4083, 53647, 60000] ∧
    (60000 : UInt16) ∈ (exStrayDst d).descriptor.ids := by
  intro d
  refine ⟨show _ ∈ exStrayTypes by decide, ⟨rfl, rfl⟩, ?_, ?_, ?_, ?_, ascCheck_ok (l := 60000 :: (exStraySrc d).descriptor.ids) ?_
    (fun i => List.mem_cons.symm), ?_, ?_, ?_, ?_, ?_, ?_⟩ <;> cases d <;> decide +kernel

set_option maxRecDepth 100000 in
/-- `add_component` of `60000` to the entity with the set `4083, 53647` succeeds. It loses both of its components. It
now has the components of the other set, and reading one of them is undefined behavior. -/
theorem C100_witness_lost : ∃ r', (exStrayR false).addComponent exEnv (Entity.newUnchecked 1 0) ⟨5, 60000, 1, 1⟩ ⟨5, [6]⟩ = .ok (r', .ok ()) ∧
    (exStrayR false).getComponent exEnv ⟨1, 4083, 1, 1⟩ (Entity.newUnchecked 1 0) = .ok (some ⟨1, [1]⟩) ∧
    r'.getComponent exEnv ⟨1, 4083, 1, 1⟩ (Entity.newUnchecked 1 0) = .ok none ∧
    r'.getComponent exEnv ⟨2, 53647, 1, 1⟩ (Entity.newUnchecked 1 0) = .ok none ∧
    r'.getComponent exEnv ⟨5, 60000, 1, 1⟩ (Entity.newUnchecked 1 0) = .ok (some ⟨5, [6]⟩) ∧
    r'.hasComponent exEnv ⟨3, 17631, 1, 1⟩ (Entity.newUnchecked 1 0) = .ok true ∧
    r'.getComponent exEnv ⟨3, 17631, 1, 1⟩ (Entity.newUnchecked 1 0) = .error (.ub .uninit) := by
  have h : (match (exStrayR false).addComponent exEnv (Entity.newUnchecked 1 0) ⟨5, 60000, 1, 1⟩ ⟨5, [6]⟩ with
    | .ok (r', .ok ()) => decide (
      (exStrayR false).getComponent exEnv ⟨1, 4083, 1, 1⟩ (Entity.newUnchecked 1 0) = .ok (some ⟨1, [1]⟩) ∧
      r'.getComponent exEnv ⟨1, 4083, 1, 1⟩ (Entity.newUnchecked 1 0) = .ok none ∧
      r'.getComponent exEnv ⟨2, 53647, 1, 1⟩ (Entity.newUnchecked 1 0) = .ok none ∧
      r'.getComponent exEnv ⟨5, 60000, 1, 1⟩ (Entity.newUnchecked 1 0) = .ok (some ⟨5, [6]⟩) ∧
      r'.hasComponent exEnv ⟨3, 17631, 1, 1⟩ (Entity.newUnchecked 1 0) = .ok true ∧
      r'.getComponent exEnv ⟨3, 17631, 1, 1⟩ (Entity.newUnchecked 1 0) = .error (.ub .uninit))
    | _ => false) = true := by decide +kernel
  split at h
  · rename_i r' hx
    exact ⟨r', hx, of_decide_eq_true h⟩
  · cases h

set_option maxRecDepth 100000 in
/-- The same after the entity with the other set was destroyed and its components were dropped: the moved entity has
these components, and when it is destroyed, they are dropped again. -/
theorem C100_witness_doubleDrop : ∃ r1 r2 r3 d,
    (exStrayR false).destroyEntity exEnv (Entity.newUnchecked 0 0) = .ok (r1, true, [⟨3, [7]⟩, ⟨4, [9]⟩, ⟨5, [8]⟩]) ∧
    r1.addComponent exEnv (Entity.newUnchecked 1 0) ⟨5, 60000, 1, 1⟩ ⟨5, [6]⟩ = .ok (r2, .ok ()) ∧
    r2.getComponent exEnv ⟨3, 17631, 1, 1⟩ (Entity.newUnchecked 1 0) = .ok (some ⟨3, [7]⟩) ∧
    r2.destroyEntity exEnv (Entity.newUnchecked 1 0) = .ok (r3, d) ∧ d = (true, ([⟨3, [7]⟩, ⟨4, [9]⟩, ⟨5, [6]⟩] : List Val)) := by
  have h : (match (exStrayR false).destroyEntity exEnv (Entity.newUnchecked 0 0) with
    | .ok (r1, true, [⟨3, [7]⟩, ⟨4, [9]⟩, ⟨5, [8]⟩]) =>
      (match r1.addComponent exEnv (Entity.newUnchecked 1 0) ⟨5, 60000, 1, 1⟩ ⟨5, [6]⟩ with
      | .ok (r2, .ok ()) =>
        (match r2.destroyEntity exEnv (Entity.newUnchecked 1 0) with
        | .ok (_, d) => decide (r2.getComponent exEnv ⟨3, 17631, 1, 1⟩ (Entity.newUnchecked 1 0) = .ok (some ⟨3, [7]⟩) ∧
            d = (true, ([⟨3, [7]⟩, ⟨4, [9]⟩, ⟨5, [6]⟩] : List Val)))
        | _ => false)
      | _ => false)
    | _ => false) = true := by decide +kernel
  split at h
  · rename_i r1 h1
    split at h
    · rename_i r2 h2
      split at h
      · rename_i r3 d h3
        obtain ⟨q1, q2⟩ := of_decide_eq_true h
        exact ⟨r1, r2, r3, d, h1, h2, q1, h3, q2⟩
      · cases h
    · cases h
  · cases h

set_option maxRecDepth 100000 in
/-- `add_component` of `53647` to the entity with the set `4083, 60000` panics: the other set has no such component. -/
theorem C100_witness_panic : (exStrayR false).addComponent exEnv (Entity.newUnchecked 2 0) ⟨2, 53647, 1, 1⟩ ⟨2, [6]⟩ =
    .error (.panic .unreachable) := by
  let a : Archetype := (exStrayR false).archetypes.archetypes[3]?.getD ⟨⟨0, [], 0⟩, [], none, 0, 0⟩
  exact (C100_add_partial (exStray_reachable false) (c := ⟨2, 53647, 1, 1⟩) (show _ ∈ exStrayTypes by decide) ⟨rfl, rfl⟩
    (ks := 3) (j := 0) (a := a) (by decide +kernel) (by decide +kernel) (by decide +kernel) (by decide +kernel)
    (s := [4083, 53647, 60000]) (ascCheck_ok (l := 53647 :: a.descriptor.ids) (by decide +kernel) (fun i => List.mem_cons.symm))
    (exStray_hyps false).2.2.2.2.2.2.2.1 (by decide +kernel) (exStray_hyps false).2.2.2.2.2.2.2.2.2.1
    (exStray_hyps false).2.2.2.2.2.2.2.2.2.2.1).1 (by decide +kernel)

/-- **C100** is false. -/
theorem C100_violated : ¬ C100_statement := by
  intro h
  obtain ⟨h1, h2, h3, h4, h5, h6, _⟩ := exStray_hyps false
  obtain ⟨r', q1, q2, q3, _⟩ := C100_witness_lost
  obtain ⟨r2, w1, w2⟩ := (h exEnv exStrayWorld _ _ ⟨5, 60000, 1, 1⟩ ⟨5, [6]⟩ _ _ _ (exStray_reachable false) h1 h2 h3 h4 (by decide +kernel)
    (by decide +kernel) h6).1 h5
  rw [q1] at w1; cases w1
  have := w2 ⟨1, 4083, 1, 1⟩ (show _ ∈ exStrayTypes by decide) (by decide)
  rw [q2, q3] at this
  cases this

/-- C100 on `exStrayR`. -/
example (d : Bool) : ∃ r', (exStrayR d).addComponent exEnv (Entity.newUnchecked 1 0) ⟨5, 60000, 1, 1⟩ ⟨5, [6]⟩ = .ok (r', .ok ()) ∧
    r'.getComponent exEnv ⟨5, 60000, 1, 1⟩ (Entity.newUnchecked 1 0) = .ok (some ⟨5, [6]⟩) ∧
    (∃ c' w, exStrayWorld.Has c' ∧ c' ≠ ⟨5, 60000, 1, 1⟩ ∧
      (exStrayR d).getComponent exEnv c' (Entity.newUnchecked 1 0) = .ok (some w) ∧
      r'.getComponent exEnv c' (Entity.newUnchecked 1 0) = .ok none) := by
  obtain ⟨h1, h2, h3, h4, h5, h6, h7, h8, h9, h10, h11, h12, h13⟩ := exStray_hyps d
  obtain ⟨r', q1, q2, _⟩ := (C100_add_partial (exStray_reachable d) h1 h2 h3 h4 h5 h6 h7 h8 h9 h10 h11).2 h13
  exact ⟨r', q1, q2, C100_lost_partial (exStray_reachable d) h1 h2 h3 h4 h5 h6 h7 h8 h9 h10 h11 h12 q1⟩

/-- The sets for the example of `remove_component`. -/
def exStrayRemSets : List (List UInt16) := [[17631], [17631, 55333], [4083, 17631, 53647]]

def exStrayRemWorld : World exEnv := .ofLists exEnv exStrayTypes exStrayRemSets (by decide +kernel)

/-- One entity has the set `17631, 55333`, another one the set `4083, 17631, 53647`. -/
def exStrayRemCalls : List Call :=
  [.create [⟨3, 17631, 1, 1⟩] [⟨3, [7]⟩], .add (Entity.newUnchecked 0 0) ⟨4, 55333, 1, 1⟩ ⟨4, [9]⟩,
   .create [⟨1, 4083, 1, 1⟩, ⟨2, 53647, 1, 1⟩, ⟨3, 17631, 1, 1⟩] [⟨1, [1]⟩, ⟨2, [2]⟩, ⟨3, [5]⟩]]

abbrev exStrayRemR : Registry := runTo exEnv exStrayTypes exStrayRemSets exStrayRemCalls

set_option maxRecDepth 100000 in
theorem exStrayRem_reachable : Reachable exStrayRemWorld exStrayRemR := runTo_reachable (by decide +kernel)

set_option maxRecDepth 100000 in
/-- `remove_component` of `17631` returns the component, and the entity keeps it, too. -/
theorem C100_witness_twice : ∃ r',
    exStrayRemR.removeComponent exEnv (Entity.newUnchecked 1 0) ⟨3, 17631, 1, 1⟩ = .ok (r', .ok ⟨3, [5]⟩) ∧
    r'.getComponent exEnv ⟨3, 17631, 1, 1⟩ (Entity.newUnchecked 1 0) = .ok (some ⟨3, [5]⟩) ∧
    r'.getComponent exEnv ⟨1, 4083, 1, 1⟩ (Entity.newUnchecked 1 0) = .ok none := by
  let a : Archetype := exStrayRemR.archetypes.archetypes[2]?.getD ⟨⟨0, [], 0⟩, [], none, 0, 0⟩
  let b : Archetype := exStrayRemR.archetypes.archetypes[1]?.getD ⟨⟨0, [], 0⟩, [], none, 0, 0⟩
  obtain ⟨r', v, q1, q2, q3, q4⟩ := C100_remove_partial exStrayRem_reachable (e := Entity.newUnchecked 1 0)
    (c := ⟨3, 17631, 1, 1⟩) (show _ ∈ exStrayTypes by decide) (ks := 2) (j := 0) (a := a) (by decide +kernel) (by decide +kernel)
    (by decide +kernel) (by decide +kernel) (by decide +kernel) (s := [4083, 53647])
    (ascCheck_ok (l := a.descriptor.ids.filter (fun i => decide (i ≠ 17631))) (by decide +kernel)
      (fun i => by rw [List.mem_filter]; simp [and_comm])) (k := 1) (b := b) (by decide +kernel) (by decide +kernel)
    (by decide +kernel) (by decide +kernel)
  have hv : exStrayRemR.getComponent exEnv ⟨3, 17631, 1, 1⟩ (Entity.newUnchecked 1 0) = .ok (some ⟨3, [5]⟩) := by decide +kernel
  rw [hv] at q2
  cases q2
  exact ⟨r', q1, q3 (by decide +kernel), q4.lost ⟨1, 4083, 1, 1⟩ (show _ ∈ exStrayTypes by decide) (by decide +kernel)⟩

end Shard
