import Verif.Model.Derive
import Verif.Proofs.RemoveAny
import Verif.Props.Hash
import Verif.Props.Violations
/-!
# C59: component types are told apart by their names
-/

set_option autoImplicit false

namespace Shard

variable {env : Env} {W : World env} {r : Registry}

/-! ## Reading a column at another type -/

/-- Every byte of the occupied part of a column belongs to the type of the column. -/
theorem ColOK.byte_ty {c : CompTy} {cap : Nat} {b : Block} {vs : List Val} (h : ColOK c cap b vs) {off : Nat}
    (ho : off < c.size * vs.length) : ∃ t, b.bytes[off]? = some (some t) ∧ t.ty = c.ty := by
  have hs : 0 < c.size := Nat.pos_of_ne_zero (fun h0 => by rw [h0, Nat.zero_mul] at ho; omega)
  have hk : off / c.size < vs.length := (Nat.div_lt_iff_lt_mul hs).mpr (by rw [Nat.mul_comm]; exact ho)
  have hm : off % c.size < c.size := Nat.mod_lt _ hs
  have hoff : c.size * (off / c.size) + off % c.size = off := Nat.div_add_mod off c.size
  obtain ⟨h1, h2, h3⟩ := h.cells _ vs[off / c.size] (List.getElem?_eq_getElem hk)
  have : (cell b c.size (off / c.size))[off % c.size]? = (vs[off / c.size].encode)[off % c.size]? := by rw [h3]
  unfold cell at this
  rw [List.getElem?_take, if_pos hm, List.getElem?_drop, hoff] at this
  rw [this]
  unfold Val.encode
  rw [List.getElem?_mapIdx, List.getElem?_eq_getElem (by omega)]
  exact ⟨_, rfl, h1⟩

theorem ColOK.read_foreign {c c' : CompTy} {cap : Nat} {b : Block} {vs : List Val} (h : ColOK c cap b vs) {off : Nat}
    (ho : off < c.size * vs.length) (hty : c'.ty ≠ c.ty) (hs : 0 < c'.size) :
    ∃ u, readVal (some b) c'.ty c'.size c'.align off = .error (.ub u) := by
  rcases readVal_noPanic (some b) c'.ty c'.size c'.align off with ⟨v, hv⟩ | h'
  · exfalso
    unfold readVal at hv
    cases hal : checkAligned (some b) c'.align off with
    | error f => rw [hal] at hv; cases hv
    | ok u =>
      rw [hal] at hv
      simp only [ok_bind] at hv
      unfold readBytes at hv
      simp only [] at hv
      split at hv
      · simp only [ok_bind] at hv
        obtain ⟨t, ht, hty'⟩ := h.byte_ty ho
        have hne : (b.bytes.drop off).take c'.size = some t :: ((b.bytes.drop off).take c'.size).tail := by
          apply List.ext_getElem?
          intro i
          cases i with
          | zero => rw [List.getElem?_take, if_pos hs, List.getElem?_drop, Nat.add_zero, ht]; rfl
          | succ i => simp
        rw [hne] at hv
        unfold decodeVal decodeFrom at hv
        rw [if_neg (by rintro ⟨h4, _⟩; exact hty (h4.symm.trans hty'))] at hv
        cases hv
      · cases hv
  · exact h'

theorem Rep.hasComponent_id {a : Archetype} {ct : Content} (hr : Rep W a ct) (c : CompTy) :
    a.descriptor.hasComponent c = true ↔ ∃ c' ∈ ct.cts, c'.id = c.id := by
  rw [hr.desc.wf.hasComponent_iff, hr.desc.ids_eq, List.mem_map]

/-- The binary search goes by the id only. -/
theorem componentRef_congr (a : Archetype) {c c' : CompTy} (hid : c'.id = c.id) {i k : Nat}
    (h : a.componentRef c k = .ok ⟨i, c.size * k⟩) : a.componentRef c' k = .ok ⟨i, c'.size * k⟩ := by
  unfold Archetype.componentRef at h ⊢
  rw [hid]
  cases hb : binarySearchByKey a.descriptor.components c.id.toNat (fun e => e.id.toNat) with
  | found j => rw [hb] at h; simp only [Except.ok.injEq, Ref.mk.injEq] at h; simp only [h.1]
  | insertAt j => rw [hb] at h; cases h

/-! ## C59 -/

/-- The claim of **C59** for hand-written implementations of `Component`: two component types with different names are
different components, so an entity created with one of them does not have the other. -/
def C59_statement_names : Prop :=
  ∀ (env : Env) (ty ty' : Nat) (n n' : Name) (size align : Nat), n ≠ n' →
    ∀ (v : Val) (r : Registry) (e : Entity), v.HasTy (CompTy.ofName env ty n size align) →
      Registry.default.createEntity env [CompTy.ofName env ty n size align] [v] = .ok (r, .ok e) →
      r.hasComponent env (CompTy.ofName env ty' n' size align) e = .ok false

/-- The claim of **C59** for derived implementations: two different types are different components. -/
def C59_statement_derived : Prop :=
  ∀ (env : Env) (t t' : TypeDecl), t.ty ≠ t'.ty →
    ∀ (v : Val) (r : Registry) (e : Entity), v.HasTy (t.derived env) →
      Registry.default.createEntity env [t.derived env] [v] = .ok (r, .ok e) →
      r.hasComponent env (t'.derived env) e = .ok false

/-- `"Unit2D"` -/
def exUnit2D : Name := [85, 110, 105, 116, 50, 68]
/-- `"Wheel2D"` -/
def exWheel2D : Name := [87, 104, 101, 101, 108, 50, 68]
/-- `"Tag"` -/
def exTag : Name := [84, 97, 103]

/-- `Tag<u32>` and `Tag<f32>`, declared `#[derive(Component)] struct Tag<T>(T)`. -/
def exTagU32 : TypeDecl := ⟨1, [], exTag, [1], 4, 4⟩
def exTagF32 : TypeDecl := ⟨2, [], exTag, [2], 4, 4⟩

set_option maxRecDepth 100000 in
/-- What happens: the wrong type is reported, and reading it is undefined behaviour. -/
theorem C59_witnesses :
    (∃ r e, Registry.default.createEntity exEnv [CompTy.ofName exEnv 1 exUnit2D 4 4] [⟨1, [1, 2, 3, 4]⟩] = .ok (r, .ok e) ∧
      r.hasComponent exEnv (CompTy.ofName exEnv 2 exWheel2D 4 4) e = .ok true ∧
      r.getComponent exEnv (CompTy.ofName exEnv 2 exWheel2D 4 4) e = .error (.ub .typeConfusion)) ∧
    (∃ r e, Registry.default.createEntity exEnv [exTagU32.derived exEnv] [⟨1, [1, 2, 3, 4]⟩] = .ok (r, .ok e) ∧
      r.hasComponent exEnv (exTagF32.derived exEnv) e = .ok true ∧
      r.getComponent exEnv (exTagF32.derived exEnv) e = .error (.ub .typeConfusion)) := by
  constructor
  · have h : ((Registry.default.createEntity exEnv [CompTy.ofName exEnv 1 exUnit2D 4 4] [⟨1, [1, 2, 3, 4]⟩]).toOption.any
        (fun x => match x.2 with
          | .ok e => x.1.hasComponent exEnv (CompTy.ofName exEnv 2 exWheel2D 4 4) e == .ok true &&
              x.1.getComponent exEnv (CompTy.ofName exEnv 2 exWheel2D 4 4) e == .error (.ub .typeConfusion)
          | .err _ => false)) = true := by decide +kernel
    generalize Registry.default.createEntity exEnv [CompTy.ofName exEnv 1 exUnit2D 4 4] [⟨1, [1, 2, 3, 4]⟩] = x at h
    match x, h with
    | .ok (r, .ok e), h =>
      simp only [Except.toOption, Option.any_some, Bool.and_eq_true, beq_iff_eq] at h
      exact ⟨r, e, rfl, h.1, h.2⟩
  · have h : ((Registry.default.createEntity exEnv [exTagU32.derived exEnv] [⟨1, [1, 2, 3, 4]⟩]).toOption.any
        (fun x => match x.2 with
          | .ok e => x.1.hasComponent exEnv (exTagF32.derived exEnv) e == .ok true &&
              x.1.getComponent exEnv (exTagF32.derived exEnv) e == .error (.ub .typeConfusion)
          | .err _ => false)) = true := by decide +kernel
    generalize Registry.default.createEntity exEnv [exTagU32.derived exEnv] [⟨1, [1, 2, 3, 4]⟩] = x at h
    match x, h with
    | .ok (r, .ok e), h =>
      simp only [Except.toOption, Option.any_some, Bool.and_eq_true, beq_iff_eq] at h
      exact ⟨r, e, rfl, h.1, h.2⟩

/-- **C59** is false for names: "Unit2D" and "Wheel2D" have the same 16-bit hash. -/
theorem C59_names_violated : ¬ C59_statement_names := by
  intro h
  obtain ⟨⟨r, e, h1, h2, _⟩, _⟩ := C59_witnesses
  have := h exEnv 1 2 exUnit2D exWheel2D 4 4 (by decide) _ r e ⟨rfl, rfl⟩ h1
  rw [h2] at this
  cases this

/-- **C59** is false for derived components: the derive macro drops generic arguments (and module paths), so `Tag<u32>`
and `Tag<f32>` are one component. -/
theorem C59_derived_violated : ¬ C59_statement_derived := by
  intro h
  obtain ⟨_, ⟨r, e, h1, h2, _⟩⟩ := C59_witnesses
  have := h exEnv exTagU32 exTagF32 (by decide) _ r e ⟨rfl, rfl⟩ h1
  rw [h2] at this
  cases this

/-- **C59** (partial: exactly when types are mixed up, and what happens then) In a reachable registry, for any type `c'`,
used by the program or not: `has_component::<c'>` is true exactly if the entity has a component with the same id. If it
has none, `c'` reads as absent. If it has one of another type that is not smaller, reading it as `c'` is undefined
behaviour. Two types named `n` and `n'` have the same default id exactly if the folded FNV-1a hashes of the names agree;
for derived components these are the hashes of the bare identifiers. -/
theorem C59_names_partial (hr : Reachable W r) (e : Entity) (c' : CompTy) :
    (r.hasComponent env c' e = .ok true ∨ r.hasComponent env c' e = .ok false) ∧
    (r.hasComponent env c' e = .ok true ↔ HasId W r e c'.id) ∧
    (¬ HasId W r e c'.id → r.getComponent env c' e = .ok none) ∧
    (∀ c, W.Has c → r.hasComponent env c e = .ok true → c'.id = c.id → c'.ty ≠ c.ty → 0 < c'.size → c'.size ≤ c.size →
      ∃ k, r.getComponent env c' e = .error (.ub k)) ∧
    (∀ (ty ty' : Nat) (n n' : Name) (size align size' align' : Nat),
      ((CompTy.ofName env ty n size align).id = (CompTy.ofName env ty' n' size' align').id ↔
        (Spec.fnv1a32 n / 2 ^ 16) ^^^ (Spec.fnv1a32 n % 2 ^ 16) = (Spec.fnv1a32 n' / 2 ^ 16) ^^^ (Spec.fnv1a32 n' % 2 ^ 16))) ∧
    (∀ t t' : TypeDecl, t.ident = t'.ident → (t.derived env).id = (t'.derived env).id) := by
  obtain ⟨cs, h⟩ := hr.inv
  have hname : ∀ (ty : Nat) (n : Name) (size align : Nat), (CompTy.ofName env ty n size align).id.toNat =
      (Spec.fnv1a32 n / 2 ^ 16) ^^^ (Spec.fnv1a32 n % 2 ^ 16) := fun ty n size align => (C43_fnv1a env n none).2.2.1
  have key : (r.hasComponent env c' e = .ok true ∨ r.hasComponent env c' e = .ok false) ∧
    (r.hasComponent env c' e = .ok true ↔ HasId W r e c'.id) ∧
    (¬ HasId W r e c'.id → r.getComponent env c' e = .ok none) ∧
    (∀ c, W.Has c → r.hasComponent env c e = .ok true → c'.id = c.id → c'.ty ≠ c.ty → 0 < c'.size → c'.size ≤ c.size →
      ∃ k, r.getComponent env c' e = .error (.ub k)) := by
    cases hx : r.entities.entityEntry env e with
    | none =>
      have hf : ∀ c, r.hasComponent env c e = .ok false := fun c => by unfold Registry.hasComponent; rw [hx]
      refine ⟨Or.inr (hf c'), ⟨fun h => (by rw [hf] at h; cases h), ?_⟩, fun _ => (by unfold Registry.getComponent; rw [hx]), ?_⟩
      · rintro ⟨c, _, _, hc⟩
        rw [hf] at hc; cases hc
      · intro c _ hc
        rw [hf] at hc; cases hc
    | some en =>
      obtain ⟨a, ct, ha, hc, hrep, hk, hl, hlook⟩ := h.entry hx
      have hkl := (List.getElem?_eq_some_iff.mp hk).1
      have hhas : ∀ c, r.hasComponent env c e = .ok (a.descriptor.hasComponent c) := by
        intro c
        unfold Registry.hasComponent
        rw [hx]
        simp only []
        unfold ArchetypeRegistry.getUnchecked
        rw [indexUnchecked_of_getElem? ha]
        rfl
      have hget : ∀ c, r.getComponent env c e = if ¬ a.descriptor.hasComponent c then .ok none else
          (a.getComponentUnchecked c en.indexInArchetype.value.toNat).bind (fun v => .ok (some v)) := by
        intro c
        unfold Registry.getComponent
        rw [hx]
        simp only []
        unfold ArchetypeRegistry.getUnchecked
        rw [indexUnchecked_of_getElem? ha]
        rfl
      have hid : a.descriptor.hasComponent c' = true ↔ HasId W r e c'.id := by
        rw [hrep.hasComponent_id]
        constructor
        · rintro ⟨c, hc, hi⟩
          exact ⟨c, hrep.desc.has c hc, hi, by rw [hhas, (hrep.desc.hasComponent_iff (hrep.desc.has c hc)).mpr hc]⟩
        · rintro ⟨c, hW, hi, hc⟩
          rw [hhas, Except.ok.injEq] at hc
          exact ⟨c, (hrep.desc.hasComponent_iff hW).mp hc, hi⟩
      refine ⟨?_, ?_, ?_, ?_⟩
      · rw [hhas]
        cases a.descriptor.hasComponent c' <;> simp
      · rw [hhas, Except.ok.injEq]; exact hid
      · intro hn
        rw [hget, if_pos (fun hx => hn (hid.mp hx))]
      · intro c hW hcc hi hty hs hle
        rw [hhas, Except.ok.injEq, hrep.desc.hasComponent_iff hW] at hcc
        obtain ⟨i, hilt, hie⟩ := List.mem_iff_getElem.mp hcc
        have hci : ct.cts[i]? = some c := by rw [List.getElem?_eq_getElem hilt, hie]
        obtain ⟨vs, b, q1, q2, q3, q4⟩ := hrep.column hci
        rw [hget, if_neg (by rw [hrep.hasComponent_id c' |>.mpr ⟨c, hcc, hi.symm⟩]; simp)]
        have href := componentRef_congr a hi (hrep.componentRef_ok hci (k := en.indexInArchetype.value.toNat))
        unfold Archetype.getComponentUnchecked
        rw [href]
        simp only [ok_bind]
        unfold Archetype.readRef
        rw [index_of_getElem? q2]
        simp only [ok_bind]
        obtain ⟨u, hu⟩ := q3.read_foreign (off := c'.size * en.indexInArchetype.value.toNat) (by
          rw [q4]
          calc c'.size * en.indexInArchetype.value.toNat ≤ c.size * en.indexInArchetype.value.toNat := Nat.mul_le_mul_right _ hle
            _ < c.size * ct.ents.length := Nat.mul_lt_mul_of_pos_left hkl (by omega)) hty hs
        rw [hu]
        exact ⟨u, rfl⟩
  refine ⟨key.1, key.2.1, key.2.2.1, key.2.2.2, ?_, ?_⟩
  · intro ty ty' n n' size align size' align'
    rw [← UInt16.toNat_inj, hname, hname]
  · intro t t' ht
    show fnv1aHashStr16Xor env t.ident = fnv1aHashStr16Xor env t'.ident
    rw [ht]

set_option maxRecDepth 100000 in
/-- C59 on `exR`: a type with the id of `exA` but another identity, and a type with an unused id. -/
example : Reachable exWorld exR ∧ exWorld.Has exA ∧ exR.hasComponent exEnv exA exE1 = .ok true ∧
    exR.hasComponent exEnv ⟨77, exA.id, exA.size, exA.align⟩ exE1 = .ok true ∧ (77 : Nat) ≠ exA.ty ∧ 0 < exA.size ∧
    exR.getComponent exEnv ⟨77, exA.id, exA.size, exA.align⟩ exE1 = .error (.ub .typeConfusion) ∧
    exR.hasComponent exEnv ⟨77, 99, 4, 4⟩ exE1 = .ok false := by
  refine ⟨exReachable, by show exA ∈ [exA, exB, exC]; decide, ?_⟩
  decide +kernel

end Shard
