import Verif.Proofs.Declared
import Verif.Proofs.CollisionMove
/-!
# C81: what a declared `DESCRIPTOR` does where `add_component` creates an archetype
-/

set_option autoImplicit false

namespace Shard

variable {env : Env} {W : World env} {r r' : Registry}

/-- The fault of the first `add_component` of a component of type `c` that declares the descriptor `d`, if there is one: the
column is allocated with the declared size and alignment, for 128 rows, and written with the real ones. -/
def declaredFault (env : Env) (c : CompTy) (d : ComponentDescriptor) : Option UBKind :=
  if ¬ d.align.isPowerOfTwo then some .layoutMismatch
  else if d.size = 0 ∧ env.zstAllocOk = false then some .zeroSizedAlloc
  else if ¬ c.align ∣ d.align then some .misaligned
  else if 128 * d.size < c.size then some .outOfBounds
  else none

/-- **C81 (partial: exactly when it fails)** `add_component` of a component that declares the descriptor `d`, where it works
and creates an archetype with the default descriptor: it fails exactly as `declaredFault` says. Otherwise it succeeds, and
all components of all entities are read as after the call with the default descriptor. -/
theorem C81_creating_partial (hr : Reachable W r) {e : Entity} {c : CompTy} {d : ComponentDescriptor} {v : Val}
    (hadm : (Call.add e c v).Admissible W r) (hid : d.id = c.id) (hsz : d.align < 65536)
    {o : Registry.Res Unit Val} (h : r.addComponent env e c v = .ok (r', o))
    (hnew : r'.archetypes.archetypes.length ≠ r.archetypes.archetypes.length) :
    (∀ u, declaredFault env c d = some u → r.addComponentWith env e c d v = .error (.ub u)) ∧
    (declaredFault env c d = none → ∃ r2, r.addComponentWith env e c d v = .ok (r2, .ok ()) ∧
      ∀ (x : Entity) (c' : CompTy), W.Has c' →
        r2.getComponent env c' x = r'.getComponent env c' x ∧ r2.hasComponent env c' x = r'.hasComponent env c' x) := by
  have hr' : Reachable W r' := by
    obtain ⟨hist, hh⟩ := hr
    cases o with
    | ok u => exact ⟨_, Steps.snoc hh hadm (run_add_ok h)⟩
    | err w => exact ⟨_, Steps.snoc hh hadm (run_add_err h)⟩
  obtain ⟨cs, hi⟩ := hr.inv
  obtain ⟨cs', hi'⟩ := hr'.inv
  have hs : ∀ {r : Registry} {cs : List Content}, RInv W r cs →
      ∀ a ∈ r.archetypes.archetypes, SortedLt (a.descriptor.components.map (fun e => e.id.toNat)) := by
    intro r cs hi a ha
    obtain ⟨k, hk⟩ := List.mem_iff_getElem?.mp ha
    obtain ⟨ct, _, hrep⟩ := hi.arch.content hk
    exact hrep.desc.wf.sorted
  obtain ⟨b, nd', ins, hb, hre, hlt, hcount, hread, ho, hrun⟩ :=
    Registry.addComponentWith_creating hid hadm.2.1 (hs hi) (hs hi') h hnew
  have hpow : d.align.isPowerOfTwo ↔ powerOfTwo d.align = true := by
    rw [powerOfTwo_iff]
    exact ⟨fun hx => ⟨hsz, hx⟩, fun hx => hx.2⟩
  have hal : ∀ p : Block, p.align = d.align → checkAligned (some p) c.align 0 =
      if c.align ∣ d.align then .ok () else .error (.ub .misaligned) := by
    intro p hp
    unfold checkAligned
    simp only [hp, Nat.zero_mod, and_true, Nat.dvd_iff_mod_eq_zero]
  have hlen : v.encode.length = c.size := by rw [Val.encode_length]; exact hadm.2.1.2
  have hA : allocBlock env (d.size * 128) d.align =
      if ¬ d.align.isPowerOfTwo then .error (.ub .layoutMismatch)
      else if d.size = 0 ∧ env.zstAllocOk = false then .error (.ub .zeroSizedAlloc)
      else .ok ⟨d.align, List.replicate (d.size * 128) none⟩ := by
    have c1 : powerOfTwo d.align = false ↔ ¬ d.align.isPowerOfTwo := by
      rw [hpow]
      simp
    have c2 : (d.size * 128 = 0 ∧ ¬ env.zstAllocOk = true) ↔ (d.size = 0 ∧ env.zstAllocOk = false) :=
      ⟨fun ⟨q1, q2⟩ => ⟨by omega, by simpa using q2⟩, fun ⟨q1, q2⟩ => ⟨by omega, by simpa using q2⟩⟩
    unfold allocBlock
    simp only [c1, c2]
  rw [hrun, hA]
  unfold declaredFault
  by_cases h1 : d.align.isPowerOfTwo
  · have hn1 : ¬ ¬ d.align.isPowerOfTwo := fun hx => hx h1
    rw [if_neg hn1, if_neg hn1]
    by_cases h2 : d.size = 0 ∧ env.zstAllocOk = false
    · rw [if_pos h2, if_pos h2]
      exact ⟨fun u hu => by cases hu; rfl, fun hu => by cases hu⟩
    · rw [if_neg h2, if_neg h2]
      simp only [Except.bind]
      rw [hal _ rfl]
      by_cases h3 : c.align ∣ d.align
      · have hn3 : ¬ ¬ c.align ∣ d.align := fun hx => hx h3
        rw [if_neg hn3, if_pos h3]
        simp only [ok_bind, writeBytes, List.length_replicate]
        by_cases h4 : 128 * d.size < c.size
        · rw [if_pos h4, if_neg (by omega)]
          exact ⟨fun u hu => by cases hu; rfl, fun hu => by cases hu⟩
        · rw [if_neg h4, if_pos (by omega)]
          refine ⟨fun u hu => (by cases hu), fun _ => ⟨_, rfl, fun x c' hW' => ?_⟩⟩
          generalize hq : ({ align := d.align, bytes := _ } : Block) = q
          have hqread : readVal (some q) c.ty c.size c.align 0 = .ok v := by
            refine readVal_written (b := ⟨d.align, List.replicate (d.size * 128) none⟩) hadm.2.1 (by rw [hal _ rfl, if_pos h3]) ?_
            unfold writeBytes
            simp only [List.length_replicate]
            rw [if_pos (by omega), ← hq]
          cases hloc : r'.entities.loc env x with
          | none =>
            rw [(getComponent_noLoc (c := c') hloc).1, (getComponent_noLoc (c := c') hloc).2]
            exact getComponent_noLoc (r := ⟨r'.entities, _⟩) hloc
          | some kj =>
            obtain ⟨k, j⟩ := kj
            obtain ⟨ct, w1, w2⟩ := (hi'.placed _ _ _).mp hloc
            by_cases hk : k = r.archetypes.archetypes.length
            · subst hk
              have hrep := hi'.arch.rep _ _ _ hb w1
              have hj : j = 0 := by
                have := (List.getElem?_eq_some_iff.mp w2).1
                rw [← hrep.count, hcount] at this
                omega
              subst hj
              have hx := getComponent_loc (c := c') (r := ⟨r'.entities, ⟨r'.archetypes.sortedMappings,
                r'.archetypes.archetypes.set r.archetypes.archetypes.length (b.retype nd' ins (some q))⟩⟩) hloc
                (List.getElem?_set_self (List.getElem?_eq_some_iff.mp hb).1)
              rw [hx.1, hx.2, (getComponent_loc (c := c') hloc hb).1, (getComponent_loc (c := c') hloc hb).2]
              have hhas : (b.retype nd' ins (some q)).descriptor.hasComponent c' = b.descriptor.hasComponent c' := by
                unfold ArchetypeDescriptor.hasComponent
                rw [show (b.retype nd' ins (some q)).descriptor = nd' from rfl, hre.search]
              rw [hhas]
              refine ⟨?_, rfl⟩
              split
              · rfl
              · rename_i hc'
                have hmem := (hrep.desc.hasComponent_iff hW').mp (by simpa using hc')
                -- the column of `c'`
                have hgu : (b.retype nd' ins (some q)).getComponentUnchecked c' 0 = b.getComponentUnchecked c' 0 := by
                  by_cases hcc : c' = c
                  · subst hcc
                    rw [hread]
                    have hf : binarySearchByKey b.descriptor.components c'.id.toNat (fun e => e.id.toNat) = .found ins := by
                      have := binarySearchByKey_found hrep.desc.wf.sorted (i := ins) hre.lt
                      rw [hre.id _ (List.getElem?_eq_getElem hre.lt), hid] at this
                      exact this
                    unfold Archetype.getComponentUnchecked Archetype.componentRef
                    rw [show (b.retype nd' ins (some q)).descriptor = nd' from rfl, hre.search, hf]
                    simp only [ok_bind, Archetype.readRef, Nat.mul_zero]
                    unfold index Archetype.retype
                    simp only []
                    rw [List.getElem?_set_self hlt]
                    exact hqread
                  · unfold Archetype.getComponentUnchecked Archetype.componentRef
                    rw [show (b.retype nd' ins (some q)).descriptor = nd' from rfl, hre.search]
                    rcases binarySearchByKey_any b.descriptor.components c'.id.toNat (fun e => e.id.toNat) with ⟨i, hil, hf, hk⟩ | ⟨i, hf, _⟩
                    · rw [hf]
                      have hne : i ≠ ins := by
                        rintro rfl
                        apply hcc
                        apply W.id_inj hW' hadm.1
                        rw [← hid, ← hre.id _ (List.getElem?_eq_getElem hil)]
                        exact (UInt16.toNat.inj hk).symm
                      simp only [ok_bind, Archetype.readRef]
                      unfold index Archetype.retype
                      simp only []
                      rw [List.getElem?_set_ne (Ne.symm hne)]
                    · rw [hf]
                      rfl
                rw [hgu]
            · obtain ⟨a, ha⟩ : ∃ a, r'.archetypes.archetypes[k]? = some a := by
                have := hi'.arch.len
                exact ⟨_, List.getElem?_eq_getElem (by have := (List.getElem?_eq_some_iff.mp w1).1; omega)⟩
              have hx := getComponent_loc (c := c') (r := ⟨r'.entities, ⟨r'.archetypes.sortedMappings,
                r'.archetypes.archetypes.set r.archetypes.archetypes.length (b.retype nd' ins (some q))⟩⟩) hloc
                ((List.getElem?_set_ne (Ne.symm hk)).trans ha)
              rw [hx.1, hx.2, (getComponent_loc (c := c') hloc ha).1, (getComponent_loc (c := c') hloc ha).2]
              exact ⟨rfl, rfl⟩
      · rw [if_pos h3, if_neg h3]
        exact ⟨fun u hu => by cases hu; rfl, fun hu => by cases hu⟩
  · rw [if_pos h1, if_pos h1]
    exact ⟨fun u hu => by cases hu; rfl, fun hu => by cases hu⟩

set_option maxRecDepth 100000 in
theorem exBulkyLengths : ((Call.create [exA] [exValA]).run exEnv Registry.default).bind (fun x =>
      (x.1.addComponent exEnv exE1 exBulky exBulkyVal).map (fun y =>
        (x.1.archetypes.archetypes.length, y.1.archetypes.archetypes.length))) = .ok (1, 2) := by decide +kernel

/-- The hypotheses hold in the state of `C81_violated`, after `create_entity((A(1),))`. -/
theorem exBulkyState : ∃ r r' o, Reachable exBulkyWorld r ∧ (Call.add exE1 exBulky exBulkyVal).Admissible exBulkyWorld r ∧
    r.addComponent exEnv exE1 exBulky exBulkyVal = .ok (r', o) ∧
    r'.archetypes.archetypes.length ≠ r.archetypes.archetypes.length := by
  have h2 := exBulkyLengths
  cases hr : (Call.create [exA] [exValA]).run exEnv Registry.default with
  | error f => rw [hr] at h2; cases h2
  | ok x =>
    obtain ⟨r, out⟩ := x
    rw [hr] at h2
    have hA : exBulkyWorld.Has exA := List.mem_cons_self
    have hL : exBulkyWorld.Has exBulky := List.mem_cons_of_mem _ List.mem_cons_self
    have h2 : (r.addComponent exEnv exE1 exBulky exBulkyVal).map (fun y =>
        (r.archetypes.archetypes.length, y.1.archetypes.archetypes.length)) = .ok (1, 2) := h2
    cases hx : r.addComponent exEnv exE1 exBulky exBulkyVal with
    | error f => rw [hx] at h2; cases h2
    | ok y =>
      rw [hx] at h2
      have h3 : (r.archetypes.archetypes.length, y.1.archetypes.archetypes.length) = (1, 2) := Except.ok.inj h2
      refine ⟨r, y.1, y.2, ⟨_, Steps.snoc (call := .create [exA] [exValA]) Steps.nil ⟨typedCheck_ok (by decide), fun _ =>
        ⟨fun c hc => by rw [List.mem_singleton] at hc; rw [hc]; exact hA,
         exBulkyUsed (by
             have hn := (Group.idSet_perm [exA]).nodup_iff.mpr (show (List.map (fun c => c.id) [exA]).Nodup by decide)
             exact ((Group.idSet_sorted [exA]).and hn).imp (fun ⟨a, b⟩ => UInt16.lt_of_le_of_ne a b))
           (by rw [← List.length_pos_iff, (Group.idSet_perm [exA]).length_eq]; decide)
           (fun i hi => by have := (Group.idSet_perm [exA]).mem_iff.mp hi; simp [exA] at this; exact Or.inl this)⟩⟩ hr⟩,
        ⟨hL, ⟨rfl, by simp [exBulkyVal, exBulky]⟩, ?_⟩, hx, ?_⟩
      · intro _ s hs
        refine exBulkyUsed hs.1 (fun hn => ?_) (fun i hi => ?_)
        · have := (hs.2 40).mpr (Or.inl rfl)
          rw [hn] at this
          cases this
        · rcases (hs.2 i).mp hi with rfl | ⟨c, hc, rfl, _⟩
          · exact Or.inr rfl
          · have hc : c ∈ [exA, exBulky] := hc
            simp only [List.mem_cons, List.not_mem_nil, or_false] at hc
            rcases hc with rfl | rfl
            · exact Or.inl rfl
            · exact Or.inr rfl
      · rw [(Prod.mk.inj h3).1, (Prod.mk.inj h3).2]
        decide

/-- Declared with 2 bytes instead of 129, the first 128 rows take 256 bytes, so the first entity is stored and read as it
should be; with 1 byte they take 128, and the write is out of bounds; with alignment 3 the allocation itself is undefined. -/
example : ∃ (r r' : Registry) (o : Registry.Res Unit Val), r.addComponent exEnv exE1 exBulky exBulkyVal = .ok (r', o) ∧
    (∃ r2 : Registry, r.addComponentWith exEnv exE1 exBulky { exBulky.descriptor with size := 2 } exBulkyVal = .ok (r2, .ok ()) ∧
      r2.getComponent exEnv exBulky exE1 = r'.getComponent exEnv exBulky exE1) ∧
    r.addComponentWith exEnv exE1 exBulky exWrong exBulkyVal = .error (.ub .outOfBounds) ∧
    r.addComponentWith exEnv exE1 exBulky { exBulky.descriptor with align := 3 } exBulkyVal = .error (.ub .layoutMismatch) := by
  obtain ⟨r, r', o, hr, hadm, h, hn⟩ := exBulkyState
  refine ⟨r, r', o, h, ?_, ?_, ?_⟩
  · obtain ⟨r2, q1, q2⟩ := (C81_creating_partial (d := { exBulky.descriptor with size := 2 }) hr hadm rfl (by decide) h hn).2 (by
      decide +kernel)
    exact ⟨r2, q1, (q2 _ _ hadm.1).1⟩
  · exact (C81_creating_partial (d := exWrong) hr hadm rfl (by decide) h hn).1 _ (by decide +kernel)
  · exact (C81_creating_partial (d := { exBulky.descriptor with align := 3 }) hr hadm rfl (by decide) h hn).1 _ (by decide +kernel)

end Shard
