import Verif.Model.UnsafeCalls
import Verif.Proofs.RemoveAny
import Verif.Proofs.RegistryMove
import Verif.Proofs.Step
import Verif.Proofs.IterProps
/-!
# The recorded functions compute what the model's functions compute
-/

set_option autoImplicit false

namespace Shard.UnsafeCalls

section
variable {α β : Type}

@[simp] theorem res_bind (x : T α) (f : α → T β) : (x >>= f).res = (x.res >>= fun a => (f a).res) := by
  show (T.bind x f).res = _
  unfold T.bind
  cases x.res <;> rfl

@[simp] theorem res_pure (a : α) : (pure a : T α).res = .ok a := rfl
@[simp] theorem res_lift (m : M α) : (lift m).res = m := rfl
@[simp] theorem res_note (u : UCall) : (note u).res = .ok () := rfl
@[simp] theorem ok_bind' (a : α) (f : α → M β) : ((Except.ok a : M α) >>= f) = f a := rfl
@[simp] theorem bind_ok (m : M α) : (m >>= fun a => (.ok a : M α)) = m := by cases m <;> rfl
end

section
variable (env : Env) (a : Archetype) (g : Group) (c : CompTy) (i j : Nat) (r : Registry) (e : Entity)

theorem getComponent_res : (getComponent a c i).res = a.getComponentUnchecked c i := by simp [getComponent]
theorem getComponentMut_res : (getComponentMut a c i).res = a.getComponentUncheckedMut c i := by simp [getComponentMut]
theorem readComponent_res : (readComponent a c i).res = a.readComponentUnchecked c i := by simp [readComponent]
theorem writeComponent_res (v : Val) : (writeComponent a c i v).res = a.writeSingleComponentUnchecked c i v := by
  simp [writeComponent]
theorem fuzzyPointers_res : (fuzzyPointers env a g i).res = .ok (a.getFuzzyPointersUnchecked env g i) := by
  simp [fuzzyPointers]
theorem fuzzyComponents_res : (fuzzyComponents env a g i).res = a.getFuzzyComponentsUnchecked env g i := by
  simp [fuzzyComponents, fuzzyPointers_res, Archetype.getFuzzyComponentsUnchecked]
theorem fuzzyComponentsMut_res : (fuzzyComponentsMut env a g i).res = a.getFuzzyComponentsUncheckedMut env g i := by
  simp [fuzzyComponentsMut, fuzzyPointers_res, Archetype.getFuzzyComponentsUncheckedMut]; rfl
theorem fuzzySlices_res : (fuzzySlices env a g).res = a.getFuzzySlicesUnchecked env g := by
  simp [fuzzySlices, fuzzyPointers_res, Archetype.getFuzzySlicesUnchecked]
theorem fuzzySlicesMut_res : (fuzzySlicesMut env a g).res = a.getFuzzySlicesUncheckedMut env g := by
  simp [fuzzySlicesMut, fuzzyPointers_res, Archetype.getFuzzySlicesUncheckedMut]; rfl
theorem entityFuzzySlices_res : (entityFuzzySlices env a g).res = a.getEntityFuzzySlicesUnchecked env g := by
  simp [entityFuzzySlices, fuzzyPointers_res, Archetype.getEntityFuzzySlicesUnchecked]; rfl
theorem entityFuzzySlicesMut_res : (entityFuzzySlicesMut env a g).res = a.getEntityFuzzySlicesUncheckedMut env g := by
  simp [entityFuzzySlicesMut, fuzzyPointers_res, Archetype.getEntityFuzzySlicesUncheckedMut]; rfl
theorem exactSlices_res : (exactSlices env a g).res = a.getSlicesUncheckedExact env g := by simp [exactSlices]
theorem exactSlicesMut_res : (exactSlicesMut env a g).res = a.getSlicesUncheckedExactMut env g := by simp [exactSlicesMut]
theorem writeEntity_res (vals : List Val) : (writeEntity env a i e g vals).res = a.writeEntityUnchecked env i e g vals := by
  simp [writeEntity]
theorem pushEntity_res (vals : List Val) : (pushEntity env a e g vals).res = a.pushEntityUnchecked env e g vals := by
  simp [pushEntity, writeEntity_res, Archetype.pushEntityUnchecked]; rfl
theorem decrementLen_res : (decrementLen env a).res = a.decrementLenUnchecked env := by simp [decrementLen]
theorem swapEntities_res : (swapEntities a i j).res = a.swapEntities i j := by simp [swapEntities]
theorem dropEntity_res : (dropEntity a i).res = a.dropEntity i := by simp [dropEntity]
theorem readExact_res : (readExact env a g i).res = a.readComponentsExactUnchecked env g i := by simp [readExact]
theorem copyCommon_res (b : Archetype) : (copyCommon a i b j).res = Archetype.copyCommonComponents a i b j := by
  simp [copyCommon]
theorem getUnchecked_res (ar : ArchetypeRegistry) (k : UInt16) : (getUnchecked ar k).res = ar.getUnchecked k := by
  simp [getUnchecked]

/-- Carry `res` into an `if`. -/
theorem res_ite {α : Type} (p : Prop) [Decidable p] (x y : T α) : (if p then x else y).res = if p then x.res else y.res := by
  split <;> rfl

theorem swapDrop_res : (swapDrop env a i).res = a.swapDropUnchecked env i := by
  simp [swapDrop, res_ite, dropEntity_res, swapEntities_res, Archetype.swapDropUnchecked]; rfl
theorem swapToLast_res : (swapToLast env a i).res = a.swapToLastUnchecked env i := by
  simp [swapToLast, res_ite, swapEntities_res, Archetype.swapToLastUnchecked]; rfl
theorem swapRemove_res : (swapRemove env a g i).res = a.swapRemoveUnchecked env g i := by
  simp [swapRemove, res_ite, readExact_res, swapEntities_res, Archetype.swapRemoveUnchecked]; rfl

theorem createEntry_res (er : EntityRegistry) (iia : IndexInArchetype) (ai : ArchetypeIndex) :
    (createEntry env er iia ai).res = er.createEntity env iia ai := by
  unfold createEntry
  split
  · rfl
  · split
    · simp
    · next h1 h2 =>
      simp only [res_bind, res_lift, res_note, ok_bind']
      cases hx : er.entities[er.nextFreeSlot.toNat]? with
      | some en => rw [index_of_getElem? hx]; rfl
      | none =>
        unfold EntityRegistry.createEntity
        rw [if_neg h1, if_neg h2]
        simp only [index, hx]
        rfl

theorem destroyEntry_res (er : EntityRegistry) : (destroyEntry env er e).res = .ok (er.destroyEntity env e) := by
  unfold destroyEntry
  split <;> simp

theorem createEntity_res (vals : List Val) : (createEntity env r g vals).res = r.createEntity env g vals := by
  unfold createEntity Registry.createEntity
  rw [res_ite]
  split
  · rfl
  · simp only [res_bind, res_lift]
    congr 1
    funext f
    cases f.2 with
    | none => rfl
    | some ai =>
      simp only [res_bind, res_lift, createEntry_res]
      congr 1; funext a; congr 1; funext iia; congr 1; funext aix; congr 1; funext c
      cases c.2 with
      | none => rfl
      | some e => simp only [res_bind, pushEntity_res]; rfl

theorem destroyEntity_res : (destroyEntity env r e).res = r.destroyEntity env e := by
  unfold destroyEntity Registry.destroyEntity
  cases r.entities.entityEntry env e with
  | none => rfl
  | some entry =>
    simp only [res_bind, res_lift, getUnchecked_res, swapDrop_res, destroyEntry_res, ok_bind']; rfl

theorem removeEntity_res : (removeEntity env r g e).res = r.removeEntity env g e := by
  unfold removeEntity Registry.removeEntity
  cases r.entities.entityEntry env e with
  | none => rfl
  | some entry =>
    simp only [res_bind, res_lift, getUnchecked_res, swapRemove_res, destroyEntry_res, ok_bind']; rfl

theorem hasComponent_res : (hasComponent env r c e).res = r.hasComponent env c e := by
  unfold hasComponent Registry.hasComponent
  cases r.entities.entityEntry env e with
  | none => rfl
  | some entry =>
    simp only [res_bind, getUnchecked_res]; rfl

theorem hasComponents_res : (hasComponents env r g e).res = r.hasComponents env g e := by
  unfold hasComponents Registry.hasComponents
  cases r.entities.entityEntry env e with
  | none => rfl
  | some entry =>
    simp only [res_bind, getUnchecked_res]; rfl

theorem getComponentOf_res : (getComponentOf env r c e).res = r.getComponent env c e := by
  unfold getComponentOf Registry.getComponent
  cases r.entities.entityEntry env e with
  | none => rfl
  | some entry =>
    simp only [res_bind, res_ite, getUnchecked_res, getComponent_res]; rfl

theorem getComponentsOf_res : (getComponentsOf env r g e).res = r.getComponents env g e := by
  unfold getComponentsOf Registry.getComponents
  cases r.entities.entityEntry env e with
  | none => rfl
  | some entry =>
    simp only [res_bind, res_ite, getUnchecked_res, fuzzyComponents_res]; rfl

theorem getComponentMutOf_res : (getComponentMutOf env r c e).res = r.getComponentMut env c e := by
  unfold getComponentMutOf Registry.getComponentMut
  cases r.entities.entityEntry env e with
  | none => rfl
  | some entry =>
    simp only [res_bind, res_ite, getUnchecked_res, getComponentMut_res]; rfl

theorem getComponentsMutOf_res : (getComponentsMutOf env r g e).res = r.getComponentsMut env g e := by
  unfold getComponentsMutOf Registry.getComponentsMut
  cases r.entities.entityEntry env e with
  | none => rfl
  | some entry =>
    simp only [res_bind, res_ite, getUnchecked_res, fuzzyComponentsMut_res]; rfl

theorem addComponent_res (v : Val) : (addComponent env r e c v).res = r.addComponent env e c v := by
  unfold addComponent Registry.addComponent
  cases r.entities.entityEntry env e with
  | none => rfl
  | some entry =>
    simp only [res_bind, res_lift]
    congr 1
    funext f
    cases f.2 with
    | none => rfl
    | some t =>
      obtain ⟨si, dai, di⟩ := t
      simp only [res_bind, res_lift, swapToLast_res, copyCommon_res, writeComponent_res, decrementLen_res]
      rfl

theorem removeComponent_res : (removeComponent env r e c).res = r.removeComponent env e c := by
  unfold removeComponent Registry.removeComponent
  cases r.entities.entityEntry env e with
  | none => rfl
  | some entry =>
    simp only [res_bind, res_lift]
    congr 1
    funext f
    cases f.2 with
    | none => rfl
    | some t =>
      obtain ⟨si, dai, di⟩ := t
      simp only [res_bind, res_lift, swapToLast_res, copyCommon_res, readComponent_res, decrementLen_res]
      rfl

theorem collect_res {α : Type} (filter : ArchetypeDescriptor → Bool) (ar : ArchetypeRegistry) (f : Archetype → T α)
    (f' : Archetype → M α) (hf : ∀ a, (f a).res = f' a) : ∀ (n : Nat) (it : ArchIter),
    (collect env g filter ar f n it).res = it.collect env g filter ar f' n
  | 0, _ => rfl
  | n + 1, it => by
    unfold collect ArchIter.collect
    simp only [res_bind, res_lift]
    congr 1
    funext s
    cases s.1 with
    | none => rfl
    | some i =>
      simp only [res_bind, res_lift, hf, collect_res filter ar f f' hf n]
      rfl

theorem iterate_res {α : Type} (filter : ArchetypeDescriptor → Bool) (ar : ArchetypeRegistry) (f : Archetype → T α)
    (f' : Archetype → M α) (hf : ∀ a, (f a).res = f' a) : (iterate env ar g filter f).res = ar.iterate env g filter f' := by
  unfold iterate ArchetypeRegistry.iterate
  simp only [res_bind, res_lift, collect_res env g filter ar f f' hf]

theorem exact_res : (exact env r g true).res = r.iterEntityComponentsExact env g := by
  unfold exact Registry.iterEntityComponentsExact
  simp only [res_bind, res_lift]
  congr 1
  funext o
  cases o with
  | none => rfl
  | some i => simp only [res_bind, res_lift, exactSlices_res, if_true]; rfl

theorem exactOnly_res : (do let x ← (exact env r g false).res; pure x.2) = r.iterComponentsExact env g := by
  unfold exact Registry.iterComponentsExact
  simp only [res_bind, res_lift, bind_assoc]
  congr 1
  funext o
  cases o with
  | none => rfl
  | some i =>
    simp only [res_bind, res_lift, exactSlices_res, bind_assoc]
    congr 1
    funext a
    simp only [Bool.false_eq_true, if_false, ok_bind', res_pure]
    exact bind_ok _

theorem exactMut_res : (exactMut env r g true).res = r.iterEntityComponentsExactMut env g := by
  unfold exactMut Registry.iterEntityComponentsExactMut
  simp only [res_bind, res_lift]
  congr 1
  funext o
  cases o with
  | none => rfl
  | some i => simp only [res_bind, res_lift, exactSlicesMut_res, if_true]; rfl

theorem exactMutOnly_res : (do let x ← (exactMut env r g false).res; pure (x.map fun y => (y.1, y.2.2))) =
    r.iterComponentsExactMut env g := by
  unfold exactMut Registry.iterComponentsExactMut
  simp only [res_bind, res_lift, bind_assoc]
  congr 1
  funext o
  cases o with
  | none => rfl
  | some i =>
    simp only [res_bind, res_lift, exactSlicesMut_res, bind_assoc]
    congr 1

end

end Shard.UnsafeCalls
