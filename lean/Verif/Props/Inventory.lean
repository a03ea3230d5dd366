import Verif.Spec.Inventory
import Verif.Props.Rebuild
/-!
# C129: what a registry contains can be listed, saved and restored
-/

set_option autoImplicit false

namespace Shard

open Script

variable {env : Env} {W : World env} {r : Registry}

theorem typesOf_eq (hr : Reachable W r) (e : Entity) : ∀ (l : List CompTy), (∀ c ∈ l, W.Has c) →
    typesOf env r e l = .ok (l.filter (fun c => decide (r.hasComponent env c e = .ok true)))
  | [], _ => rfl
  | c :: l, h => by
    obtain ⟨cs, i⟩ := hr.inv
    unfold typesOf
    rw [typesOf_eq hr e l (fun c' hc => h c' (List.mem_cons_of_mem _ hc)), List.filter_cons,
      i.hasComponent_eq (h c List.mem_cons_self)]
    cases ((r.look env cs e).bind (fun f => f c)).isSome <;> simp [ok_bind] <;> rfl

/-- **C129** The list names every live entity once, with exactly the components it has, of which there are between 1 and 14. -/
theorem C129_inventory (hr : Reachable W r) {types : List CompTy} (ht : ∀ c, W.Has c ↔ c ∈ types) (hn : types.Nodup) :
    ∃ l, takeInventory env types r = .ok l ∧ Inventory W r l ∧ l.map Prod.fst = r.iterEntities env ∧
      ∀ x ∈ l, typesOf env r x.1 types = .ok x.2 ∧ x.2.Nodup ∧ 1 ≤ x.2.length ∧ x.2.length ≤ 14 := by
  let F : Entity → Entity × Group := fun e => (e, types.filter (fun c => decide (r.hasComponent env c e = .ok true)))
  have hfst : ((r.iterEntities env).map F).map Prod.fst = r.iterEntities env := by
    rw [List.map_map]
    exact List.map_id _
  refine ⟨(r.iterEntities env).map F, ?_, ⟨?_, fun e => ?_, fun x hx => ?_⟩, hfst, fun x hx => ?_⟩
  · unfold takeInventory
    refine mapM_ok (g := F) _ (fun e _ => ?_)
    rw [typesOf_eq hr e types (fun c hc => (ht c).mpr hc)]
    rfl
  · rw [hfst]
    obtain ⟨hist, hs⟩ := hr
    have h := C09_entity_iteration hs
    exact h.1.nodup_iff.mpr h.2.1
  · rw [hfst]
    exact Iff.rfl
  · obtain ⟨e, he, rfl⟩ := List.mem_map.mp hx
    refine ⟨he, fun c hc => ?_⟩
    simp only [F, List.mem_filter, decide_eq_true_eq]
    exact ⟨fun h => ⟨(ht c).mp hc, h⟩, fun h => h.2⟩
  · obtain ⟨e, he, rfl⟩ := List.mem_map.mp hx
    refine ⟨typesOf_eq hr e types (fun c hc => (ht c).mpr hc), hn.filter _, ?_⟩
    obtain ⟨cs, i⟩ := hr.inv
    obtain ⟨f, hf⟩ := i.live_iff.mp he
    obtain ⟨en, hen⟩ := i.look_some hf
    have hloc : r.entities.loc env e = some ((en.archetypeIndex env).toNat, en.indexInArchetype.value.toNat) := by
      unfold EntityRegistry.loc
      rw [hen]
      rfl
    obtain ⟨ct, q1, q2⟩ := (i.placed _ _ _).mp hloc
    obtain ⟨a, ha, hrep⟩ := i.arch.arch q1
    have hlook := i.row_look q1 q2
    have hperm : (F e).2.Perm ct.cts := by
      have hnd : ct.cts.Nodup := (List.pairwise_map.mp hrep.desc.nodup).imp (fun h he => h (by rw [he]))
      refine (List.perm_ext_iff_of_nodup (hn.filter _) hnd).mpr (fun c => ?_)
      rw [List.mem_filter, decide_eq_true_eq]
      constructor
      · rintro ⟨hc, hh⟩
        have := (i.has_iff hlook ((ht c).mpr hc)).mp hh
        obtain ⟨v, hv⟩ := Option.isSome_iff_exists.mp this
        exact (hrep.mem_of_get hv).1
      · intro hc
        have hW := hrep.desc.has c hc
        obtain ⟨v, hv, _⟩ := hrep.get_some hc (List.getElem?_eq_some_iff.mp q2).1
        exact ⟨(ht c).mp hW, (i.has_iff hlook hW).mpr (by rw [hv]; rfl)⟩
    rw [hperm.length_eq]
    exact ⟨hrep.desc.pos, hrep.desc.le⟩

/-- **C129** What is listed can be copied into an empty registry, which then answers every query as the original does, with
handles that correspond one to one. -/
theorem C129_restore (hr : Reachable W r) {types : List CompTy} (ht : ∀ c, W.Has c ↔ c ∈ types) (hn : types.Nodup)
    (hok : ∀ (e : Entity) (g : Group), Live env r e → typesOf env r e types = .ok g →
      W.OkGroup g ∧ (g.descriptor env).isValid = true)
    (hroom : Roomy W [] (r.iterEntities env).length) :
    ∃ l dst es, takeInventory env types r = .ok l ∧ copyAll env r Registry.default l = .ok (some (dst, es)) ∧
      Reachable W dst ∧ es.length = (r.iterEntities env).length ∧ es.Nodup ∧ (∀ e, Live env dst e ↔ e ∈ es) ∧
      ∀ (n : Nat) (e e' : Entity), (r.iterEntities env)[n]? = some e → es[n]? = some e' → SameAs W r e dst e' := by
  obtain ⟨l, h1, h2, h3, h4⟩ := C129_inventory hr ht hn
  have hlen : l.length = (r.iterEntities env).length := by rw [← h3, List.length_map]
  have hok' : ∀ x ∈ l, W.OkGroup x.2 ∧ (x.2.descriptor env).isValid = true :=
    fun x hx => hok x.1 x.2 (h2.2.2 x hx).1 (h4 x hx).1
  obtain ⟨dst, es, p1, p2, p3, p4, p5, p6, _⟩ := C122_rebuild hr h2 hok' (by rw [hlen]; exact hroom)
  refine ⟨l, dst, es, h1, p1, p2, by rw [p3, hlen], p4, p5, fun n e e' q1 q2 => ?_⟩
  rw [← h3, List.getElem?_map] at q1
  cases hx : l[n]? with
  | none => rw [hx] at q1; cases q1
  | some x =>
    rw [hx] at q1
    cases q1
    exact p6 n x e' hx q2

set_option maxRecDepth 100000 in
/-- C129: the hypotheses hold for the example registry. -/
example : Reachable exWorld exR ∧ (∀ c, exWorld.Has c ↔ c ∈ [exA, exB, exC]) ∧ [exA, exB, exC].Nodup ∧
    (∀ (e : Entity) (g : Group), Live exEnv exR e → typesOf exEnv exR e [exA, exB, exC] = .ok g →
      exWorld.OkGroup g ∧ (g.descriptor exEnv).isValid = true) ∧ Roomy exWorld [] (exR.iterEntities exEnv).length := by
  refine ⟨exReachable, fun c => Iff.rfl, by decide, fun e g he hg => ?_, ⟨.inl (by decide +kernel), by decide +kernel⟩⟩
  have h : ∀ e ∈ exR.iterEntities exEnv, (Group.descriptor exEnv (okOr [] (typesOf exEnv exR e [exA, exB, exC]))).isValid = true ∧
      createCheck [exA, exB, exC] [[10], [20], [30], [10, 20], [10, 30], [20, 30], [10, 20, 30]]
        (okOr [] (typesOf exEnv exR e [exA, exB, exC]))
        ((okOr none (exR.getComponents exEnv (okOr [] (typesOf exEnv exR e [exA, exB, exC])) e)).getD []) = true := by
    decide +kernel
  have h' := h e he
  rw [hg] at h'
  exact ⟨(createCheck_ok h'.2 exR).2, h'.1⟩

set_option maxRecDepth 100000 in
/-- C129: the list of the example registry, computed. -/
example : okOr [] (takeInventory exEnv [exA, exB, exC] exR) = [(exE1, [exA, exB, exC]), (exE2, [exA]), (exE4, [exC])] := by
  decide +kernel

end Shard
