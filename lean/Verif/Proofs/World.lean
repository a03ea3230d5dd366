import Verif.Spec.World
import Verif.Proofs.Descriptors
/-!
# Descriptors that belong to a world
-/

namespace Shard

/-- The archetype id depends on the component ids only. -/
theorem computeArchetypeId_congr (env : Env) {ds ds' : List ComponentDescriptor}
    (h : ds.map (fun d => d.id) = ds'.map (fun d => d.id)) :
    ArchetypeDescriptor.computeArchetypeId env ds = ArchetypeDescriptor.computeArchetypeId env ds' := by
  have hl : ds.length = ds'.length := by have := congrArg List.length h; simpa using this
  have hb : ArchetypeDescriptor.idBytes env ds = ArchetypeDescriptor.idBytes env ds' := by
    unfold ArchetypeDescriptor.idBytes
    rw [hl]
    congr 1
    funext bytes i
    have hg : ∀ l : List ComponentDescriptor, (l.getD i ComponentDescriptor.INVALID).id =
        (l.map (fun d => d.id)).getD i 65535 := by
      intro l
      simp only [List.getD, List.getElem?_map]
      cases l[i]? <;> rfl
    rw [hg ds, hg ds', h]
  unfold ArchetypeDescriptor.computeArchetypeId
  match ds, ds', h, hl, hb with
  | [], [], _, _, _ => rfl
  | [d], [d'], h, _, _ => simp at h; simp [h]
  | _ :: _ :: _, _ :: _ :: _, _, _, hb => simp only [hb]

theorem plainId_eq (env : Env) (ds : List ComponentDescriptor) :
    ArchetypeDescriptor.computeArchetypeId env ds = plainId env (ds.map (fun d => d.id)) := by
  unfold plainId
  apply computeArchetypeId_congr
  rw [List.map_map, List.map_map]
  rfl

theorem groupId_eq (env : Env) (ds : List ComponentDescriptor) :
    ArchetypeDescriptor.computeArchetypeId env
      (ds ++ List.replicate (MAX_COMPONENTS_PER_ENTITY - ds.length) ComponentDescriptor.INVALID) =
      groupId env (ds.map (fun d => d.id)) := by
  unfold groupId
  apply computeArchetypeId_congr
  rw [List.map_append, List.map_append, List.map_map, List.map_map, List.length_map]
  rfl

theorem sorted_perm_ids {l l' : List UInt16} (h : l.Pairwise (fun a b => a ≤ b)) (h' : l'.Pairwise (fun a b => a ≤ b))
    (hp : l.Perm l') : l = l' :=
  List.Perm.eq_of_pairwise (fun _ _ _ _ h1 h2 => UInt16.le_antisymm h1 h2) h h' hp

theorem Group.idSet_perm (g : Group) : g.idSet.Perm (g.map (fun c => c.id)) := List.mergeSort_perm _ _

theorem Group.idSet_sorted (g : Group) : g.idSet.Pairwise (fun a b => a ≤ b) := by
  have := List.pairwise_mergeSort (le := fun (a b : UInt16) => decide (a ≤ b))
    (by intro a b c h1 h2; simp only [decide_eq_true_eq] at *; exact UInt16.le_trans h1 h2)
    (by intro a b; simp only [Bool.or_eq_true, decide_eq_true_eq]; exact UInt16.le_total a b)
    (g.map (fun c => c.id))
  exact this.imp (by intro a b h; simpa using h)

theorem WFDesc.ids_sorted {d : ArchetypeDescriptor} (h : WFDesc d) : d.ids.Pairwise (fun a b => a < b) := by
  have := h.sorted
  unfold SortedLt at this
  unfold ArchetypeDescriptor.ids
  rw [List.pairwise_map] at this ⊢
  exact this.imp (by intro a b h; exact UInt16.lt_iff_toNat_lt.mpr h)

theorem GroupSpec.ids_eq {env : Env} {g : Group} (h : GroupSpec env g) :
    (g.descriptor env).archetype.ids = g.idSet := by
  apply sorted_perm_ids (h.desc.ids_sorted.imp UInt16.le_of_lt) g.idSet_sorted
  refine List.Perm.trans ?_ g.idSet_perm.symm
  have := h.perm.map (fun c => c.id)
  rwa [List.map_map] at this

theorem GroupSpec.archetypeId_eq {env : Env} {g : Group} (h : GroupSpec env g) :
    (g.descriptor env).archetype.archetypeId = groupId env (g.descriptor env).archetype.ids := by
  rw [h.id]
  unfold Group.archetypeId ArchetypeDescriptor.ids
  rw [← groupId_eq]
  congr 1
  obtain ⟨s, hs, hperm, _⟩ := ComponentGroupDescriptor.computeSortedDescriptors_spec
    (ds := g.map CompTy.descriptor) (by simpa using h.wf.le)
  have hid : g.archetypeId env ≠ ARCHETYPE_ID_INVALID := (Group.isValid_iff.mp h.valid).2
  have hde := Group.descriptor_eq h.wf hid
  have hsl : s.length = g.length := by rw [hperm.length_eq, List.length_map]
  have hc : (g.descriptor env).archetype.components = s := by
    rw [hde]
    simp only [ArchetypeDescriptor.components, hs]
    rw [← hsl, List.take_left']
    rfl
  rw [hc, hs, List.length_map, hsl]

/-- A descriptor with the component types `cts`, belonging to the world `W`. -/
structure DescOK {env : Env} (W : World env) (d : ArchetypeDescriptor) (cts : List CompTy) : Prop where
  wf : WFDesc d
  valid : d.isValid = true
  comps : d.components = cts.map CompTy.descriptor
  has : ∀ c ∈ cts, W.Has c
  used : W.Used d.ids
  id : d.archetypeId = plainId env d.ids ∨ d.archetypeId = groupId env d.ids

namespace DescOK

variable {env : Env} {W : World env} {d : ArchetypeDescriptor} {cts : List CompTy}

theorem ids_eq (h : DescOK W d cts) : d.ids = cts.map (fun c => c.id) := by
  unfold ArchetypeDescriptor.ids
  rw [h.comps, List.map_map]; rfl

theorem length (h : DescOK W d cts) : cts.length = d.len := by
  rw [← h.wf.components_length, h.comps, List.length_map]

theorem clen (h : DescOK W d cts) : d.components.length = cts.length := by
  rw [h.comps, List.length_map]

theorem le (h : DescOK W d cts) : cts.length ≤ 14 := by rw [h.length]; exact h.wf.len_le

theorem pos (h : DescOK W d cts) : 1 ≤ cts.length := by rw [h.length]; exact h.wf.len_pos

theorem nodup (h : DescOK W d cts) : (cts.map (fun c => c.id)).Nodup := by
  rw [← h.ids_eq]; exact h.wf.ids_nodup

theorem comp_getElem? (h : DescOK W d cts) {i : Nat} {c : CompTy} (hc : cts[i]? = some c) :
    d.components[i]? = some c.descriptor := by
  rw [h.comps, List.getElem?_map, hc]; rfl

theorem index_comp (h : DescOK W d cts) {i : Nat} {c : CompTy} (hc : cts[i]? = some c) :
    index d.components i = .ok c.descriptor := index_of_getElem? (h.comp_getElem? hc)

theorem id_inj (h : DescOK W d cts) {i j : Nat} {c c' : CompTy} (hi : cts[i]? = some c) (hj : cts[j]? = some c')
    (he : c.id = c'.id) : i = j := by
  have h1 := h.comp_getElem? hi
  have h2 := h.comp_getElem? hj
  obtain ⟨k1, e1⟩ := List.getElem?_eq_some_iff.mp h1
  obtain ⟨k2, e2⟩ := List.getElem?_eq_some_iff.mp h2
  apply h.wf.id_inj k1 k2
  rw [e1, e2]; exact he

theorem hasComponent_iff (h : DescOK W d cts) {c : CompTy} (hc : W.Has c) : d.hasComponent c = true ↔ c ∈ cts := by
  rw [h.wf.hasComponent_iff, h.ids_eq, List.mem_map]
  constructor
  · rintro ⟨x, hx, he⟩
    rw [← W.id_inj (h.has x hx) hc he]; exact hx
  · intro hm; exact ⟨c, hm, rfl⟩

theorem search (h : DescOK W d cts) {i : Nat} {c : CompTy} (hc : cts[i]? = some c) :
    binarySearchByKey d.components c.id.toNat (fun e => e.id.toNat) = .found i := by
  obtain ⟨hi, he⟩ := List.getElem?_eq_some_iff.mp (h.comp_getElem? hc)
  have := h.wf.search_found hi
  rwa [he] at this

/-- Two descriptors of the same world with equal ids and lengths have the same component types. -/
theorem unique (h : DescOK W d cts) {d' : ArchetypeDescriptor} {cts' : List CompTy} (h' : DescOK W d' cts')
    (hl : d.len = d'.len) (hid : d.archetypeId = d'.archetypeId) : cts = cts' := by
  have hids : d.ids = d'.ids := by
    have hlen : d.ids.length = d'.ids.length := by rw [h.wf.ids_length, h'.wf.ids_length, hl]
    rcases h.id with e | e <;> rcases h'.id with e' | e'
    · exact W.noClash h.used h'.used hlen (Or.inl (by rw [← e, ← e', hid]))
    · exact W.noClash h.used h'.used hlen (Or.inr (Or.inl (by rw [← e, ← e', hid])))
    · exact (W.noClash h'.used h.used hlen.symm (Or.inr (Or.inl (by rw [← e, ← e', hid])))).symm
    · exact W.noClash h.used h'.used hlen (Or.inr (Or.inr (by rw [← e, ← e', hid])))
  rw [h.ids_eq, h'.ids_eq] at hids
  have hlen : cts.length = cts'.length := by have := congrArg List.length hids; simpa using this
  apply List.ext_getElem hlen
  intro i hi hi'
  apply W.id_inj (h.has _ (List.getElem_mem hi)) (h'.has _ (List.getElem_mem hi'))
  have := congrArg (fun l => l[i]?) hids
  simpa [hi, hi'] using this

end DescOK

namespace World

variable {env : Env} (W : World env)

theorem desc_size {c : CompTy} (h : W.Has c) : c.descriptor.size = c.size := Nat.mod_eq_of_lt (W.size_lt h)
theorem desc_align {c : CompTy} (h : W.Has c) : c.descriptor.align = c.align := Nat.mod_eq_of_lt (W.align_lt h)

end World

/-- The component types of a group's archetype, in column order. -/
def Group.cts (env : Env) (g : Group) : List CompTy :=
  (List.range g.length).map (fun k => g.getD ((g.descriptor env).sortedToUnsorted.getD k 0) ⟨0, 0, 0, 0⟩)

theorem Group.cts_comps {env : Env} {g : Group} (h : GroupSpec env g) :
    (g.descriptor env).archetype.components = (g.cts env).map CompTy.descriptor := by
  apply List.ext_getElem?
  intro k
  by_cases hk : k < g.length
  · obtain ⟨h1, h2⟩ := h.sortedToUnsorted hk
    rw [h2, List.getElem?_map]
    unfold Group.cts
    rw [List.getElem?_map, List.getElem?_range hk]
    simp only [Option.map_some]
    clear h2
    generalize (g.descriptor env).sortedToUnsorted.getD k 0 = j at h1 ⊢
    simp [List.getD, h1]
  · rw [List.getElem?_eq_none (by rw [h.components_length]; omega), List.getElem?_eq_none]
    simp [Group.cts]; omega

theorem Group.cts_perm {env : Env} {g : Group} (h : GroupSpec env g) {W : World env} (hW : ∀ c ∈ g, W.Has c) :
    (g.cts env).length = g.length ∧ (∀ c ∈ g.cts env, W.Has c) ∧
    ∀ i (hi : i < g.length), (g.cts env)[g.slot env i]? = some g[i] := by
  have hl : (g.cts env).length = g.length := by simp [Group.cts]
  have hmem : ∀ c ∈ g.cts env, c ∈ g := by
    intro c hc
    unfold Group.cts at hc
    obtain ⟨k, hk, rfl⟩ := List.mem_map.mp hc
    rw [List.mem_range] at hk
    obtain ⟨h1, _⟩ := h.sortedToUnsorted hk
    rw [List.getD, List.getElem?_eq_getElem h1]
    exact List.getElem_mem h1
  refine ⟨hl, fun c hc => hW c (hmem c hc), ?_⟩
  intro i hi
  have h1 := h.slot i hi
  rw [Group.cts_comps h, List.getElem?_map] at h1
  cases hx : (g.cts env)[g.slot env i]? with
  | none => rw [hx] at h1; cases h1
  | some c =>
    rw [hx] at h1
    have he : c.descriptor = g[i].descriptor := by simpa using h1
    have : c.id = g[i].id := congrArg ComponentDescriptor.id he
    rw [W.id_inj (hW c (hmem c (List.mem_of_getElem? hx))) (hW _ (List.getElem_mem hi)) this]

/-- The descriptor of a valid group of the world. -/
theorem Group.descOK {env : Env} {W : World env} {g : Group} (hg : W.OkGroup g) (hv : (g.descriptor env).isValid = true) :
    DescOK W (g.descriptor env).archetype (g.cts env) := by
  have h := Group.spec hv
  refine ⟨h.desc, h.valid, Group.cts_comps h, (Group.cts_perm h hg.has).2.1, ?_, Or.inr h.archetypeId_eq⟩
  rw [h.ids_eq]; exact hg.used

end Shard
