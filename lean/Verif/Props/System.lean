import Verif.Spec.System
import Verif.Proofs.Parallel
import Verif.Proofs.IterProps
import Verif.Props.Transfer
import Verif.Props.ScriptIter
/-!
# Client code that updates entities through a mutable iterator: properties
-/

set_option autoImplicit false

namespace Shard

variable {env : Env} {W : World env} {r : Registry} {cs : List Content} {g : Group}

/-- The tuple of an entity with the components `f`. -/
def tupleOf (g : Group) (f : CompTy → Option Val) : List Val := g.map (fun c => (f c).getD default)

/-- The components after the members `g` have been replaced by `vals`. -/
def putAll (g : Group) (vals : List Val) (f : CompTy → Option Val) : CompTy → Option Val :=
  fun c => (lookupTy g vals c).or (f c)

/-- Row `k` of the slices `ss` of archetype `ai` belongs to `e`. -/
def RowRefs (env : Env) (r : Registry) (cs : List Content) (g : Group) (row : Nat × List SliceRef × Nat) (e : Entity) : Prop :=
  row.2.1.map (fun s => s.cty) = g ∧ ∀ s ∈ row.2.1, row.2.2 < s.len ∧ RefTo env r cs e s.cty row.1 (s.elem row.2.2)

theorem RInv.readElem_eq (h : RInv W r cs) {e : Entity} {f : CompTy → Option Val} (hf : r.look env cs e = some f) {ai k : Nat}
    {s : SliceRef} (hk : k < s.len) (hp : RefTo env r cs e s.cty ai (s.elem k)) :
    readElem r ai k s = .ok ((f s.cty).getD default) ∧ (f s.cty).isSome := by
  obtain ⟨kk, j, ct, q1, q2, q3, q4⟩ := hp
  obtain ⟨a, ha, hr⟩ := h.arch.arch q2
  rw [show r.look env cs e = some (fun c => ct.get c kk) from look_of q1 q2] at hf
  injection hf with hf
  subst hf
  obtain ⟨ct', q5, q6⟩ := (h.placed _ _ _).mp q1
  rw [q2] at q5; cases q5
  obtain ⟨v, hv, _⟩ := hr.get_some (List.mem_of_getElem? q3) (List.getElem?_eq_some_iff.mp q6).1
  unfold readElem
  rw [if_pos hk, index_of_getElem? ha]
  simp only [ok_bind]
  rw [q4, hr.readRef_ok q3 hv, hv]
  exact ⟨rfl, rfl⟩

theorem RInv.readRow_eq (h : RInv W r cs) {e : Entity} {f : CompTy → Option Val} (hf : r.look env cs e = some f) {ai k : Nat} :
    ∀ (ss : List SliceRef), (∀ s ∈ ss, k < s.len ∧ RefTo env r cs e s.cty ai (s.elem k)) →
      ss.mapM (readElem r ai k) = .ok (tupleOf (ss.map (fun s => s.cty)) f)
  | [], _ => rfl
  | s :: ss, hs => by
    obtain ⟨h1, h2⟩ := hs s List.mem_cons_self
    rw [List.mapM_cons, (h.readElem_eq hf h1 h2).1]
    simp only [ok_bind]
    rw [h.readRow_eq hf ss (fun s hs' => hs s (List.mem_cons_of_mem _ hs'))]
    rfl

theorem SameShape.refl (r : Registry) (cs : List Content) : SameShape r cs r cs := ⟨rfl, rfl, fun _ => rfl, fun _ => rfl⟩

theorem SameShape.trans {r₁ r₂ r₃ : Registry} {c₁ c₂ c₃ : List Content} (h : SameShape r₁ c₁ r₂ c₂)
    (h' : SameShape r₂ c₂ r₃ c₃) : SameShape r₁ c₁ r₃ c₃ :=
  ⟨h'.ents.trans h.ents, h'.maps.trans h.maps, fun i => (h'.descs i).trans (h.descs i),
    fun i => (h'.conts i).trans (h.conts i)⟩

theorem RInv.writeElems_eq {e : Entity} {ai k : Nat} : ∀ (ss : List SliceRef) (vs : List Val) {r : Registry} {cs : List Content}
    {f : CompTy → Option Val}, RInv W r cs → Reachable W r → r.look env cs e = some f → (∀ s ∈ ss, W.Has s.cty) →
    (ss.map (fun s => s.cty)).Nodup → TypedVals (ss.map (fun s => s.cty)) vs →
    (∀ s ∈ ss, k < s.len ∧ RefTo env r cs e s.cty ai (s.elem k)) →
    ∃ r' cs', writeElems ai k r ss vs = .ok r' ∧ RInv W r' cs' ∧ Reachable W r' ∧
      (∀ x, r'.look env cs' x = if x = e then some (putAll (ss.map (fun s => s.cty)) vs f) else r.look env cs x) ∧
      (∀ e' c' ai' p', RefTo env r cs e' c' ai' p' → RefTo env r' cs' e' c' ai' p') ∧ SameShape r cs r' cs'
  | [], vs, r, cs, f, h, hR, hf, _, _, _, _ => by
    refine ⟨r, cs, by unfold writeElems; rfl, h, hR, fun x => ?_, fun _ _ _ _ hp => hp, SameShape.refl _ _⟩
    split
    · rename_i hx
      subst hx
      rw [hf]
      unfold putAll
      simp [lookupTy]
    · rfl
  | s :: ss, [], r, cs, f, _, _, _, _, _, ht, _ => by
    have := ht.1
    simp at this
  | s :: ss, v :: vs, r, cs, f, h, hR, hf, hW, hnd, ht, hs => by
    obtain ⟨hk, hp⟩ := hs s List.mem_cons_self
    have hvt : v.HasTy s.cty := ht.2 0 _ _ rfl rfl
    have hWs := hW s List.mem_cons_self
    obtain ⟨r1, cs1, f', old, a, s1, s2, s3, s4, s5, s6, s7, s8, s9, s10, _, s12, _⟩ := h.store hp hvt
    rw [hf] at s3
    injection s3 with s3
    subst s3
    have hrun : r.replaceAt ai s.cty (s.elem k) v = .ok (r1, old) := by
      unfold Registry.replaceAt
      rw [s5]
      simp only [ok_bind]
      rw [s6]
      simp only [ok_bind]
      rw [s1]
      rfl
    have hR1 : Reachable W r1 := hR.snoc (call := .write e s.cty v) ⟨hWs, hvt⟩ (h.replace_write hWs hp hvt hrun)
    have hf1 := s7 e
    rw [if_pos rfl] at hf1
    simp only [List.map_cons, List.nodup_cons] at hnd
    have ht' : TypedVals (ss.map (fun s => s.cty)) vs := by
      refine ⟨?_, fun i c w h1 h2 => ht.2 (i + 1) c w (by simpa using h1) (by simpa using h2)⟩
      have := ht.1
      simp at this ⊢
      exact this
    obtain ⟨r2, cs2, t1, t2, t3, t4, t5, t6⟩ := RInv.writeElems_eq (e := e) (ai := ai) (k := k) ss vs s2 hR1 hf1
      (fun s' hs' => hW s' (List.mem_cons_of_mem _ hs')) hnd.2 ht'
      (fun s' hs' => ⟨(hs s' (List.mem_cons_of_mem _ hs')).1, s10 _ _ _ _ (hs s' (List.mem_cons_of_mem _ hs')).2⟩)
    refine ⟨r2, cs2, ?_, t2, t3, fun x => ?_, fun _ _ _ _ hq => t5 _ _ _ _ (s10 _ _ _ _ hq), s12.trans t6⟩
    · unfold writeElems
      rw [if_pos hk, hrun]
      exact t1
    · rw [t4 x]
      by_cases hx : x = e
      · rw [if_pos hx, if_pos hx]
        congr 1
        funext c
        unfold putAll
        simp only [List.map_cons, lookupTy]
        by_cases hc : s.cty = c
        · subst hc
          rw [lookupTy_none hnd.1, if_pos rfl, if_pos rfl]
          rfl
        · rw [if_neg hc, if_neg (fun hh => hc hh.symm)]
      · rw [if_neg hx, if_neg hx, s7 x, if_neg hx]

/-- The rows are updated one after the other. -/
theorem RInv.rows_eq {F : List Val → List Val} (hg : ∀ c ∈ g, W.Has c) (hn : g.Nodup)
    (hF : ∀ vals, TypedVals g vals → TypedVals g (F vals)) (E : Nat × List SliceRef × Nat → Entity) :
    ∀ (rows : List (Nat × List SliceRef × Nat)) {r : Registry} {cs : List Content}, RInv W r cs → Reachable W r →
      (rows.map E).Nodup → (∀ row ∈ rows, RowRefs env r cs g row (E row) ∧ ∃ f, r.look env cs (E row) = some f) →
      ∃ r' cs', rows.foldlM (updateRow F) r = .ok r' ∧ RInv W r' cs' ∧ Reachable W r' ∧
        (∀ x, r'.look env cs' x = if x ∈ rows.map E then (r.look env cs x).map (fun f => putAll g (F (tupleOf g f)) f)
          else r.look env cs x) ∧ SameShape r cs r' cs'
  | [], r, cs, h, hR, _, _ => ⟨r, cs, rfl, h, hR, fun x => by simp, SameShape.refl _ _⟩
  | row :: rows, r, cs, h, hR, hnd, hrow => by
    obtain ⟨⟨hm, href⟩, f, hf⟩ := hrow row List.mem_cons_self
    have hrd := h.readRow_eq hf row.2.1 href
    rw [hm] at hrd
    have htyped : TypedVals g (tupleOf g f) := by
      refine ⟨by simp [tupleOf], fun i c v h1 h2 => ?_⟩
      unfold tupleOf at h2
      rw [List.getElem?_map, h1] at h2
      simp only [Option.map_some, Option.some.injEq] at h2
      have hmem := List.mem_of_getElem? h1
      rw [← hm] at hmem
      obtain ⟨s, hs, rfl⟩ := List.mem_map.mp hmem
      obtain ⟨w, hw⟩ := Option.isSome_iff_exists.mp (h.readElem_eq hf (href s hs).1 (href s hs).2).2
      rw [hw] at h2
      rw [← h2]
      exact h.look_typed hf hw
    obtain ⟨r1, cs1, t1, t2, t3, t4, t5, t6⟩ := RInv.writeElems_eq (e := E row) (ai := row.1) (k := row.2.2) row.2.1
      (F (tupleOf g f)) h hR hf (fun s hs => hg _ (by rw [← hm]; exact List.mem_map.mpr ⟨s, hs, rfl⟩)) (by rw [hm]; exact hn)
      (by rw [hm]; exact hF _ htyped) href
    rw [hm] at t4
    simp only [List.map_cons, List.nodup_cons] at hnd
    have hne : ∀ row' ∈ rows, E row' ≠ E row := fun row' hr' he => hnd.1 (List.mem_map.mpr ⟨row', hr', he⟩)
    obtain ⟨r2, cs2, u1, u2, u3, u4, u5⟩ := RInv.rows_eq hg hn hF E rows t2 t3 hnd.2 (fun row' hr' => by
      obtain ⟨⟨w1, w2⟩, f', w3⟩ := hrow row' (List.mem_cons_of_mem _ hr')
      refine ⟨⟨w1, fun s hs => ⟨(w2 s hs).1, t5 _ _ _ _ (w2 s hs).2⟩⟩, f', ?_⟩
      rw [t4, if_neg (hne row' hr'), w3])
    refine ⟨r2, cs2, ?_, u2, u3, fun x => ?_, t6.trans u5⟩
    · rw [List.foldlM_cons]
      unfold updateRow
      rw [hrd]
      simp only [ok_bind]
      rw [t1]
      exact u1
    · rw [u4 x, t4 x]
      by_cases hx : x = E row
      · subst hx
        rw [if_neg hnd.1, if_pos rfl, if_pos (by simp), hf]
        rfl
      · rw [if_neg hx]
        by_cases hm' : x ∈ rows.map E
        · rw [if_pos hm', if_pos (by simp only [List.map_cons, List.mem_cons]; exact Or.inr hm')]
        · rw [if_neg hm', if_neg (by simp only [List.map_cons, List.mem_cons]; exact fun hh => hh.elim hx hm')]

/-- The rows of the items of an iterator, and the entities they belong to. -/
theorem RInv.system_rows (h : RInv W r cs) (hv : (g.descriptor env).isValid = true) {items : List (Nat × List SliceRef)}
    (h3 : ∀ x ∈ items, ∃ ct, cs[x.1]? = some ct ∧ (∀ c ∈ g, c ∈ ct.cts) ∧ x.2 = sliceRefs ct.cts g ct.ents.length) :
    ∃ E : Nat × List SliceRef × Nat → Entity,
      (items.flatMap rowsOfItem).map E = (items.map Prod.fst).flatMap (fun i => (contentAt cs i).ents) ∧
      ∀ row ∈ items.flatMap rowsOfItem, RowRefs env r cs g row (E row) ∧ ∃ f, r.look env cs (E row) = some f := by
  have hne : g ≠ [] := Script.valid_ne hv
  let E : Nat × List SliceRef × Nat → Entity := fun row => ((contentAt cs row.1).ents[row.2.2]?).getD ⟨0⟩
  have hrows : ∀ (x : Nat × List SliceRef) (ct : Content), x.2 = sliceRefs ct.cts g ct.ents.length →
      rowsOfItem x = (List.range ct.ents.length).map (fun k => (x.1, x.2, k)) := by
    intro x ct hss
    unfold rowsOfItem
    cases hgc : g with
    | nil => exact absurd hgc hne
    | cons c g' =>
      rw [hss, hgc]
      rfl
  have hE : (items.flatMap rowsOfItem).map E = (items.map Prod.fst).flatMap (fun i => (contentAt cs i).ents) := by
    rw [List.map_flatMap, List.flatMap_map]
    induction items with
    | nil => rfl
    | cons x xs ih =>
      rw [List.flatMap_cons, List.flatMap_cons, ih (fun y hy => h3 y (List.mem_cons_of_mem _ hy))]
      congr 1
      obtain ⟨ct, hc, hs, hss⟩ := h3 x List.mem_cons_self
      rw [hrows x ct hss, contentAt_of hc, List.map_map]
      refine List.ext_getElem (by simp) (fun k q1 q2 => ?_)
      simp only [List.getElem_map, List.getElem_range, Function.comp, E]
      rw [contentAt_of hc, List.getElem?_eq_getElem q2]
      rfl
  refine ⟨E, hE, ?_⟩
  · intro row hrow
    obtain ⟨x, hx, hrx⟩ := List.mem_flatMap.mp hrow
    obtain ⟨ct, hc, hs, hss⟩ := h3 x hx
    rw [hrows x ct hss] at hrx
    obtain ⟨k, hk, rfl⟩ := List.mem_map.mp hrx
    rw [List.mem_range] at hk
    have hek := List.getElem?_eq_getElem hk
    have he : E (x.1, x.2, k) = ct.ents[k] := by
      simp only [E]
      rw [contentAt_of hc, hek]
      rfl
    rw [he]
    refine ⟨⟨?_, fun s hsm => ?_⟩, _, h.row_look hc hek⟩
    · show x.2.map (fun s => s.cty) = g
      rw [hss]
      unfold sliceRefs
      rw [List.map_map]
      exact List.map_id _
    · simp only at hsm ⊢
      rw [hss] at hsm
      obtain ⟨j, hj⟩ := List.mem_iff_getElem?.mp hsm
      have hsl : s.len = ct.ents.length := by
        obtain ⟨c, _, rfl⟩ := List.mem_map.mp hsm
        rfl
      have hks : k < s.len := by rw [hsl]; exact hk
      obtain ⟨c, e, w1, w2, w3, w4⟩ := h.slice_ref hc hs hj hks
      rw [hek] at w3
      injection w3 with w3
      rw [w3, w2]
      exact ⟨hks, w4⟩

theorem RInv.system_eq (h : RInv W r cs) (hR : Reachable W r) {F : List Val → List Val} (hg : ∀ c ∈ g, W.Has c)
    (hv : (g.descriptor env).isValid = true) (hF : ∀ vals, TypedVals g vals → TypedVals g (F vals)) {it : MutIter}
    {items : List (Nat × List SliceRef)} (h1 : it.items env r g = .ok items) (h2 : (items.map Prod.fst).Nodup)
    (h3 : ∀ x ∈ items, ∃ ct, cs[x.1]? = some ct ∧ (∀ c ∈ g, c ∈ ct.cts) ∧ x.2 = sliceRefs ct.cts g ct.ents.length) :
    ((items.map Prod.fst).flatMap (fun i => (contentAt cs i).ents)).Nodup ∧
    ∃ r' cs', runSystem env it g F r = .ok r' ∧ RInv W r' cs' ∧ Reachable W r' ∧
      (∀ x, r'.look env cs' x = if x ∈ (items.map Prod.fst).flatMap (fun i => (contentAt cs i).ents)
        then (r.look env cs x).map (fun f => putAll g (F (tupleOf g f)) f) else r.look env cs x) ∧
      SameShape r cs r' cs' := by
  have hfn := h.flat_nodup h2
  refine ⟨hfn, ?_⟩
  have hn : g.Nodup := nodup_of_map (Group.spec hv).wf.nodup
  obtain ⟨E, hE, hrow⟩ := h.system_rows hv h3
  obtain ⟨r', cs', u1, u2, u3, u4, u5⟩ := RInv.rows_eq hg hn hF E (items.flatMap rowsOfItem) h hR (by rw [hE]; exact hfn) hrow
  rw [hE] at u4
  exact ⟨r', cs', by unfold runSystem; rw [h1]; exact u1, u2, u3, u4, u5⟩

theorem RInv.updated {r' : Registry} {cs' : List Content} (h : RInv W r cs) (h' : RInv W r' cs') {F : List Val → List Val}
    (hg : ∀ c ∈ g, W.Has c) (hv : (g.descriptor env).isValid = true) (hF : ∀ vals, TypedVals g vals → TypedVals g (F vals))
    {e : Entity} (hm : Matches env r g e)
    (hl : r'.look env cs' e = (r.look env cs e).map (fun f => putAll g (F (tupleOf g f)) f)) : TupleUpdated W g F r r' e := by
  have hn : g.Nodup := nodup_of_map (Group.spec hv).wf.nodup
  obtain ⟨f, hf⟩ := h.live_iff.mp hm.1
  rw [hf] at hl
  simp only [Option.map_some] at hl
  have hall : ∀ c ∈ g, (f c).isSome := fun c hc => (h.has_iff hf (hg c hc)).mp (hm.2 c hc)
  have htyped : TypedVals g (tupleOf g f) := by
    refine ⟨by simp [tupleOf], fun i c v h1 h2 => ?_⟩
    unfold tupleOf at h2
    rw [List.getElem?_map, h1] at h2
    simp only [Option.map_some, Option.some.injEq] at h2
    obtain ⟨w, hw⟩ := Option.isSome_iff_exists.mp (hall c (List.mem_of_getElem? h1))
    rw [hw] at h2
    rw [← h2]
    exact h.look_typed hf hw
  have hin : ∀ c ∈ g, putAll g (F (tupleOf g f)) f c = lookupTy g (F (tupleOf g f)) c ∧
      (putAll g (F (tupleOf g f)) f c).isSome := by
    intro c hc
    obtain ⟨w, hw, _⟩ := lookupTy_isSome (hF _ htyped) hn hc
    unfold putAll
    rw [hw]
    exact ⟨rfl, rfl⟩
  have hout : ∀ c, c ∉ g → putAll g (F (tupleOf g f)) f c = f c := by
    intro c hc
    unfold putAll
    rw [lookupTy_none hc]
    rfl
  refine ⟨h'.live_iff.mpr ⟨_, hl⟩, ⟨tupleOf g f, htyped, ?_, ?_⟩, fun c hc => ?_, fun c hc hcg => ?_⟩
  · rw [h.getComponents_eq hg hv, hf]
    simp only [Option.bind_some]
    rw [if_pos (show hasAll f g = true from List.all_eq_true.mpr hall)]
    rfl
  · rw [h'.getComponents_eq hg hv, hl]
    simp only [Option.bind_some]
    rw [if_pos (show hasAll (putAll g (F (tupleOf g f)) f) g = true from List.all_eq_true.mpr (fun c hc => (hin c hc).2))]
    congr 2
    refine Eq.trans ?_ (map_lookupTy (hF _ htyped) hn)
    exact List.map_congr_left (fun c hc => by rw [(hin c hc).1])
  · rw [h'.hasComponent_eq hc, h.hasComponent_eq hc, hl, hf]
    simp only [Option.bind_some]
    by_cases hcg : c ∈ g
    · rw [(hin c hcg).2, hall c hcg]
    · rw [hout c hcg]
  · rw [h'.getComponent_eq hc, h.getComponent_eq hc, hl, hf]
    simp only [Option.bind_some]
    rw [hout c hcg]

theorem RInv.sameEntity_of_look {r' : Registry} {cs' : List Content} (h : RInv W r cs) (h' : RInv W r' cs') {e : Entity}
    (hl : r'.look env cs' e = r.look env cs e) : SameEntity W r r' e := by
  refine ⟨by rw [h'.live_iff, h.live_iff, hl], fun c hc => ⟨?_, ?_⟩⟩
  · rw [h'.hasComponent_eq hc, h.hasComponent_eq hc, hl]
  · rw [h'.getComponent_eq hc, h.getComponent_eq hc, hl]

/-- **C114** A system that runs over any of the mutable iterators never faults; it visits each entity at most once, replaces
the tuple of every entity it visits by the function of the tuple the entity had when the loop began, and changes nothing
else. -/
theorem C114_system (hr : Reachable W r) (hg : ∀ c ∈ g, W.Has c) (hv : (g.descriptor env).isValid = true)
    {it : MutIter} (hit : it.Ok W g) {F : List Val → List Val} (hF : ∀ vals, TypedVals g vals → TypedVals g (F vals)) :
    ∃ r', ∃ es : List Entity, runSystem env it g F r = .ok r' ∧ Reachable W r' ∧ es.Nodup ∧ (∀ e ∈ es, Matches env r g e) ∧
      (∀ e ∈ es, TupleUpdated W g F r r' e) ∧ ∀ e, e ∉ es → SameEntity W r r' e := by
  obtain ⟨cs, h⟩ := hr.inv
  obtain ⟨items, h1, h2, h3⟩ := h.items_spec hg hv it hit
  obtain ⟨hn, r', cs', u1, u2, u3, u4, _⟩ := h.system_eq hr hg hv hF h1 h2 h3
  have hm : ∀ e ∈ (items.map Prod.fst).flatMap (fun i => (contentAt cs i).ents), Matches env r g e := by
    intro e he
    obtain ⟨i, hi, hei⟩ := List.mem_flatMap.mp he
    obtain ⟨x, hx, rfl⟩ := List.mem_map.mp hi
    obtain ⟨ct, hc, hs, _⟩ := h3 x hx
    rw [contentAt_of hc] at hei
    exact h.row_matches hc hei hs
  refine ⟨r', _, u1, u3, hn, hm, fun e he => ?_, fun e he => ?_⟩
  · have := u4 e
    rw [if_pos he] at this
    exact h.updated u2 hg hv hF (hm e he) this
  · have := u4 e
    rw [if_neg he] at this
    exact h.sameEntity_of_look u2 this

open Classical in
theorem RInv.matching_eq (h : RInv W r cs) (hR : Reachable W r) (hg : ∀ c ∈ g, W.Has c)
    (hv : (g.descriptor env).isValid = true) {F : List Val → List Val} (hF : ∀ vals, TypedVals g vals → TypedVals g (F vals)) :
    ∃ r' cs', runSystem env .matching g F r = .ok r' ∧ RInv W r' cs' ∧ Reachable W r' ∧
      ∀ x, r'.look env cs' x = if Matches env r g x then (r.look env cs x).map (fun f => putAll g (F (tupleOf g f)) f)
        else r.look env cs x := by
  obtain ⟨items, h1, h2, h3⟩ := h.items_spec hg hv .matching trivial
  obtain ⟨hn, r', cs', u1, u2, u3, u4, _⟩ := h.system_eq hR hg hv hF h1 h2 h3
  have hm : ∀ e, e ∈ (items.map Prod.fst).flatMap (fun i => (contentAt cs i).ents) ↔ Matches env r g e := by
    intro e
    constructor
    · intro he
      obtain ⟨i, hi, hei⟩ := List.mem_flatMap.mp he
      obtain ⟨x, hx, rfl⟩ := List.mem_map.mp hi
      obtain ⟨ct, hc, hs, _⟩ := h3 x hx
      rw [contentAt_of hc] at hei
      exact h.row_matches hc hei hs
    · intro he
      obtain ⟨i, k, ct, q1, q2, q3⟩ := h.matches_row hg he
      have hit : (MutIter.matching).items env r g = _ := h.iterFilteredComponentsMatchingMut_eq (filter := fun _ => true) hg hv
      rw [h1] at hit
      injection hit with hit
      subst hit
      obtain ⟨a, ha, _⟩ := h.arch.arch q1
      have hy := (h.arch.mem_yielded hg hv (filter := fun _ => true)).mpr ⟨a, ct, ha, q1, q3, rfl⟩
      refine List.mem_flatMap.mpr ⟨i, ?_, by rw [contentAt_of q1]; exact List.mem_of_getElem? q2⟩
      rw [List.map_map]
      exact List.mem_map.mpr ⟨i, hy, rfl⟩
  refine ⟨r', cs', u1, u2, u3, fun x => ?_⟩
  rw [u4 x]
  by_cases hx : Matches env r g x
  · rw [if_pos hx, if_pos ((hm x).mpr hx)]
  · rw [if_neg hx, if_neg (fun hh => hx ((hm x).mp hh))]

/-- **C114** Over `iter_components_matching_mut` it updates every entity that has the components, and only these. -/
theorem C114_all (hr : Reachable W r) (hg : ∀ c ∈ g, W.Has c) (hv : (g.descriptor env).isValid = true)
    {F : List Val → List Val} (hF : ∀ vals, TypedVals g vals → TypedVals g (F vals)) :
    ∃ r', runSystem env .matching g F r = .ok r' ∧ Reachable W r' ∧
      (∀ e, Matches env r g e → TupleUpdated W g F r r' e) ∧ ∀ e, ¬ Matches env r g e → SameEntity W r r' e := by
  obtain ⟨cs, h⟩ := hr.inv
  obtain ⟨r', cs', u1, u2, u3, u4⟩ := h.matching_eq hr hg hv hF
  refine ⟨r', u1, u3, fun e he => ?_, fun e he => ?_⟩
  · have := u4 e
    rw [if_pos he] at this
    exact h.updated u2 hg hv hF he this
  · have := u4 e
    rw [if_neg he] at this
    exact h.sameEntity_of_look u2 this

theorem tupleOf_putAll {g g' : Group} (hd : ∀ c ∈ g, c ∉ g') (vals : List Val) (f : CompTy → Option Val) :
    tupleOf g (putAll g' vals f) = tupleOf g f := by
  refine List.map_congr_left (fun c hc => ?_)
  unfold putAll
  rw [lookupTy_none (hd c hc)]
  rfl

theorem putAll_comm {g g' : Group} (hd : ∀ c ∈ g, c ∉ g') (vals vals' : List Val) (f : CompTy → Option Val) :
    putAll g vals (putAll g' vals' f) = putAll g' vals' (putAll g vals f) := by
  funext c
  unfold putAll
  by_cases hc : c ∈ g
  · rw [lookupTy_none (hd c hc)]
    rfl
  · rw [lookupTy_none hc]
    rfl

/-- **C114** Two systems whose tuples have no component type in common can be run in either order: every query has the
same answer afterwards. -/
theorem C114_commute (hr : Reachable W r) {g' : Group} (hg : ∀ c ∈ g, W.Has c) (hv : (g.descriptor env).isValid = true)
    (hg' : ∀ c ∈ g', W.Has c) (hv' : (g'.descriptor env).isValid = true) (hd : ∀ c ∈ g, c ∉ g')
    {F F' : List Val → List Val} (hF : ∀ vals, TypedVals g vals → TypedVals g (F vals))
    (hF' : ∀ vals, TypedVals g' vals → TypedVals g' (F' vals)) :
    ∃ r₁ r₂ r₁₂ r₂₁, runSystem env .matching g F r = .ok r₁ ∧ runSystem env .matching g' F' r₁ = .ok r₁₂ ∧
      runSystem env .matching g' F' r = .ok r₂ ∧ runSystem env .matching g F r₂ = .ok r₂₁ ∧
      Reachable W r₁₂ ∧ Reachable W r₂₁ ∧ ∀ e, SameEntity W r₁₂ r₂₁ e := by
  obtain ⟨cs, h⟩ := hr.inv
  obtain ⟨r₁, c₁, a1, a2, a3, a4⟩ := h.matching_eq hr hg hv hF
  obtain ⟨r₂, c₂, b1, b2, b3, b4⟩ := h.matching_eq hr hg' hv' hF'
  obtain ⟨r₁₂, c₁₂, d1, d2, d3, d4⟩ := a2.matching_eq a3 hg' hv' hF'
  obtain ⟨r₂₁, c₂₁, e1, e2, e3, e4⟩ := b2.matching_eq b3 hg hv hF
  refine ⟨r₁, r₂, r₁₂, r₂₁, a1, d1, b1, e1, d3, e3, fun x => d2.sameEntity_of_look e2 ?_⟩
  obtain ⟨r₁', q1, _, q2, q3⟩ := C114_all hr hg hv hF
  rw [a1] at q1; cases q1
  obtain ⟨r₂', p1, _, p2, p3⟩ := C114_all hr hg' hv' hF'
  rw [b1] at p1; cases p1
  have hm₁ : Matches env r₁ g' x ↔ Matches env r g' x := by
    by_cases hx : Matches env r g x
    · obtain ⟨w1, _, w2, _⟩ := q2 x hx
      exact ⟨fun hh => ⟨hx.1, fun c hc => by rw [← w2 c (hg' c hc)]; exact hh.2 c hc⟩,
        fun hh => ⟨w1, fun c hc => by rw [w2 c (hg' c hc)]; exact hh.2 c hc⟩⟩
    · obtain ⟨w1, w2⟩ := q3 x hx
      exact ⟨fun hh => ⟨w1.mp hh.1, fun c hc => by rw [← (w2 c (hg' c hc)).1]; exact hh.2 c hc⟩,
        fun hh => ⟨w1.mpr hh.1, fun c hc => by rw [(w2 c (hg' c hc)).1]; exact hh.2 c hc⟩⟩
  have hm₂ : Matches env r₂ g x ↔ Matches env r g x := by
    by_cases hx : Matches env r g' x
    · obtain ⟨w1, _, w2, _⟩ := p2 x hx
      exact ⟨fun hh => ⟨hx.1, fun c hc => by rw [← w2 c (hg c hc)]; exact hh.2 c hc⟩,
        fun hh => ⟨w1, fun c hc => by rw [w2 c (hg c hc)]; exact hh.2 c hc⟩⟩
    · obtain ⟨w1, w2⟩ := p3 x hx
      exact ⟨fun hh => ⟨w1.mp hh.1, fun c hc => by rw [← (w2 c (hg c hc)).1]; exact hh.2 c hc⟩,
        fun hh => ⟨w1.mpr hh.1, fun c hc => by rw [(w2 c (hg c hc)).1]; exact hh.2 c hc⟩⟩
  have hd' : ∀ c ∈ g', c ∉ g := fun c hc hc' => hd c hc' hc
  rw [d4 x, e4 x, a4 x, b4 x]
  by_cases k1 : Matches env r g x <;> by_cases k2 : Matches env r g' x
  · rw [if_pos (hm₂.mpr k1), if_pos k2, if_pos (hm₁.mpr k2), if_pos k1]
    cases r.look env cs x with
    | none => rfl
    | some f =>
      simp only [Option.map_some]
      rw [tupleOf_putAll hd, tupleOf_putAll hd', putAll_comm hd]
  · rw [if_pos (hm₂.mpr k1), if_neg k2, if_neg (fun hh => k2 (hm₁.mp hh)), if_pos k1]
  · rw [if_neg (fun hh => k1 (hm₂.mp hh)), if_pos k2, if_pos (hm₁.mpr k2), if_neg k1]
  · rw [if_neg (fun hh => k1 (hm₂.mp hh)), if_neg k2, if_neg (fun hh => k2 (hm₁.mp hh)), if_neg k1]

/-! ## Examples -/

/-- A system that adds one to every byte of every member of the tuple. -/
def exSystem (vals : List Val) : List Val := vals.map (fun v => ⟨v.ty, v.bytes.map (· + 1)⟩)

theorem exSystem_typed {g : Group} {vals : List Val} (h : TypedVals g vals) : TypedVals g (exSystem vals) := by
  refine ⟨by simp [exSystem, h.1], fun i c v h1 h2 => ?_⟩
  unfold exSystem at h2
  rw [List.getElem?_map] at h2
  obtain ⟨w, hw, rfl⟩ := Option.map_eq_some_iff.mp h2
  obtain ⟨q1, q2⟩ := h.2 i c w h1 hw
  exact ⟨q1, by simpa using q2⟩

set_option maxRecDepth 100000 in
/-- C114 on the example registry: `A` is incremented for the two entities that have it, which are in two archetypes; their
other components and the third entity stay as they are. -/
example : Reachable exWorld exR ∧ (∀ vals, TypedVals [exA] vals → TypedVals [exA] (exSystem vals)) ∧
    okOr none ((runSystem exEnv .matching [exA] exSystem exR).map (fun r => some
      ([exE1, exE2, exE4].map (fun e => okOr none (r.getComponent exEnv exA e)),
        okOr none (r.getComponent exEnv exB exE1), okOr none (r.getComponent exEnv exC exE4)))) =
      some ([some ⟨1, [2, 3, 4, 5]⟩, some ⟨1, [6, 7, 8, 9]⟩, none], some exValB, some exValC) :=
  ⟨exReachable, fun _ h => exSystem_typed h, by decide +kernel⟩

set_option maxRecDepth 100000 in
/-- C114: two systems over `(A, B)` and `C`, in both orders. -/
example : (∀ c ∈ [exA, exB], c ∉ [exC]) ∧
    okOr none ((runSystem exEnv .matching [exA, exB] exSystem exR).bind (fun r =>
      (runSystem exEnv .matching [exC] exSystem r).map (fun r => some
        ([exA, exB, exC].map (fun c => okOr none (r.getComponent exEnv c exE1)))))) =
      some [some ⟨1, [2, 3, 4, 5]⟩, some ⟨2, [10, 10, 10, 10, 9, 9, 9, 9]⟩, some ⟨3, [43, 44]⟩] ∧
    okOr none ((runSystem exEnv .matching [exC] exSystem exR).bind (fun r =>
      (runSystem exEnv .matching [exA, exB] exSystem r).map (fun r => some
        ([exA, exB, exC].map (fun c => okOr none (r.getComponent exEnv c exE1)))))) =
      some [some ⟨1, [2, 3, 4, 5]⟩, some ⟨2, [10, 10, 10, 10, 9, 9, 9, 9]⟩, some ⟨3, [43, 44]⟩] := by
  decide +kernel

end Shard
