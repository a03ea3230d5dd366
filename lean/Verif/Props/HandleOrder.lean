import Verif.Spec.Handles
import Verif.Props.Lifecycle
/-!
# C85: handles depend on the order of creations and destructions only
-/

set_option autoImplicit false

namespace Shard

variable {env : Env} {W : World env} {r : Registry} {cs : List Content}

theorem createdHandles_snoc (h : List (Call × Outcome)) (x : Call × Outcome) :
    createdHandles (h ++ [x]) = createdHandles h ++ x.2.created.toList := by
  unfold createdHandles
  rw [List.filterMap_append]
  cases hx : x.2.created <;> simp [hx]

theorem pattern_snoc (x : Call × Outcome) : ∀ (h : List (Call × Outcome)) (made : List Entity),
    pattern (h ++ [x]) made = pattern h made ++
      (match x.2.created, x.2.vacated with
       | some _, _ => [.made]
       | none, some e => [.gone (lastIdx (made ++ createdHandles h) e)]
       | none, none => [])
  | [], made => by
    simp only [List.nil_append, pattern, createdHandles, List.filterMap_nil, List.append_nil]
    split <;> simp_all
  | y :: h, made => by
    have ih := pattern_snoc x h
    have hc : createdHandles (y :: h) = y.2.created.toList ++ createdHandles h := by
      unfold createdHandles
      cases hy : y.2.created <;> simp [hy]
    rw [List.cons_append, pattern, pattern, hc]
    cases hy : y.2.created with
    | some e =>
      simp only [ih, Option.toList_some, List.cons_append, List.append_assoc, List.nil_append]
    | none =>
      cases hz : y.2.vacated with
      | some e => simp only [ih, Option.toList_none, List.cons_append, List.nil_append]
      | none => simp only [ih, Option.toList_none, List.nil_append]

theorem getElem?_lastIdx {l : List Entity} {e : Entity} (h : e ∈ l) : l[lastIdx l e]? = some e := by
  have hr : e ∈ l.reverse := List.mem_reverse.mpr h
  have hlt := List.idxOf_lt_length_iff.mpr hr
  have hg := List.getElem_idxOf hlt
  rw [List.length_reverse] at hlt
  rw [List.getElem_reverse] at hg
  unfold lastIdx
  rw [List.getElem?_eq_some_iff]
  exact ⟨_, hg⟩

theorem Alloc.after_snoc (p : List Event) (x : Event) : Alloc.after (p ++ [x]) = (Alloc.after p).step x := by
  unfold Alloc.after
  rw [List.foldl_append]
  rfl

theorem liveHandles_created (h : List (Call × Outcome)) : ∀ e ∈ liveHandles h, e ∈ createdHandles h := by
  have hrev : ∀ l : List (Call × Outcome), ∀ e ∈ liveHandles l.reverse, e ∈ createdHandles l.reverse := by
    intro l
    induction l with
    | nil => intro e he; cases he
    | cons x l ih =>
      intro e
      rw [List.reverse_cons, liveHandles_snoc, createdHandles_snoc, List.mem_append]
      cases hc : x.2.created with
      | some e' =>
        intro he
        rcases List.mem_cons.mp he with rfl | he
        · exact .inr (by simp)
        · exact .inl (ih e he)
      | none =>
        cases hv : x.2.vacated with
        | some e' => exact fun he => .inl (ih e (List.mem_of_mem_erase he))
        | none => exact fun he => .inl (ih e he)
  have := hrev h.reverse
  rwa [List.reverse_reverse] at this

/-- The table of entries is what the allocator says. -/
structure AllocInv (t : EntityRegistry) (hist : List (Call × Outcome)) (s : Alloc) : Prop where
  given : (createdHandles hist).map Entity.parts = s.given
  free : s.free.map Prod.fst = (slotState hist).1.map UInt32.toNat
  slots : s.slots = (slotState hist).2
  versions : ∀ x ∈ s.free, ∃ en, t.entities[x.1]? = some en ∧ en.version.toNat = x.2

theorem AllocInv.next {t t' : EntityRegistry} {hist : List (Call × Outcome)} {s : Alloc} (h : AllocInv t hist s)
    (hs : SlotInv env t (slotState hist) (liveCount hist)) {e : Entity} {iia : IndexInArchetype} {ai : ArchetypeIndex}
    (hc : EntityRegistry.Created env t t' e iia ai) (hi : e.index.toNat = nextSlot (slotState hist)) : e.parts = s.next := by
  obtain ⟨given, free, slots⟩ := s
  have hf := h.free
  have hsl := h.slots
  have hv := h.versions
  simp only [] at hf hsl hv
  unfold nextSlot at hi
  unfold Alloc.next Entity.parts
  cases free with
  | nil =>
    simp only []
    have : (slotState hist).1 = [] := by simpa using hf.symm
    rw [this] at hi
    simp only [] at hi
    rcases hc.old with ⟨_, h2, _⟩ | ⟨en, h1, _⟩
    · rw [hi, hsl, h2]; rfl
    · have := (List.getElem?_eq_some_iff.mp h1).1
      have := hs.len
      omega
  | cons x rest =>
    obtain ⟨i, v⟩ := x
    simp only []
    obtain ⟨en, q1, q2⟩ := hv (i, v) List.mem_cons_self
    simp only [] at q1 q2
    cases hst : (slotState hist).1 with
    | nil => rw [hst] at hf; cases hf
    | cons j l =>
      rw [hst] at hi hf
      simp only [List.map_cons, List.cons.injEq] at hi hf
      have hij : e.index.toNat = i := by rw [hi, hf.1]
      rcases hc.old with ⟨h1, _⟩ | ⟨en', h1, _, h3⟩
      · rw [hij, q1] at h1; cases h1
      · rw [hij, q1] at h1; cases h1
        rw [hij, ← h3, q2]

theorem Steps.alloc {hist : List (Call × Outcome)} (hs : Steps env (Call.Admissible W) Registry.default hist r) :
    AllocInv r.entities hist (Alloc.after (pattern hist [])) := by
  induction hs with
  | nil => exact ⟨rfl, rfl, rfl, by intro x hx; cases hx⟩
  | snoc h1 h2 h3 ih =>
    next hist r1 r2 call out =>
    obtain ⟨cs1, hcs⟩ := h1.inv (fun _ _ h => h) (RInv.empty W)
    obtain ⟨cs2, hst⟩ := hcs.step h2 h3
    have hsl := h1.slots (fun _ _ h => h)
    obtain ⟨hsl2, hidx⟩ := hsl.step (call := call) hcs.ents.len_le hst.table
    have ht := hst.table
    have hver : ∀ (i : Nat) (en : EntityEntry), r1.entities.entities[i]? = some en → ∃ en', r2.entities.entities[i]? = some en' ∧
        ((∀ e, out.vacated = some e → e.index.toNat ≠ i) → en'.version = en.version) := by
      intro i en hen
      have hlt := (List.getElem?_eq_some_iff.mp hen).1
      have hle := hcs.ents.len_le
      have hM : MAX_ENTITY_HANDLE_VALUE = 16777215 := rfl
      have hu : (UInt32.ofNat i).toNat = i := by
        rw [UInt32.toNat_ofNat']; exact Nat.mod_eq_of_lt (by omega)
      obtain ⟨en', q1, q2⟩ := ht.version (i := UInt32.ofNat i) hle (by rw [hu]; exact hen)
      refine ⟨en', by rw [hu] at q1; exact q1, fun hne => ?_⟩
      rcases q2 with ⟨q2, _⟩ | ⟨_, q2⟩
      · exfalso
        cases hv : out.vacated with
        | none => rw [Outcome.vacates_none hv] at q2; cases q2
        | some e => exact hne e hv (by rw [(Outcome.vacates_some hv _).mp q2, hu])
      · exact q2
    rw [pattern_snoc]
    have hss := slotState_snoc hist (call, out)
    unfold TableStep at ht
    cases hc : out.created with
    | some e =>
      cases hv : out.vacated with
      | some e' => rw [hc, hv] at ht; exact ht.elim
      | none =>
        rw [hc, hv] at ht
        obtain ⟨iia, ai, hcr⟩ := ht
        have hn := ih.next hsl hcr (hidx e hc)
        simp only [hc, hv, Alloc.after_snoc, Alloc.step]
        simp only [hc, hv] at hss
        refine ⟨?_, ?_, ?_, ?_⟩
        · rw [createdHandles_snoc, List.map_append, ih.given, hc, ← hn]; rfl
        · rw [hss, List.map_tail, ih.free]
          cases (slotState hist).1 <;> rfl
        · rw [hss, ih.slots]
          have hf := ih.free
          cases hx : (slotState hist).1 with
          | nil =>
            rw [hx] at hf
            rw [if_pos (List.map_eq_nil_iff.mp hf)]
          | cons i l =>
            rw [hx] at hf
            rw [if_neg (fun h0 => by rw [h0] at hf; cases hf)]
        · intro x hx
          obtain ⟨en, q1, q2⟩ := ih.versions x (List.mem_of_mem_tail hx)
          obtain ⟨en', q3, q4⟩ := hver x.1 en q1
          exact ⟨en', q3, by rw [q4 (fun e he => by rw [hv] at he; cases he), q2]⟩
    | none =>
      cases hv : out.vacated with
      | some e =>
        rw [hc, hv] at ht
        obtain ⟨⟨en0, hen0⟩, m, hu, hd⟩ := ht
        have hmem : e ∈ createdHandles hist := by
          exact liveHandles_created hist e (((h1.liveHandles (fun _ _ h => h)).2 e).mp (hcs.live_entry.mpr ⟨en0, hen0⟩))
        have hg : (Alloc.after (pattern hist [])).given[lastIdx (createdHandles hist) e]? = some e.parts := by
          rw [← ih.given, List.getElem?_map, getElem?_lastIdx hmem]; rfl
        simp only [hc, hv, List.nil_append, Alloc.after_snoc, Alloc.step, hg]
        simp only [hc, hv] at hss
        refine ⟨?_, ?_, ?_, ?_⟩
        · rw [createdHandles_snoc, hc, ← ih.given]; simp
        · rw [hss, List.map_cons, List.map_cons, ih.free]; rfl
        · rw [hss]; exact ih.slots
        · have hnd := hsl2.free.2.1
          rw [hss, List.map_cons, ← ih.free] at hnd
          intro x hx
          rcases List.mem_cons.mp hx with rfl | hx
          · obtain ⟨en', n1, n2, _⟩ := hd.new
            refine ⟨en', n1, ?_⟩
            rw [n2]
            simp only [Entity.parts, UInt8.toNat_add]
            rfl
          · obtain ⟨en, q1, q2⟩ := ih.versions x hx
            obtain ⟨en', q3, q4⟩ := hver x.1 en q1
            refine ⟨en', q3, ?_⟩
            rw [q4 ?_, q2]
            intro e' he'
            rw [hv] at he'
            cases he'
            intro hx'
            exact (List.nodup_cons.mp hnd).1 (hx' ▸ List.mem_map_of_mem hx)
      | none =>
        simp only [hc, hv, List.append_nil]
        simp only [hc, hv] at hss
        refine ⟨?_, ?_, ?_, ?_⟩
        · rw [createdHandles_snoc, hc, ← ih.given]; simp
        · rw [hss]; exact ih.free
        · rw [hss]; exact ih.slots
        · intro x hx
          obtain ⟨en, q1, q2⟩ := ih.versions x hx
          obtain ⟨en', q3, q4⟩ := hver x.1 en q1
          exact ⟨en', q3, by rw [q4 (fun e he => by rw [hv] at he; cases he), q2]⟩

theorem Entity.parts_inj {a b : Entity} (h : a.parts = b.parts) : a = b := by
  unfold Entity.parts at h
  rw [Prod.mk.injEq] at h
  exact Entity.ext_iff.mpr ⟨UInt32.toNat_inj.mp h.1, UInt8.toNat_inj.mp h.2⟩

theorem map_parts_inj : ∀ {l l' : List Entity}, l.map Entity.parts = l'.map Entity.parts → l = l'
  | [], [], _ => rfl
  | a :: l, b :: l', h => by
    simp only [List.map_cons, List.cons.injEq] at h
    rw [Entity.parts_inj h.1, map_parts_inj h.2]

/-- **C85** The handles a program gets are those of a stack allocator that is told only when an entity is made and which
one (counted by creations) is ended: all handles given out so far, and the next one. -/
theorem C85_handles_predicted {hist : List (Call × Outcome)} (hs : Steps env (Call.Admissible W) Registry.default hist r) :
    (createdHandles hist).map Entity.parts = (Alloc.after (pattern hist [])).given ∧
    ∀ (g : Group) (vals : List Val) (r' : Registry) (e : Entity), (Call.create g vals).Admissible W r →
      r.createEntity env g vals = .ok (r', .ok e) → e.parts = (Alloc.after (pattern hist [])).next := by
  refine ⟨hs.alloc.given, fun g vals r' e hadm hc => ?_⟩
  have h2 := (hs.snoc hadm (run_create_ok hc)).alloc.given
  rw [createdHandles_snoc, pattern_snoc] at h2
  simp only [Alloc.after_snoc, Alloc.step, Option.toList_some, List.map_append, hs.alloc.given] at h2
  have := List.append_cancel_left h2
  simpa using this

/-- **C85** (consequence) Two programs, with whatever component types and values, on whatever machines and in whatever
build modes, that make and end entities in the same order get the same handles. -/
theorem C85_same_handles {env₁ env₂ : Env} {W₁ : World env₁} {W₂ : World env₂} {r₁ r₂ : Registry}
    {hist₁ hist₂ : List (Call × Outcome)} (h₁ : Steps env₁ (Call.Admissible W₁) Registry.default hist₁ r₁)
    (h₂ : Steps env₂ (Call.Admissible W₂) Registry.default hist₂ r₂) (hp : pattern hist₁ [] = pattern hist₂ []) :
    createdHandles hist₁ = createdHandles hist₂ ∧
    ∀ (g₁ g₂ : Group) (v₁ v₂ : List Val) (r₁' r₂' : Registry) (e₁ e₂ : Entity),
      (Call.create g₁ v₁).Admissible W₁ r₁ → (Call.create g₂ v₂).Admissible W₂ r₂ →
      r₁.createEntity env₁ g₁ v₁ = .ok (r₁', .ok e₁) → r₂.createEntity env₂ g₂ v₂ = .ok (r₂', .ok e₂) → e₁ = e₂ := by
  have p₁ := C85_handles_predicted h₁
  have p₂ := C85_handles_predicted h₂
  rw [hp] at p₁
  exact ⟨map_parts_inj (p₁.1.trans p₂.1.symm), fun g₁ g₂ v₁ v₂ r₁' r₂' e₁ e₂ a₁ a₂ c₁ c₂ =>
    Entity.parts_inj ((p₁.2 g₁ v₁ r₁' e₁ a₁ c₁).trans (p₂.2 g₂ v₂ r₂' e₂ a₂ c₂).symm)⟩

/-- A program like `exCalls` as far as handles are concerned, with other components and other calls in between. -/
def exTwin : List Call :=
  [.create [exC] [exValC], .create [exA, exC] [exValA, exValC], .remove (Entity.newUnchecked 1 0) exC,
    .create [exB] [exValB], .destroy (Entity.newUnchecked 7 0), .removeEntity [exB] (Entity.newUnchecked 2 0),
    .create [exA, exB] [exValA, exValB]]

def exTwinR : Registry := (okOr ([], Registry.default) (runCalls exEnv Registry.default exTwin)).2
def exTwinOuts : List Outcome := (okOr ([], Registry.default) (runCalls exEnv Registry.default exTwin)).1

set_option maxRecDepth 100000 in
theorem exTwinSteps : Steps exEnv (Call.Admissible exWorld) Registry.default (exTwin.zip exTwinOuts) exTwinR := by
  have := Steps.of_run (calls := exTwin) (ok := Call.Admissible exWorld)
    (fun r call hc => exCheck_ok (List.all_eq_true.mp (show exTwin.all exCheck = true by decide +kernel) call hc) r)
    Steps.nil (show runCalls exEnv Registry.default exTwin = .ok (exTwinOuts, exTwinR) by decide +kernel)
  simpa using this

set_option maxRecDepth 100000 in
/-- C85 at work. -/
example : Steps exEnv (Call.Admissible exWorld) Registry.default (exCalls.zip exOuts) exR ∧
    Steps exEnv (Call.Admissible exWorld) Registry.default (exTwin.zip exTwinOuts) exTwinR ∧
    pattern (exCalls.zip exOuts) [] = [.made, .made, .made, .gone 2, .made] ∧
    pattern (exTwin.zip exTwinOuts) [] = [.made, .made, .made, .gone 2, .made] ∧
    createdHandles (exTwin.zip exTwinOuts) = [exE1, exE2, exE3, exE4] ∧
    Alloc.after [.made, .made, .made, .gone 2, .made] = ⟨[(0, 0), (1, 0), (2, 0), (2, 1)], [], 3⟩ :=
  ⟨exSteps, exTwinSteps, by decide +kernel, by decide +kernel, by decide +kernel, by decide +kernel⟩

end Shard
