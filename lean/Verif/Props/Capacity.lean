import Verif.Props.Check
import Verif.Props.Lifecycle
/-!
# C08 and C37: the entity limit and the growth of archetypes
-/

set_option autoImplicit false

namespace Shard

variable {env : Env} {W : World env} {r r' : Registry}

/-! ## Filling a registry -/

/-- At most `m` entities have exactly the component set of `g`. -/
def Bounded (W : World env) (r : Registry) (g : Group) (m : Nat) : Prop :=
  ∃ l : List Entity, l.length ≤ m ∧ ∀ x, HasExactly W r x g → x ∈ l

theorem Bounded.few {g : Group} {m n : Nat} (h : Bounded W r g m) (hm : m < n) : FewerThan n (fun x => HasExactly W r x g) := by
  obtain ⟨l, h1, h2⟩ := h
  intro l' hn hp
  have := hn.length_le_of_subset (l₂ := l) (fun e he => h2 e (hp e he))
  omega

/-- After a creation the only new entity with some component set is the created one. -/
theorem created_only (hr : Reachable W r) {g : Group} {vals : List Val} (hadm : (Call.create g vals).Admissible W r)
    {e : Entity} (h : r.createEntity env g vals = .ok (r', .ok e)) {x : Entity} {g' : Group} (hx : HasExactly W r' x g') :
    x = e ∨ HasExactly W r x g' := by
  by_cases hxe : x = e
  · exact Or.inl hxe
  · right
    have hs := C11_create_frame hr hadm h x (fun hc => hxe (by cases hc; rfl))
    refine ⟨hs.1.mp hx.1, fun c hc => ?_⟩
    rw [← (hs.2 c hc).1]
    exact hx.2 c hc

/-- A reachable registry in which every slot of the entity table is live. -/
structure AllLive (W : World env) (r : Registry) (n : Nat) : Prop where
  reach : Reachable W r
  free : FreeList env r.entities []
  table : r.entities.entities.length = n

theorem AllLive.start (W : World env) : AllLive W Registry.default 0 := by
  refine ⟨⟨_, Steps.nil⟩, ⟨rfl, List.nodup_nil, ?_⟩, rfl⟩
  intro i en h
  simp [EntityRegistry.default, Registry.default] at h

theorem AllLive.live {n : Nat} (h : AllLive W r n) : (r.iterEntities env).length = n := by
  have := count_free h.free
  unfold Registry.iterEntities
  simp only [List.length_nil, Nat.add_zero] at this
  rw [this, h.table]

theorem ArchStep.hasArchetype {ar ar' : ArchetypeRegistry} (h : ArchStep ar ar') {n : Nat} {id : UInt32}
    (hh : HasArchetype ar n id) : HasArchetype ar' n id := by
  obtain ⟨a, h1, h2, h3⟩ := hh
  obtain ⟨i, hi⟩ := List.mem_iff_getElem?.mp h1
  obtain ⟨a', h4, h5, _⟩ := h.old i a hi
  exact ⟨a', List.mem_of_getElem? h4, by rw [h5, h2], by rw [h5, h3]⟩

theorem group_room {g : Group} (hv : (g.descriptor env).isValid = true) {ar : ArchetypeRegistry} (h : ar.archetypes.length < 65534) :
    Room ar g.length (groupId env g.idSet) := by
  have gs := Group.spec hv
  refine ⟨?_, Or.inr h⟩
  rw [← gs.ids_eq, ← gs.archetypeId_eq]
  have := gs.valid
  unfold ArchetypeDescriptor.isValid at this
  simpa using this

/-- One more entity. -/
theorem AllLive.create {n m : Nat} (h : AllLive W r n) {g : Group} {vals : List Val} (hadm : (Call.create g vals).Admissible W r)
    (hv : (g.descriptor env).isValid = true) (hn : n < MAX_ENTITY_HANDLE_VALUE) (ha : r.archetypes.archetypes.length < 65534)
    (hb : Bounded W r g m) (hm : m < STORAGE_LIMIT) :
    ∃ r', AllLive W r' (n + 1) ∧ Bounded W r' g (m + 1) ∧ HasArchetype r'.archetypes g.length (groupId env g.idSet) ∧
      r'.archetypes.archetypes.length ≤ r.archetypes.archetypes.length + 1 ∧
      (HasArchetype r.archetypes g.length (groupId env g.idSet) →
        r'.archetypes.archetypes.length = r.archetypes.archetypes.length) ∧
      (∀ k id, HasArchetype r.archetypes k id → HasArchetype r'.archetypes k id) ∧
      ∀ g' k, (∃ c ∈ g, W.Has c ∧ c ∉ g') → Bounded W r g' k → Bounded W r' g' k := by
  obtain ⟨r', e, hc⟩ := (C52_create_progress h.reach hadm hv (hb.few hm)).1.mpr ⟨group_room hv ha, by rw [h.table]; exact hn⟩
  obtain ⟨cs, hi⟩ := h.reach.inv
  obtain ⟨cs', hs, _⟩ := hi.create_ok hadm hc
  obtain ⟨iia, ai, hcr⟩ : ∃ iia ai, EntityRegistry.Created env r.entities r'.entities e iia ai := hs.table
  have hidx := hcr.fresh h.free.1
  refine ⟨r', ⟨h.reach.snoc hadm (run_create_ok hc), hcr.pop _ h.free, ?_⟩, ?_, ?_, hs.place.count g vals rfl,
    hs.place.reuse g vals rfl, fun k id => hs.arch.hasArchetype, ?_⟩
  · rw [hcr.length, hidx, h.table]; omega
  · obtain ⟨l, h1, h2⟩ := hb
    refine ⟨e :: l, by simp; omega, fun x hx => ?_⟩
    rcases created_only h.reach hadm hc hx with rfl | hx
    · exact List.mem_cons_self
    · exact List.mem_cons_of_mem _ (h2 x hx)
  · obtain ⟨i, a, _, h1, h2, h3⟩ := hs.place.made g vals e rfl rfl
    obtain ⟨ct, _, hrep⟩ := hs.inv.arch.content h1
    refine ⟨a, List.mem_of_getElem? h1, ?_, h3⟩
    have gs := Group.spec hv
    rw [← hrep.desc.wf.ids_length, h2, ← gs.len, ← gs.ids_eq, gs.desc.ids_length]
  · rintro g' k ⟨c, hcg, hW, hcg'⟩ ⟨l, h1, h2⟩
    refine ⟨l, h1, fun x hx => ?_⟩
    rcases created_only h.reach hadm hc hx with rfl | hx
    · have := (C10_create_then_read h.reach hadm hc).2.2 c hW
      rw [decide_eq_true hcg] at this
      exact absurd ((hx.2 c hW).mp this) hcg'
    · exact h2 x hx

/-- Many more entities. -/
theorem AllLive.fill {g : Group} {vals : List Val} (hadm : ∀ r, (Call.create g vals).Admissible W r)
    (hv : (g.descriptor env).isValid = true) : ∀ (k : Nat) {r : Registry} {n m : Nat}, AllLive W r n →
    n + k ≤ MAX_ENTITY_HANDLE_VALUE → r.archetypes.archetypes.length < 65534 →
    HasArchetype r.archetypes g.length (groupId env g.idSet) → Bounded W r g m → m + k ≤ STORAGE_LIMIT →
    ∃ r', AllLive W r' (n + k) ∧ Bounded W r' g (m + k) ∧ HasArchetype r'.archetypes g.length (groupId env g.idSet) ∧
      r'.archetypes.archetypes.length = r.archetypes.archetypes.length ∧
      (∀ k id, HasArchetype r.archetypes k id → HasArchetype r'.archetypes k id) ∧
      ∀ g' k, (∃ c ∈ g, W.Has c ∧ c ∉ g') → Bounded W r g' k → Bounded W r' g' k
  | 0, r, n, m, h, _, _, hh, hb, _ => ⟨r, h, hb, hh, rfl, fun _ _ h => h, fun _ _ _ h => h⟩
  | k + 1, r, n, m, h, hn, ha, hh, hb, hm => by
    obtain ⟨r1, q1, q2, q3, _, q5, q6, q7⟩ := h.create (hadm r) hv (by omega) ha hb (by omega)
    have q5 := q5 hh
    obtain ⟨r2, p1, p2, p3, p4, p5, p6⟩ := AllLive.fill hadm hv k q1 (by omega) (by omega) q3 q2 (by omega)
    refine ⟨r2, ?_, ?_, p3, by omega, fun k id hx => p5 k id (q6 k id hx), fun g' k hg hb => p6 g' k hg (q7 g' k hg hb)⟩
    · have : n + (k + 1) = n + 1 + k := by omega
      rw [this]; exact p1
    · have : m + (k + 1) = m + 1 + k := by omega
      rw [this]; exact p2

theorem AllLive.first {g : Group} {vals : List Val} (hadm : ∀ r, (Call.create g vals).Admissible W r)
    (hv : (g.descriptor env).isValid = true) {r : Registry} {n : Nat} (h : AllLive W r n)
    (ha : r.archetypes.archetypes.length < 100) (hb : Bounded W r g 0)
    {k : Nat} (hk : 1 ≤ k) (hkn : n + k ≤ MAX_ENTITY_HANDLE_VALUE) (hks : k ≤ STORAGE_LIMIT) :
    ∃ r', AllLive W r' (n + k) ∧ Bounded W r' g k ∧ HasArchetype r'.archetypes g.length (groupId env g.idSet) ∧
      r'.archetypes.archetypes.length ≤ r.archetypes.archetypes.length + 1 ∧
      ∀ g' k, (∃ c ∈ g, W.Has c ∧ c ∉ g') → Bounded W r g' k → Bounded W r' g' k := by
  obtain ⟨r1, q1, q2, q3, q4, _, _, q7⟩ := h.create (hadm r) hv (by omega) (by omega) hb (by decide)
  obtain ⟨r2, p1, p2, p3, p4, _, p6⟩ := AllLive.fill hadm hv (k - 1) q1 (by omega) (by omega) q3 q2 (by omega)
  refine ⟨r2, ?_, ?_, p3, by omega, fun g' k hg hb => p6 g' k hg (q7 g' k hg hb)⟩
  · have : n + k = n + 1 + (k - 1) := by omega
    rw [this]; exact p1
  · have : k = 0 + 1 + (k - 1) := by omega
    rw [this]; exact p2

theorem Bounded.default (W : World env) (g : Group) : Bounded W Registry.default g 0 := by
  refine ⟨[], Nat.le_refl _, fun x hx => ?_⟩
  have := (AllLive.start W).live
  have h0 : Registry.default.iterEntities env = [] := List.eq_nil_of_length_eq_zero this
  have hl := hx.1
  unfold Live at hl
  rw [h0] at hl
  exact hl

/-! ## C37 -/

/-- C37 as intended: creating an entity with a component set that fewer than 16,777,215 entities have never runs into
undefined behaviour. -/
def C37_statement : Prop :=
  ∀ {env : Env} (W : World env) (r : Registry), Reachable W r → ∀ (g : Group) (vals : List Val),
    (Call.create g vals).Admissible W r → (g.descriptor env).isValid = true →
    FewerThan 16777215 (fun x => HasExactly W r x g) → ∀ k, r.createEntity env g vals ≠ .error (.ub k)

/-- **C37** (partial: the limit is 8,388,608, half of what is documented) Creating an entity with a component set that
fewer than 8,388,608 entities have never faults. No archetype ever holds more than 8,388,608 entities. Creating an
entity in an archetype that holds 8,388,608 always faults: a debug assertion fails, or without debug assertions a null
pointer is written through (unless the entity table is full as well). -/
theorem C37_growth_partial (hr : Reachable W r) {g : Group} {vals : List Val} (hadm : (Call.create g vals).Admissible W r)
    (hv : (g.descriptor env).isValid = true) :
    (FewerThan STORAGE_LIMIT (fun x => HasExactly W r x g) → ∀ f, r.createEntity env g vals ≠ .error f) ∧
    (∀ a ∈ r.archetypes.archetypes, a.entityCount ≤ STORAGE_LIMIT) ∧
    (∀ a ∈ r.archetypes.archetypes, a.descriptor.len = g.length → a.descriptor.archetypeId = groupId env g.idSet →
      a.entityCount = STORAGE_LIMIT → r.entities.entities.length < MAX_ENTITY_HANDLE_VALUE →
      r.createEntity env g vals = .error (if env.debug then .panic .debugAssert else .ub .nullDeref)) := by
  obtain ⟨cs, h⟩ := hr.inv
  have hg := (hadm.2 (Group.spec hv).wf.nodup).has
  refine ⟨fun hfew f hf => ?_, fun a ha => ?_, fun a ha hl hid hcount htab => ?_⟩
  · rcases h.create_cases hadm hv with ⟨_, h2⟩ | ⟨_, _, r1, h3⟩ | ⟨_, _, ⟨r1, e, h3⟩ | ⟨h3, _⟩⟩
    · rw [h2] at hf; cases hf
    · rw [h3] at hf; cases hf
    · rw [h3] at hf; cases hf
    · exact absurd h3 (h.not_full_group hg hfew)
  · obtain ⟨i, hi⟩ := List.mem_iff_getElem?.mp ha
    obtain ⟨ct, _, hrep⟩ := h.arch.content hi
    rw [hrep.count]
    exact Nat.le_trans hrep.ents.len hrep.cap.le
  · obtain ⟨ai, hi⟩ := List.mem_iff_getElem?.mp ha
    obtain ⟨ct, hct, hrep⟩ := h.arch.content hi
    rcases h.create_cases hadm hv with ⟨h1, _⟩ | ⟨_, h1, _⟩ | ⟨_, _, ⟨r1, e, h3⟩ | ⟨_, h3⟩⟩
    · exact absurd (h.room_of_has ⟨a, ha, hl, hid⟩) h1
    · omega
    · exfalso
      obtain ⟨cs', hs, hdead, _⟩ := h.create_ok hadm h3
      obtain ⟨aj, a1, p1, p2, p3, p4⟩ := hs.place.made g vals e rfl rfl
      obtain ⟨a2, p5, p6, _⟩ := hs.arch.old ai a hi
      obtain ⟨ct1, hct1, hrep1⟩ := hs.inv.arch.content p2
      have hlen : a1.descriptor.len = a2.descriptor.len := by
        have gs := Group.spec hv
        rw [p6, hl, ← hrep1.desc.wf.ids_length, p3, ← gs.len, ← gs.ids_eq, gs.desc.ids_length]
      have hij := hs.inv.arch.unique_index p2 p5 hlen (by rw [p4, p6, hid])
      subst hij
      have hmem : ∀ {x : Entity}, r1.archOf env x = some aj → x ∈ ct1.ents := by
        intro x hx
        unfold Registry.archOf at hx
        obtain ⟨⟨ai', k⟩, h1, h2⟩ := Option.map_eq_some_iff.mp hx
        cases h2
        obtain ⟨ct2, h4, h5⟩ := (hs.inv.placed _ _ _).mp h1
        rw [hct1] at h4; cases h4
        exact List.mem_of_getElem? h5
      have hne : e ∉ ct.ents := by
        intro hx
        obtain ⟨k, hk⟩ := List.mem_iff_getElem?.mp hx
        rw [h.row_look hct hk] at hdead; cases hdead
      have hnd : (e :: ct.ents).Nodup := List.nodup_cons.mpr ⟨hne, h.ents_nodup hct⟩
      have := hnd.length_le_of_subset (l₂ := ct1.ents) (fun x hx => by
        rcases List.mem_cons.mp hx with rfl | hx
        · exact hmem p1
        · apply hmem
          rw [hs.place.stay x (fun hc => hne (by cases hc; exact hx)) (fun hc => by cases hc) (fun hc => hc.1)]
          obtain ⟨k, hk⟩ := List.mem_iff_getElem?.mp hx
          unfold Registry.archOf
          rw [(h.placed _ _ _).mpr ⟨ct, hct, hk⟩]
          rfl)
      have h1 := hrep1.ents.len
      have h2 := hrep1.cap.le
      have h4 := hrep.count
      have hS : STORAGE_LIMIT = 8388608 := rfl
      rw [List.length_cons] at this
      omega
    · exact h3

set_option maxRecDepth 100000 in
/-- A program that creates 8,388,608 entities with the component `A` reaches a registry whose only archetype is full. -/
theorem exFull : ∃ r, AllLive exWorld r 8388608 ∧ ∃ a ∈ r.archetypes.archetypes, a.descriptor.len = 1 ∧
    a.descriptor.archetypeId = groupId exEnv (Group.idSet [exA]) ∧ a.entityCount = STORAGE_LIMIT := by
  obtain ⟨r, h1, _, h3, h4, _⟩ := AllLive.first (W := exWorld) (g := [exA]) (vals := [exValA])
    (fun r => exCheck_ok (by decide +kernel) r) (by decide +kernel) (AllLive.start _) (by decide)
    (Bounded.default _ _) (k := 8388608) (by decide) (by decide) (by decide)
  have h1 : AllLive exWorld r 8388608 := h1
  obtain ⟨a, ha, hl, hid⟩ := h3
  refine ⟨r, h1, a, ha, hl, hid, ?_⟩
  obtain ⟨cs, h⟩ := h1.reach.inv
  obtain ⟨ai, hi⟩ := List.mem_iff_getElem?.mp ha
  obtain ⟨ct, hct, hrep⟩ := h.arch.content hi
  have hlive := h1.live
  have hone : r.archetypes.archetypes.length ≤ 1 := h4
  have := h.iterEntities_nodup.length_le_of_subset (l₂ := ct.ents) (fun x hx => by
    obtain ⟨en, he⟩ := h.live_entry.mp hx
    obtain ⟨a', ct', h5, h6, _, h7, _⟩ := h.entry he
    have h8 := (List.getElem?_eq_some_iff.mp h5).1
    have h9 := (List.getElem?_eq_some_iff.mp hi).1
    have : (en.archetypeIndex exEnv).toNat = ai := by omega
    rw [this, hct] at h6; cases h6
    exact List.mem_of_getElem? h7)
  have h5 := hrep.ents.len
  have h6 := hrep.cap.le
  have h7 := hrep.count
  have hS : STORAGE_LIMIT = 8388608 := rfl
  omega

/-- **C37** is false: the next creation writes through a null pointer. -/
theorem C37_violated : ¬ C37_statement := by
  intro h
  obtain ⟨r, h1, a, h2, h3, h4, h5⟩ := exFull
  have hadm : (Call.create [exA] [exValA]).Admissible exWorld r := exCheck_ok (by decide +kernel) r
  have hv : (Group.descriptor exEnv [exA]).isValid = true := by decide +kernel
  have hfault := (C37_growth_partial h1.reach hadm hv).2.2 a h2 h3 h4 h5 (by rw [h1.table]; decide)
  exact h exWorld r h1.reach _ _ hadm hv (few_of_live rfl (by rw [h1.live]; decide) (fun _ hx => hx.1)) .nullDeref hfault

set_option maxRecDepth 100000 in
/-- C37 on `exR`, and on the full registry. -/
example : (Reachable exWorld exR ∧ (Call.create [exA] [exValA]).Admissible exWorld exR ∧
    (Group.descriptor exEnv [exA]).isValid = true ∧ FewerThan STORAGE_LIMIT (fun x => HasExactly exWorld exR x [exA])) ∧
    ∃ r, Reachable exWorld r ∧ (Call.create [exA] [exValA]).Admissible exWorld r ∧
      r.entities.entities.length < MAX_ENTITY_HANDLE_VALUE ∧ ∃ a ∈ r.archetypes.archetypes, a.descriptor.len = 1 ∧
        a.descriptor.archetypeId = groupId exEnv (Group.idSet [exA]) ∧ a.entityCount = STORAGE_LIMIT := by
  obtain ⟨r, h1, h2⟩ := exFull
  exact ⟨⟨exReachable, exCheck_ok (by decide +kernel) _, by decide +kernel, exFew (fun _ h => h.1)⟩,
    r, h1.reach, exCheck_ok (by decide +kernel) _, by rw [h1.table]; decide, h2⟩

/-! ## C08 -/

/-- C08 as intended: while fewer than 16,777,215 entities are live, the entity limit does not make `create_entity` fail. -/
def C08_statement : Prop :=
  ∀ {env : Env} (W : World env) (r : Registry), Reachable W r → ∀ (g : Group) (vals : List Val),
    (Call.create g vals).Admissible W r → (g.descriptor env).isValid = true →
    Room r.archetypes g.length (groupId env g.idSet) → FewerThan STORAGE_LIMIT (fun x => HasExactly W r x g) →
    (r.iterEntities env).length < 16777215 → ∃ r' e, r.createEntity env g vals = .ok (r', .ok e)

/-- **C08** (partial: the limit applies to the largest number of entities that were ever live at the same time) Apart from
the other limits, `create_entity` succeeds exactly if there were never 16,777,215 entities live at the same time. Once
that number was reached, every creation hands the components back, however many entities have been destroyed. -/
theorem C08_entity_limit_partial {hist : List (Call × Outcome)} (hs : Steps env (Call.Admissible W) Registry.default hist r)
    {g : Group} {vals : List Val} (hadm : (Call.create g vals).Admissible W r) (hv : (g.descriptor env).isValid = true)
    (hroom : Room r.archetypes g.length (groupId env g.idSet))
    (hfew : FewerThan STORAGE_LIMIT (fun x => HasExactly W r x g)) :
    ((∃ r' e, r.createEntity env g vals = .ok (r', .ok e)) ↔ (liveCount hist).2 < 16777215) ∧
    (16777215 ≤ (liveCount hist).2 → ∃ r', r.createEntity env g vals = .ok (r', .err vals)) ∧
    (liveCount hist).2 ≤ 16777215 := by
  have hlen : r.entities.entities.length = (liveCount hist).2 := (C07_slot_recycling (r' := r) hs).2.2.2.1
  obtain ⟨h1, h2⟩ := C52_create_progress ⟨_, hs⟩ hadm hv hfew
  obtain ⟨cs, h⟩ := hs.inv (fun _ _ h => h) (RInv.empty W)
  have hM : MAX_ENTITY_HANDLE_VALUE = 16777215 := rfl
  have hle := h.ents.len_le
  rw [hlen] at h1 h2 hle
  refine ⟨⟨fun hx => (h1.mp hx).2, fun hx => h1.mpr ⟨hroom, hx⟩⟩, fun hx => h2 (fun hy => ?_), by omega⟩
  omega

set_option maxRecDepth 100000 in
/-- C08 on the example history. -/
example : Steps exEnv (Call.Admissible exWorld) Registry.default (exCalls.zip exOuts) exR ∧
    (Call.create [exA] [exValA]).Admissible exWorld exR ∧ (Group.descriptor exEnv [exA]).isValid = true ∧
    Room exR.archetypes 1 (groupId exEnv (Group.idSet [exA])) ∧
    FewerThan STORAGE_LIMIT (fun x => HasExactly exWorld exR x [exA]) :=
  ⟨exSteps, exCheck_ok (by decide +kernel) _, by decide +kernel, group_room (g := [exA]) (by decide +kernel) (by decide +kernel),
    exFew (fun _ h => h.1)⟩

set_option maxRecDepth 100000 in
/-- **C08** is false: a program that creates 8,388,608 entities with the component `A`, 8,388,607 with the component `B`, and
destroys one of them, has 16,777,214 live entities and cannot create another. -/
theorem C08_violated : ¬ C08_statement := by
  intro hst
  have hA : ∀ r, (Call.create [exA] [exValA]).Admissible exWorld r := fun r => exCheck_ok (by decide +kernel) r
  have hB : ∀ r, (Call.create [exB] [exValB]).Admissible exWorld r := fun r => exCheck_ok (by decide +kernel) r
  have hvB : (Group.descriptor exEnv [exB]).isValid = true := by decide +kernel
  obtain ⟨r1, p1, _, _, p4, p5⟩ := AllLive.first hA (by decide +kernel) (AllLive.start exWorld) (by decide)
    (Bounded.default _ _) (k := 8388608) (by decide) (by decide) (by decide)
  have hnoB := p5 [exB] 0 ⟨exA, by decide, by show exA ∈ [exA, exB, exC]; decide, by decide⟩ (Bounded.default _ _)
  have p4 : r1.archetypes.archetypes.length ≤ 1 := p4
  obtain ⟨r2, q1, q2, q3, q4, _⟩ := AllLive.first hB hvB p1 (by omega) hnoB
    (k := 8388607) (by decide) (by decide) (by decide)
  have q1 : AllLive exWorld r2 16777215 := q1
  obtain ⟨cs, h⟩ := q1.reach.inv
  cases hl : r2.iterEntities exEnv with
  | nil =>
    have := q1.live
    rw [hl] at this
    cases this
  | cons e l =>
    obtain ⟨⟨r3, b, d, w1, w2, _, _⟩, _⟩ := C04_destroyed_dead q1.reach e
    have hlive : Live exEnv r2 e := by unfold Live; rw [hl]; exact List.mem_cons_self
    obtain ⟨cs3, hs, _, hlook⟩ := h.destroy_ok w1
    have hb : b = true := w2.mpr hlive
    subst hb
    have hr3 : Reachable exWorld r3 := q1.reach.snoc (call := .destroy e) trivial (run_destroy w1)
    obtain ⟨_, m, hu, hd⟩ : (∃ en, r2.entities.entityEntry exEnv e = some en) ∧
        ∃ m, Updated exEnv r2.entities m ∧ EntityRegistry.Destroyed exEnv m r3.entities e := hs.table
    have hfree := hd.push _ (hu.freeList q1.free)
    have hcount := count_free hfree
    have hlen : r3.entities.entities.length = 16777215 := by rw [hd.length, hu.length, q1.table]
    have hbound : Bounded exWorld r3 [exB] 8388607 := by
      obtain ⟨l, h1, h2⟩ := q2
      refine ⟨l, h1, fun x hx => h2 x ?_⟩
      have hxe : x ≠ e := by
        rintro rfl
        have := hx.1
        rw [hs.inv.live_iff, hlook, AMap.set_self] at this
        obtain ⟨f, hf⟩ := this
        cases hf
      have hse := C12_destroy_frame q1.reach w1 x hxe
      refine ⟨hse.1.mp hx.1, fun c hc => ?_⟩
      rw [← (hse.2 c hc).1]
      exact hx.2 c hc
    have hfew := hbound.few (n := STORAGE_LIMIT) (by decide)
    have hroom : Room r3.archetypes 1 (groupId exEnv (Group.idSet [exB])) :=
      hs.inv.room_of_has (hs.arch.hasArchetype q3)
    have hok := hst exWorld r3 hr3 [exB] [exValB] (hB r3) hvB hroom hfew (by
      show (r3.entities.iter exEnv).length < _
      rw [hlen, List.length_singleton] at hcount
      omega)
    have := ((C52_create_progress hr3 (hB r3) hvB hfew).1.mp hok).2
    rw [hlen] at this
    exact absurd this (by decide)

end Shard
