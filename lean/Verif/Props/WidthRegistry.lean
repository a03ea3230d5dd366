import Verif.Proofs.Width
import Verif.Props.Capacity
/-!
# C84: programs on targets with narrow pointers
-/

set_option autoImplicit false

namespace Shard

variable {env : Env} {W : World env} {r : Registry} {cs : List Content} {w : Nat}

/-- C84 as intended: on every supported target, every call on a reachable registry that works in a world of unbounded
pointers does the same. -/
def C84_statement : Prop :=
  ∀ (w : Nat) {env : Env} (W : World env) (r : Registry), w = 32 ∨ w = 64 → Reachable W r → ∀ (call : Call) (x : Registry × Outcome),
    call.Admissible W r → call.run env r = .ok x → call.runW w env r = .ok x

theorem runAllW_append (w : Nat) (env : Env) : ∀ (calls : List Call) {r r' : Registry} {outs : List Outcome} (rest : List Call),
    runAllW w env r calls = (outs, .ok r') →
    runAllW w env r (calls ++ rest) = (outs ++ (runAllW w env r' rest).1, (runAllW w env r' rest).2)
  | [], r, r', outs, rest, h => by
    simp only [runAllW, Prod.mk.injEq, Except.ok.injEq] at h
    obtain ⟨rfl, rfl⟩ := h
    rfl
  | c :: calls, r, r', outs, rest, h => by
    simp only [runAllW, List.cons_append] at h ⊢
    cases hc : c.runW w env r with
    | error f => rw [hc] at h; simp at h
    | ok x =>
      obtain ⟨r1, out⟩ := x
      rw [hc] at h
      simp only [Prod.mk.injEq] at h ⊢
      obtain ⟨h1, h2⟩ := h
      have := runAllW_append w env calls rest (Prod.ext rfl h2 : runAllW w env r1 calls = ((runAllW w env r1 calls).1, .ok r'))
      rw [this]
      subst h1
      exact ⟨rfl, rfl⟩

/-- One call, given a bound on the largest population so far. -/
theorem Steps.runW_eq {hist : List (Call × Outcome)} (hs : Steps env (Call.Admissible W) Registry.default hist r)
    (hw : w = 32 ∨ w = 64) (hB : ∀ c, W.Has c → c.size * (2 * (liveCount hist).2) < 2 ^ (w - 1)) (call : Call) :
    call.runW w env r = call.run env r := by
  obtain ⟨cs, hi⟩ := (show Reachable W r from ⟨_, hs⟩).inv
  refine hi.runW_eq hw (fun c hc a ha => ?_)
  obtain ⟨i, hx⟩ := List.mem_iff_getElem?.mp ha
  have h1 := hi.rows_le hx
  have h2 := (C07_slot_recycling (r' := r) hs).2.2.1
  have h3 := hs.count_le
  exact Nat.lt_of_le_of_lt (Nat.mul_le_mul_left _ (by omega)) (hB c hc)

/-- On 64-bit targets nothing is ever too large. -/
theorem RInv.run64 (h : RInv W r cs) (call : Call) : call.runW 64 env r = call.run env r := by
  refine h.runW_eq (.inr rfl) (fun c hc a ha => ?_)
  obtain ⟨i, hx⟩ := List.mem_iff_getElem?.mp ha
  obtain ⟨ct, _, hr⟩ := h.arch.content hx
  have h1 := hr.count
  have h2 := hr.ents.len
  have h3 := hr.cap.le
  have h4 := W.size_lt hc
  have hS : STORAGE_LIMIT = 8388608 := rfl
  have := Nat.mul_le_mul (Nat.le_of_lt h4) (show 2 * a.entityCount ≤ 16777216 by omega)
  exact Nat.lt_of_le_of_lt this (by decide)

/-- **C84** (partial: on 32-bit targets, as long as twice the largest population, times the size of a component, stays
below 2^31 bytes) A history with that bound runs on the narrow target with the same outcomes and into the same registry,
and whatever call comes next does there what it does in the rest of the model, faults included. On 64-bit targets this
holds for every history without a bound. -/
theorem C84_narrow_partial {hist : List (Call × Outcome)} (hs : Steps env (Call.Admissible W) Registry.default hist r)
    (hw : w = 32 ∨ w = 64)
    (hB : w = 64 ∨ ∀ c, W.Has c → c.size * (2 * (liveCount hist).2) < 2 ^ (w - 1)) :
    runAllW w env Registry.default (hist.map Prod.fst) = (hist.map Prod.snd, .ok r) ∧
    ∀ call : Call, call.runW w env r = call.run env r := by
  have key : ∀ {hist : List (Call × Outcome)} {r : Registry}, Steps env (Call.Admissible W) Registry.default hist r →
      (w = 64 ∨ ∀ c, W.Has c → c.size * (2 * (liveCount hist).2) < 2 ^ (w - 1)) →
      ∀ call : Call, call.runW w env r = call.run env r := by
    intro hist r hs hB call
    rcases hB with rfl | hB
    · obtain ⟨cs, hi⟩ := (show Reachable W r from ⟨_, hs⟩).inv
      exact hi.run64 call
    · exact hs.runW_eq hw hB call
  refine ⟨?_, key hs hB⟩
  induction hs with
  | nil => rfl
  | snoc h1 h2 h3 ih =>
    next hist r1 r2 call out =>
    have hB1 : w = 64 ∨ ∀ c, W.Has c → c.size * (2 * (liveCount hist).2) < 2 ^ (w - 1) := by
      rcases hB with hB | hB
      · exact .inl hB
      · refine .inr (fun c hc => Nat.lt_of_le_of_lt (Nat.mul_le_mul_left _ ?_) (hB c hc))
        have := liveCount_mono hist (call, out)
        omega
    rw [List.map_append, List.map_append, runAllW_append w env _ _ (ih hB1)]
    simp only [List.map_cons, List.map_nil, runAllW, key h1 hB1 call, h3]

/-- The steps of `create_entity` that do not allocate are the same on every target; so where it works in the rest of the
model, it can only fail in growing the archetype. -/
theorem createEntityW_growth (h : RInv W r cs) {g : Group} {vals : List Val} (hadm : (Call.create g vals).Admissible W r)
    (hw : w = 32 ∨ w = 64) {r' : Registry} {e : Entity} (hc : r.createEntity env g vals = .ok (r', .ok e)) {a : Archetype}
    (ha : a ∈ r.archetypes.archetypes) (hl : a.descriptor.len = g.length)
    (hid : a.descriptor.archetypeId = groupId env g.idSet) :
    (∀ f, a.resizeIfNecessaryW w env = .error f → r.createEntityW w env g vals = .error f) ∧
    (a.Alike w env → r.createEntityW w env g vals = .ok (r', .ok e)) := by
  unfold Registry.createEntity at hc
  unfold Registry.createEntityW
  split at hc
  · cases hc
  · next hv =>
    rw [if_neg hv]
    have hv : (g.descriptor env).isValid = true := by simpa using hv
    have gs := Group.spec hv
    rw [findOrCreateArchetypeW_eq hw (Group.small hv)]
    obtain ⟨j, hj⟩ := List.mem_iff_getElem?.mp ha
    have hlen : a.descriptor.len = (g.descriptor env).archetype.len := by rw [hl, gs.len]
    have hide : a.descriptor.archetypeId = (g.descriptor env).archetype.archetypeId := by
      rw [hid, ← gs.ids_eq, ← gs.archetypeId_eq]
    have hd := Group.descOK (hadm.2 gs.wf.nodup) hv
    rcases h.arch.findOrCreate_spec hd with ⟨i, b, q1, q2, q3, q4⟩ | ⟨q1, _⟩
    · have hij := h.arch.unique_index q2 hj (by rw [q3, hlen]) (by rw [q4, hide])
      rw [hij, hj] at q2
      injection q2 with q2
      subst q2
      rw [q1] at hc ⊢
      simp only [ok_bind] at hc ⊢
      rw [index_of_getElem? (hij ▸ hj : r.archetypes.archetypes[i.toNat]? = some a)] at hc ⊢
      simp only [ok_bind] at hc ⊢
      cases hx : unwrap (IndexInArchetype.new (UInt32.ofNat a.entityCount)) with
      | error x => rw [hx] at hc; cases hc
      | ok iia =>
        rw [hx] at hc
        simp only [ok_bind] at hc ⊢
        cases hy : unwrap (ArchetypeIndex.new i) with
        | error x => rw [hy] at hc; cases hc
        | ok aix =>
          rw [hy] at hc
          simp only [ok_bind] at hc ⊢
          cases hz : r.entities.createEntity env iia aix with
          | error x => rw [hz] at hc; cases hc
          | ok c =>
            rw [hz] at hc
            obtain ⟨c1, _ | e'⟩ := c
            · cases hc
            · simp only [ok_bind] at hc ⊢
              cases hp : a.pushEntityUnchecked env e' g vals with
              | error x => rw [hp] at hc; cases hc
              | ok p =>
                rw [hp] at hc
                unfold Archetype.pushEntityUnchecked at hp
                unfold Archetype.pushEntityUncheckedW
                cases hd1 : debugAssert env (g.descriptor env).isValid with
                | error x => rw [hd1] at hp; cases hp
                | ok _ =>
                  rw [hd1] at hp
                  simp only [ok_bind] at hp ⊢
                  cases hd2 : debugAssert env ((g.descriptor env).archetype.archetypeId == a.descriptor.archetypeId) with
                  | error x => rw [hd2] at hp; cases hp
                  | ok _ =>
                    rw [hd2] at hp
                    simp only [ok_bind] at hp ⊢
                    refine ⟨fun f hf => by rw [hf]; rfl, fun hf => ?_⟩
                    rw [hf, hp]
                    exact hc
    · exact absurd hide (q1 j a hj hlen)

/-- **C84** (what happens beyond) Where `create_entity` works in the rest of the model and the archetype of its components
is full: on the narrow target it does the same if the doubled columns fit into half of the address space, and otherwise
`realloc` is called with a size that breaks its contract. -/
theorem C84_growth_partial (hr : Reachable W r) (hw : w = 32 ∨ w = 64) {g : Group} {vals : List Val}
    (hadm : (Call.create g vals).Admissible W r) {r' : Registry} {e : Entity}
    (hc : r.createEntity env g vals = .ok (r', .ok e)) {a : Archetype} (ha : a ∈ r.archetypes.archetypes)
    (hl : a.descriptor.len = g.length) (hid : a.descriptor.archetypeId = groupId env g.idSet)
    (hfull : a.entityCount = a.capacity) (hfit : Fits w a.descriptor a.capacity) (hlim : a.capacity < STORAGE_LIMIT) :
    (Fits w a.descriptor (2 * a.capacity) → r.createEntityW w env g vals = .ok (r', .ok e)) ∧
    (¬ Fits w a.descriptor (2 * a.capacity) → r.createEntityW w env g vals = .error (.ub .layoutMismatch)) := by
  obtain ⟨cs, h⟩ := hr.inv
  obtain ⟨i, hi⟩ := List.mem_iff_getElem?.mp ha
  obtain ⟨ct, _, hrep⟩ := h.arch.content hi
  have hS : STORAGE_LIMIT = 8388608 := rfl
  have hM : MAX_ENTITIES_PER_ARCHETYPE = 16777215 := rfl
  have hg := C72_growth_partial w hw a hrep.goodDesc hrep.hasMemory hfull hrep.cap.pos (by omega) hfit
  exact ⟨fun hx => (createEntityW_growth h hadm hw hc ha hl hid).2 (hg.1 hx),
    fun hx => (createEntityW_growth h hadm hw hc ha hl hid).1 _ (hg.2.1 hx)⟩

/-! ## A program that breaks it -/

/-- A component of 32 KiB. -/
def exHuge : CompTy := ⟨1, 10, 32768, 8⟩
def exHugeVal : Val := ⟨1, List.replicate 32768 0⟩

/-- A program with that component only. -/
def exHugeWorld : World exEnv := .ofLists exEnv [exHuge] [[10]] (by decide +kernel)

theorem exHuge_idSet : Group.idSet [exHuge] = [10] := by
  simp [Group.idSet, exHuge]

theorem exHuge_valid : (Group.descriptor exEnv [exHuge]).isValid = true := by decide +kernel

theorem exHuge_admissible (r : Registry) : (Call.create [exHuge] [exHugeVal]).Admissible exHugeWorld r := by
  refine ⟨⟨rfl, ?_⟩, fun _ => ⟨?_, ?_⟩⟩
  · intro i c v hc hv
    cases i with
    | zero =>
      injection hc with hc
      injection hv with hv
      subst hc hv
      exact ⟨rfl, List.length_replicate⟩
    | succ i => cases hc
  · intro c hc
    exact hc
  · rw [exHuge_idSet]
    exact List.mem_singleton.mpr rfl

/-- With one archetype, it holds all entities. -/
theorem AllLive.single {n : Nat} (h1 : AllLive W r n) (hone : r.archetypes.archetypes.length ≤ 1) {a : Archetype}
    (ha : a ∈ r.archetypes.archetypes) : a.entityCount = n := by
  obtain ⟨cs, h⟩ := h1.reach.inv
  obtain ⟨ai, hi⟩ := List.mem_iff_getElem?.mp ha
  obtain ⟨ct, hct, hrep⟩ := h.arch.content hi
  have hlive := h1.live
  have := h.iterEntities_nodup.length_le_of_subset (l₂ := ct.ents) (fun x hx => by
    obtain ⟨en, he⟩ := h.live_entry.mp hx
    obtain ⟨a', ct', h5, h6, _, h7, _⟩ := h.entry he
    have h8 := (List.getElem?_eq_some_iff.mp h5).1
    have h9 := (List.getElem?_eq_some_iff.mp hi).1
    have : (en.archetypeIndex env).toNat = ai := by omega
    rw [this, hct] at h6; cases h6
    exact List.mem_of_getElem? h7)
  have h5 := h.rows_le hi
  have h7 := hrep.count
  omega

set_option maxRecDepth 100000 in
/-- A program that creates 32,768 entities with that component reaches a registry whose only archetype is full and has a
column of 1 GiB. The next creation works in the rest of the model. -/
theorem exHugeFull : ∃ r, AllLive exHugeWorld r 32768 ∧
    (∃ a ∈ r.archetypes.archetypes, a.descriptor.len = 1 ∧ a.descriptor.archetypeId = groupId exEnv (Group.idSet [exHuge]) ∧
      a.descriptor.components = [exHuge.descriptor] ∧ a.entityCount = 32768 ∧ a.capacity = 32768) ∧
    ∃ r' e, r.createEntity exEnv [exHuge] [exHugeVal] = .ok (r', .ok e) := by
  obtain ⟨r, h1, hb, h3, h4, _⟩ := AllLive.first (W := exHugeWorld) (g := [exHuge]) (vals := [exHugeVal])
    exHuge_admissible exHuge_valid (AllLive.start _) (by decide)
    (Bounded.default _ _) (k := 32768) (by decide) (by decide) (by decide)
  have h1 : AllLive exHugeWorld r 32768 := h1
  have hone : r.archetypes.archetypes.length ≤ 1 := h4
  obtain ⟨a, ha, hl, hid⟩ := h3
  have hcount := h1.single hone ha
  obtain ⟨cs, h⟩ := h1.reach.inv
  obtain ⟨ai, hi⟩ := List.mem_iff_getElem?.mp ha
  obtain ⟨ct, hct, hrep⟩ := h.arch.content hi
  refine ⟨r, h1, ⟨a, ha, hl, hid, ?_, hcount, ?_⟩, ?_⟩
  · rw [hrep.desc.comps]
    have hlen := hrep.desc.length
    rw [hl] at hlen
    obtain ⟨c, hc⟩ := List.length_eq_one_iff.mp hlen
    rw [hc]
    have := hrep.desc.has c (by rw [hc]; exact List.mem_singleton.mpr rfl)
    rw [List.mem_singleton.mp this]
    rfl
  · obtain ⟨hist, hs⟩ := h1.reach
    have hcap := (C79_capacity_of_peak hs hi).1
    have hp := hs.peak_le ai
    have ht := (C07_slot_recycling (r' := r) hs).2.2.2.1
    rw [h1.table] at ht
    have := hcap.2.2 8 (by omega)
    have := hrep.ents.len
    have := hrep.count
    omega
  · exact (C52_create_progress h1.reach (exHuge_admissible r) exHuge_valid (hb.few (by decide))).1.mpr
      ⟨group_room exHuge_valid (by omega), by rw [h1.table]; decide⟩

/-- On a 32-bit target that creation asks `realloc` for 2^31 bytes. -/
theorem exHugeFault : ∃ r a r' e, Reachable exHugeWorld r ∧ a ∈ r.archetypes.archetypes ∧ a.entityCount = a.capacity ∧
    Fits 32 a.descriptor a.capacity ∧ r.createEntity exEnv [exHuge] [exHugeVal] = .ok (r', .ok e) ∧
    r.createEntityW 32 exEnv [exHuge] [exHugeVal] = .error (.ub .layoutMismatch) := by
  obtain ⟨r, h1, ⟨a, ha, hl, hid, hcomp, hcount, hcap⟩, r', e, hc⟩ := exHugeFull
  have hfit : Fits 32 a.descriptor a.capacity := by
    intro c hm
    rw [hcomp] at hm
    rw [List.mem_singleton.mp hm, hcap]
    decide
  refine ⟨r, a, r', e, h1.reach, ha, by rw [hcount, hcap], hfit, hc, ?_⟩
  refine (C84_growth_partial h1.reach (w := 32) (.inl rfl) (exHuge_admissible r) hc ha hl hid (by rw [hcount, hcap]) hfit
    (by rw [hcap]; decide)).2 (fun hf => ?_)
  have := (hf exHuge.descriptor (by rw [hcomp]; exact List.mem_singleton.mpr rfl)).2
  rw [hcap] at this
  revert this
  decide

/-- **C84** is false: after 32,768 entities with a component of 32 KiB, the next creation is undefined behaviour on 32-bit
targets. -/
theorem C84_violated : ¬ C84_statement := by
  intro h
  obtain ⟨r, a, r', e, h1, _, _, _, hc, hbad⟩ := exHugeFault
  have := h 32 exHugeWorld r (.inl rfl) h1 _ _ (exHuge_admissible r) (run_create_ok hc)
  simp only [Call.runW, hbad] at this
  cases this

theorem exSmall : ∀ c, exWorld.Has c → c.size * (2 * (liveCount (exCalls.zip exOuts)).2) < 2 ^ (32 - 1) := by
  have hp : (liveCount (exCalls.zip exOuts)).2 = 3 := by decide +kernel
  intro c hc
  rw [hp]
  have := exWorld.size_lt hc
  omega

/-- C84 at work on the running example: three component types of 4, 8 and 2 bytes, and at most three live entities; and on
a registry that is at the edge. -/
example : (Steps exEnv (Call.Admissible exWorld) Registry.default (exCalls.zip exOuts) exR ∧
    (∀ c, exWorld.Has c → c.size * (2 * (liveCount (exCalls.zip exOuts)).2) < 2 ^ (32 - 1)) ∧
    runAllW 32 exEnv Registry.default exCalls = (exOuts, .ok exR)) ∧
    ∃ r a r' e, Reachable exHugeWorld r ∧ a ∈ r.archetypes.archetypes ∧ a.entityCount = a.capacity ∧
      Fits 32 a.descriptor a.capacity ∧ r.createEntity exEnv [exHuge] [exHugeVal] = .ok (r', .ok e) ∧
      r.createEntityW 32 exEnv [exHuge] [exHugeVal] = .error (.ub .layoutMismatch) := by
  refine ⟨⟨exSteps, exSmall, ?_⟩, exHugeFault⟩
  have h := (C84_narrow_partial exSteps (w := 32) (.inl rfl) (.inr exSmall)).1
  have e1 : (exCalls.zip exOuts).map Prod.fst = exCalls := List.map_fst_zip (by decide +kernel)
  have e2 : (exCalls.zip exOuts).map Prod.snd = exOuts := List.map_snd_zip (by decide +kernel)
  rw [e1, e2] at h
  exact h

end Shard
