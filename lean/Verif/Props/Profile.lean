import Verif.Props.Reference
/-!
# C67: the build profile and the allocator do not show

`debug_assert!`, arithmetic overflow checks and the treatment of zero-sized requests are the parameters of the model beside
the byte order. A program that satisfies the assumptions on calls sees none of them, except for the fault at a full
archetype, which is a failed assertion in one build and undefined behaviour in the other.
-/

set_option autoImplicit false

namespace Shard

variable {env env' : Env}

theorem computeArchetypeId_profile (hb : env.bigEndian = env'.bigEndian) (ds : List ComponentDescriptor) :
    ArchetypeDescriptor.computeArchetypeId env ds = ArchetypeDescriptor.computeArchetypeId env' ds := by
  have h : ∀ ds, ArchetypeDescriptor.idBytes env ds = ArchetypeDescriptor.idBytes env' ds := by
    intro ds
    unfold ArchetypeDescriptor.idBytes u16ToNeBytes
    rw [hb]
  unfold ArchetypeDescriptor.computeArchetypeId
  simp only [h]

theorem plainId_profile (hb : env.bigEndian = env'.bigEndian) (s : List UInt16) : plainId env s = plainId env' s :=
  computeArchetypeId_profile hb _

theorem groupId_profile (hb : env.bigEndian = env'.bigEndian) (s : List UInt16) : groupId env s = groupId env' s :=
  computeArchetypeId_profile hb _

/-- The same program in another build. -/
def World.rebuild (W : World env) (hb : env.bigEndian = env'.bigEndian)
    (hz : ∀ c, W.Has c → 0 < c.size ∨ env'.zstAllocOk = true) : World env' where
  Has := W.Has
  Used := W.Used
  id_inj := W.id_inj
  size_lt := W.size_lt
  align_lt := W.align_lt
  align_pow := W.align_pow
  mult := W.mult
  zst := fun {c} hc => hz c hc
  noClash := by
    intro s t hs ht hl hx
    rw [← plainId_profile hb, ← plainId_profile hb, ← groupId_profile hb, ← groupId_profile hb] at hx
    exact W.noClash hs ht hl hx

theorem Group.isValid_profile (hb : env.bigEndian = env'.bigEndian) (g : Group) :
    (g.descriptor env).isValid = true ↔ (g.descriptor env').isValid = true := by
  rw [Group.isValid_iff, Group.isValid_iff]
  constructor
  · rintro ⟨h1, h2⟩
    refine ⟨h1, ?_⟩
    rw [Group.archetypeId_idSet h1] at h2 ⊢
    rwa [← groupId_profile hb]
  · rintro ⟨h1, h2⟩
    refine ⟨h1, ?_⟩
    rw [Group.archetypeId_idSet h1] at h2 ⊢
    rwa [groupId_profile hb]

/-- Steps of the reference in the two builds. -/
theorem RReg.step_profile (hb : env.bigEndian = env'.bigEndian) (R : RReg) (c : Call) :
    match R.step env c, R.step env' c with
    | .error f, .error f' => FaultLike f f'
    | .ok x, .ok x' => x = x'
    | _, _ => False := by
  have same : ∀ x : Except Fault (RReg × Outcome), match x, x with
      | .error f, .error f' => FaultLike f f'
      | .ok x, .ok x' => x = x'
      | _, _ => False := by
    intro x
    cases x with
    | error f => exact Or.inl rfl
    | ok x => rfl
  have hcr : ∀ l, createdId env l = createdId env' l := by intro l; unfold createdId; rw [hb]
  have hch : ∀ l, changedId env l = changedId env' l := by intro l; unfold changedId; rw [hb]
  have hit : ∀ ts g it, iterTables env ts g it = iterTables env' ts g it := by
    intro ts g it
    cases it <;> simp only [iterTables, exactIndex, hcr]
  cases c with
  | create g vals =>
    simp only [RReg.step, hcr]
    by_cases hw : 1 ≤ g.length ∧ g.length ≤ 14 ∧ (tyIds g).Nodup
    · rw [if_pos hw, if_pos hw]
      generalize internTable R.tables (sortTys g) (createdId env' (sortTys g)) = y
      obtain ⟨ts, o⟩ := y
      cases o with
      | none => rfl
      | some i =>
        dsimp only
        by_cases h1 : R.versions.length < 16777215
        · rw [if_pos h1, if_pos h1]
          by_cases h2 : rowCount ts i < 8388608
          · rw [if_pos h2, if_pos h2]
          · rw [if_neg h2, if_neg h2]
            cases env.debug <;> cases env'.debug <;> simp [FaultLike]
        · rw [if_neg h1, if_neg h1]
    · rw [if_neg hw, if_neg hw]
  | destroy e => exact same _
  | removeEntity g e => exact same _
  | add e c v =>
    have : R.step env (.add e c v) = R.step env' (.add e c v) := by simp only [RReg.step, hch]
    rw [this]; exact same _
  | remove e c =>
    have : R.step env (.remove e c) = R.step env' (.remove e c) := by simp only [RReg.step, hch]
    rw [this]; exact same _
  | write e c v => exact same _
  | writeIn g e j v => exact same _
  | writeIter it g n j k v =>
    have : R.step env (.writeIter it g n j k v) = R.step env' (.writeIter it g n j k v) := by simp only [RReg.step, hit]
    rw [this]; exact same _

section

variable {W : World env} {hb : env.bigEndian = env'.bigEndian} {hz : ∀ c, W.Has c → 0 < c.size ∨ env'.zstAllocOk = true}
  {r r' : Registry} {R : RReg}

theorem hasComponent_profile (h : SameAnswers W r R) (h' : SameAnswers (W.rebuild hb hz) r' R) {c : CompTy} (hc : W.Has c)
    (e : Entity) : r'.hasComponent env' c e = .ok true ↔ r.hasComponent env c e = .ok true := by
  rw [(h.get c e hc).2, (h'.get c e hc).2]

theorem live_profile (h : SameAnswers W r R) (h' : SameAnswers (W.rebuild hb hz) r' R) (e : Entity) :
    Live env' r' e ↔ Live env r e := by
  unfold Live
  rw [h.entities, h'.entities]

theorem hasId_profile (h : SameAnswers W r R) (h' : SameAnswers (W.rebuild hb hz) r' R) (e : Entity) (i : UInt16) :
    HasId (W.rebuild hb hz) r' e i ↔ HasId W r e i := by
  constructor
  · rintro ⟨c, h1, h2, h3⟩
    exact ⟨c, h1, h2, (hasComponent_profile h h' h1 e).mp h3⟩
  · rintro ⟨c, h1, h2, h3⟩
    exact ⟨c, h1, h2, (hasComponent_profile h h' h1 e).mpr h3⟩

/-- A call that is fine in one build is fine in the other. -/
theorem disciplined_profile (h : SameAnswers W r R) (h' : SameAnswers (W.rebuild hb hz) r' R) {c : Call}
    (hd : c.Disciplined W r) : c.Disciplined (W.rebuild hb hz) r' := by
  obtain ⟨ha, hm⟩ := hd
  cases c with
  | create g vals => exact ⟨⟨ha.1, fun hn => ⟨(ha.2 hn).has, (ha.2 hn).used⟩⟩, trivial⟩
  | destroy e => exact ⟨trivial, trivial⟩
  | removeEntity g e =>
    refine ⟨trivial, fun hl => ?_⟩
    obtain ⟨h1, h2, h3, h4⟩ := hm ((live_profile h h' e).mp hl)
    exact ⟨h1, (Group.isValid_profile hb g).mp h2, hl, fun c hc => (hasComponent_profile h h' hc e).trans (h4 c hc)⟩
  | add e c v =>
    obtain ⟨h1, h2, h3⟩ := ha
    refine ⟨⟨h1, h2, fun hl s hs => h3 ((live_profile h h' e).mp hl) s (hs.congr (fun i => ?_))⟩, trivial⟩
    rw [hasId_profile h h']
  | remove e c =>
    obtain ⟨h1, h3⟩ := ha
    refine ⟨⟨h1, fun hl s hn hs => h3 ((live_profile h h' e).mp hl) s hn (hs.congr (fun i => ?_))⟩, trivial⟩
    rw [hasId_profile h h']
  | write e c v => exact ⟨ha, trivial⟩
  | writeIn g e j v => exact ⟨⟨ha.1, (Group.isValid_profile hb g).mp ha.2.1, ha.2.2⟩, trivial⟩
  | writeIter it g n j k v =>
    obtain ⟨h1, h2, h3, h4⟩ := ha
    refine ⟨⟨h1, (Group.isValid_profile hb g).mp h2, h3, ?_⟩, trivial⟩
    cases it <;> first | trivial | exact h4

end

/-- Two ways to end in the two builds: alike in the fault, or in registries that answer every query alike. -/
def SameInBoth (W : World env) (W' : World env') (x x' : M Registry) : Prop :=
  match x, x' with
  | .error f, .error f' => FaultLike f f'
  | .ok r, .ok r' => ∃ R, SameAnswers W r R ∧ SameAnswers W' r' R
  | _, _ => False

theorem profile_run {W : World env} (hb : env.bigEndian = env'.bigEndian)
    (hz : ∀ c, W.Has c → 0 < c.size ∨ env'.zstAllocOk = true) :
    ∀ {calls : List Call} {r r' : Registry} {cs cs' : List Content} {R : RReg}, RRel W r cs R →
      RRel (W.rebuild hb hz) r' cs' R → OkRun W r calls →
      OkRun (W.rebuild hb hz) r' calls ∧ (runAll env' r' calls).1 = (runAll env r calls).1 ∧
        SameInBoth W (W.rebuild hb hz) (runAll env r calls).2 (runAll env' r' calls).2 := by
  intro calls
  induction calls with
  | nil => intro r r' cs cs' R h h' _; exact ⟨trivial, rfl, R, h.answers, h'.answers⟩
  | cons c rest ih =>
    rintro r r' cs cs' R h h' ⟨h1, h2, h3⟩
    have h1' := disciplined_profile h.answers h'.answers h1
    have hs := h.step h1 h2
    have hs' := h'.step h1' h2
    have hp := RReg.step_profile hb R c
    unfold Agree at hs hs'
    unfold runAll
    cases hx : R.step env c with
    | error f =>
      rw [hx] at hs hp
      cases hx' : R.step env' c with
      | ok p => rw [hx'] at hp; exact hp.elim
      | error f' =>
        rw [hx'] at hs' hp
        simp only [] at hs hs' hp
        refine ⟨⟨h1', h2, fun r1 out hr => ?_⟩, ?_⟩
        · rw [hs'] at hr; cases hr
        · rw [hs, hs']
          exact ⟨rfl, hp⟩
    | ok p =>
      rw [hx] at hs hp
      cases hx' : R.step env' c with
      | error f => rw [hx'] at hp; exact hp.elim
      | ok p' =>
        rw [hx'] at hs' hp
        simp only [] at hp
        subst hp
        obtain ⟨R1, out⟩ := p
        obtain ⟨r1, cs1, q1, q2⟩ := hs
        obtain ⟨r1', cs1', q1', q2'⟩ := hs'
        obtain ⟨k1, k2, k3⟩ := ih q2 q2' (h3 r1 out q1)
        refine ⟨⟨h1', h2, fun r2 o hr => ?_⟩, ?_⟩
        · rw [q1'] at hr; cases hr; exact k1
        · rw [q1, q1']
          exact ⟨by simp only [k2], k3⟩

/-- Debug and release builds, with a strict or a lenient allocator: every sequence of calls that satisfies the assumptions
in one build satisfies them in the other (of the same byte order), has the same outcomes there, and ends alike. -/
theorem C67_profile {W : World env} (hb : env.bigEndian = env'.bigEndian)
    (hz : ∀ c, W.Has c → 0 < c.size ∨ env'.zstAllocOk = true) {calls : List Call} (h : OkRun W Registry.default calls) :
    OkRun (W.rebuild hb hz) Registry.default calls ∧
      (runAll env' Registry.default calls).1 = (runAll env Registry.default calls).1 ∧
      SameInBoth W (W.rebuild hb hz) (runAll env Registry.default calls).2 (runAll env' Registry.default calls).2 :=
  profile_run hb hz (RRel.empty W) (RRel.empty _) h

/-- The release build of the example. -/
def exRelease : Env := { exEnv with debug := !exEnv.debug, zstAllocOk := !exEnv.zstAllocOk }

example : OkRun exWorld Registry.default exCalls2 ∧ exEnv.bigEndian = exRelease.bigEndian ∧ exEnv.debug ≠ exRelease.debug ∧
    (∀ c, exWorld.Has c → 0 < c.size ∨ exRelease.zstAllocOk = true) := by
  refine ⟨exOkRun _ (by decide +kernel), rfl, by decide, ?_⟩
  intro c hc
  have hc : c ∈ [exA, exB, exC] := hc
  exact (show ∀ c ∈ [exA, exB, exC], 0 < c.size ∨ exRelease.zstAllocOk = true by decide) c hc

set_option maxRecDepth 100000 in
example : (runAll exRelease Registry.default exCalls2).1 = (runAll exEnv Registry.default exCalls2).1 ∧
    (runAll exRelease Registry.default exCalls2).1.length = 15 := by
  decide +kernel

end Shard
