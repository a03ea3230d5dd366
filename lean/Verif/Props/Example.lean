import Verif.Proofs.Step
import Verif.Props.Descriptors
/-!
# A concrete world and a concrete registry for the examples beside the theorems
-/

namespace Shard

/-- The assumptions of a `World`, checked by computation for a list of types and a list of component sets. -/
def worldCheck (env : Env) (types : List CompTy) (sets : List (List UInt16)) : Bool :=
  types.all (fun c => decide (c.size < 65536) && decide (c.align < 65536) && powerOfTwo c.align &&
    c.size % c.align == 0 && (decide (0 < c.size) || env.zstAllocOk)) &&
  types.all (fun c => types.all (fun c' => decide (c.id ≠ c'.id) || decide (c = c'))) &&
  sets.all (fun s => sets.all (fun t => decide (s.length ≠ t.length) || decide (s = t) ||
    !(decide (plainId env s = plainId env t) || decide (plainId env s = groupId env t) ||
      decide (groupId env s = groupId env t))))

/-- A world given by a list of types and a list of component sets. -/
def World.ofLists (env : Env) (types : List CompTy) (sets : List (List UInt16)) (h : worldCheck env types sets = true) :
    World env where
  Has c := c ∈ types
  Used s := s ∈ sets
  id_inj := by
    intro c c' hc hc' hid
    simp only [worldCheck, Bool.and_eq_true, List.all_eq_true] at h
    have := h.1.2 c hc c' hc'
    simpa [hid] using this
  size_lt := by
    intro c hc
    simp only [worldCheck, Bool.and_eq_true, List.all_eq_true] at h
    simpa using (h.1.1 c hc).1.1.1.1
  align_lt := by
    intro c hc
    simp only [worldCheck, Bool.and_eq_true, List.all_eq_true] at h
    simpa using (h.1.1 c hc).1.1.1.2
  align_pow := by
    intro c hc
    simp only [worldCheck, Bool.and_eq_true, List.all_eq_true] at h
    exact (powerOfTwo_iff.1 (h.1.1 c hc).1.1.2).2
  mult := by
    intro c hc
    simp only [worldCheck, Bool.and_eq_true, List.all_eq_true] at h
    simpa using (h.1.1 c hc).1.2
  zst := by
    intro c hc
    simp only [worldCheck, Bool.and_eq_true, List.all_eq_true] at h
    simpa using (h.1.1 c hc).2
  noClash := by
    intro s t hs ht hl hh
    simp only [worldCheck, Bool.and_eq_true, List.all_eq_true] at h
    have := h.2 s hs t ht
    simp only [Bool.or_eq_true, decide_eq_true_eq, Bool.not_eq_true', Bool.or_eq_false_iff, decide_eq_false_iff_not] at this
    rcases this with (this | this) | ⟨⟨h1, h2⟩, h3⟩
    · exact absurd hl this
    · exact this
    · rcases hh with hh | hh | hh
      · exact absurd hh h1
      · exact absurd hh h2
      · exact absurd hh h3

/-- Three component types and all their nonempty combinations. -/
def exWorld : World exEnv :=
  .ofLists exEnv [exA, exB, exC] [[10], [20], [30], [10, 20], [10, 30], [20, 30], [10, 20, 30]] (by decide +kernel)

def exValA : Val := ⟨1, [1, 2, 3, 4]⟩
def exValA' : Val := ⟨1, [5, 6, 7, 8]⟩
def exValB : Val := ⟨2, [9, 9, 9, 9, 8, 8, 8, 8]⟩
def exValC : Val := ⟨3, [42, 43]⟩

/-! ## Admissible calls and concrete histories -/

/-- Run a list of calls. -/
def runCalls (env : Env) : Registry → List Call → M (List Outcome × Registry)
  | r, [] => .ok ([], r)
  | r, call :: calls => do
    let x ← call.run env r
    let y ← runCalls env x.1 calls
    return (x.2 :: y.1, y.2)

theorem Steps.of_run {env : Env} {ok : Registry → Call → Prop} {r0 : Registry} : ∀ {calls : List Call} {r r' : Registry}
    {hist : List (Call × Outcome)} {outs : List Outcome}, (∀ r, ∀ call ∈ calls, ok r call) → Steps env ok r0 hist r →
    runCalls env r calls = .ok (outs, r') → Steps env ok r0 (hist ++ calls.zip outs) r'
  | [], r, r', hist, outs, _, h0, h => by
    unfold runCalls at h
    cases h
    simpa using h0
  | call :: calls, r, r', hist, outs, hok, h0, h => by
    unfold runCalls at h
    cases h1 : call.run env r with
    | error f => rw [h1] at h; cases h
    | ok x =>
      rw [h1] at h
      simp only [ok_bind] at h
      cases h2 : runCalls env x.1 calls with
      | error f => rw [h2] at h; cases h
      | ok y =>
        rw [h2] at h
        cases h
        have := Steps.of_run (fun r c hc => hok r c (List.mem_cons_of_mem _ hc))
          (Steps.snoc h0 (hok r call List.mem_cons_self) h1) h2
        rw [List.append_assoc] at this
        exact this

/-- The values have the types of the group, checked by computation. -/
def typedCheck (g : Group) (vals : List Val) : Bool :=
  decide (vals.length = g.length) && (g.zip vals).all (fun x => decide (x.2.ty = x.1.ty) && decide (x.2.bytes.length = x.1.size))

theorem typedCheck_ok {g : Group} {vals : List Val} (h : typedCheck g vals = true) : TypedVals g vals := by
  simp only [typedCheck, Bool.and_eq_true, decide_eq_true_eq, List.all_eq_true] at h
  refine ⟨h.1, fun i c v hc hv => ?_⟩
  have hm : (c, v) ∈ g.zip vals := by
    rw [List.mem_iff_getElem?]
    refine ⟨i, ?_⟩
    rw [List.getElem?_zip_eq_some]
    exact ⟨hc, hv⟩
  exact h.2 _ hm

/-- A creation is admissible, checked by computation. -/
def createCheck (types : List CompTy) (sets : List (List UInt16)) (g : Group) (vals : List Val) : Bool :=
  typedCheck g vals && g.all (fun c => decide (c ∈ types)) &&
    sets.any (fun s => s.isPerm (g.map (fun c => c.id)) && decide (s.Pairwise (fun a b => a ≤ b)))

theorem createCheck_ok {env : Env} {types : List CompTy} {sets : List (List UInt16)} {h : worldCheck env types sets = true}
    {g : Group} {vals : List Val} (hc : createCheck types sets g vals = true) (r : Registry) :
    (Call.create g vals).Admissible (World.ofLists env types sets h) r ∧ (World.ofLists env types sets h).OkGroup g := by
  simp only [createCheck, Bool.and_eq_true, List.all_eq_true, List.any_eq_true, decide_eq_true_eq, List.isPerm_iff] at hc
  obtain ⟨⟨h1, h2⟩, s, h3, h4, h5⟩ := hc
  have hu : g.idSet = s := sorted_perm_ids g.idSet_sorted h5 (g.idSet_perm.trans h4.symm)
  have hok : (World.ofLists env types sets h).OkGroup g := ⟨h2, by rw [hu]; exact h3⟩
  exact ⟨⟨typedCheck_ok h1, fun _ => hok⟩, hok⟩

/-- The component sets of `exWorld` are all nonempty sets of its ids. -/
theorem exUsed {s : List UInt16} (h1 : s.Pairwise (fun a b => a < b)) (h2 : s ≠ []) (h3 : ∀ i ∈ s, i = 10 ∨ i = 20 ∨ i = 30) :
    exWorld.Used s := by
  have hlast : ∀ {t : List UInt16}, t.Pairwise (fun a b => a < b) → (∀ i ∈ t, i = 30) → t = [] ∨ t = [30] := by
    intro t p1 p2
    match t, p1, p2 with
    | [], _, _ => exact Or.inl rfl
    | [a], _, p2 => have := p2 a (by simp); subst this; exact Or.inr rfl
    | a :: b :: t, p1, p2 =>
      have ha := p2 a (by simp); have hb := p2 b (by simp); subst ha; subst hb
      have := (List.pairwise_cons.mp p1).1 30 (by simp)
      exact absurd this (by decide)
  have hmid : ∀ {t : List UInt16}, t.Pairwise (fun a b => a < b) → (∀ i ∈ t, i = 20 ∨ i = 30) →
      t = [] ∨ t = [30] ∨ t = [20] ∨ t = [20, 30] := by
    intro t p1 p2
    match t, p1, p2 with
    | [], _, _ => exact Or.inl rfl
    | a :: t, p1, p2 =>
      obtain ⟨q1, q2⟩ := List.pairwise_cons.mp p1
      have ht : ∀ i ∈ t, i = 30 := by
        intro i hi
        have h1 := q1 i hi
        rcases p2 i (by simp [hi]) with rfl | rfl
        · rcases p2 a (by simp) with rfl | rfl <;> exact absurd h1 (by decide)
        · rfl
      rcases p2 a (by simp) with rfl | rfl
      · rcases hlast q2 ht with rfl | rfl <;> simp
      · rcases hlast q2 ht with rfl | rfl
        · simp
        · exact absurd (q1 30 (by simp)) (by decide)
  show s ∈ [[10], [20], [30], [10, 20], [10, 30], [20, 30], [10, 20, 30]]
  match s, h1, h2, h3 with
  | a :: t, h1, _, h3 =>
    obtain ⟨q1, q2⟩ := List.pairwise_cons.mp h1
    have ht : ∀ i ∈ t, i = 20 ∨ i = 30 := by
      intro i hi
      have h1 := q1 i hi
      rcases h3 i (by simp [hi]) with rfl | h | h
      · rcases h3 a (by simp) with rfl | rfl | rfl <;> exact absurd h1 (by decide)
      · exact Or.inl h
      · exact Or.inr h
    rcases h3 a (by simp) with rfl | rfl | rfl <;> rcases hmid q2 ht with rfl | rfl | rfl | rfl <;>
      first
      | decide
      | exact absurd (q1 20 List.mem_cons_self) (by decide)
      | exact absurd (q1 30 List.mem_cons_self) (by decide)

theorem exHas_id {c : CompTy} (h : exWorld.Has c) : c.id = 10 ∨ c.id = 20 ∨ c.id = 30 := by
  have h : c ∈ [exA, exB, exC] := h
  simp only [List.mem_cons, List.not_mem_nil, or_false] at h
  rcases h with rfl | rfl | rfl <;> simp [exA, exB, exC]

/-- A call of a program in `exWorld`, checked by computation. -/
def exCheck : Call → Bool
  | .create g vals => typedCheck g vals && g.all (fun c => decide (c ∈ [exA, exB, exC])) && decide (g ≠ [])
  | .destroy _ => true
  | .removeEntity _ _ => true
  | .add _ c v => decide (c ∈ [exA, exB, exC]) && decide (v.ty = c.ty) && decide (v.bytes.length = c.size)
  | .remove _ c => decide (c ∈ [exA, exB, exC])
  | .write _ c v => decide (c ∈ [exA, exB, exC]) && decide (v.ty = c.ty) && decide (v.bytes.length = c.size)
  | .writeIn .. => false
  | .writeIter .. => false

theorem exCheck_ok {call : Call} (h : exCheck call = true) (r : Registry) : call.Admissible exWorld r := by
  cases call with
  | create g vals =>
    simp only [exCheck, Bool.and_eq_true, List.all_eq_true, decide_eq_true_eq] at h
    obtain ⟨⟨h1, h2⟩, h3⟩ := h
    refine ⟨typedCheck_ok h1, fun hn => ⟨h2, ?_⟩⟩
    apply exUsed
    · have hnd : g.idSet.Nodup := g.idSet_perm.nodup_iff.mpr hn
      exact (g.idSet_sorted.and hnd).imp (fun ⟨a, b⟩ => UInt16.lt_of_le_of_ne a b)
    · intro hc
      have := g.idSet_perm.length_eq
      rw [hc] at this
      simp at this
      exact h3 (List.length_eq_zero_iff.mp this.symm)
    · intro i hi
      obtain ⟨c, hc, rfl⟩ := List.mem_map.mp (g.idSet_perm.mem_iff.mp hi)
      exact exHas_id (h2 c hc)
  | destroy e => trivial
  | removeEntity g e => trivial
  | add e c v =>
    simp only [exCheck, Bool.and_eq_true, decide_eq_true_eq] at h
    refine ⟨h.1.1, ⟨h.1.2, h.2⟩, fun _ s hs => exUsed hs.1 ?_ ?_⟩
    · intro hc
      have := (hs.2 c.id).mpr (Or.inl rfl)
      rw [hc] at this
      cases this
    · intro i hi
      rcases (hs.2 i).mp hi with rfl | ⟨c', hc', rfl, _⟩
      · exact exHas_id h.1.1
      · exact exHas_id hc'
  | remove e c =>
    simp only [exCheck, decide_eq_true_eq] at h
    refine ⟨h, fun _ s hne hs => exUsed hs.1 hne ?_⟩
    intro i hi
    obtain ⟨_, c', hc', rfl, _⟩ := (hs.2 i).mp hi
    exact exHas_id hc'
  | write e c v =>
    simp only [exCheck, Bool.and_eq_true, decide_eq_true_eq] at h
    exact ⟨h.1.1, h.1.2, h.2⟩
  | writeIn g e j v => cases h
  | writeIter it g n j k v => cases h

def okOr {α : Type} (d : α) : M α → α
  | .ok a => a
  | .error _ => d

/-- To exhibit a run, compute everything but the new state. -/
theorem exists_ok {α β : Type} {x : M (α × β)} {b : β} (h : x.map Prod.snd = .ok b) : ∃ a, x = .ok (a, b) := by
  cases x with
  | error f => cases h
  | ok y =>
    have : y.2 = b := by simpa [Except.map] using h
    exact ⟨y.1, by rw [← this]⟩

/-- A history of `exWorld`: two entities are created, the first with components `B` and `A`, the second with `A`; the
first is given a `C`, a third is created and destroyed, and a fourth takes over its slot. -/
def exCalls : List Call :=
  [.create [exB, exA] [exValB, exValA], .create [exA] [exValA'], .add (Entity.newUnchecked 0 0) exC exValC,
    .create [exA, exB] [exValA, exValB], .destroy (Entity.newUnchecked 2 0), .create [exC] [exValC]]

def exE1 : Entity := Entity.newUnchecked 0 0
def exE2 : Entity := Entity.newUnchecked 1 0
def exE3 : Entity := Entity.newUnchecked 2 0
def exE4 : Entity := Entity.newUnchecked 2 1

def exR : Registry := (okOr ([], Registry.default) (runCalls exEnv Registry.default exCalls)).2
def exOuts : List Outcome := (okOr ([], Registry.default) (runCalls exEnv Registry.default exCalls)).1

set_option maxRecDepth 100000 in
theorem exRun : runCalls exEnv Registry.default exCalls = .ok (exOuts, exR) := by
  decide +kernel

theorem exSteps : Steps exEnv (Call.Admissible exWorld) Registry.default (exCalls.zip exOuts) exR := by
  have := Steps.of_run (calls := exCalls) (ok := Call.Admissible exWorld)
    (fun r call hc => exCheck_ok (List.all_eq_true.mp (show exCalls.all exCheck = true by decide +kernel) call hc) r)
    Steps.nil exRun
  simpa using this

/-- `exR` is reachable and has three live entities, one of them in a recycled slot. -/
theorem exReachable : Reachable exWorld exR := ⟨_, exSteps⟩

set_option maxRecDepth 100000 in
theorem exR_live : exR.iterEntities exEnv = [exE1, exE2, exE4] ∧
    exR.getComponent exEnv exA exE1 = .ok (some exValA) ∧ exR.getComponent exEnv exB exE1 = .ok (some exValB) ∧
    exR.getComponent exEnv exC exE1 = .ok (some exValC) ∧ exR.getComponent exEnv exA exE2 = .ok (some exValA') ∧
    exR.getComponent exEnv exC exE2 = .ok none ∧ exR.getComponent exEnv exC exE4 = .ok (some exValC) ∧
    exR.getComponent exEnv exA exE3 = .ok none := by
  decide +kernel

end Shard
