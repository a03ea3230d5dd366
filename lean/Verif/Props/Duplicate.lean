import Verif.Spec.Duplicate
import Verif.Props.System
import Verif.Props.Locality
/-!
# C120: making new entities from the components of existing ones
-/

set_option autoImplicit false

namespace Shard

open Script

variable {env : Env} {W : World env} {r r' : Registry} {cs : List Content} {g : Group} {e : Entity}

theorem RInv.typed_tuple (h : RInv W r cs) (hg : ∀ c ∈ g, W.Has c) (hv : (g.descriptor env).isValid = true)
    (hm : Matches env r g e) : ∃ vals, r.getComponents env g e = .ok (some vals) ∧ TypedVals g vals ∧
      ∀ (j : Nat) (c : CompTy), g[j]? = some c → r.getComponent env c e = .ok vals[j]? := by
  obtain ⟨f, hf⟩ := h.live_iff.mp hm.1
  have hall : ∀ c ∈ g, (f c).isSome := fun c hc => (h.has_iff hf (hg c hc)).mp (hm.2 c hc)
  refine ⟨tupleOf g f, ?_, ⟨by simp [tupleOf], fun i c v h1 h2 => ?_⟩, fun j c hj => ?_⟩
  · rw [h.getComponents_eq hg hv, hf]
    simp only [Option.bind_some]
    rw [if_pos (show hasAll f g = true from List.all_eq_true.mpr hall)]
    rfl
  · unfold tupleOf at h2
    rw [List.getElem?_map, h1] at h2
    simp only [Option.map_some, Option.some.injEq] at h2
    obtain ⟨w, hw⟩ := Option.isSome_iff_exists.mp (hall c (List.mem_of_getElem? h1))
    rw [hw] at h2
    rw [← h2]
    exact h.look_typed hf hw
  · have hc := List.mem_of_getElem? hj
    obtain ⟨w, hw⟩ := Option.isSome_iff_exists.mp (hall c hc)
    rw [h.getComponent_eq (hg c hc), hf]
    unfold tupleOf
    rw [List.getElem?_map, hj]
    simp only [Option.bind_some, Option.map_some, hw]
    rfl

/-- **C120** A new entity can be made from the components of an existing one: it has exactly the components asked for, with
the values of the existing one, which is left as it is like all other entities. -/
theorem C120_one {hist : List (Call × Outcome)} (h : OrdinaryRun W hist r) (hg : W.OkGroup g)
    (hv : (g.descriptor env).isValid = true) (hm : Matches env r g e) :
    ∃ vals r' e', duplicate env r e g = .ok (some (r', e')) ∧ (Call.create g vals).Admissible W r ∧
      r.createEntity env g vals = .ok (r', .ok e') ∧ CopyOf W r e g r' e' ∧ ¬ Live env r e' ∧
      ∀ x, x ≠ e' → SameEntity W r r' x := by
  have hr : Reachable W r := ⟨_, h.1⟩
  obtain ⟨cs, i⟩ := hr.inv
  obtain ⟨vals, k1, k2, k3⟩ := i.typed_tuple hg.has hv hm
  have hadm : (Call.create g vals).Admissible W r := ⟨k2, fun _ => hg⟩
  obtain ⟨r', e', hc⟩ := (C75_ordinary_programs h.1 h.2.1 h.2.2).1 g vals hadm hv
  obtain ⟨c1, c2, c3⟩ := C10_create_then_read hr hadm hc
  obtain ⟨d1, d2, _⟩ := C03_created_handle_fresh hr hadm hc
  have hframe := C11_create_frame hr hadm hc
  refine ⟨vals, r', e', ?_, hadm, hc, ⟨⟨d2, fun c hW => ?_⟩, fun c hcg => ?_, c2⟩, d1,
    fun x hx' => hframe x (fun hh => hx' (Registry.Res.ok.inj hh).symm)⟩
  · unfold duplicate
    rw [k1]
    simp only [ok_bind, hc]
    rfl
  · rw [c3 c hW]
    constructor
    · intro hh
      injection hh with hh
      exact of_decide_eq_true hh
    · intro hh
      rw [decide_eq_true hh]
  · obtain ⟨j, hj⟩ := List.getElem?_of_mem hcg
    have hjl : j < vals.length := by rw [k2.1]; exact (List.getElem?_eq_some_iff.mp hj).1
    rw [k3 j c hj, c1 j c vals[j] hj (List.getElem?_eq_getElem hjl), List.getElem?_eq_getElem hjl]

theorem CopyOf.after {r'' : Registry} {e' : Entity} (h : CopyOf W r e g r' e') (hg : ∀ c ∈ g, W.Has c)
    (hs : SameEntity W r' r'' e') : CopyOf W r e g r'' e' :=
  ⟨⟨hs.1.mpr h.1.1, fun c hc => by rw [(hs.2 c hc).1]; exact h.1.2 c hc⟩,
    fun c hc => by rw [(hs.2 c (hg c hc)).2]; exact h.2.1 c hc,
    fun c hc hn => by rw [(hs.2 c hc).2]; exact h.2.2 c hc hn⟩

theorem CopyOf.before {r₀ : Registry} {e' : Entity} (h : CopyOf W r e g r' e') (hg : ∀ c ∈ g, W.Has c)
    (hs : SameEntity W r₀ r e) : CopyOf W r₀ e g r' e' :=
  ⟨h.1, fun c hc => by rw [← (hs.2 c (hg c hc)).2]; exact h.2.1 c hc, h.2.2⟩

/-- **C120** Any number of copies of any live entities, some of them copied more than once: all of them are made, under
handles that are all different and were not live; each is a copy of what its original was at the beginning; and no entity
that was there changes. -/
theorem C120_duplicate : ∀ (l : List (Entity × Group)) {r : Registry} {hist : List (Call × Outcome)},
    Steps env (Call.Admissible W) Registry.default hist r → Roomy W hist l.length →
    (∀ x ∈ l, W.OkGroup x.2 ∧ (x.2.descriptor env).isValid = true ∧ Matches env r x.2 x.1) →
    ∃ r' es, duplicateAll env r l = .ok (some (r', es)) ∧ Reachable W r' ∧ es.length = l.length ∧ es.Nodup ∧
      (∀ (n : Nat) (x : Entity × Group) (e' : Entity), l[n]? = some x → es[n]? = some e' → CopyOf W r x.1 x.2 r' e') ∧
      (∀ e' ∈ es, ¬ Live env r e') ∧ ∀ x, x ∉ es → SameEntity W r r' x
  | [], r, hist, h, _, _ =>
    ⟨r, [], rfl, ⟨_, h⟩, rfl, List.nodup_nil, fun n x e' h => by simp at h, fun x h => by simp at h,
      fun _ _ => ⟨Iff.rfl, fun _ _ => ⟨rfl, rfl⟩⟩⟩
  | (e, g) :: l, r, hist, h, hroom, hall => by
    obtain ⟨a1, a2, a3⟩ := hall (e, g) List.mem_cons_self
    have hroom' : Roomy W hist (l.length + 1) := hroom
    obtain ⟨vals, s, e', t0, t1, t2, t3, t4, t5⟩ := C120_one (hroom'.ordinary h) a1 a2 a3
    have hs := h.snoc t1 (run_create_ok t2)
    have hne : ∀ x ∈ (e, g) :: l, x.1 ≠ e' := fun x hx hh => t4 (hh ▸ (hall x hx).2.2.1)
    obtain ⟨r'', es, p0, p1, p2, p3, p4, p5, p6⟩ := C120_duplicate l hs (hroom'.snoc _) (fun x hx => by
      obtain ⟨b1, b2, b3, b4⟩ := hall x (List.mem_cons_of_mem _ hx)
      have hsame := t5 x.1 (hne x (List.mem_cons_of_mem _ hx))
      exact ⟨b1, b2, hsame.1.mpr b3, fun c hc => by rw [(hsame.2 c (b1.has c hc)).1]; exact b4 c hc⟩)
    have hfresh : e' ∉ es := fun hm => p5 e' hm t3.1.1
    refine ⟨r'', e' :: es, ?_, p1, by simp [p2], List.nodup_cons.mpr ⟨hfresh, p3⟩, ?_, ?_, ?_⟩
    · unfold duplicateAll
      rw [t0]
      simp only [ok_bind, p0]
      rfl
    · intro n x y hx hy
      cases n with
      | zero =>
        simp only [List.getElem?_cons_zero, Option.some.injEq] at hx hy
        subst hx hy
        exact t3.after a1.has (p6 e' hfresh)
      | succ n =>
        simp only [List.getElem?_cons_succ] at hx hy
        have hxm := List.mem_cons_of_mem (e, g) (List.mem_of_getElem? hx)
        exact (p4 n x y hx hy).before (hall x hxm).1.has (t5 x.1 (hne x hxm))
    · intro y hy
      rcases List.mem_cons.mp hy with rfl | hy
      · exact t4
      · exact fun hl => p5 y hy ((t5 y (fun hh => hfresh (by rw [← hh]; exact hy))).1.mpr hl)
    · intro x hx
      rw [List.mem_cons, not_or] at hx
      exact (t5 x hx.1).trans (p6 x hx.2)

/-! ## Examples -/

/-- The first entity of the example registry twice, once with all its components and once with two of them; and the
third one. -/
def exCopies : List (Entity × Group) := [(exE1, [exC, exA, exB]), (exE4, [exC]), (exE1, [exB, exA])]

set_option maxRecDepth 100000 in
/-- C120: the hypotheses hold for the example. -/
example : Steps exEnv (Call.Admissible exWorld) Registry.default (exCalls.zip exOuts) exR ∧
    Roomy exWorld (exCalls.zip exOuts) exCopies.length ∧
    ∀ x ∈ exCopies, exWorld.OkGroup x.2 ∧ (x.2.descriptor exEnv).isValid = true ∧ Matches exEnv exR x.2 x.1 := by
  refine ⟨exSteps, ⟨.inl (by decide +kernel), by decide +kernel⟩, ?_⟩
  have h : ∀ x ∈ exCopies, (x.2.descriptor exEnv).isValid = true ∧
      x.1 ∈ exR.iterEntities exEnv ∧ (∀ c ∈ x.2, exR.hasComponent exEnv c x.1 = .ok true) ∧
      createCheck [exA, exB, exC] [[10], [20], [30], [10, 20], [10, 30], [20, 30], [10, 20, 30]] x.2
        ((okOr none (exR.getComponents exEnv x.2 x.1)).getD []) = true := by
    decide +kernel
  exact fun x hx => ⟨(createCheck_ok (h x hx).2.2.2 exR).2, (h x hx).1, (h x hx).2.1, (h x hx).2.2.1⟩

set_option maxRecDepth 100000 in
/-- C120: the copies, computed. -/
example : okOr none ((duplicateAll exEnv exR exCopies).map (fun x => x.map (fun y => (y.2,
      y.2.map (fun e => [exA, exB, exC].map (fun c => okOr none (y.1.getComponent exEnv c e))),
      okOr none (y.1.getComponent exEnv exA exE1))))) =
    some ([Entity.newUnchecked 3 0, Entity.newUnchecked 4 0, Entity.newUnchecked 5 0],
      [[some exValA, some exValB, some exValC], [none, none, some exValC], [some exValA, some exValB, none]],
      some exValA) := by decide +kernel

end Shard
