import Verif.Props.Ordinary
import Verif.Props.Reference
/-!
# Following a program

Two ways to follow the calls of a concrete program: with the state of the reference registry (`Traced`), or with the
abstract map alone, as long as it stays below the storage limit (`Busy`).
-/

set_option autoImplicit false

namespace Shard

variable {env : Env} {W : World env} {r : Registry}

theorem ok_then {α β : Type} {m : M α} {a : α} (h : m = .ok a) (f : α → M β) : (m >>= f) = f a := by
  subst h; rfl

theorem run_create_success {g : Group} {vals : List Val} {e : Entity} {r' : Registry} {out : Outcome}
    (h : (Call.create g vals).run env r = .ok (r', out)) (ho : out.created = some e) :
    r.createEntity env g vals = .ok (r', .ok e) := by
  simp only [Call.run] at h
  cases hx : r.createEntity env g vals with
  | error f => rw [hx] at h; cases h
  | ok x =>
    obtain ⟨r1, o⟩ := x
    rw [hx] at h
    cases o with
    | err vs => cases h; cases ho
    | ok e1 => cases h; cases ho; rfl

/-- The `i`-th handle of a registry in which nothing was destroyed. -/
def nth (i : Nat) : Entity := Entity.newUnchecked (UInt32.ofNat i) 0

/-- A registry with its history and the corresponding reference registry. -/
def Traced (W : World env) (r : Registry) (R : RReg) : Prop :=
  ∃ hist cs, Steps env (Call.Admissible W) Registry.default hist r ∧ RRel W r cs R

theorem Traced.create {R R' : RReg} {g : Group} {vals : List Val} {out : Outcome} {e : Entity} (h : Traced W r R)
    (hadm : (Call.create g vals).Admissible W r) (hs : R.step env (.create g vals) = .ok (R', out))
    (ho : out.created = some e) : ∃ r', r.createEntity env g vals = .ok (r', .ok e) ∧ Traced W r' R' := by
  obtain ⟨hist, cs, h1, h2⟩ := h
  have := h2.step (call := .create g vals) ⟨hadm, trivial⟩ trivial
  rw [hs] at this
  obtain ⟨r', cs', h3, h4⟩ := this
  exact ⟨r', run_create_success h3 ho, _, cs', h1.snoc hadm h3, h4⟩

/-- The outcome of a successful creation. -/
def madeOut (e : Entity) (vals : List Val) : Outcome := { success := true, created := some e, given := vals }

theorem next_replicate (n : Nat) (ts : List RTable) : RReg.next ⟨List.replicate n 0, [], ts⟩ = nth n := by
  unfold RReg.next RReg.handle nth
  simp

theorem create_step {R : RReg} {g : Group} {vals : List Val} {ts : List RTable} {i : Nat}
    (hg : 1 ≤ g.length ∧ g.length ≤ 14 ∧ (tyIds g).Nodup)
    (hi : internTable R.tables (sortTys g) (createdId env (sortTys g)) = (ts, some i))
    (hv : R.versions.length < 16777215) (hr : rowCount ts i < 8388608) :
    R.step env (.create g vals) =
      .ok ({ R.alloc with tables := onRows ts i (· ++ [(R.next, (sortTys g).map (fun c => valOf g vals c))]) },
        { success := true, created := some R.next, given := vals }) := by
  unfold RReg.step
  simp only [if_pos hg, hi, if_pos hv, if_pos hr]

theorem entities_replicate (n : Nat) (ts : List RTable) :
    RReg.entities ⟨List.replicate n 0, [], ts⟩ = (List.range n).map nth := by
  unfold RReg.entities
  rw [List.filter_eq_self.mpr (by intro a _; simp), List.length_replicate]
  refine List.map_congr_left (fun i hi => ?_)
  unfold RReg.handle nth
  simp [List.mem_range.mp hi]

theorem Steps.count_le {hist : List (Call × Outcome)}
    (hs : Steps env (Call.Admissible W) Registry.default hist r) : (liveCount hist).1 ≤ (liveCount hist).2 := by
  have h7 := C07_slot_recycling (r' := r) hs
  have := count_free h7.1
  have h3 : (r.iterEntities env).length = (r.entities.iter env).length := rfl
  omega

/-- The program forms few component sets. -/
def FewSets (W : World env) : Prop := ∃ L : List (List UInt16), (∀ s, W.Used s → s ∈ L) ∧ L.length < 32767

/-- A registry of a program with few component sets, with at most `N` slots. -/
def Busy (W : World env) (r : Registry) (N : Nat) (cs : List Content) : Prop :=
  ∃ hist, Steps env (Call.Admissible W) Registry.default hist r ∧ (liveCount hist).2 ≤ N ∧
    RInv W r cs ∧ FewSets W

theorem Traced.busy {R : RReg} {N : Nat} (h : Traced W r R) (hb : FewSets W) (hN : R.versions.length ≤ N) : ∃ cs, Busy W r N cs := by
  obtain ⟨hist, cs, h1, h2⟩ := h
  have h7 := (C07_slot_recycling (r' := r) h1).2.2.2.1
  have h8 := congrArg List.length h2.slots.versions
  rw [List.length_map] at h8
  exact ⟨cs, hist, h1, by omega, h2.inv, hb⟩

namespace Busy

variable {N : Nat} {cs : List Content}

theorem mono {N' : Nat} (h : Busy W r N cs) (hN : N ≤ N') : Busy W r N' cs := by
  obtain ⟨hist, h1, h2, h3⟩ := h
  exact ⟨hist, h1, Nat.le_trans h2 hN, h3⟩

theorem inv (h : Busy W r N cs) : RInv W r cs := h.elim (fun _ x => x.2.2.1)

theorem createAny (h : Busy W r N cs) (hN : N < STORAGE_LIMIT) {g : Group} {vals : List Val}
    (hadm : (Call.create g vals).Admissible W r) (hv : (g.descriptor env).isValid = true) :
    ∃ r' e cs', r.createEntity env g vals = .ok (r', .ok e) ∧ Busy W r' (N + 1) cs' ∧
      r.look env cs e = none ∧ r'.look env cs' = AMap.set (r.look env cs) e (some (lookupTy g vals)) := by
  obtain ⟨hist, h1, h2, h3, hb⟩ := h
  obtain ⟨r', e, hc⟩ := (C75_ordinary_programs h1 (Or.inr hb) (by omega)).1 _ _ hadm hv
  obtain ⟨cs', q1, q2, q3⟩ := h3.create_ok hadm hc
  refine ⟨r', e, cs', hc, ⟨_, h1.snoc hadm (run_create_ok hc), ?_, q1.inv, hb⟩, q2, q3⟩
  have := h1.count_le
  rw [liveCount_snoc]
  simp only
  omega

theorem destroyOne (h : Busy W r N cs) {e : Entity} {f : CompTy → Option Val} (hf : r.look env cs e = some f) :
    ∃ r' cs' d, r.destroyEntity env e = .ok (r', true, d) ∧ Busy W r' N cs' ∧
      r'.look env cs' = AMap.set (r.look env cs) e none := by
  obtain ⟨hist, h1, h2, h3, hw⟩ := h
  obtain ⟨r', out, cs', hrun, _⟩ := h3.destroy_step e
  cases hd : r.destroyEntity env e with
  | error flt => simp only [Call.run, hd] at hrun; cases hrun
  | ok x =>
    obtain ⟨r2, b, d⟩ := x
    obtain ⟨cs2, q1, q2, q3⟩ := h3.destroy_ok hd
    have hb : b = true := q2.mpr (h3.live_iff.mpr ⟨f, hf⟩)
    subst hb
    refine ⟨r2, cs2, d, rfl, ⟨_, h1.snoc (call := .destroy e) trivial (run_destroy hd), ?_, q1.inv, hw⟩, q3⟩
    rw [liveCount_snoc]
    exact h2

theorem addAny (h : Busy W r N cs) (hN : N < STORAGE_LIMIT) {e : Entity} {c : CompTy} {v : Val} {f : CompTy → Option Val}
    {t : List UInt16} (hf : r.look env cs e = some f) (hc : f c = none) (hadm : (Call.add e c v).Admissible W r)
    (ht : AscSet t (WithId W r e c)) (hl : t.length ≤ 13) (hp : plainId env t ≠ ARCHETYPE_ID_INVALID) :
    ∃ r' cs', r.addComponent env e c v = .ok (r', .ok ()) ∧ Busy W r' N cs' ∧
      r'.look env cs' = AMap.set (r.look env cs) e (some (setComp f c (some v))) := by
  obtain ⟨hist, h1, h2, h3, hw⟩ := h
  have hno : r.hasComponent env c e = .ok false := by
    rw [h3.hasComponent_eq hadm.1, hf]
    simp [hc]
  obtain ⟨r', hx⟩ := ((C75_ordinary_programs h1 (Or.inr hw) (by omega)).2.1 e c v t hadm (h3.live_iff.mpr ⟨_, hf⟩)
    hno ht).1 hl hp
  obtain ⟨cs', f', q1, q2, q3, q4⟩ := h3.add_ok hadm hx
  rw [hf] at q2
  cases q2
  refine ⟨r', cs', hx, ⟨_, h1.snoc hadm (run_add_ok hx), ?_, q1.inv, hw⟩, q4⟩
  rw [liveCount_snoc]
  exact h2

theorem removeAny (h : Busy W r N cs) (hN : N < STORAGE_LIMIT) {e : Entity} {c : CompTy} {v : Val} {f : CompTy → Option Val}
    {t : List UInt16} (hf : r.look env cs e = some f) (hc : f c = some v) (hadm : (Call.remove e c).Admissible W r)
    (ht : AscSet t (WithoutId W r e c)) (hl : 1 ≤ t.length) (hl' : t.length ≤ 12)
    (hp : plainId env t ≠ ARCHETYPE_ID_INVALID) :
    ∃ r' cs', r.removeComponent env e c = .ok (r', .ok v) ∧ Busy W r' N cs' ∧
      r'.look env cs' = AMap.set (r.look env cs) e (some (setComp f c none)) := by
  obtain ⟨hist, h1, h2, h3, hw⟩ := h
  have hyes : r.hasComponent env c e = .ok true := by
    rw [h3.hasComponent_eq hadm.1, hf]
    simp [hc]
  obtain ⟨r', w, hx⟩ := ((C75_ordinary_programs h1 (Or.inr hw) (by omega)).2.2.1 e c t hadm hyes ht).2.1 hl hl' hp
  obtain ⟨cs', f', q1, q2, q3, _, q4⟩ := h3.remove_ok hadm hx
  rw [hf] at q2
  cases q2
  rw [hc] at q3
  cases q3
  refine ⟨r', cs', hx, ⟨_, h1.snoc hadm (run_remove_ok hx), ?_, q1.inv, hw⟩, q4⟩
  rw [liveCount_snoc]
  exact h2

end Busy

end Shard
