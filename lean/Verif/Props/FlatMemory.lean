import Verif.Proofs.FlatCalls
import Verif.Props.Safety
import Verif.Props.Example
/-!
# C97: the crate on real addresses

`Model/Flat*.lean` is the crate with raw pointers into one memory of addresses, and an allocator that places blocks
wherever it likes. The theorems compare it with the model in which every column has a block of its own, about which the
other properties speak.
-/

set_option autoImplicit false

namespace Shard.Flat

variable {A : Allocator} {env : Env} {W : World env} {h h' : Heap} {fr : FReg} {r : Registry} {cs : List Content}

/-! ## Computations that never ask the allocator -/

/-- An allocator that never returns null. -/
private def never : Allocator := ⟨fun _ _ _ => some 1⟩

theorem wp_total {α : Type} {x : FM α} {Q : α → Heap → Prop} (hx : ∀ A, wp A x h Q) : ∃ a h', x h = (.ok a, h') ∧ Q a h' := by
  rcases hx never with hx | ⟨_, _, _, _, _, _, hf⟩
  · exact hx
  · cases hf

theorem wp_reads {α : Type} {x : FM α} {a : α} (hx : ∀ A, wp A x h (fun b k => b = a ∧ k = h)) : x h = (.ok a, h) := by
  obtain ⟨b, k, h1, rfl, rfl⟩ := wp_total hx
  exact h1

/-! ## Programs -/

theorem regRep_default (h : Heap) : RegRep h FReg.default Registry.default :=
  ⟨rfl, rfl, ⟨rfl, fun {i} _ _ hi _ => (by simp [FReg.default] at hi), fun {i} _ _ _ _ hi => (by simp [FReg.default] at hi)⟩⟩

theorem fpL_default : FpL FReg.default.archetypes = fun _ => False := by
  funext id
  simp [FpL, FReg.default]

theorem calls_snoc (c : Call) : ∀ (l : List Call) (fr : FReg), fr.calls A env (l ++ [c]) =
    fr.calls A env l >>= fun x => x.1.call A env c >>= fun y => pure (y.1, x.2 ++ [y.2])
  | [], fr => by simp [FReg.calls]
  | d :: l, fr => by
    have ih := calls_snoc c l
    simp only [List.cons_append, FReg.calls, bind_assoc, pure_bind, ih, List.cons_append]

theorem calls_spec (hA : A.Ok) (hw : h.WF) {ok : Registry → Call → Prop} (hok : ∀ r call, ok r call → call.Admissible W r)
    {hist : List (Call × Outcome)} (hs : Steps env ok Registry.default hist r) :
    wp A (FReg.default.calls A env (hist.map (·.1))) h (fun y k => y.2 = hist.map (·.2) ∧ RegRep k y.1 r ∧
      Step h (fun _ => False) k (FpL y.1.archetypes)) := by
  induction hs with
  | nil => exact wp_pure ⟨rfl, regRep_default h, by rw [fpL_default]; exact Step.refl hw _⟩
  | @snoc hist r1 r2 call out hs hc hrun ih =>
    obtain ⟨cs, hi⟩ := hs.inv hok (RInv.empty W)
    rw [List.map_append, List.map_append]
    show wp A (FReg.default.calls A env (hist.map (·.1) ++ [call])) h _
    rw [calls_snoc]
    refine wp_bind (wp_mono ih ?_)
    rintro y k ⟨h1, hR, hst⟩
    refine wp_bind (wp_mono (call_spec hA hst.wf hR (RInv.ready hi) (RInv.groups hi (hok _ _ hc)) hrun) ?_)
    rintro z k' ⟨h2, hR', hst'⟩
    exact wp_pure ⟨by rw [h1, h2]; rfl, hR', hst.trans hst'⟩

/-! ## What is claimed -/

/-- Every query about `fr` in memory `h` is answered as the same query about `r` and leaves the memory as it is. -/
structure Answers (W : World env) (h : Heap) (fr : FReg) (r : Registry) : Prop where
  entities : fr.entities.iter env = r.iterEntities env
  has1 : ∀ {c : CompTy} {e : Entity} {b : Bool}, r.hasComponent env c e = .ok b → fr.hasComponent env c e = .ok b
  has : ∀ {g : Group} {e : Entity} {b : Bool}, r.hasComponents env g e = .ok b → fr.hasComponents env g e = .ok b
  get1 : ∀ {c : CompTy} {e : Entity} {o : Option Val}, r.getComponent env c e = .ok o →
    fr.getComponent env c e h = (.ok o, h)
  get : ∀ {g : Group} {e : Entity} {o : Option (List Val)}, (∀ c ∈ g, W.Has c) → (g.descriptor env).isValid = true →
    r.getComponents env g e = .ok o → fr.getComponents env g e h = (.ok o, h)
  iter : ∀ {g : Group} {f : ArchetypeDescriptor → Bool} {l : List (Nat × List (List Val))}, (∀ c ∈ g, W.Has c) →
    (g.descriptor env).isValid = true → r.iterFilteredComponentsMatching env g f = .ok l →
    fr.iterComponents env g f h = (.ok l, h)
  iterEnt : ∀ {g : Group} {f : ArchetypeDescriptor → Bool} {l : List (Nat × List Entity × List (List Val))},
    (∀ c ∈ g, W.Has c) → (g.descriptor env).isValid = true → r.iterFilteredEntityComponentsMatching env g f = .ok l →
    fr.iterEntityComponents env g f h = (.ok l, h)
  exact : ∀ {g : Group} {l : List (List Val)}, r.iterComponentsExact env g = .ok l →
    fr.iterComponentsExact env g h = (.ok l, h)
  exactEnt : ∀ {g : Group} {l : List Entity × List (List Val)}, r.iterEntityComponentsExact env g = .ok l →
    fr.iterEntityComponentsExact env g h = (.ok l, h)

theorem RegRep.answers (hw : h.WF) (hi : RInv W r cs) (hR : RegRep h fr r) : Answers W h fr r where
  entities := congrArg (·.iter env) hR.ents
  has1 := hasComponent_spec hR
  has := hasComponents_spec hR
  get1 := fun hr => wp_reads (fun _ => getComponent_spec hw hR hr)
  get := fun hg hv hr => wp_reads (fun _ => getComponents_spec hw hR (RInv.ready hi) (RInv.fuzzy hi hg hv) hr)
  iter := fun hg hv hr => wp_reads (fun _ => iterComponents_spec hw hR (RInv.fuzzy hi hg hv) hr)
  iterEnt := fun hg hv hr => wp_reads (fun _ => iterEntityComponents_spec hw hR (RInv.fuzzy hi hg hv) hr)
  exact := fun hr => wp_reads (fun _ => iterComponentsExact_spec hw hR hr)
  exactEnt := fun hr => wp_reads (fun _ => iterEntityComponentsExact_spec hw hR hr)

/-- The place of the component `c` of `e`: a nonnull aligned address `q` inside an allocation that the registry has made
itself (`first` was the number of the next allocation before the program started). -/
structure Place (env : Env) (first : Nat) (h : Heap) (fr : FReg) (e : Entity) (c : CompTy) (q : Ptr) : Prop where
  eq : fr.getComponentMut env c e h = (.ok (some q), h)
  nonnull : q.addr ≠ 0
  aligned : q.addr % c.align = 0
  own : first ≤ q.prov
  inside : ∃ al, h.allocs q.prov = some al ∧ al.base ≤ q.addr ∧ q.addr + c.size ≤ al.base + al.size ∧
    al.base + al.size ≤ 2 ^ 64

theorem place_of (hw : h.WF) (hi : RInv W r cs) (hR : RegRep h fr r) {first : Nat}
    (hown : ∀ {id : Nat}, FpL fr.archetypes id → first ≤ id) {e : Entity} {c : CompTy} {ai : Nat} {p : Ref} (hc : W.Has c)
    (hg : r.getComponentMut env c e = .ok (some (ai, p))) (ht : RefTo env r cs e c ai p) :
    ∃ fa q0, fr.archetypes[ai]? = some fa ∧ fa.pointers[p.col]? = some q0 ∧
      q0.addr ≠ 0 ∧ p.off + c.size ≤ (h.allocs q0.prov).elim 0 (·.size) ∧
      (h.allocs q0.prov).map (·.base) = some q0.addr ∧
      Place env first h fr e c (q0.plus p.off) := by
  obtain ⟨o, k, h1, rfl, h2⟩ := wp_total (fun A => getComponentMut_spec (A := A) hw hR hg)
  rcases h2 with ⟨h2, _⟩ | ⟨ai', p', fa, q, h2, rfl, hfa, q0, hq0, rfl⟩
  · cases h2
  cases h2
  obtain ⟨row, col, ct, t1, t2, t3, rfl⟩ := ht
  obtain ⟨ct', u1, u2⟩ := (hi.placed _ _ _).mp t1
  rw [t2] at u1; cases u1
  obtain ⟨a, ha, hrep⟩ := hi.arch.arch t2
  have hcl : col < ct.cols.length := by rw [hrep.cols.cols_len]; exact lt_of_get t3
  obtain ⟨b, v1, v2⟩ := hrep.cols.col _ _ _ t3 (List.getElem?_eq_getElem hcl)
  have hrow : row < a.capacity := Nat.lt_of_lt_of_le (lt_of_get u2) hrep.ents.len
  have hA := hR.archs.arch hfa ha
  obtain ⟨q1, w1, w2⟩ := hA.col v1
  have hq : q1 = q0 := by
    have : fa.pointers[col]? = some q0 := hq0
    rw [w1] at this; exact Option.some.inj this
  subst hq
  obtain ⟨n1, n2, _⟩ := w2
  have hsz : (blockObj b).size = c.size * a.capacity := v2.size
  have hal : (blockObj b).align = c.align := v2.align
  have hin : c.size * row + c.size ≤ c.size * a.capacity := by
    rw [← Nat.mul_succ]; exact Nat.mul_le_mul_left _ hrow
  have hbase := hw.aligned n2
  simp only [hal] at hbase
  refine ⟨fa, q1, hfa, hq0, n1, ?_, by rw [n2]; rfl, ⟨h1, ?_, ?_, ?_, _, n2, ?_, ?_, hw.top n2⟩⟩
  · rw [n2]; show _ ≤ (blockObj b).size
    rw [hsz]; exact hin
  · show q1.addr + _ ≠ 0
    omega
  · show (q1.addr + c.size * row) % c.align = 0
    rw [Nat.add_mod, hbase, Nat.mul_mod, W.mult hc]
    simp
  · refine hown ⟨fa, List.mem_of_getElem? hfa, q1, ?_, n1, rfl⟩
    exact List.mem_cons_of_mem _ (List.mem_of_getElem? w1)
  · show q1.addr ≤ q1.addr + _
    omega
  · show q1.addr + c.size * row + c.size ≤ q1.addr + (blockObj b).size
    rw [hsz]; omega

theorem places_apart (hw : h.WF) (hi : RInv W r cs) (hR : RegRep h fr r) {e e' : Entity} {c c' : CompTy} (hc : W.Has c)
    (hc' : W.Has c') {q q' : Ptr} (h1 : fr.getComponentMut env c e h = (.ok (some q), h))
    (h2 : fr.getComponentMut env c' e' h = (.ok (some q'), h)) (hne : e ≠ e' ∨ c ≠ c') :
    ∀ x y, x < c.size → y < c'.size → q.addr + x ≠ q'.addr + y := by
  have key : ∀ {e : Entity} {c : CompTy} {q : Ptr}, W.Has c → fr.getComponentMut env c e h = (.ok (some q), h) →
      ∃ ai p fa q0, RefTo env r cs e c ai p ∧ fr.archetypes[ai]? = some fa ∧ fa.pointers[p.col]? = some q0 ∧
        q0.addr ≠ 0 ∧ p.off + c.size ≤ (h.allocs q0.prov).elim 0 (·.size) ∧
        (h.allocs q0.prov).map (·.base) = some q0.addr ∧ q = q0.plus p.off := by
    intro e c q hc hq
    rcases hi.getComponentMut_eq (env := env) hc e with ⟨_, hn⟩ | ⟨f, v, ai, p, _, _, hg, ht⟩
    · obtain ⟨o, k, g1, _, g2⟩ := wp_total (fun A => getComponentMut_spec (A := A) hw hR hn)
      rcases g2 with ⟨_, rfl⟩ | ⟨_, _, _, _, g2, _⟩
      · rw [g1] at hq
        injection hq with hq1
        cases hq1
      · cases g2
    · obtain ⟨fa, q0, a1, a2, a3, a4, a5, a6⟩ := place_of (first := 0) hw hi hR (fun _ => Nat.zero_le _) hc hg ht
      have := a6.eq.symm.trans hq
      cases this
      exact ⟨ai, p, fa, q0, ht, a1, a2, a3, a4, a5, rfl⟩
  obtain ⟨ai, p, fa, q0, t1, t2, t3, t4, t5, t6, rfl⟩ := key hc h1
  obtain ⟨bi, p', fb, q1, u1, u2, u3, u4, u5, u6, rfl⟩ := key hc' h2
  intro x y hx hy
  show q0.addr + p.off + x ≠ q1.addr + p'.off + y
  cases al : h.allocs q0.prov with
  | none => rw [al] at t6; cases t6
  | some al0 =>
  cases bl : h.allocs q1.prov with
  | none => rw [bl] at u6; cases u6
  | some al1 =>
  rw [al] at t5 t6; rw [bl] at u5 u6
  simp only [Option.elim, Option.map, Option.some.injEq] at t5 t6 u5 u6
  have apart : q0.prov ≠ q1.prov → q0.addr + p.off + x ≠ q1.addr + p'.off + y := by
    intro hd
    have := hw.disj al bl hd (p.off + x) (p'.off + y) (by omega) (by omega)
    omega
  by_cases hab : ai = bi
  · subst hab
    rw [t2] at u2; cases u2
    obtain ⟨a, _, hA⟩ := hR.archs.get' t2
    by_cases hcol : p.col = p'.col
    · rw [hcol, u3] at t3; cases t3
      rcases t1.disjoint hi u1 hne with hd | hd | hd | hd
      · exact absurd rfl hd
      · exact absurd hcol hd
      · omega
      · omega
    · refine apart (fun hp => hcol ?_)
      have := hA.own.inj (i := p.col + 1) (j := p'.col + 1) (by simpa [FArch.all] using t3) (by simpa [FArch.all] using u3)
        t4 u4 hp
      omega
  · refine apart (fun hp => ?_)
    refine hR.archs.dis hab t2 u2 q0.prov ⟨q0, ?_, t4, rfl⟩ ⟨q1, ?_, u4, hp⟩
    · exact List.mem_cons_of_mem _ (List.mem_of_getElem? t3)
    · exact List.mem_cons_of_mem _ (List.mem_of_getElem? u3)

/-! ## C97 -/

/-- A program that behaves at the level of blocks behaves the same on addresses, wherever the allocator puts the blocks,
unless the allocator returns null: then an assertion stops it. -/
theorem C97_address_programs (hA : A.Ok) (hw : h.WF) (hf : h.refused = false) {hist : List (Call × Outcome)}
    (hs : Steps env (Call.Admissible W) Registry.default hist r) :
    (∃ h', FReg.default.calls A env (hist.map (·.1)) h = (.error (.panic .assertFailed), h') ∧ h'.refused = true ∧ A.Fails) ∨
    ∃ fr h1, FReg.default.calls A env (hist.map (·.1)) h = (.ok (fr, hist.map (·.2)), h1) ∧
      h1.WF ∧ h1.refused = false ∧ Answers W h1 fr r ∧ (∀ id, id < h.next → Same h h1 id) ∧
      (∀ (e : Entity) (c : CompTy), W.Has c → r.hasComponent env c e = .ok true → ∃ q, Place env h.next h1 fr e c q) ∧
      (∀ (e e' : Entity) (c c' : CompTy) (q q' : Ptr), W.Has c → W.Has c' →
        fr.getComponentMut env c e h1 = (.ok (some q), h1) → fr.getComponentMut env c' e' h1 = (.ok (some q'), h1) →
        (e ≠ e' ∨ c ≠ c') → ∀ x y, x < c.size → y < c'.size → q.addr + x ≠ q'.addr + y) ∧
      ∃ vs left h2, r.drop = .ok (vs, left) ∧ fr.drop h1 = (.ok vs, h2) ∧ h2.refused = false ∧
        (∀ id, id < h.next → Same h h2 id) ∧ ∀ id, h.next ≤ id → h2.allocs id = none := by
  obtain ⟨cs, hi⟩ := hs.inv (W := W) (fun _ _ h => h) (RInv.empty W)
  rcases calls_spec (W := W) hA hw (fun _ _ h => h) hs with ⟨⟨fr, outs⟩, h1, hrun, rfl, hR, hst⟩ | ⟨h', hrun, h1, h2⟩
  · right
    obtain ⟨left, hd, _⟩ := hi.drop_eq
    obtain ⟨vs, h2, hd2, rfl, hst2⟩ := wp_total
      (fun A => drop_spec (A := A) hst.wf hR (RInv.ready hi) (fun ha => RInv.dead hi ha) hd)
    have hst3 := hst.trans hst2
    refine ⟨fr, h1, hrun, hst.wf, by rw [hst.refused, hf], RegRep.answers hst.wf hi hR, fun id hid => hst.same hid (·.elim),
      ?_, fun e e' c c' q q' hc hc' g1 g2 hne => places_apart hst.wf hi hR hc hc' g1 g2 hne, _, left, h2, hd, hd2,
      by rw [hst3.refused, hf], fun id hid => hst3.same hid (·.elim), fun id hid => ?_⟩
    · intro e c hc hhas
      rcases hi.getComponentMut_eq (env := env) hc e with ⟨hn, hn'⟩ | ⟨f, v, ai, p, _, _, hg, ht⟩
      · exfalso
        unfold Registry.hasComponent at hhas
        unfold Registry.getComponentMut at hn'
        cases hen : r.entities.entityEntry env e with
        | none => simp only [hen] at hhas; cases hhas
        | some en =>
          simp only [hen] at hhas hn'
          obtain ⟨a, b1, b2⟩ := ebind_inv hhas
          rw [b1] at hn'
          simp only [ok_bind] at hn'
          have hb : a.descriptor.hasComponent c = true := Except.ok.inj b2
          rw [if_neg (by simp [hb])] at hn'
          obtain ⟨_, _, b3⟩ := ebind_inv hn'
          cases b3
      · obtain ⟨fa, q0, _, _, _, _, _, hp⟩ := place_of (first := h.next) hst.wf hi hR
          (fun hid => (hst.sub hid).elim False.elim (·)) hc hg ht
        exact ⟨_, hp⟩
    · cases hx : h2.allocs id with
      | none => rfl
      | some al => exact (hst3.live (by rw [hx]; simp) (.inr hid)).elim
  · exact .inl ⟨h', hrun, h1, h2⟩

/-- No program of disciplined calls within the limits of the crate has undefined behaviour on addresses. -/
theorem C97_address_no_ub (hA : A.Ok) (hw : h.WF) (hf : h.refused = false) {hist : List (Call × Outcome)}
    (hs : Steps env (fun r call => call.Disciplined W r ∧ call.WithinLimits W r) Registry.default hist r)
    {call : Call} (hd : call.Disciplined W r) (hl : call.WithinLimits W r) :
    (∃ y h', FReg.default.calls A env (hist.map (·.1) ++ [call]) h = (.ok y, h') ∧ h'.refused = false) ∨
    ∃ h', FReg.default.calls A env (hist.map (·.1) ++ [call]) h = (.error (.panic .assertFailed), h') ∧ h'.refused = true := by
  obtain ⟨r', out, hs'⟩ := C36_histories_partial hs hd hl
  have := calls_spec (A := A) (h := h) (W := W) hA hw (fun _ _ h => h.1.1) hs'
  rw [List.map_append] at this
  rcases this with ⟨y, h', h1, _, _, hst⟩ | ⟨h', h1, h2, _⟩
  · exact .inl ⟨y, h', h1, by rw [hst.refused, hf]⟩
  · exact .inr ⟨h', h1, h2⟩

/-! ## Example: an allocator that puts every block above all others -/

/-- The first address above all live blocks. -/
def heapEnd (h : Heap) : Nat :=
  (List.range h.next).foldl (fun m id => match h.allocs id with | none => m | some al => max m (al.base + al.size)) 1

/-- Every block goes above all others. -/
def bump : Allocator := ⟨fun h size align =>
  let b := (heapEnd h + align - 1) / align * align
  if b + size ≤ 2 ^ 64 ∧ 0 < align then some b else none⟩

private theorem foldl_end (f : Nat → Option Alloc) : ∀ (l : List Nat) (m : Nat),
    m ≤ l.foldl (fun m id => match f id with | none => m | some al => max m (al.base + al.size)) m ∧
    ∀ id ∈ l, ∀ al, f id = some al →
      al.base + al.size ≤ l.foldl (fun m id => match f id with | none => m | some al => max m (al.base + al.size)) m
  | [], m => ⟨Nat.le_refl _, by simp⟩
  | i :: l, m => by
    simp only [List.foldl_cons]
    cases hf : f i with
    | none =>
      simp only []
      obtain ⟨h1, h2⟩ := foldl_end f l m
      refine ⟨h1, fun id hid al hal => ?_⟩
      rcases List.mem_cons.mp hid with rfl | hid
      · rw [hf] at hal; cases hal
      · exact h2 id hid al hal
    | some a =>
      simp only []
      obtain ⟨h1, h2⟩ := foldl_end f l (max m (a.base + a.size))
      refine ⟨by omega, fun id hid al hal => ?_⟩
      rcases List.mem_cons.mp hid with rfl | hid
      · rw [hf] at hal; cases hal
        omega
      · exact h2 id hid al hal

private theorem bump_place {size align b : Nat} (hb : bump.place h size align = some b) :
    heapEnd h ≤ b ∧ b % align = 0 ∧ b + size ≤ 2 ^ 64 := by
  simp only [bump] at hb
  split at hb
  · next hc =>
    cases hb
    refine ⟨?_, Nat.mul_mod_left _ _, hc.1⟩
    have h1 := Nat.div_add_mod (heapEnd h + align - 1) align
    have h2 := Nat.mod_lt (heapEnd h + align - 1) hc.2
    rw [Nat.mul_comm] at h1
    omega
  · cases hb

theorem bump_ok : bump.Ok where
  pos := fun {h} _ _ _ _ hb => by
    have h1 := (bump_place hb).1
    have h2 := (foldl_end h.allocs (List.range h.next) 1).1
    unfold heapEnd at h1
    omega
  aligned := fun _ hb _ => (bump_place hb).2.1
  top := fun _ hb => (bump_place hb).2.2
  fresh := fun {h} _ _ _ hw hb {id} {al} hal x y hx hy => by
    have h1 := (bump_place hb).1
    have h2 := (foldl_end h.allocs (List.range h.next) 1).2 id (List.mem_range.mpr (hw.lt hal)) al hal
    unfold heapEnd at h1
    omega

/-- A memory with one block, of somebody else. -/
def exHeap : Heap :=
  ⟨1, fun id => if id = 0 then some ⟨8, 4, 4⟩ else none, fun x => if x = 9 then some (.comp ⟨77, 0, 5⟩) else none, false⟩

theorem exHeap_wf : exHeap.WF := by
  have key : ∀ {id : Nat} {al : Alloc}, exHeap.allocs id = some al → id = 0 ∧ al = ⟨8, 4, 4⟩ := by
    intro id al hal
    simp only [exHeap] at hal
    split at hal
    · next h0 => exact ⟨h0, (Option.some.inj hal).symm⟩
    · cases hal
  refine ⟨?_, ?_, ?_, ?_, ?_⟩
  · intro id al hal; obtain ⟨rfl, _⟩ := key hal; decide
  · intro id al hal; obtain ⟨_, rfl⟩ := key hal; decide
  · intro id al hal; obtain ⟨_, rfl⟩ := key hal; decide
  · intro id al hal; obtain ⟨_, rfl⟩ := key hal; decide
  · intro i j a b ha hb hij
    exact absurd ((key ha).1.trans (key hb).1.symm) hij

/-- The hypotheses of the theorems hold for the program `exCalls`, … -/
example := C97_address_programs bump_ok exHeap_wf rfl exSteps

set_option maxRecDepth 100000 in
/-- … which on addresses has the same outcomes, reads the same values from places above the foreign block, … -/
example : (match FReg.default.calls bump exEnv exCalls exHeap with
    | (.ok (fr, outs), h) => decide (outs = exOuts ∧ h.mem 9 = some (.comp ⟨77, 0, 5⟩) ∧
        (fr.getComponent exEnv exB exE1 h).1 = .ok (some exValB) ∧ (fr.getComponent exEnv exA exE2 h).1 = .ok (some exValA') ∧
        (fr.getComponentMut exEnv exA exE2 h).1 = .ok (some ⟨5, 2576⟩) ∧
        ((fr.drop h).2.allocs 0).isSome ∧ (List.range 12).all (fun i => i = 0 ∨ ((fr.drop h).2.allocs i).isNone))
    | _ => false) = true := by
  decide +kernel

set_option maxRecDepth 100000 in
/-- … while an allocator that returns null from the fourth block on makes it panic, … -/
example : (match FReg.default.calls ⟨fun h s a => if h.next < 4 then bump.place h s a else none⟩ exEnv exCalls exHeap with
    | (.error e, h) => decide (e = .panic .assertFailed ∧ h.refused = true)
    | _ => false) = true := by
  decide +kernel

set_option maxRecDepth 100000 in
/-- … one that hands out overlapping blocks makes it undefined, … -/
example : (match FReg.default.calls ⟨fun _ _ a => some a⟩ exEnv exCalls exHeap with
    | (.error e, _) => decide (e = .ub .overlap)
    | _ => false) = true := by
  decide +kernel

set_option maxRecDepth 100000 in
/-- … and so does, with any allocator, `remove_entity` for components that the entity does not have. -/
example : (match FReg.default.calls bump exEnv [.create [exA, exB] [exValA, exValB], .removeEntity [exC] exE1] exHeap with
    | (.error e, _) => decide (e = .ub .typeConfusion)
    | _ => false) = true := by
  decide +kernel

set_option maxRecDepth 100000 in
/-- A column that grows moves: after 129 entities it is another block at another place, with the values of the old one. -/
example : (match FReg.default.calls bump exEnv (List.replicate 129 (.create [exA] [exValA'])) exHeap with
    | (.ok (fr, _), h) => decide ((fr.getComponent exEnv exA exE1 h).1 = .ok (some exValA') ∧
        (fr.getComponentMut exEnv exA exE1 h).1 = .ok (some ⟨4, 2060⟩) ∧ (h.allocs 2).isNone)
    | _ => false) = true := by
  decide +kernel

end Shard.Flat
