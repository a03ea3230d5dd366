import Verif.Proofs.FlatStore
import Verif.Props.FlatMemory
import Verif.Props.Rows
/-!
# C108: archetypes used on their own, on real addresses

C71 is about archetypes whose columns have blocks of their own, C97 about the registry on real addresses. Here archetypes are
created, used and dropped directly, and their columns and handles are raw pointers into one memory that an allocator hands
out as it likes.
-/

set_option autoImplicit false

namespace Shard.Flat

variable {A : Allocator} {env : Env} {W : World env} {h : Heap} {fa : FArch} {a : Archetype} {t : Rows}

theorem cell_block (hA : ARep h fa a) (hr : RowsRep W a t) {c : CompTy} (hc : c ∈ t.types) {k : Nat} (hk : k < t.cap) :
    ∃ (i : Nat) (p : Ptr), t.types[i]? = some c ∧ fa.pointers[i]? = some p ∧ p.addr ≠ 0 ∧
      h.allocs p.prov = some ⟨p.addr, c.size * t.cap, c.align⟩ ∧
      fa.componentPtr c k h = (.ok (p.plus (c.size * k)), h) := by
  have hi := idxOf_getElem? hc
  obtain ⟨b, h1, h2, h3, _⟩ := RowsRep.column hr hi
  obtain ⟨p, hp, h4, h5, _⟩ := hA.col h1
  refine ⟨_, p, hi, hp, h4, ?_, ?_⟩
  · rw [h5]
    simp only [blockObj, h2, h3, hr.cap]
  · have hle : c.size * k ≤ b.bytes.length := by rw [h2, hr.cap]; exact Nat.mul_le_mul_left _ (by omega)
    obtain ⟨q, k', g1, ⟨q', g2, rfl⟩, rfl⟩ := wp_total (fun A => componentPtr_spec (A := A) hA (hr.componentRef_ok hi (k := k)) ⟨b, h1, hle⟩)
    simp only at g2
    rw [hp] at g2
    cases g2
    exact g1

theorem cellAt_of (hw : h.WF) (hA : ARep h fa a) (hr : RowsRep W a t) {first : Nat}
    (hown : ∀ {id : Nat}, Fp fa.all id → first ≤ id) {c : CompTy} (hc : c ∈ t.types) {k : Nat} (hk : k < t.cap) :
    ∃ q, CellAt first h fa c k q := by
  obtain ⟨i, p, h1, h2, h3, h4, h5⟩ := cell_block hA hr hc hk
  have hin : c.size * k + c.size ≤ c.size * t.cap := by
    rw [← Nat.mul_succ]; exact Nat.mul_le_mul_left _ hk
  have hbase := hw.aligned h4
  simp only at hbase
  refine ⟨_, h5, ?_, ?_, hown ⟨p, List.mem_cons_of_mem _ (List.mem_of_getElem? h2), h3, rfl⟩, _, h4, ?_, ?_⟩
  · show p.addr + _ ≠ 0
    omega
  · show (p.addr + c.size * k) % c.align = 0
    rw [Nat.add_mod, hbase, Nat.mul_mod, W.mult (hr.desc.has c hc)]
    simp
  · show p.addr ≤ p.addr + _
    omega
  · show p.addr + c.size * k + c.size ≤ p.addr + c.size * t.cap
    omega

theorem rows_apart {m n s : Nat} (hmn : m ≠ n) {x y : Nat} (hx : x < s) (hy : y < s) : s * m + x ≠ s * n + y := by
  intro he
  have h1 : (s * m + x) / s = m := by
    rw [Nat.mul_add_div (by omega), Nat.div_eq_of_lt hx, Nat.add_zero]
  have h2 : (s * n + y) / s = n := by
    rw [Nat.mul_add_div (by omega), Nat.div_eq_of_lt hy, Nat.add_zero]
  rw [he, h2] at h1
  exact hmn h1.symm

/-- C108: for every history of calls that keep the documented contracts, archetypes on addresses give the answers of tables,
whichever places the allocator chooses; when it returns null, an assertion stops the program. Nothing else in memory changes,
every cell has an aligned place of its own, and the only blocks left are those of archetypes that still exist. -/
theorem C108_address_rows (hA : A.Ok) (hw : h.WF) (hf : h.refused = false) {ops : List StoreOp} {xs : List RowAns}
    {ts : List Rows} (hs : StoreOp.Steps W [] ops xs ts) :
    (∃ h', storeCalls A env [] ops h = (.error (.panic .assertFailed), h') ∧ h'.refused = true ∧ A.Fails) ∨
    ∃ fas h1, storeCalls A env [] ops h = (.ok (fas, xs), h1) ∧ h1.WF ∧ h1.refused = false ∧ fas.length = ts.length ∧
      (∀ id, id < h.next → Same h h1 id) ∧
      (∀ (i : Nat) (fa : FArch) (t : Rows), fas[i]? = some fa → ts[i]? = some t →
        fa.entityCount = t.rows.length ∧ fa.capacity = t.cap ∧ fa.entityAssociations.addr ≠ 0 ∧
        h1.allocs fa.entityAssociations.prov = some ⟨fa.entityAssociations.addr, 4 * t.cap, 4⟩ ∧
        ∀ c ∈ t.types, ∀ k, k < t.cap → ∃ q, CellAt h.next h1 fa c k q) ∧
      (∀ (i j : Nat) (fa fb : FArch) (t u : Rows) (c c' : CompTy) (k k' : Nat) (q q' : Ptr), fas[i]? = some fa →
        fas[j]? = some fb → ts[i]? = some t → ts[j]? = some u → c ∈ t.types → c' ∈ u.types → k < t.cap → k' < u.cap →
        CellAt h.next h1 fa c k q → CellAt h.next h1 fb c' k' q' → (i ≠ j ∨ c ≠ c' ∨ k ≠ k') →
        ∀ x y, x < c.size → y < c'.size → q.addr + x ≠ q'.addr + y) ∧
      ∀ id, h.next ≤ id → (h1.allocs id ≠ none ↔ ∃ fa ∈ fas, ∃ p ∈ pointersOf fa, p.addr ≠ 0 ∧ p.prov = id) := by
  have hR0 : RRep h [] [] := ⟨rfl, fun {i} _ _ hi _ => by simp at hi, fun {i} _ _ _ _ hi => by simp at hi⟩
  have hS0 : StoreRep W ([] : List Archetype) [] := ⟨rfl, fun i a t ha _ => by cases ha⟩
  rcases storeCalls_spec (W := W) hA hs hw hR0 hS0 with ⟨⟨fas, ys⟩, h1, hrun, rfl, ⟨as, hR, hS⟩, hst⟩ | ⟨h', hrun, h1, h2⟩
  · right
    have hnew : ∀ {id : Nat}, FpL fas id → h.next ≤ id := by
      intro id hid
      rcases hst.sub hid with ⟨x, hx, _⟩ | h2
      · cases hx
      · exact h2
    have both : ∀ {i : Nat} {fa : FArch} {t : Rows}, fas[i]? = some fa → ts[i]? = some t →
        ∃ a, ARep h1 fa a ∧ RowsRep W a t := by
      intro i fa t hfa ht
      obtain ⟨a, ha, hrow⟩ := hS.get ht
      exact ⟨a, hR.arch hfa ha, hrow⟩
    refine ⟨fas, h1, hrun, hst.wf, by rw [hst.refused, hf], hR.len.trans hS.1,
      fun id hid => hst.same hid (by rintro ⟨x, hx, _⟩; cases hx), ?_, ?_, ?_⟩
    · intro i fa t hfa ht
      obtain ⟨a, hAr, hrow⟩ := both hfa ht
      obtain ⟨l, hl1, hl2, _⟩ := hrow.ents
      have he := hAr.ents
      rw [hl1] at he
      obtain ⟨g1, g2, _⟩ := he
      refine ⟨hAr.count.trans hrow.count, hAr.cap.trans hrow.cap, g1, ?_, fun c hc k hk => ?_⟩
      · rw [g2]; simp only [entObj, hl2, hrow.cap]
      · exact cellAt_of hst.wf hAr hrow (fun hid => hnew ⟨fa, List.mem_of_getElem? hfa, hid⟩) hc hk
    · intro i j fa fb t u c c' k k' q q' hfa hfb ht hu hc hc' hk hk' hq hq' hne x y hx hy
      obtain ⟨a, hAr, hrow⟩ := both hfa ht
      obtain ⟨b, hBr, hrow'⟩ := both hfb hu
      obtain ⟨m, p, a1, a2, a3, a4, a5⟩ := cell_block hAr hrow hc hk
      obtain ⟨n, p', b1, b2, b3, b4, b5⟩ := cell_block hBr hrow' hc' hk'
      have e1 := a5.symm.trans hq.eq
      have e2 := b5.symm.trans hq'.eq
      cases e1
      cases e2
      show p.addr + c.size * k + x ≠ p'.addr + c'.size * k' + y
      have inx : c.size * k + x < c.size * t.cap := by
        have : c.size * k + c.size ≤ c.size * t.cap := by
          rw [← Nat.mul_succ]; exact Nat.mul_le_mul_left _ hk
        omega
      have iny : c'.size * k' + y < c'.size * u.cap := by
        have : c'.size * k' + c'.size ≤ c'.size * u.cap := by
          rw [← Nat.mul_succ]; exact Nat.mul_le_mul_left _ hk'
        omega
      have apart : p.prov ≠ p'.prov → p.addr + c.size * k + x ≠ p'.addr + c'.size * k' + y := by
        intro hd
        have := hst.wf.disj a4 b4 hd (c.size * k + x) (c'.size * k' + y) inx iny
        simp only at this
        omega
      by_cases hij : i = j
      · subst hij
        rw [hfa] at hfb; cases hfb
        rw [ht] at hu; cases hu
        by_cases hcc : c = c'
        · subst hcc
          have hmn : m = n := by
            have hnd := hrow.nodup
            exact (List.getElem?_inj (lt_of_get a1) hnd).mp (a1.trans b1.symm)
          subst hmn
          rw [a2] at b2; cases b2
          have hkk : k ≠ k' := by
            rcases hne with h0 | h0 | h0
            · exact absurd rfl h0
            · exact absurd rfl h0
            · exact h0
          have := rows_apart hkk hx hy
          omega
        · refine apart (fun hp => hcc ?_)
          have := hAr.own.inj (i := m + 1) (j := n + 1) (by simpa [FArch.all] using a2) (by simpa [FArch.all] using b2)
            a3 b3 hp
          have hmn : m = n := by omega
          subst hmn
          rw [a1] at b1
          exact Option.some.inj b1
      · refine apart (fun hp => ?_)
        refine hR.dis hij hfa hfb p.prov ⟨p, ?_, a3, rfl⟩ ⟨p', ?_, b3, hp⟩
        · exact List.mem_cons_of_mem _ (List.mem_of_getElem? a2)
        · exact List.mem_cons_of_mem _ (List.mem_of_getElem? b2)
    · intro id hid
      constructor
      · intro hl
        obtain ⟨fa, hfa, p, hp, h0, he⟩ := hst.live hl (.inr hid)
        exact ⟨fa, hfa, p, hp, h0, he.symm⟩
      · rintro ⟨fa, hfa, p, hp, h0, rfl⟩
        obtain ⟨i, hi⟩ := List.getElem?_of_mem hfa
        obtain ⟨a, _, hAr⟩ := hR.get' hi
        obtain ⟨j, hj⟩ := List.getElem?_of_mem hp
        obtain ⟨o, _, ho⟩ := hAr.own.obj (i := j) hj
        cases o with
        | none => rw [show p = Ptr.null from ho] at h0; exact absurd rfl h0
        | some o => rw [ho.2.1]; simp
  · exact .inl ⟨h', hrun, h1, h2⟩

/-- C108: when all archetypes have been dropped, the program has returned all memory that it requested, unless the allocator
returned null. -/
theorem C108_all_freed (hA : A.Ok) (hw : h.WF) (hf : h.refused = false) {ops : List StoreOp} {xs : List RowAns}
    (hs : StoreOp.Steps W [] ops xs []) :
    (∃ h', storeCalls A env [] ops h = (.error (.panic .assertFailed), h') ∧ h'.refused = true) ∨
    ∃ h1, storeCalls A env [] ops h = (.ok ([], xs), h1) ∧ (∀ id, id < h.next → Same h h1 id) ∧
      ∀ id, h.next ≤ id → h1.allocs id = none := by
  rcases C108_address_rows hA hw hf hs with ⟨h', h1, h2, _⟩ | ⟨fas, h1, h2, _, _, h3, h4, _, _, h5⟩
  · exact .inl ⟨h', h1, h2⟩
  · have : fas = [] := List.length_eq_zero_iff.mp h3
    subst this
    refine .inr ⟨h1, h2, h4, fun id hid => ?_⟩
    cases hx : h1.allocs id with
    | none => rfl
    | some al =>
      obtain ⟨fa, hfa, _⟩ := (h5 id hid).mp (by rw [hx]; simp)
      cases hfa

/-! ## Examples -/

/-- The hypotheses hold for the history `exStore`, … -/
example := C108_address_rows bump_ok exHeap_wf rfl exStore_steps
example := C108_all_freed bump_ok exHeap_wf rfl exStore_steps

set_option maxRecDepth 100000 in
/-- … which on addresses gives the same answers, leaves the foreign block alone and frees all its own blocks, … -/
example : (match storeCalls bump exEnv [] exStore exHeap with
    | (.ok (fas, xs), h) => decide (fas.length = 0 ∧ xs = exStoreAnswers ∧ h.mem 9 = some (.comp ⟨77, 0, 5⟩) ∧
        (h.allocs 0).isSome ∧ (List.range 20).all (fun i => i = 0 ∨ (h.allocs i).isNone))
    | _ => false) = true := by
  decide +kernel

set_option maxRecDepth 100000 in
/-- … halfway has two archetypes with their cells at different places, … -/
example : (match storeCalls bump exEnv [] exStoreHalf exHeap with
    | (.ok (fas, _), h) => decide (fas.length = 2 ∧
        ((fas[0]?.map (fun a => (a.componentPtr exA 1 h).1)) = some (.ok ⟨5, 44⟩)) ∧
        ((fas[1]?.map (fun a => (a.componentPtr exA 0 h).1)) = some (.ok ⟨8, 84⟩)))
    | _ => false) = true := by
  decide +kernel

set_option maxRecDepth 100000 in
/-- … and ends in a panic when the allocator returns null for the fourth block. -/
example : (match storeCalls ⟨fun h s a => if h.next < 4 then bump.place h s a else none⟩ exEnv [] exStore exHeap with
    | (.error e, h) => decide (e = .panic .assertFailed ∧ h.refused = true)
    | _ => false) = true := by
  decide +kernel

set_option maxRecDepth 100000 in
/-- Outside the contract — dropping an archetype with a row that was never written — memory is read that was never written. -/
example : (match storeCalls bump exEnv [] [.create [exA] 2, .on 0 .pushUninit, .drop 0] exHeap with
    | (.error e, _) => decide (e = .ub .uninit)
    | _ => false) = true := by
  decide +kernel

end Shard.Flat
