import Verif.Proofs.FlatMemory
/-!
# Flat memory: the operations on one block, and lists of owned blocks
-/

set_option autoImplicit false

namespace Shard.Flat

variable {A : Allocator} {env : Env} {h h' h'' : Heap}

theorem ebind_inv {α β : Type} {x : M α} {f : α → M β} {y : β} (h : (x >>= f) = .ok y) : ∃ a, x = .ok a ∧ f a = .ok y := by
  cases x with
  | error e => cases h
  | ok a => exact ⟨a, rfl, h⟩

theorem index_inv {α : Type} {l : List α} {i : Nat} {a : α} (h : index l i = .ok a) : l[i]? = some a := by
  unfold index at h
  cases hl : l[i]? with
  | none => rw [hl] at h; cases h
  | some b => rw [hl] at h; cases h; rfl

theorem indexUnchecked_inv {α : Type} {l : List α} {i : Nat} {a : α} (h : indexUnchecked l i = .ok a) : l[i]? = some a := by
  unfold indexUnchecked at h
  cases hl : l[i]? with
  | none => rw [hl] at h; cases h
  | some b => rw [hl] at h; cases h; rfl

theorem index_ok' {α : Type} {l : List α} {i : Nat} {a : α} (h : l[i]? = some a) : index l i = .ok a := by
  unfold index; rw [h]

theorem indexUnchecked_ok' {α : Type} {l : List α} {i : Nat} {a : α} (h : l[i]? = some a) : indexUnchecked l i = .ok a := by
  unfold indexUnchecked; rw [h]

/-! ## One block -/

theorem compBytes_map : ∀ (l : List (Option TByte)), compBytes (l.map (Option.map Cell.comp)) = .ok l
  | [] => rfl
  | none :: l => by
    simp only [List.map_cons, Option.map_none, compBytes, compBytes_map l]; rfl
  | some b :: l => by
    simp only [List.map_cons, Option.map_some, compBytes, compBytes_map l]; rfl

theorem blockObj_cells (b : Block) {off n : Nat} (hn : off + n ≤ b.bytes.length) :
    (List.range n).map (fun k => (blockObj b).cell (off + k)) = ((b.bytes.drop off).take n).map (Option.map Cell.comp) := by
  apply List.ext_getElem?
  intro i
  simp only [List.getElem?_map, blockObj]
  by_cases hi : i < n
  · rw [List.getElem?_range hi, List.getElem?_take_of_lt hi, List.getElem?_drop]
    rw [Option.map_some, List.getElem?_eq_getElem (show off + i < b.bytes.length by omega)]
    rfl
  · rw [List.getElem?_eq_none (by simp; omega), List.getElem?_eq_none (by simp; omega)]
    rfl

theorem readBytes_inv {p : Option Block} {off n : Nat} {bs : List (Option TByte)} (hr : readBytes p off n = .ok bs) :
    ∃ b, p = some b ∧ off + n ≤ b.bytes.length ∧ bs = (b.bytes.drop off).take n := by
  unfold readBytes at hr
  cases p with
  | none => cases hr
  | some b =>
    simp only at hr
    by_cases h1 : off + n ≤ b.bytes.length
    · rw [if_pos h1] at hr; cases hr; exact ⟨b, rfl, h1, rfl⟩
    · rw [if_neg h1] at hr; cases hr

theorem writeBytes_inv {p : Option Block} {off : Nat} {bs : List (Option TByte)} {b' : Block}
    (hr : writeBytes p off bs = .ok b') :
    ∃ b, p = some b ∧ off + bs.length ≤ b.bytes.length ∧
      b' = { b with bytes := b.bytes.take off ++ bs ++ b.bytes.drop (off + bs.length) } := by
  unfold writeBytes at hr
  cases p with
  | none => cases hr
  | some b =>
    simp only at hr
    by_cases h1 : off + bs.length ≤ b.bytes.length
    · rw [if_pos h1] at hr; cases hr; exact ⟨b, rfl, h1, rfl⟩
    · rw [if_neg h1] at hr; cases hr

theorem readBytes_spec {p : Ptr} {b : Block} (hp : PRep h p (some (blockObj b))) {off n : Nat} {bs : List (Option TByte)}
    (hr : readBytes (some b) off n = .ok bs) :
    wp A (readCells (p.plus off) n) h (fun cs h' => cs = bs.map (Option.map Cell.comp) ∧ h' = h) := by
  obtain ⟨b', hb, hn, rfl⟩ := readBytes_inv hr
  cases hb
  refine wp_mono (readCells_spec hp hn) ?_
  rintro cs h' ⟨rfl, rfl⟩
  exact ⟨blockObj_cells b hn, rfl⟩

/-- The allocations behind a pointer. -/
def Slot (p : Ptr) (id : Nat) : Prop := p.addr ≠ 0 ∧ id = p.prov

theorem slot_eq {p : Ptr} (hp : p.addr ≠ 0) : Slot p = fun i => i = p.prov :=
  funext fun _ => propext ⟨And.right, fun hi => ⟨hp, hi⟩⟩

theorem slot_null : Slot Ptr.null = fun _ => False := funext fun _ => propext ⟨fun hi => hi.1 rfl, False.elim⟩

theorem writeBytes_spec (hw : h.WF) {p : Ptr} {b b' : Block} (hp : PRep h p (some (blockObj b))) {off : Nat}
    {bs : List (Option TByte)} (hr : writeBytes (some b) off bs = .ok b') :
    wp A (writeCells (p.plus off) (bs.map (Option.map Cell.comp))) h
      (fun _ h' => PRep h' p (some (blockObj b')) ∧ Step h (Slot p) h' (Slot p)) := by
  obtain ⟨b0, hb, hn, rfl⟩ := writeBytes_inv hr
  cases hb
  refine wp_mono (writeCells_spec hw hp (by simpa [blockObj] using hn)) ?_
  rintro _ h' ⟨h1, h2⟩
  refine ⟨h1.congr rfl ?_ (fun k hk => ?_), by rw [slot_eq hp.1]; exact h2⟩
  · show b.bytes.length = _
    simp only [blockObj, List.length_append, List.length_take, List.length_drop]; omega
  · simp only [Obj.write, List.length_map, blockObj, overwrite_getElem? _ _ _ hn]
    by_cases hc : off ≤ k ∧ k < off + bs.length
    · rw [if_pos hc, if_pos hc, List.getD_eq_getElem?_getD, List.getElem?_map,
        List.getElem?_eq_getElem (show k - off < bs.length by omega)]
      simp
    · rw [if_neg hc, if_neg hc]

theorem checkRef_spec {p : Ptr} {align : Nat} (h0 : p.addr ≠ 0) (ha : p.addr % align = 0) :
    wp A (checkRef p align) h (fun _ h' => h' = h) := by
  unfold checkRef
  refine wp_bind (wp_lift (a := ()) (by simp [ensure, h0]) ?_)
  exact wp_lift (a := ()) (by simp [ensure, ha]) rfl

theorem checkAligned_inv {p : Option Block} {align off : Nat} (hc : checkAligned p align off = .ok ()) :
    ∃ b, p = some b ∧ b.align % align = 0 ∧ off % align = 0 := by
  unfold checkAligned at hc
  cases p with
  | none => cases hc
  | some b =>
    simp only at hc
    split at hc
    · exact ⟨b, rfl, by assumption⟩
    · cases hc

theorem aligned_spec (hw : h.WF) {p : Ptr} {o : Obj} (hp : PRep h p (some o)) {align off : Nat}
    (ha : o.align % align = 0) (ho : off % align = 0) : wp A (checkRef (p.plus off) align) h (fun _ h' => h' = h) := by
  refine checkRef_spec (by have := hp.1; show p.addr + off ≠ 0; omega) ?_
  have h1 := hw.aligned hp.2.1
  have h2 : align ∣ p.addr := Nat.dvd_trans (Nat.dvd_of_mod_eq_zero ha) (Nat.dvd_of_mod_eq_zero h1)
  exact Nat.mod_eq_zero_of_dvd (Nat.dvd_add h2 (Nat.dvd_of_mod_eq_zero ho))

theorem readVal_inv {p : Option Block} {ty size align off : Nat} {v : Val} (hr : Shard.readVal p ty size align off = .ok v) :
    ∃ b bs, p = some b ∧ b.align % align = 0 ∧ off % align = 0 ∧ readBytes (some b) off size = .ok bs ∧
      decodeVal ty bs = .ok v := by
  unfold Shard.readVal at hr
  obtain ⟨u, h1, h2⟩ := ebind_inv hr
  obtain ⟨bs, h3, h4⟩ := ebind_inv h2
  obtain ⟨b, rfl, h5, h6⟩ := checkAligned_inv h1
  exact ⟨b, bs, rfl, h5, h6, h3, h4⟩

theorem readVal_spec (hw : h.WF) {p : Ptr} {b : Block} (hp : PRep h p (some (blockObj b))) {ty size align off : Nat}
    {v : Val} (hr : Shard.readVal (some b) ty size align off = .ok v) :
    wp A (readVal (p.plus off) ty size align) h (fun w h' => w = v ∧ h' = h) := by
  obtain ⟨b', bs, hb, h1, h2, h3, h4⟩ := readVal_inv hr
  cases hb
  unfold readVal
  refine wp_bind (wp_mono (aligned_spec hw hp (o := blockObj b) h1 h2) ?_)
  rintro _ h' rfl
  refine wp_bind (wp_mono (readBytes_spec hp h3) ?_)
  rintro cs h' ⟨rfl, rfl⟩
  exact wp_then (compBytes_map bs) (wp_lift h4 ⟨rfl, rfl⟩)

theorem writeVal_spec (hw : h.WF) {p : Ptr} {b b' : Block} (hp : PRep h p (some (blockObj b))) {align off : Nat} {v : Val}
    (hc : checkAligned (some b) align off = .ok ()) (hr : writeBytes (some b) off v.encode = .ok b') :
    wp A (writeVal (p.plus off) align v) h
      (fun _ h' => PRep h' p (some (blockObj b')) ∧ Step h (Slot p) h' (Slot p)) := by
  obtain ⟨b0, hb, h1, h2⟩ := checkAligned_inv hc
  cases hb
  unfold writeVal
  refine wp_bind (wp_mono (aligned_spec hw hp (o := blockObj b) h1 h2) ?_)
  rintro _ h' rfl
  exact writeBytes_spec hw hp hr

theorem readSlice_spec (hw : h.WF) {p : Ptr} {b : Block} (hp : PRep h p (some (blockObj b))) {ty size align off len : Nat}
    {vs : List Val} (hoff : off ≤ b.bytes.length) (hr : Shard.readSlice (some b) ty size align off len = .ok vs) :
    wp A (readSlice (p.plus off) ty size align len) h (fun ws h' => ws = vs ∧ h' = h) := by
  unfold Shard.readSlice at hr
  simp only at hr
  obtain ⟨u, h1, hr⟩ := ebind_inv hr
  obtain ⟨b0, hb, h2, h3⟩ := checkAligned_inv h1
  cases hb
  -- every element is inside the block
  have hin : off + size * len ≤ b.bytes.length := by
    rcases Nat.eq_zero_or_pos len with h0 | h0
    · subst h0; simpa using hoff
    · have : ∀ (n lo : Nat) (l : List Val),
          mapRange lo n (fun k => Shard.readVal (some b) ty size align (off + size * k)) = .ok l → ∀ k, lo ≤ k → k < lo + n →
          off + size * k + size ≤ b.bytes.length := by
        intro n
        induction n with
        | zero => intro lo l _ k h1 h2; omega
        | succ n ih =>
          intro lo l hl k h1 h2
          unfold mapRange at hl
          cases hv : Shard.readVal (some b) ty size align (off + size * lo) with
          | error e => simp only [hv] at hl; cases hl
          | ok v =>
            simp only [hv] at hl
            cases hm : mapRange (lo + 1) n (fun k => Shard.readVal (some b) ty size align (off + size * k)) with
            | error e => simp only [hm] at hl; cases hl
            | ok l' =>
              by_cases hk : k = lo
              · subst hk
                obtain ⟨b', bs, hb, _, _, h5, _⟩ := readVal_inv hv
                obtain ⟨b'', hb', h6, _⟩ := readBytes_inv h5
                cases hb; cases hb'
                exact h6
              · exact ih (lo + 1) l' hm k (by omega) (by omega)
      have := this len 0 vs hr (len - 1) (by omega) (by omega)
      have e : size * len = size * (len - 1) + size := by
        rw [← Nat.mul_succ]; congr 1; omega
      omega
  unfold readSlice rawSlice
  refine wp_bind (wp_bind (wp_mono (aligned_spec hw hp (o := blockObj b) h2 h3) ?_))
  rintro _ h' rfl
  refine .inl ⟨(), h', ?_, ?_⟩
  · simp only []
    rw [if_pos (hp.inBounds (o := blockObj b) hin)]
  · refine wp_mapLoop (f := fun k => Shard.readVal (some b) ty size align (off + size * k)) ?_ hr
    intro i v _ _ hv
    have := readVal_spec (A := A) hw hp hv
    rw [show (p.plus off).plus (size * i) = p.plus (off + size * i) by simp [Ptr.plus, Nat.add_assoc]]
    exact this

theorem ensure_ok {b : Bool} {f : Fault} (hb : b = true) : ensure b f = .ok () := by simp [ensure, hb]

/-- `swap_nonoverlapping` within one block. -/
theorem swapBytes_spec (hw : h.WF) {p : Ptr} {b b' : Block} (hp : PRep h p (some (blockObj b))) {off1 off2 n : Nat}
    (hr : Archetype.swapBytes (some b) off1 off2 n = .ok b') :
    wp A (swapNonoverlapping (p.plus off1) (p.plus off2) n) h
      (fun _ h' => PRep h' p (some (blockObj b')) ∧ Step h (Slot p) h' (Slot p)) := by
  unfold Archetype.swapBytes at hr
  by_cases hov : n ≠ 0 ∧ off1 < off2 + n ∧ off2 < off1 + n
  · rw [if_pos hov] at hr; cases hr
  rw [if_neg hov] at hr
  obtain ⟨b1, h1, hr⟩ := ebind_inv hr
  obtain ⟨b2, h2, hr⟩ := ebind_inv hr
  obtain ⟨q, h3, hr⟩ := ebind_inv hr
  unfold swapNonoverlapping
  refine wp_then (a := ()) (ensure_ok ?_) ?_
  · rw [Bool.not_eq_true', overlapping, decide_eq_false_iff_not]
    simp only [Ptr.plus]
    omega
  refine wp_bind (wp_mono (readBytes_spec hp h1) ?_)
  rintro _ h' ⟨rfl, rfl⟩
  refine wp_bind (wp_mono (readBytes_spec hp h2) ?_)
  rintro _ h' ⟨rfl, rfl⟩
  refine wp_bind (wp_mono (writeBytes_spec hw hp h3) ?_)
  rintro _ h1 ⟨hp1, s1⟩
  refine wp_mono (writeBytes_spec s1.wf hp1 hr) ?_
  rintro _ h2 ⟨hp2, s2⟩
  exact ⟨hp2, s1.trans s2⟩

/-- `copy_nonoverlapping` from one block to another. -/
theorem copyBytes_spec (hw : h.WF) {p q : Ptr} {b c c' : Block} (hp : PRep h p (some (blockObj b)))
    (hq : PRep h q (some (blockObj c))) (hne : p.prov ≠ q.prov) {off1 off2 n : Nat} {bs : List (Option TByte)}
    (h1 : readBytes (some b) off1 n = .ok bs) (h2 : writeBytes (some c) off2 bs = .ok c') :
    wp A (copyNonoverlapping (p.plus off1) (q.plus off2) n) h
      (fun _ h' => PRep h' q (some (blockObj c')) ∧ Step h (Slot q) h' (Slot q)) := by
  unfold copyNonoverlapping
  refine wp_then (a := ()) (ensure_ok ?_) ?_
  · obtain ⟨b0, hb, h3, h4⟩ := readBytes_inv h1
    cases hb
    obtain ⟨c0, hc, h5, _⟩ := writeBytes_inv h2
    cases hc
    have hlen : bs.length = n := by
      rw [h4, List.length_take, List.length_drop]; omega
    rw [Bool.not_eq_true', overlapping, decide_eq_false_iff_not]
    simp only [Ptr.plus]
    rintro ⟨hn, h6, h7⟩
    by_cases h8 : p.addr + off1 ≤ q.addr + off2
    · exact hw.disj hp.2.1 hq.2.1 hne (q.addr + off2 - p.addr) off2 (by simp only [blockObj]; omega)
        (by simp only [blockObj]; omega) (by simp only []; omega)
    · exact hw.disj hp.2.1 hq.2.1 hne off1 (p.addr + off1 - q.addr) (by simp only [blockObj]; omega)
        (by simp only [blockObj]; omega) (by simp only []; omega)
  · refine wp_bind (wp_mono (readBytes_spec hp h1) ?_)
    rintro _ h' ⟨rfl, rfl⟩
    exact writeBytes_spec hw hq h2

/-! ## The array of handles -/

theorem div4 (i k : Nat) (hk : k < 4) : (4 * i + k) / 4 = i ∧ (4 * i + k) % 4 = k := by omega

theorem entObj_cells (l : List (Option Entity)) (i : Nat) (o : Option Entity) (hi : l[i]? = some o) :
    (List.range 4).map (fun k => (entObj l).cell (4 * i + k)) = entCells o := by
  unfold entCells
  apply List.map_congr_left
  intro k hk
  rw [List.mem_range] at hk
  obtain ⟨h1, h2⟩ := div4 i k hk
  simp only [entObj, h1, h2, hi, Option.join_some]

theorem decodeEntity_cells (e : Entity) : decodeEntity (entCells (some e)) = .ok e := by
  show decodeEntity [some (.ent e 0), some (.ent e 1), some (.ent e 2), some (.ent e 3)] = .ok e
  simp [decodeEntity]

theorem entObj_write (l : List (Option Entity)) (i : Nat) (o : Option Entity) (k : Nat) (hk : k < 4 * l.length) :
    ((entObj l).write (4 * i) (entCells o)).cell k = (entObj (l.set i o)).cell k := by
  have hl : (entCells o).length = 4 := by simp [entCells]
  simp only [Obj.write, hl]
  by_cases hc : 4 * i ≤ k ∧ k < 4 * i + 4
  · rw [if_pos hc]
    obtain ⟨j, rfl⟩ : ∃ j, k = 4 * i + j := ⟨k - 4 * i, by omega⟩
    obtain ⟨h1, h2⟩ := div4 i j (by omega)
    rw [Nat.add_sub_cancel_left, List.getD_eq_getElem?_getD, entCells, List.getElem?_map,
      List.getElem?_range (by omega)]
    simp only [entObj, h1, h2]
    rw [List.getElem?_set_self (by omega)]
    simp
  · rw [if_neg hc]
    simp only [entObj]
    rw [List.getElem?_set_ne (by omega)]

theorem writeEnt_spec (hw : h.WF) {p : Ptr} {l : List (Option Entity)} (hp : PRep h p (some (entObj l))) {i : Nat}
    {o : Option Entity} (hi : i < l.length) :
    wp A (writeCells (p.plus (4 * i)) (entCells o)) h
      (fun _ h' => PRep h' p (some (entObj (l.set i o))) ∧ Step h (Slot p) h' (Slot p)) := by
  have hl : (entCells o).length = 4 := by simp [entCells]
  refine wp_mono (writeCells_spec hw hp (o := entObj l) (by rw [hl]; simp only [entObj]; omega)) ?_
  rintro _ h' ⟨h1, h2⟩
  refine ⟨h1.congr rfl (by simp [Obj.write, entObj]) (fun k hk => ?_), by rw [slot_eq hp.1]; exact h2⟩
  exact entObj_write l i o k hk

theorem readEnt_spec {p : Ptr} {l : List (Option Entity)} (hp : PRep h p (some (entObj l))) {i : Nat}
    {o : Option Entity} (hi : l[i]? = some o) :
    wp A (readCells (p.plus (4 * i)) 4) h (fun cs h' => cs = entCells o ∧ h' = h) := by
  have hlt : i < l.length := by
    rcases Nat.lt_or_ge i l.length with h1 | h1
    · exact h1
    · rw [List.getElem?_eq_none h1] at hi; cases hi
  refine wp_mono (readCells_spec hp (by simp only [entObj]; omega)) ?_
  rintro cs h' ⟨rfl, rfl⟩
  exact ⟨entObj_cells l i o hi, rfl⟩

/-! ## Lists of owned blocks -/

/-- The pointers of `ps` are null or own distinct allocations with contents `os`. -/
structure Own (h : Heap) (ps : List Ptr) (os : List (Option Obj)) : Prop where
  len : ps.length = os.length
  rep : ∀ {i : Nat} {p : Ptr} {o : Option Obj}, ps[i]? = some p → os[i]? = some o → PRep h p o
  inj : ∀ {i j : Nat} {p q : Ptr}, ps[i]? = some p → ps[j]? = some q → p.addr ≠ 0 → q.addr ≠ 0 → p.prov = q.prov → i = j

/-- The allocations that the pointers of `ps` own. -/
def Fp (ps : List Ptr) (id : Nat) : Prop := ∃ p ∈ ps, Slot p id

theorem PRep.live {p : Ptr} {o : Option Obj} (hw : h.WF) (hp : PRep h p o) (h0 : p.addr ≠ 0) : p.prov < h.next := by
  cases o with
  | none => rw [show p = Ptr.null from hp] at h0; exact absurd rfl h0
  | some o => exact hw.lt hp.2.1

theorem Own.ptr {ps : List Ptr} {os : List (Option Obj)} (ho : Own h ps os) {i : Nat} {o : Option Obj}
    (hi : os[i]? = some o) : ∃ p, ps[i]? = some p ∧ PRep h p o := by
  have hlt : i < ps.length := by
    rw [ho.len]
    rcases Nat.lt_or_ge i os.length with h1 | h1
    · exact h1
    · rw [List.getElem?_eq_none h1] at hi; cases hi
  exact ⟨ps[i], List.getElem?_eq_getElem hlt, ho.rep (List.getElem?_eq_getElem hlt) hi⟩

theorem Own.obj {ps : List Ptr} {os : List (Option Obj)} (ho : Own h ps os) {i : Nat} {p : Ptr}
    (hi : ps[i]? = some p) : ∃ o, os[i]? = some o ∧ PRep h p o := by
  have hlt : i < os.length := by
    rw [← ho.len]
    rcases Nat.lt_or_ge i ps.length with h1 | h1
    · exact h1
    · rw [List.getElem?_eq_none h1] at hi; cases hi
  exact ⟨os[i], List.getElem?_eq_getElem hlt, ho.rep hi (List.getElem?_eq_getElem hlt)⟩

theorem Own.live {ps : List Ptr} {os : List (Option Obj)} (hw : h.WF) (ho : Own h ps os) {id : Nat} (hid : Fp ps id) :
    id < h.next := by
  obtain ⟨p, hp, h0, rfl⟩ := hid
  obtain ⟨i, hi⟩ := List.getElem?_of_mem hp
  obtain ⟨o, _, ho⟩ := ho.obj hi
  exact ho.live hw h0

theorem Own.frame {ps : List Ptr} {os : List (Option Obj)} {P P' : Nat → Prop} (hw : h.WF) (ho : Own h ps os)
    (hs : Step h P h' P') (hd : ∀ id, Fp ps id → ¬ P id) : Own h' ps os where
  len := ho.len
  rep := fun {i p o} hp hob => (ho.rep hp hob).same (fun h0 => by
    have hf : Fp ps p.prov := ⟨p, List.mem_of_getElem? hp, h0, rfl⟩
    exact hs.same (ho.live hw hf) (hd _ hf))
  inj := ho.inj

/-- Replacing the block at one position. -/
theorem Own.slot {ps : List Ptr} {os : List (Option Obj)} (hw : h.WF) (ho : Own h ps os) {i : Nat} {p q : Ptr}
    {o : Option Obj} (hi : ps[i]? = some p) (hs : Step h (Slot p) h' (Slot q)) (hq : PRep h' q o) :
    Own h' (ps.set i q) (os.set i o) ∧ Step h (Fp ps) h' (Fp (ps.set i q)) := by
  have hlt : i < ps.length := by
    rcases Nat.lt_or_ge i ps.length with h1 | h1
    · exact h1
    · rw [List.getElem?_eq_none h1] at hi; cases hi
  -- the blocks of the other positions
  have hother : ∀ {j : Nat} {x : Ptr}, ps[j]? = some x → j ≠ i → x.addr ≠ 0 → x.prov < h.next ∧ ¬ Slot p x.prov := by
    intro j x hx hj h0
    obtain ⟨o', _, ho'⟩ := ho.obj hx
    exact ⟨ho'.live hw h0, fun hsl => hj (ho.inj hx hi h0 hsl.1 hsl.2)⟩
  refine ⟨⟨by simp [ho.len], ?_, ?_⟩, ?_⟩
  · intro j x o' hx ho'
    by_cases hj : j = i
    · subst hj
      rw [List.getElem?_set_self hlt] at hx
      rw [List.getElem?_set_self (by rw [← ho.len]; exact hlt)] at ho'
      cases hx; cases ho'
      exact hq
    · rw [List.getElem?_set_ne (fun e => hj e.symm)] at hx ho'
      refine (ho.rep hx ho').same (fun h0 => ?_)
      obtain ⟨h1, h2⟩ := hother hx hj h0
      exact hs.same h1 h2
  · intro j k x y hx hy h0 h1 he
    by_cases hj : j = i <;> by_cases hk : k = i
    · rw [hj, hk]
    · subst hj
      rw [List.getElem?_set_self hlt] at hx
      rw [List.getElem?_set_ne (fun e => hk e.symm)] at hy
      cases hx
      obtain ⟨h2, h3⟩ := hother hy hk h1
      rcases hs.sub (id := q.prov) ⟨h0, rfl⟩ with h4 | h4
      · exact absurd (he ▸ h4) h3
      · omega
    · subst hk
      rw [List.getElem?_set_self hlt] at hy
      rw [List.getElem?_set_ne (fun e => hj e.symm)] at hx
      cases hy
      obtain ⟨h2, h3⟩ := hother hx hj h0
      rcases hs.sub (id := q.prov) ⟨h1, rfl⟩ with h4 | h4
      · exact absurd (he ▸ h4) h3
      · omega
    · rw [List.getElem?_set_ne (fun e => hj e.symm)] at hx
      rw [List.getElem?_set_ne (fun e => hk e.symm)] at hy
      exact ho.inj hx hy h0 h1 he
  · refine (hs.frame (fun id => ∃ j x, j ≠ i ∧ ps[j]? = some x ∧ Slot x id)).congr ?_ ?_
    · intro id
      constructor
      · rintro (h1 | ⟨j, x, _, hx, h1⟩)
        · exact ⟨p, List.mem_of_getElem? hi, h1⟩
        · exact ⟨x, List.mem_of_getElem? hx, h1⟩
      · rintro ⟨x, hx, h1⟩
        obtain ⟨j, hj⟩ := List.getElem?_of_mem hx
        by_cases hji : j = i
        · subst hji
          rw [hi] at hj; cases hj
          exact .inl h1
        · exact .inr ⟨j, x, hji, hj, h1⟩
    · intro id
      constructor
      · rintro (h1 | ⟨j, x, hj, hx, h1⟩)
        · exact ⟨q, List.mem_of_getElem? (List.getElem?_set_self hlt), h1⟩
        · exact ⟨x, List.mem_of_getElem? ((List.getElem?_set_ne (fun e => hj e.symm)).trans hx), h1⟩
      · rintro ⟨x, hx, h1⟩
        obtain ⟨j, hj⟩ := List.getElem?_of_mem hx
        by_cases hji : j = i
        · subst hji
          rw [List.getElem?_set_self hlt] at hj; cases hj
          exact .inl h1
        · rw [List.getElem?_set_ne (fun e => hji e.symm)] at hj
          exact .inr ⟨j, x, hji, hj, h1⟩

theorem set_self {α : Type} {l : List α} {i : Nat} {a : α} (hi : l[i]? = some a) : l.set i a = l := by
  apply List.ext_getElem?
  intro j
  by_cases hj : j = i
  · subst hj
    rw [List.getElem?_set_self (by
      rcases Nat.lt_or_ge j l.length with h1 | h1
      · exact h1
      · rw [List.getElem?_eq_none h1] at hi; cases hi), hi]
  · rw [List.getElem?_set_ne (fun e => hj e.symm)]

/-- Changing the contents of the block at one position. -/
theorem Own.inPlace {ps : List Ptr} {os : List (Option Obj)} (hw : h.WF) (ho : Own h ps os) {i : Nat} {p : Ptr}
    {o : Option Obj} (hi : ps[i]? = some p) (hs : Step h (Slot p) h' (Slot p)) (hq : PRep h' p o) :
    Own h' ps (os.set i o) ∧ Step h (Fp ps) h' (Fp ps) := by
  have := ho.slot hw hi hs hq
  rw [set_self hi] at this
  exact this

end Shard.Flat
