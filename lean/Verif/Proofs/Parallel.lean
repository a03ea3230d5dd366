import Verif.Spec.Parallel
import Verif.Proofs.Step
import Verif.Proofs.IterSpec
import Verif.Proofs.Observe
/-!
# Several threads using the references a registry handed out: proofs
-/

set_option autoImplicit false

namespace Shard

/-! ## Stores as total functions on registries -/

/-- Overwrite the bytes from `off` on. -/
def splice (off : Nat) (bs l : List (Option TByte)) : List (Option TByte) :=
  l.mapIdx (fun i x => if off ≤ i ∧ i < off + bs.length then bs[i - off]?.getD x else x)

theorem splice_eq {off : Nat} {bs l : List (Option TByte)} (h : off + bs.length ≤ l.length) :
    splice off bs l = l.take off ++ bs ++ l.drop (off + bs.length) := by
  refine List.ext_getElem? (fun i => ?_)
  unfold splice
  rw [List.getElem?_mapIdx]
  by_cases h1 : i < off
  · rw [List.getElem?_append_left (by simp; omega), List.getElem?_append_left (by simp; omega),
      List.getElem?_take_of_lt h1]
    cases l[i]? with
    | none => rfl
    | some x => simp only [Option.map_some]; rw [if_neg (by omega)]
  · by_cases h2 : i < off + bs.length
    · rw [List.getElem?_append_left (by simp; omega), List.getElem?_append_right (by simp; omega)]
      rw [List.length_take, Nat.min_eq_left (by omega), List.getElem?_eq_getElem (show i < l.length by omega)]
      simp only [Option.map_some]
      rw [if_pos ⟨by omega, h2⟩, List.getElem?_eq_getElem (show i - off < bs.length by omega)]
      rfl
    · rw [List.getElem?_append_right (by simp; omega), List.getElem?_drop]
      have : off + bs.length + (i - (List.take off l ++ bs).length) = i := by simp; omega
      rw [this]
      cases l[i]? with
      | none => rfl
      | some x => simp only [Option.map_some]; rw [if_neg (by omega)]

theorem splice_comm {off off' : Nat} {bs bs' l : List (Option TByte)}
    (h : off + bs.length ≤ off' ∨ off' + bs'.length ≤ off) :
    splice off bs (splice off' bs' l) = splice off' bs' (splice off bs l) := by
  refine List.ext_getElem? (fun i => ?_)
  unfold splice
  simp only [List.getElem?_mapIdx, Option.map_map]
  cases l[i]? with
  | none => rfl
  | some x =>
    simp only [Option.map_some, Function.comp]
    congr 1
    by_cases h1 : off ≤ i ∧ i < off + bs.length
    · rw [if_pos h1, if_neg (by omega), if_neg (by omega), if_pos h1]
    · rw [if_neg h1]
      by_cases h2 : off' ≤ i ∧ i < off' + bs'.length
      · rw [if_pos h2, if_pos h2, if_neg h1]
      · rw [if_neg h2, if_neg h2, if_neg h1]

theorem modify_comm {α : Type} {i j : Nat} {f g : α → α} {l : List α} (h : i ≠ j ∨ ∀ x, f (g x) = g (f x)) :
    (l.modify j g).modify i f = (l.modify i f).modify j g := by
  refine List.ext_getElem? (fun k => ?_)
  simp only [List.getElem?_modify]
  cases l[k]? with
  | none => rfl
  | some x =>
    by_cases h1 : i = k
    · by_cases h2 : j = k
      · have := h.resolve_left (by omega)
        simp [h1, h2, this]
      · simp [h1, h2]
    · by_cases h2 : j = k
      · simp [h1, h2]
      · simp [h1, h2]

/-- Overwrite bytes of a block. -/
def Block.poke (off : Nat) (bs : List (Option TByte)) (b : Block) : Block := { b with bytes := splice off bs b.bytes }

/-- Overwrite bytes of a column. -/
def Archetype.poke (col off : Nat) (bs : List (Option TByte)) (a : Archetype) : Archetype :=
  { a with pointers := a.pointers.modify col (Option.map (Block.poke off bs)) }

/-- Overwrite bytes in a registry. -/
def Registry.poke (r : Registry) (ai col off : Nat) (bs : List (Option TByte)) : Registry :=
  ⟨r.entities, { r.archetypes with archetypes := r.archetypes.archetypes.modify ai (Archetype.poke col off bs) }⟩

theorem set_eq_modify {α : Type} {l : List α} {i : Nat} {a : α} {f : α → α} (h : l[i]? = some a) :
    l.set i (f a) = l.modify i f := by
  refine List.ext_getElem? (fun k => ?_)
  rw [List.getElem?_modify]
  by_cases hk : i = k
  · subst hk
    rw [List.getElem?_set_self (List.getElem?_eq_some_iff.mp h).1, h]
    simp
  · rw [List.getElem?_set_ne hk]
    simp [hk]

theorem index_ok_inv {α : Type} {l : List α} {i : Nat} {a : α} (h : index l i = .ok a) : l[i]? = some a := by
  unfold index at h
  cases hx : l[i]? with
  | none => rw [hx] at h; cases h
  | some b => rw [hx] at h; cases h; rfl

theorem storeRef_poke {r r' : Registry} {ai : Nat} {c : CompTy} {p : Ref} {v : Val} (h : r.storeRef ai c p v = .ok r') :
    r' = r.poke ai p.col p.off v.encode := by
  unfold Registry.storeRef at h
  cases h1 : index r.archetypes.archetypes ai with
  | error e => rw [h1] at h; cases h
  | ok a =>
    rw [h1] at h
    simp only [ok_bind] at h
    unfold Archetype.writeRef at h
    cases h2 : index a.pointers p.col with
    | error e => rw [h2] at h; cases h
    | ok q =>
      rw [h2] at h
      simp only [ok_bind] at h
      cases h3 : checkAligned q c.align p.off with
      | error e => rw [h3] at h; cases h
      | ok u =>
        rw [h3] at h
        simp only [ok_bind] at h
        cases q with
        | none => cases h3
        | some b =>
          unfold writeBytes at h
          simp only [] at h
          split at h
          · next hle =>
            simp only [ok_bind, pure_eq_ok] at h
            cases h
            unfold Registry.poke ArchetypeRegistry.setArchetype
            rw [← set_eq_modify (index_ok_inv h1)]
            unfold Archetype.poke
            rw [← set_eq_modify (index_ok_inv h2)]
            simp only [Option.map_some, Block.poke]
            rw [splice_eq hle]
          · cases h

theorem poke_comm {r : Registry} {ai ai' : Nat} {c c' : CompTy} {p p' : Ref} {bs bs' : List (Option TByte)}
    (h : NoOverlap ai c p ai' c' p') (hl : bs.length = c.size) (hl' : bs'.length = c'.size) :
    (r.poke ai p.col p.off bs).poke ai' p'.col p'.off bs' = (r.poke ai' p'.col p'.off bs').poke ai p.col p.off bs := by
  unfold Registry.poke
  simp only []
  congr 2
  apply modify_comm
  rcases h with h | h
  · exact Or.inl (Ne.symm h)
  · right
    intro a
    unfold Archetype.poke
    simp only []
    congr 1
    apply modify_comm
    rcases h with h | h
    · exact Or.inl (Ne.symm h)
    · right
      intro x
      cases x with
      | none => rfl
      | some b =>
        simp only [Option.map_some, Block.poke]
        rw [splice_comm (by omega)]

/-! ## Schedules -/

variable {α : Type}

/-- The effect of an access. -/
def Access.effect (refs : α → Option Lent) (r : Registry) : Access α → Registry
  | .read _ => r
  | .replace i v =>
    match refs i with
    | none => r
    | some x => r.poke x.arch x.ptr.col x.ptr.off v.encode

/-- The effect of a schedule. -/
def effects (refs : α → Option Lent) (r : Registry) (l : List (Nat × Access α)) : Registry :=
  l.foldl (fun r x => x.2.effect refs r) r

/-- The references do not overlap. -/
def Disjoint (refs : α → Option Lent) : Prop :=
  ∀ i i' x x', i ≠ i' → refs i = some x → refs i' = some x' → NoOverlap x.arch x.cty x.ptr x'.arch x'.cty x'.ptr

variable {refs : α → Option Lent}

theorem effect_comm (hd : Disjoint refs) {x y : Access α} {r : Registry}
    (hx : ∃ z, refs x.name = some z ∧ ∀ i v, x = .replace i v → v.HasTy z.cty)
    (hy : ∃ z, refs y.name = some z ∧ ∀ i v, y = .replace i v → v.HasTy z.cty)
    (h : x.name = y.name → x.isRead ∧ y.isRead) : y.effect refs (x.effect refs r) = x.effect refs (y.effect refs r) := by
  cases x with
  | read i => rfl
  | replace i v =>
    cases y with
    | read j => rfl
    | replace j w =>
      obtain ⟨z, h1, h2⟩ := hx
      obtain ⟨z', h1', h2'⟩ := hy
      have hne : i ≠ j := fun he => (h he).1
      have h1 : refs i = some z := h1
      have h1' : refs j = some z' := h1'
      simp only [Access.effect, h1, h1']
      exact poke_comm (hd _ _ _ _ hne h1 h1') (by rw [Val.encode_length, (h2 _ _ rfl).2])
        (by rw [Val.encode_length, (h2' _ _ rfl).2])

theorem Borrowed.tail {x : Nat × Access α} {l : List (Nat × Access α)} (h : Borrowed refs (x :: l)) : Borrowed refs l :=
  ⟨fun y hy => h.known y (List.mem_cons_of_mem _ hy),
    fun y hy z hz => h.apart y (List.mem_cons_of_mem _ hy) z (List.mem_cons_of_mem _ hz)⟩

theorem SameThreads.mem {β : Type} {l l' : List (Nat × β)} (h : SameThreads l l') {x : Nat × β} : x ∈ l ↔ x ∈ l' := by
  have h1 : ∀ m : List (Nat × β), x ∈ m ↔ x ∈ threadOf x.1 m := by
    intro m
    unfold threadOf
    simp
  rw [h1, h1 l', h x.1]

theorem Borrowed.of_same {l l' : List (Nat × Access α)} (h : Borrowed refs l) (hs : SameThreads l l') : Borrowed refs l' :=
  ⟨fun y hy => h.known y (hs.mem.mpr hy), fun y hy z hz => h.apart y (hs.mem.mpr hy) z (hs.mem.mpr hz)⟩

theorem effects_front (hd : Disjoint refs) {x : Nat × Access α} : ∀ {p q : List (Nat × Access α)} {r : Registry},
    Borrowed refs (p ++ x :: q) → (∀ y ∈ p, y.1 ≠ x.1) → effects refs r (p ++ x :: q) = effects refs r (x :: (p ++ q))
  | [], q, r, _, _ => rfl
  | y :: p, q, r, hb, hp => by
    have ih := effects_front (p := p) (q := q) hd (r := y.2.effect refs r) hb.tail (fun z hz => hp z (List.mem_cons_of_mem _ hz))
    have hx : x ∈ y :: p ++ x :: q := by simp
    have hy : y ∈ y :: p ++ x :: q := by simp
    show effects refs (y.2.effect refs r) (p ++ x :: q) = effects refs (y.2.effect refs (x.2.effect refs r)) (p ++ q)
    rw [ih]
    show effects refs (x.2.effect refs (y.2.effect refs r)) (p ++ q) = _
    rw [effect_comm hd (hb.known y hy) (hb.known x hx) (hb.apart y hy x hx (hp y List.mem_cons_self))]

theorem effects_same (hd : Disjoint refs) : ∀ {l l' : List (Nat × Access α)} {r : Registry}, Borrowed refs l →
    SameThreads l l' → effects refs r l = effects refs r l'
  | [], l', r, _, hs => by
    cases l' with
    | nil => rfl
    | cons x l' => exact absurd (hs.mem.mpr (List.mem_cons_self (a := x))) (by simp)
  | x :: l, l', r, hb, hs => by
    have hx := hs x.1
    unfold threadOf at hx
    rw [List.filter_cons_of_pos (by simp)] at hx
    obtain ⟨p, q, rfl, hp, _, hq⟩ := List.filter_eq_cons_iff.mp hx.symm
    have hp' : ∀ y ∈ p, y.1 ≠ x.1 := fun y hy => by have := hp y hy; simpa using this
    rw [effects_front hd (hb.of_same hs) hp']
    refine effects_same hd (r := x.2.effect refs r) hb.tail (fun t => ?_)
    by_cases ht : t = x.1
    · subst ht
      unfold threadOf
      have hnil : List.filter (fun y => y.1 == x.1) p = [] := List.filter_eq_nil_iff.mpr (fun y hy => by simpa using hp' y hy)
      rw [List.filter_append, hq, hnil]
      rfl
    · have := hs t
      unfold threadOf at this ⊢
      rw [List.filter_cons_of_neg (by simpa using fun h => ht h.symm), List.filter_append,
        List.filter_cons_of_neg (by simpa using fun h => ht h.symm)] at this
      rw [List.filter_append]
      exact this

/-! ## What the threads see -/

section
variable [DecidableEq α]

theorem seen_thread {t : Nat} : ∀ {l : List (Nat × Access α)} {σ σ' : α → Val}, Borrowed refs l →
    (∀ x ∈ l, x.1 = t → σ x.2.name = σ' x.2.name) → threadOf t (seen σ l) = seen σ' (threadOf t l)
  | [], _, _, _, _ => rfl
  | (s, x) :: l, σ, σ', hb, ha => by
    by_cases hs : s = t
    · have hx := ha _ List.mem_cons_self hs
      cases x with
      | read i =>
        simp only [seen, threadOf]
        rw [List.filter_cons_of_pos (by simpa using hs), List.filter_cons_of_pos (by simpa using hs)]
        simp only [seen]
        rw [show σ i = σ' i from hx]
        exact congrArg _ (seen_thread hb.tail (fun y hy => ha y (List.mem_cons_of_mem _ hy)))
      | replace i v =>
        simp only [seen, threadOf]
        rw [List.filter_cons_of_pos (by simpa using hs), List.filter_cons_of_pos (by simpa using hs)]
        simp only [seen]
        rw [show σ i = σ' i from hx]
        refine congrArg _ (seen_thread hb.tail (fun y hy hyt => ?_))
        show (if y.2.name = i then v else σ y.2.name) = if y.2.name = i then v else σ' y.2.name
        split
        · rfl
        · exact ha y (List.mem_cons_of_mem _ hy) hyt
    · cases x with
      | read i =>
        simp only [seen, threadOf]
        rw [List.filter_cons_of_neg (by simpa using hs), List.filter_cons_of_neg (by simpa using hs)]
        exact seen_thread hb.tail (fun y hy => ha y (List.mem_cons_of_mem _ hy))
      | replace i v =>
        simp only [seen, threadOf]
        rw [List.filter_cons_of_neg (by simpa using hs), List.filter_cons_of_neg (by simpa using hs)]
        refine seen_thread hb.tail (fun y hy hyt => ?_)
        have hne : y.2.name ≠ i := by
          intro he
          exact (hb.apart _ List.mem_cons_self y (List.mem_cons_of_mem _ hy) (by rw [hyt]; exact hs) he.symm).1
        simp only [if_neg hne]
        exact ha y (List.mem_cons_of_mem _ hy) hyt

variable {env : Env} {W : World env}

/-- The references name components `(E i, cty)`, all different, with the values `σ`. -/
structure Lends (W : World env) (refs : α → Option Lent) (E : α → Entity) (r : Registry) (cs : List Content) (σ : α → Val) :
    Prop where
  inv : RInv W r cs
  ref : ∀ i x, refs i = some x → W.Has x.cty ∧ RefTo env r cs (E i) x.cty x.arch x.ptr
  distinct : ∀ i i' x x', i ≠ i' → refs i = some x → refs i' = some x' → E i ≠ E i' ∨ x.cty ≠ x'.cty
  val : ∀ i x, refs i = some x → (r.look env cs (E i)).bind (fun f => f x.cty) = some (σ i)

theorem RefTo.unique {r : Registry} {cs : List Content} (h : RInv W r cs) {e : Entity} {c : CompTy} {ai ai' : Nat} {p p' : Ref}
    (h1 : RefTo env r cs e c ai p) (h2 : RefTo env r cs e c ai' p') : ai = ai' ∧ p = p' := by
  obtain ⟨k, i, ct, q1, q2, q3, rfl⟩ := h1
  obtain ⟨k', i', ct', q1', q2', q3', rfl⟩ := h2
  rw [q1] at q1'
  injection q1' with q1'
  injection q1' with e1 e2
  subst e1 e2
  rw [q2] at q2'
  injection q2' with q2'
  subst q2'
  obtain ⟨a, _, hr⟩ := h.arch.arch q2
  obtain ⟨l1, f1⟩ := List.getElem?_eq_some_iff.mp q3
  obtain ⟨l2, f2⟩ := List.getElem?_eq_some_iff.mp q3'
  have : i = i' := (List.getElem_inj hr.nodup).mp (f1.trans f2.symm)
  subst this
  exact ⟨rfl, rfl⟩

/-- A store through a reference to the component of an entity is one through `get_component_mut`. -/
theorem RInv.replace_write {r r' : Registry} {cs : List Content} (h : RInv W r cs) {e : Entity} {c : CompTy} {ai : Nat} {p : Ref}
    (hW : W.Has c) (hp : RefTo env r cs e c ai p) {v old : Val} (hv : v.HasTy c) (hr : r.replaceAt ai c p v = .ok (r', old)) :
    (Call.write e c v).run env r = .ok (r', { success := true, given := [v], returned := [old] }) := by
  rcases h.getComponentMut_eq hW e with ⟨h1, _⟩ | ⟨f, w, ai', p', h1, h2, h3, h4⟩
  · obtain ⟨_, _, f, old', _, _, _, q1, q2, _⟩ := h.store hp hv
    rw [h1 f q1] at q2; cases q2
  · obtain ⟨rfl, rfl⟩ := hp.unique h h4
    have : r.replaceComponent env c e v = .ok (r', some old) := by
      unfold Registry.replaceComponent
      rw [h3]
      simp only [ok_bind]
      unfold Registry.replaceAt at hr
      cases h5 : index r.archetypes.archetypes ai with
      | error x => rw [h5] at hr; cases hr
      | ok a =>
        rw [h5] at hr
        simp only [ok_bind] at hr ⊢
        cases h6 : a.readRef c p with
        | error x => rw [h6] at hr; cases hr
        | ok o =>
          rw [h6] at hr
          simp only [ok_bind] at hr ⊢
          cases h7 : r.storeRef ai c p v with
          | error x => rw [h7] at hr; cases hr
          | ok r2 =>
            rw [h7] at hr
            simp only [ok_bind, pure_eq_ok] at hr ⊢
            cases hr
            rfl
    simp only [Call.run]
    rw [this]
    rfl

theorem Lends.read {E : α → Entity} {r : Registry} {cs : List Content} {σ : α → Val} (h : Lends W refs E r cs σ) {i : α}
    {x : Lent} (hx : refs i = some x) : (Access.read i).run refs r = .ok (r, σ i) := by
  obtain ⟨hW, hp⟩ := h.ref i x hx
  have hval := h.val i x hx
  obtain ⟨k, j, ct, q1, q2, q3, q4⟩ := hp
  obtain ⟨a, ha, hr⟩ := h.inv.arch.arch q2
  rw [show r.look env cs (E i) = some (fun c => ct.get c k) from look_of q1 q2] at hval
  simp only [Access.run, hx]
  rw [index_of_getElem? ha]
  simp only [ok_bind]
  rw [q4, hr.readRef_ok q3 hval]
  rfl

theorem Lends.replace {E : α → Entity} {r : Registry} {cs : List Content} {σ : α → Val} (h : Lends W refs E r cs σ)
    (hR : Reachable W r) {i : α} {x : Lent} (hx : refs i = some x) {v : Val} (hv : v.HasTy x.cty) :
    ∃ r' cs', (Access.replace i v).run refs r = .ok (r', σ i) ∧ Reachable W r' ∧
      r' = (Access.replace i v).effect refs r ∧ Lends W refs E r' cs' (fun j => if j = i then v else σ j) := by
  obtain ⟨hW, hp⟩ := h.ref i x hx
  have hval := h.val i x hx
  obtain ⟨r', cs', f, old, a, s1, s2, s3, s4, s5, s6, s7, s8, s9, s10, _⟩ := h.inv.store hp hv
  rw [s3] at hval
  have hold : old = σ i := by
    simp only [Option.bind_some] at hval
    rw [s4] at hval
    injection hval
  have hrun : r.replaceAt x.arch x.cty x.ptr v = .ok (r', old) := by
    unfold Registry.replaceAt
    rw [s5]
    simp only [ok_bind]
    rw [s6]
    simp only [ok_bind]
    rw [s1]
    rfl
  refine ⟨r', cs', ?_, ?_, ?_, s2, fun j y hy => ?_, h.distinct, fun j y hy => ?_⟩
  · simp only [Access.run, hx]
    rw [hrun, hold]
  · exact hR.snoc (call := .write (E i) x.cty v) ⟨hW, hv⟩ (h.inv.replace_write hW hp hv hrun)
  · simp only [Access.effect, hx]
    exact storeRef_poke s1
  · obtain ⟨w1, w2⟩ := h.ref j y hy
    exact ⟨w1, s10 _ _ _ _ w2⟩
  · rw [s7]
    by_cases hji : j = i
    · subst hji
      rw [hx] at hy
      injection hy with hy
      subst hy
      simp
    · simp only [if_neg hji]
      have hvj := h.val j y hy
      by_cases he : E j = E i
      · rw [if_pos he]
        rw [he, s3] at hvj
        have hc : y.cty ≠ x.cty := (h.distinct j i y x hji hy hx).resolve_left (fun hn => hn he)
        simp only [Option.bind_some, if_neg hc] at hvj ⊢
        exact hvj
      · rw [if_neg he]; exact hvj

theorem Lends.run {E : α → Entity} : ∀ {l : List (Nat × Access α)} {r : Registry} {cs : List Content} {σ : α → Val},
    Lends W refs E r cs σ → Reachable W r → Borrowed refs l →
    ∃ cs', runSchedule refs r l = .ok (effects refs r l, seen σ l) ∧ Reachable W (effects refs r l) ∧
      Lends W refs E (effects refs r l) cs' (after σ l)
  | [], r, cs, σ, h, hR, _ => ⟨cs, rfl, hR, h⟩
  | (t, x) :: l, r, cs, σ, h, hR, hb => by
    obtain ⟨y, hy, hty⟩ := hb.known _ List.mem_cons_self
    cases x with
    | read i =>
      have hy : refs i = some y := hy
      obtain ⟨cs', q1, q2, q3⟩ := Lends.run h hR hb.tail
      refine ⟨cs', ?_, q2, q3⟩
      simp only [runSchedule]
      rw [h.read hy]
      simp only [ok_bind]
      rw [q1]
      rfl
    | replace i v =>
      have hy : refs i = some y := hy
      obtain ⟨r1, cs1, w1, w2, w3, w4⟩ := h.replace hR hy (hty i v rfl)
      obtain ⟨cs', q1, q2, q3⟩ := Lends.run w4 w2 hb.tail
      have he : effects refs r ((t, Access.replace i v) :: l) = effects refs r1 l := by rw [w3]; rfl
      refine ⟨cs', ?_, by rw [he]; exact q2, by rw [he]; exact q3⟩
      simp only [runSchedule]
      rw [w1]
      simp only [ok_bind]
      rw [q1, he]
      rfl

theorem Lends.disjoint {E : α → Entity} {r : Registry} {cs : List Content} {σ : α → Val} (h : Lends W refs E r cs σ) :
    Disjoint refs := fun i i' x x' hne hx hx' =>
  RefTo.disjoint h.inv (h.ref i x hx).2 (h.ref i' x' hx').2 (h.distinct i i' x x' hne hx hx')

theorem Lends.shareable {E : α → Entity} {r : Registry} {cs : List Content} {σ : α → Val} (h : Lends W refs E r cs σ)
    (hR : Reachable W r) : Shareable W r refs := by
  refine ⟨h.disjoint, σ, fun i hi => ?_, fun l hb => ?_⟩
  · obtain ⟨x, hx⟩ := Option.isSome_iff_exists.mp hi
    exact h.read hx
  · obtain ⟨cs', q1, q2, q3⟩ := h.run hR hb
    refine ⟨_, _, q1, q2, fun t => seen_thread hb (fun _ _ _ => rfl), fun i hi => ?_, fun l' hs => ?_⟩
    · obtain ⟨x, hx⟩ := Option.isSome_iff_exists.mp hi
      exact q3.read hx
    · obtain ⟨_, q1', _, _⟩ := h.run hR (hb.of_same hs)
      refine ⟨_, by rw [effects_same h.disjoint hb hs]; exact q1', fun t => ?_⟩
      rw [seen_thread hb (fun _ _ _ => rfl), seen_thread (hb.of_same hs) (fun _ _ _ => rfl), hs t]

end

end Shard
