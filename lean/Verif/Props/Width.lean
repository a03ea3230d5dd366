import Verif.Model.Width
import Verif.Props.RawArchetype
import Verif.Proofs.Oom
/-!
# C72: the memory requested for a column has the size of the column

On a 64-bit target `size * capacity` always fits `isize`. On a 32-bit target it does not have to: `with_capacity`, a safe
function, then returns an archetype whose columns are shorter than their capacity says (release builds), and growing passes
a size beyond `isize::MAX` to `realloc`.
-/

set_option autoImplicit false

namespace Shard

variable {env : Env}

/-- The columns for `cap` rows of the components of `d` fit the address space of a target with `w`-bit pointers. -/
def Fits (w : Nat) (d : ArchetypeDescriptor) (cap : Nat) : Prop :=
  ∀ c ∈ d.components, c.size * cap < 2 ^ w ∧ roundUp (c.size * cap) c.align < 2 ^ (w - 1)

/-- Column `i` of `a` has memory for `a.capacity` values. -/
def WholeColumns (a : Archetype) : Prop :=
  ∀ (i : Nat) (c : ComponentDescriptor), a.descriptor.components[i]? = some c →
    ∃ b, a.pointers[i]? = some (some b) ∧ b.bytes.length = c.size * a.capacity

/-- C72 as intended: for every 32- or 64-bit target, every valid group of types below 65536 bytes and every capacity,
`with_capacity` returns an archetype with memory for that many rows. -/
def C72_statement : Prop :=
  ∀ (w : Nat) (env : Env) (g : Group) (cap : Nat), w = 32 ∨ w = 64 → env.zstAllocOk = true →
    (g.descriptor env).isValid = true → (∀ c ∈ g, c.size < 65536 ∧ c.align < 65536 ∧ ∃ k, c.align = 2 ^ k) →
    0 < cap → cap ≤ MAX_ENTITIES_PER_ARCHETYPE →
    ∃ a, Archetype.withCapacityW w env (g.descriptor env).archetype cap = .ok a ∧ a.capacity = cap ∧ WholeColumns a

/-! ## Arithmetic -/

theorem roundUp_ge {n a : Nat} (h : 0 < a) : n ≤ roundUp n a := by
  unfold roundUp
  have h1 := Nat.div_add_mod (n + a - 1) a
  have h2 := Nat.mod_lt (n + a - 1) h
  rw [Nat.mul_comm] at h1
  omega

theorem roundUp_lt {n a : Nat} (h : 0 < a) : roundUp n a < n + a := by
  unfold roundUp
  have := Nat.div_mul_le_self (n + a - 1) a
  omega

theorem powerOfTwo_pos {n : Nat} (h : powerOfTwo n = true) : 0 < n := by
  unfold powerOfTwo at h
  simp only [List.any_eq_true, List.mem_range, beq_iff_eq] at h
  obtain ⟨k, _, rfl⟩ := h
  exact Nat.two_pow_pos k

theorem mulUsize_lt {w a b : Nat} (h : a * b < 2 ^ w) : mulUsize env w a b = .ok (a * b) := by
  unfold mulUsize
  rw [if_pos h]

theorem checkLayout_ok {w size align : Nat} (h : roundUp size align < 2 ^ (w - 1)) (hp : powerOfTwo align = true) :
    checkLayout w size align = .ok () := by
  unfold checkLayout
  rw [if_neg (by simp [hp]), if_pos h]

theorem half_lt {w n : Nat} (h : n < 2 ^ (w - 1)) : n < 2 ^ w :=
  Nat.lt_of_lt_of_le h (Nat.pow_le_pow_right (by decide) (Nat.sub_le w 1))

/-! ## Where everything fits -/

theorem forRange_congr {σ : Type} {f g : Nat → σ → M σ} : ∀ (n lo : Nat) (s : σ),
    (∀ i, lo ≤ i → i < lo + n → ∀ s, f i s = g i s) → forRange lo n f s = forRange lo n g s
  | 0, _, _, _ => rfl
  | n + 1, lo, s, h => by
    unfold forRange
    rw [h lo (Nat.le_refl _) (by omega) s]
    cases g lo s with
    | error e => rfl
    | ok s' => exact forRange_congr n (lo + 1) s' (fun i h1 h2 => h i (by omega) (by omega))

/-- One request of the allocation loop. -/
theorem alloc_fits {w : Nat} {c : ComponentDescriptor} {cap : Nat}
    (h : c.size * cap < 2 ^ w ∧ roundUp (c.size * cap) c.align < 2 ^ (w - 1)) {α : Type} (k : Block → M α) :
    (do let n ← mulUsize env w c.size cap
        checkLayout w n c.align
        let b ← allocBlock env n c.align
        k b) = (do let b ← allocBlock env (c.size * cap) c.align
                   k b) := by
  rw [mulUsize_lt h.1]
  simp only [ok_bind]
  by_cases hp : powerOfTwo c.align = true
  · rw [checkLayout_ok h.2 hp]
    rfl
  · have hp' : powerOfTwo c.align = false := by simpa using hp
    have h1 : allocBlock env (c.size * cap) c.align = .error (.ub .layoutMismatch) := by
      unfold allocBlock
      rw [if_pos hp']
    have h2 : checkLayout w (c.size * cap) c.align = .error (.ub .layoutMismatch) := by
      unfold checkLayout
      rw [if_pos hp']
    rw [h1, h2]
    rfl

/-- The entity array always fits. -/
theorem entities_fit {w cap : Nat} (hw : w = 32 ∨ w = 64) (hc : cap ≤ MAX_ENTITIES_PER_ARCHETYPE) :
    mulUsize env w 4 cap = .ok (4 * cap) ∧ checkLayout w (4 * cap) 4 = .ok () := by
  have hM : MAX_ENTITIES_PER_ARCHETYPE = 16777215 := rfl
  have hr := roundUp_lt (n := 4 * cap) (a := 4) (by decide)
  rcases hw with rfl | rfl
  · exact ⟨mulUsize_lt (by omega), checkLayout_ok (by omega) (by decide)⟩
  · exact ⟨mulUsize_lt (by omega), checkLayout_ok (by omega) (by decide)⟩

theorem withCapacityW_fits {w : Nat} (hw : w = 32 ∨ w = 64) {d : ArchetypeDescriptor} {cap : Nat} (h : Fits w d cap) :
    Archetype.withCapacityW w env d cap = Archetype.withCapacity env d cap := by
  unfold Archetype.withCapacityW Archetype.withCapacity
  congr 1
  funext _
  simp only []
  by_cases hc : cap > 0 ∧ cap ≤ MAX_ENTITIES_PER_ARCHETYPE
  · rw [if_pos hc, if_pos hc, (entities_fit hw hc.2).1]
    simp only [ok_bind]
    rw [(entities_fit (env := env) hw hc.2).2]
    simp only [ok_bind]
    have : Archetype.allocColumnsW w env d cap (List.replicate MAX_COMPONENTS_PER_ENTITY none) =
        Archetype.allocColumns env d cap (List.replicate MAX_COMPONENTS_PER_ENTITY none) := by
      unfold Archetype.allocColumnsW Archetype.allocColumns
      apply forRange_congr
      intro i _ hi s
      have hi' : i < d.components.length := by omega
      simp only [index_lt hi', ok_bind]
      exact alloc_fits (h _ (List.getElem_mem hi')) _
    rw [this, Nat.mul_comm, Nat.mul_div_cancel _ (by decide)]
  · rw [if_neg hc, if_neg hc]

/-- Everything fits on a 64-bit target. -/
theorem fits64 {d : ArchetypeDescriptor} {cap : Nat} (h : ∀ c ∈ d.components, c.size < 65536 ∧ c.align < 65536)
    (hc : cap ≤ MAX_ENTITIES_PER_ARCHETYPE) : Fits 64 d cap := by
  have hM : MAX_ENTITIES_PER_ARCHETYPE = 16777215 := rfl
  intro c hm
  obtain ⟨h1, h2⟩ := h c hm
  have h3 : c.size * cap ≤ 65535 * 16777215 := Nat.mul_le_mul (by omega) (by omega)
  refine ⟨by omega, ?_⟩
  by_cases h0 : c.align = 0
  · unfold roundUp
    rw [h0, Nat.mul_zero]
    decide
  · have := roundUp_lt (n := c.size * cap) (a := c.align) (by omega)
    omega

/-! ## Where it does not fit -/

/-- What a successful loop has established. -/
theorem forRange_post {σ : Type} {f : Nat → σ → M σ} (I : Nat → σ → Prop) :
    ∀ (n lo : Nat) (s s' : σ), I lo s → (∀ i s s', lo ≤ i → i < lo + n → I i s → f i s = .ok s' → I (i + 1) s') →
      forRange lo n f s = .ok s' → I (lo + n) s'
  | 0, lo, s, s', h, _, hr => by cases hr; exact h
  | n + 1, lo, s, s', h, hs, hr => by
    unfold forRange at hr
    cases hf : f lo s with
    | error e => rw [hf] at hr; cases hr
    | ok s1 =>
      rw [hf] at hr
      rw [show lo + (n + 1) = lo + 1 + n by omega]
      exact forRange_post I n (lo + 1) s1 s' (hs lo s s1 (Nat.le_refl _) (by omega) h hf)
        (fun i s s' hi hi' hI => hs i s s' (by omega) (by omega) hI) hr

/-- One successful request: the sizes of the block, and what the checks have let through. -/
theorem alloc_inv {w : Nat} {c : ComponentDescriptor} {cap : Nat} {ptrs ptrs' : List (Option Block)} {i : Nat}
    (h : (do let n ← mulUsize env w c.size cap
             checkLayout w n c.align
             let b ← allocBlock env n c.align
             setIndex ptrs i (some b)) = .ok ptrs') :
    ∃ b, ptrs' = ptrs.set i (some b) ∧
      (b.bytes.length = c.size * cap ∨ env.debug = true → c.size * cap < 2 ^ w ∧ roundUp (c.size * cap) c.align < 2 ^ (w - 1)) := by
  cases h1 : mulUsize env w c.size cap with
  | error e => rw [h1] at h; cases h
  | ok n =>
    rw [h1] at h
    simp only [ok_bind] at h
    have hn : n = c.size * cap ∨ env.debug = true → c.size * cap < 2 ^ w ∧ n = c.size * cap := by
      intro he
      unfold mulUsize at h1
      split at h1
      · cases h1; exact ⟨by assumption, rfl⟩
      · split at h1
        · cases h1
        · next hd =>
          cases h1
          rcases he with he | he
          · rw [he]
            exact ⟨by rw [← he]; exact Nat.mod_lt _ (Nat.two_pow_pos w), rfl⟩
          · exact absurd he hd
    unfold checkLayout at h
    split at h
    · cases h
    · split at h
      · next hr =>
        simp only [ok_bind] at h
        cases h2 : allocBlock env n c.align with
        | error e => rw [h2] at h; cases h
        | ok b =>
          rw [h2] at h
          simp only [ok_bind] at h
          unfold setIndex at h
          split at h
          · cases h
            refine ⟨b, rfl, fun hb => ?_⟩
            have hbn : b.bytes.length = n := by
              unfold allocBlock at h2
              split at h2
              · cases h2
              · split at h2
                · cases h2
                · cases h2; simp
            rw [hbn] at hb
            obtain ⟨h4, h5⟩ := hn hb
            refine ⟨h4, ?_⟩
            rw [← h5]; exact hr
          · cases h
      · cases h

theorem withCapacityW_inv {w : Nat} {d : ArchetypeDescriptor} {cap : Nat} (hcap : 0 < cap ∧ cap ≤ MAX_ENTITIES_PER_ARCHETYPE)
    {a : Archetype} (h : Archetype.withCapacityW w env d cap = .ok a) (hl : d.components.length ≤ 14)
    (hw : WholeColumns a ∨ env.debug = true) : a.descriptor = d ∧ a.capacity = cap ∧ Fits w d cap := by
  unfold Archetype.withCapacityW at h
  cases h0 : ensure d.isValid (.panic .assertFailed) with
  | error e => rw [h0] at h; cases h
  | ok u =>
    rw [h0] at h
    simp only [ok_bind] at h
    rw [if_pos hcap] at h
    cases h1 : mulUsize env w 4 cap with
    | error e => rw [h1] at h; cases h
    | ok n =>
      rw [h1] at h
      simp only [ok_bind] at h
      cases h2 : checkLayout w n 4 with
      | error e => rw [h2] at h; cases h
      | ok u =>
        rw [h2] at h
        simp only [ok_bind] at h
        cases h3 : Archetype.allocColumnsW w env d cap (List.replicate MAX_COMPONENTS_PER_ENTITY none) with
        | error e => rw [h3] at h; cases h
        | ok ptrs =>
          rw [h3] at h
          cases h
          refine ⟨rfl, rfl, ?_⟩
          have hp := forRange_post (fun i ptrs => ptrs.length = 14 ∧
            ∀ j (hj : j < d.components.length), j < i → ∃ b, ptrs[j]? = some (some b) ∧
              (b.bytes.length = d.components[j].size * cap ∨ env.debug = true → d.components[j].size * cap < 2 ^ w ∧
                roundUp (d.components[j].size * cap) d.components[j].align < 2 ^ (w - 1)))
            d.components.length 0 _ _ ⟨rfl, by intro j _ hj; omega⟩ (by
              intro i s s' _ hi ⟨hI1, hI2⟩ hf
              have hi' : i < d.components.length := by omega
              simp only [index_lt hi', ok_bind] at hf
              obtain ⟨b, rfl, hb⟩ := alloc_inv hf
              refine ⟨by rw [List.length_set]; exact hI1, fun j hj hji => ?_⟩
              by_cases hij : i = j
              · subst hij
                rw [List.getElem?_set_self (by omega)]
                exact ⟨b, rfl, hb⟩
              · rw [List.getElem?_set_ne hij]
                exact hI2 j hj (by omega)) h3
          intro c hc
          obtain ⟨j, hj, rfl⟩ := List.mem_iff_getElem.mp hc
          obtain ⟨b, hb1, hb2⟩ := hp.2 j hj (by omega)
          rcases hw with hw | hw
          · obtain ⟨b', hb3, hb4⟩ := hw j _ (List.getElem?_eq_getElem hj)
            have hbb : b' = b := by
              have := hb3.symm.trans hb1
              injection this with this
              injection this
            exact hb2 (.inl (hbb ▸ hb4))
          · exact hb2 (.inr hw)

/-! ## C72 -/

/-- A component of 1000 bytes, and a capacity with which its column has 704 bytes more than 4 GiB. -/
def exLarge : CompTy := ⟨1, 10, 1000, 8⟩
def exLargeCap : Nat := 4294968

theorem exLarge_components (env : Env) : ((Group.descriptor env [exLarge]).archetype).components = [exLarge.descriptor] := by
  obtain ⟨d, b, z⟩ := env
  revert d b z
  decide +kernel

theorem exLarge_valid (env : Env) : (Group.descriptor env [exLarge]).isValid = true := by
  obtain ⟨d, b, z⟩ := env
  revert d b z
  decide +kernel

/-- **C72** is false on 32-bit targets. -/
theorem C72_violated : ¬ C72_statement := by
  intro h
  obtain ⟨a, h1, _, h3⟩ := h 32 ⟨false, false, true⟩ [exLarge] exLargeCap (.inl rfl) rfl (exLarge_valid _)
    (by intro c hc; simp at hc; subst hc; exact ⟨by decide, by decide, 3, rfl⟩) (by decide) (by decide)
  have := (withCapacityW_inv ⟨by decide, by decide⟩ h1 (by rw [exLarge_components]; decide) (.inl h3)).2.2
  have := (this exLarge.descriptor (by rw [exLarge_components]; simp)).1
  revert this
  decide

set_option maxRecDepth 100000 in
/-- What happens on a 32-bit target in a release build: `with_capacity` succeeds with a column of 704 bytes, and the first
push, which keeps its contract, writes 1000 bytes into it. -/
theorem C72_out_of_bounds_violated (bigEndian zstAllocOk : Bool) : ∃ a,
    Archetype.withCapacityW 32 ⟨false, bigEndian, zstAllocOk⟩ (Group.descriptor ⟨false, bigEndian, zstAllocOk⟩ [exLarge]).archetype
      exLargeCap = .ok a ∧ a.capacity = exLargeCap ∧
    (∃ b, a.pointers[0]? = some (some b) ∧ b.bytes.length = 704) ∧
    a.pushEntityUnchecked ⟨false, bigEndian, zstAllocOk⟩ (Entity.newUnchecked 0 0) [exLarge] [⟨1, List.replicate 1000 0⟩] =
      .error (.ub .outOfBounds) := by
  have h : (match Archetype.withCapacityW 32 ⟨false, bigEndian, zstAllocOk⟩
      (Group.descriptor ⟨false, bigEndian, zstAllocOk⟩ [exLarge]).archetype exLargeCap with
    | .ok a => decide (a.capacity = exLargeCap) &&
      (match a.pointers[0]? with
       | some (some b) => decide (b.bytes.length = 704)
       | _ => false) &&
      (match a.pushEntityUnchecked ⟨false, bigEndian, zstAllocOk⟩ (Entity.newUnchecked 0 0) [exLarge] [⟨1, List.replicate 1000 0⟩] with
       | .error e => decide (e = .ub .outOfBounds)
       | _ => false)
    | _ => false) = true := by
    revert bigEndian zstAllocOk
    decide +kernel
  cases hx : Archetype.withCapacityW 32 ⟨false, bigEndian, zstAllocOk⟩
      (Group.descriptor ⟨false, bigEndian, zstAllocOk⟩ [exLarge]).archetype exLargeCap with
  | error e => rw [hx] at h; cases h
  | ok a =>
    rw [hx] at h
    simp only [Bool.and_eq_true, decide_eq_true_eq] at h
    obtain ⟨⟨h1, h2⟩, h3⟩ := h
    refine ⟨a, rfl, h1, ?_, ?_⟩
    · split at h2
      · next b hb => exact ⟨b, hb, of_decide_eq_true h2⟩
      · cases h2
    · split at h3
      · next e he => rw [he, of_decide_eq_true h3]
      · cases h3

/-- A descriptor whose columns may be allocated: at most 14 components, each with a size below 65536 and a good layout. -/
structure GoodDesc (env : Env) (d : ArchetypeDescriptor) : Prop where
  comps : d.comps.length = 14
  len : d.len ≤ 14
  good : ∀ c ∈ d.components, c.size < 65536 ∧ c.align < 65536 ∧ GoodLayout env c

theorem GoodDesc.length {d : ArchetypeDescriptor} (h : GoodDesc env d) : d.components.length = d.len := by
  unfold ArchetypeDescriptor.components
  rw [List.length_take, h.comps]
  have := h.len
  omega

theorem GoodDesc.pow {d : ArchetypeDescriptor} (h : GoodDesc env d) {c : ComponentDescriptor} (hc : c ∈ d.components) :
    powerOfTwo c.align = true := by
  obtain ⟨_, h2, h3, _⟩ := h.good c hc
  exact powerOfTwo_iff.mpr ⟨h2, h3⟩

/-- **C72** for `with_capacity`: on a 32- or 64-bit target it returns an archetype with memory for all rows exactly when the
columns fit the address space; then it does what the rest of the model says; on a 64-bit target they always fit. In debug
builds it returns nothing at all if they do not fit (it is release builds that get short columns). -/
theorem C72_with_capacity_partial (w : Nat) (hw : w = 32 ∨ w = 64) (d : ArchetypeDescriptor) (hv : d.isValid = true)
    (hd : GoodDesc env d) (cap : Nat) (hpos : 0 < cap) (hle : cap ≤ MAX_ENTITIES_PER_ARCHETYPE) :
    ((∃ a, Archetype.withCapacityW w env d cap = .ok a ∧ a.capacity = cap ∧ WholeColumns a) ↔ Fits w d cap) ∧
    (Fits w d cap → Archetype.withCapacityW w env d cap = Archetype.withCapacity env d cap) ∧
    (w = 64 → Fits w d cap) ∧
    (env.debug = true → ¬ Fits w d cap → ∃ f, Archetype.withCapacityW w env d cap = .error f) := by
  have hcl := hd.length
  have hl := hd.len
  refine ⟨⟨?_, ?_⟩, withCapacityW_fits hw, ?_, ?_⟩
  · rintro ⟨a, h1, _, h3⟩
    exact (withCapacityW_inv ⟨hpos, hle⟩ h1 (by omega) (.inl h3)).2.2
  · intro hf
    have h1 := (withCapacityAny_in (env := env) hv ⟨hpos, hle⟩ hd.comps (fun c hc => (hd.good c hc).2.1) hl).1
      (fun c hc => (hd.good c hc).2.2)
    refine ⟨allocated d cap, ?_, rfl, ?_⟩
    · rw [withCapacityW_fits hw hf]
      unfold Archetype.withCapacityAny at h1
      rw [ensure_true hv] at h1
      simp only [ok_bind] at h1
      rw [if_pos ⟨hpos, hle⟩] at h1
      unfold ArchetypeDescriptor.componentsAny at h1
      rw [if_pos (by rw [hd.comps]; exact hl)] at h1
      exact h1
    · intro i c hc
      obtain ⟨hi, rfl⟩ := List.getElem?_eq_some_iff.mp hc
      exact ⟨_, allocated_pointer hi, by simp [freshBlock, allocated]⟩
  · rintro rfl
    exact fits64 (fun c hc => ⟨(hd.good c hc).1, (hd.good c hc).2.1⟩) hle
  · intro hdb hnf
    cases hx : Archetype.withCapacityW w env d cap with
    | error f => exact ⟨f, rfl⟩
    | ok a => exact absurd (withCapacityW_inv ⟨hpos, hle⟩ hx (by omega) (.inr hdb)).2.2 hnf

/-- Archetype `a` has memory for its capacity. -/
structure HasMemory (a : Archetype) : Prop where
  columns : ∀ (i : Nat) (c : ComponentDescriptor), a.descriptor.components[i]? = some c →
    ∃ b, a.pointers[i]? = some (some b) ∧ b.bytes.length = c.size * a.capacity ∧ b.align = c.align
  ents : ∃ l, a.entityAssociations = some l ∧ l.length = a.capacity
  pointers : a.pointers.length = 14

/-- **C72** for growing: a full archetype that grows does what the rest of the model says if the larger columns fit the
address space, and otherwise passes `realloc` a size beyond `isize::MAX`; on a 64-bit target they always fit. -/
theorem C72_growth_partial (w : Nat) (hw : w = 32 ∨ w = 64) (a : Archetype) (hd : GoodDesc env a.descriptor)
    (hm : HasMemory a) (hfull : a.entityCount = a.capacity) (hpos : 0 < a.capacity)
    (hlt : 2 * a.capacity < MAX_ENTITIES_PER_ARCHETYPE) (hfit : Fits w a.descriptor a.capacity) :
    (Fits w a.descriptor (2 * a.capacity) → a.resizeIfNecessaryW w env = a.resizeIfNecessary env) ∧
    (¬ Fits w a.descriptor (2 * a.capacity) → a.resizeIfNecessaryW w env = .error (.ub .layoutMismatch)) ∧
    (w = 64 → Fits w a.descriptor (2 * a.capacity)) := by
  have hcl := hd.length
  have hl := hd.len
  obtain ⟨l, hl1, hl2⟩ := hm.ents
  have htn : ((a.capacity : Int) + (a.capacity : Int)).toNat = 2 * a.capacity := by omega
  have hfl : a.isFull = true := by simp [Archetype.isFull, hfull]
  have hW : a.resizeIfNecessaryW w env = (do
      let ptrs ← a.reallocColumnsW w env (2 * a.capacity)
      return { a with pointers := ptrs, capacity := 2 * a.capacity,
                      entityAssociations := some (l.take (2 * a.capacity) ++ List.replicate (2 * a.capacity - a.capacity) none) }) := by
    unfold Archetype.resizeIfNecessaryW
    rw [if_pos hfl, if_neg (by omega)]
    unfold Archetype.resizeCapacityW
    simp only []
    rw [if_neg (by omega), htn, (entities_fit (env := env) hw (show a.capacity ≤ _ by omega)).1]
    simp only [ok_bind]
    rw [(entities_fit (env := env) hw (show a.capacity ≤ _ by omega)).2]
    simp only [ok_bind]
    rw [(entities_fit (env := env) hw (show 2 * a.capacity ≤ _ by omega)).1]
    simp only [ok_bind]
    rw [(entities_fit (env := env) hw (show 2 * a.capacity ≤ _ by omega)).2]
    simp only [ok_bind, hl1]
    rw [Nat.mul_comm 4, Nat.mul_div_cancel _ (by decide), Nat.mul_comm 4, Nat.mul_div_cancel _ (by decide),
      if_neg (by rw [hl2]; simp)]
  have hN : a.resizeIfNecessary env = (do
      let ptrs ← a.reallocColumns env (2 * a.capacity)
      return { a with pointers := ptrs, capacity := 2 * a.capacity,
                      entityAssociations := some (l.take (2 * a.capacity) ++ List.replicate (2 * a.capacity - a.capacity) none) }) := by
    unfold Archetype.resizeIfNecessary
    rw [if_pos hfl, if_neg (by omega)]
    unfold Archetype.resizeCapacity
    simp only []
    rw [if_neg (by omega), htn, hl1]
    simp only []
    rw [if_neg (by rw [hl2]; simp)]
  refine ⟨fun hf => ?_, fun hf => ?_, ?_⟩
  · rw [hW, hN]
    congr 1
    unfold Archetype.reallocColumnsW Archetype.reallocColumns
    apply forRange_congr
    intro i _ hi s
    have hi' : i < a.descriptor.components.length := by omega
    have hmem := List.getElem_mem hi'
    have h1 := hfit _ hmem
    have h2 := hf _ hmem
    have hp := hd.pow hmem
    congr 1
    funext p
    simp only [index_lt hi', ok_bind]
    rw [mulUsize_lt h1.1]
    simp only [ok_bind]
    rw [checkLayout_ok h1.2 hp]
    simp only [ok_bind]
    rw [mulUsize_lt h2.1]
    simp only [ok_bind]
    rw [checkLayout_ok h2.2 hp]
    rfl
  · rw [hW]
    obtain ⟨k, hk, hkf, hk0⟩ : ∃ k, ∃ hk : k < a.descriptor.components.length,
        ¬ (a.descriptor.components[k].size * (2 * a.capacity) < 2 ^ w ∧
          roundUp (a.descriptor.components[k].size * (2 * a.capacity)) a.descriptor.components[k].align < 2 ^ (w - 1)) ∧
        ∀ j (hj : j < a.descriptor.components.length), j < k →
          (a.descriptor.components[j].size * (2 * a.capacity) < 2 ^ w ∧
          roundUp (a.descriptor.components[j].size * (2 * a.capacity)) a.descriptor.components[j].align < 2 ^ (w - 1)) := by
      have key : ∀ (l : List ComponentDescriptor) (P : ComponentDescriptor → Prop), (¬ ∀ c ∈ l, P c) →
          ∃ k, ∃ hk : k < l.length, ¬ P l[k] ∧ ∀ j (hj : j < l.length), j < k → P l[j] := by
        intro l P
        induction l with
        | nil => intro h; exact absurd (fun c hc => by cases hc) h
        | cons x l ih =>
          intro h
          by_cases hx : P x
          · obtain ⟨k, hk, h1, h2⟩ := ih (fun hn => h (fun c hc => by
              rcases List.mem_cons.mp hc with rfl | hc
              · exact hx
              · exact hn c hc))
            refine ⟨k + 1, by simp; omega, h1, fun j hj hjk => ?_⟩
            cases j with
            | zero => exact hx
            | succ j => exact h2 j (by simp at hj; omega) (by omega)
          · exact ⟨0, by simp, hx, fun j _ hj => by omega⟩
      exact key _ _ hf
    have hloop : a.reallocColumnsW w env (2 * a.capacity) = .error (.ub .layoutMismatch) := by
      unfold Archetype.reallocColumnsW
      refine forRange_fault (fun i s => s.length = 14 ∧ ∀ j, i ≤ j → s[j]? = a.pointers[j]?) k a.descriptor.len 0 a.pointers
        (by omega) ⟨hm.pointers, fun j _ => rfl⟩ ?_ ?_
      · intro i s _ hi ⟨hs1, hs2⟩
        have hi' : i < a.descriptor.components.length := by omega
        have hmem := List.getElem_mem hi'
        have h1 := hfit _ hmem
        have h2 := hk0 i hi' (by omega)
        have hp := hd.pow hmem
        obtain ⟨b, hb1, hb2, hb3⟩ := hm.columns i _ (List.getElem?_eq_getElem hi')
        have hz : 0 < a.descriptor.components[i].size ∨ env.zstAllocOk = true := (hd.good _ hmem).2.2.2
        rw [index_of_getElem? ((hs2 i (Nat.le_refl _)).trans hb1)]
        simp only [ok_bind, index_lt hi']
        rw [mulUsize_lt h1.1]
        simp only [ok_bind]
        rw [checkLayout_ok h1.2 hp]
        simp only [ok_bind]
        rw [mulUsize_lt h2.1]
        simp only [ok_bind]
        rw [checkLayout_ok h2.2 hp]
        simp only [ok_bind]
        unfold reallocBlock
        simp only []
        rw [if_neg (by rw [hb2, hb3]; simp), if_neg]
        · simp only [ok_bind]
          rw [setIndex_lt (by omega)]
          refine ⟨_, rfl, by rw [List.length_set]; exact hs1, fun j hj => ?_⟩
          rw [List.getElem?_set_ne (by omega)]
          exact hs2 j (by omega)
        · rintro ⟨q1, q2⟩
          rcases hz with hz | hz
          · have := Nat.mul_pos hz (show 0 < 2 * a.capacity by omega); omega
          · exact q2 hz
      · intro s ⟨hs1, hs2⟩
        rw [Nat.zero_add] at hs2 ⊢
        have hmem := List.getElem_mem hk
        have h1 := hfit _ hmem
        have hp := hd.pow hmem
        obtain ⟨b, hb1, hb2, hb3⟩ := hm.columns k _ (List.getElem?_eq_getElem hk)
        rw [index_of_getElem? ((hs2 k (Nat.le_refl _)).trans hb1)]
        simp only [ok_bind, index_lt hk]
        rw [mulUsize_lt h1.1]
        simp only [ok_bind]
        rw [checkLayout_ok h1.2 hp]
        simp only [ok_bind]
        have hge := roundUp_ge (n := a.descriptor.components[k].size * a.capacity) (powerOfTwo_pos hp)
        have hmul : a.descriptor.components[k].size * (2 * a.capacity) = 2 * (a.descriptor.components[k].size * a.capacity) := by
          rw [Nat.mul_left_comm]
        have hnew : a.descriptor.components[k].size * (2 * a.capacity) < 2 ^ w := by
          have := h1.2
          rw [hmul]
          rcases hw with rfl | rfl <;> omega
        rw [mulUsize_lt hnew]
        simp only [ok_bind]
        unfold checkLayout
        rw [if_neg (by simp [hp]), if_neg (fun hr => hkf ⟨hnew, hr⟩)]
        rfl
    rw [hloop]
    rfl
  · rintro rfl
    exact fits64 (fun c hc => ⟨(hd.good c hc).1, (hd.good c hc).2.1⟩) (by omega)

/-- Both cases occur: columns of 1000-byte components for 2^20 rows fit a 32-bit target, for 2^22 rows they do not. -/
example : Fits 32 (Group.descriptor exEnv [exLarge]).archetype 1048576 ∧
    ¬ Fits 32 (Group.descriptor exEnv [exLarge]).archetype 4194304 ∧
    GoodDesc exEnv (Group.descriptor exEnv [exLarge]).archetype := by
  have hc := exLarge_components exEnv
  refine ⟨?_, ?_, by decide, by decide, ?_⟩
  · intro c hm
    rw [hc] at hm
    simp at hm
    subst hm
    decide
  · intro h
    have := (h exLarge.descriptor (by rw [hc]; simp)).2
    revert this
    decide
  · intro c hm
    rw [hc] at hm
    simp at hm
    subst hm
    exact ⟨by decide, by decide, ⟨3, by decide⟩, .inl (by decide)⟩

end Shard
