/-!
# Base of the model: faults, environment, constants, loops

Models the conventions shared by all modules. Nothing here is specific to one Rust function except
`constants.rs` and `core`'s `binary_search_by_key`.
-/

namespace Shard

/-- The kinds of Rust panic that the code of the crate can raise. -/
inductive PanicKind
  | indexOutOfBounds   -- `a[i]` with `i >= a.len()`
  | unwrapNone         -- `Option::unwrap` on `None`
  | assertFailed       -- `assert!`, `assert_ne!`
  | debugAssert        -- `debug_assert!` (debug builds only)
  | overflow           -- arithmetic overflow (debug builds only)
  | unreachable        -- `unreachable!()`
  deriving DecidableEq, Repr

/-- The kinds of undefined behaviour that the unsafe code of the crate can run into. -/
inductive UBKind
  | nullDeref          -- access through a null pointer
  | outOfBounds        -- access outside an allocation, or `get_unchecked` out of range
  | uninit             -- reading uninitialised memory at a type
  | typeConfusion      -- reading bytes that were written as (part of) a value of another type
  | layoutMismatch     -- `realloc`/`dealloc` with a layout different from the one allocated
  | zeroSizedAlloc     -- `alloc`/`realloc` with a zero-sized layout
  | badRealloc         -- `realloc`/`dealloc` of a pointer that was not allocated (null)
  | misaligned         -- typed access through a pointer that is not known to be aligned
  | overlap            -- `swap_nonoverlapping` on overlapping ranges
  deriving DecidableEq, Repr

/-- An abnormal end of an operation. Faults are terminal in the model. -/
inductive Fault
  | panic (k : PanicKind)
  | ub (k : UBKind)
  deriving DecidableEq, Repr

/-- Result of a Rust computation that may panic or run into undefined behaviour. -/
abbrev M := Except Fault

instance {α : Type} [DecidableEq α] : DecidableEq (M α)
  | .ok a, .ok b => if h : a = b then isTrue (by rw [h]) else isFalse (by intro h'; injection h'; contradiction)
  | .error a, .error b => if h : a = b then isTrue (by rw [h]) else isFalse (by intro h'; injection h'; contradiction)
  | .ok _, .error _ => isFalse (by intro h; cases h)
  | .error _, .ok _ => isFalse (by intro h; cases h)

/-- What the build and the target decide. The theorems quantify over it. -/
structure Env where
  /-- debug build: `debug_assert!` and arithmetic overflow checks are on -/
  debug : Bool
  /-- byte order of the target (`to_ne_bytes`) -/
  bigEndian : Bool
  /-- whether the global allocator tolerates zero-sized requests (the `GlobalAlloc` contract does not promise it) -/
  zstAllocOk : Bool
  deriving DecidableEq, Repr

/-- `assert!(b)`-like check that raises the fault `e` when `b` is false. -/
def ensure (b : Bool) (e : Fault) : M Unit := if b then .ok () else .error e

/-- `debug_assert!(b)`: checked in debug builds only. -/
def debugAssert (env : Env) (b : Bool) : M Unit :=
  if env.debug && !b then .error (.panic .debugAssert) else .ok ()

/-- Checked indexing `l[i]` (panics when out of bounds). -/
def index {α : Type} (l : List α) (i : Nat) : M α :=
  match l[i]? with
  | some a => .ok a
  | none => .error (.panic .indexOutOfBounds)

/-- Checked indexed assignment `l[i] = a` (panics when out of bounds). -/
def setIndex {α : Type} (l : List α) (i : Nat) (a : α) : M (List α) :=
  if i < l.length then .ok (l.set i a) else .error (.panic .indexOutOfBounds)

/-- `get_unchecked(i)`: out of bounds is undefined behaviour. -/
def indexUnchecked {α : Type} (l : List α) (i : Nat) : M α :=
  match l[i]? with
  | some a => .ok a
  | none => .error (.ub .outOfBounds)

/-- `Option::unwrap`. -/
def unwrap {α : Type} (o : Option α) : M α :=
  match o with
  | some a => .ok a
  | none => .error (.panic .unwrapNone)

/-- `a - b` on `u32`: panics on underflow in debug builds, wraps in release builds. -/
def subU32 (env : Env) (a b : Nat) : M Nat :=
  if b ≤ a then .ok (a - b)
  else if env.debug then .error (.panic .overflow) else .ok (a + 2 ^ 32 - b)

/-- `a - b` on `u8`: panics on underflow in debug builds, wraps in release builds. -/
def subU8 (env : Env) (a b : Nat) : M Nat :=
  if b ≤ a then .ok (a - b)
  else if env.debug then .error (.panic .overflow) else .ok (a + 256 - b)

/-- `for i in lo..lo+n { s = f(i, s) }`. -/
def forRange {σ : Type} (lo : Nat) : (n : Nat) → (f : Nat → σ → M σ) → σ → M σ
  | 0, _, s => .ok s
  | n + 1, f, s =>
    match f lo s with
    | .ok s' => forRange (lo + 1) n f s'
    | .error e => .error e

/-- `(lo..lo+n).map(f).collect()` for a computation that may fault. -/
def mapRange {α : Type} (lo : Nat) : (n : Nat) → (f : Nat → M α) → M (List α)
  | 0, _ => .ok []
  | n + 1, f =>
    match f lo with
    | .ok a =>
      match mapRange (lo + 1) n f with
      | .ok as => .ok (a :: as)
      | .error e => .error e
    | .error e => .error e

/-! ## `src/constants.rs` -/

/-- `constants.rs:3`. -/
def ENTITY_HANDLE_BITS : Nat := 24
/-- `constants.rs:6`. -/
def MAX_ENTITY_HANDLE_VALUE : Nat := 16777215
/-- `constants.rs:15` -/
def ENTITY_VERSION_BITS : Nat := 8
/-- `constants.rs:18` -/
def MAX_ENTITY_VERSION_VALUE : Nat := 255
/-- `constants.rs:21` -/
def MAX_COMPONENTS_PER_ENTITY : Nat := 14
/-- `constants.rs:24`: `(u16::MAX - 1) as usize`. -/
def MAX_ARCHETYPE_COUNT : Nat := 65534
/-- `constants.rs:27` -/
def INVALID_ARCHETYPE_INDEX : UInt16 := 65535
/-- `constants.rs:30` -/
def MAX_ENTITIES_PER_ARCHETYPE : Nat := MAX_ENTITY_HANDLE_VALUE
/-- `constants.rs:33` -/
def DEFAULT_ARCHETYPE_ALLOCATION_SIZE : Nat := 128

/-! ## `core::slice::binary_search_by_key` -/

/-- Result of a binary search: Rust's `Ok(i)` / `Err(i)`. -/
inductive Search
  | found (i : Nat)
  | insertAt (i : Nat)
  deriving DecidableEq, Repr

/-- The loop of `core::slice::binary_search_by` (Rust 1.7x): `while left < right { mid = left + size/2; .. }`.
The fuel is the slice length plus one; the loop halves the range, so it never runs out (see `Proofs/Search`). -/
def bsLoop (keys : List Nat) (key : Nat) : (fuel left right : Nat) → Search
  | 0, left, _ => .insertAt left
  | fuel + 1, left, right =>
    if left < right then
      let mid := left + (right - left) / 2
      match keys[mid]? with
      | none => .insertAt left
      | some k =>
        if k < key then bsLoop keys key fuel (mid + 1) right
        else if key < k then bsLoop keys key fuel left mid
        else .found mid
    else .insertAt left

/-- `slice.binary_search_by_key(&key, f)`, keys being compared as natural numbers. -/
def binarySearchByKey {α : Type} (l : List α) (key : Nat) (f : α → Nat) : Search :=
  bsLoop (l.map f) key (l.length + 1) 0 l.length

/-- `Result::is_ok` on a search result. -/
def Search.isFound : Search → Bool
  | .found _ => true
  | .insertAt _ => false

end Shard
