import Verif.Model.Archetype
/-!
# Sizes of memory requests on targets with narrow pointers

The rest of the model computes sizes of columns as natural numbers, which is adequate for 64-bit targets (C72). Here the two
functions that compute them, `with_capacity` and `resize_capacity`, are transcribed with the arithmetic of a `usize` of `w`
bits.
-/

set_option autoImplicit false

namespace Shard

/-- `a * b` in a `usize` of `w` bits: overflow panics in debug builds and wraps in release builds. -/
def mulUsize (env : Env) (w a b : Nat) : M Nat :=
  if a * b < 2 ^ w then .ok (a * b)
  else if env.debug then .error (.panic .overflow)
  else .ok (a * b % 2 ^ w)

/-- `size` rounded up to a multiple of `align`. -/
def roundUp (size align : Nat) : Nat := (size + align - 1) / align * align

/-- The contract of `Layout::from_size_align_unchecked` (and of the new size in `realloc`): the alignment is a power of two,
and the size, rounded up to a multiple of it, does not exceed `isize::MAX`. -/
def checkLayout (w size align : Nat) : M Unit :=
  if powerOfTwo align = false then .error (.ub .layoutMismatch)
  else if roundUp size align < 2 ^ (w - 1) then .ok ()
  else .error (.ub .layoutMismatch)

namespace Archetype

/-- `archetype/mod.rs:59-66`: the allocation loop of `with_capacity`. -/
def allocColumnsW (w : Nat) (env : Env) (d : ArchetypeDescriptor) (capacity : Nat) (pointers : List (Option Block)) :
    M (List (Option Block)) :=
  forRange 0 d.components.length (fun i ptrs => do
    let c ← index d.components i
    let n ← mulUsize env w c.size capacity
    checkLayout w n c.align
    let b ← allocBlock env n c.align
    setIndex ptrs i (some b)) pointers

/-- `archetype/mod.rs:40-71` `with_capacity`. An `Entity` has 4 bytes and alignment 4. -/
def withCapacityW (w : Nat) (env : Env) (d : ArchetypeDescriptor) (capacity : Nat) : M Archetype := do
  ensure d.isValid (.panic .assertFailed)
  let a : Archetype := ⟨d, List.replicate MAX_COMPONENTS_PER_ENTITY none, none, 0, 0⟩
  if capacity > 0 ∧ capacity ≤ MAX_ENTITIES_PER_ARCHETYPE then
    let n ← mulUsize env w 4 capacity
    checkLayout w n 4
    let ptrs ← allocColumnsW w env d capacity a.pointers
    return { a with entityAssociations := some (List.replicate (n / 4) none), pointers := ptrs, capacity := capacity }
  else
    return a

/-- `data_access.rs:439-454`: the reallocation loop of `resize_capacity`. -/
def reallocColumnsW (w : Nat) (env : Env) (a : Archetype) (newCapacity : Nat) : M (List (Option Block)) :=
  forRange 0 a.descriptor.len (fun i ptrs => do
    let p ← index ptrs i
    let c ← index a.descriptor.components i
    let old ← mulUsize env w c.size a.capacity
    checkLayout w old c.align
    let new ← mulUsize env w c.size newCapacity
    checkLayout w new c.align
    let b ← reallocBlock env p old c.align new
    setIndex ptrs i (some b)) a.pointers

/-- `data_access.rs:420-456` `resize_capacity`. The sum of the capacity and the change, both below 2^25, is computed in
`isize` and cannot overflow. -/
def resizeCapacityW (w : Nat) (env : Env) (a : Archetype) (change : Int) : M Archetype := do
  let new : Int := (a.capacity : Int) + change
  if new ≤ 0 ∨ new ≥ (MAX_ENTITIES_PER_ARCHETYPE : Int) then a.dealloc
  else
    let newCapacity := new.toNat
    let old ← mulUsize env w 4 a.capacity
    checkLayout w old 4
    let n ← mulUsize env w 4 newCapacity
    checkLayout w n 4
    match a.entityAssociations with
    | none => .error (.ub .badRealloc)
    | some l =>
      if l.length ≠ old / 4 then .error (.ub .layoutMismatch)
      else
        let ea := l.take (n / 4) ++ List.replicate (n / 4 - old / 4) none
        let ptrs ← reallocColumnsW w env a newCapacity
        return { a with pointers := ptrs, entityAssociations := some ea, capacity := newCapacity }

/-- `data_access.rs:503-512` `resize_if_necessary`. -/
def resizeIfNecessaryW (w : Nat) (env : Env) (a : Archetype) : M Archetype :=
  if a.isFull then
    let additional := if a.capacity = 0 then DEFAULT_ARCHETYPE_ALLOCATION_SIZE else a.capacity
    a.resizeCapacityW w env (additional : Int)
  else .ok a

end Archetype

end Shard
