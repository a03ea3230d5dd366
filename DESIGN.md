# Formal model of HindrikStegenga/Shard in Lean 4: design

The model follows the source function by function; every definition under `lean/Verif/Model` cites the file and lines
it models. The properties are in `properties.jsonl`, their status and theorems in `MANIFEST.json`.

## Trusted base

* The Lean 4 kernel. No property theorem depends on axioms other than `propext`, `Classical.choice` and `Quot.sound`;
  `native_decide`, `bv_decide`, `sorry` and own axioms are not used. Concrete evaluations use `decide +kernel`, that is
  kernel reduction.
* No Mathlib module is imported.
* The correspondence between the Rust source and `Verif/Model`. It is by inspection (line citations) and was tested by
  editing the model (see *Wrong programs*).
* The reading of Rust's semantics in the model: what panics (indexing, `unwrap`, `debug_assert!` and arithmetic
  overflow in debug builds), what wraps in release builds, and what is undefined behaviour (see below).
* The specifications in `Verif/Spec`: the API-level vocabulary in which the properties are stated.

## What is modelled

| Rust | Lean module (under `lean/Verif/Model/`) |
|---|---|
| `constants.rs`; panics, undefined behaviour, build modes, `binary_search_by_key` | `Base` |
| `fnv1a.rs` | `Fnv1a` |
| `entity_registry/{entity,index_in_archetype,archetype_index,entry}.rs` | `Entity` (bit-level, `UInt8/16/32`) |
| `entity_registry/{mod,iterator}.rs` | `EntityRegistry` |
| `descriptors/*.rs` | `Descriptors` |
| `Registry::{create_entity, add_component, remove_component}` and what they call, with failing allocations | `Oom` (C61, C62) |
| global allocator contract, raw memory | `Memory` (byte-level blocks, typed bytes, explicit faults) |
| `descriptors/component_group.rs` (trait impls), `archetype/{mod,data_access}.rs` | `Archetype` |
| `archetype_registry/{mod,sorted_archetype_key}.rs` | `ArchetypeRegistry` |
| `archetype_registry/iterators/*.rs` | `Iterators` |
| `registry/registry.rs` | `Registry` |
| unwinding out of destructors in `destroy_entity` | `Unwind` |
| `Archetype::{new, with_capacity}` for descriptors with any number of components | `Raw` (C68, C69) |
| `filter_archetype_iter.rs`, `filter_archetype_iter_mut.rs` with closures that have side effects or panic | `FilterEffects` (C78) |
| `add_component`, `remove_component` for components with a `DESCRIPTOR` of their own (`component.rs`) | `Override` (C81) |
| the implementations of `ComponentGroup` that the macros make (`component_group.rs`) | `Tuples` (C87) |
| `shard_ecs_derive/src/lib.rs` | `Derive` |
| sizes of memory requests with 32-bit `usize` | `Width` (C72), `WidthRegistry` (C84) |
| `ArchetypeDescriptor::new` and the other public functions for any length | `RawDescriptor` (C73) |
| `archetype/*.rs`, `archetype_registry/*.rs`, `registry/registry.rs` on raw pointers into one address space | `FlatMemory`, `FlatArchetype`, `FlatRegistry` (C97) |
| borrow stacks: references made during calls and handed out by them | `Borrows`, `SharedBorrows`, `CallBorrows`, `HandleSlices` (C90 to C93) |
| reserved values; calls of `unsafe fn`s with their arguments | `Reserved` (C94), `UnsafeCalls` (C96) |
| the `#[test]` functions | `CrateTests` (C76) |
| `examples/*.rs`, `benches/ecs.rs` | `Examples` (C77) |

Not modelled: `Send`/`Sync` markers, `Debug`/`Display` impls, lifetimes (the borrow checker's guarantees are assumed of
callers: a reference is not used after the registry changes), and the time the benchmark measures.

### Decisions and simplifications

* Every function is total and computable and returns `Except Fault _`. A Rust panic is `Fault.panic _`, undefined
  behaviour is `Fault.ub _`; both end the run. Unwinding is modelled only for destructors (`Unwind`). `&mut self`
  functions return the new state.
* `Env` collects what the target decides: debug or release build (`debug_assert!`, overflow checks), byte order, whether
  the allocator tolerates zero-sized requests. Theorems hold for every `Env` unless they say otherwise. `usize` has 64
  bits (C72 treats 32-bit targets).
* A Rust component type is a `CompTy`: type identity, `ID`, `size_of`, `align_of`. A component value is its type identity
  and the list of its bytes. Bytes in memory carry (as ghost data) the type and position they were written with, so a
  read at another type, of uninitialised bytes or across two values is a fault instead of garbage. Padding is not
  distinguished from data.
* Columns are byte blocks addressed by `size * index`, as in the code. Allocation, reallocation and deallocation check
  the layout contract, accesses check bounds, initialisation and alignment. Distinct blocks are distinct allocations, so
  a dangling or double-freed block shows up as a null access. Requests succeed, except in `Oom` (below). C97 shows that
  nothing is lost by this: the model on addresses, where blocks can be anywhere and pointers can stray, behaves the same.
* `u32` row counts are natural numbers with explicit checks where the code can underflow or overflow.
* `binary_search_by_key` is modelled by a binary search; the proofs use only the contract of the standard library on
  strictly sorted keys.
* Every component type has a drop handler that drops its values (as `Component::DESCRIPTOR` has); filter closures are
  pure functions of the archetype descriptor (C78 treats all others).
* Mutable iterators are run to the end before the references are used (`iter_mut().collect()`); C32 shows that the
  references do not overlap, so the order of stores does not matter.
* A history (`Spec/Api`) is a list of API calls with outcomes; `Reachable W r` means that `r` results from some history
  of a program `W : World env`. `World` states the assumptions on a program, each of them an obligation that the code
  leaves to its users or a fact about Rust types: distinct types have distinct ids (C59 shows what happens otherwise),
  sizes and alignments below 65536 (C60), alignments that are powers of two, zero-sized types only with a tolerant allocator (C50), and no two component
  sets in use with colliding archetype ids (`noClash`; C29 shows what happens otherwise). `remove_entity` may be called
  with any group; `Call.Disciplined` singles out the calls whose group is the entity's own (C18 shows what happens
  otherwise).

## How it is proved

1. `Proofs/Basic`, `Search`, `Sort`, `Entity`, `Fnv`, `HashSpec`: the base layer, bit-level lemmas, sorting, hashing.
2. `Proofs/Memory`: typed columns of a block (`ColOK`).
3. `Proofs/Descriptors`, `World`: well-formed descriptors are ascending id sets.
4. `Proofs/Archetype*`: the representation relation `Rep W a ct` between an archetype and a table of rows; each operation
   is a function on tables.
5. `Proofs/EntityRegistry`, `ArchetypeRegistry`: invariants; the free list, the sorted levels.
6. `Proofs/Loc`, `Placed`, `Home`, `Registry*`: the registry invariant `RInv` linking entries and rows, preserved by every
   call; `r.look env cs e` is the abstract state.
7. `Proofs/Step`, `History`, `Ledger`, `Observe`, `Progress`: one step of a history, and histories by induction.
8. `Proofs/Iterators`, `IterSpec`, `IterProps`: iterators.
9. `Proofs/Ref*`: simulation by the small executable reference registry of `Spec/Reference` (C66).
10. `Props/`: the property theorems, stated through the API functions and `Spec/`. Beside each stands a concrete example
   that satisfies the hypotheses (`Props/Example` builds a reachable registry by a history with all kinds of calls).

Where the code violates a property, the full statement is a definition (`Cnn_statement`), its negation is proved
(`Cnn_violated`) with a witness, and the largest true part is proved under a name ending in `_partial`.

## Wrong programs

`seeded/LOG.jsonl` records edits of the model (in a scratch copy) with the kind of bugs such code has: for each the
definition and edit, the property that becomes false, and the theorems whose proofs fail. A property theorem that still
proves although its English claim is false has to be tightened.

## The properties

* **C01 Entity handle packing round-trips** (proved; `Props/Handles`): Handles are bit-exact `UInt32` words; proved by bit-vector reasoning over all 24-bit indices and 8-bit versions.
  Theorems: `C01_handle_packing`.

* **C02 Entity entry fields are independent** (proved; `Props/Handles`): Entries are six bytes, the two halves of the archetype index in target byte order; proved for both byte orders, each setter against each getter, and `invalidate`.
  Theorems: `C02_entry_fields`.

* **C03 A created entity gets a fresh handle** (proved; `Props/Lifecycle`): For every reachable registry; from the invariant of the entity registry (the free list enumerates exactly the dead slots).
  Theorems: `C03_created_handle_fresh`.

* **C04 Destroyed handles are dead** (proved; `Props/Lifecycle`): After a successful `destroy_entity`/`remove_entity` the handle is dead and every query answers so.
  Theorems: `C04_destroyed_dead`.

* **C05 Stale handles stay dead for 255 further recyclings** (proved; `Props/Lifecycle`): By induction over histories: a retired handle stays dead until its slot has been recycled 256 times (`Spec/Slots`); the number is sharp.
  Theorems: `C05_stale_handles`.

* **C06 The invalid entity is never live** (proved; `Props/Lifecycle`): From the same invariant: the slot 0xFFFFFF never exists.
  Theorems: `C06_invalid_never_live`.

* **C07 Free slots are recycled before the table grows** (proved; `Props/Lifecycle`): A creation takes the most recently freed slot if there is one, otherwise it appends.
  Theorems: `C07_slot_recycling`.

* **C08 Entity limit applies to live entities** (partial; `Props/Capacity`): Negation by a generic history that fills the table (proved by induction, not by running it); the partial theorem gives the exact condition under which a creation is refused.
  Theorems: `C08_entity_limit_partial`, `C08_violated`.

* **C09 Entity iteration is exact** (proved; `Props/Iteration, Lifecycle`): Iteration yields every live handle once, in slot order; also for single `next` calls.
  Theorems: `C09_entity_iteration`, `C09_entity_next`.

* **C10 Create then read** (proved; `Props/Lifecycle`): Creation followed by reads of every component through every accessor.
  Theorems: `C10_create_then_read`.

* **C11 Creation does not disturb other entities** (proved; `Props/Lifecycle`): Frame: all queries about other handles are unchanged by creation.
  Theorems: `C11_create_frame`.

* **C12 Destruction does not disturb other entities** (proved; `Props/Lifecycle`): Frame: all queries about other handles are unchanged by destruction, although a row is swapped.
  Theorems: `C12_destroy_frame`.

* **C13 add_component semantics** (proved; `Props/Components`): Effect and frame of `add_component`.
  Theorems: `C13_add_component`.

* **C14 add_component failure is clean** (proved; `Props/Components`): A failing `add_component` returns the value and changes nothing observable.
  Theorems: `C14_add_failure`.

* **C15 remove_component semantics** (proved; `Props/Components`): Effect and frame of `remove_component`, and of its failures.
  Theorems: `C15_remove_component`.

* **C16 add then remove is the identity** (partial; `Props/Roundtrip`): Negation with a concrete history; the partial theorem says exactly when the removal succeeds and that it then restores every query.
  Theorems: `C16_add_remove_partial`, `C16_violated`.

* **C17 remove_entity with the exact group** (proved; `Props/Components`): `remove_entity` with the entity's own group returns its values in tuple order and retires the handle.
  Theorems: `C17_remove_entity_exact`.

* **C18 remove_entity with a non-matching group** (partial; `Props/Violations`): Negation with witnesses (subset and superset groups); the partial theorem is a complete description for every group.
  Theorems: `C18_remove_entity_partial`, `C18_violated`, `C18_witnesses`.

* **C19 Multi-component reads agree with single reads** (proved; `Props/Components`): `has_components`, `get_components` and the `_mut` versions agree with the single-component calls.
  Theorems: `C19_multi_reads`.

* **C20 Queries with a repeated component type** (partial; `Props/InvalidGroups`): Negation for groups with a repeated type; exact description.
  Theorems: `C20_repeated_types_partial`, `C20_violated`.

* **C21 Mutable access changes exactly one component** (proved; `Props/Components`): Stores through references change one component of one entity; references of a tuple do not overlap.
  Theorems: `C21_mutable_access`.

* **C22 Tuple order is irrelevant** (proved; `Props/Components`): All permutations of a group give the same archetype descriptor; proved through the normal form C41.
  Theorems: `C22_tuple_order`.

* **C23 Invalid groups are rejected** (proved; `Props/Lifecycle`): Groups with a repeated id are rejected by `ComponentGroupDescriptor::new` and `create_entity`.
  Theorems: `C23_duplicate_rejected`.

* **C24 Well-formed groups are accepted** (partial; `Props/Hash`): Negation with a pair of ids whose hash is `u32::MAX`; otherwise valid.
  Theorems: `C24_wellformed_groups_violated`, `C24_wellformed_groups_partial`.

* **C25 Growing to the component limit** (partial; `Props/ComponentLimit`): Negation: with 13 components `add_component` always panics; all other counts are proved.
  Theorems: `C25_add_at_limit_partial`, `C25_violated`.

* **C26 Shrinking from the component limit** (partial; `Props/ComponentLimit`): Negation: with 14 components `remove_component` always panics; all other counts are proved.
  Theorems: `C26_remove_at_limit_partial`, `C26_violated`.

* **C27 Archetype limit is graceful** (proved; `Props/ArchetypeLimit, Limits`): With 65534 archetypes, operations that would need another one fail cleanly.
  Theorems: `C27_archetype_limit`, `C27_limit_reached`.

* **C28 Archetype lookup is stable** (proved; `Props/Limits`): The archetype of a component set is found again at the same index after any further history.
  Theorems: `C28_stable_lookup`.

* **C29 Different component sets never share storage** (partial; `Props/Storage`): Negation with two colliding three-component sets; proved under `World.noClash`.
  Theorems: `C29_storage_partial`, `C29_violated`, `C29_collision`, `C29_witness`.

* **C30 Matching iteration is complete, sound and duplicate-free** (proved; `Props/Iteration`): The items of the matching iterators, as multisets of (entity, values), are exactly the live entities with all components of the group.
  Theorems: `C30_matching_iteration`.

* **C31 Slices are aligned** (proved; `Props/Iteration`): Within an item all slices have the same length and position k of each belongs to the same entity.
  Theorems: `C31_aligned_slices`.

* **C32 Mutable iteration never aliases** (proved; `Props/Iteration`): The references handed out by a mutable iterator are pairwise disjoint and stores through them change exactly one component.
  Theorems: `C32_mutable_iteration`.

* **C33 Filtered iteration equals matching plus filter** (proved; `Props/Iteration`): The filtered iterators yield the items of the matching ones whose archetype passes the filter.
  Theorems: `C33_filtered_iteration`.

* **C34 Exact iteration is complete** (partial; `Props/Exact, TwoHomes`): Negation (ids of archetypes reached by creation and by add/remove differ); the partial theorem says exactly which entities are yielded.
  Theorems: `C34_violated`, `C34_exact_iteration_partial`, `C104_exact`.

* **C35 Ownership is conserved** (proved; `Props/Safety`): A ledger over histories: every value moved in is stored, handed back or dropped exactly once, at every prefix and after dropping the registry.
  Theorems: `C35_ownership`.

* **C36 Memory safety of the storage layer** (partial; `Props/Safety, Violations`): Negation for undisciplined `remove_entity` calls; for disciplined histories within the limits no call faults.
  Theorems: `C36_memory_safety_partial`, `C36_histories_partial`, `C36_violated`.

* **C37 Archetype growth to the entity limit** (partial; `Props/Capacity`): Negation at 2^23 rows of one archetype (generic induction); exact below and at the limit.
  Theorems: `C37_growth_partial`, `C37_violated`.

* **C38 Capacity doubling** (proved; `Props/Limits`): Capacities are 128 * 2^k, at least the number of rows, and grow only by doubling.
  Theorems: `C38_capacity`.

* **C39 Descriptor set operations are set operations** (proved; `Props/Descriptors`): `contains_subset`, `excludes_subset`, `has_component` are the set operations on ids.
  Theorems: `C39_descriptor_set_ops`.

* **C40 Descriptor add and remove** (proved; `Props/Descriptors`): `add_component`/`remove_component` on descriptors: inserted/removed set, sortedness, ids, failure conditions, panics at the limits.
  Theorems: `C40_descriptor_add_remove`, `C40_hypothesis`.

* **C41 Group descriptor normal form** (proved; `Props/Descriptors`): Group descriptors are sorted, have the group's ids and mutually inverse sort mappings.
  Theorems: `C41_group_normal_form`.

* **C42 Descriptor at a tuple position** (partial; `Props/Descriptors`): Negation with a three-component group; exact characterisation of the groups for which it holds.
  Theorems: `C42_as_unsorted_violated`, `C42_as_unsorted_partial`.

* **C43 FNV-1a hash functions** (proved; `Props/Hash`): The hash functions against FNV-1a over the integers, with the limit argument.
  Theorems: `C43_fnv1a`.

* **C44 Two-element disjoint borrow** (proved; `Props/Descriptors`): `disjoint_mut` on all slices and index pairs.
  Theorems: `C44_disjoint_mut`.

* **C45 Failed creation is clean** (proved; `Props/Lifecycle`): A failing `create_entity` returns the values and changes nothing observable.
  Theorems: `C45_failed_create`.

* **C46 Queries on invalid groups in iterators** (partial; `Props/InvalidGroups`): Negation; exact items for invalid groups.
  Theorems: `C46_invalid_groups_partial`, `C46_violated`.

* **C47 Iterators are fused** (proved; `Props/Iteration`): After `None`, all iterators keep returning `None`.
  Theorems: `C47_fused`.

* **C48 Single-component archetypes never collide** (proved; `Props/Hash`): Archetypes of single components are distinct for distinct ids, from injectivity of the hash on common prefixes.
  Theorems: `C48_single_component_archetypes`.

* **C49 Registry refines an abstract map** (proved; `Props/Safety`): Simulation of every history by an abstract map from handles to component maps, at every prefix, with returned and dropped values.
  Theorems: `C49_refinement`.

* **C50 Zero-sized components are safe** (partial; `Props/Allocation`): Negation when the allocator does not accept zero-sized requests (every group with a zero-sized type); safe when it does.
  Theorems: `C50_zero_sized_partial`, `C50_zero_sized_fault`, `C50_violated`.

* **C51 An archetype constructed without capacity can grow** (partial; `Props/Allocation`): Negation for `Archetype::with_capacity(d, 0)` (no memory is allocated, but the first push reallocates).
  Theorems: `C51_no_capacity_partial`, `C51_violated`.

* **C52 create_entity succeeds exactly when there is room** (proved; `Props/Limits`): Success of `create_entity` iff there is a slot, an archetype and a valid group.
  Theorems: `C52_create_progress`.

* **C53 add_component succeeds exactly when there is room** (proved; `Props/Limits`): Success of `add_component` iff the component is absent and there is room.
  Theorems: `C53_add_progress`.

* **C54 remove_component succeeds exactly when there is room** (proved; `Props/Limits`): Success of `remove_component` iff the component is present, is not the only one, and there is room.
  Theorems: `C54_remove_progress`.

* **C55 Destruction drops exactly the entity's components** (proved; `Props/Safety`): `destroy_entity` drops the values of its entity, each once.
  Theorems: `C55_destroy_drops`.

* **C56 Dropping the registry frees all storage** (proved; `Props/Safety`): Dropping the registry drops every stored value once and frees every block with the layout it was allocated with.
  Theorems: `C56_drop_frees`.

* **C57 Group validity and archetype ids, exactly** (proved; `Props/Hash`): Validity and id of every group restated over natural numbers (`Spec/Hash`), exact.
  Theorems: `C57_group_ids`.

* **C58 A panicking destructor leaves a consistent registry** (partial; `Props/Unwind`): Destructors are a predicate telling which values panic (`Model/Unwind`). Negation with witnesses; exact state after unwinding.
  Theorems: `C58_others_violated`, `C58_once_violated`, `C58_panicking_destructor_partial`.

* **C59 Different component types are different components** (partial; `Props/Names`): Names and the derive macro are modelled (`Model/Derive`). Negation with two colliding names and two instances of a generic type; exact description of what happens to types sharing an id.
  Theorems: `C59_names_violated`, `C59_derived_violated`, `C59_names_partial`, `C59_witnesses`.

* **C60 Components of any size and alignment can be stored** (partial; `Props/Oversized`): Negation for 65540 bytes; exact characterisation over all sizes and alignments on a new registry.
  Theorems: `C60_violated`, `C60_oversized_partial`.

* **C61 An allocation failure in create_entity leaves a usable registry** (partial; `Props/Oom`): Modelled in `Model/Oom` (which allocations of one call fail is a parameter). Negation: a full archetype and a failing column; exact behaviour for every pattern of failures.
  Theorems: `C61_drop_violated`, `C61_reads_violated`, `C61_allocation_failure_partial`.

* **C62 A panic in add_component or remove_component leaves a usable registry** (partial; `Props/OomMove`): Modelled in `Model/Oom` like C61, the limit panics included. Negation: the handle reads another entity's components after a failed growth of the destination; exact behaviour for every pattern of failures.
  Theorems: `C62_reads_violated`, `C62_drop_violated`, `C62_remove_violated`, `C62_add_panic_partial`, `C62_remove_panic_partial`.

* **C63 The entity table is a partial map under any safe use** (proved; `Props/Table`): Refinement of a reference table (`Spec/Table`: slots and a stack) by a simulation relation weaker than the registry's own invariant; answers are equal for every sequence of calls, and the partial-map laws follow.
  Theorems: `C63_table_refines`, `C63_partial_map`.

* **C64 A source index that names no archetype is answered with None** (partial; `Props/Archetypes`): Violated. Both functions are transcribed with their check `index > len`. `C64_violated` gives the new registry with index 0, where the indexing after the check panics. `C64_range_check_partial` decides every registry and every index that names no archetype: above the length None, at the length a panic.
  Theorems: `C64_violated`, `C64_range_check_partial`.

* **C65 The archetype registry is an append-only list of keys** (proved; `Props/Archetypes`): The reference (Spec/Archetypes) is a list of keys with linear search; sets are ascending lists, additions insert, removals erase. A simulation relation (the registry invariant and equality of keys) is preserved by each of the four calls, and induction over the sequence gives equality of all answers, the same panics, and the append-only facts.
  Theorems: `C65_archetypes_refine`, `C65_append_only`.

* **C66 The registry is observationally equivalent to a small reference registry** (proved; `Props/Reference`): Spec/Reference.lean defines the reference with the hashes of Spec/Hash.lean. Simulation: RRel relates a registry with its contents to a reference state; Proofs/RefStep, RefMove, RefWrite prove one step for every call, RefIter the iteration order (the sorted index is the insertion sort by number of types and id), RefRun the queries and the induction over the calls.
  Theorems: `C66_run`, `C66_from`, `C66_determined`.

* **C67 Debug and release builds behave alike** (proved; `Props/Profile`): Corollary of C66: the reference depends on the build only through the byte order and the fault at a full archetype; the assumptions on calls are transported along the equal answers (induction over the calls).
  Theorems: `C67_profile`.

* **C68 The safe functions of Archetype never have undefined behaviour** (partial; `Props/RawArchetype`): Model/Raw.lean adds the bounds checks that matter for arbitrary descriptors. The claim is false (`C68_violated` and three named witnesses: null entity slice of an archetype without memory, alignment 0 from ComponentDescriptor::INVALID, lowered alignment at drop). `C68_safe_archetype_partial` characterises exactly, for every descriptor and capacity, when creation panics or has undefined behaviour and when `entities` and `drop` do; the allocation, drop and deallocation loops are treated by induction.
  Theorems: `C68_violated`, `C68_null_entities_violated`, `C68_invalid_component_violated`, `C68_misaligned_drop_violated`, `C68_safe_archetype_partial`.

* **C69 The safe functions of ArchetypeRegistry never have undefined behaviour** (partial; `Props/RawRegistry`): `SafeCall` is a call, `SafeReach` the registries calls lead to. The claim is false: an archetype can be replaced by one without memory (`C69_violated`), and `ArchetypeDescriptor::new` accepts components in any order, which the column walk of the iterators does not survive (`C69_unsorted_violated`). For honest descriptors (ascending ids, descriptors of types; archetype ids arbitrary) and replacements with memory it is an invariant (`SafeInv`: all archetypes empty with allocated columns, all index keys in range), preserved by every call.
  Theorems: `C69_violated`, `C69_unsorted_violated`, `C69_safe_registry_partial`.

* **C70 Dropping a registry with panicking destructors** (partial; `Props/UnwindDrop`): Model/Unwind.lean models Drop for Archetype and the drop glue of the archetype vector with a predicate for panicking destructors. C70_violated: two entities, the first destructor panics, the second value is not dropped and the memory stays allocated. C70_drop_panics_partial gives the dropped values, the way it ends (normally, panic, abort) and the freed archetypes exactly, by induction over columns and archetypes.
  Theorems: `C70_violated`, `C70_drop_panics_partial`.

* **C71 Archetypes used on their own behave as tables of rows** (proved; `Props/Rows`): Spec/Rows.lean: row-major tables with cells that may be empty, contracts (RowOp.Legal) and effects (RowOp.apply), and stores of several tables; it does not mention memory. C71_rows_refine: forward simulation, invariant RowsRep (each column is a block whose cells hold the values wherever the table has one), by induction over the calls. exStore is a history of 18 calls on two archetypes.
  Theorems: `C71_rows_refine`.

* **C72 Memory requests have the size of the columns on every target** (partial; `Props/Width`): Model/Width.lean transcribes with_capacity, resize_capacity and resize_if_necessary with usize arithmetic of w bits and the Layout contract. C72_violated and C72_out_of_bounds_violated: 1000-byte components and capacity 4294968 give a column of 704 bytes in a release build, and the first push writes beyond it. C72_with_capacity_partial and C72_growth_partial: success iff the columns fit isize; then the functions agree with the unbounded model used everywhere else; on 64 bits they always fit; growth beyond is undefined behaviour in realloc.
  Theorems: `C72_violated`, `C72_out_of_bounds_violated`, `C72_with_capacity_partial`, `C72_growth_partial`.

* **C73 A descriptor that reports to be valid is a set of 1 to 14 components** (partial; `Props/RawDescriptor`): Model/RawDescriptor.lean transcribes the functions with every array access checked. Derived is the closure of the constructors other than new under add_component and remove_component, Obtained adds new. C73_violated, C73_duplicates_violated and C73_panics_violated give descriptors of length 20 and with duplicates that report to be valid. C73_partial: by induction over Derived, ids are strictly ascending, at most 14, and all functions answer as set operations, panicking exactly at 13 (add) and 14 (remove).
  Theorems: `C73_violated`, `C73_duplicates_violated`, `C73_panics_violated`, `C73_partial`.

* **C74 Descriptor functions on descriptors with arbitrary fields** (proved; `Props/RawDescriptor`): The checked model of Model/RawDescriptor.lean. Closed forms of the inner and outer loops by induction on the number of remaining iterations; C74_any_descriptor also shows that up to length 14 the checked functions are the unchecked ones used in the rest of the model.
  Theorems: `C74_any_descriptor`.

* **C75 Programs far from the limits never notice them** (proved; `Props/Ordinary`): Each call adds at most one archetype (case analysis over the call specifications), every archetype has the plain or the group id of a component set in use and keys are pairwise different, so there are at most two per set; the length of the entity table is the largest number of simultaneously live entities (C07); the conditions of C52, C53, C54 and the safety of calls within limits then hold.
  Theorems: `C75_archetype_count`, `C75_ordinary_programs`.

* **C76 The crate's own tests pass, whatever the random values and sizes** (proved; `Props/ConformanceRandom`): The tests are programs of the model (Verif/Model/CrateTests.lean). Those without loops are evaluated by the kernel for all environments. The entity table test is an induction over its loops against the reference table of C63. test_registry: its first two loops are an induction against the reference registry of C66 with the tables given explicitly, from which the iterator assertions follow; its last three loops are inductions with the invariant that the entities not yet processed are distinct and have exactly the default values, where C75 gives the success of every call. This also tests the model: the assertions the authors made about the code hold of it.
  Theorems: `C76_random_test`, `C76_many_entities`, `C76_other_tests`.

* **C77 The examples and the benchmark do what they say** (partial; `Props/Examples`): The examples and the benchmark are programs of the model (Verif/Model/Examples.lean) with the NAME of Rotation as a parameter. As shipped: a group with two equal ids has the invalid descriptor, and adding an id the entity already has fails for every type with that id. Renamed: C75 gives the success of the calls, an induction against the reference registry of C66 gives the rows the iterators show. Benchmark: induction over the set-up with the invariant that the i-th handle has the i-th P; C30 gives the iteration.
  Theorems: `C77_violated`, `C77_examples_partial`, `C77_benchmark`.

* **C78 Filters with side effects or panics** (proved; `Props/FilterEffects`): A second model of next takes the closure as a function of a state of arbitrary type whose result may be a panic (Verif/Model/FilterEffects.lean). By induction over the two loops, the keys still ahead of the iterator, restricted to matching archetypes, are a list that lazyNext (Verif/Spec/Filter.lean) consumes in step. C78_filter_calls reads off the calls with a closure that logs them; C78_pure_filters shows that the two models of next agree on pure closures.
  Theorems: `C78_filter_effects`, `C78_filter_calls`, `C78_invalid_groups`, `C78_pure_filters`.

* **C79 The storage of an archetype is determined by its peak** (proved; `Props/Growth`): Induction over the history with an invariant linking the capacity, the peak, the number of reallocations and the number of copied rows; one step is C38. The states of a history, the peak, the reallocations and the copied rows are computed by small functions of Spec/Growth.
  Theorems: `C79_capacity_of_peak`.

* **C80 The byte order of the machine shows only in the order of iteration** (proved; `Props/ByteOrder`): Both real registries are related to the reference registry (C66) on their own machine; the tables of the two references correspond one to one, with the ids exchanged. A step of one reference is a step of the other, by the absence of collisions in both worlds; visiting orders are permutations of each other because both sort the same tables. Spec/ByteOrder states the assumptions and what alike means.
  Theorems: `C80_byte_order`, `C80_order_differs`.

* **C81 The DESCRIPTOR a component type declares cannot break memory safety** (partial; `Props/DeclaredAlign, Override, OverrideExact`): Model/Override gives add_component and remove_component the descriptor as a parameter; queries build theirs from size_of, align_of and ID. The descriptor is followed through the search of the archetype, which looks at ids only (C81_descriptor_partial). Where add_component creates the archetype, its run with the declared descriptor is shown to be the run with the default one except for one column, which is allocated with the declared size and alignment and written with the real ones (Proofs/Declared); C81_creating_partial reads off exactly when that is undefined behaviour, and which kind. Later calls: a simulation between registries that differ in the alignments of their columns, function by function through the whole model (Proofs/DeclaredAlign, DeclaredAlignArch, DeclaredAlignReg), gives C81_program_partial for whole programs. The violations are computed runs.
  Theorems: `C81_descriptor_partial`, `C81_creating_partial`, `C81_violated`, `C81_program_partial`, `C81_later_violated`.

* **C82 A query returns what was last stored** (proved; `Props/LastStored`): Spec/LastStored searches the record of calls and results backwards; it knows no tables, slots or maps. Proved by induction along the refinement C49: each abstract step changes the abstract map as the newest entry of the record changes the search.
  Theorems: `C82_last_stored`.

* **C83 Memory is bounded by the largest population** (proved; `Props/Footprint`): Spec/Footprint adds up the lengths of the blocks of the memory model. The representation invariant gives the size of each block; the number of rows of an archetype is bounded by the number of live entities because the rows hold distinct live handles; C79 turns the peak into a capacity, C07 gives the entity table, C75 the number of archetypes.
  Theorems: `C83_memory_bound`.

* **C84 Programs on 32-bit targets** (partial; `Props/WidthRegistry`): Model/WidthRegistry repeats the functions that reach an allocation with w-bit arithmetic. C84_narrow_partial: a history in which twice the largest population times the size of each component stays below 2^31 gives the same outcomes and registry with w-bit arithmetic, and so does any next call, faults included; with 64 bits no bound is needed. C84_growth_partial: at a full archetype, create_entity works iff the doubled columns fit, and otherwise realloc is called with a size beyond isize::MAX. C84_violated: 32768 entities with a component of 32 KiB (1 GiB) are reachable, and the next create_entity is undefined behaviour.
  Theorems: `C84_narrow_partial`, `C84_growth_partial`, `C84_violated`.

* **C85 Handles depend only on the order of creations and destructions** (proved; `Props/HandleOrder`): Spec/Handles is an allocator over pairs of plain numbers that is told events without handles. Invariant by induction over histories: the free list of the registry is the stack of the allocator and the versions in the free entries are those on the stack (on top of the slot invariant of C07). The comparison of two programs follows because both equal the same function of the pattern.
  Theorems: `C85_handles_predicted`, `C85_same_handles`.

* **C86 Entities do not interfere** (proved; `Props/Locality`): Equal answers about an entity give equal abstract components under the registry invariant; the abstract step of a call about one entity is a function of its components (AMap.Step.local), and whether add_component and remove_component succeed or panic is decided by the component set (C75). The frame part is the abstract step outside the entity; the order part is locality applied twice plus the frame.
  Theorems: `C86_locality`, `C86_frame`, `C86_order`.

* **C87 Tuples of every length are handled alike** (proved; `Props/Tuples`): Model/Tuples has the macro invocations as data and the functions as the macro bodies. The table is checked by evaluation (it is finite); the rest is by induction over the repetition in the macro body, from the fact that unsorted_to_sorted is the rank of the component id (idRank counts the smaller ids).
  Theorems: `C87_lengths`, `C87_round_trip`, `C87_references`, `C87_expansion`.

* **C88 The names of components show only in the order of iteration and of dropping** (proved; `Props/Renaming`): Both real registries are related to the reference registry (C66) of their own program. RReg.ren maps a reference registry of one program to one of the other: the columns of each table are re-sorted by the new ids and each row is permuted accordingly; the ids of the tables are exchanged. One step of a reference commutes with this map (by cases over the calls, from the absence of collisions in both worlds and the uniqueness of the ascending order of a set); the answers of a reference and of its image agree up to the order of visiting.
  Theorems: `C88_names`, `C88_renaming_exists`, `C88_drop_order_differs`, `C88_iteration_order_differs`.

* **C89 The references handed out can be used by several threads** (proved; `Props/Parallel`): An access is atomic (by the disjointness in the first part of the theorem there is no data race, so finer interleavings of the bytes behave like one of these). Each reference is a pointer to one component of one entity (RefTo), different references to different ones; stores keep this and act on the abstract map (C49), which gives what is seen. Equality of the registries is proved on bytes: a store is splice on one column, splices of disjoint intervals commute, and a schedule with the same threads is obtained by moving accesses forward over accesses of other threads.
  Theorems: `C89_slices`, `C89_tuple`, `C89_exclusive_needed`.

* **C90 The references handed out obey Stacked Borrows** (proved; `Props/Borrows`): Spec/Borrows is Stacked Borrows: per location a stack of items, accesses and reborrows. Model/Borrows adds to the iterators every reference they make on the way. Invariant of a program: the registry's reference may be used at every archetype; the column pointers may be used at every archetype not held; the item of every slice held is on top at its bytes. It is kept because no archetype is yielded twice (C23) and the columns of a tuple are distinct. The contrast: a write through the registry's reference removes the item of a fresh &mut.
  Theorems: `Borrow.C90_iterators`, `Borrow.C90_exact`, `Borrow.C90_entity_exact`, `Borrow.C90_components`, `Borrow.C90_archetype_not_kept`.

* **C91 Programs that borrow the registry again and again obey Stacked Borrows** (proved; `Props/SharedBorrows`): Model/SharedBorrows adds to the shared iterators every reference they make, and programs of sessions. A step of a shared program only reads and makes new & references; such a step keeps every stack in which an item lies above the base item with nothing but shared items between (Reads, Usable), so all that is held stays readable. A mutable session works through a reference with a new tag; what lies below that item in the stack of an archetype is not touched by it (Based), so afterwards the registry's own reference can be used again. C90 gives the session itself.
  Theorems: `Borrow.C91_shared`, `Borrow.C91_results`, `Borrow.C91_sessions`.

* **C92 Whole programs, with the calls that change the registry, obey Stacked Borrows** (proved; `Props/CallBorrows`): Model/CallBorrows adds to the calls every reference they make and every use of one; new memory gets a new tag. The proof keeps for each location a list of references, each made from the next (a tower); a use of the first leaves the whole tower usable, a reborrow puts a new one in front, and the end of a borrow takes it away. For the columns and entity columns the tower is the allocation's pointer; for the archetypes it grows with the nesting of the calls. Sessions are those of C91, whose proof now also says that the places of the vector behind its end are not touched.
  Theorems: `Borrow.C92_call`, `Borrow.C92_programs`, `Borrow.C92_initial`.

* **C93 A reference to the handles of an archetype never covers an uninitialised handle** (partial; `Props/HandleSlices`): Model/HandleSlices collects the slices of handles each call makes; an element is `none` as long as nothing was stored there since the memory was allocated. Violated: the code raises `entity_count` first and then calls `entities_mut()`, so the first entity of every archetype is stored through a `&mut [Entity]` whose only element is uninitialised (`C93_violated`: for every successful call for which an archetype is made). Whether that is undefined behaviour is under debate for Rust (the reference says a reference must point to a valid value and notes that this is subject of debate), and Miri does not report it. Proved as `C93_partial`: in all other cases the slices are initialised; the only exception is the place of the entity that is just being put there, in the last slice a call makes. Between calls every slice that can be asked for is initialised (`C93_between`).
  Theorems: `HandleSlices.C93_partial`, `HandleSlices.C93_between`, `HandleSlices.C93_violated`.

* **C94 Reserved values are the documented ones and stand for nothing else** (partial; `Props/Reserved`): Model/Reserved adds the constants and conversions nothing else uses. Violated (`C94_violated`): no handle can have the index INVALID_ENTITY_HANDLE_VALUE = 2^24, the null handle has 2^24 - 1; archetype id 0 is valid and is the id of the three component ids 0, 31576, 34344, under which create_entity stores entities; the destruction of the only entity calls new_unchecked with the reserved value. What holds is proved: `C94_index_types` and `C94_identifiers` (all values), `C94_partial` (every reachable registry, from the invariants RInv, ARInv and the free list, with the exact condition under which new_unchecked gets the reserved value: every slot is occupied).
  Theorems: `Reserved.C94_index_types`, `Reserved.C94_identifiers`, `Reserved.C94_partial`, `Reserved.C94_violated`.

* **C95 Rows keep their order; a call moves at most one other entity** (proved; `Props/RowOrder`): Spec: `rowsAt` (handle slice of an archetype), `placeOf` (what the entry says), list `++ [e]` and `swapRemove`. `C95_rows` gives the exact new sequences of all archetypes for every call (case analysis over the step lemmas: CreatedAt, Removed, RowsMoved, and for writes that the entity table is unchanged and determines the rows); `C95_agree` that entry and row agree; `C95_others` and `C95_one` where every other entity is afterwards; `C95_prefix` by induction over histories.
  Theorems: `RowOrder.C95_agree`, `RowOrder.C95_rows`, `RowOrder.C95_others`, `RowOrder.C95_one`, `RowOrder.C95_prefix`.

* **C96 The safe functions keep the documented contracts of the unsafe functions they call** (partial; `Props/UnsafeCalls`): The functions are written a second time recording every call of an `unsafe fn` with its arguments and the archetype as it is then (`Model/UnsafeCalls`); `C96_results` shows that they compute what the model computes. `Spec/Contracts` states the documented condition of each function. The proof follows the recorded computation with the representation invariant; the exceptions are equivalences.
  Theorems: `UnsafeCalls.C96_partial`, `UnsafeCalls.C96_plain`, `UnsafeCalls.C96_destroy`, `UnsafeCalls.C96_remove`, `UnsafeCalls.C96_get`, `UnsafeCalls.C96_create`, `UnsafeCalls.C96_add`, `UnsafeCalls.C96_remove_component`, `UnsafeCalls.C96_results`, `UnsafeCalls.C96_violated`.

* **C97 On real addresses the registry behaves as on separate blocks, wherever the allocator puts them** (proved; `Props/FlatMemory`): The archetype and registry functions are written a second time on raw pointers (`Model/FlatMemory`, `FlatArchetype`, `FlatRegistry`), with the checks of `alloc`, `realloc`, `dealloc`, `offset`, `read`, `write`, `copy_nonoverlapping`, `swap_nonoverlapping` and `from_raw_parts` made on addresses. A simulation relation says that the blocks owned by the pointers hold what the columns of the block model hold and are disjoint; each function preserves it and touches only owned blocks (`Proofs/Flat*`). Induction over the history gives the theorem; the absence of undefined behaviour follows with C36.
  Theorems: `Flat.C97_address_programs`, `Flat.C97_address_no_ub`.

* **C98 The order of iteration is fixed by the component sets and the rows** (proved; `Props/IterOrder`): `Before` and `Visits` (`Spec/Order`) define order and membership from the descriptors of the archetypes alone. The keys of each level are sorted and levels are component counts (invariant), so the list visited is sorted by `Before`; a sorted list is determined by its members, which gives uniqueness, stability (descriptors never change) and independence of the creation order.
  Theorems: `C98_order`, `C98_plain`, `C98_unique`, `C98_stable`, `C98_history_free`.

* **C99 A collision of component sets harms no other entity** (partial; `Props/Collision`): False of the code: the values are copied with the sizes of the created types into columns laid out for the types of the archetype. Proved exactly: when the copy leaves a column (`C99_create_partial`), where the new entity and all others are and which components can still be read (`C99_after_partial`), and when another entity is harmed at all (`C99_harm_partial`). `Spec/Collision` states the byte ranges from the two descriptors. The proof runs the copy loop on arbitrary sizes and reads the blocks byte by byte; the invariant of reachable registries gives the state before the call, no hypothesis is made on the id of the created set. Witnesses with the colliding sets of C29: a smaller type overwrites half of another entity's component, a larger one writes outside of its column.
  Theorems: `C99_violated`, `C99_witness_harm`, `C99_witness_bounds`, `C99_create_partial`, `C99_after_partial`, `C99_harm_partial`.

* **C100 Adding or removing a component keeps the others even if component sets collide** (partial; `Props/CollisionMove`): False of the code: the archetype is chosen by the id and the number of components alone. Proved exactly, for every archetype with the id and the size of the new set: `add_component` panics if that archetype has no column for the added type; otherwise it and `remove_component` succeed, the entity has the types of that archetype, keeps the common ones, loses the others, and reads the rest from memory that was not written (what an earlier entity left, or uninitialised memory if the storage had to grow); other entities are untouched (`C100_add_partial`, `C100_remove_partial`). If the set is really another one, a component is lost (`C100_lost_partial`). The proof follows the copy loop of the move to a destination with arbitrary columns and tracks which columns stay unwritten. Witnesses with the colliding sets of C29: lost components and an uninitialised read, a value dropped twice, a panic, and a removed value that stays in the registry.
  Theorems: `C100_violated`, `C100_witness_lost`, `C100_witness_doubleDrop`, `C100_witness_panic`, `C100_witness_twice`, `C100_add_partial`, `C100_remove_partial`, `C100_lost_partial`.

* **C101 With enough component types, collisions cannot be avoided** (proved; `Props/Pigeonhole`): Pigeonhole principle over the sublists of a given length, counted by Pascal's triangle (Proofs/Pigeonhole): C(37,14) = 6107086800 and C(38,13) = 5414950296 exceed 2^32. What the colliding creation does is C99, applied to the registry after the first creation.
  Theorems: `C101_creations`, `C101_moves`, `C101_names`, `C101_types`.

* **C102 Component sets that differ in one place never collide** (proved; `Props/OnePlace`): An FNV-1a step can be undone if the byte is known, so a common end of the hashed bytes does not matter. Multiplying with the FNV prime carries every difference in the lowest byte into the upper 24 bits, so two bytes hashed from the same state can be read off the result.
  Theorems: `C102_one_place`, `C102_groups`, `C102_compute`, `C102_programs`.

* **C103 Exactly which pairs of component types are refused** (proved; `Props/RefusedPairs`): Verif/Proofs/RefusedPairs.lean undoes the last two steps of the hash and recognises, by the carry of the multiplication, which of the 65,536 states left are hashes of two bytes; the finite remainder is a kernel-checked table (scan_ff, scan_00). Exactly three strings of four bytes give the reserved id when filled with 0xFF, none when filled with zeros. C103_pairs and C103_moved state this about the reference hash, C103_create about group descriptors and create_entity, C103_add and C103_remove about reachable registries (with C53 and C54), C103_at_most_one follows from C102.
  Theorems: `C103_pairs`, `C103_moved`, `C103_create`, `C103_at_most_one`, `C103_add`, `C103_remove`.

* **C104 Created entities and changed entities never share an archetype** (proved; `Props/TwoHomes`): A group is padded with invalid descriptors (bytes 0xFF) and hashed over all 14 places, add_component and remove_component hash zeros in the unused places. The low five bits of an FNV-1a step depend on the low five bits of its input only, so that the two paddings never agree is a table of 32 states and 12 lengths (padMod_table). Which lone components are mixed up is a kernel-checked table of the 65,536 ids (largeId_table). The rest follows from Steps.home (the archetype of an entity has the id that its last structural change computed), unique_index and, for sets of 14, the fact that a changed entity has at most 13 components.
  Theorems: `C104_ids`, `C104_lone`, `C104_lone_witness`, `C104_apart`, `C104_later`, `C104_round_trip`, `C104_exact`.

* **C105 Archetypes are created on demand** (proved; `Props/Demand`): Spec/Demand.lean computes from a history the components of each entity (ownIds) and the requests (demands), with the ids of Spec/Hash.lean. One call changes the keys of the archetypes as its request does: for the three calls that reshape entities by the step of the reference registry of C66, for the others because the number of archetypes and the descriptors stay. That ownIds are the components of the entity goes by induction over the history, as for the homes of entities in C104.
  Theorems: `C105_keys`, `C105_own`, `C105_once`, `C105_source`, `C105_stays`, `C105_served`, `C105_quiet`, `C105_exact`.

* **C106 When a component's address changes, and which calls ask for memory** (proved; `Props/Address`): On the model with addresses (C97), triples for every flat function (`Proofs/FlatAddress`) say that it either leaves the allocations and the column pointers of an archetype alone or is the one growth at a full archetype, which renews every column. The simulation relation of C97 locates rows; the rows of C95 say where an entity is after a call. The third theorem is an induction over the further history.
  Theorems: `Flat.C106_address`, `Flat.C106_requests`, `Flat.C106_run`.

* **C107 How often memory is requested, and which blocks are held** (proved; `Props/Requests`): On the model with addresses (C97) every allocation, also by `realloc`, gets the next number; triples for every flat function (`Proofs/FlatCount`) say by how much that number grows. With the doubling of C38 the sum over the archetypes is a potential that accounts for every request; induction over the history. The blocks are read off the simulation relation of C97.
  Theorems: `Flat.C107_requests`, `Flat.C107_bound`, `Flat.C107_blocks`.

* **C108 Archetypes used on their own, on real addresses** (proved; `Props/FlatRows`): The flat functions of C97 are called directly (`storeCalls`); the specifications of C71 (tables) and of C97 (ownership of blocks, frames) are combined per call (`rowCall_spec`, `storeCall_spec`) and the sequence is treated by induction, with a simulation between tables, blocks and addresses.
  Theorems: `Flat.C108_address_rows`, `Flat.C108_all_freed`.

* **C109 Code that keeps to its own entities behaves the same in every registry** (proved; `Props/Script`): A script names its entities by order of creation (`Spec/Script.lean`); the run looks the handles up and passes them to the calls of the model. One step: the abstract effect of an action is a function of the components of its entity (`step_same`), and C75 says when calls succeed; then induction over the script with the invariant that own handles are live, distinct and give the same answers in both runs. The frame part is C86_frame plus freshness of created handles. Stale handles are excluded because they can come back to life (C08).
  Theorems: `Script.C109_opaque`, `Script.C109_same_everywhere`, `Script.C109_as_in_a_new_registry`, `Script.C109_others`.

* **C110 Independent pieces of code can take turns in one registry in any way** (proved; `Props/Interleave`): Induction over the interleaved sequence. The invariant (`Turns`) compares the shared registry with one private registry per script: every script owns its handles, no handle belongs to two scripts, and each script sees the same in both registries. A step of one script is a step of C109 in the shared and in its private registry, and the frame of C109 keeps the views of the others.
  Theorems: `Script.C110_take_turns`, `Script.C110_no_new_faults`, `Script.C110_any_order`.

* **C111 Iteration sees what was there before plus what the code has made** (proved; `Props/ScriptIter`): C30 gives the entities an iteration passes; the live entities after the run are those before it plus the own handles (`run_live`, C109_others), disjointly; own entities correspond to those of the run in a new registry by order of creation (C109), so the multisets of tuples agree.
  Theorems: `Script.C111_iteration`, `Script.C111_emptied`.

* **C112 Entities can be moved from one registry to another** (proved; `Props/Transfer`): `transfer` and `transferAll` (Spec/Transfer.lean) are the client code: `remove_entity`, then `create_entity` with what it returned. One step: `C17` gives the returned values in tuple order; that they have their types and that the component set is one of the program's follows from the storage invariant (`RInv.look_typed`, `RInv.okGroup`); `C75` makes the creation succeed; `C10`, `C03` and `C11` give the new entity and the frame. Many: induction over the list, with frames composed on both sides.
  Theorems: `C112_transfer`, `C112_all`.

* **C113 Destroying many entities, and clearing a registry** (proved; `Props/Clear`): Induction over the list (`destroyAll`, Spec/Clear.lean). One step is `C04`, `C12` and the ledger of the invariant proof: the values stored before are those dropped and those stored afterwards. For clearing, `C09` makes the list free of repetitions and complete; without live entities nothing is stored (`RInv.allItems_spec`) and nothing matches (`seen_eq`).
  Theorems: `C113_destroy_all`, `C113_clear`.

* **C114 A system updates each entity it visits exactly once, and independent systems commute** (proved; `Props/System`): The two client loops are written over the model's iterators, reads and stores (Spec/System). By induction over the rows, each store is shown to act on the abstract contents of one entity and to keep the remaining references valid, so the final contents are the initial ones with the tuple of each visited entity replaced.
  Theorems: `C114_system`, `C114_all`, `C114_commute`.

* **C115 A component can be added to many entities and taken away again** (proved; `Props/Marks`): Both loops are written over the model (Spec/Marks). Induction over the list with the one-call theorems C13, C15 and C75; the condition for an entity depends only on that entity, so it survives the calls for the others. The round trip combines the two loops.
  Theorems: `C115_add`, `C115_remove`, `C115_roundtrip`.

* **C116 Entities can be selected by iteration and destroyed by handle** (proved; `Props/Select`): The selection is characterised with C30 (iteration is complete and duplicate-free) and the alignment of the slices; the destruction with C113. The count follows because the live handles before are a permutation of those after and the selected ones.
  Theorems: `C116_select`, `C116_destroy`.

* **C117 Updating through iterators and through handles is interchangeable** (proved; `Props/ByHandle`): The loop is written over the model (Spec/ByHandle). The stores through a tuple of references are those through one-element slices, so the lemmas of C114 apply; induction over the list gives the abstract contents afterwards, which are compared with those of C114.
  Theorems: `C117_handles`, `C117_interchange`.

* **C118 Queries with some components and without others** (proved; `Props/WithWithout`): `Spec/WithWithout` writes the closure and says what having none of the components means through `has_component`. Acceptance of a descriptor is shown to be membership of the types in the archetype's content, and a row's content is what `has_component` answers. For the split, a system leaves all descriptors, rows and handles as they are (`SameShape`), so the second loop visits exactly the rest of what the single loop visits.
  Theorems: `C118_select`, `C118_system`, `C118_split`.

* **C119 An entity can exchange one component type for another** (proved; `Props/Exchange`): `Spec/Exchange` writes both orders as client code. Each call succeeds by the progress theorem for ordinary programs (C75), its effect is C13 or C15; the component set after the first call is computed from the set before, which gives the conditions of the second call. Both orders end in the state `Exchanged` describes, which determines every answer.
  Theorems: `C119_exchange`, `C119_order`, `C119_only`.

* **C120 Entities can be duplicated** (proved; `Props/Duplicate`): `Spec/Duplicate` writes the loop and `CopyOf`. The tuple that is read is a well-typed argument for `create_entity`, which succeeds by the progress theorem for ordinary programs (C75), has the effect of C10 and leaves all other entities as they are (C11); induction over the list.
  Theorems: `C120_one`, `C120_duplicate`.

* **C121 Loops over iterators can be merged and reordered** (proved; `Props/Loops`): Every loop acts on the contents of the registry as a pointwise map over the entities of its items, and leaves which items there are unchanged (SameShape), so the two runs are compared entity by entity.
  Theorems: `C121_merge`, `C121_idle`, `C121_disjoint_tuples`, `C121_disjoint_filters`.

* **C122 A registry can be rebuilt from what its queries return** (proved; `Props/Rebuild`): Induction on the list with the history of the second registry extended by creations only; the copies are compared by the queries; exact iteration by C104_exact, as no entity of the rebuilt registry was ever moved.
  Theorems: `C122_one`, `C122_copy`, `C122_rebuild`.

* **C123 Loops that carry a state or are left early behave as over a list** (proved; `Props/StateLoop`): The loop is compared with the same body over a list of tuples (scanBody), by induction on the rows; a write to one row changes neither the references nor the tuples of the rows to come.
  Theorems: `C123_loop`.

* **C124 Loops that search again after every change end** (proved; `Props/WorkLoop`): Induction on the number of entities found at the beginning: a round makes the entity found unsuitable and leaves every other entity's queries unchanged, so the next selection is a permutation of the rest.
  Theorems: `C124_destroy`, `C124_remove`, `C124_stuck`.

* **C125 Writes can be undone and redone** (proved; `Props/Journal`): The writes act on the contents of the registry as a pure function (writeMany, by RInv.replaceComponent_spec), whose journal undoes it by induction on the list.
  Theorems: `C125_undo_redo`.

* **C126 Entities made and ended again leave the order of the others alone** (proved; `Props/Temporary`): By induction over the history with the effect of a call on the rows (C95_rows): a row that leaves lies behind the old rows, so the row that fills the gap does too. Iteration by C98.
  Theorems: `C126_prefix`, `C126_order`, `C126_exact`.

* **C127 Entities created one after the other are iterated in that order** (proved; `Props/Spawn`): One creation: C126_exact and the completeness of exact iteration for created entities (C104_exact) leave one new row; its values by C10, the others by C11. Many by induction.
  Theorems: `C127_one`, `C127_spawn`.

* **C128 A component can be handed from one entity to another** (proved; `Props/HandOver`): C15, C13 and C14 with the success conditions of C75; that the component sets on the way back are those at the beginning is shown by comparing their ids.
  Theorems: `C128_give`, `C128_back`, `C128_refused`.

* **C129 What a registry contains can be listed, saved and restored** (proved; `Props/Inventory`): typesOf is evaluated to the filter of the types by has_component; the number of components of an entity is that of the archetype holding its row, by the registry invariant; restoring is C122 applied to the list just computed.
  Theorems: `C129_inventory`, `C129_restore`.

* **C130 Values can be exchanged among entities, and none is lost** (proved; `Props/Rotate`): The loop is shown by induction to act on the map of values as a small list recursion (swapValues), using the specification of a write through get_component_mut; conservation, shift and rotation are proved for that recursion.
  Theorems: `C130_conserved`, `C130_shift`, `C130_rotate`, `C130_exchange`, `C130_absent`, `C130_itself`.

* **C131 A component type can be replaced by another on all entities** (proved; `Props/Migrate`): Induction over the list of entities with the exchange step of C119 and the frame property of add_component and remove_component; the list is the one C116 shows iteration to select.
  Theorems: `C131_convert`, `C131_migrate`, `C131_back`.

* **C132 Handles kept in components lead to the entities they were taken from** (proved; `Props/Links`): The four bytes of a handle determine it (arithmetic on UInt32, both byte orders); chains by induction over their length with C82; ended entities with C05.
  Theorems: `C132_link`, `C132_chase`, `C132_follow`, `C132_dangling`.

* **C133 Loops within loops visit every pair of entities once** (proved; `Props/Pairs`): By C30 a loop visits a list without repetition, the same for every loop over an unchanged registry; the pairs are then counted by induction over lists.
  Theorems: `C133_cross`, `C133_half`.

* **C134 Totals over a query depend on the entities alone and can be kept up to date** (proved; `Props/Aggregate`): `total` folds a step function over what the iterator model visits. C30 turns this into a fold over a duplicate-free list of the matching entities; two such lists are permutations of each other, and folds with a commuting step are invariant under permutations. The list is split into the entity concerned and the others, whose tuples agree by the frame theorems (C11, C86).
  Theorems: `C134_change`, `C134_same`, `C134_call`, `C134_create`.

## Defects of the code found on the way

* C08: slots freed after the table was full are not used again; the limit check counts slots, not entities.
* C18, C36: the safe `remove_entity` reads columns by position for any group: type confusion, leaks.
* C20, C46: groups with a repeated type are accepted by queries and iterators.
* C24, C16: archetype ids are hashes; the hash can be the reserved value, and it differs between `create_entity` and
  `add_component`/`remove_component` (C34).
* C25, C26: off-by-one at 13 and 14 components.
* C29: component sets with the same 32-bit hash share storage.
* C37: an archetype with 2^23 rows cannot grow.
* C42: `as_unsorted` applies the wrong mapping.
* C50, C51: zero-sized allocations; reallocation of a null pointer.
* C61: an allocation failure while an archetype grows leaves a handle without a row, null columns, and a registry whose
  drop is undefined behaviour.
* C62: the same failure in `add_component` or `remove_component` leaves the handle with another entity's row.
* C58: a panicking destructor leaves a dropped row in the table.
* C70: a panicking destructor while a registry is dropped leaks the rest of its archetype.
* C59: 16-bit name hashes as type ids; the derive macro ignores generic arguments and paths.
* C60: sizes and alignments are truncated to 16 bits.
* C64: the range check of `find_or_create_archetype_adding_component` and `..._removing_component` is off by one.
* C68, C69: safe functions of the public `Archetype` and `ArchetypeRegistry` have undefined behaviour for descriptors that
  safe code can build and for archetypes without memory.
* C72: on 32-bit targets `size * capacity` can exceed the address space: in release builds the safe `with_capacity` then
  allocates columns that are too short, and growing passes sizes beyond `isize::MAX` to `realloc`. C84: that happens to a
  program that only uses `create_entity`, at the 32,769th entity with a component of 32 KiB.
* C73: `ArchetypeDescriptor::new` accepts lengths above 14 and duplicate components; `is_valid` is true for the result.
* C77: the examples give `Rotation` the `NAME` `"Position"`; their calls that use both types fail, unnoticed.
* C81: `Component` is a safe trait, but a wrong `DESCRIPTOR` (documented as not to be overridden) makes `add_component` write
  out of bounds.
