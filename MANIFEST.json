{
 "claims": [
  {
   "property": "C01",
   "status": "proved",
   "theorems": [
    "Shard.C01_handle_packing"
   ],
   "note": ""
  },
  {
   "property": "C02",
   "status": "proved",
   "theorems": [
    "Shard.C02_entry_fields"
   ],
   "note": ""
  },
  {
   "property": "C03",
   "status": "proved",
   "theorems": [
    "Shard.C03_created_handle_fresh"
   ],
   "note": ""
  },
  {
   "property": "C04",
   "status": "proved",
   "theorems": [
    "Shard.C04_destroyed_dead"
   ],
   "note": ""
  },
  {
   "property": "C05",
   "status": "proved",
   "theorems": [
    "Shard.C05_stale_handles"
   ],
   "note": ""
  },
  {
   "property": "C06",
   "status": "proved",
   "theorems": [
    "Shard.C06_invalid_never_live"
   ],
   "note": ""
  },
  {
   "property": "C07",
   "status": "proved",
   "theorems": [
    "Shard.C07_slot_recycling"
   ],
   "note": ""
  },
  {
   "property": "C08",
   "status": "partial",
   "theorems": [
    "Shard.C08_entity_limit_partial",
    "Shard.C08_violated"
   ],
   "note": "False of the code (C08_violated): once 16,777,215 entities were live at the same time, no entity can be created any more. The partial theorem gives the exact condition."
  },
  {
   "property": "C09",
   "status": "proved",
   "theorems": [
    "Shard.C09_entity_iteration",
    "Shard.C09_entity_next"
   ],
   "note": ""
  },
  {
   "property": "C10",
   "status": "proved",
   "theorems": [
    "Shard.C10_create_then_read"
   ],
   "note": ""
  },
  {
   "property": "C100",
   "status": "partial",
   "theorems": [
    "Shard.C100_violated",
    "Shard.C100_witness_lost",
    "Shard.C100_witness_doubleDrop",
    "Shard.C100_witness_panic",
    "Shard.C100_witness_twice",
    "Shard.C100_add_partial",
    "Shard.C100_remove_partial",
    "Shard.C100_lost_partial"
   ],
   "note": "Violated. The partial theorems say exactly what happens; missing is only the intended claim itself for colliding sets, which is false."
  },
  {
   "property": "C101",
   "status": "proved",
   "theorems": [
    "Shard.C101_creations",
    "Shard.C101_moves",
    "Shard.C101_names",
    "Shard.C101_types"
   ],
   "note": "A limitation of the design rather than of one function: it shows that the assumption World.noClash on the component sets in use cannot hold for all sets of a program with 37 types."
  },
  {
   "property": "C102",
   "status": "proved",
   "theorems": [
    "Shard.C102_one_place",
    "Shard.C102_groups",
    "Shard.C102_compute",
    "Shard.C102_programs"
   ],
   "note": "The converse side of C29, C99 and C101: sets that differ in two places can collide. An id computed by create_entity may still equal one computed by add_component for another set."
  },
  {
   "property": "C103",
   "status": "proved",
   "theorems": [
    "Shard.C103_pairs",
    "Shard.C103_moved",
    "Shard.C103_create",
    "Shard.C103_at_most_one",
    "Shard.C103_add",
    "Shard.C103_remove"
   ],
   "note": "Completes C24 for pairs: the exact list of refused pairs."
  },
  {
   "property": "C104",
   "status": "proved",
   "theorems": [
    "Shard.C104_ids",
    "Shard.C104_lone",
    "Shard.C104_lone_witness",
    "Shard.C104_apart",
    "Shard.C104_later",
    "Shard.C104_round_trip",
    "Shard.C104_exact"
   ],
   "note": "Settles the case left open in C34: the two ids of a set are never equal."
  },
  {
   "property": "C105",
   "status": "proved",
   "theorems": [
    "Shard.C105_keys",
    "Shard.C105_own",
    "Shard.C105_once",
    "Shard.C105_source",
    "Shard.C105_stays",
    "Shard.C105_served",
    "Shard.C105_quiet",
    "Shard.C105_exact"
   ],
   "note": "A refused create_entity can leave a new empty archetype behind (when the entity table is full); C105_keys counts it."
  },
  {
   "property": "C106",
   "status": "proved",
   "theorems": [
    "Shard.Flat.C106_address",
    "Shard.Flat.C106_requests",
    "Shard.Flat.C106_run"
   ],
   "note": "`OneMore` says that a program and one more call succeed in both models; by C97 they do so together. `addressOf` is the pointer returned by `get_component_mut`. A successful `realloc` counts as a new block even if the allocator leaves it in place. The memory of the `Vec`s in the registries is not part of this model."
  },
  {
   "property": "C107",
   "status": "proved",
   "theorems": [
    "Shard.Flat.C107_requests",
    "Shard.Flat.C107_bound",
    "Shard.Flat.C107_blocks"
   ],
   "note": "Counts the arrays of the archetypes; the `Vec`s inside the registries grow by themselves and are not in this memory. A program that runs into a null pointer stops with an assertion (C97) and is not counted here."
  },
  {
   "property": "C108",
   "status": "proved",
   "theorems": [
    "Shard.Flat.C108_address_rows",
    "Shard.Flat.C108_all_freed"
   ],
   "note": "The contracts are those of C71. Examples run the history of C71 on addresses, with a refusing allocator, and outside the contract (dropping a row that was never written)."
  },
  {
   "property": "C109",
   "status": "proved",
   "theorems": [
    "Shard.Script.C109_opaque",
    "Shard.Script.C109_same_everywhere",
    "Shard.Script.C109_as_in_a_new_registry",
    "Shard.Script.C109_others"
   ],
   "note": "Far from the limits: fewer than 65,534 shape-changing calls or fewer than 32,767 component sets, and fewer than 8,388,608 live entities, counting the calls of the script. Calls satisfy Call.Disciplined (C18 for remove_entity)."
  },
  {
   "property": "C11",
   "status": "proved",
   "theorems": [
    "Shard.C11_create_frame"
   ],
   "note": ""
  },
  {
   "property": "C110",
   "status": "proved",
   "theorems": [
    "Shard.Script.C110_take_turns",
    "Shard.Script.C110_no_new_faults",
    "Shard.Script.C110_any_order"
   ],
   "note": "Scripts, limits and discipline as in C109. The turns are whole calls (`&mut self` excludes overlapping ones)."
  },
  {
   "property": "C111",
   "status": "proved",
   "theorems": [
    "Shard.Script.C111_iteration",
    "Shard.Script.C111_emptied"
   ],
   "note": "Scripts, limits and discipline as in C109; the order of the tuples is C95 and C98."
  },
  {
   "property": "C112",
   "status": "proved",
   "theorems": [
    "Shard.C112_transfer",
    "Shard.C112_all"
   ],
   "note": ""
  },
  {
   "property": "C113",
   "status": "proved",
   "theorems": [
    "Shard.C113_destroy_all",
    "Shard.C113_clear"
   ],
   "note": ""
  },
  {
   "property": "C114",
   "status": "proved",
   "theorems": [
    "Shard.C114_system",
    "Shard.C114_all",
    "Shard.C114_commute"
   ],
   "note": "The body of the loop is a pure function of the row; it may not use the registry, which Rust's borrow rules forbid anyway."
  },
  {
   "property": "C115",
   "status": "proved",
   "theorems": [
    "Shard.C115_add",
    "Shard.C115_remove",
    "Shard.C115_roundtrip"
   ],
   "note": "The hypotheses exclude the known faults at 13 and 14 components (C25, C26) and the reserved archetype id (C16)."
  },
  {
   "property": "C116",
   "status": "proved",
   "theorems": [
    "Shard.C116_select",
    "Shard.C116_destroy"
   ],
   "note": ""
  },
  {
   "property": "C117",
   "status": "proved",
   "theorems": [
    "Shard.C117_handles",
    "Shard.C117_interchange"
   ],
   "note": ""
  },
  {
   "property": "C118",
   "status": "proved",
   "theorems": [
    "Shard.C118_select",
    "Shard.C118_system",
    "Shard.C118_split"
   ],
   "note": "Full: any reachable registry; the split for arbitrary closures."
  },
  {
   "property": "C119",
   "status": "proved",
   "theorems": [
    "Shard.C119_exchange",
    "Shard.C119_order",
    "Shard.C119_only"
   ],
   "note": "Full: any history with room for two more calls."
  },
  {
   "property": "C12",
   "status": "proved",
   "theorems": [
    "Shard.C12_destroy_frame"
   ],
   "note": ""
  },
  {
   "property": "C120",
   "status": "proved",
   "theorems": [
    "Shard.C120_one",
    "Shard.C120_duplicate"
   ],
   "note": "Full: any history with room for as many more calls as copies."
  },
  {
   "property": "C121",
   "status": "proved",
   "theorems": [
    "Shard.C121_merge",
    "Shard.C121_idle",
    "Shard.C121_disjoint_tuples",
    "Shard.C121_disjoint_filters"
   ],
   "note": "Results are compared by every per-entity query (liveness, has_component, values). The iterators are the six kinds of MutIter."
  },
  {
   "property": "C122",
   "status": "proved",
   "theorems": [
    "Shard.C122_one",
    "Shard.C122_copy",
    "Shard.C122_rebuild"
   ],
   "note": "Cloning the values is the client's business; in the model a copy of a value is the value. Both registries are used with the same component types (World)."
  },
  {
   "property": "C123",
   "status": "proved",
   "theorems": [
    "Shard.C123_loop"
   ],
   "note": "Generalises C114 (a pure function, no early exit). The list and the tuples are chosen before the body is."
  },
  {
   "property": "C124",
   "status": "proved",
   "theorems": [
    "Shard.C124_destroy",
    "Shard.C124_remove",
    "Shard.C124_stuck"
   ],
   "note": "The loop is modelled with a bound on the rounds; the theorems say for which bounds it has ended and that the result does not depend on the bound. The ordinary-program hypotheses of removal are those of C115."
  },
  {
   "property": "C125",
   "status": "proved",
   "theorems": [
    "Shard.C125_undo_redo"
   ],
   "note": "Results are compared by every per-entity query. Writes through get_components_mut and iterators are equivalent (C117)."
  },
  {
   "property": "C126",
   "status": "proved",
   "theorems": [
    "Shard.C126_prefix",
    "Shard.C126_order",
    "Shard.C126_exact"
   ],
   "note": "C126_prefix is about the rows (the handle slices of the archetypes). The component-only and mutable iterators visit the same archetypes in the same order (C98_order)."
  },
  {
   "property": "C127",
   "status": "proved",
   "theorems": [
    "Shard.C127_one",
    "Shard.C127_spawn"
   ],
   "note": "Away from the limits: Roomy (as C109). addRow appends one value to each column; C127_spawn folds it over the tuples."
  },
  {
   "property": "C128",
   "status": "proved",
   "theorems": [
    "Shard.C128_give",
    "Shard.C128_back",
    "Shard.C128_refused"
   ],
   "note": "Away from the limits: Roomy. The component sets of the two entities and those on the way have at most 12 or 13 members, are sets of the program and do not have the reserved archetype id (CanLose, CanGain, Settled)."
  },
  {
   "property": "C129",
   "status": "proved",
   "theorems": [
    "Shard.C129_inventory",
    "Shard.C129_restore"
   ],
   "note": "The set of component types of the program must be finite and listed without repetition; restoring assumes that the component tuples are ones the program may use (OkGroup, valid descriptor) and that the entity table has room."
  },
  {
   "property": "C13",
   "status": "proved",
   "theorems": [
    "Shard.C13_add_component"
   ],
   "note": ""
  },
  {
   "property": "C130",
   "status": "proved",
   "theorems": [
    "Shard.C130_conserved",
    "Shard.C130_shift",
    "Shard.C130_rotate",
    "Shard.C130_exchange",
    "Shard.C130_absent",
    "Shard.C130_itself"
   ],
   "note": "The value swapped in must be of the component type, as the type system guarantees."
  },
  {
   "property": "C131",
   "status": "proved",
   "theorems": [
    "Shard.C131_convert",
    "Shard.C131_migrate",
    "Shard.C131_back"
   ],
   "note": "Away from the limits: Roomy (as C109), two calls per entity. Convertible says that the component sets passed through have at most 13 components, belong to the program and do not have the reserved archetype id."
  },
  {
   "property": "C132",
   "status": "proved",
   "theorems": [
    "Shard.C132_link",
    "Shard.C132_chase",
    "Shard.C132_follow",
    "Shard.C132_dangling"
   ],
   "note": "Writes through iterators are left out of C132_chase and C132_follow, as in C82; C132_dangling allows them. After 255 further vacations the same handle is handed out again (C05)."
  },
  {
   "property": "C133",
   "status": "proved",
   "theorems": [
    "Shard.C133_cross",
    "Shard.C133_half"
   ],
   "note": "The loops run over the rows of all archetypes one after the other (the slices flattened); skip counts these rows."
  },
  {
   "property": "C134",
   "status": "proved",
   "theorems": [
    "Shard.C134_change",
    "Shard.C134_same",
    "Shard.C134_call",
    "Shard.C134_create"
   ],
   "note": "Step functions are arbitrary total functions with f (f z a v) b w = f (f z b w) a v."
  },
  {
   "property": "C14",
   "status": "proved",
   "theorems": [
    "Shard.C14_add_failure"
   ],
   "note": ""
  },
  {
   "property": "C15",
   "status": "proved",
   "theorems": [
    "Shard.C15_remove_component"
   ],
   "note": ""
  },
  {
   "property": "C16",
   "status": "partial",
   "theorems": [
    "Shard.C16_add_remove_partial",
    "Shard.C16_violated"
   ],
   "note": "False of the code (C16_violated): the archetype id remove_component computes may be the reserved one, or the archetype limit reached. The partial theorem says exactly when the removal succeeds, that it then restores everything, and that it otherwise changes nothing."
  },
  {
   "property": "C17",
   "status": "proved",
   "theorems": [
    "Shard.C17_remove_entity_exact"
   ],
   "note": ""
  },
  {
   "property": "C18",
   "status": "partial",
   "theorems": [
    "Shard.C18_remove_entity_partial",
    "Shard.C18_violated",
    "Shard.C18_witnesses"
   ],
   "note": "The property is false of the code (C18_violated, with concrete witnesses). The partial theorem says exactly what remove_entity does for a group other than the entity's own."
  },
  {
   "property": "C19",
   "status": "proved",
   "theorems": [
    "Shard.C19_multi_reads"
   ],
   "note": ""
  },
  {
   "property": "C20",
   "status": "partial",
   "theorems": [
    "Shard.C20_repeated_types_partial",
    "Shard.C20_violated"
   ],
   "note": "False of the code (C20_violated). The partial theorem gives what happens for groups with repeated types."
  },
  {
   "property": "C21",
   "status": "proved",
   "theorems": [
    "Shard.C21_mutable_access"
   ],
   "note": ""
  },
  {
   "property": "C22",
   "status": "proved",
   "theorems": [
    "Shard.C22_tuple_order"
   ],
   "note": ""
  },
  {
   "property": "C23",
   "status": "proved",
   "theorems": [
    "Shard.C23_duplicate_rejected"
   ],
   "note": ""
  },
  {
   "property": "C24",
   "status": "partial",
   "theorems": [
    "Shard.C24_wellformed_groups_violated",
    "Shard.C24_wellformed_groups_partial"
   ],
   "note": "Property is false: ids {17891, 64606} hash to u32::MAX; proved negation with witness, and that a well-formed group is valid exactly if the reference hash of its sorted ids is not u32::MAX (single components always are)."
  },
  {
   "property": "C25",
   "status": "partial",
   "theorems": [
    "Shard.C25_add_at_limit_partial",
    "Shard.C25_violated"
   ],
   "note": "False of the code (C25_violated): with exactly 13 components add_component always panics. Proved for all other counts."
  },
  {
   "property": "C26",
   "status": "partial",
   "theorems": [
    "Shard.C26_remove_at_limit_partial",
    "Shard.C26_violated"
   ],
   "note": "False of the code (C26_violated): with 14 components remove_component always panics. Proved for all other counts."
  },
  {
   "property": "C27",
   "status": "proved",
   "theorems": [
    "Shard.C27_archetype_limit",
    "Shard.C27_limit_reached"
   ],
   "note": "All reachable registries. C27_limit_reached builds a reachable registry with 65,534 archetypes, so the case of the limit is not vacuous."
  },
  {
   "property": "C28",
   "status": "proved",
   "theorems": [
    "Shard.C28_stable_lookup"
   ],
   "note": "all reachable registries"
  },
  {
   "property": "C29",
   "status": "partial",
   "theorems": [
    "Shard.C29_storage_partial",
    "Shard.C29_violated",
    "Shard.C29_collision",
    "Shard.C29_witness"
   ],
   "note": "False of the code (C29_violated): component sets with colliding 32-bit archetype ids share an archetype. Proved for programs whose component sets do not collide."
  },
  {
   "property": "C30",
   "status": "proved",
   "theorems": [
    "Shard.C30_matching_iteration"
   ],
   "note": ""
  },
  {
   "property": "C31",
   "status": "proved",
   "theorems": [
    "Shard.C31_aligned_slices"
   ],
   "note": ""
  },
  {
   "property": "C32",
   "status": "proved",
   "theorems": [
    "Shard.C32_mutable_iteration"
   ],
   "note": ""
  },
  {
   "property": "C33",
   "status": "proved",
   "theorems": [
    "Shard.C33_filtered_iteration"
   ],
   "note": ""
  },
  {
   "property": "C34",
   "status": "partial",
   "theorems": [
    "Shard.C34_violated",
    "Shard.C34_exact_iteration_partial",
    "Shard.C104_exact"
   ],
   "note": "False of the code (C34_violated): entities that came to have the set by add_component or remove_component are missed. The partial theorems say exactly which entities are found; C104_exact: those whose last structural change was their creation, and no others."
  },
  {
   "property": "C35",
   "status": "proved",
   "theorems": [
    "Shard.C35_ownership"
   ],
   "note": "histories whose remove_entity calls name the entity's own component types (C18)"
  },
  {
   "property": "C36",
   "status": "partial",
   "theorems": [
    "Shard.C36_memory_safety_partial",
    "Shard.C36_histories_partial",
    "Shard.C36_violated"
   ],
   "note": "False for all calls (C36_violated); no fault of kind ub for histories of disciplined calls within the limits."
  },
  {
   "property": "C37",
   "status": "partial",
   "theorems": [
    "Shard.C37_growth_partial",
    "Shard.C37_violated"
   ],
   "note": "False of the code (C37_violated): an archetype with 8,388,608 entities cannot grow and the next creation writes through a null pointer. The partial theorem shows no fault below that number and the exact fault at it."
  },
  {
   "property": "C38",
   "status": "proved",
   "theorems": [
    "Shard.C38_capacity"
   ],
   "note": "all reachable registries"
  },
  {
   "property": "C39",
   "status": "proved",
   "theorems": [
    "Shard.C39_descriptor_set_ops"
   ],
   "note": ""
  },
  {
   "property": "C40",
   "status": "proved",
   "theorems": [
    "Shard.C40_descriptor_add_remove",
    "Shard.C40_hypothesis"
   ],
   "note": ""
  },
  {
   "property": "C41",
   "status": "proved",
   "theorems": [
    "Shard.C41_group_normal_form"
   ],
   "note": ""
  },
  {
   "property": "C42",
   "status": "partial",
   "theorems": [
    "Shard.C42_as_unsorted_violated",
    "Shard.C42_as_unsorted_partial"
   ],
   "note": "Property is false for (B, C, A); negation with witness plus exact characterisation of when it holds."
  },
  {
   "property": "C43",
   "status": "proved",
   "theorems": [
    "Shard.C43_fnv1a"
   ],
   "note": ""
  },
  {
   "property": "C44",
   "status": "proved",
   "theorems": [
    "Shard.C44_disjoint_mut"
   ],
   "note": ""
  },
  {
   "property": "C45",
   "status": "proved",
   "theorems": [
    "Shard.C45_failed_create"
   ],
   "note": ""
  },
  {
   "property": "C46",
   "status": "partial",
   "theorems": [
    "Shard.C46_invalid_groups_partial",
    "Shard.C46_violated"
   ],
   "note": "False of the code (C46_violated). The partial theorem says what the iterators yield for invalid groups."
  },
  {
   "property": "C47",
   "status": "proved",
   "theorems": [
    "Shard.C47_fused"
   ],
   "note": ""
  },
  {
   "property": "C48",
   "status": "proved",
   "theorems": [
    "Shard.C48_single_component_archetypes"
   ],
   "note": ""
  },
  {
   "property": "C49",
   "status": "proved",
   "theorems": [
    "Shard.C49_refinement"
   ],
   "note": "all histories, at every prefix"
  },
  {
   "property": "C50",
   "status": "partial",
   "theorems": [
    "Shard.C50_zero_sized_partial",
    "Shard.C50_zero_sized_fault",
    "Shard.C50_violated"
   ],
   "note": "False of the code when the allocator does not accept zero-sized layouts (C50_violated, C50_zero_sized_fault); holds where it does."
  },
  {
   "property": "C51",
   "status": "partial",
   "theorems": [
    "Shard.C51_no_capacity_partial",
    "Shard.C51_violated"
   ],
   "note": "False of the code (C51_violated). The partial theorem covers archetypes without memory."
  },
  {
   "property": "C52",
   "status": "proved",
   "theorems": [
    "Shard.C52_create_progress"
   ],
   "note": "all reachable registries"
  },
  {
   "property": "C53",
   "status": "proved",
   "theorems": [
    "Shard.C53_add_progress"
   ],
   "note": "all reachable registries"
  },
  {
   "property": "C54",
   "status": "proved",
   "theorems": [
    "Shard.C54_remove_progress"
   ],
   "note": "all reachable registries"
  },
  {
   "property": "C55",
   "status": "proved",
   "theorems": [
    "Shard.C55_destroy_drops"
   ],
   "note": "the components of a panicking Drop implementation are not considered"
  },
  {
   "property": "C56",
   "status": "proved",
   "theorems": [
    "Shard.C56_drop_frees"
   ],
   "note": ""
  },
  {
   "property": "C57",
   "status": "proved",
   "theorems": [
    "Shard.C57_group_ids"
   ],
   "note": "Exact; the hash and the byte strings are restated over natural numbers in Spec/Hash.lean."
  },
  {
   "property": "C58",
   "status": "partial",
   "theorems": [
    "Shard.C58_others_violated",
    "Shard.C58_once_violated",
    "Shard.C58_panicking_destructor_partial"
   ],
   "note": "False: after a caught panic another entity shows the dropped component, and it is dropped again with the registry. The partial theorem states exactly what the registry looks like after unwinding. Destructors are modelled by a predicate telling which values panic."
  },
  {
   "property": "C59",
   "status": "partial",
   "theorems": [
    "Shard.C59_names_violated",
    "Shard.C59_derived_violated",
    "Shard.C59_names_partial",
    "Shard.C59_witnesses"
   ],
   "note": "Violated: ids are 16-bit hashes of the name ('Unit2D'/'Wheel2D' collide) and the derive macro drops generic arguments and module paths (Tag<u32>/Tag<f32>). The partial theorem says exactly when two types are mixed up and what happens then."
  },
  {
   "property": "C60",
   "status": "partial",
   "theorems": [
    "Shard.C60_violated",
    "Shard.C60_oversized_partial"
   ],
   "note": "Violated for sizes or alignments of 65536 and more, which the 'as u16' casts truncate. The partial theorem is an exact characterisation on a new registry: storing and reading back works iff size and alignment are below 65536 (and C50's condition for zero-sized types); otherwise create_entity or get_component has undefined behaviour."
  },
  {
   "property": "C61",
   "status": "partial",
   "theorems": [
    "Shard.C61_drop_violated",
    "Shard.C61_reads_violated",
    "Shard.C61_allocation_failure_partial"
   ],
   "note": "The claim is false: growing a full archetype can leave null columns, an unreachable live handle and a registry whose drop is undefined behaviour. Exact behaviour proved for every pattern of failing allocations; failures of Vec growth (which abort) are outside the model."
  },
  {
   "property": "C62",
   "status": "partial",
   "theorems": [
    "Shard.C62_reads_violated",
    "Shard.C62_drop_violated",
    "Shard.C62_remove_violated",
    "Shard.C62_add_panic_partial",
    "Shard.C62_remove_panic_partial"
   ],
   "note": "The claim is false: when the destination archetype must grow and an allocation fails, the handle of the moved entity is left with the row of another entity, a column of the destination is null, and dropping is undefined behaviour. Exact behaviour proved for every pattern of failing allocations and for the limit panics; failures of Vec growth (which abort) are outside the model."
  },
  {
   "property": "C63",
   "status": "proved",
   "theorems": [
    "Shard.C63_table_refines",
    "Shard.C63_partial_map"
   ],
   "note": "Simulation against an independent reference table, for all sequences of safe calls; entries may be overwritten arbitrarily, including making them invalid."
  },
  {
   "property": "C64",
   "status": "partial",
   "theorems": [
    "Shard.C64_violated",
    "Shard.C64_range_check_partial"
   ],
   "note": "Violated at index = number of archetypes (off-by-one range check); exact behaviour proved for all other out-of-range indices."
  },
  {
   "property": "C65",
   "status": "proved",
   "theorems": [
    "Shard.C65_archetypes_refine",
    "Shard.C65_append_only"
   ],
   "note": "Descriptors are those of groups and components of a World (no hash clash among the sets in use, types with distinct ids)."
  },
  {
   "property": "C66",
   "status": "proved",
   "theorems": [
    "Shard.C66_run",
    "Shard.C66_from",
    "Shard.C66_determined"
   ],
   "note": "filters may look at the public parts of a descriptor only (id, length, components()); remove_entity only for handles that are dead or have exactly the group (C18)"
  },
  {
   "property": "C67",
   "status": "proved",
   "theorems": [
    "Shard.C67_profile"
   ],
   "note": "builds of the same byte order; on another byte order archetype ids and hence the order of iteration differ"
  },
  {
   "property": "C68",
   "status": "partial",
   "theorems": [
    "Shard.C68_violated",
    "Shard.C68_null_entities_violated",
    "Shard.C68_invalid_component_violated",
    "Shard.C68_misaligned_drop_violated",
    "Shard.C68_safe_archetype_partial"
   ],
   "note": "the claim is violated; the partial theorem gives the exact conditions"
  },
  {
   "property": "C69",
   "status": "partial",
   "theorems": [
    "Shard.C69_violated",
    "Shard.C69_unsorted_violated",
    "Shard.C69_safe_registry_partial"
   ],
   "note": "the claim is violated; proved for ascending descriptors of types and replacements with memory. Nothing is assumed about archetype ids."
  },
  {
   "property": "C70",
   "status": "partial",
   "theorems": [
    "Shard.C70_violated",
    "Shard.C70_drop_panics_partial"
   ],
   "note": "The full claim is false and its negation is proved. Partial: exact behaviour; missing are the components after the panicking one in the same archetype and that archetype's memory, which the code leaks."
  },
  {
   "property": "C71",
   "status": "proved",
   "theorems": [
    "Shard.C71_rows_refine"
   ],
   "note": "Cells without a value carry no guarantee. Groups are required to be in a World (ids of the types in use do not collide)."
  },
  {
   "property": "C72",
   "status": "partial",
   "theorems": [
    "Shard.C72_violated",
    "Shard.C72_out_of_bounds_violated",
    "Shard.C72_with_capacity_partial",
    "Shard.C72_growth_partial"
   ],
   "note": "False on 32-bit targets (negation proved). The partial theorems give the exact condition, and show that the rest of the development is adequate for 64-bit targets."
  },
  {
   "property": "C73",
   "status": "partial",
   "theorems": [
    "Shard.C73_violated",
    "Shard.C73_duplicates_violated",
    "Shard.C73_panics_violated",
    "Shard.C73_partial"
   ],
   "note": "The documented meaning of is_valid fails for ArchetypeDescriptor::new (negation proved); it is proved for all descriptors made otherwise."
  },
  {
   "property": "C74",
   "status": "proved",
   "theorems": [
    "Shard.C74_any_descriptor"
   ],
   "note": "Full characterisation."
  },
  {
   "property": "C75",
   "status": "proved",
   "theorems": [
    "Shard.C75_archetype_count",
    "Shard.C75_ordinary_programs"
   ],
   "note": "Histories satisfy the usual admissibility assumptions (World)."
  },
  {
   "property": "C76",
   "status": "proved",
   "theorems": [
    "Shard.C76_random_test",
    "Shard.C76_many_entities",
    "Shard.C76_other_tests"
   ],
   "note": "Assertions about addresses of stack variables in component_group.rs are replaced by assertions about positions. usize has 8 bytes."
  },
  {
   "property": "C77",
   "status": "partial",
   "theorems": [
    "Shard.C77_violated",
    "Shard.C77_examples_partial",
    "Shard.C77_benchmark"
   ],
   "note": "Violated by the examples as shipped (C77_violated); proved: what happens instead, and that the examples work with the name corrected. The benchmark part holds in full. The criterion harness is not modelled."
  },
  {
   "property": "C78",
   "status": "proved",
   "theorems": [
    "Shard.C78_filter_effects",
    "Shard.C78_filter_calls",
    "Shard.C78_invalid_groups",
    "Shard.C78_pure_filters"
   ],
   "note": "The closure cannot change the registry, which is borrowed while the iterator exists; so the registry is the same after a panic."
  },
  {
   "property": "C79",
   "status": "proved",
   "theorems": [
    "Shard.C79_capacity_of_peak"
   ],
   "note": ""
  },
  {
   "property": "C80",
   "status": "proved",
   "theorems": [
    "Shard.C80_byte_order",
    "Shard.C80_order_differs"
   ],
   "note": ""
  },
  {
   "property": "C81",
   "status": "partial",
   "theorems": [
    "Shard.C81_descriptor_partial",
    "Shard.C81_creating_partial",
    "Shard.C81_violated",
    "Shard.C81_program_partial",
    "Shard.C81_later_violated"
   ],
   "note": "False where add_component creates an archetype: a component of 129 bytes that declares size 1 is written beyond the end of its column (C81_violated); and later: a component of 8 bytes that declares 16 is lost when another entity is destroyed (C81_later_violated). Proved: remove_component uses the id of the declared descriptor only, and so does add_component when it refuses or when the archetype exists already (C81_descriptor_partial). Where add_component creates the archetype, the call is undefined behaviour exactly if the declared alignment is no power of two, the declared size is 0 and the allocator rejects empty layouts, the real alignment does not divide the declared one, or 128 declared sizes are less than the real size (C81_creating_partial). With the right size, a stricter alignment and the drop handler of the type or one that does nothing, whole programs behave as with the default descriptor, except that values may leak (C81_program_partial). Missing: nothing for which the claim holds is known to be missing; the exact behaviour of later calls for wrong sizes is not given."
  },
  {
   "property": "C82",
   "status": "proved",
   "theorems": [
    "Shard.C82_last_stored"
   ],
   "note": "Writes through iterators are left out because their result does not tell the entity; C49 and C66 cover them."
  },
  {
   "property": "C83",
   "status": "proved",
   "theorems": [
    "Shard.C83_memory_bound"
   ],
   "note": "Counts the arrays of the archetypes and the entries of the entity table; the vectors inside ArchetypeRegistry (spare capacity chosen by Vec) are not counted. Blocks of component values that own heap memory are the business of C71."
  },
  {
   "property": "C84",
   "status": "partial",
   "theorems": [
    "Shard.C84_narrow_partial",
    "Shard.C84_growth_partial",
    "Shard.C84_violated"
   ],
   "note": "The claim as stated is false (C84_violated); what holds is proved exactly. Allocation failure is the subject of C61; here allocations succeed."
  },
  {
   "property": "C85",
   "status": "proved",
   "theorems": [
    "Shard.C85_handles_predicted",
    "Shard.C85_same_handles"
   ],
   "note": "Calls that fail and calls other than creations and endings leave no trace in the pattern."
  },
  {
   "property": "C86",
   "status": "proved",
   "theorems": [
    "Shard.C86_locality",
    "Shard.C86_frame",
    "Shard.C86_order"
   ],
   "note": "create_entity and writes through iterators are not calls about one entity. Outside ordinary programs the limits on archetypes and rows make entities interfere."
  },
  {
   "property": "C87",
   "status": "proved",
   "theorems": [
    "Shard.C87_lengths",
    "Shard.C87_round_trip",
    "Shard.C87_references",
    "Shard.C87_expansion"
   ],
   "note": "For groups with repeated types the functions are not called by the registry (C20, C23)."
  },
  {
   "property": "C88",
   "status": "proved",
   "theorems": [
    "Shard.C88_names",
    "Shard.C88_renaming_exists",
    "Shard.C88_drop_order_differs",
    "Shard.C88_iteration_order_differs"
   ],
   "note": "Generalises C80, which has the same ids on both machines and there also the same order of dropping."
  },
  {
   "property": "C89",
   "status": "proved",
   "theorems": [
    "Shard.C89_slices",
    "Shard.C89_tuple",
    "Shard.C89_exclusive_needed"
   ],
   "note": "The borrow checker's guarantee is the hypothesis Borrowed. Weak memory orderings are outside the model; without data races they make no difference."
  },
  {
   "property": "C90",
   "status": "proved",
   "theorems": [
    "Shard.Borrow.C90_iterators",
    "Shard.Borrow.C90_exact",
    "Shard.Borrow.C90_entity_exact",
    "Shard.Borrow.C90_components",
    "Shard.Borrow.C90_archetype_not_kept"
   ],
   "note": "Protectors are not modelled (nothing live is removed, so they are never violated) and an Archetype is a single location; the hypothesis Ready says that the caller's &mut Registry and the allocator's pointers may be used when the call is made."
  },
  {
   "property": "C91",
   "status": "proved",
   "theorems": [
    "Shard.Borrow.C91_shared",
    "Shard.Borrow.C91_results",
    "Shard.Borrow.C91_sessions"
   ],
   "note": "As C90 for what is modelled. Between the sessions the registry does not change its shape; C92 has programs that also make calls. Fresh says that the counter for tags is ahead of all tags in use."
  },
  {
   "property": "C92",
   "status": "proved",
   "theorems": [
    "Shard.Borrow.C92_call",
    "Shard.Borrow.C92_programs",
    "Shard.Borrow.C92_initial"
   ],
   "note": "As C90 for what is modelled. The entity registry (safe code) and the components passed to and from a call are left out. A call that panics (C50) is not followed up to the panic. Allocation failure is not considered here."
  },
  {
   "property": "C93",
   "status": "partial",
   "theorems": [
    "Shard.HandleSlices.C93_partial",
    "Shard.HandleSlices.C93_between",
    "Shard.HandleSlices.C93_violated"
   ],
   "note": "False as stated: C93_violated shows that the first entity of every archetype (create_entity, add_component, remove_component) is stored through a &mut slice that contains an uninitialised handle. C93_partial: nothing else is ever uninitialised, and C93_between: no slice handed out is."
  },
  {
   "property": "C94",
   "status": "partial",
   "theorems": [
    "Shard.Reserved.C94_index_types",
    "Shard.Reserved.C94_identifiers",
    "Shard.Reserved.C94_partial",
    "Shard.Reserved.C94_violated"
   ],
   "note": "The documented reserved values are not those of the code (C94_violated); with the values of the code (2^24 - 1, u32::MAX) the claim holds except that new_unchecked gets the reserved index when every slot is occupied (C94_partial). Missing: nothing else."
  },
  {
   "property": "C95",
   "status": "proved",
   "theorems": [
    "Shard.RowOrder.C95_agree",
    "Shard.RowOrder.C95_rows",
    "Shard.RowOrder.C95_others",
    "Shard.RowOrder.C95_one",
    "Shard.RowOrder.C95_prefix"
   ],
   "note": "All in full. Calls are the admissible ones (component types with distinct ids, no archetype id clash; see C18, C20, C24 for what happens otherwise)."
  },
  {
   "property": "C96",
   "status": "partial",
   "theorems": [
    "Shard.UnsafeCalls.C96_partial",
    "Shard.UnsafeCalls.C96_plain",
    "Shard.UnsafeCalls.C96_destroy",
    "Shard.UnsafeCalls.C96_remove",
    "Shard.UnsafeCalls.C96_get",
    "Shard.UnsafeCalls.C96_create",
    "Shard.UnsafeCalls.C96_add",
    "Shard.UnsafeCalls.C96_remove_component",
    "Shard.UnsafeCalls.C96_results",
    "Shard.UnsafeCalls.C96_violated"
   ],
   "note": "The claim without exceptions is false (`C96_violated`); the exceptions are exact for every function. Functions without a stated condition are not recorded."
  },
  {
   "property": "C97",
   "status": "proved",
   "theorems": [
    "Shard.Flat.C97_address_programs",
    "Shard.Flat.C97_address_no_ub"
   ],
   "note": "The `Vec`s of the two registries and the stack belong to other allocations and are not placed in this memory. The allocator's guarantees (aligned, in the address space, disjoint) are hypotheses; an example shows that a program goes wrong without them."
  },
  {
   "property": "C98",
   "status": "proved",
   "theorems": [
    "Shard.C98_order",
    "Shard.C98_plain",
    "Shard.C98_unique",
    "Shard.C98_stable",
    "Shard.C98_history_free"
   ],
   "note": "The exact iterators visit one archetype; the order of its rows is C95."
  },
  {
   "property": "C99",
   "status": "partial",
   "theorems": [
    "Shard.C99_violated",
    "Shard.C99_witness_harm",
    "Shard.C99_witness_bounds",
    "Shard.C99_create_partial",
    "Shard.C99_after_partial",
    "Shard.C99_harm_partial"
   ],
   "note": "Violated. The partial theorems give the exact conditions and effects; missing is only the intended absence of harm."
  }
 ]
}