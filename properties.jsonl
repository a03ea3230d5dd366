{"id": "C01", "title": "Entity handle packing round-trips", "statement": "For every index below 2^24 and every version, Entity::new_unchecked(index, version) reports exactly that index() and version(); raw()/from_raw round-trip; set_version changes only version() and set_index changes only index(); two handles are equal iff index and version are equal.", "quantifier": "all 2^24 indices, all 256 versions, all 2^32 raw handles", "why_tests_cant": "2^32 handles and every pair of setter calls; tests try a handful of literals", "anchors": ["src/entity_registry/entity.rs:Entity::new_unchecked", "src/entity_registry/entity.rs:Entity::index", "src/entity_registry/entity.rs:Entity::version", "src/entity_registry/entity.rs:Entity::set_index", "src/entity_registry/entity.rs:Entity::set_version"]}
{"id": "C02", "title": "Entity entry fields are independent", "statement": "In the 6-byte entity entry, writing version, index-in-archetype (<2^24) or archetype index makes the matching getter return the written value and leaves the other two getters unchanged, and an entry counts as valid exactly if its archetype index is not 65535, on little- and big-endian targets.", "quantifier": "all entries, all field values, both byte orders", "why_tests_cant": "the unit test loops over ten values per field on one byte order", "anchors": ["src/entity_registry/entry.rs:EntityEntry", "src/entity_registry/index_in_archetype.rs:IndexInArchetype::from_bytes"]}
{"id": "C03", "title": "A created entity gets a fresh handle", "statement": "When create_entity returns Ok(e), e was not a live handle before the call, it is live after it, it is not Entity::INVALID, and every handle that was live before is still live and is different from e.", "quantifier": "every reachable registry and every component group", "why_tests_cant": "slot recycling depends on the whole create/destroy history", "anchors": ["src/registry/registry.rs:Registry::create_entity", "src/entity_registry/mod.rs:EntityRegistry::create_entity"]}
{"id": "C04", "title": "Destroyed handles are dead", "statement": "After destroy_entity(e) returns true, e is not live: has_component(s) is false, get_component(s)(_mut) is None, add_component returns Err(component), remove_component is Err, remove_entity is None and destroy_entity is false, and none of these calls changes the registry.", "quantifier": "every reachable registry, every live e, every component type or group", "why_tests_cant": "needs every history that can lead to the destroy", "anchors": ["src/registry/registry.rs:Registry::destroy_entity", "src/entity_registry/mod.rs:EntityRegistry::entity_entry"]}
{"id": "C05", "title": "Stale handles stay dead for 255 further recyclings", "statement": "After a handle is destroyed it is not live again until its slot has been vacated 256 times in total (the destruction itself included); until then, whatever operations run, the stale handle never becomes live. After exactly 256 vacations, the next creation that reuses the slot hands out the same handle value again.", "quantifier": "every operation history after the destruction", "why_tests_cant": "the counter wraps only after 256 reuses of one slot, under arbitrary interleaved operations", "anchors": ["src/entity_registry/mod.rs:EntityRegistry::destroy_entity", "src/entity_registry/entity.rs:Entity::version"]}
{"id": "C06", "title": "The invalid entity is never live", "statement": "Entity::INVALID (also Entity::default()) is never handed out by create_entity and every registry operation on it fails without changing anything.", "quantifier": "every reachable registry", "why_tests_cant": "must hold for all histories, up to the slot-count limit", "anchors": ["src/entity_registry/entity.rs:Entity::INVALID", "src/entity_registry/mod.rs:EntityRegistry::create_entity"]}
{"id": "C07", "title": "Free slots are recycled before the table grows", "statement": "The free list visits every dead slot exactly once and no live one; a creation takes a new slot only when no dead slot exists, and reuses the most recently vacated slot first. Hence the number of slots never exceeds the largest number of simultaneously live entities in the history.", "quantifier": "every create/destroy history", "why_tests_cant": "a lost or duplicated free-list node shows up only for particular histories", "anchors": ["src/entity_registry/mod.rs:EntityRegistry::create_entity", "src/entity_registry/mod.rs:EntityRegistry::destroy_entity"]}
{"id": "C08", "title": "Entity limit applies to live entities", "statement": "As long as fewer than 16,777,215 entities are live, the entity limit does not make create_entity fail: destroying an entity makes room for a new one.", "quantifier": "every reachable entity registry", "why_tests_cant": "needs 16.7 million slots", "anchors": ["src/entity_registry/mod.rs:EntityRegistry::can_register_new_entity", "src/entity_registry/mod.rs:EntityRegistry::create_entity"]}
{"id": "C09", "title": "Entity iteration is exact", "statement": "iter_entities yields every live handle exactly once, in increasing slot order, and nothing else; after returning None it keeps returning None.", "quantifier": "every reachable registry", "why_tests_cant": "must hold for all patterns of live and dead slots", "anchors": ["src/entity_registry/iterator.rs:EntityIter::next", "src/registry/registry.rs:Registry::iter_entities"]}
{"id": "C10", "title": "Create then read", "statement": "After create_entity(components) returns Ok(e), get_component::<C>(e) is exactly the supplied value for every C in the group, None for every other C; has_component::<C>(e) is true exactly for the group's types.", "quantifier": "every reachable registry, every valid group of 1..14 types in any tuple order, all values", "why_tests_cant": "all tuple orders, sizes and archetype states", "anchors": ["src/registry/registry.rs:Registry::create_entity", "src/registry/registry.rs:Registry::get_component", "src/registry/registry.rs:Registry::has_component"]}
{"id": "C11", "title": "Creation does not disturb other entities", "statement": "A create_entity call (successful or not) leaves the component set and every component value of every previously live entity unchanged, including when storage is reallocated.", "quantifier": "every reachable registry, group and value", "why_tests_cant": "reallocation happens at particular sizes only", "anchors": ["src/registry/registry.rs:Registry::create_entity", "src/archetype/data_access.rs:Archetype::resize_capacity"]}
{"id": "C12", "title": "Destruction does not disturb other entities", "statement": "destroy_entity(e) leaves the liveness, component set and every component value of every other entity unchanged, although storage is compacted by moving another entity's row.", "quantifier": "every reachable registry, every handle", "why_tests_cant": "the moved row depends on the history", "anchors": ["src/registry/registry.rs:Registry::destroy_entity", "src/archetype/data_access.rs:Archetype::swap_drop_unchecked"]}
{"id": "C13", "title": "add_component semantics", "statement": "When add_component(e, c) returns Ok, e keeps its handle, has all its previous components with unchanged values plus c with the given value, and every other entity is unchanged.", "quantifier": "every reachable registry, live e, component type and value", "why_tests_cant": "archetype moves over all component sets and row positions", "anchors": ["src/registry/registry.rs:Registry::add_component", "src/archetype/data_access.rs:Archetype::copy_common_components_between_archetypes_unchecked"]}
{"id": "C14", "title": "add_component failure is clean", "statement": "add_component(e, c) returns Err with exactly the given component, and the observable state is unchanged, when e is not live or already has a component of that type.", "quantifier": "every reachable registry, every handle, component type and value", "why_tests_cant": "all failure states", "anchors": ["src/registry/registry.rs:Registry::add_component", "src/descriptors/archetype_descriptor.rs:ArchetypeDescriptor::add_component"]}
{"id": "C15", "title": "remove_component semantics", "statement": "When remove_component::<C>(e) returns Ok(v), v is the value get_component::<C>(e) showed before, e keeps its handle and all its other components with unchanged values and no longer has C, and every other entity is unchanged. It returns Err without observable change if e is not live, lacks C, or C is its only component.", "quantifier": "every reachable registry, every handle and component type", "why_tests_cant": "archetype moves over all component sets and row positions", "anchors": ["src/registry/registry.rs:Registry::remove_component"]}
{"id": "C16", "title": "add then remove is the identity", "statement": "If add_component(e, c) returns Ok then an immediate remove_component of that type returns exactly c and every entity's components are what they were before both calls.", "quantifier": "every reachable registry, live e, component and value", "why_tests_cant": "composition over all states", "anchors": ["src/registry/registry.rs:Registry::add_component", "src/registry/registry.rs:Registry::remove_component"]}
{"id": "C17", "title": "remove_entity with the exact group", "statement": "If e's component set is exactly the group G, remove_entity::<G>(e) returns Some of e's component values in G's tuple order, e is dead afterwards and all other entities are unchanged.", "quantifier": "every reachable registry, live e, every tuple order of its component set", "why_tests_cant": "row compaction and tuple permutation over all states", "anchors": ["src/registry/registry.rs:Registry::remove_entity", "src/archetype/data_access.rs:Archetype::swap_remove_unchecked", "src/descriptors/component_group.rs:read_from_sorted_pointers"]}
{"id": "C18", "title": "remove_entity with a non-matching group", "statement": "If e's component set is not exactly G, remove_entity::<G>(e) returns None and leaves the entity as is.", "quantifier": "every reachable registry, every live e, every G different from its component set", "why_tests_cant": "unsafe reads through mismatched groups are undefined behaviour, a test cannot observe all of them", "anchors": ["src/registry/registry.rs:Registry::remove_entity"]}
{"id": "C19", "title": "Multi-component reads agree with single reads", "statement": "For a valid group G, has_components::<G>(e) is true iff has_component::<C>(e) for every C in G, and get_components::<G>(e) is Some exactly then, with the i-th element equal to get_component of G's i-th type.", "quantifier": "every reachable registry, every handle, every valid group in any tuple order", "why_tests_cant": "all subset/superset relations and orders", "anchors": ["src/registry/registry.rs:Registry::has_components", "src/registry/registry.rs:Registry::get_components", "src/archetype/data_access.rs:get_fuzzy_pointers_unchecked"]}
{"id": "C20", "title": "Queries with a repeated component type", "statement": "For a group that names a component type twice, has_components and get_components(_mut) never claim components the entity lacks: has_components::<(C, C)>(e) is false when e lacks C.", "quantifier": "every reachable registry, every handle, every group with duplicates", "why_tests_cant": "the invalid-group path is not tested", "anchors": ["src/registry/registry.rs:Registry::has_components", "src/descriptors/archetype_descriptor.rs:ArchetypeDescriptor::contains_subset", "src/descriptors/component_group_descriptor.rs:ComponentGroupDescriptor::INVALID"]}
{"id": "C21", "title": "Mutable access changes exactly one component", "statement": "Writing through get_component_mut::<C>(e) changes what get_component::<C>(e) returns to the written value and changes nothing else; the mutable references returned by get_components_mut::<G>(e) refer to pairwise different storage.", "quantifier": "every reachable registry, handle, type and value", "why_tests_cant": "aliasing over all layouts", "anchors": ["src/registry/registry.rs:Registry::get_component_mut", "src/registry/registry.rs:Registry::get_components_mut"]}
{"id": "C22", "title": "Tuple order is irrelevant", "statement": "Creating an entity from a tuple in any order stores the same data: two groups that are permutations of each other have the same archetype, and create_entity with either gives registries that answer every query identically.", "quantifier": "all permutations of all valid groups, every reachable registry", "why_tests_cant": "14! orders", "anchors": ["src/descriptors/component_group_descriptor.rs:ComponentGroupDescriptor::new", "src/descriptors/component_group.rs:as_sorted_pointers"]}
{"id": "C23", "title": "Invalid groups are rejected", "statement": "create_entity with a group that contains the same component type twice returns Err with exactly the given components and does not change the registry.", "quantifier": "every registry, every group with a duplicate", "why_tests_cant": "all positions of the duplicate", "anchors": ["src/registry/registry.rs:Registry::create_entity", "src/descriptors/component_group_descriptor.rs:validate_component_descriptors"]}
{"id": "C24", "title": "Well-formed groups are accepted", "statement": "Every group of 1 to 14 pairwise different component types is a valid group: create_entity does not reject it as invalid.", "quantifier": "all sets of component type ids", "why_tests_cant": "the id hash takes 2^32 values; tests use a few sets", "anchors": ["src/descriptors/component_group_descriptor.rs:ComponentGroupDescriptor::new", "src/descriptors/archetype_id.rs:ArchetypeId::INVALID"]}
{"id": "C25", "title": "Growing to the component limit", "statement": "An entity with fewer than 14 components can be given another new component: add_component does not panic for any component count, and with 14 components it returns Err.", "quantifier": "every reachable registry, live entity with any number of components", "why_tests_cant": "tests only go to three components", "anchors": ["src/descriptors/archetype_descriptor.rs:ArchetypeDescriptor::add_component", "src/registry/registry.rs:Registry::add_component"]}
{"id": "C26", "title": "Shrinking from the component limit", "statement": "A component can be removed from an entity with any number 2..14 of components: remove_component does not panic.", "quantifier": "every reachable registry, live entity with any number of components", "why_tests_cant": "tests only go to three components", "anchors": ["src/descriptors/archetype_descriptor.rs:ArchetypeDescriptor::remove_component", "src/registry/registry.rs:Registry::remove_component"]}
{"id": "C27", "title": "Archetype limit is graceful", "statement": "A registry never holds more than 65,534 archetypes; when that many exist, an operation that needs a new one fails with the value handed back and no observable change, and operations on existing archetypes keep working; archetype indices never take the reserved value 65,535.", "quantifier": "every reachable registry", "why_tests_cant": "needs 65,534 archetypes", "anchors": ["src/archetype_registry/mod.rs:find_or_create_archetype", "src/constants.rs:MAX_ARCHETYPE_COUNT"]}
{"id": "C28", "title": "Archetype lookup is stable", "statement": "find_or_create with the same descriptor always returns the same archetype index, creating an archetype at most once; an archetype's index, component set and id never change afterwards.", "quantifier": "every reachable registry and later history", "why_tests_cant": "sorted insertion at arbitrary positions over arbitrary histories", "anchors": ["src/archetype_registry/mod.rs:find_or_create_archetype"]}
{"id": "C29", "title": "Different component sets never share storage", "statement": "Two archetypes requested with different component sets are different archetypes, so an entity's data is never stored in or read from an archetype with another component set.", "quantifier": "all pairs of component sets", "why_tests_cant": "depends on 32-bit hash values of all sets", "anchors": ["src/descriptors/archetype_descriptor.rs:compute_archetype_id", "src/archetype_registry/mod.rs:find_or_create_archetype"]}
{"id": "C30", "title": "Matching iteration is complete, sound and duplicate-free", "statement": "iter_entity_components_matching::<G>, for valid G, yields exactly the live entities that have all of G's components, each exactly once, each with the values get_component returns, in G's tuple order; iter_components_matching yields the same component slices.", "quantifier": "every reachable registry, every valid G", "why_tests_cant": "all archetype populations", "anchors": ["src/archetype_registry/iterators/archetype_iter.rs:ArchetypeIter::next", "src/archetype_registry/iterators/matching_iter.rs", "src/registry/registry.rs:iter_entity_components_matching"]}
{"id": "C31", "title": "Slices are aligned", "statement": "Every item yielded by an entity/component iterator consists of slices of one common length, and position k in every slice belongs to the entity at position k of the entity slice.", "quantifier": "every reachable registry, every valid G, every yielded item", "why_tests_cant": "all row orders produced by compaction", "anchors": ["src/archetype/data_access.rs:get_entity_fuzzy_slices_unchecked", "src/archetype/data_access.rs:get_fuzzy_slices_unchecked"]}
{"id": "C32", "title": "Mutable iteration never aliases", "statement": "The mutable matching iterators never yield the same archetype twice, and within one item the slices of different components are different storage, so no component is reachable through two live mutable references; writing through them changes exactly the matched components.", "quantifier": "every reachable registry, every valid G", "why_tests_cant": "the code relies on an unsafe alias argument over all registry states", "anchors": ["src/archetype_registry/iterators/archetype_iter_mut.rs:ArchetypeIterMut::next", "src/archetype_registry/iterators/matching_iter_mut.rs"]}
{"id": "C33", "title": "Filtered iteration equals matching plus filter", "statement": "The filtered iterators yield exactly the items of the matching iterator whose archetype descriptor satisfies the closure, in the same order, and the descriptor passed to the closure lists exactly the component types of the entities in the item.", "quantifier": "every reachable registry, every valid G, every pure closure", "why_tests_cant": "all closures", "anchors": ["src/archetype_registry/iterators/filter_archetype_iter.rs", "src/archetype_registry/iterators/filter_matching_iter.rs"]}
{"id": "C34", "title": "Exact iteration is complete", "statement": "iter_entity_components_exact::<G> (and the component-only and mutable variants) yields exactly the live entities whose component set is exactly G, each once with its values, however the entity came to have that set.", "quantifier": "every reachable registry, every valid G", "why_tests_cant": "depends on how each entity reached its component set", "anchors": ["src/registry/registry.rs:iter_components_exact", "src/archetype_registry/mod.rs:find_archetype", "src/descriptors/archetype_descriptor.rs:compute_archetype_id", "src/descriptors/component_group_descriptor.rs:ComponentGroupDescriptor::new"]}
{"id": "C35", "title": "Ownership is conserved", "statement": "Every component value moved into the registry is, at any later time, exactly one of: still stored, handed back to the caller, or dropped \u2014 never lost, duplicated or dropped twice; dropping the registry drops each remaining value exactly once.", "quantifier": "every operation history, at every point of it", "why_tests_cant": "double drops and leaks depend on the history", "anchors": ["src/registry/registry.rs:Registry", "src/archetype/data_access.rs:drop_entity", "src/archetype/mod.rs:Archetype::drop"]}
{"id": "C36", "title": "Memory safety of the storage layer", "statement": "No history of registry operations reads or writes outside an allocation, through a null pointer, reads uninitialised memory, interprets a value as another type, calls the allocator with a layout different from the allocated one, or hits an internal unwrap, unreachable or index panic.", "quantifier": "every operation history within the documented limits", "why_tests_cant": "undefined behaviour is not observable by tests in general", "anchors": ["src/archetype/data_access.rs:Archetype", "src/registry/registry.rs:Registry"]}
{"id": "C37", "title": "Archetype growth to the entity limit", "statement": "An archetype can grow to the documented maximum of 16,777,215 entities: creating an entity in an archetype that holds fewer than that never corrupts memory.", "quantifier": "every archetype population up to the limit", "why_tests_cant": "needs more than 8 million entities in one archetype", "anchors": ["src/archetype/data_access.rs:resize_capacity", "src/archetype/data_access.rs:resize_if_necessary", "src/constants.rs:MAX_ENTITIES_PER_ARCHETYPE"]}
{"id": "C38", "title": "Capacity doubling", "statement": "An archetype's capacity is always 128 times a power of two, never below its length, and grows only when a push finds it full, to exactly twice the old capacity; stored values survive growth unchanged.", "quantifier": "every reachable registry within the growth limit", "why_tests_cant": "every growth boundary", "anchors": ["src/archetype/data_access.rs:resize_if_necessary", "src/archetype/data_access.rs:resize_capacity", "src/archetype/mod.rs:with_capacity"]}
{"id": "C39", "title": "Descriptor set operations are set operations", "statement": "On archetype descriptors of valid groups, contains_subset is set inclusion, excludes_subset is disjointness, has_component is membership; all are independent of tuple order.", "quantifier": "all pairs of valid descriptors", "why_tests_cant": "all pairs of component sets", "anchors": ["src/descriptors/archetype_descriptor.rs:contains_subset", "src/descriptors/archetype_descriptor.rs:excludes_subset", "src/descriptors/archetype_descriptor.rs:has_component"]}
{"id": "C40", "title": "Descriptor add and remove", "statement": "add_component on a descriptor with fewer than 13 components that lacks C yields the sorted descriptor of the set plus C; on one that has C it yields None; remove_component on a descriptor with 2..13 components that has C yields the sorted descriptor of the set minus C; removing what was added restores the component list.", "quantifier": "all valid descriptors with up to 13 components and all component types", "why_tests_cant": "all sets and insertion positions", "anchors": ["src/descriptors/archetype_descriptor.rs:add_component", "src/descriptors/archetype_descriptor.rs:remove_component"]}
{"id": "C41", "title": "Group descriptor normal form", "statement": "For every group of 1..14 different component types, the group descriptor (when its id is valid) lists exactly the group's types in strictly increasing id order, and unsorted_to_sorted and sorted_to_unsorted are mutually inverse permutations relating tuple positions to sorted positions.", "quantifier": "all groups of 1..14 different types in every order", "why_tests_cant": "14! orders times all id choices", "anchors": ["src/descriptors/component_group_descriptor.rs:compute_sorted_descriptors", "src/descriptors/component_group_descriptor.rs:compute_sort_mappings"]}
{"id": "C42", "title": "Descriptor at a tuple position", "statement": "ComponentGroupDescriptor::as_unsorted(i) returns the descriptor of the component at position i of the tuple (or at sorted position i): the accessor is consistent with the group's order.", "quantifier": "all valid groups and positions", "why_tests_cant": "unused by tests", "anchors": ["src/descriptors/component_group_descriptor.rs:as_unsorted"]}
{"id": "C43", "title": "FNV-1a hash functions", "statement": "fnv1a_hash_32/64 compute the reference FNV-1a hash of the first limit bytes (whole slice when limit is None, zero or too long); the 16-bit variant is the xor of the upper and lower half of the 32-bit hash and does not depend on the platform's byte order, so default component ids are platform independent.", "quantifier": "all byte strings, all limits, both byte orders", "why_tests_cant": "all inputs", "anchors": ["src/fnv1a.rs:fnv1a_hash_32", "src/fnv1a.rs:fnv1a_hash_64", "src/fnv1a.rs:fnv1a_hash_16_xor", "src/descriptors/component.rs:Component::ID"]}
{"id": "C44", "title": "Two-element disjoint borrow", "statement": "The helper that borrows two archetypes mutably returns exactly the elements at the two given positions, in the given order, and returns None iff the positions are equal or one is out of range.", "quantifier": "all slices and index pairs", "why_tests_cant": "all index pairs", "anchors": ["src/archetype_registry/mod.rs:disjoint_mut"]}
{"id": "C45", "title": "Failed creation is clean", "statement": "When create_entity returns Err, the returned components are exactly those passed in, no entity was created, and every query about every entity gives the same answer as before.", "quantifier": "every reachable registry, every group", "why_tests_cant": "limits are out of reach of tests", "anchors": ["src/registry/registry.rs:Registry::create_entity"]}
{"id": "C46", "title": "Queries on invalid groups in iterators", "statement": "Iterating with a group that names a component type twice yields nothing and does not panic.", "quantifier": "every registry, every group with a duplicate, both build profiles", "why_tests_cant": "the unsigned underflow is only visible in debug builds", "anchors": ["src/archetype_registry/iterators/archetype_iter.rs:ArchetypeIter::new"]}
{"id": "C47", "title": "Iterators are fused", "statement": "Once any registry iterator has returned None, every further next() returns None.", "quantifier": "every reachable registry, every valid G, any number of further calls", "why_tests_cant": "unbounded number of calls", "anchors": ["src/archetype_registry/iterators/archetype_iter.rs", "src/entity_registry/iterator.rs"]}
{"id": "C48", "title": "Single-component archetypes never collide", "statement": "Two different component types always get different single-component archetypes from create_entity, and a single-component group is always valid.", "quantifier": "all pairs of the 65,536 component ids", "why_tests_cant": "2^32 pairs", "anchors": ["src/descriptors/archetype_descriptor.rs:compute_archetype_id", "src/fnv1a.rs:fnv1a_hash_32"]}
{"id": "C49", "title": "Registry refines an abstract map", "statement": "Any history of create, destroy, remove_entity, add_component, remove_component and component writes, observed through the query API, behaves like a plain map from live handles to finite maps from component types to values.", "quantifier": "every operation history", "why_tests_cant": "all interleavings of operations", "anchors": ["src/registry/registry.rs:Registry"]}
{"id": "C50", "title": "Zero-sized components are safe", "statement": "Components of size zero can be stored: no operation calls the global allocator with a zero-sized layout.", "quantifier": "every history with zero-sized component types", "why_tests_cant": "the allocator contract violation is silent on common allocators", "anchors": ["src/archetype/mod.rs:with_capacity", "src/archetype/data_access.rs:resize_capacity"]}
{"id": "C51", "title": "An archetype constructed without capacity can grow", "statement": "An Archetype constructed with capacity 0, or above the maximum, does not allocate and can be pushed to afterwards.", "quantifier": "all valid descriptors and capacities", "why_tests_cant": "null reallocation is silent on common allocators", "anchors": ["src/archetype/mod.rs:with_capacity", "src/archetype/data_access.rs:resize_capacity", "src/archetype/data_access.rs:push_entity_unchecked"]}
{"id": "C52", "title": "create_entity succeeds exactly when there is room", "statement": "create_entity with a group of distinct components succeeds exactly if an archetype for the group exists or can still be created and the entity table is not full; in every other case the same components are handed back.", "quantifier": "every reachable registry, every valid component group", "why_tests_cant": "the limits are 65,534 archetypes and 16,777,215 entity slots", "anchors": ["src/registry/registry.rs:create_entity", "src/archetype_registry/mod.rs:find_or_create_archetype"]}
{"id": "C53", "title": "add_component succeeds exactly when there is room", "statement": "Adding a new component to a live entity that has at most 12 components succeeds exactly if an archetype for the extended set exists or can still be created; otherwise the component is handed back and nothing changes.", "quantifier": "every reachable registry, live entity and new component", "why_tests_cant": "the failure needs 65,534 archetypes or a hash value equal to the invalid marker", "anchors": ["src/registry/registry.rs:add_component", "src/archetype_registry/mod.rs:find_or_create_archetype"]}
{"id": "C54", "title": "remove_component succeeds exactly when there is room", "statement": "Removing a component of an entity that has 2 to 13 components succeeds exactly if an archetype for the remaining set exists or can still be created; otherwise nothing changes.", "quantifier": "every reachable registry, live entity and component of it", "why_tests_cant": "the failure needs 65,534 archetypes or a hash value equal to the invalid marker", "anchors": ["src/registry/registry.rs:remove_component", "src/archetype_registry/mod.rs:find_or_create_archetype"]}
{"id": "C55", "title": "Destruction drops exactly the entity's components", "statement": "destroy_entity(e) on a live handle drops exactly the components of e, each exactly once; on any other handle it drops nothing; no other registry call drops a component.", "quantifier": "every reachable registry, every handle, every call", "why_tests_cant": "must hold for every archetype, every row and every history of moves", "anchors": ["src/registry/registry.rs:Registry::destroy_entity", "src/archetype/data_access.rs:swap_drop_unchecked"]}
{"id": "C56", "title": "Dropping the registry frees all storage", "statement": "After a registry has been dropped none of its archetypes still owns a component array or an entity array.", "quantifier": "every reachable registry", "why_tests_cant": "a leak is invisible to ordinary assertions and depends on the history of growth", "anchors": ["src/archetype/mod.rs:Drop for Archetype", "src/archetype/data_access.rs:dealloc"]}
{"id": "C57", "title": "Group validity and archetype ids, exactly", "statement": "A component group is valid exactly if it names 1 to 14 different components and the FNV-1a hash of its ids (ascending, native byte order, filled up to 14 ids with the invalid id) is not u32::MAX; a valid group's descriptor lists the ids in ascending order and carries that hash, an invalid group's descriptor carries the invalid archetype id.", "quantifier": "every group, every byte order", "why_tests_cant": "2^16 choose up to 14 component sets; the platform byte order changes every id", "anchors": ["src/descriptors/component_group_descriptor.rs", "src/descriptors/archetype_descriptor.rs", "src/fnv1a.rs"]}
{"id": "C58", "title": "A panicking destructor leaves a consistent registry", "statement": "If the destructor of a component panics inside destroy_entity and the caller catches the panic, every other entity keeps its components, and no component is dropped a second time when the registry is dropped.", "quantifier": "every reachable registry, every entity, every set of values whose destructor panics", "why_tests_cant": "needs panics injected at every column of every row; the double drop is silent for most types", "anchors": ["src/registry/registry.rs:Registry::destroy_entity", "src/archetype/data_access.rs:swap_drop_unchecked", "src/archetype/data_access.rs:drop_entity"]}
{"id": "C59", "title": "Different component types are different components", "statement": "Two component types with different names, or two different types that derive Component, are different components: an entity created with a value of one of them does not have the other, and reading the other returns None.", "quantifier": "every pair of component types and names, every registry and entity", "why_tests_cant": "ids are 16-bit hashes of names; a collision needs a particular pair of names and its effect is a silent reinterpretation of memory", "anchors": ["src/descriptors/component.rs:Component::ID", "shard_ecs_derive/src/lib.rs:derive_component", "src/registry/registry.rs:Registry::has_component", "src/registry/registry.rs:Registry::get_component"]}
{"id": "C60", "title": "Components of any size and alignment can be stored", "statement": "A value of any component type, whatever its size and alignment, can be stored with create_entity and read back with get_component.", "quantifier": "every component type (size, alignment), every value, both byte orders and build modes", "why_tests_cant": "sizes and alignments are truncated to 16 bits; tests use small types only, and the out-of-bounds read is silent", "anchors": ["src/descriptors/component_descriptor.rs:define_component_descriptor", "src/archetype/mod.rs:Archetype::with_capacity", "src/archetype/data_access.rs:write_entity_unchecked", "src/registry/registry.rs:Registry::create_entity"]}
{"id": "C61", "title": "An allocation failure in create_entity leaves a usable registry", "statement": "If an allocation fails inside create_entity and the caller catches the panic (documented: panics in case of allocation failure), the registry can still be used: the entities that were live can be read as before, and dropping the registry is well-defined.", "quantifier": "every reachable registry, group, values, and every pattern of failing allocations", "why_tests_cant": "tests run with an allocator that never fails; the failing allocation must be hit in a particular column of a full archetype", "anchors": ["src/archetype/data_access.rs:Archetype::resize_capacity", "src/archetype/mod.rs:Archetype::with_capacity", "src/archetype/data_access.rs:push_entity_unchecked", "src/registry/registry.rs:Registry::create_entity"]}
{"id": "C62", "title": "A panic in add_component or remove_component leaves a usable registry", "statement": "If add_component or remove_component panics (an allocation fails, or the component limit is hit) and the caller catches the panic, the registry can still be used: every live entity reads as before, and dropping the registry is well-defined.", "quantifier": "every reachable registry, entity, component, value, and every pattern of failing allocations", "why_tests_cant": "tests run with an allocator that never fails; the failure must hit one column of a full destination archetype while the entity is not the last row of its own archetype", "anchors": ["src/registry/registry.rs:Registry::add_component", "src/registry/registry.rs:Registry::remove_component", "src/archetype/data_access.rs:push_uninitialized_entity", "src/archetype/data_access.rs:Archetype::resize_capacity"]}
{"id": "C63", "title": "The entity table is a partial map under any safe use", "statement": "EntityRegistry, used on its own with any sequence of its safe functions (including overwriting entries through entity_entry_mut), never panics and behaves as a partial map from handles to (index in archetype, archetype index): create returns a handle that led nowhere, destroy removes exactly one handle, no other handle is affected, and iteration lists exactly the live handles once.", "quantifier": "every finite sequence of safe calls with any arguments, any byte order", "why_tests_cant": "the free list is threaded through the entries themselves; tests exercise two fixed patterns and never overwrite entries, so a corrupted or cyclic list is not looked for", "anchors": ["src/entity_registry/mod.rs:EntityRegistry::create_entity", "src/entity_registry/mod.rs:EntityRegistry::destroy_entity", "src/entity_registry/mod.rs:EntityRegistry::entity_entry_mut", "src/entity_registry/iterator.rs:EntityIter", "src/entity_registry/entry.rs:EntityEntry"]}
{"id": "C64", "title": "A source index that names no archetype is answered with None", "statement": "ArchetypeRegistry::find_or_create_archetype_adding_component and ..._removing_component return None, changing nothing, for every source archetype index that names no archetype.", "quantifier": "every archetype registry, every u16 index not below its length, every component descriptor", "why_tests_cant": "the range check is off by one and differs from a correct one only for the single index equal to the current number of archetypes; no test passes an index out of range", "anchors": ["src/archetype_registry/mod.rs:ArchetypeRegistry::find_or_create_archetype_adding_component", "src/archetype_registry/mod.rs:ArchetypeRegistry::find_or_create_archetype_removing_component"]}
{"id": "C65", "title": "The archetype registry is an append-only list of keys", "statement": "ArchetypeRegistry, used on its own with any sequence of lookups, creations, additions and removals, answers with the positions an append-only list of (component set, archetype id) keys gives, and panics exactly where stated; archetypes never move or change, new ones are empty, no two share component count and id, there are at most 65,534, none has the reserved id.", "quantifier": "every finite sequence of calls with descriptors of the program's groups and components, in worlds without hash clashes", "why_tests_cant": "the 14 sorted mapping tables must stay sorted and point at the right archetypes after arbitrary interleavings; tests create a handful of archetypes in one order", "anchors": ["src/archetype_registry/mod.rs:ArchetypeRegistry::find_or_create_archetype", "src/archetype_registry/mod.rs:ArchetypeRegistry::find_archetype", "src/archetype_registry/mod.rs:ArchetypeRegistry::find_or_create_archetype_adding_component", "src/archetype_registry/mod.rs:ArchetypeRegistry::find_or_create_archetype_removing_component"]}
{"id": "C66", "title": "The registry is observationally equivalent to a small reference registry", "statement": "There is a small executable registry (lists of rows per component set, lookup by searching, a stack of free slots; no bytes, no pointers, no capacities, no sorted index, no back references) such that every sequence of calls on an empty `Registry` yields exactly the outcomes of the reference: the same success or failure of every call, the same handles, the same returned and dropped values in the same order, and the same fault if a call faults. If no call faults, the resulting registries answer every query alike: iter_entities in the same order, get/has of single components and groups, all matching, filtered and exact iterators with the same archetypes, entities and columns in the same order, and the same values in the same order when the registry is dropped. The same holds for every continuation from every reachable registry.", "quantifier": "all sequences of create/destroy/remove_entity/add/remove/write calls (also through group references and mutable iterators) that respect the assumptions on calls, all queries in the final state", "why_tests_cant": "Tests compare a few concrete runs; equivalence has to hold for every interleaving of calls, including the ones that fail, recycle slots, move rows between archetypes and reorder rows by swap-removal.", "anchors": ["src/registry/registry.rs:Registry::create_entity", "src/registry/registry.rs:Registry::destroy_entity", "src/registry/registry.rs:Registry::remove_entity", "src/registry/registry.rs:Registry::add_component", "src/registry/registry.rs:Registry::remove_component", "src/registry/registry.rs:Registry::iter_entities", "src/archetype_registry/mod.rs:ArchetypeRegistry::find_or_create_archetype", "src/entity_registry/mod.rs:EntityRegistry::create_entity"]}
{"id": "C67", "title": "Debug and release builds behave alike", "statement": "Every sequence of calls that respects the assumptions in one build (debug or release, strict or lenient allocator for zero-sized requests) respects them in every other build for the same byte order (whose allocator accepts zero-sized requests if zero-sized types are used), produces the same outcomes call by call, and ends alike: in registries that answer every query identically, or in a fault in both. The faults are the same, except that an archetype at its limit of 8,388,608 entities is a failed debug assertion in one build and undefined behaviour in the other.", "quantifier": "all pairs of builds with the same byte order, all sequences of calls that respect the assumptions in one of them", "why_tests_cant": "Tests run in one profile; debug assertions and overflow checks are compiled out in the other, and whether any of them can ever fire depends on all reachable states.", "anchors": ["src/archetype/data_access.rs:Archetype::push_entity_unchecked", "src/registry/registry.rs:Registry::create_entity", "src/registry/registry.rs:Registry::add_component", "src/registry/registry.rs:Registry::remove_component", "src/entity_registry/mod.rs:EntityRegistry::create_entity"]}
{"id": "C68", "title": "The safe functions of Archetype never have undefined behaviour", "statement": "`Archetype::new`, `Archetype::with_capacity`, `Archetype::entities` and dropping an archetype have no undefined behaviour, whatever descriptor (safe code can build any: `ArchetypeDescriptor::new`, `ComponentDescriptor::new`, public fields, `From<ComponentDescriptor>`) and capacity they are given; they panic exactly for the reserved archetype id or for more than 14 components with memory to allocate, a fresh archetype is empty, has the requested capacity if that is in range and 0 otherwise, and dropping it runs no destructor.", "quantifier": "all archetype descriptors with any component descriptors and any length, all capacities, all builds", "why_tests_cant": "Tests use descriptors of component types; the undefined behaviour needs descriptors the type system allows but no test builds, and forming a slice from a null pointer usually goes unnoticed at run time.", "anchors": ["src/archetype/mod.rs:Archetype::new", "src/archetype/mod.rs:Archetype::with_capacity", "src/archetype/data_access.rs:Archetype::entities", "src/archetype/mod.rs:Archetype::drop"]}
{"id": "C69", "title": "The safe functions of ArchetypeRegistry never have undefined behaviour", "statement": "No sequence of calls of the safe functions of `ArchetypeRegistry` (find, find_or_create, adding, removing, indexing, replacing an archetype through a mutable reference, all matching and filtered iterators with and without entities) has undefined behaviour, and since safe code cannot store entities in it, all slices it hands out are empty and dropping it runs no destructor.", "quantifier": "all sequences of safe calls with any descriptors, any replacement archetypes, any groups of component types, any filters, any number of polls, panics in between, all builds", "why_tests_cant": "The state space (archetypes that do not belong to their place in the index, forged or colliding archetype ids) is unbounded, and the failures are silent undefined behaviour.", "anchors": ["src/archetype_registry/mod.rs:ArchetypeRegistry::find_archetype", "src/archetype_registry/mod.rs:ArchetypeRegistry::find_or_create_archetype", "src/archetype_registry/mod.rs:ArchetypeRegistry::find_or_create_archetype_adding_component", "src/archetype_registry/mod.rs:ArchetypeRegistry::find_or_create_archetype_removing_component", "src/archetype_registry/mod.rs:ArchetypeRegistry::iter_components_matching", "src/archetype_registry/mod.rs:ArchetypeRegistry::iter_entity_components_matching"]}
{"id": "C70", "title": "Dropping a registry with panicking destructors", "statement": "Dropping a Registry drops every stored component exactly once and frees every archetype's memory even when a component's destructor panics. (False in the code: the panic leaves drop_entities before the remaining columns are dropped and before dealloc. What holds: nothing is dropped twice, the other archetypes are dropped and freed, a second panic in another archetype aborts.)", "quantifier": "for all registries reachable by API calls and all sets of values whose destructors panic", "why_tests_cant": "Which components are leaked depends on the whole history that put them into archetypes, and on which of them panic; the tests have no panicking destructors.", "anchors": ["src/archetype/mod.rs:Archetype::drop", "src/archetype/data_access.rs:Archetype::drop_entities", "src/archetype/data_access.rs:Archetype::dealloc", "src/descriptors/component_descriptor.rs:ComponentDescriptor::drop_handler_wrapper"]}
{"id": "C71", "title": "Archetypes used on their own behave as tables of rows", "statement": "For any number of archetypes created from component groups, every sequence of calls of the unsafe Archetype functions that keeps their documented contracts (index below len, the components read are present, the group has exactly or some of the archetype's types, handles set where rows are exchanged) gives the answers of plain tables of rows: pushes, uninitialized rows, single writes, whole-row writes, exchanges, swap_drop, swap_remove, moves of common components between two archetypes, reads, slices, dropping rows and dropping the archetype. No call panics or has undefined behaviour, and dropping frees all memory.", "quantifier": "for all sequences of calls on all numbers of archetypes, all valid groups, values, capacities from 1 to 16777215", "why_tests_cant": "Only patterns used by Registry are tested; the claim covers all interleavings of all functions on all archetypes, with rows that are partly filled, moved out or dropped.", "anchors": ["src/archetype/data_access.rs:Archetype::push_entity_unchecked", "src/archetype/data_access.rs:Archetype::push_uninitialized_entity", "src/archetype/data_access.rs:Archetype::write_single_component_unchecked", "src/archetype/data_access.rs:Archetype::write_entity_unchecked", "src/archetype/data_access.rs:Archetype::swap_drop_unchecked", "src/archetype/data_access.rs:Archetype::swap_remove_unchecked", "src/archetype/data_access.rs:Archetype::copy_common_components_between_archetypes_unchecked", "src/archetype/data_access.rs:Archetype::drop_entity"]}
{"id": "C72", "title": "Memory requests have the size of the columns on every target", "statement": "On 32- and 64-bit targets, Archetype::with_capacity returns an archetype whose columns have memory for capacity values, and growing a full archetype requests columns of twice the size, for all component types below 65536 bytes and all capacities up to MAX_ENTITIES_PER_ARCHETYPE. (True on 64-bit targets. False on 32-bit targets: the product size * capacity overflows usize or isize.)", "quantifier": "for all descriptors with at most 14 components of size and alignment below 65536, all capacities from 1 to 16777215, 32- and 64-bit targets, debug and release builds", "why_tests_cant": "It takes gigabytes of components on a 32-bit target; tests run on 64-bit hosts with a handful of entities.", "anchors": ["src/archetype/mod.rs:Archetype::with_capacity", "src/archetype/data_access.rs:Archetype::resize_capacity", "src/archetype/data_access.rs:Archetype::resize_if_necessary"]}
{"id": "C73", "title": "A descriptor that reports to be valid is a set of 1 to 14 components", "statement": "ArchetypeDescriptor::is_valid is true only for descriptors with 1 to 14 components, all different, whichever public functions built the descriptor. (False for descriptors built with ArchetypeDescriptor::new, which stores any length up to 255 and any components. True for group descriptors, converted component descriptors, INVALID, and everything add_component and remove_component make of them; on those the functions of the descriptor are operations on finite sets.)", "quantifier": "for all descriptors obtainable by any sequence of the public functions, both byte orders", "why_tests_cant": "The test suite only checks descriptors of component groups, and one addition and removal; the claim ranges over all sequences of additions and removals from all starting points, and all arguments of new.", "anchors": ["src/descriptors/archetype_descriptor.rs:ArchetypeDescriptor::is_valid", "src/descriptors/archetype_descriptor.rs:ArchetypeDescriptor::new", "src/descriptors/archetype_descriptor.rs:ArchetypeDescriptor::add_component", "src/descriptors/archetype_descriptor.rs:ArchetypeDescriptor::remove_component", "src/descriptors/component_descriptor.rs:ComponentDescriptor::into"]}
{"id": "C74", "title": "Descriptor functions on descriptors with arbitrary fields", "statement": "For any two archetype descriptors, of any length up to 255 and with any component array, components, has_component, contains_subset, excludes_subset, add_component, remove_component and compute_archetype_id give a specified answer or panic with an index out of bounds exactly when a length exceeds 14 and the search runs into slot 14; they never have undefined behaviour.", "quantifier": "for all pairs of descriptors with 14 component slots and any lengths, all component descriptors and ids, all slices passed to compute_archetype_id", "why_tests_cant": "The outcome depends on both lengths and on where the first equal id is found; tests only use descriptors of groups.", "anchors": ["src/descriptors/archetype_descriptor.rs:ArchetypeDescriptor::contains_subset", "src/descriptors/archetype_descriptor.rs:ArchetypeDescriptor::excludes_subset", "src/descriptors/archetype_descriptor.rs:ArchetypeDescriptor::has_component", "src/descriptors/archetype_descriptor.rs:ArchetypeDescriptor::components", "src/descriptors/archetype_descriptor.rs:ArchetypeDescriptor::compute_archetype_id", "src/descriptors/archetype_descriptor.rs:ArchetypeDescriptor::add_component", "src/descriptors/archetype_descriptor.rs:ArchetypeDescriptor::remove_component"]}
{"id": "C75", "title": "Programs far from the limits never notice them", "statement": "Along every history with fewer than 65,534 calls of create_entity, add_component and remove_component (or along every history, however long, of a program that forms fewer than 32,767 different component sets), as long as fewer than 8,388,608 entities are live at the same time: create_entity succeeds for every valid group; add_component succeeds for every component the entity does not have, and remove_component for every component that is not its last, unless the archetype id of the resulting set is the reserved one; no call faults, except add_component on an entity with 13 components and remove_component on an entity with 14. A registry never has more than two archetypes per component set.", "quantifier": "all histories of admissible calls within the budget, all groups, entities, component types and values", "why_tests_cant": "It speaks about every history of tens of thousands of calls and every set of component types; tests run a few fixed histories.", "anchors": ["src/registry/registry.rs:Registry::create_entity", "src/registry/registry.rs:Registry::add_component", "src/registry/registry.rs:Registry::remove_component", "src/archetype_registry/mod.rs:ArchetypeRegistry::find_or_create_archetype"]}
{"id": "C76", "title": "The crate's own tests pass, whatever the random values and sizes", "statement": "Every #[test] function of the crate, transcribed statement by statement as a program over the public operations, ends without a failing assertion, panic or undefined behaviour, on debug and release builds and both byte orders. test_registry does so for every outcome of its calls of rand::random(), and for every number count >= 1 of entities in its first loops and every number more of entities in its last loops with 2*count + more < 8,388,608 (the test has 32 and 1000); the entity table test does so for every number of entities below 2^24 - 1 (the test has 1024); the constructor test does so for every capacity.", "quantifier": "all build profiles and byte orders, all sequences of random values, all numbers of entities within the stated bounds, all capacities", "why_tests_cant": "A run of the test suite sees one sequence of random values, one build and the fixed sizes in the test source.", "anchors": ["src/registry/registry.rs:Registry::create_entity", "src/registry/registry.rs:Registry::destroy_entity", "src/registry/registry.rs:Registry::add_component", "src/registry/registry.rs:Registry::remove_component", "src/registry/registry.rs:Registry::iter_entity_components_matching", "src/entity_registry/mod.rs:EntityRegistry::create_entity", "src/entity_registry/mod.rs:EntityRegistry::destroy_entity", "src/archetype/mod.rs:Archetype::with_capacity"]}
{"id": "C77", "title": "The examples and the benchmark do what they say", "statement": "Claim: the calls in the shipped examples succeed as the comments beside them say (add_component and remove_component, create_entity with two components, 10000 entities to iterate over). This is false: the examples give Rotation the NAME \"Position\", so both types have the same ID. For all values: as shipped, add_component(entity, rotation) and remove_component::<Position> return Err, create_entity((position, rotation)) returns Err, and the iteration example creates no entity for any number of calls and every iterator yields nothing; nothing panics. With the name \"Rotation\" all of these succeed, and for every number n of entities from 1 to 8,388,608 the iterators of the example show exactly the n entities and values, and the filter excludes them. The benchmark's set-up succeeds for all random values and every number of entities up to 8,388,608 (it has 1,000,000): the handles are distinct, each lookup gives the P the entity was created with, entity iteration visits each handle once and iteration over P visits each value once.", "quantifier": "all build profiles and byte orders, all component values, all random choices, all numbers of entities up to 2^23, all sequences of lookups", "why_tests_cant": "The examples discard the results of the calls that fail, so running them shows nothing; the benchmark runs with one sequence of random values.", "anchors": ["src/registry/registry.rs:Registry::create_entity", "src/registry/registry.rs:Registry::add_component", "src/registry/registry.rs:Registry::remove_component", "src/registry/registry.rs:Registry::destroy_entity", "src/registry/registry.rs:Registry::iter_components_exact", "src/registry/registry.rs:Registry::iter_filtered_components_matching", "src/registry/registry.rs:Registry::get_component", "src/descriptors/component.rs:Component"]}
{"id": "C78", "title": "Filters with side effects or panics", "statement": "The four filtered iterators behave as a lazy filter over what the unfiltered iterator yields, for filter closures with any side effects and any panics. There is a list of archetypes, those that iter_entity_components_matching yields, in its order, such that every number of calls of next gives the same items, the same panics and the same effects of the closure as a lazy filter over that list: each of these archetypes is offered to the closure exactly once and in order, no other archetype is offered, nothing is offered before it is needed, and after None the closure is not called again. If the closure panics, that archetype is lost and nothing else: after catching the panic the iterator goes on with the next archetype. For an invalid group the closure is never called.", "quantifier": "all reachable registries, all valid groups, all closures (any state type, any results, any panics), any number of calls of next", "why_tests_cant": "Filters are tested with a few pure closures on two archetypes; panicking or counting closures are not tested.", "anchors": ["src/registry/registry.rs:Registry::iter_filtered_components_matching", "src/registry/registry.rs:Registry::iter_filtered_components_matching_mut", "src/registry/registry.rs:Registry::iter_filtered_entity_components_matching", "src/registry/registry.rs:Registry::iter_filtered_entity_components_matching_mut", "src/archetype_registry/iterators/filter_archetype_iter.rs:FilterArchetypeIter::next", "src/archetype_registry/iterators/filter_archetype_iter_mut.rs:FilterArchetypeIterMut::next"]}
{"id": "C79", "title": "The storage of an archetype is determined by its peak", "statement": "After any history of calls, the capacity of an archetype is the smallest of 128, 256, 512, ... that is not below the largest number of entities the archetype has had in any state of the history: it never grows early, never grows by more than one doubling per need, and is never given back. Its arrays have been reallocated exactly once per doubling, at most 16 times however many calls were made, and all these reallocations together have copied fewer than twice as many entities as the archetype had at its peak (amortised constant cost).", "quantifier": "all histories, all programs within the assumptions, all archetypes, both build profiles and byte orders", "why_tests_cant": "The claim is about the maximum over all intermediate states of histories of any length and about all capacities up to 2^23.", "anchors": ["src/archetype/data_access.rs:Archetype::resize_if_necessary", "src/archetype/data_access.rs:Archetype::resize_capacity", "src/archetype/mod.rs:Archetype::with_capacity", "src/registry/registry.rs:Registry::create_entity", "src/registry/registry.rs:Registry::add_component", "src/registry/registry.rs:Registry::remove_component"]}
{"id": "C80", "title": "The byte order of the machine shows only in the order of iteration", "statement": "Archetype ids are hashes of the component ids in the machine's byte order, so the same program has other archetype ids on another machine. Provided no hash coincidence (a collision of two component sets in use, the two ids of one set agreeing, the reserved id) occurs on one machine only, every sequence of calls has the same outcomes call by call on a little-endian and a big-endian machine (the same handles, values, refusals, faults), and afterwards all queries answer alike: the live handles and their order, every component of every entity, the exact iterators with their row order, the order in which values are dropped; the matching and filtered iterators yield the same items, but possibly in another order of the archetypes. That the order may differ is shown by an example.", "quantifier": "all sequences of calls within the assumptions (except writes addressed by the position of an archetype in an iteration), both byte orders, build profiles and allocators", "why_tests_cant": "A test suite runs on one machine; the claim relates the runs of arbitrary programs on two kinds of machine, of which one is rarely available.", "anchors": ["src/descriptors/archetype_descriptor.rs:ArchetypeDescriptor::compute_archetype_id", "src/descriptors/component_group_descriptor.rs:ComponentGroupDescriptor::new", "src/entity_registry/entry.rs:EntityEntry", "src/archetype_registry/mod.rs:ArchetypeRegistry::find_or_create_archetype", "src/registry/registry.rs:Registry::iter_entity_components_matching"]}
{"id": "C81", "title": "The DESCRIPTOR a component type declares cannot break memory safety", "statement": "Component is a safe trait whose constant DESCRIPTOR can be overridden. Whatever a component type declares there (with its own id): where add_component works with the default descriptor, it has no undefined behaviour with the declared one, and remove_component, all queries and all later calls behave as with the default one.", "quantifier": "all component types, declared descriptors with the id of the type, reachable registries, entities, values, environments; for later calls: all programs (lists of calls on a new registry)", "why_tests_cant": "Tests use the default descriptors; a wrong descriptor may go unnoticed because the archetype exists already or because rows happen to stay within the allocation.", "anchors": ["src/descriptors/component.rs:Component", "src/registry/registry.rs:Registry::add_component", "src/registry/registry.rs:Registry::remove_component", "src/archetype_registry/mod.rs:ArchetypeRegistry::find_or_create_archetype_adding_component", "src/descriptors/archetype_descriptor.rs:ArchetypeDescriptor::add_component"]}
{"id": "C82", "title": "A query returns what was last stored", "statement": "After any sequence of calls, whether a handle is alive, whether it has a component, and the value a component holds can be read off the calls made and their results: the most recent successful call about that handle (and component) decides. Every value handed back by remove_component, remove_entity or a replacement through a mutable reference, and every value dropped by destroy_entity, is the one last stored; add_component only succeeds if nothing is stored, and create_entity only returns a handle that is not alive.", "quantifier": "all component worlds, all histories of calls that name the entity they concern (no write through an iterator), all results, all positions in the history", "why_tests_cant": "Tests look a value up a few calls after storing it; the claim holds across arbitrarily many moves between archetypes, growths, swap-removals and reuses of a slot.", "anchors": ["src/registry/registry.rs:Registry::create_entity", "src/registry/registry.rs:Registry::destroy_entity", "src/registry/registry.rs:Registry::remove_entity", "src/registry/registry.rs:Registry::add_component", "src/registry/registry.rs:Registry::remove_component", "src/registry/registry.rs:Registry::get_component", "src/registry/registry.rs:Registry::get_components", "src/registry/registry.rs:Registry::has_component"]}
{"id": "C83", "title": "Memory is bounded by the largest population", "statement": "However long a program runs, the entity table has exactly as many entries as there were ever entities alive at the same time (p); each archetype holds exactly its capacity times the bytes of one of its entities (components plus 4 bytes for the handle); its capacity is 128 or less than 2p. All archetypes together thus hold at most max(128, 2p) times the bytes of one entity of each archetype, and for a program with finitely many component sets that is bounded independently of the number of calls: creating, moving and destroying entities over and over leaks nothing.", "quantifier": "all component worlds, all histories of calls of any length, all archetypes of the resulting registry", "why_tests_cant": "A leak of a row, a slot or an array shows only after very many calls of a particular shape; the claim is about all histories of all lengths.", "anchors": ["src/archetype/mod.rs:Archetype::with_capacity", "src/archetype/data_access.rs:Archetype::resize_capacity", "src/entity_registry/mod.rs:EntityRegistry::create_entity", "src/registry/registry.rs:Registry::create_entity", "src/registry/registry.rs:Registry::destroy_entity", "src/registry/registry.rs:Registry::add_component", "src/registry/registry.rs:Registry::remove_component"]}
{"id": "C84", "title": "Programs on 32-bit targets", "statement": "On a 32-bit target a program behaves as on a 64-bit one: a call that works where sizes cannot overflow works there with the same result.", "quantifier": "all component worlds, all histories of admissible calls, all calls made after them, targets with 32-bit and 64-bit pointers", "why_tests_cant": "Tests run on the 64-bit machine of the developer; the difference appears only on narrow targets and only for columns of about one gigabyte.", "anchors": ["src/archetype/data_access.rs:Archetype::push_entity_unchecked", "src/archetype/data_access.rs:Archetype::resize_capacity", "src/archetype/mod.rs:Archetype::with_capacity", "src/archetype_registry/mod.rs:ArchetypeRegistry::find_or_create_archetype", "src/registry/registry.rs:Registry::create_entity", "src/registry/registry.rs:Registry::add_component", "src/registry/registry.rs:Registry::remove_component"]}
{"id": "C85", "title": "Handles depend only on the order of creations and destructions", "statement": "The handles a program receives are determined by when it creates entities and which of them (counted by creations) it ends, and by nothing else: they are those of a stack allocator over slots whose versions count modulo 256. Two programs that create and end entities in the same order receive the same handles, whatever component types, values and other calls they use, whatever the byte order of the machine and the build mode.", "quantifier": "all pairs of component worlds, targets and histories of admissible calls with the same pattern of creations and endings", "why_tests_cant": "The claim compares every two programs with the same pattern; a dependence on component sets or on moves between archetypes would show only for particular pairs.", "anchors": ["src/entity_registry/mod.rs:EntityRegistry::create_entity", "src/entity_registry/mod.rs:EntityRegistry::destroy_entity", "src/registry/registry.rs:Registry::create_entity", "src/registry/registry.rs:Registry::destroy_entity", "src/registry/registry.rs:Registry::remove_entity", "src/entity_registry/entity.rs:Entity::new_unchecked"]}
{"id": "C86", "title": "Entities do not interfere", "statement": "What a call about an entity does depends on that entity alone. (1) In any two ordinary programs (same component types, otherwise different histories and different other entities) that give the same answers about an entity, the same call about it (destroy_entity, remove_entity, add_component, remove_component, a write through get_component_mut or get_components_mut) ends the same way: the same panic, or the same result, the same values handed back and dropped, and the same answers about the entity afterwards. (2) The answers about every other handle stay as they were. (3) So two calls about different entities can be made in either order, with the same results and the same answers about every handle afterwards. Ordinary means: fewer than 65,534 archetype-making calls or fewer than 32,767 component sets, and fewer than 8,388,608 live entities at a time.", "quantifier": "all pairs of ordinary histories from an empty registry, all handles, all calls about one entity", "why_tests_cant": "The claim compares every pair of programs; interference (through shared archetypes, swap-removal, growth or the order in which archetypes were made) would appear only for particular pairs of histories.", "anchors": ["src/registry/registry.rs:Registry::destroy_entity", "src/registry/registry.rs:Registry::remove_entity", "src/registry/registry.rs:Registry::add_component", "src/registry/registry.rs:Registry::remove_component", "src/registry/registry.rs:Registry::get_component_mut", "src/registry/registry.rs:Registry::get_components_mut"]}
{"id": "C87", "title": "Tuples of every length are handled alike", "statement": "ComponentGroup is implemented exactly once for a component and for tuples of each length from 2 to 14, with every tuple position naming its own field. For a valid group of any of these lengths: as_sorted_pointers puts the pointer to each field at the place of its type in ascending order of the component ids and leaves the rest of the array alone; read_from_sorted_pointers then returns the tuple, and for any other order of the same types returns each field at the position of its type; the tuples of references and of slices have the pointer of each type at the position of the type. The functions for groups of any length that the rest of the model uses are what the macros expand to.", "quantifier": "all implementations the two macros make, all component types, all values, all pointer arrays, all orders of the types", "why_tests_cant": "The crate's tests use one tuple of three types; each of the fourteen implementations is separate code, with up to 14! orders of the types.", "anchors": ["src/descriptors/component_group.rs:ComponentGroup::as_sorted_pointers", "src/descriptors/component_group.rs:ComponentGroup::read_from_sorted_pointers", "src/descriptors/component_group.rs:ComponentGroup::pointers_as_ref_tuple", "src/descriptors/component_group.rs:ComponentGroup::slice_unchecked", "src/descriptors/component_group_descriptor.rs:ComponentGroupDescriptor::unsorted_to_sorted"]}
{"id": "C88", "title": "The names of components show only in the order of iteration and of dropping", "statement": "A component id is a hash of the NAME of the component type, and archetype ids are hashes of component ids. Take two versions of a program that differ in the component ids (any distinct ids for the same types), possibly on machines of different byte order and in different build profiles, where no hash coincidence (a collision of two component sets in use, the two ids of one set agreeing, the reserved id) occurs in one version only. Then every sequence of calls within the assumptions is within them in the other version and has the same outcomes call by call: the same handles, returned values, refusals and faults, the values dropped by a call being the same up to order. Afterwards all queries answer alike: the live handles in the same order, every component of every entity, tuples in the order of the tuple's types, the exact iterators with their row order; the matching and filtered iterators yield the same items, possibly in another order of the archetypes; dropping the registry drops the same values. That both orders can differ is shown by examples. Between any two lists of distinct ids of the same length there is a renaming.", "quantifier": "all one-to-one renamings of the 65536 ids, all sequences of calls within the assumptions (except writes addressed by the position of an archetype in an iteration), both byte orders, build profiles and allocators", "why_tests_cant": "The claim relates runs of arbitrary programs under all 65536! assignments of ids; a test has one assignment, and with it one sorted order of the components and one order of the archetypes.", "anchors": ["src/descriptors/component.rs:Component", "src/descriptors/component_group_descriptor.rs:ComponentGroupDescriptor::new", "src/descriptors/archetype_descriptor.rs:ArchetypeDescriptor::compute_archetype_id", "src/archetype_registry/mod.rs:ArchetypeRegistry::find_or_create_archetype", "src/registry/registry.rs:Registry::destroy_entity"]}
{"id": "C89", "title": "The references handed out can be used by several threads", "statement": "All slices a mutable iterator yields may be held at the same time and sent to threads, and so may the references in the tuple get_components_mut returns. Whatever the threads do with them (reading and replacing values, any number of threads, any interleaving), provided that no reference is used by two threads unless both only read: different references refer to disjoint memory, no access has a fault, every thread sees exactly what it would see alone if each reference were a variable of its own, the values afterwards are the last ones stored, and the registry afterwards is the same for every interleaving and is one that sequential calls can reach. An example shows that the condition is needed.", "quantifier": "all reachable registries, all valid groups, all six mutable iterators and get_components_mut, all numbers of threads, all access sequences, all interleavings", "why_tests_cant": "Interleavings of threads are not under a test's control and there are exponentially many; aliasing between two slices would show only under some of them.", "anchors": ["src/archetype_registry/iterators/matching_iter_mut.rs:MatchingIterMut::next", "src/archetype_registry/iterators/archetype_iter_mut.rs:ArchetypeIterMut::next", "src/archetype/data_access.rs:Archetype::get_fuzzy_slices_unchecked_mut", "src/registry/registry.rs:Registry::get_components_mut", "src/descriptors/component.rs:Component"]}
{"id": "C90", "title": "The references handed out obey Stacked Borrows", "statement": "A program calls next of a mutable iterator any number of times, keeps everything it is handed, and reads and writes what it keeps between and after the calls, in any order. Then neither the crate's code nor the program ever uses a reference whose permission is gone under the Stacked Borrows rules for Rust references (a use that would be undefined behaviour although it is in bounds). The items are those the iterator yields, and none of them has lost its permission. The same holds for both exact iterators and for the tuple get_components_mut returns. In contrast, a &mut Archetype that the internal archetype iterator returned must not be used after the iterator has gone on: any use is undefined behaviour.", "quantifier": "all reachable registries, all valid groups, all filters, all six mutable iterators and get_components_mut, all borrow stacks in which the registry and the column pointers may be used, all programs", "why_tests_cant": "A violation of the aliasing rules usually leaves the behaviour of the compiled program unchanged; it shows only when the optimizer uses the rule, and otherwise only in an interpreter that tracks borrows, on the executions tried.", "anchors": ["src/archetype_registry/iterators/archetype_iter_mut.rs:ArchetypeIterMut::next", "src/archetype_registry/iterators/filter_archetype_iter_mut.rs:FilterArchetypeIterMut::next", "src/archetype_registry/iterators/matching_iter_mut.rs:MatchingIterMut::next", "src/archetype/data_access.rs:Archetype::get_fuzzy_slices_unchecked_mut", "src/registry/registry.rs:Registry::iter_entity_components_exact_mut", "src/registry/registry.rs:Registry::get_components_mut"]}
{"id": "C91", "title": "Programs that borrow the registry again and again obey Stacked Borrows", "statement": "A program borrows the registry any number of times, one borrow after the other. While it holds a &mut Registry it runs one of the mutable iterators, an exact iterator or get_components_mut, and reads and writes what it is handed. While it holds a &Registry it makes any number of shared iterators, lets them go on in any order, calls the exact iterators and get_components, keeps everything and reads it at any time. Then neither the crate's code nor the program ever uses a reference whose permission is gone under Stacked Borrows. Everything handed out through a & keeps its permission as long as the & is in use, every shared iterator yields a prefix of what it has to yield, and the other shared calls return what they have to return.", "quantifier": "all reachable registries, all sequences of mutable and shared sessions, all programs within a session, all valid groups, all filters, all iterators, get_components and get_components_mut, all borrow stacks in which the registry and the column pointers may be used", "why_tests_cant": "A violation of the aliasing rules usually leaves the behaviour of the compiled program unchanged, and the number of ways in which several shared iterators and later mutable borrows can be interleaved is unbounded.", "anchors": ["src/archetype_registry/iterators/archetype_iter.rs:ArchetypeIter::next", "src/archetype_registry/iterators/filter_archetype_iter.rs:FilterArchetypeIter::next", "src/archetype_registry/iterators/matching_iter.rs:MatchingIter::next", "src/archetype/data_access.rs:Archetype::get_fuzzy_slices_unchecked", "src/registry/registry.rs:Registry::iter_entity_components_exact", "src/registry/registry.rs:Registry::get_components"]}
{"id": "C92", "title": "Whole programs, with the calls that change the registry, obey Stacked Borrows", "statement": "A program starts with a new registry and makes any sequence of create_entity, destroy_entity, remove_entity, add_component, remove_component and stores through references it is handed, and between these calls borrows the registry as in C91. Then neither the crate's code nor the program ever uses a reference or pointer whose permission is gone under Stacked Borrows: not when a call makes an archetype, moves the vector of archetypes, enlarges the columns of an archetype, swaps rows, copies a row between two archetypes, drops or reads values, nor when the registry is dropped at the end. The program runs to its end (or until a call panics) with the registry in the state that the calls alone lead to.", "quantifier": "all programs of admissible calls and sessions, whether or not the vector of archetypes is moved when it grows, all reachable registries, all borrow stacks in which the pointers to the vector of archetypes and to the columns may be used", "why_tests_cant": "A violation of the aliasing rules usually leaves the behaviour of the compiled program unchanged, and which references are alive during a call depends on reallocations and on the positions of two archetypes relative to each other.", "anchors": ["src/archetype_registry/mod.rs:disjoint_mut", "src/archetype_registry/mod.rs:ArchetypeRegistry::find_or_create_archetype", "src/archetype/data_access.rs:Archetype::resize_capacity", "src/archetype/data_access.rs:Archetype::copy_common_components_between_archetypes_unchecked", "src/archetype/data_access.rs:Archetype::swap_entities", "src/registry/registry.rs:Registry::add_component", "src/registry/registry.rs:Registry::remove_component", "src/registry/registry.rs:Registry::create_entity", "src/registry/registry.rs:Registry::destroy_entity"]}
{"id": "C93", "title": "A reference to the handles of an archetype never covers an uninitialised handle", "statement": "Whenever a call of the registry makes a reference to a slice of entity handles (Archetype::entities, Archetype::entities_mut), every handle in that slice has been stored before: no reference to uninitialised memory is made, not even for a moment.", "quantifier": "For every program (every reachable registry), every call and every slice of handles the call makes on its way.", "why_tests_cant": "The uninitialised handle is overwritten right after the reference to it is made; no run observes it. Only a look at every reference made, in every state, tells.", "anchors": ["src/archetype/data_access.rs:Archetype::entities", "src/archetype/data_access.rs:Archetype::entities_mut", "src/archetype/data_access.rs:Archetype::push_entity_unchecked", "src/archetype/data_access.rs:Archetype::push_uninitialized_entity", "src/archetype/data_access.rs:Archetype::write_entity_unchecked", "src/registry/registry.rs:Registry::add_component", "src/registry/registry.rs:Registry::remove_component"]}
{"id": "C94", "title": "Reserved values are the documented ones and stand for nothing else", "statement": "The null handle has the index INVALID_ENTITY_HANDLE_VALUE and the greatest version; the invalid archetype id is 0 and no archetype uses it; IndexInArchetype::new and ArchetypeIndex::new accept exactly the values that are not reserved, the three-byte form of an index loses nothing, and IndexInArchetype::new_unchecked is never called with a reserved value. In no registry does an entity, a row or an archetype carry a reserved value.", "quantifier": "For all values of the index and identifier types, and for every reachable registry.", "why_tests_cant": "Tests try ten index values and no documented constant; the reserved values sit at the far end of ranges no test fills, and whether they are ever in use is a question about every history.", "anchors": ["src/constants.rs:INVALID_ENTITY_HANDLE_VALUE", "src/entity_registry/index_in_archetype.rs:IndexInArchetype::new", "src/entity_registry/index_in_archetype.rs:IndexInArchetype::new_unchecked", "src/entity_registry/archetype_index.rs:ArchetypeIndex::new", "src/descriptors/archetype_id.rs:ArchetypeId::INVALID", "src/descriptors/component_type_id.rs:ComponentTypeId::INVALID", "src/entity_registry/entity.rs:Entity::INVALID"]}
{"id": "C95", "title": "Rows keep their order; a call moves at most one other entity", "statement": "The entry of a live handle names the row in which the handle is stored, and no other row holds it. Creating an entity appends it to one archetype; ending an entity, or giving it another set of component types, removes its row by putting the last row of that archetype in its place, and in the second case appends the entity to another archetype; all other rows of all archetypes stay as they are. So every call moves at most one entity it is not about, and as long as entities are only created and components only overwritten the rows of every archetype are in order of creation and none moves.", "quantifier": "For every reachable registry, every admissible call, every handle; for the last part every history of creations and writes from every reachable registry.", "why_tests_cant": "The order of rows depends on the whole history of removals and moves; tests look at components by handle, so a wrong row order or an extra displaced entity that is consistently recorded goes unseen.", "anchors": ["src/registry/registry.rs:Registry::create_entity", "src/registry/registry.rs:Registry::destroy_entity", "src/registry/registry.rs:Registry::remove_entity", "src/registry/registry.rs:Registry::add_component", "src/registry/registry.rs:Registry::remove_component", "src/archetype/data_access.rs:Archetype::swap_drop_unchecked", "src/archetype/data_access.rs:Archetype::swap_to_last_unchecked", "src/archetype/data_access.rs:Archetype::push_entity_unchecked"]}
{"id": "C96", "title": "The safe functions keep the documented contracts of the unsafe functions they call", "statement": "Every public function of `Registry` discharges the documented `# Safety`/UB conditions of every `unsafe fn` of the crate it calls, for every reachable registry and every handle: indices into the archetype list are in bounds, rows are rows of the archetype, component types and groups are present in the archetype (exactly, where the doc says so), rows that are swapped are distinct, memory written to has been reserved, entity indices have at most 24 bits. Exceptions, each characterised exactly: `IndexInArchetype::new_unchecked` (\"value >= INVALID_VALUE is undefined\") is called with INVALID_VALUE by `destroy_entity`/`remove_entity` exactly when every slot of the table is occupied; `remove_entity::<G>` violates `swap_remove_unchecked` exactly when the entity is live and G is not its type set; `get_components::<G>` violates `get_fuzzy_components_unchecked` exactly when the entity is live, G is invalid and some type of G is missing; `create_entity` violates `write_entity_unchecked`, and `add_component`/`remove_component` violate `copy_common_components`, exactly when the archetype they look for already has 2^23 rows.", "quantifier": "all reachable registries, all public calls with any handle, all unsafe calls made during the call", "why_tests_cant": "A contract violation need not show in the result (the call of new_unchecked with INVALID_VALUE returns a usable value); tests observe outputs of a few runs, not the arguments of every unsafe call in every reachable state.", "anchors": ["src/registry/registry.rs:Registry::destroy_entity", "src/registry/registry.rs:Registry::remove_entity", "src/registry/registry.rs:Registry::get_components", "src/registry/registry.rs:Registry::add_component", "src/registry/registry.rs:Registry::create_entity", "src/archetype/data_access.rs:Archetype::swap_remove_unchecked", "src/archetype/data_access.rs:Archetype::write_entity_unchecked", "src/entity_registry/entry.rs:EntityEntry::invalidate"]}
{"id": "C97", "title": "On real addresses the registry behaves as on separate blocks, wherever the allocator puts them", "statement": "Take memory as one array of bytes indexed by addresses, pointers as addresses with provenance, and an allocator that places (and, at `realloc`, moves) blocks anywhere, only aligned and disjoint from the live ones, and that may return null at any time. Every program of public calls then has exactly the outcomes it has when every column is a block of its own; every query answers the same and leaves memory as it is; memory that the registry did not allocate is never changed; references returned by `get_component_mut` are nonnull, aligned, inside an allocation of the registry, and for different entities or components their address ranges are disjoint; dropping the registry returns every block it ever allocated and nothing else. If the allocator returns null, the program stops with an assertion and no undefined behaviour happens. No disciplined call within the limits of the crate is undefined on addresses.", "quantifier": "all allocators with the guarantees of GlobalAlloc, all initial memories, all histories of public calls, all queries", "why_tests_cant": "A test runs with one allocator and sees one placement of blocks; stray pointers, overlapping copies and wrong layouts at realloc often go unnoticed there, and null from the allocator is practically never seen.", "anchors": ["src/archetype/data_access.rs:Archetype::resize_capacity", "src/archetype/data_access.rs:Archetype::swap_to_last_unchecked", "src/archetype/data_access.rs:Archetype::get_fuzzy_components_unchecked", "src/archetype/mod.rs:Archetype::with_capacity", "src/archetype/mod.rs:Archetype::drop", "src/registry/registry.rs:Registry::get_component_mut", "src/registry/registry.rs:Registry::create_entity"]}
{"id": "C98", "title": "The order of iteration is fixed by the component sets and the rows", "statement": "Every matching iterator (with or without handles, mutable or not, filtered or not) visits exactly the archetypes that have all types of G and pass the filter, including archetypes without entities, each once, in a fixed order: fewer component types first, among equally many in ascending order of the archetype id; within an archetype the entities come in the order of its rows. This order is unique, it is stable (whatever is called in between, a later iteration visits the archetypes an earlier one visited in the same relative order), and it does not depend on the order in which the archetypes were created: two registries with the same archetypes at different positions are visited in the same order.", "quantifier": "all reachable registries, all valid groups, all filters, all later histories, all pairs of reachable registries with the same archetypes", "why_tests_cant": "Tests check a few iterations over registries with few archetypes; that the order is never affected by the history, over all histories and component sets, is a statement about all pairs of executions.", "anchors": ["src/archetype_registry/iterators/archetype_iter.rs:ArchetypeIter::next", "src/archetype_registry/iterators/filter_archetype_iter.rs:FilterArchetypeIter::next", "src/archetype_registry/mod.rs:ArchetypeRegistry::find_or_create_archetype", "src/registry/registry.rs:Registry::iter_entity_components_matching"]}
{"id": "C99", "title": "A collision of component sets harms no other entity", "statement": "If a component set passed to create_entity has the 32-bit archetype id of an existing archetype with as many, but other, components, the call still succeeds when there is room and stays inside the memory of that archetype, and no other entity's components change.", "quantifier": "every reachable registry, every valid group of component types of any sizes, colliding with any archetype with any number of rows", "why_tests_cant": "Collisions of the 32-bit hash are rare, so no test meets one; what happens depends on the sizes of all pairs of types in the two sets, on the number of rows and on the capacity, and is undefined behaviour in the bad cases.", "anchors": ["src/registry/registry.rs:Registry::create_entity", "src/archetype/data_access.rs:Archetype::write_entity_unchecked", "src/archetype/data_access.rs:Archetype::push_entity_unchecked", "src/archetype_registry/mod.rs:ArchetypeRegistry::find_or_create_archetype"]}
{"id": "C100", "title": "Adding or removing a component keeps the others even if component sets collide", "statement": "If there is room, add_component and remove_component on a live entity succeed and the entity keeps all its other components with their values, and after remove_component no longer has the removed one, whatever the 32-bit archetype id of its new component set is.", "quantifier": "every reachable registry, every live entity, every component type it lacks or has, any archetype the id of its new set may coincide with", "why_tests_cant": "Collisions of the 32-bit hash are rare, so no test meets one; which components are lost, duplicated or read from unwritten memory depends on both sets, on the rows earlier entities left behind and on the capacity of the archetype.", "anchors": ["src/registry/registry.rs:Registry::add_component", "src/registry/registry.rs:Registry::remove_component", "src/archetype_registry/mod.rs:ArchetypeRegistry::find_or_create_archetype_adding_component", "src/archetype_registry/mod.rs:ArchetypeRegistry::find_or_create_archetype_removing_component", "src/archetype/data_access.rs:Archetype"]}
{"id": "C101", "title": "With enough component types, collisions cannot be avoided", "statement": "Every program with 37 or more component types contains two different sets of 14 of them with the same 32-bit archetype id, so that create_entity either refuses both always, or an entity created with the second set after one with the first lacks components it was created with (or memory is written out of bounds). Likewise among any 38 types two sets of 13 share the id add_component and remove_component use, among any 65,537 type names two share the default component id, and no program has more than 65,536 component types with distinct ids.", "quantifier": "all lists of component types of the stated length with distinct ids, of any sizes and alignments below 65536; all values; both byte orders and build profiles", "why_tests_cant": "The colliding sets depend on the ids; a test would have to search billions of sets for each program, and cannot do so for all programs.", "anchors": ["src/descriptors/archetype_descriptor.rs:ArchetypeDescriptor::compute_archetype_id", "src/archetype_registry/mod.rs:ArchetypeRegistry::find_or_create_archetype", "src/registry/registry.rs:Registry::create_entity", "src/descriptors/component.rs:Component"]}
{"id": "C102", "title": "Component sets that differ in one place never collide", "statement": "Two component sets of the same size whose ascending id lists differ in one place have different archetype ids, both where create_entity computes the id and where add_component and remove_component do. In particular a program whose entities have a common set of components and one more component each, with an id larger than the common ones, has no collisions of either kind.", "quantifier": "all component ids, all sets of 1 to 14 ids (for the hashes: lists of any length), all places, both byte orders", "why_tests_cant": "There are more than 10^60 pairs of such sets; tests try a few.", "anchors": ["src/descriptors/archetype_descriptor.rs:ArchetypeDescriptor::compute_archetype_id", "src/descriptors/component_group_descriptor.rs:ComponentGroupDescriptor::new", "src/fnv1a.rs:fnv1a_hash_32"]}
{"id": "C103", "title": "Exactly which pairs of component types are refused", "statement": "A group of two different component types is refused by create_entity as invalid exactly if its component ids are 17891 and 64606, or 35535 and 59250, on little-endian targets, or 6226 and 14085 on big-endian targets. Where add_component and remove_component compute the archetype id no pair of ids gives the reserved one, so adding a second component, or removing one of three, is never refused for that reason. In larger sets at most one id in a given place gives the reserved archetype id, whatever the other components are.", "quantifier": "all pairs of the 65536 component ids, both byte orders; all reachable registries for add_component and remove_component; for larger sets all ids and places", "why_tests_cant": "There are more than two thousand million pairs, of which at most two are refused; a test would have to try them all, in every byte order.", "anchors": ["src/descriptors/archetype_descriptor.rs:ArchetypeDescriptor::compute_archetype_id", "src/descriptors/component_group_descriptor.rs:ComponentGroupDescriptor::new", "src/fnv1a.rs:fnv1a_hash_32"]}
{"id": "C104", "title": "Created entities and changed entities never share an archetype", "statement": "For every set of 1 to 13 components the archetype id that create_entity computes differs from the one that add_component and remove_component compute for the same set. So two entities with the same components are stored in the same archetype exactly if the last structural change of both was their creation, or of both add_component or remove_component; adding a component and removing it again puts a created entity into another archetype than before; and the exact iterators yield exactly the entities with exactly these components whose last structural change was their creation. For lone components the id of a created entity is that of a changed one with another component for two pairs of component ids and no others (20339 with 62381 and 52513 with 31177 on little-endian targets); a program that uses such a pair loses components and reads uninitialised memory.", "quantifier": "all component ids, all sets of 1 to 14 ids, both byte orders; all histories of public calls, all entities", "why_tests_cant": "There are more than 10^50 component sets; tests compare the two ids for a few. The pairs of lone components that are mixed up are 2 of more than four thousand million.", "anchors": ["src/descriptors/archetype_descriptor.rs:ArchetypeDescriptor::compute_archetype_id", "src/descriptors/archetype_descriptor.rs:ArchetypeDescriptor::add_component", "src/descriptors/archetype_descriptor.rs:ArchetypeDescriptor::remove_component", "src/descriptors/component_group_descriptor.rs:ComponentGroupDescriptor::new", "src/archetype_registry/mod.rs:ArchetypeRegistry::find_or_create_archetype", "src/registry/registry.rs:Registry::iter_entity_components_exact"]}
{"id": "C105", "title": "Archetypes are created on demand", "statement": "The archetypes of a registry can be computed from the calls and their outcomes alone. create_entity with 1 to 14 components with different ids asks for the archetype of created entities with these components; a successful add_component or remove_component asks for the archetype of changed entities with the new components of the entity; no other call, and no refused add_component or remove_component, asks for one. The list of archetypes holds, in the order of the first request, each thing asked for once, unless its id is the reserved one or there are 65,534 archetypes already. So no archetype appears that no call asked for, none appears twice, every successful call got the one it asked for, none disappears or changes when entities are destroyed, and if no creation with a well-formed tuple is refused the archetypes are exactly the different requests.", "quantifier": "all histories of public calls with any outcomes, in every world of component sets without collisions", "why_tests_cant": "The list is a function of a whole history of unbounded length; a superfluous archetype (for a refused call, say, or a second one for the same components after the first is empty) shows in no query a test would make.", "anchors": ["src/archetype_registry/mod.rs:ArchetypeRegistry::find_or_create_archetype", "src/archetype_registry/mod.rs:ArchetypeRegistry::find_or_create_archetype_adding_component", "src/archetype_registry/mod.rs:ArchetypeRegistry::find_or_create_archetype_removing_component", "src/registry/registry.rs:Registry::create_entity", "src/registry/registry.rs:Registry::add_component", "src/registry/registry.rs:Registry::remove_component"]}
{"id": "C106", "title": "When a component's address changes, and which calls ask for memory", "statement": "Memory is one array of bytes with addresses and the allocator may place blocks anywhere. Take any history of public calls and one more call. A component of an entity then has the same address after the call as before, except in three cases: the call succeeded in destroying, removing or moving this very entity; the call took another entity out of the same archetype and this entity was in its last row, and then its component has exactly the address that the component of the leaving entity had; or the archetype was full and got one more entity, and then its capacity doubled, the old block is freed and the address is in a new block. A call requests memory for columns exactly if it changes the capacity of some archetype or creates one; otherwise the set of allocations stays as it is, and writing components, setting names and other calls that do not change the shape of an entity never request memory. Over any further history, as long as the entity keeps its row and its archetype its capacity, the addresses of its components stay the same.", "quantifier": "all allocators with the guarantees of GlobalAlloc, all initial memories, all histories of public calls, all further calls, all entities and components", "why_tests_cant": "A test sees the addresses of one run. Whether a pointer kept across a call is still good depends on the whole history: on which row the entity has, whether it is last, and whether the archetype is full.", "anchors": ["src/archetype/data_access.rs:Archetype::resize_if_necessary", "src/archetype/data_access.rs:Archetype::resize_capacity", "src/archetype/data_access.rs:Archetype::swap_to_last_unchecked", "src/archetype/data_access.rs:Archetype::swap_drop_unchecked", "src/archetype/mod.rs:Archetype::with_capacity", "src/registry/registry.rs:Registry::create_entity", "src/registry/registry.rs:Registry::get_component_mut"]}
{"id": "C107", "title": "How often memory is requested, and which blocks are held", "statement": "A program of public calls that has run on memory with addresses has asked the allocator exactly (n + 1) * (1 + log2(capacity / 128)) times for each archetype of the registry with n components: once for each array when the archetype was created, and once more for each array whenever it doubled its capacity; nothing else it did asked for memory, so there were at most 255 requests for each archetype however long the program ran. The blocks it holds then are exactly, for each archetype, one of 4 * capacity bytes with alignment 4 for the handles and one of size * capacity bytes with the alignment of the component for each component; there is no other, and together they have the bytes counted in C83.", "quantifier": "all allocators with the guarantees of GlobalAlloc, all initial memories, all histories of public calls of any length", "why_tests_cant": "A test with a counting allocator sees one program; that no sequence of creations, moves and destructions asks once too often or keeps a stale block is a statement about all of them.", "anchors": ["src/archetype/mod.rs:Archetype::with_capacity", "src/archetype/data_access.rs:Archetype::resize_if_necessary", "src/archetype/data_access.rs:Archetype::resize_capacity", "src/archetype/data_access.rs:Archetype::dealloc", "src/registry/registry.rs:Registry::create_entity", "src/registry/registry.rs:Registry::add_component", "src/registry/registry.rs:Registry::remove_component"]}
{"id": "C108", "title": "Archetypes used on their own, on real addresses", "statement": "Any number of archetypes created, used and dropped directly, with their handles and columns as raw pointers into one memory, give the answers of plain tables of rows for every sequence of calls that keeps the documented contracts, wherever the allocator puts the blocks and however often it moves them. When the allocator returns null an assertion stops the program; otherwise no call panics or has undefined behaviour. Memory of others is untouched, every cell of every column (also of rows not yet written) has an aligned place inside a block that the program requested, the places of different cells of all archetypes do not overlap, and the blocks held are exactly those of the archetypes that still exist, so after dropping all of them nothing is left.", "quantifier": "all allocators with the guarantees of GlobalAlloc, all initial memories, all sequences of contract-keeping calls on all numbers of archetypes, all valid groups, values, capacities from 1 to 16777215", "why_tests_cant": "A test runs with the allocator of the platform and a few archetypes; overlaps, stale pointers after a realloc and misaligned places depend on the placement and on the interleaving of calls.", "anchors": ["src/archetype/mod.rs:Archetype::with_capacity", "src/archetype/mod.rs:Archetype::drop", "src/archetype/data_access.rs:Archetype::push_entity_unchecked", "src/archetype/data_access.rs:Archetype::swap_remove_unchecked", "src/archetype/data_access.rs:Archetype::swap_drop_unchecked", "src/archetype/data_access.rs:Archetype::resize_capacity", "src/archetype/data_access.rs:Archetype::copy_common_components_between_archetypes_unchecked"]}
{"id": "C109", "title": "Code that keeps to its own entities behaves the same in every registry", "statement": "Take a piece of code that creates entities and then adds, removes, replaces and destroys components and entities of its own only, without looking into handles and without using a handle after ending its entity. Far from the limits for archetypes and entities it does in every registry, whatever has happened to that registry before and whatever entities of others it holds, what it does in a new one: it stops with the same panic, or every call reports the same success, hands back the same values and drops the same values (in possibly another order), and every query about its entities gives the same answer. It leaves all other live entities as they were, and its handles stay live and distinct until it ends them. In particular two entities with the same components are indistinguishable whatever their handles are, and a registry whose entities have all been destroyed is as good as a new one.", "quantifier": "all reachable registries, all lists of operations on own entities, all handles, component sets and values within the stated limits", "why_tests_cant": "A test runs a piece of code in a few registries; this quantifies over every earlier history of the registry and all entities of others.", "anchors": ["src/registry/registry.rs:Registry::create_entity", "src/registry/registry.rs:Registry::destroy_entity", "src/registry/registry.rs:Registry::remove_entity", "src/registry/registry.rs:Registry::add_component", "src/registry/registry.rs:Registry::remove_component", "src/registry/registry.rs:Registry::get_component_mut"]}
{"id": "C110", "title": "Independent pieces of code can take turns in one registry in any way", "statement": "Any number of pieces of code that each keep to the entities they created share one registry and take turns in any order, call by call. Far from the limits, every one of them gets the reports and the answers that it gets when it runs alone in a new registry; if all of them succeed alone they succeed together; if the whole run stops with a panic, one of them stops with the same panic alone; and two different orders of turns give every piece of code the same reports and answers.", "quantifier": "all reachable registries, all numbers of scripts, all lists of operations on own entities, all interleavings, within the stated limits", "why_tests_cant": "The number of interleavings of a few scripts is already astronomical; a test runs some of them.", "anchors": ["src/registry/registry.rs:Registry::create_entity", "src/registry/registry.rs:Registry::destroy_entity", "src/registry/registry.rs:Registry::remove_entity", "src/registry/registry.rs:Registry::add_component", "src/registry/registry.rs:Registry::remove_component", "src/registry/registry.rs:Registry::get_component_mut"]}
{"id": "C111", "title": "Iteration sees what was there before plus what the code has made", "statement": "After a piece of code that keeps to its own entities has run in any registry far from the limits, iter_components_matching passes exactly the tuples it passed before the code ran and the tuples it would pass if the code had run alone in a new registry, each as often as in these two, and no others. In particular, in a registry whose earlier entities are all gone, iteration passes the same tuples as in a new registry, in possibly another order: archetypes left over from earlier entities contribute nothing.", "quantifier": "all reachable registries, all scripts on own entities, all valid groups, within the stated limits", "why_tests_cant": "A test iterates over registries with a few histories; left-over archetypes and reused slots depend on the whole history.", "anchors": ["src/registry/registry.rs:Registry::iter_components_matching", "src/registry/registry.rs:Registry::create_entity", "src/registry/registry.rs:Registry::destroy_entity", "src/archetype_registry/iterators/archetype_iter.rs:ArchetypeIter::next"]}
{"id": "C112", "title": "Entities can be moved from one registry to another", "statement": "Taking an entity out of one registry with remove_entity::<G> for its component set G and passing the result to create_entity of another registry that is not at its limits succeeds. The new entity has exactly the components and values of the old one, the old handle is dead, the new handle was not live before, and no other entity of either registry changes. The same holds for any number of entities moved one after the other: all arrive under different handles.", "quantifier": "all reachable source registries, all destination registries within the stated limits, all lists of distinct live entities, all tuple orders of their component sets", "why_tests_cant": "A test moves a few entities between a few registries; values pass through two storages whose layout, capacity and row order depend on both histories.", "anchors": ["src/registry/registry.rs:Registry::remove_entity", "src/registry/registry.rs:Registry::create_entity", "src/archetype/data_access.rs:Archetype::read_components_exact_unchecked"]}
{"id": "C113", "title": "Destroying many entities, and clearing a registry", "statement": "Calling destroy_entity for every handle of a list never faults, whatever handles are in it. Each call returns true exactly if its handle is live at the start and has not come earlier in the list; afterwards no listed handle is live and all other entities are as before; the values dropped are exactly those by which the contents of the registry have shrunk. In particular, destroying what iter_entities listed, in any order, succeeds for each entity, drops exactly the values that dropping the registry would have dropped, and leaves a registry without entities, over which iter_components_matching passes no tuple and whose own drop drops nothing.", "quantifier": "all reachable registries, all lists of handles (live, dead, repeated, invalid), all orders", "why_tests_cant": "A test clears a few registries in one order; each destruction moves another row, so the order and the layout decide which rows move where.", "anchors": ["src/registry/registry.rs:Registry::destroy_entity", "src/registry/registry.rs:Registry::iter_entities", "src/archetype/data_access.rs:Archetype::swap_drop_unchecked"]}
{"id": "C114", "title": "A system updates each entity it visits exactly once, and independent systems commute", "statement": "Client code that loops over any mutable iterator for a tuple of component types, and in each row computes new values for the tuple from the old ones and stores them, never panics and never runs into undefined behaviour. It visits every entity at most once, and over iter_components_matching_mut exactly the entities that have all the types. Afterwards the tuple of every visited entity is the function of the tuple it had before the loop, which component types it has is unchanged, its other components are unchanged, and no other entity is affected. Two such loops over tuples that share no component type can be run in either order with the same result.", "quantifier": "for all reachable registries, all valid tuple types, all type-preserving functions on tuples, all mutable iterators (the first part), all pairs of tuples with no type in common (the last part)", "why_tests_cant": "The number of archetypes, rows and columns and the function computed are unbounded; a test shows particular systems on particular registries, not that no row is skipped, visited twice, or paired with values of another entity.", "anchors": ["src/registry/registry.rs:Registry::iter_components_matching_mut", "src/archetype/data_access.rs:Archetype::get_fuzzy_slices_unchecked_mut"]}
{"id": "C115", "title": "A component can be added to many entities and taken away again", "statement": "Client code collects handles of entities, adds one component to each of them, and later removes it from the same entities in any order (the usual way to mark entities). In a registry that is not near its limits, for distinct live entities with at most 12 components that do not have the component, and as long as no component set has the reserved archetype id, every call succeeds. After the first loop each entity has the value it was given and keeps its other components, and no other entity has changed. The second loop returns to each entity's caller exactly the value that entity was given, and afterwards every query about every handle is answered as before the first loop.", "quantifier": "for all histories, all component types of the program, all lists of distinct handles and values, all orders of removal", "why_tests_cant": "Each call moves an entity between archetypes and moves another entity into the gap; that no sequence of such moves mixes up rows depends on all the intermediate states, of which a test sees one sequence.", "anchors": ["src/registry/registry.rs:Registry::add_component", "src/registry/registry.rs:Registry::remove_component", "src/archetype/data_access.rs:Archetype::swap_to_last_unchecked"]}
{"id": "C116", "title": "Entities can be selected by iteration and destroyed by handle", "statement": "Client code iterates with iter_entity_components_matching over a tuple of component types, collects the handles whose tuple satisfies a predicate, and then destroys them. It never faults. The collected handles are distinct and are exactly those live entities for which get_components returns a tuple that satisfies the predicate. Every destroy_entity call reports success. Afterwards the selected entities are dead, every other entity is live or dead as before with the same components and values, the number of live entities has shrunk by the number of selected ones, and the values dropped together with those still stored are the values stored before.", "quantifier": "for all reachable registries, all valid tuple types, all predicates on handle and tuple", "why_tests_cant": "Each destruction moves another entity's row, so handles collected before must still name the right entities after any number of moves; a test shows this for particular registries and predicates.", "anchors": ["src/registry/registry.rs:Registry::iter_entity_components_matching", "src/registry/registry.rs:Registry::destroy_entity", "src/archetype/data_access.rs:Archetype::swap_drop_unchecked"]}
{"id": "C117", "title": "Updating through iterators and through handles is interchangeable", "statement": "Client code that goes through a list of distinct handles, and for each calls get_components_mut and stores new values of the tuple computed from the old ones, never faults, whatever handles are in the list: exactly the listed entities that have all the components are updated, and nothing else changes. If the list is all handles of iter_entities, in any order, the resulting registry answers every query as the one that the same update over iter_components_matching_mut leaves.", "quantifier": "for all reachable registries, all valid tuple types, all type-preserving functions on tuples, all lists of distinct handles (dead ones included), all orders of the live handles", "why_tests_cant": "The two routes find the storage of a component in different ways (entry of the entity table against position in a slice); that they always agree is a statement about all registries and all rows.", "anchors": ["src/registry/registry.rs:Registry::get_components_mut", "src/registry/registry.rs:Registry::iter_components_matching_mut", "src/archetype/data_access.rs:Archetype::get_fuzzy_components_unchecked_mut"]}
{"id": "C118", "title": "Queries with some components and without others", "statement": "Give a filtered iterator a closure that accepts a descriptor when it contains_subset one tuple of component types and excludes_subset another. The iteration then yields exactly the entities that have all components of the iterated tuple and of the first, and none of the second; each entity once, with its handle beside its values. A loop over the mutable version that replaces each tuple by a function of it updates exactly these entities and changes nothing else. For any closure whatsoever, running such a loop over the archetypes the closure accepts and then over those it rejects leaves every query answered as running it once over all.", "quantifier": "for all reachable registries, all valid tuple types, all closures, all type-preserving functions on tuples", "why_tests_cant": "That a filter on archetype descriptors amounts to a filter on entities must hold for every mixture of archetypes, including empty ones left over from earlier entities; tests try a handful of component sets.", "anchors": ["src/registry/registry.rs:Registry::iter_filtered_entity_components_matching", "src/registry/registry.rs:Registry::iter_filtered_components_matching_mut", "src/descriptors/archetype_descriptor.rs:ArchetypeDescriptor::contains_subset", "src/descriptors/archetype_descriptor.rs:ArchetypeDescriptor::excludes_subset"]}
{"id": "C119", "title": "An entity can exchange one component type for another", "statement": "To replace a component d of a live entity by a component c it does not have, client code calls add_component for c and remove_component for d. In a registry that is not near its limits, for an entity with at most 12 components and as long as none of the component sets on the way has the reserved archetype id: adding first always works, also when d is the only component; remove_component returns the value of d, the entity then has c with the given value in place of d, keeps its handle and its other components, and no other entity has changed. If d is not the only component, removing first works too, hands out the same value, and leaves a registry that answers every query in the same way. If d is the only component, removing first is refused and nothing changes.", "quantifier": "for all histories, all component types of the program, all values, all entities within the limits", "why_tests_cant": "The two orders take the entity through different archetypes, with different rows moved into the gaps; that the results cannot be told apart is a statement about pairs of executions from every registry.", "anchors": ["src/registry/registry.rs:Registry::add_component", "src/registry/registry.rs:Registry::remove_component", "src/descriptors/archetype_descriptor.rs:ArchetypeDescriptor::remove_component"]}
{"id": "C120", "title": "Entities can be duplicated", "statement": "Client code reads a tuple of components of a live entity with get_components, clones the values, and passes them to create_entity; it does so for a list of entities and tuple types, in which an entity may occur several times. In a registry that is not near its limits every call succeeds. The new handles are all different and none was live before. Each new entity has exactly the components of the tuple, with the values its original had before the loop, although the originals' archetypes may have grown in between. Every entity that was there keeps its handle, components and values.", "quantifier": "for all histories, all lists of live entities with tuple types of components they have (all of them or some)", "why_tests_cant": "Each creation may push into the archetype that the next read goes to, and may reallocate it; that reads and creations never interfere, for every interleaving and every mixture of archetypes, is not covered by any number of examples.", "anchors": ["src/registry/registry.rs:Registry::get_components", "src/registry/registry.rs:Registry::create_entity", "src/archetype/data_access.rs:Archetype::get_fuzzy_components_unchecked"]}
{"id": "C121", "title": "Loops over iterators can be merged and reordered", "statement": "Consider client loops over a mutable iterator that in each row replace the tuple of values by a function of it. Two such loops over the same iterator, one after the other, leave every query answered as one loop whose body does both. A loop that writes back what it has read changes nothing. Two loops over any iterators whose tuples share no component type can be run in either order. Two loops over filtered iterators whose closures never both accept the same archetype descriptor can be run in either order even if their tuples share component types.", "quantifier": "for all reachable registries, all valid tuple types, all mutable iterators (including filtered and exact ones), all type-preserving functions on tuples, all closures that exclude each other (the last part)", "why_tests_cant": "Merging and reordering must be harmless for every body, every mixture of archetypes and every kind of iterator; tests run particular loops in a particular order.", "anchors": ["src/registry/registry.rs:Registry::iter_components_matching_mut", "src/registry/registry.rs:Registry::iter_filtered_components_matching_mut", "src/registry/registry.rs:Registry::iter_components_exact_mut"]}
{"id": "C122", "title": "A registry can be rebuilt from what its queries return", "statement": "Reading components of entities of one registry with get_components and passing copies of the values to create_entity of another registry that is not at its limits succeeds for any list of entities and component sets they have. The new entities have exactly these components and values, under handles that are all different and were not live; nothing else in the second registry changes and the first is only read. If every live entity is copied with all its components into an empty registry, the result has exactly one live entity for each original one, every query about it is answered as about the original, and exact iteration over any component set yields exactly the entities with that set, also those that exact iteration over the original misses because add_component or remove_component changed them.", "quantifier": "for all reachable registries, all lists of live entities with valid tuples of components they have, all second registries with room; for the rebuilt registry all component sets", "why_tests_cant": "Saving and loading must work for every history that led to the saved registry; tests copy particular worlds, and the repair of exact iteration depends on how each entity came to have its components.", "anchors": ["src/registry/registry.rs:Registry::get_components", "src/registry/registry.rs:Registry::create_entity", "src/registry/registry.rs:Registry::iter_entity_components_exact"]}
{"id": "C123", "title": "Loops that carry a state or are left early behave as over a list", "statement": "For every mutable iterator there is a list of entities, each of them once (over iter_components_matching_mut all that have the components), that every loop over it visits in this order. Let the body of a loop read and change variables outside the loop, compute new values of the row from them and from the old values, and leave the loop when it wants to. The loop then ends without panic or undefined behaviour; the final variables and the new values are exactly those the body computes over the plain list of the tuples that get_components returned for these entities before the loop. Entities after the row at which the loop was left, and all entities not visited, are unchanged.", "quantifier": "for all reachable registries, all valid tuple types, all mutable iterators, all types of variables, all bodies that preserve the types of the components, all initial values of the variables", "why_tests_cant": "The body and its state are arbitrary, and where the loop is left can be anywhere in any archetype; a test runs particular loops and cannot show that the order and the tuples do not depend on the body.", "anchors": ["src/registry/registry.rs:Registry::iter_components_matching_mut", "src/registry/registry.rs:Registry::iter_filtered_components_matching_mut", "src/registry/registry.rs:Registry::iter_components_exact_mut"]}
{"id": "C124", "title": "Loops that search again after every change end", "statement": "Client code looks for the first entity that iter_entity_components_matching yields with a tuple satisfying a predicate, changes it, and looks again until none is found. If it destroys the entity, the loop ends after exactly as many rounds as entities satisfied the predicate at the beginning, plus the one that finds none; it has found exactly these, each once; they are dead and all other entities are unchanged. The same holds if it removes one of the components looked for, provided every entity found has another one: afterwards these entities lack the component and are otherwise unchanged. If the first entity found has only the component to be removed, remove_component refuses and the loop never ends.", "quantifier": "for all reachable registries, all valid tuple types, all predicates on handle and tuple; for removal all programs away from the limits; for the last part any number of rounds", "why_tests_cant": "Termination for every registry and predicate cannot be tested, nor that a loop does not end; the order in which entities are found changes with every swap inside an archetype.", "anchors": ["src/registry/registry.rs:Registry::iter_entity_components_matching", "src/registry/registry.rs:Registry::destroy_entity", "src/registry/registry.rs:Registry::remove_component"]}
{"id": "C125", "title": "Writes can be undone and redone", "statement": "Client code replaces components through get_component_mut, one after the other, and notes for each write that took place the entity, the component type and the old value. Afterwards every component that exists has the last value written to it, and the others are unchanged. Writing the old values back in reverse order leaves every query answered as before the writes, and doing the same with the journal of the undoing redoes the writes. This holds for any writes, several to the same component included, and with writes to dead entities or to entities that lack the component among them, which do nothing.", "quantifier": "for all reachable registries, all lists of writes of values of the right types", "why_tests_cant": "The number of writes and which of them hit the same component or no component is unbounded.", "anchors": ["src/registry/registry.rs:Registry::get_component_mut"]}
{"id": "C126", "title": "Entities made and ended again leave the order of the others alone", "statement": "Let a piece of code begin in some registry and neither destroy nor move (add_component, remove_component, remove_entity) the entities that are live then; it may create entities, do anything with these, and write components of all. Then the rows of the old entities stay where they are in every archetype, and the rows of the new ones come after them. So all matching iterators, filtered or not, visit the old entities they visited before in the same relative order, and no other old ones; exact iteration yields what it yielded before and then new entities. If all entities the code has made are gone, iteration visits exactly the same entities in exactly the same order as when the code began, although destruction fills gaps with the last row.", "quantifier": "all reachable registries, all histories of admissible calls of this kind, however long, all valid groups, all filters", "why_tests_cant": "The order depends on every interleaving of creations, moves and destructions of the temporary entities; a test fixes one.", "anchors": ["src/registry/registry.rs:Registry::destroy_entity", "src/registry/registry.rs:Registry::add_component", "src/registry/registry.rs:Registry::remove_component", "src/registry/registry.rs:Registry::iter_filtered_entity_components_matching", "src/registry/registry.rs:Registry::iter_entity_components_exact"]}
{"id": "C127", "title": "Entities created one after the other are iterated in that order", "statement": "Creating entities with the same component set one after the other, away from the limits, always succeeds and gives different handles that were not live. Exact iteration over this set afterwards yields what it yielded before, unchanged and in the same order, followed by the new entities in the order in which they were created, and at the ends of the component slices the values they were created with, in the same order. Each new entity has exactly this set; all other entities are unchanged. It does not matter in which order the tuple names the types, how often the archetype grew, or what happened in the registry before.", "quantifier": "all histories away from the limits, all valid groups, all lists of tuples of values, of any length within the limits", "why_tests_cant": "Growth of the archetype, recycled handles and rows left by destroyed entities depend on the history and the number of entities.", "anchors": ["src/registry/registry.rs:Registry::create_entity", "src/registry/registry.rs:Registry::iter_entity_components_exact"]}
{"id": "C128", "title": "A component can be handed from one entity to another", "statement": "Client code takes a component away from an entity with remove_component and passes the value to add_component of another entity; if that refuses it, the value it returns goes back to the first entity. In a registry that is not near its limits, if the first entity has other components and the second is live and has no such component, the second then has exactly the value the first had and the first has none; both keep their handles and their other components, and no other entity changes. Handing the component back leaves every query answered as at the beginning. If the second is not live or has such a component already, the value returns to the first and every query is answered as at the beginning: the value is never lost.", "quantifier": "all histories away from the limits, all pairs of handles, all component types of the program, all values, for component sets within the limits", "why_tests_cant": "Both entities change their archetype and other entities fill the gaps they leave; which ones depends on the history.", "anchors": ["src/registry/registry.rs:Registry::remove_component", "src/registry/registry.rs:Registry::add_component"]}
{"id": "C129", "title": "What a registry contains can be listed, saved and restored", "statement": "Going through iter_entities and asking has_component for every component type of the program never faults; the list names every live entity exactly once, in iteration order, with exactly the component types it has, without repetition and between 1 and 14 of them. Copying every listed entity (get_components, then create_entity in an empty registry) succeeds, and the new registry contains exactly one entity per listed one, in the same positions, each answering has_component and get_component as the original does.", "quantifier": "all registries reachable by admissible calls, all finite lists of the component types of the program, all saved registries for whose entities there is room", "why_tests_cant": "Tests save and restore a fixed small registry; the claim is about every reachable registry, including those whose rows were moved by removals, and about every combination of types its entities have.", "anchors": ["src/registry/registry.rs:Registry::iter_entities", "src/registry/registry.rs:Registry::has_component", "src/registry/registry.rs:Registry::get_components", "src/registry/registry.rs:Registry::create_entity"]}
{"id": "C130", "title": "Values can be exchanged among entities, and none is lost", "statement": "Holding one value of a component type and swapping it (get_component_mut, mem::swap) with that of one entity after the other, for any list of handles (repeated, dead, or lacking the component), never faults, changes no entity's liveness, component set, other components or the order of iter_entities, and conserves the values: those of the live entities together with the one in hand are the same multiset before and after. Along distinct entities that have the component every value moves on by one; coming back to the first entity makes it a rotation that returns the initial value, so that for two different entities a, b the sequence a, b, a exchanges exactly their values. If b lacks the component nothing changes; for b = a the entity is left with the value that was in hand.", "quantifier": "all registries reachable by admissible calls, all component types of the program, all values of that type, all lists of handles", "why_tests_cant": "A test swaps two fixed entities; the claim is about all lists of handles, in particular those with repetitions and dead handles, and about everything else in the registry staying as it is.", "anchors": ["src/registry/registry.rs:Registry::get_component_mut", "src/registry/registry.rs:Registry::get_component", "src/registry/registry.rs:Registry::has_component"]}
{"id": "C131", "title": "A component type can be replaced by another on all entities", "statement": "Client code collects all entities with a D through iter_entity_components_matching and, for each of them, reads the D, adds a C computed from it and removes the D. Away from the limits, if no such entity has a C already, all calls succeed; afterwards every entity that had a D has, in place of it, the C computed from its own D, and all its other components with their values; no entity has a D and iteration over D yields nothing; entities that had no D are unchanged. The same holds for any list of distinct entities with a D. It does not matter that every conversion moves rows of entities still to be converted, nor whether D was their only component. Converting the same entities back, in any order, with a function that undoes the first leaves every entity as it was at the beginning.", "quantifier": "all histories away from the limits, all pairs of component types of the program, all functions from values of D to values of C, all lists of distinct entities", "why_tests_cant": "Every conversion moves the entity twice and fills gaps with other rows; whether the values stay with their entities must hold for all populations and orders.", "anchors": ["src/registry/registry.rs:Registry::iter_entity_components_matching", "src/registry/registry.rs:Registry::get_component", "src/registry/registry.rs:Registry::add_component", "src/registry/registry.rs:Registry::remove_component"]}
{"id": "C132", "title": "Handles kept in components lead to the entities they were taken from", "statement": "Let a component type hold the handle of another entity. The handle is the same when it is read again, on machines of either byte order. After any sequence of calls, following such links through any number of entities with get_component never faults and leads where the links last stored lead; the component read at the end is the one last stored for that entity, although rows and archetypes of both entities may have changed in between. A link to an entity that has ended leads nowhere (get_component is None) until the slot has been vacated 255 further times, whether or not the slot is in use again.", "quantifier": "all histories of admissible calls that name the entities they write to, all link types of four bytes, all component types, all lengths of chains; for ended entities all reachable registries and all further histories", "why_tests_cant": "A test follows fixed links in a small registry; the claim is about all histories between the storing of the handle and its use, and about chains of any length.", "anchors": ["src/registry/registry.rs:Registry::get_component", "src/entity_registry/entity.rs:Entity", "src/registry/registry.rs:Registry::destroy_entity"]}
{"id": "C133", "title": "Loops within loops visit every pair of entities once", "statement": "A loop over iter_entity_components_matching for one tuple of types within a loop over it for another never faults and gets every pair of an entity with the first components and an entity with the second exactly once (an entity with itself, if it has both), with the tuples that get_components returns for them. If both tuples are the same and the inner loop skips the rows the outer one has reached, every two different entities with the components meet exactly once, in one order, and no entity meets itself.", "quantifier": "all registries reachable by admissible calls, all pairs of valid tuple types", "why_tests_cant": "That no pair is missed or repeated depends on both iterations being complete and in the same order, for all populations and distributions over archetypes.", "anchors": ["src/registry/registry.rs:Registry::iter_entity_components_matching", "src/registry/registry.rs:Registry::get_components"]}
{"id": "C134", "title": "Totals over a query depend on the entities alone and can be kept up to date", "statement": "A total computed in a loop over iter_entity_components_matching, with a step for which the order does not matter (a count, a sum, a maximum), is determined by the entities. (1) Two registries that give the same answers about every handle have the same totals, although their iterators may visit the entities in different orders. (2) If they give the same answers about every handle but one, there is a common total to which each adds the tuple its get_components returns for that handle, if it returns one. (3) So a call about an entity (destroy_entity, remove_entity, add_component, remove_component, a write) changes a total by what this entity added before and adds afterwards, and create_entity adds the tuple of the new entity and nothing else.", "quantifier": "every two reachable registries, every valid query, every order-independent step function and start value, every admissible call", "why_tests_cant": "The visiting order depends on the whole history (creation order of archetypes, rows moved by removals); tests compare totals for a few histories, not for all pairs of registries with the same contents.", "anchors": ["src/registry/registry.rs:Registry::iter_entity_components_matching", "src/registry/registry.rs:Registry::get_components", "src/registry/registry.rs:Registry::create_entity", "src/registry/registry.rs:Registry::destroy_entity"]}
