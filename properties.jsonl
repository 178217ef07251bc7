{"id": "C01", "title": "Arena handles read back what was inserted, and inserts disturb nothing", "statement": "After `insert(v)` returns handle h, `get(h)` yields v, and every other handle resolves to exactly what it resolved to before the insert.", "quantifier": "every arena reachable by any sequence of new/with_capacity/insert/remove/reserve(at least one)/overwrite calls, every value, every handle", "why_tests_cant": "the free list, slot reuse and growth depend on the whole history of inserts and removals; a test fixes one history", "anchors": ["crates/datastructures/arena/src/lib.rs: Arena::insert, Arena::get, Arena::remove, Arena::reserve"]}
{"id": "C02", "title": "A removed arena handle never resolves again (no ABA)", "statement": "Once `remove(h)` has returned Some, no later sequence of operations makes `get(h)`, `contains(h)` or a second `remove(h)` succeed, even though the slot itself is reused.", "quantifier": "every history before and after the removal, of any length", "why_tests_cant": "the failure needs a particular reuse pattern after an arbitrarily long history", "anchors": ["crates/datastructures/arena/src/lib.rs: Arena::remove, Arena::get, Arena::contains"]}
{"id": "C03", "title": "An arena never issues the same handle twice", "statement": "Handles returned by two different `insert` calls on the same arena are always different, whatever happened between them.", "quantifier": "all histories of one arena", "why_tests_cant": "requires comparing all pairs of inserts of unbounded histories", "anchors": ["crates/datastructures/arena/src/lib.rs: Arena::insert"]}
{"id": "C04", "title": "An arena is observably a finite map: len, is_empty, iter, contains and get agree", "statement": "At every point of every history `len` equals the number of handles that resolve, `is_empty` says len = 0, `iter` yields each live (handle, value) exactly once and nothing else, and get/remove/insert behave as lookup/delete/add of a map keyed by handle.", "quantifier": "all operation sequences (reserving at least one slot)", "why_tests_cant": "refinement over unbounded sequences", "anchors": ["crates/datastructures/arena/src/lib.rs: Arena::len, Arena::is_empty, Arena::iter, Arena::contains, Arena::get, Arena::remove"]}
{"id": "C05", "title": "Capacity operations are invisible to contents, and capacity always covers the contents", "statement": "`reserve` and growth change no lookup, and `capacity() >= len()` always holds; reserving n guarantees at least n more inserts before the capacity changes. (False for reserve(0), after which the next insert panics, as far as the source of generational_arena 0.2.8, which is not in /repo, is known.)", "quantifier": "all arenas reachable, all reservation sizes", "why_tests_cant": "depends on every interleaving of growth and free-list reuse", "anchors": ["crates/datastructures/arena/src/lib.rs: Arena::capacity, Arena::reserve, Arena::with_capacity"]}
{"id": "C06", "title": "At most one registered contract per contract id", "statement": "In every reachable baseline no two registered contracts have equal ContractId; `register_contract::<C>` returns Err exactly when a contract with C's id is currently registered, and then changes nothing; otherwise it returns an instance whose handle resolves to a ContractData with that id and no objects.", "quantifier": "all histories of baseline API calls, all contract types", "why_tests_cant": "needs all interleavings of register/unregister", "anchors": ["client/rust/src/baseline.rs: Baseline::register_contract, Baseline::unregister_contract", "client/rust/src/contract/mod.rs: ContractId"]}
{"id": "C07", "title": "Rejected baseline calls change nothing", "statement": "If register_contract, object_create or unregister_contract returns Err, or a write through a dead handle returns Err, the baseline afterwards is exactly the baseline before the call.", "quantifier": "all baselines and all arguments", "why_tests_cant": "requires every error path on every state", "anchors": ["client/rust/src/baseline.rs: object_create, register_contract, unregister_contract, state_mut"]}
{"id": "C08", "title": "object_create accepts exactly the well-typed arguments", "statement": "`object_create(contract, states, channels)` succeeds if and only if the contract's handle is registered, the supplied states have exactly the contract's state types in order, and the channels exactly its channel types in order.", "quantifier": "all baselines, all contract schemas (any number of fields), all argument lists", "why_tests_cant": "schemas and argument lists are unbounded", "anchors": ["client/rust/src/baseline.rs: object_create (check_types!)"]}
{"id": "C09", "title": "A freshly created object reads back the supplied values field by field", "statement": "After a successful object_create, binding the i-th state id of the contract to the new object and reading it yields the i-th supplied value; likewise for channels; the object's contract is the one given and its time warp is the identity warp.", "quantifier": "all reachable baselines, all schemas, all field values, every field index", "why_tests_cant": "unbounded field lists; index confusion only shows for some schemas", "anchors": ["client/rust/src/baseline.rs: object_create, bind_state, bind_channel, state, channel", "client/rust/src/object.rs: Object::bind_state"]}
{"id": "C10", "title": "Creating an object leaves every existing handle's meaning unchanged", "statement": "A successful object_create changes no other object, no existing state or channel value and no other contract; the owning contract gains exactly the new object handle.", "quantifier": "all reachable baselines, all existing handles", "why_tests_cant": "frame property over all handles", "anchors": ["client/rust/src/baseline.rs: object_create, state_create, channel_create"]}
{"id": "C11", "title": "Every field of every live object can be bound and read", "statement": "At every point of every history, for every live object created through contract instance c, and every field i of c, bind_state / bind_channel with c's i-th id succeeds and the resulting handle resolves to a value of the declared type.", "quantifier": "all histories (including failed and panicking calls), all live objects, all fields", "why_tests_cant": "an invariant over unbounded histories", "anchors": ["client/rust/src/baseline.rs: bind_state, bind_channel, state, channel", "client/rust/src/object.rs: bind_state, bind_channel"]}
{"id": "C12", "title": "Distinct fields never alias", "statement": "Two different (object, field) pairs of live objects never bind to the same state (or the same channel): writing one can never be observed through another.", "quantifier": "all histories, all pairs of live objects and fields", "why_tests_cant": "pairs over unbounded histories", "anchors": ["client/rust/src/baseline.rs: object_create, state_create, bind_state"]}
{"id": "C13", "title": "Writing a state changes only that state", "statement": "Writing value v through a live state handle makes that handle read v, and every other state handle (of any type), every channel, object and contract reads as before; writing through a dead handle is Err and changes nothing.", "quantifier": "all baselines, all handles, all values", "why_tests_cant": "frame property over all handles and types", "anchors": ["client/rust/src/baseline.rs: state_mut", "client/rust/src/contract/properties/states/handle.rs: get_mut", "client/rust/src/contract/properties/states/dyn_handle.rs: get_mut"]}
{"id": "C14", "title": "Ids of another contract are rejected", "statement": "bind_state/bind_channel with an id whose contract differs from the object's contract returns Err, and Object::state/Object::channel panic; with the right contract and an index below the object's field count they return the same handle as bind. Binding any id to a handle that names no object is Err.", "quantifier": "all objects, all ids", "why_tests_cant": "all combinations of ids and objects", "anchors": ["client/rust/src/object.rs: Object::state, Object::channel, bind_state, bind_channel", "client/rust/src/baseline.rs: bind_state"]}
{"id": "C15", "title": "Handles to removed objects and unregistered contracts stay dead", "statement": "Once object_remove has been called on a live object (whatever it returned) or a contract has been successfully unregistered, that handle never resolves again in any later history, and the removed object can never be bound.", "quantifier": "all histories after the removal", "why_tests_cant": "unbounded continuation with slot reuse", "anchors": ["client/rust/src/baseline.rs: object_remove, unregister_contract, object, contract_data, bind_state"]}
{"id": "C16", "title": "object_remove frees the object and all its states and channels", "statement": "Calling object_remove::<C> on a live object of contract C returns Ok, the object no longer resolves, its states and channels no longer resolve, and nothing else changes.", "quantifier": "all reachable baselines and live objects", "why_tests_cant": "holds or fails per schema; tests in the repo only remove nothing", "anchors": ["client/rust/src/baseline.rs: object_remove, bind_state, state_remove"]}
{"id": "C17", "title": "A contract's object set is exactly its live objects", "statement": "In every reachable baseline, the objects listed by contract_data(h).objects() are exactly the live objects whose contract is h, without duplicates.", "quantifier": "all histories", "why_tests_cant": "invariant over unbounded histories", "anchors": ["client/rust/src/contract/mod.rs: ContractData::objects", "client/rust/src/baseline.rs: object_create, object_remove"]}
{"id": "C18", "title": "unregister_contract never panics and frees the contract with all its objects", "statement": "unregister_contract::<C>(h) on a registered handle whose id is C::ID returns Ok, removes the contract and every object of it, and C can be registered again.", "quantifier": "all reachable baselines, all contracts with any number of objects", "why_tests_cant": "depends on all previous creates and removes", "anchors": ["client/rust/src/baseline.rs: unregister_contract, object_remove"]}
{"id": "C19", "title": "unregister_contract rejects wrong handles and wrong types", "statement": "unregister_contract::<C>(h) returns Err, with no effect, exactly when h is not a registered contract or its id differs from C::ID.", "quantifier": "all baselines, handles and contract types", "why_tests_cant": "all states", "anchors": ["client/rust/src/baseline.rs: unregister_contract"]}
{"id": "C20", "title": "iter_objects enumerates exactly the live objects", "statement": "iter_objects yields each live object handle exactly once together with the object that handle resolves to.", "quantifier": "all reachable baselines", "why_tests_cant": "unbounded histories with slot reuse", "anchors": ["client/rust/src/baseline.rs: iter_objects", "crates/datastructures/arena/src/lib.rs: Arena::iter"]}
{"id": "C21", "title": "Main and fork baselines are isolated", "statement": "Any sequence of operations on one baseline of a realm leaves the other baseline unchanged, and each baseline reports the kind it was created with forever.", "quantifier": "all realms and operation sequences", "why_tests_cant": "unbounded sequences", "anchors": ["client/rust/src/realm.rs: Realm::new, baseline, baseline_mut", "client/rust/src/baseline.rs: Baseline::kind"]}
{"id": "C22", "title": "A handle is only meaningful in the baseline that issued it", "statement": "Using a handle issued by one baseline (e.g. Main) on another baseline (e.g. Fork) is detected: it is rejected rather than resolving to an unrelated object.", "quantifier": "all pairs of baselines and handles", "why_tests_cant": "cross-instance aliasing depends on both histories", "anchors": ["crates/datastructures/arena/src/lib.rs: Index", "client/rust/src/baseline.rs: object, state, contract_data", "client/rust/src/realm.rs: Realm"]}
{"id": "C23", "title": "Reading through an id of the wrong type is rejected", "statement": "Binding and reading a field through an id whose static type differs from the field's declared type never yields a value belonging to some other field.", "quantifier": "all objects, ids, types", "why_tests_cant": "type confusion needs particular arena layouts", "anchors": ["client/rust/src/object.rs: Object::bind_state", "client/rust/src/contract/properties/states/id.rs: StateId::new"]}
{"id": "C24", "title": "A collaction of assertions is accepted iff every assertion holds", "statement": "Applying a collaction that contains no state write returns Ok exactly when every state assertion in it names a live state of the fork whose value equals the asserted data (channel actions are ignored), and the collaction comes back with the same actions.", "quantifier": "all realms, all collactions of any length", "why_tests_cant": "unbounded action lists", "anchors": ["client/rust/src/engine.rs: apply_collaction, apply_action", "client/rust/src/action/property.rs: StateAction"]}
{"id": "C25", "title": "Collactions are atomic", "statement": "Whatever the collaction, if it is rejected the realm (both baselines and time) is exactly as before it was applied, and no other part of the engine changed.", "quantifier": "all realms and all collactions", "why_tests_cant": "every failure position of every action list", "anchors": ["client/rust/src/engine.rs: apply_collaction, reverse_actions, reverse_action"]}
{"id": "C26", "title": "State writes submitted in a collaction take effect", "statement": "A collaction consisting of a state write with a live handle and matching type is accepted and afterwards the fork state holds the written value.", "quantifier": "all realms, all live handles", "why_tests_cant": "must hold for each state", "anchors": ["client/rust/src/engine.rs: apply_action (StateAction::Write)"]}
{"id": "C27", "title": "An invalid collaction is rejected, never a crash", "statement": "Applying any collaction returns (Ok or Err): a collaction that names a dead handle is returned as Err rather than panicking.", "quantifier": "all realms and collactions", "why_tests_cant": "every position of the bad action", "anchors": ["client/rust/src/engine.rs: apply_collaction, reverse_action"]}
{"id": "C28", "title": "Collactions are applied in the order sent, each exactly once", "statement": "For every interleaving of sends and try_apply calls, the sequence of applied collactions is a prefix of the sequence of accepted sends; nothing is lost, duplicated or reordered, and a bounded queue never holds more than its capacity.", "quantifier": "all interleavings of sender and engine steps", "why_tests_cant": "schedules are unbounded", "anchors": ["client/rust/src/engine.rs: Engine::new, try_apply, apply_timeout"]}
{"id": "C29", "title": "An empty queue leaves the realm alone", "statement": "try_apply with nothing pending returns an error and changes neither the realm nor the queue; it reports Disconnected only if all senders are gone and the queue is drained.", "quantifier": "all engine states", "why_tests_cant": "all states", "anchors": ["client/rust/src/engine.rs: try_apply"]}
{"id": "C30", "title": "Engine time saturates, never wraps, and is monotone", "statement": "After any sequence of ticks the realm time is a valid i32; ticking by a non-negative amount never decreases time, and a sequence of non-negative ticks from t yields min(t + total, i32::MAX).", "quantifier": "all tick sequences", "why_tests_cant": "unbounded sequences and boundary values", "anchors": ["client/rust/src/engine.rs: Engine::tick", "client/rust/src/time/mod.rs: Ticks::add"]}
{"id": "C31", "title": "Assertions compare floats by IEEE equality", "statement": "An assertion on a float state holding NaN always fails, even against the identical NaN, and +0.0 / -0.0 assertions succeed against each other; for every non-NaN value asserting the current value succeeds.", "quantifier": "all 2^32 / 2^64 bit patterns", "why_tests_cant": "domain too large to enumerate", "anchors": ["client/rust/src/engine.rs: apply_action", "client/rust/src/contract/properties/dynamic/property.rs: DynTpPropertyRef PartialEq"]}
{"id": "C32", "title": "Tick addition and subtraction are exact clamping", "statement": "a + b and a - b on Ticks equal the exact integer sum/difference clamped to the i32 range; addition is commutative with 0 neutral; results agree with exact arithmetic whenever that fits.", "quantifier": "all pairs of i32", "why_tests_cant": "2^64 pairs", "anchors": ["client/rust/src/time/mod.rs: Add, Sub, AddAssign, SubAssign for Ticks"]}
{"id": "C33", "title": "The default time warp is the identity", "statement": "TimeWarp::default().apply(t) = t for every channel time.", "quantifier": "all i32 times", "why_tests_cant": "all inputs including extremes", "anchors": ["client/rust/src/time/mod.rs: TimeWarp::apply, TimeScale::default"]}
{"id": "C34", "title": "Time warp computes floor((parent - offset) * scale / 1024)", "statement": "For every parent time and warp the resulting channel time is the floor of (parent - offset) * scale / 1024, saturated to the i32 range.", "quantifier": "all parents, offsets and scales", "why_tests_cant": "2^96 inputs", "anchors": ["client/rust/src/time/mod.rs: TimeWarp::apply, Mul<TimeScale> for Ticks"]}
{"id": "C35", "title": "Warping preserves order", "statement": "With a non-negative scale, later parent times never give earlier channel times (time does not run backwards); with a non-positive scale the order is reversed.", "quantifier": "all pairs of parent times, all warps", "why_tests_cant": "pairs over the full range", "anchors": ["client/rust/src/time/mod.rs: TimeWarp::apply"]}
{"id": "C36", "title": "as_secs returns whole seconds", "statement": "Ticks::as_secs returns the number of whole seconds (ticks_per_second ticks each), truncated, as documented.", "quantifier": "all i32 ticks", "why_tests_cant": "full range including negatives", "anchors": ["client/rust/src/time/mod.rs: Ticks::as_secs, ticks_per_second"]}
{"id": "C37", "title": "Channel construction sorts keyframes by time and loses none", "statement": "Channel::new yields a permutation of the given keyframes; if no time is NaN the keyframes are in non-decreasing time order.", "quantifier": "all keyframe lists of any length, all f64 times including infinities and signed zeros", "why_tests_cant": "unbounded lists; IEEE special values", "anchors": ["client/rust/src/contract/properties/channels/channel.rs: Channel::new"]}
{"id": "C38", "title": "Int tweening goes from start to target", "statement": "IntTweenable easing returns the start at time 0, the target at time 1, and for times in [0,1] a value between start and target, monotone in time.", "quantifier": "all integer types, endpoints and times in [0,1]", "why_tests_cant": "all endpoint pairs, directions and times", "anchors": ["client/rust/src/contract/properties/channels/misc.rs: IntTweenable::ease"]}
{"id": "C39", "title": "Jump tweening switches exactly at 1.0", "statement": "JumpTweenable easing returns the start value for every time in [0,1) and the target at every time >= 1.", "quantifier": "all float times (every bit pattern)", "why_tests_cant": "all bit patterns incl. subnormals, negative zero, infinities and NaN", "anchors": ["client/rust/src/contract/properties/channels/misc.rs: JumpTweenable::ease"]}
{"id": "C40", "title": "Field iteration yields every field once, in order, with exact size hints", "statement": "Iterating a contract's states (or channels) with next yields exactly the ids with index 0..n-1, each with the declared type and the contract's handle; at every point size_hint equals the number of ids still to come; after exhaustion it stays exhausted.", "quantifier": "all schemas, every prefix of the iteration", "why_tests_cant": "unbounded schemas", "anchors": ["client/rust/src/contract/properties/mod.rs: prop_iter! next, size_hint", "client/rust/src/contract/mod.rs: Contract::state_iter, chan_iter"]}
{"id": "C41", "title": "Skipping with nth agrees with repeated next", "statement": "nth(n) on the field iterator returns the same id as calling next n+1 times and leaves the iterator in the same position.", "quantifier": "all schemas, positions and n", "why_tests_cant": "all n and positions", "anchors": ["client/rust/src/contract/properties/mod.rs: prop_iter! nth"]}
{"id": "C42", "title": "state_id(i) agrees with iteration and is None exactly out of range", "statement": "Contract::state_id(i)/chan_id(i) is Some iff i is below the number of declared fields, and then equals the i-th id of the iteration.", "quantifier": "all schemas and indices", "why_tests_cant": "unbounded", "anchors": ["client/rust/src/contract/mod.rs: Contract::state_id, chan_id"]}
{"id": "C43", "title": "Dynamic values know their type and convert losslessly", "statement": "Wrapping a typed value in a dynamic property reports the value's type, converting back to that type recovers the value, and converting to any other type fails; borrowing keeps type and value.", "quantifier": "all types (14 primitives and vectors of them) and all values", "why_tests_cant": "all values", "anchors": ["client/rust/src/contract/properties/dynamic/primitive.rs: prop_type", "client/rust/src/contract/properties/dynamic/vec.rs: prop_type", "client/rust/src/contract/properties/dynamic/__macro.rs: dyn_enum_helper (TryInto)", "client/rust/src/contract/properties/dynamic/borrow_impls.rs", "client/rust/src/contract/properties/dynamic/from_impls.rs", "client/rust/src/contract/properties/traits.rs: PROPERTY_TYPE"]}
{"id": "C44", "title": "Dynamic equality is type-aware", "statement": "Comparing a dynamic property with a concrete or dynamic one is true iff the types are the same and the values are equal; it is symmetric, and reflexive except for floats holding NaN.", "quantifier": "all pairs of values of all types", "why_tests_cant": "all pairs", "anchors": ["client/rust/src/contract/properties/dynamic/eq_impls.rs", "client/rust/src/contract/properties/dynamic/primitive.rs: impl_dyntpdata", "client/rust/src/contract/properties/dynamic/vec.rs: impl_equality"]}
{"id": "C45", "title": "Serialized kind tags correspond one-to-one to primitive types", "statement": "The conversion from primitive types to serialized kinds is injective and total, and comparing a serialized kind or tag with a property type is true exactly for the corresponding primitive type and never for vectors.", "quantifier": "all types and kinds (finite table), lifted to all values", "why_tests_cant": "finite but a test enumerating by hand misses entries", "anchors": ["client/serialize/rust/src/types/from_impl.rs", "client/serialize/rust/src/types/eq_impl.rs"]}
{"id": "C46", "title": "A serialized union tag equals the kind of the same primitive", "statement": "Comparing a serialized TpPrimitive tag with a TpPrimitiveKind is true exactly when they denote the same primitive.", "quantifier": "all pairs of tags and kinds", "why_tests_cant": "repo has no test for the pair table", "anchors": ["client/serialize/rust/src/types/eq_impl.rs: PartialEq<TpPrimitiveKind> for TpPrimitive"]}
{"id": "C47", "title": "The states/channels derive numbers fields by declaration order", "statement": "For an accepted struct the i-th declared field's id has index i and its declared type, and the generated type and name lists are in declaration order; field names reserved by the generated API and non-struct inputs are rejected.", "quantifier": "all field lists", "why_tests_cant": "unbounded", "anchors": ["client/contract_macro/src/lib.rs"]}
{"id": "C48", "title": "Serialize then deserialize reproduces the baseline", "statement": "Serializing a set of registered contracts and deserializing with the same contract types yields a baseline with a one-to-one correspondence of contracts and objects under which every state has the same value, object and contract references being mapped through the correspondence; only the sign of a zero float is not kept (see C126).", "quantifier": "all reachable baselines and duplicate-free lists of registered contract instances the format can carry (at most 65535 contracts, a saved form of at most a million tables (1 + 3 per contract + 2 per object + 3 per state; see C101), primitive states only, no objects of contracts with channels (see C107), none with the id of the internal null contract), whose references stay within the list and none of whose objects was removed; all hash iteration orders and all orders of the deserialize calls", "why_tests_cant": "object graphs are unbounded and hash order varies", "anchors": ["client/serialize/rust/src/serializer/mod.rs", "client/serialize/rust/src/serializer/handle_map.rs", "client/serialize/rust/src/deserializer/new/mod.rs", "client/serialize/rust/src/deserializer/new/states.rs"]}
{"id": "C49", "title": "Serialization rejects what the format cannot carry", "statement": "Serializing a contract with a vector state returns Err; serializing with an unregistered handle returns Err; a contract's schema and id are recorded exactly.", "quantifier": "all contracts", "why_tests_cant": "all schemas", "anchors": ["client/serialize/rust/src/serializer/mod.rs: serialize, serialize_contract"]}
{"id": "C50", "title": "Finishing a serializer with dangling references is an error, not a crash", "statement": "Serializer::finish returns normally for every baseline and any subset of its contracts.", "quantifier": "all baselines and subsets of contracts", "why_tests_cant": "all reference graphs", "anchors": ["client/serialize/rust/src/serializer/mod.rs: finish", "client/serialize/rust/src/serializer/handle_map.rs"]}
{"id": "C51", "title": "Serializing a contract twice is harmless", "statement": "Serializing the same contract twice yields a buffer that still decodes to the baseline's objects and values.", "quantifier": "all baselines", "why_tests_cant": "depends on reference patterns", "anchors": ["client/serialize/rust/src/serializer/mod.rs: serialize, finish", "client/serialize/rust/src/serializer/handle_map.rs"]}
{"id": "C52", "title": "Registering a contract on a deserializer requires an exact schema match", "statement": "DeserializerBuilder::register_contract::<C> succeeds only if the buffer has a contract with the same name and version, the same state names in order and the same state types in order; it fails with Err if there is none, or if C is already registered.", "quantifier": "all buffers and contract types", "why_tests_cant": "all schemas", "anchors": ["client/serialize/rust/src/deserializer/new/mod.rs: register_contract, find_serialized_contract"]}
{"id": "C53", "title": "Deserialized references always point to live objects", "statement": "When Deserializer::finish returns Ok, the resulting baseline contains no placeholder: the internal null contract and null object are gone, and every object-handle state restored from the buffer refers to a live object of the baseline.", "quantifier": "all buffers and all sequences of deserialize calls", "why_tests_cant": "all reference graphs and orders", "anchors": ["client/serialize/rust/src/deserializer/new/mod.rs: finish, deserialize_obj_with_null", "client/serialize/rust/src/deserializer/new/states.rs"]}
{"id": "C54", "title": "A reference to an object that was not deserialized is reported", "statement": "If some restored state refers to a serialized object that has not been deserialized, finish returns Err.", "quantifier": "all buffers and call orders", "why_tests_cant": "all graphs", "anchors": ["client/serialize/rust/src/deserializer/new/mod.rs: finish", "client/serialize/rust/src/deserializer/new/states.rs"]}
{"id": "C55", "title": "Deserializing hostile data never panics", "statement": "For every buffer accepted by the flatbuffers verifier, every deserializer call returns Ok or Err.", "quantifier": "all table-level buffers", "why_tests_cant": "adversarial inputs", "anchors": ["client/serialize/rust/src/deserializer/new/mod.rs: deserialize_objects, validate_obj_matches_contract"]}
{"id": "C56", "title": "A failed object is not half-instantiated", "statement": "If deserializing an object fails validation (wrong number of states, missing table, or wrong state type) no object is created for it in the baseline.", "quantifier": "all buffers", "why_tests_cant": "all malformed inputs", "anchors": ["client/serialize/rust/src/deserializer/new/mod.rs: validate_obj_matches_contract, deserialize_obj_with_null"]}
{"id": "C57", "title": "Owned native objects are freed exactly once", "statement": "For every sequence of Dispose, finalisation and StealInner calls on C# wrappers that own their pointer, each native object is dropped at most once by the wrapper, never after its ownership was given away, and not at all by borrowed (shared/mutable reference) wrappers.", "quantifier": "all call sequences and wrapper populations", "why_tests_cant": "histories of finaliser/dispose interleavings", "anchors": ["crates/rsharp/cs/src/RSharp.cs: OpaqueWrapper.Dispose, StealInner"]}
{"id": "C58", "title": "Ownership can only be taken from an owner", "statement": "StealInner on a wrapper that merely borrows its pointer is refused, so a native object never ends up with two owners.", "quantifier": "all wrappers and histories", "why_tests_cant": "needs the aliasing history", "anchors": ["crates/rsharp/cs/src/RSharp.cs: StealInner"]}
{"id": "C59", "title": "Name mangling never makes two items collide", "statement": "Two different (path, identifier) pairs mangle to different C symbol names.", "quantifier": "all paths and identifiers", "why_tests_cant": "infinite domain", "anchors": ["crates/rsharp/rust/macro/src/remangle.rs: mangle_path, remangle"]}
{"id": "C60", "title": "Deserialization is faithful to the buffer", "statement": "When Deserializer::finish returns Ok, objects of the baseline correspond one to one to object tables of the buffer, every table of a contract whose deserialize_objects call succeeded has its object, and every state holds the value written in its state table: numbers, booleans, floats and strings bit for bit, object and contract references mapped to the objects and contracts restored for the referenced tables.", "quantifier": "all table-level buffers (not only ones produced by the serializer), all registrations, all sequences of deserialize_objects calls including failing ones, all hash iteration orders", "why_tests_cant": "buffers, call sequences and hash orders are unbounded; tests only round-trip one fixed graph", "anchors": ["client/serialize/rust/src/deserializer/new/mod.rs: deserialize_objects, finish, deserialize_obj_with_null", "client/serialize/rust/src/deserializer/new/states.rs", "client/serialize/rust/src/deserializer/new/objects.rs"]}
{"id": "C61", "title": "A deserialized baseline is an ordinary baseline", "statement": "The baseline returned by Deserializer::finish could have been produced by Baseline API calls alone, none of which panics, so every guarantee about reachable baselines applies to it.", "quantifier": "all table-level buffers, all runs of the deserializer, all hash iteration orders", "why_tests_cant": "quantifies over all buffers and runs", "anchors": ["client/serialize/rust/src/deserializer/new/mod.rs: finish", "client/rust/src/baseline.rs"]}
{"id": "C62", "title": "Exactly the complete buffers are restored", "statement": "Registering some contract types, deserializing their objects in any order and finishing succeeds if and only if the buffer describes every requested type, the object tables of those types are well formed and have their strings, no reference to an object is a state of two of their objects or twice of one, references only lead to contracts and objects of the requested types, and the types have distinct ids and no object tables if they have channels. Then the baseline has exactly those contracts and exactly one object per object table, with the values the tables give.", "quantifier": "all table-level buffers (of at most a million tables for success), all lists of contract types, every order of the deserialize_objects calls, every hash iteration order, main and fork baselines", "why_tests_cant": "graphs, schemas, orders and hash orders are unbounded; the repository tests one fixed graph", "anchors": ["client/serialize/rust/src/deserializer/new/mod.rs: register_contract, deserialize_objects, finish"]}
{"id": "C63", "title": "Native strings are always valid UTF-8", "statement": "String__copy_utf8 succeeds exactly on byte sequences that are the UTF-8 encoding of some text and keeps those bytes; String__copy_utf16 succeeds exactly on unit sequences that are the UTF-16 encoding of some text and stores the UTF-8 encoding of the same text; every other input makes the call panic.", "quantifier": "all byte sequences and all sequences of 16-bit units, of any length", "why_tests_cant": "the inputs are unbounded, and the rejected cases (overlong forms, surrogates, values past U+10FFFF, truncated sequences) are spread all over the input space", "anchors": ["crates/rsharp/rust/src/string.rs: String__value, String__copy_utf8, String__copy_utf16"]}
{"id": "C64", "title": "A managed string survives the round trip through a native string", "statement": "new RString(s).Value equals s for every C# string s. (False: the empty string throws, lone surrogates come back as U+FFFD; proved: every other string comes back unchanged, and in general exactly the lone surrogates are replaced.)", "quantifier": "all C# strings (all sequences of UTF-16 code units)", "why_tests_cant": "quantifies over all strings; a test picks a few, usually well-formed and non-empty", "anchors": ["crates/rsharp/cs/src/RString.cs: RString(string), Value", "crates/rsharp/rust/src/string.rs"]}
{"id": "C65", "title": "Dynamic handles are exactly the typed handles", "statement": "Every dynamic state or channel handle is the conversion of exactly one typed handle: it reports that handle's property type, converts back to it at that type and at no other, and two dynamic handles are equal exactly when they come from the same typed handle. Reading or changing a state or channel through the dynamic handle reads or changes exactly what the typed handle names, and is Err, with no change, exactly when the typed access is.", "quantifier": "all 28 property types, all handles (live, stale, or of another baseline), all baselines, all changes made through the returned reference", "why_tests_cant": "quantifies over every type and every handle in every baseline; the frame part (nothing else changes) ranges over everything else in the baseline", "anchors": ["client/rust/src/contract/properties/states/dyn_handle.rs: DynStateHandle", "client/rust/src/contract/properties/channels/dyn_handle.rs: DynChannelHandle", "client/rust/src/contract/properties/dynamic/__macro.rs: DynEnum"]}
{"id": "C66", "title": "Index operators agree with the fallible accessors", "statement": "baseline[handle] for an object, state or channel handle, shared or mutable, gives the same reference as the method returning a Result whenever that is Ok, and panics, leaving the baseline unchanged, exactly when it is Err.", "quantifier": "all baselines, all handles of all types, all writes through the mutable index", "why_tests_cant": "quantifies over every baseline and handle", "anchors": ["client/rust/src/baseline.rs: Index, IndexMut impls"]}
{"id": "C67", "title": "Objects of the shipped contracts read back what they were created with", "statement": "With ExampleContract or BallContract registered in a baseline, the FFI object_create returns a new object, and for every field the id returned by that field's FFI getter binds to the object and reads the argument of the same name at the field's type; nothing that existed before changes. Registering through the C API succeeds exactly when the contract id is not taken and panics, without effect, otherwise.", "quantifier": "all reachable baselines, all argument values, every field of both contracts", "why_tests_cant": "the positional argument list, the macro-generated indices and the named getters must line up for all values in every baseline; a test with equal or few values cannot see swapped fields", "anchors": ["client/contract_example/rust/src/lib.rs: ExampleContract__object_create, ExampleContract__register", "client/contract_example/rust/src/states.rs: ExampleStates__*", "demos/unity_states/rust/src/lib.rs: BallContract__object_create, BallStates__*"]}
{"id": "C68", "title": "Removing through the C API returns", "statement": "Removing a live object of ExampleContract or BallContract through the C API, or unregistering BallContract, returns normally. (False: object_remove panics on every call, after removing the object and leaking its states; unregister returns exactly when no object is listed.)", "quantifier": "all baselines, all handles, all hash iteration orders", "why_tests_cant": "the failure depends on which objects exist; it is stated for every baseline and handle", "anchors": ["client/contract_example/rust/src/lib.rs: ExampleContract__object_remove", "demos/unity_states/rust/src/lib.rs: BallContract__object_remove, BallContract__unregister"]}
{"id": "C69", "title": "The C API panics exactly where the Rust API errs", "statement": "Every baseline accessor of the C API returns what the Rust method it wraps returns when that is Ok, and panics, changing nothing, exactly when that is Err.", "quantifier": "all baselines, handles, ids and primitive types", "why_tests_cant": "quantifies over every handle and baseline", "anchors": ["client/rust/src/baseline.rs: c_api", "client/rust/src/contract/properties/states/mod.rs: c_api State_T__value_set"]}
{"id": "C70", "title": "The circle game keeps its circles apart", "statement": "However its systems are scheduled and whatever random numbers are drawn, the circle game does not panic, keeps exactly one hundred circles that start on the 10x10 grid, moves each circle by its own step only, draws each circle where it is after a sync, and never changes the main baseline.", "quantifier": "all sequences of runs of the two systems, all random numbers, any f32 arithmetic", "why_tests_cant": "unbounded schedules and random inputs; aliasing of two circles' states would only show for some of them", "anchors": ["demos/circle_game/src/lib.rs: configure_app, setup, random_walk, sync_transforms", "demos/circle_game/src/circle.rs"]}
{"id": "C71", "title": "The colour sent by the Unity demo is faithful", "statement": "The 64-bit colour computed from the 16-bit channels holds red, green, blue and alpha side by side, so different colours are sent as different numbers. (False: C# masks the shift counts 48 and 32, so red collides with blue and green with alpha and the word is sign-extended; the exact word and the exact set of colours sent correctly are proved.)", "quantifier": "all 2^64 combinations of channel values", "why_tests_cant": "2^64 inputs; white and dark blue, which a test might try, are correct", "anchors": ["demos/unity_states/unity/Assets/Scripts/BallStateDataSourceUnity.cs: color"]}
{"id": "C72", "title": "The C# API is memory safe", "statement": "However the methods of the C# classes are combined, no native function is ever called with a freed, moved, wrongly typed, aliased or read-only-but-written pointer. (False: borrowed wrappers outlive their owner, borrowed values can be given away, four methods pass the wrong pointers, one frees a handle its wrapper still owns; proved for programs that follow a borrow-checking discipline stated in Spec/BorrowRules.)", "quantifier": "all programs: all sequences of method calls and disposals on all wrappers", "why_tests_cant": "quantifies over all call sequences; undefined behaviour often passes tests", "anchors": ["client/cs/src", "client/codegen_wrapped/*.tpl", "client/contract_example/cs/src/ExampleContract.cs", "demos/unity_states/cs/src/BallContract.cs", "crates/rsharp/cs/src/RSharp.cs", "client/rust/src/baseline.rs: c_api"]}
{"id": "C73", "title": "Disposing every wrapper frees all native memory", "statement": "At any time the native objects allocated are those of the owning wrappers not yet disposed or given away, one each, so that nothing is left once all wrappers are disposed. (False for RVec_Keyframe_U8, whose native drop is commented out; proved for everything else in disciplined programs.)", "quantifier": "all disciplined programs", "why_tests_cant": "quantifies over all call sequences; leaks are invisible to functional tests", "anchors": ["crates/rsharp/cs/src/RSharp.cs: Dispose, StealInner", "client/cs/src/RVec_Keyframe.cs: NativeDrop"]}
{"id": "C74", "title": "Float views of a time scale are correctly rounded", "statement": "TimeScale::as_f64 is exactly numerator/1024; TimeScale::as_f32 is an f32 nearest to it, exact for 24-bit numerators, and never reverses order; the default scale is exactly 1; as_millis_i64 and numerator_as_i64 keep the number.", "quantifier": "all i32 values, every round-to-nearest function", "why_tests_cant": "all 2^32 scales; rounding twice could be off by one ulp on a few", "anchors": ["client/rust/src/time/mod.rs: TimeScale::as_f32, as_f64, numerator_as_i64, Ticks::as_millis_i64"]}
{"id": "C75", "title": "as_secs_f32 is the time in seconds", "statement": "Ticks::as_secs_f32 returns the f32 nearest to ticks / ticks_per_second. (False: it divides by 1024; wrong for every non-zero time. Proved: it is the f32 nearest to ticks/1024, monotone, right sign.)", "quantifier": "all i32 ticks, every round-to-nearest function", "why_tests_cant": "the error is 2.3 %, a tolerance test can hide it", "anchors": ["client/rust/src/time/mod.rs: Ticks::as_secs_f32, ticks_per_second"]}
{"id": "C76", "title": "The substitute macro replaces what it says and nothing else", "statement": "An item annotated with #[substitute(value)] expands to the same item with value in place of every substitute!() expression and of every substitute!() in an attribute, everything else unchanged, and the expansion always terminates.", "quantifier": "all items, values and attribute texts", "why_tests_cant": "the inputs are all syntax trees; whether the recursion terminates depends on the value and the nesting, which no finite set of expansions shows", "anchors": ["crates/rsharp/rust/macro/src/substitute.rs: VisitAndSub::visit_expr_mut, visit_attribute_mut, substitute"]}
{"id": "C77", "title": "A baseline behaves as a database of maps", "statement": "For every sequence of register, unregister, create, remove, write and warp calls on a fresh baseline, with the results they had (including errors and panics), a plain database - one map of contracts, one of objects, one map of states and one of channels per property type - gives the same results in the same order, and afterwards every reader (contract data, object, state, channel, iteration, both bindings) answers what that database holds.", "quantifier": "all histories of public calls, all contract types, values, handles and hash orders", "why_tests_cant": "the equivalence is between two state machines over unboundedly many call sequences", "anchors": ["client/rust/src/baseline.rs: Baseline (all public methods)", "client/rust/src/contract/properties/states/mod.rs: StateArenaMap", "client/rust/src/contract/properties/channels/mod.rs: ChannelArenaMap"]}
{"id": "C78", "title": "What was restored can be saved again, for ever", "statement": "If contracts of a baseline can be saved (they are registered, their objects were created with their type and are present, the format can carry their states, they refer to nothing else, contracts with channels have no objects, a saved form of at most a million tables), then saving and restoring them succeeds whatever the order of the calls, the kind of baseline and the hash iteration orders; the restored contracts can be saved again under the same conditions; and after any number of such cycles, each with any choices, the next cycle succeeds too and its result still has the contents of the original (up to the sign of zeros, see C126).", "quantifier": "all reachable baselines, all closed sets of contracts, all numbers of cycles, all call orders and hash iteration orders of every cycle", "why_tests_cant": "a test performs a fixed number of cycles on a fixed baseline with one hash seed", "anchors": ["client/serialize/rust/src/serializer/mod.rs:Serializer::serialize", "client/serialize/rust/src/serializer/mod.rs:Serializer::finish", "client/serialize/rust/src/deserializer/new/mod.rs:DeserializerBuilder", "client/serialize/rust/src/deserializer/new/mod.rs:Deserializer::finish"]}
{"id": "C79", "title": "Read-only references are not written through", "statement": "A C# wrapper that is a shared reference gives no write access: an attempt to modify or take over the native object behind it is rejected with an exception and never carried out. In particular assigning to the properties of the Unity demo works.", "quantifier": "all C# programs over the API, all methods and arguments, all property types", "why_tests_cant": "needs every program; the undefined behaviour usually goes unnoticed in a test", "anchors": ["client/codegen_wrapped/state.cs.tpl:State_T.Value", "client/cs/src/StateAccessors.cs:State", "crates/rsharp/cs/src/RSharp.cs:OpaqueWrapper", "demos/unity_states/unity/Assets/Scripts/BallStateDataSourcePlatform.cs:pos_x"]}
{"id": "C80", "title": "Wrappers can be left to the garbage collector", "statement": "No wrapper has to be disposed by hand or kept alive: a C# program that follows the borrow rules and leaves wrappers to their finalizers never makes the native library use freed memory, whatever the schedule of the collector.", "quantifier": "all C# programs over the API, with or without Dispose and GC.KeepAlive; all schedules of finalizers, between calls and within a call", "why_tests_cant": "the collector's schedule is not under a test's control; a finalizer in the middle of a call practically never happens in a test", "anchors": ["crates/rsharp/cs/src/RSharp.cs:OpaqueWrapper.~OpaqueWrapper", "crates/rsharp/cs/src/RSharp.cs:OpaqueWrapper.Dispose", "client/cs/src/StateAccessors.cs:State", "client/cs/src/Baseline.cs:ContractData"]}
{"id": "C81", "title": "Racing disposals free the object once", "statement": "However the steps of several threads that call Dispose or StealInner on the same owning wrapper interleave (the finalizer thread among them), the native object is taken by exactly one of the calls: freed once, not twice, and not leaked.", "quantifier": "all numbers of threads, all mixtures of the calls, all interleavings of their steps", "why_tests_cant": "the window between the check and the clearing is a few instructions; tests do not control the schedule", "anchors": ["crates/rsharp/cs/src/RSharp.cs:OpaqueWrapper.Dispose", "crates/rsharp/cs/src/RSharp.cs:OpaqueWrapper.StealInner", "crates/rsharp/cs/src/RSharp.cs:SharedWrapper.Dispose"]}
{"id": "C82", "title": "The C# wrappers behave like plain objects", "statement": "A C# program that follows the borrow rules sees exactly the results it would see if every wrapper were an ordinary object, or a view of a part of one, without any native memory behind it. In particular a state holds the value last assigned to it, a keyframe never changes, and the n-th keyframe pushed onto a vector is read back at index n; every call returns or ends the process with a Rust panic, and indexing a vector panics exactly outside 0..count.", "quantifier": "all programs of calls of the generated C# API that follow the borrow rules, all values, all interleavings with other calls", "why_tests_cant": "the result of a read depends on every earlier call through pointers into native memory; tests run a few fixed programs", "anchors": ["client/codegen_wrapped/state.cs.tpl", "client/codegen_wrapped/keyframe.cs.tpl", "client/rust/src/contract/properties/states/mod.rs: c_api", "client/rust/src/contract/properties/channels/channel.rs: c_api", "client/cs/src/RVec_Keyframe.cs:RVec_Keyframe_U8", "crates/rsharp/cs/src/RSharp.cs:OpaqueWrapper"]}
{"id": "C83", "title": "Object states can be reached from C#", "statement": "A C# program that follows the borrow rules can bind a state of an object of a registered contract and then read and write it through State and StateMut. (False: no such program can put an object into a baseline, so every BindState that is reached panics and State and StateMut are never reached.)", "quantifier": "all programs of calls of the generated C# API that follow the borrow rules", "why_tests_cant": "that no program whatsoever can do it is a statement about all programs", "anchors": ["client/cs/src/StateBindings.cs:BindState", "client/cs/src/StateAccessors.cs:State", "client/cs/src/StateAccessors.cs:StateMut", "client/rust/src/baseline.rs:Baseline__bind_state_T"]}
{"id": "C84", "title": "The C# generators write their files and nothing else", "statement": "Without -f, codegen_wrapped and the RBox generator report an error and touch nothing when there is anything in their output directory. Whatever fails on the way, and with or without -f, they change no file but the ones they generate (56 and 11 of them) and create no directory but the missing ones on the way to them. When they report success every generated file is there in full, being what its templates render to for its class; without -f the output directory then holds exactly these files. If nothing fails and the templates are in order, a run in an empty or missing directory, or with -f in any, succeeds; so an interrupted run can be repeated with -f. codegen_wrapped always returns, with success or an error; the RBox generator returns an error only if it has touched none of its files and panics on every later failure.", "quantifier": "all contents of the disk, all failures of the operating system at any call and after any number of characters, all templates", "why_tests_cant": "the failure can strike at any of more than a hundred system calls, with any contents on the disk before", "anchors": ["client/codegen_wrapped/src/lib.rs:Codegen::new", "client/codegen_wrapped/src/lib.rs:Codegen::render_to_file", "client/codegen_wrapped/src/main.rs:main", "crates/rsharp/codegen/src/codegen.rs:Codegen", "crates/rsharp/codegen/src/main.rs:main"]}
{"id": "C85", "title": "The P/Invoke generator works on each crate's own library and leaves the libraries alone", "statement": "Whatever the checkout is called, the P/Invoke generator runs to the end; when it generates the bindings of a crate, the library it reads under the overriding name is that crate's own; no crate's library is changed; and the checkout is found from where the program lies. (False in three ways: with the default overriding name unity_states that crate's library is overwritten with another's, so its bindings are generated against tp_client's and afterwards it is tp_contract_example's; with a dot anywhere in the path of the checkout the program throws at the first crate; a published build takes the client folder for the checkout. Proved otherwise.)", "quantifier": "all artifact directories, paths, overriding names, configurations", "why_tests_cant": "it depends on every character of the path and on which files happen to be in the directory", "anchors": ["client/codegen_pinvoke/Main.cs:Setup", "client/codegen_pinvoke/Main.cs:Main", "client/codegen_pinvoke/Main.cs:GetProjectDir"]}
{"id": "C86", "title": "Arena iterators visit every entry once, from either end", "statement": "For any interleaving of next and next_back on an arena's iter, iter_mut or into_iter: nothing panics, the items come from the two ends of the list of all live entries in ascending order of handles, each exactly once; size_hint and len are always the exact number of items still to come; after the last item only None follows. Through iter_mut exactly the visited values change, as written, and no handle, length or capacity does.", "quantifier": "all arenas reachable, all sequences of next/next_back calls, all writes", "why_tests_cant": "any interleaving of calls on any pattern of free and occupied slots", "anchors": ["crates/datastructures/arena/src/lib.rs:Iter", "crates/datastructures/arena/src/lib.rs:IterMut", "crates/datastructures/arena/src/lib.rs:Ord for Index"]}
{"id": "C87", "title": "Warping through nested objects keeps the error small", "statement": "Warping a time by one object after another (a realm, a child in it, a child of that, ...) gives a time that differs from the exact rational result by at most one tick per object when no object runs faster than real time, and in general by at most one tick per object magnified by the scales of the objects below it, as long as no intermediate time leaves the range of a 32-bit integer. With no object running backwards the time is never ahead of the exact one; at the default scale the offsets just add up; and for scales between zero and one two times never swap order however deep the nesting.", "quantifier": "every list of warps (any offsets, any scales) and every starting time", "why_tests_cant": "the error of a composition depends on every scale, offset and time on the way; tests try a few single warps", "anchors": ["client/rust/src/time/mod.rs:TimeWarp", "client/rust/src/time/mod.rs:ChannelTime::warp", "client/rust/src/time/mod.rs:TimeScale"]}
{"id": "C88", "title": "A read returns what was last written", "statement": "Reading a state or a channel returns the value of the last successful write through that handle at that type; if there was none, the value given for a field when some object was created, where that field binds to the handle and the handle did not resolve before the creation. No other call - registering, unregistering, creating or removing other objects, setting a time warp, failed calls - ever changes what a read returns.", "quantifier": "every history of calls on a baseline, every property type and every handle that resolves at its end", "why_tests_cant": "the last write can lie arbitrarily far back, with any mixture of other calls, failures and handle reuse in between", "anchors": ["client/rust/src/baseline.rs:Baseline::state", "client/rust/src/baseline.rs:Baseline::state_mut", "client/rust/src/baseline.rs:Baseline::object_create", "client/rust/src/baseline.rs:Baseline::channel_mut"]}
{"id": "C89", "title": "The Unity demo copies a ball frame by frame, wholly or not at all", "statement": "Whenever the synchronizer script runs, the copy of the ball in the platform's baseline becomes exactly what the ball in Unity is at that moment (ten numbers), or stays what it was; the demo never crashes, the platform's billboard shows the copy as of its last update and Unity's billboard the ball as of its last update that had a colour; without both sources assigned the copy is never touched.", "quantifier": "every order and number of scene changes and script updates, every position, rotation, scale and set of materials, every way the ball gains and loses its renderer or material", "why_tests_cant": "the interleavings of scene changes and script updates are unbounded; the demo has no tests that run in Unity", "anchors": ["demos/unity_states/unity/Assets/Scripts/BallStateDataSourceSynchronizer.cs:Update", "demos/unity_states/unity/Assets/Scripts/BallStateDataSourcePlatform.cs:Awake", "demos/unity_states/unity/Assets/Scripts/BallStateDataSourceUnity.cs:color", "demos/unity_states/unity/Assets/Scripts/BallStateBillboardViewer.cs:Update"]}
{"id": "C90", "title": "Keyframes stay in time order", "statement": "If all channels handed over when objects are created were made by Channel::new from keyframes without NaN times, then at every later time every channel of the baseline has its keyframes in time order.", "quantifier": "every history of calls on a baseline, including every change made through channel_mut and keyframes_mut", "why_tests_cant": "whether the order survives depends on every change made to any channel in the whole history", "anchors": ["client/rust/src/contract/properties/channels/channel.rs:Channel::new", "client/rust/src/contract/properties/channels/channel.rs:Channel::keyframes_mut", "client/rust/src/baseline.rs:Baseline::channel_mut"]}
{"id": "C91", "title": "Exclusive references do not break a baseline", "statement": "Whatever safe code does with the exclusive references the API hands out - Baseline::object_mut, Realm::baseline_mut, and std::mem::swap or assignment through them - every live object's fields still bind through the contract it was created with and read back in the baseline that holds the object, objects of one baseline never share a field, the asserting readers of Object never reach their unreachable case, and realm.baseline(k).kind() == k.", "quantifier": "every number of baselines and every program of API calls on them and exchanges of objects between them, of any length", "why_tests_cant": "whether an exchange does harm depends on which objects of which contracts are exchanged and on the handles both baselines happen to have issued; a test sees one pair", "anchors": ["client/rust/src/baseline.rs:Baseline::object_mut", "client/rust/src/object.rs:Object::state", "client/rust/src/realm.rs:Realm::baseline_mut"]}
{"id": "C92", "title": "Results do not depend on the build profile", "statement": "A release build of the library gives the same results as a debug build: tweening an integer channel, stepping a field iterator and serializing contracts return the same values, make the same buffers and panic on the same inputs.", "quantifier": "every pair of integer ends and every time, every iterator position and step, every sequence of contracts serialized, of any length", "why_tests_cant": "the profiles differ only when an integer operation overflows, on rare inputs (a wide tween, a step near usize::MAX, 65536 contracts); tests run in the debug profile only", "anchors": ["Cargo.toml", "client/rust/src/contract/properties/channels/misc.rs:IntTweenable::ease", "client/rust/src/contract/properties/mod.rs:nth", "client/serialize/rust/src/serializer/mod.rs:Serializer::serialize", "client/rust/src/time/mod.rs:Ticks"]}
{"id": "C93", "title": "What a program sees does not depend on the hash seed", "statement": "Two processes that make the same sequence of API calls (with the handles each was given) get the same results and end with the same observable baseline, although the object sets of contracts are hash sets whose iteration order is random per process: handles are opaque names, so at most the names of objects may differ.", "quantifier": "all sequences of API calls, all iteration orders of every traversed hash set", "why_tests_cant": "the iteration order is drawn at random per process and per set; a test sees a handful of seeds, and a property over pairs of runs of unbounded length is not a unit test", "anchors": ["client/rust/src/baseline.rs:Baseline::unregister_contract", "client/rust/src/contract/mod.rs:ContractData", "client/serialize/rust/src/serializer/mod.rs:Serializer::serialize"]}
{"id": "C94", "title": "Arena guarantees hold with the 64-bit generation counter", "statement": "The generation counter of an arena is a u64. In every history with fewer than 2^64 removals every call gives the result it would give with an unbounded counter: nothing panics, no handle is issued twice and removed handles stay dead. (One removal more, and a release build issues the first handle again while a debug build panics and loses count of the objects; the source of generational_arena 0.2.8 is not in /repo.)", "quantifier": "all histories with fewer than 2^64 removals, all values, both build profiles", "why_tests_cant": "no test can perform 2^64 operations, and the guarantee is about all histories below the bound", "anchors": ["crates/datastructures/arena/src/lib.rs:Arena::remove"]}
{"id": "C95", "title": "Threads that share an engine: every send is answered, nothing is lost or overtaken", "statement": "However many threads send to one engine through clones of its sender, with any queue capacity (including none and zero) and under any schedule: each send gets exactly one answer, in program order; the collactions of a thread are applied in the order it sent them, each once, as long as the engine exists; a bounded queue never exceeds its capacity; and if the threads and the engine keep getting turns, no thread waits for ever - every send is answered and everything handed over is applied.", "quantifier": "all numbers of threads, all programs of send/try_send, all capacities, all schedules, all points at which the engine may go away", "why_tests_cant": "interleavings are unbounded, and waiting for ever is not observable by a test", "anchors": ["client/rust/src/engine.rs: ActionSender, Engine::new, try_apply, apply_timeout"]}
{"id": "C96", "title": "A thread's collactions do not depend on what other threads send", "statement": "As long as its owner keeps the engine, everything a thread handed over is applied or still queued, whatever other threads send, and a collaction's verdict does not depend on the other threads' collactions.", "quantifier": "all programs of the other threads, all schedules", "why_tests_cant": "ranges over everything others may send and every interleaving", "anchors": ["client/rust/src/engine.rs: try_apply, apply_timeout, apply_collaction, apply_action"]}
{"id": "C97", "title": "A thread that owns the engine can send first and apply later", "statement": "A thread that owns both the sender and the engine can send any number of collactions and call try_apply afterwards: every send returns, and the collactions are applied in order.", "quantifier": "all numbers of sends, all capacities", "why_tests_cant": "waiting for ever is not observable by a test", "anchors": ["client/rust/src/engine.rs: Engine::new, try_apply"]}
{"id": "C98", "title": "Storage is given back: it stays in proportion to what is alive", "statement": "The memory a baseline occupies is bounded by a constant times the greatest number of objects, contracts, states and channels that existed at the same time: a program that creates and removes objects for ever runs in bounded memory.", "quantifier": "all histories of calls, all contract types, all numbers of rounds", "why_tests_cant": "growth without bound only shows over unboundedly long histories", "anchors": ["client/rust/src/baseline.rs: object_create, object_remove, unregister_contract", "crates/datastructures/arena/src/lib.rs: Arena::insert"]}
{"id": "C99", "title": "Creating an object looks at no more than it needs", "statement": "object_create calls next of each iterator at most once more than the contract has fields, touches neither if the contract is not registered and the second only if the first yielded what the contract declares; what the iterators would yield later has no influence; on iterators that yield two lists it depends on those lists alone; and whatever the iterators do (endless, panicking, wrong size hints) it either succeeds, exactly when the items are those declared, or leaves the baseline unchanged.", "quantifier": "all baselines, contracts and handles, all iterators of states and channels: any length including infinite, any size hint, panicking at any call", "why_tests_cant": "a test passes finite, well-behaved iterators; the claim is about every iterator, including infinite ones and ones that panic midway", "anchors": ["client/rust/src/baseline.rs:Baseline::object_create", "client/rust/src/baseline.rs:check_types"]}
{"id": "C100", "title": "Creating an object returns for every honest iterator", "statement": "object_create returns Ok or Err, and does not panic, for all iterators that do not panic themselves and whose size hints are correct. (False: it allocates a vector of the size hint first, so std::iter::repeat(x), whose hint is usize::MAX, makes it panic with a capacity overflow instead of reporting too many properties; exactly when it panics is proved.)", "quantifier": "all baselines, contracts and handles, all iterators", "why_tests_cant": "a counterexample needs an iterator no test would pass; that there is no other way to panic is a claim about all iterators", "anchors": ["client/rust/src/baseline.rs:Baseline::object_create", "client/rust/src/baseline.rs:check_types"]}
{"id": "C101", "title": "What was saved can be restored, however large", "statement": "Contracts that Serializer writes out without error can be read back by DeserializerBuilder and Deserializer with the same contract types, however many objects they have.", "quantifier": "all reachable baselines and sets of contracts the format can carry, with any number of objects, all call orders and hash iteration orders", "why_tests_cant": "the limit is met only with hundreds of thousands of tables; unit tests save ten objects", "anchors": ["client/serialize/rust/src/deserializer/new/mod.rs:DeserializerBuilder::new", "client/serialize/rust/src/serializer/mod.rs:Serializer::finish", "client/serialize/flatbuffers/baseline.fbs:Baseline"]}
{"id": "C102", "title": "What is restored does not depend on the hash seed", "statement": "Restoring a buffer, any buffer, with the same calls in the same order gives the same result in every process: the same error or the same baseline, handles included, although finish walks over hash maps. Saves of the same contracts made in different processes may be different files, but what is restored from them has the same contents, bit for bit, whatever the order of the calls on either side and the kinds of the baselines; and a complete buffer, saved by this library or not, gives the same contents in whatever order the contract types are registered and their objects deserialized.", "quantifier": "all buffers, all registrations and deserialize_objects calls (failed ones included), all hash iteration orders; all savable sets of contracts of all reachable baselines, all pairs of save-and-restore cycles; all complete buffers and all pairs of call orders", "why_tests_cant": "hash seeds are random per process: a test meets one order of each map, and a dependence shows only for some orders", "anchors": ["client/serialize/rust/src/deserializer/new/mod.rs: Deserializer::finish, deserialize_objects", "client/serialize/rust/src/deserializer/new/states.rs: InstantiatedStates::iter", "client/serialize/rust/src/serializer/mod.rs: Serializer::serialize, finish", "client/rust/src/baseline.rs: unregister_contract"]}
{"id": "C103", "title": "A removed object does not stand in the way of saving its contract", "statement": "serialize succeeds for every registered contract whose states the format can carry, also after some of its objects were removed with object_remove. (Refuted: object_remove leaves the handle in the contract's object set, and serialize returns an error for it; from then on the contract, with all its other objects, can not be saved. Proved: exactly when serialize succeeds.)", "quantifier": "every baseline reached by a history of public calls, every contract of it, every state of a serializer over it, every hash iteration order", "why_tests_cant": "whether a save works depends on the whole history of creations and removals, and the failure lasts for every later point of every continuation", "anchors": ["client/serialize/rust/src/serializer/mod.rs:Serializer::serialize", "client/rust/src/baseline.rs:Baseline::object_remove", "client/rust/src/baseline.rs:Baseline::object_create"]}
{"id": "C104", "title": "An object that was removed before a save does not come back", "statement": "Every object of a restored baseline corresponds to an object that was alive in the baseline that was saved. (Refuted for contract types without states: the serializer writes a table for every listed handle, dead or alive, and each of them is a live object after the restore. Proved: contracts with a state are only saved if all listed objects are alive, and what comes back otherwise.)", "quantifier": "every reachable baseline, every list of contracts, every hash iteration order, every way to restore", "why_tests_cant": "it needs the correspondence between all objects of two baselines over all histories", "anchors": ["client/serialize/rust/src/serializer/mod.rs:Serializer::serialize", "client/rust/src/baseline.rs:Baseline::object_remove", "client/serialize/rust/src/deserializer/mod.rs:Deserializer::finish"]}
{"id": "C105", "title": "A serialize call that failed leaves nothing behind", "statement": "If serialize returns an error, finish writes the same buffer as if it had not been called. (Refuted: the contract table and the objects before the first unreadable one in hash order have been written; a caller that goes on and finishes saves part of the contract, and which part depends on the hash seed. Proved: exactly what is left behind.)", "quantifier": "every reachable baseline, every state of a serializer over it, every contract, every hash iteration order", "why_tests_cant": "the seed of the hash map is different in every process, so a test sees one order of many", "anchors": ["client/serialize/rust/src/serializer/mod.rs:Serializer::serialize", "client/serialize/rust/src/serializer/mod.rs:Serializer::finish"]}
{"id": "C106", "title": "Saving keeps time warps", "statement": "Restoring a saved baseline gives back every object with the time warp it had.", "quantifier": "all reachable baselines and contracts that can be saved (C78), all warps, orders and hash seeds", "why_tests_cant": "the repository's round trip test never sets a warp; the claim ranges over all baselines and all warps", "anchors": ["client/serialize/rust/src/serializer/mod.rs: serialize", "client/serialize/rust/src/deserializer/new/mod.rs: deserialize_objects", "client/rust/src/object.rs: Object::time_warp", "client/rust/src/baseline.rs: object_create"]}
{"id": "C107", "title": "Objects with channels can be saved and restored", "statement": "If contracts can be saved, whether or not they have channels, then restoring what was saved succeeds.", "quantifier": "all reachable baselines and duplicate-free lists of registered contracts that meet the conditions of C78 other than the one on channels; all orders and hash seeds", "why_tests_cant": "the contracts of the repository's tests have no channels; whether a save can be read back is known only at the restore", "anchors": ["client/serialize/rust/src/serializer/mod.rs: serialize", "client/serialize/rust/src/deserializer/new/mod.rs: deserialize_objects", "client/rust/src/baseline.rs: object_create"]}
{"id": "C108", "title": "A restored baseline has no garbage", "statement": "After a save and a restore, the states alive are exactly the fields of the objects alive, each field being a state of its own, and no channel is alive. Whatever was left over in the saved baseline (states of removed objects, other contracts) is gone, and deserialization calls that failed on the way leave nothing behind.", "quantifier": "every baseline saved, every choice of contracts, every order of calls and hash order, every buffer, and every sequence of deserialize calls including failing ones", "why_tests_cant": "The leftover of any past history and any failing buffer would have to be tried, and tests see only the objects they know.", "anchors": ["client/serialize/rust/src/deserializer/new/mod.rs::Deserializer::deserialize_objects", "client/serialize/rust/src/deserializer/new/mod.rs::Deserializer::finish", "client/rust/src/baseline.rs::Baseline::object_create"]}
{"id": "C109", "title": "Handles survive a save and a restore", "statement": "A contract or object handle a program holds from before a save denotes the same contract or object in the restored baseline.", "quantifier": "every baseline, every choice of contracts to save, every order of calls and hash order", "why_tests_cant": "Depends on every history of creations and removals and on the hash seed; tests on one small baseline can agree by accident.", "anchors": ["client/serialize/rust/src/deserializer/new/mod.rs::DeserializerBuilder::new", "client/serialize/rust/src/deserializer/new/mod.rs::Deserializer::deserialize_objects", "client/serialize/rust/src/serializer/mod.rs::Serializer::serialize"]}
{"id": "C110", "title": "Int tweening clamps outside [0,1]", "statement": "Between integers whose distance the type can represent, IntTweenable easing returns a value at every time, also at times an overshooting easing function produces and at NaN and the infinities: the start at times up to 0, the target at times from 1 on.", "quantifier": "all integer types, endpoints and float times", "why_tests_cant": "all times, including non-finite ones, and all roundings", "anchors": ["client/rust/src/contract/properties/channels/misc.rs: IntTweenable::ease"]}
{"id": "C111", "title": "Saving and restoring is transparent to programs", "statement": "Save every contract of a baseline (contents that can be saved, no time warps set, no float state minus zero) and restore it, keeping main or fork. No program that goes on with the restored baseline can see a difference: replace the contract instances, contract handles, object handles and bound state handles it kept by the corresponding ones; then every later sequence of calls (register, unregister, create, remove, bind, read, write, set and read warps, look up contracts and objects, compare handles, count objects) gives the same results, values, errors and panics, handles being compared only with each other. So a program that is saved and restored any number of times, whenever its baseline can be saved, behaves as one that never was.", "quantifier": "all baselines reachable by public calls that can be saved as a whole, all choices in saving and restoring, all programs, all hash orders, all numbers and places of restarts", "why_tests_cant": "all later call sequences over all reachable baselines", "anchors": ["client/serialize/rust/src/serializer/mod.rs: serialize, finish", "client/serialize/rust/src/deserializer/new/mod.rs: deserialize_objects, finish", "client/rust/src/baseline.rs: Baseline"]}
{"id": "C112", "title": "The order of independent calls does not matter", "statement": "Two calls that register a contract, create an object, remove an object, or overwrite a state, a channel or a time warp, and that neither register the same contract id nor overwrite or remove the same state, channel or object, can be exchanged: each call returns the same result in both orders, and afterwards no program that treats handles as opaque can tell the two baselines apart (with the returned handles exchanged). Any number of overwriting calls to different things leave exactly the same baseline in every order, and each gets the result it would get alone.", "quantifier": "Every program that led to the baseline, every pair of such calls with any arguments (succeeding or failing), every later program; for the second part every baseline, every list of calls and every permutation of it", "why_tests_cant": "A test exchanges two calls in one history and looks at a few values; the claim is about all histories, all arguments and all later observations, through any free-list state of the arenas.", "anchors": ["client/rust/src/baseline.rs: register_contract, object_create, object_remove, state_mut, channel_mut, object_mut", "client/rust/src/contract/properties/states/handle.rs", "client/rust/src/contract/properties/channels/handle.rs"]}
{"id": "C113", "title": "Programs with different contracts do not disturb each other", "statement": "Any number of programs make their calls (register, unregister, create, remove, bind, read, write, set and read warps, look up contracts and objects, compare handles) on one shared baseline, in any interleaving. If no two of them register the same contract id, then a program that does not count the objects of the whole baseline gets exactly the results, values, errors and panics it would get alone on a new baseline, whatever the others do, even if their calls panic half way. The same holds if the programs go on with a baseline in use, each with a part of it (contracts whose objects mention nothing outside) and variables of its part only. (A program that counts objects sees those of the others.)", "quantifier": "all numbers of programs, all programs over the calls of the API, all interleavings of their calls, all hash seeds, main and fork, all reachable baselines to begin with", "why_tests_cant": "Tests run a few interleavings of a few programs; the claim is about all programs and all schedules, including the baseline a panic leaves behind.", "anchors": ["client/rust/src/baseline.rs: register_contract, unregister_contract, object_create, object_remove, bind_state, bind_channel, state, state_mut, channel, channel_mut, object, object_mut, contract_data, iter_objects"]}
{"id": "C114", "title": "A part of a baseline can be saved on its own", "statement": "Save some of the contracts of a baseline (contents that can be saved, no references out of them, no time warps on their objects, no float state minus zero) and restore them, keeping main or fork, while other contracts with other objects are left out. A program that kept only instances, contract handles, object handles and bound state handles of the saved contracts cannot tell the restored baseline from the original: with the corresponding variables every later sequence of calls gives the same results, values, errors and panics, as long as it does not register the id of a contract that was left out (an error in the original, a success in what is restored) and does not count all objects.", "quantifier": "all reachable baselines, all choices of contracts that can be saved, all hash seeds on both sides, all orders of restoring, all later programs over the API", "why_tests_cant": "A test saves one selection and makes a few calls; the claim is about all selections and all continuations.", "anchors": ["client/rust/src/baseline.rs", "client/serialize/rust/src/serializer/mod.rs: serialize, finish", "client/serialize/rust/src/deserializer/new/mod.rs: deserialize_objects, finish"]}
{"id": "C115", "title": "A shared baseline can be split", "statement": "Several programs share one baseline; each has a part of it (contracts that can be saved, whose objects mention nothing outside the part and have no time warps and no float state that is minus zero) and variables of its part only. Save every part and restore each into a baseline of its own. Then whatever calls the programs make from that moment on, in whatever interleaving, on the shared baseline, each of them gets exactly the results, values, errors and panics it gets when it makes its calls alone on its own restored baseline, as long as no program counts all objects, and the contracts a program registers are of its part or new and not registered by two programs.", "quantifier": "all reachable baselines, all families of separate parts, all numbers of programs, all interleavings of all later calls, all hash seeds and orders of restoring", "why_tests_cant": "Tests split one baseline and make a few calls; the claim is about all ways to split, all continuations and all schedules.", "anchors": ["client/rust/src/baseline.rs", "client/serialize/rust/src/serializer/mod.rs: serialize, finish", "client/serialize/rust/src/deserializer/new/mod.rs: deserialize_objects, finish"]}
{"id": "C116", "title": "Exactly which contracts survive a save and a restore", "statement": "In every reachable baseline, for contracts that are used with the contract types they were registered and their objects created with: saving them and restoring the result succeeds if and only if every contract is registered and occurs once, no state is a vector, every listed object of a contract that has states is alive, no state refers to an object or contract that is not saved too, no contract with channels has objects, no contract has the deserializer's internal id, there are at most 65,535 contracts and the saved form has at most a million tables. Whether it succeeds depends on nothing else, in particular not on the order of the calls, on hash orders or on main or fork; and whenever it succeeds the restored baseline has the same contents (up to the sign of zeros, see C126).", "quantifier": "all reachable baselines, all lists of contracts used with their types, all orders of serialize, registration and deserialize calls, all hash orders, both kinds of restored baseline", "why_tests_cant": "A test saves baselines that survive; that nothing else is needed, and that nothing in the list can be left out, is about all baselines and all orders.", "anchors": ["client/serialize/rust/src/serializer/mod.rs: serialize, finish", "client/serialize/rust/src/deserializer/new/mod.rs: DeserializerBuilder::new, register_contract, deserialize_objects, finish", "client/serialize/rust/tests/round_trip.rs"]}
{"id": "C117", "title": "The build script can be run again after it stopped", "statement": "Whatever runs of the macOS build script were made before, with whatever options, and at whatever command each failed or was interrupted, a later run in which nothing goes wrong completes and builds what was asked for.", "quantifier": "all options, all sequences of runs, all commands at which a run can fail or be interrupted, before or after the command took effect", "why_tests_cant": "A test runs the script once on a clean checkout; the claim is about the state every possible failure leaves behind.", "anchors": ["client/build_mac_host.sh", "client/codegen_pinvoke/codegen.csproj", "client/cs/src/client.csproj"]}
{"id": "C118", "title": "The build script leaves no stale or damaged library", "statement": "Wherever a run of the macOS build script stops, every native or managed library file is as it was, or made from the current sources, or an empty placeholder where there was none before. If the run completes, the libraries of the host and of every platform asked for were made from the current sources, and existing libraries of other platforms are untouched.", "quantifier": "all options, hosts, earlier disk contents and all commands at which a run can fail or be interrupted", "why_tests_cant": "A test sees one run from one earlier state; the claim is about every crash point and every earlier state.", "anchors": ["client/build_mac_host.sh"]}
{"id": "C119", "title": "After the build script completed, the Unity project's library links resolve", "statement": "If a run of the macOS build script reports success, then the library file of every platform the Unity project links to exists (a placeholder if the platform was not built).", "quantifier": "all options, hosts, earlier disk contents and all failures of single commands that do not stop the script", "why_tests_cant": "A test on a healthy machine has no failing directory creation; the claim is about every failure the script does not stop at.", "anchors": ["client/build_mac_host.sh"]}
{"id": "C120", "title": "The round-trip test passes for every input", "statement": "Create an EmptyContract with one object, and an ExampleContract with one object for each record of a list, each holding the record's values, the empty object's handle and the EmptyContract's handle; save both contracts and restore them into a new baseline with the calls of the repository's round-trip test. For every list of at most 34,482 records (any values, repetitions included), the restored ExampleContract has exactly one object per record with exactly its values, bit for bit except that a minus zero comes back as zero, referring to the restored EmptyContract and its single object; for longer lists reading the saved form back is refused with an error. Never is a record lost or duplicated, or a number changed. The test itself, which compares with ==, therefore passes exactly for lists of at most 34,482 records whose floats are numbers (a NaN does not equal itself).", "quantifier": "all lists of records, all hash orders of the serializer, the deserializer and the baseline, all orders of deserialization", "why_tests_cant": "the repository's test runs on one list of ten records; the claim is about every list and every hash order, and about the exact length at which restoring stops to work", "anchors": ["client/serialize/rust/tests/round_trip.rs:test_round_trip", "client/serialize/rust/src/serializer/mod.rs:serialize", "client/serialize/rust/src/deserializer/new/mod.rs:deserialize_objects"]}
{"id": "C121", "title": "Restoring does not multiply the data", "statement": "A restored baseline holds no more text than the buffer it was restored from; in particular a small file cannot make the reader allocate much.", "quantifier": "all buffers the reader accepts, all lists of contract types, all orders of the calls and of hash maps", "why_tests_cant": "object tables refer to state tables by number, so one string may be referred to by any number of objects; the verifier's guard against repeated visits does not see these numbers", "anchors": ["client/serialize/rust/src/deserializer/new/mod.rs: deserialize_obj_with_null, validate_obj_matches_contract", "client/serialize/flatbuffers/object.fbs, state.fbs"]}
{"id": "C122", "title": "The Android build step replaces the links by the libraries", "statement": "If the Unity editor's step after generating the Gradle project completes, then the project has exactly one settings object and every library listed in it, with everything below it, is in the Gradle project exactly what the plugin folder leads to and no symbolic link, and nothing else on the disk changed. It can complete if and only if there is exactly one settings object, every listed library leads to something and the directory it goes to exists.", "quantifier": "All disks with any symbolic links, all project paths, all settings found with any number of listed libraries; names are relative, not empty and do not lead up, and the sources do not lead into the Gradle project's library directory", "why_tests_cant": "The result must be right for every tree and every chain of links, and the editor with its file utilities is not available to unit tests.", "anchors": ["demos/unity_states/unity/Assets/Plugins/Constellation/Editor/ConstellationBuildPreprocessor.cs: OnPostGenerateGradleAndroidProject", "demos/unity_states/unity/Assets/Plugins/Constellation/Editor/ConstellationBuildSettings.cs: GetDefaults"]}
{"id": "C123", "title": "The Android build step touches nothing but the listed libraries", "statement": "Wherever the step stops - completed, by an exception, by a crash in the middle of deleting or copying - everything outside the listed libraries of the Gradle project is as it was. (Refuted: an empty entry in the list, what the editor puts there for a new entry, replaces the whole library directory by the plugin directory; true for names that are relative, not empty and do not lead up.)", "quantifier": "All disks, settings, project paths and stopping points", "why_tests_cant": "It ranges over all crash points and all disks; the offending entry is an input no test has.", "anchors": ["demos/unity_states/unity/Assets/Plugins/Constellation/Editor/ConstellationBuildPreprocessor.cs: OnPostGenerateGradleAndroidProject", "demos/unity_states/unity/Assets/Plugins/Constellation/Editor/ConstellationBuildSettings.cs: GetDefaults"]}
{"id": "C124", "title": "The Android build step can be stopped and run again", "statement": "If the step can complete, then it still can after any number of runs that were stopped anywhere, and the disk is then exactly as if it had run once without interruption.", "quantifier": "All disks and settings (no listed library inside another), all numbers of earlier runs and all points at which each was stopped", "why_tests_cant": "It ranges over all histories of interrupted runs and over whatever an interrupted copy left behind.", "anchors": ["demos/unity_states/unity/Assets/Plugins/Constellation/Editor/ConstellationBuildPreprocessor.cs: OnPostGenerateGradleAndroidProject", "demos/unity_states/unity/Assets/Plugins/Constellation/Editor/ConstellationBuildSettings.cs: GetDefaults"]}
{"id": "C125", "title": "The Android project never ships a placeholder", "statement": "If the build script and then the editor's step complete, every Android library in the Gradle project is one made from sources. (Refuted: without the Android option the script makes an empty placeholder file where there is no library, and the step copies it into the project without a word; with the option the libraries are those made from the present sources, without it they are what was there before.)", "quantifier": "All options, hosts, disks before, sources and all ways commands fail; all Gradle projects and settings whose listed libraries lead to the built files", "why_tests_cant": "It ranges over all histories of the two tools, which no test runs together.", "anchors": ["demos/unity_states/unity/Assets/Plugins/Constellation/Editor/ConstellationBuildPreprocessor.cs: OnPostGenerateGradleAndroidProject", "demos/unity_states/unity/Assets/Plugins/Constellation/Editor/ConstellationBuildSettings.cs: GetDefaults", "client/build_mac_host.sh: placeholders, rsync"]}
{"id": "C126", "title": "Saving keeps every float bit for bit", "statement": "Saving contracts and restoring them gives back every state bit for bit, handles apart. (Refuted: the format leaves out a value equal to its default, and minus zero equals zero, so the sign of a zero is lost. Proved: a save and restore is bit for bit exactly when no float state is minus zero; the restored baseline has no minus zero, so every further cycle is bit for bit; every float stands for the same number as before, and keeps its bits, NaN payloads included, unless it is a zero.)", "quantifier": "all savable sets of contracts of all reachable baselines, all float bit patterns, all call orders, hash orders and kinds of baseline", "why_tests_cant": "The round-trip test uses a few positive floats and compares with ==, for which minus zero is zero; the loss shows for one bit pattern of 2^32 and one of 2^64.", "anchors": ["client/serialize/flatbuffers/primitive.fbs F32 F64", "client/serialize/rust/src/serializer/mod.rs serialize", "client/serialize/rust/tests/round_trip.rs"]}
{"id": "C127", "title": "A saved file can be read back", "statement": "The bytes that saving produces, given to any reader of the same contract types, restore a baseline with the same contents, which can be saved again; in general reading the bytes of a file below 2 GiB gives exactly what the tables written into it stand for. Writing a file fails exactly as building its tables does, with the same error or panic. Whether a set of contracts can be written to a readable file depends only on the contents of the baseline, not on any order.", "quantifier": "all reachable baselines and sets of contracts that can be saved (with less than about 2 GB of text), all orders of calls and of hash iteration in the writer and in the reader, all byte layouts (padding, shared vtables, lengths of strings) that result", "why_tests_cant": "The byte layout depends on all previous contents through alignment and vtable sharing; a test sees one layout.", "anchors": ["client/serialize/rust/src/serializer/mod.rs: Serializer::serialize, finish", "client/serialize/rust/src/deserializer/new/mod.rs: DeserializerBuilder::new", "client/serialize/flatbuffers/*.fbs", "client/serialize/rust/tests/round_trip.rs"]}
{"id": "C128", "title": "A file cut short is refused or read the same", "statement": "If only a beginning of a file reached the disk (a crash while writing), opening it gives an error or exactly what the whole file gives, never something else; if at least four bytes of a saved file are missing, opening it always gives an error. Bytes after the end of an accepted file change nothing. Opening never panics, whatever the bytes.", "quantifier": "all byte strings, all positions at which they are cut off, all continuations, all readers", "why_tests_cant": "There are as many crash points as bytes, of every file.", "anchors": ["client/serialize/rust/src/deserializer/new/mod.rs: DeserializerBuilder::new", "client/serialize/flatbuffers/*.fbs"]}
{"id": "C129", "title": "Files of another format are refused", "statement": "A file whose bytes 4 to 7 are not the identifier TPF1 is refused. (Refuted: the identifier is written and never looked at. Proved: every saved file has it there, and with any other four bytes in its place the file is read exactly as before.)", "quantifier": "all saved files, all four-byte identifiers, all readers", "why_tests_cant": "It ranges over all files and identifiers; the tests read only what they wrote.", "anchors": ["client/serialize/rust/src/lib.rs: PREFIX", "client/serialize/rust/src/serializer/mod.rs: Serializer::serialize, finish", "client/serialize/rust/src/deserializer/new/mod.rs: DeserializerBuilder::new"]}
{"id": "C130", "title": "The size of a saved file is linear in its contents", "statement": "Every saved file is a multiple of four bytes long and has at most 101 + 226 per contract + 13 per declared state + 56 per object + 190 per state of an object bytes, plus the bytes of the names and strings.", "quantifier": "all baselines, all sets of contracts, all orders, all texts", "why_tests_cant": "A bound must hold for every content and every alignment.", "anchors": ["client/serialize/rust/src/serializer/mod.rs: Serializer::serialize, finish", "client/serialize/flatbuffers/*.fbs"]}
{"id": "C131", "title": "A damaged file is noticed and does not crash the application", "statement": "Restoring from any bytes gives an error or a sound baseline with exactly the contracts asked for; a saved file of which a byte was changed is refused or restores the same; nothing panics. (Refuted: there is no checksum, and changing one byte of a saved file can make an object disappear without an error or make the restoring function panic. Proved: on any bytes the result is an error, or different contracts of exactly the types asked for in a baseline that public calls can produce; a panic needs one of three defects in the tables.)", "quantifier": "all byte strings, all readers", "why_tests_cant": "Damage and hostile input range over all byte strings.", "anchors": ["client/serialize/rust/src/deserializer/new/mod.rs: DeserializerBuilder::new", "client/serialize/rust/src/deserializer/new/mod.rs: Deserializer::deserialize_objects, finish"]}
{"id": "C132", "title": "A saved file does not crash or confuse its reader", "statement": "Whatever was saved (any contracts of any baseline, in any order, repeated or not, used with any types), neither the file nor a beginning of it makes a reader panic, whichever contract types it asks for. A reader gets something only if every type it asks for has the name, version and states (names and types, in order) of one of the contracts saved; otherwise it gets an error.", "quantifier": "all baselines, all sequences of serialize calls, all files below 2 GiB, all readers", "why_tests_cant": "Schema mismatches and interrupted writes range over all pairs of writer and reader programs.", "anchors": ["client/serialize/rust/src/serializer/mod.rs: Serializer::serialize, finish", "client/serialize/rust/src/deserializer/new/mod.rs: DeserializerBuilder::new, register_contract, finish"]}
{"id": "C133", "title": "Exactly which parts of a file can be read", "statement": "For contracts that can be saved, a reader of the file succeeds exactly if the types it asks for are those of some of the saved contracts (same ids and states), these contracts refer to nothing outside of them, and no type with channels is given for a contract with objects; otherwise it gets an error. What it reads are exactly those contracts with their objects and values, up to the sign of zeros.", "quantifier": "all histories, all contracts that can be saved, all sets of types asked for, all iteration orders", "why_tests_cant": "The parts of a file and the references between them range over all subsets and all graphs.", "anchors": ["client/serialize/rust/src/serializer/mod.rs: Serializer::serialize, finish", "client/serialize/rust/src/deserializer/new/mod.rs: DeserializerBuilder::register_contract, finish"]}
{"id": "C134", "title": "Reading a file never looks outside of it", "statement": "Whatever bytes a file below 2 GiB consists of, either opening it is an error, or every unchecked read that the accessors can make, through any chain of offsets in the file, stays inside of it, every text they hand out is UTF-8, no value they unwrap is missing, and what they find is what is restored.", "quantifier": "all byte strings below 2 GiB, all readers", "why_tests_cant": "Memory safety on hostile input must hold for every byte string; the accessors are unsafe code behind one check.", "anchors": ["client/serialize/rust/src/deserializer/new/mod.rs: DeserializerBuilder::new, Deserializer::deserialize_objects", "client/serialize/flatbuffers/*.fbs"]}
{"id": "C135", "title": "A file bounds what is restored from it", "statement": "Whatever bytes something was restored from, the new baseline has at most one object for every four bytes of the file, and its contracts (three each), objects (two each) and states (one each) are together less than a million.", "quantifier": "all byte strings, all readers, all orders", "why_tests_cant": "A resource bound on hostile input must hold for every byte string.", "anchors": ["client/serialize/rust/src/deserializer/new/mod.rs: DeserializerBuilder::new, Deserializer::deserialize_objects"]}
{"id": "C136", "title": "Restarting from a file is transparent or an error", "statement": "Save all of a baseline to a file (contents that can be saved, no time warps set, no float state minus zero) and let any beginning of the file reach the disk before a crash. Reading it back, with the same contract types in any order, gives an error, or a baseline that no program can tell from the one that was saved; no error if the whole file reached the disk, and always an error if four bytes or more are missing. So a program stopped and continued from files any number of times sees what it would see without ever being stopped.", "quantifier": "all baselines that can be saved as a whole, all crash points while the file is written, all choices of writer and reader, all programs, all numbers of restarts", "why_tests_cant": "Crash points, restarts and later programs are unbounded.", "anchors": ["client/serialize/rust/src/serializer/mod.rs: Serializer::serialize, finish", "client/serialize/rust/src/deserializer/new/mod.rs: DeserializerBuilder::new, register_contract, Deserializer::finish", "client/rust/src/baseline.rs: Baseline"]}
{"id": "C137", "title": "Cross-compilation can be set up again", "statement": "Whatever runs of the setup script for cross-compilation were made before, at whatever version of its sources, and wherever each failed or was interrupted, a later run in which nothing goes wrong completes and makes the image from the present version. (Refuted: git clone refuses the directory that any earlier run left, so the second run fails even after a perfect first one. Proved: exactly which runs leave that directory; from then on no run completes, or changes the clone or the image, until the directory is removed; before, a run completes exactly if no command fails, and a completed run has made the image from the present version.)", "quantifier": "all sequences of runs, all versions, all commands at which a run can fail or be interrupted: before, midway or after the command took effect", "why_tests_cant": "A test runs the script once on a clean checkout; the claim is about the state every possible run or failure leaves behind.", "anchors": ["cross_compilation/setup.sh", "Cross.toml"]}
{"id": "C138", "title": "Equal files have equal contents", "statement": "If saving a list of contracts of one baseline and saving a list of contracts, with the same contract types, of another baseline give the same bytes (fewer than 2^31 of them), then the same was saved: there is a one-to-one correspondence of the saved contracts (with the same types) and of their objects under which every state has the same value, where an object or contract handle has the same value if it names the corresponding object or contract, and where a zero's sign does not matter (it does if no state is a minus zero). So a program that compares two save files, or their checksums, to find out whether something has changed never overlooks a change of a state or in what objects there are. Conversely, if two lists of contracts have the same contents in this sense, then the files that saving the one can give, over all orders of the calls and of the hash sets, are exactly the files that saving the other can give: nothing but the contents and these orders goes into a file, not the numbers of the handles and not the history. (With two different orders equal contents do give different files.)", "quantifier": "All pairs of baselines reached by any histories of calls, all lists of their contracts that can be saved, all orders of the calls that serialize them and all iteration orders of the hash sets on both sides.", "why_tests_cant": "The pairs of baselines that give the same bytes cannot be enumerated; a test compares a few files.", "anchors": ["client/serialize/rust/src/serializer/mod.rs: FlatbufferSerializer::finish, serialize_contract", "client/serialize/rust/src/deserializer/new/mod.rs: FlatbufferDeserializer::deserialize"]}
{"id": "C139", "title": "Saving does not drift", "statement": "What was read from a file can be saved as exactly that file again, and after any number of saves and restores the files that saving can give are exactly those it could give the first time: nothing is added, lost, reordered or renumbered for good from one generation to the next, and files do not grow. (Which of these files comes out depends on the iteration orders of the hash sets.)", "quantifier": "All savable contracts of all reachable baselines, all numbers of save and restore cycles, with all orders of calls, registrations and hash sets in each of them.", "why_tests_cant": "A test runs a few cycles of a few baselines with the orders that the hash seeds happen to give; drift may show later or with other orders.", "anchors": ["client/serialize/rust/src/serializer/mod.rs: Serializer::serialize, finish", "client/serialize/rust/src/deserializer/new/mod.rs: Deserializer, DeserializerBuilder", "client/serialize/rust/src/serializer/handle_map.rs"]}
{"id": "C140", "title": "What a program can save depends only on what it did", "statement": "If two runs of the same program make the same calls, then whatever hash seeds the calls met, and whether or not the program was stopped, saved, restored and continued in between, it sees the same in both, and the contracts it holds at the end can be saved in both or in neither, and as exactly the same files (each order of the hash sets while saving gives one of them). So neither a restart nor a seed leaves a trace in later save files.", "quantifier": "All programs of public calls, all points at which the whole baseline can be saved (no time warps, no minus zeros), all save and restore cycles there, all hash orders of all calls, all choices of contracts that are saved at the end.", "why_tests_cant": "It relates two executions for all programs and all hash seeds; a test runs one program and gets the seeds it gets.", "anchors": ["client/serialize/rust/src/serializer/mod.rs: FlatbufferSerializer", "client/serialize/rust/src/deserializer/new/mod.rs: FlatbufferDeserializer::deserialize", "client/rust/src/baseline.rs: Baseline::unregister_contract"]}
{"id": "C141", "title": "What is built with care can be saved", "statement": "A program that registers contracts with primitive states, creates their objects through the instances it got (contracts with channels get none), and puts into their states, at creation or later, only plain values and handles of these contracts and their objects, can save these contracts at any time: saving succeeds with any orders, gives a file, and the file restores what was saved (within the limits of the format: 65535 contracts, a million tables, and the size). Other contracts may be registered next to them and unregistered again, objects created in those and removed (also when such a call fails or panics half way), channels written and time warps set, all in any order.", "quantifier": "All sequences of such calls of any length, all types and values, all orders of the calls that serialize and all hash orders.", "why_tests_cant": "The rule is about all programs that keep to it; a test saves the states of a few programs, and whether an arbitrary program keeps within what the format can carry is not visible in any of them.", "anchors": ["client/serialize/rust/src/serializer/mod.rs: FlatbufferSerializer::serialize, finish", "client/rust/src/baseline.rs: Baseline::register_contract, object_create, state_mut", "client/serialize/rust/src/deserializer/new/mod.rs: FlatbufferDeserializer"]}
