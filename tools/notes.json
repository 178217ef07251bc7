{
 "C16": "The full statement is false of the code (C16_negation: object_remove on a live object with a field returns Err and leaks its states). C16_object_remove_partial proves exactly what the call does.",
 "C17": "False of the code (C17_negation: dead handles stay listed after object_remove; a panicking unregister empties the list). Partial: no duplicates, members live-or-dead-for-good always; all live objects listed without panics; exact without removes.",
 "C18": "False of the code (C18_negation: unregistering a contract with a field and an object panics, then leaves orphans). Partial: exact Ok condition, effects of Ok, effects of the panic.",
 "C22": "False of the code (C22_negation: Main handles resolve in Fork). Partial: only handles equal to ones this baseline issued resolve.",
 "C23": "False of the code (C23_negation: bind does not check the static type of an id). Partial: with the declared type the field read is the right one.",
 "C26": "Refuted, completely: every state write to a live state with data of the right type panics (todo!) on every realm (C26_negation_every_write_panics); a reachable witness is C26_negation_witness. There is no true remainder to prove.",
 "C27": "Refuted for writes (C27_negation_dead_write_panics). Partial: exactly which collactions panic, are rejected or accepted; an assertion on a dead handle is rejected.",
 "C34": "Refuted (wraps modulo 2^32; difference saturated before scaling). Partial: exact whenever difference and result fit in i32, and the exact value on every input.",
 "C35": "Refuted (time runs backwards after a wrap). Partial: exactly when it holds: a warp preserves the order of all times iff its scale is 0 to 1x, and reverses all iff it is 0 down to above -1x (or -1x with a negative offset); for other warps, whenever the results are representable.",
 "C36": "Refuted (divides by 1024, rounds down). Partial: exactly when as_secs is right, never outside (-85 s, 42 s) (sharp), exact formula, monotonicity.",
 "C37": "Refuted for NaN times (a conforming sort may panic). Proved for all NaN-free inputs and every conforming sort; for NaN the result, if any, is a permutation. C37_times_are_numbers: the order is that of the numbers the bit patterns stand for.",
 "C38": "Refuted (descending never moves or panics; beyond 2^24 the target is missed). Partial: exactly when it holds (a <= b, the distance has the type, and the distance is an f32 value below 2^32 or is 2^32-1), for every integer type and nearest rounding.",
 "C41": "Refuted at every position of every field list where a field is hit. Partial: nth agrees with next exactly when exhausted and never panics.",
 "C46": "Refuted for the unsigned 32/64 bit pair. Partial: right for every pair except exactly three.",
 "C50": "Refuted (finish panics instead of returning an error). Partial: finish succeeds exactly when no state refers outside of what was serialized, else panics.",
 "C51": "Refuted (serializing a contract twice when states hold handles gives a buffer that does not decode). Partial, exactly: the buffer decodes if and only if no contract that is serialized more than once and has objects has a handle state, and then it restores to the same contents if and only if (within the reader's limit) no state refers to a repeated contract or to an object of one; otherwise restoring is an error.",
 "C55": "Refuted (three buffer defects that pass the verifier, a repeated call and an unregistered contract each panic). Partial: a call for a registered contract not called for before never panics if none of that contract's own objects has such a defect, whatever else is in the buffer; building, registering and finishing never panic on any buffer; and restoring contract types none of whose objects has such a defect never panics (C55_restore_no_panic_partial). Conversely a contract's first object with a state out of range, of an undeclared kind or a string table without a string does make the call panic (C55_damage_panics_partial, C55_missing_string_panics_partial).",
 "C58": "Refuted (stealing from a borrower succeeds; the object is dropped twice). Partial: at most one steal per wrapper, of its own pointer; stealing from an empty wrapper throws.",
 "C59": "Refuted for names with runs of or trailing underscores. Partial: injective otherwise, and independent of how the path is written.",
 "C64": "Refuted for the empty string and lone surrogates. Partial: exact result on every non-empty string; the round trip is the identity exactly on non-empty well-formed strings.",
 "C68": "Refuted: object_remove of both shipped contracts panics on every baseline and handle. Partial: unregister returns exactly when the handle names the contract and no object is listed, else panics.",
 "C71": "Refuted (shift counts 48 and 32 are masked). Partial: the exact word for all 2^64 inputs and exactly the colours sent correctly.",
 "C72": "Refuted: programs that compile and pass all run-time checks use freed or aliased memory. Partial: programs that follow Spec/BorrowRules never do, and without vectors the rules are exact (a program follows them iff every call succeeds); four methods can never be called successfully; two more unsound methods are characterised.",
 "C73": "Refuted: vectors are never freed. Partial: after a disciplined program what is still allocated, vectors aside, is exactly what live owning wrappers hold.",
 "C75": "Refuted for every non-zero time and every rounding. Partial: it is the f32 nearest to ticks/1024, monotone, with the right sign, consistent with as_secs.",
 "C76": "Refuted: a value that mentions substitute!() in a proper subexpression never finishes on any item with a site; in attributes string literals and longer macro names are changed too. Partial: for every other value the expansion ends with exactly the specified result, or panics exactly because some attribute text cannot be re-read.",
 "C79": "Refuted: assigning to State.Value has no check, so the setters of the Unity demo always write through a shared reference (undefined behaviour). Partial: no call ever succeeds in which a shared reference reaches a writing or consuming native parameter; the demo's getters always work.",
 "C83": "Refuted for every program that follows the borrow rules: object creation from C# passes the wrong pointers, so no object ever exists; a reached BindState always panics, State and StateMut are never reached.",
 "C05": "Refuted for reserve(0): the next insert panics. Proved for every reservation of at least one slot. Rests on the algorithm of the external crate generational_arena 0.2.8.",
 "C89": "The full statement is false of the code (C89_negation: the ball loses its material, the frame writes nine numbers and throws, so the copy has a position and a colour the ball never had together). C89_frames_partial is the exact behaviour; C89_whole_frames_partial gives whole frames whenever the ball has a colour.",
 "C90": "False of the code (C90_negation: keyframes_mut hands out the vector). C90_in_order_partial holds when channels are only replaced by ones made by Channel::new, which is all the C API allows.",
 "C91": "False of the code (C91_swap_breaks_fields_negation, C91_realm_kind_negation). C91_swap_exact is one exchange exactly; C91_swaps_unseen_by_calls: no API call can tell; C91_swaps_only_permute_partial: every record still belongs to exactly one creation and its fields read back at its home baseline, for every program; C91_without_swaps: programs of calls only are ordinary histories, so C11 and C12 apply.",
 "C92": "False of the code (C92_negation: a tween of i8 from -128 to 127, nth(usize::MAX), 65536 contracts). C92_release_agrees_partial: wherever a debug build does not panic, a release build does the same; the other partials say exactly what a release build does where a debug build panics. C92_debug_is_the_model ties both to the models of the other properties.",
 "C93": "False of the code (C93_seed_visible_negation: after unregistering a contract with two objects the next object_create returns another handle; after a panicking unregister another object is gone and no renaming explains it; two saves of one baseline are different buffers). C93_seed_invisible_partial: nothing at all differs while no contract listing two or more objects is unregistered. C93_same_up_to_renaming_partial: for every history in which no unregister_contract panics over two or more listed objects, some bijection of object handles turns one run into the other, results and readers included. C93_opaque_programs_partial: a program that uses handles only as handles and ends at a panic sees the same with every hash seed.",
 "C94": "C94_bound_is_sharp shows that the bound in the statement cannot be raised by one. Only the generation counter is bounded; slot numbers are bounded by memory. C94_baseline_generations carries the bound over to baselines: a history of n calls counts at most n generations in any arena.",
 "C95": "The crossbeam channel is an external crate: its contract is modelled from its documentation (see the head of Model/Clients).",
 "C96": "False of the code (C96_negation: one thread's state write panics in apply_action, which unwinds the thread that owns the engine; the other thread's accepted collaction is lost). C96_isolation_partial: it holds if that thread catches panics or if nobody sends a state write. C96_verdict_partial: the verdict on a write-free collaction depends on the fork only.",
 "C97": "False of the code for bounded queues (C97_negation_waits_for_ever: with n places the (n+1)st send waits for ever; Some(0): the first). C97_enough_room_partial: it holds if the queue is unbounded or has room.",
 "C98": "False of the code for states and channels, which object_remove leaks (see C16): C98_negation. Object and contract slots are reused, and the number of leaked fields is exact: C98_storage_partial. log and hash-set memory are not modelled.",
 "C31": "C31_numbers states it in terms of the numbers the bit patterns stand for.",
 "C39": "C39_jump_bits covers every f32 and f64 bit pattern.",
 "C44": "C44_numbers: equality of floats is equality of the numbers they stand for.",
 "C74": "C74_binary64_numbers (and C38_binary32_numbers) validate the sets of numbers roundings go to against the bit patterns.",
 "C100": "False of the code: Vec::with_capacity(size_hint().0) panics for std::iter::repeat (C100_negation). Proved: exactly when object_create panics, and that it returns when the hints can be allocated and the iterators do not panic.",
 "C101": "Refuted: flatbuffers::root refuses buffers with more than a million tables (the crate's default), and the serializer does not know. Partial: exact threshold for every set of contracts, for every buffer, and the number of objects at which it is met.",
 "C102": "Determinism of finish is proved for every deserializer a program can get to (DesRun), with equality of the whole model state, so every later call agrees too; contents of different saves and of different call orders are compared with SameContents (Spec/RoundTrip).",
 "C103": "Refuted: one removed object keeps its contract from being saved for good (C103_negation, C103_stuck_partial). Partial: serialize succeeds exactly if all listed objects are alive or the type has no states, and never panics.",
 "C104": "Refuted for contract types without states: a baseline without live objects is restored with one. Partial: contracts with states are saved only if all listed objects are alive; for the others exactly one object comes back per listed handle, dead or alive.",
 "C105": "Refuted: after an error the contract table and a seed-dependent prefix of the objects stay in the serializer. Partial: exactly what stays; C49 has the errors that leave nothing.",
 "C106": "Refuted: a restored object always has the default time warp. Partial: exactly the objects whose warp was the default keep it.",
 "C107": "Refuted: with an object of a contract that has channels every step of saving succeeds, and the result never restores. Partial: restoring succeeds exactly when no contract with channels has an object, both for baselines and for arbitrary complete buffers.",
 "C108": "Also for deserializations some of whose calls failed.",
 "C109": "Refuted (slot 0 is taken by the internal null object, so all handles shift; one object's handle can denote another one). Partial: exactly which handles resolve after a restore.",
 "C110": "Refuted (a time above 1 panics or passes the target). Partial: exactly when a time gives a value and which one (intEaseAt_ok); the start at NaN and on the start's side; growth past the target; the result at infinity.",
 "C111": "Proved: C111_transparent (any correspondence under which the contents are the same, any kept variables, any program, any hash orders), C111_life (restarts at any points), C111_whole (without panics the condition is just that every contract is saved, no warp is set and no state is minus zero), C111_all_stand (every bound state handle has a counterpart), C111_warps_show (the condition on warps is needed, as C106). Programs treat handles as opaque: they hold them in variables, pass them, compare them, store them in states; they end at a panic. The order of iter_objects is not observed (it does differ), only the number of its items.",
 "C57": "C57_first_call_decides: without assignments to Inner only the first Dispose, finalization or StealInner has an effect. C57_with_assignments: with assignments as well, every call acts on what was put in last.",
 "C112": "Proved for pairs of updating calls (C112_independent_calls_commute, from any state a program can reach) and for lists of overwriting calls in any permutation (C112_overwrites_in_any_order, in any baseline, exactly the same baseline at the end). C112_collision_register, C112_collision_write and C112_collision_remove: the excluded pairs do show their order. unregister_contract is not among the calls exchanged.",
 "C113": "Proved for every schedule of any number of programs (C113_programs_do_not_interfere); C113_any_schedule: a program cannot tell two schedules apart; C113_conditions_needed: with the object count, or with a shared contract id, programs see each other. C113_separate_parts: the same from every reachable baseline, for programs with separate parts of it (removed objects, channels, vectors and time warps included).",
 "C114": "Proved (C114_part_transparent) for every selection of contracts that Savable allows; C114_left_out_shows: the condition on registered ids is needed.",
 "C115": "Proved (C115_split) for every family of separate parts that Savable allows, and every schedule.",
 "C126": "Refuted: flatbuffers leaves out a field equal to its default, and -0.0 == 0.0, so the sign of a zero is lost. Partial: exactly when a cycle is bit for bit; the loss happens once; the number a float stands for, NaN payloads included, is always kept.",
 "C137": "Refuted by any two runs (C137_negation): git clone refuses a directory that is not empty. C137_setup_again_partial says exactly when a run completes, what it leaves, and that removing the directory helps.",
 "C138": "Values agree up to the sign of a zero, which the format does not keep (C126); C138_equal_files_exactly is without that exception if there is no minus zero. C138_same_files is the converse; that two orders give two files is shown by an example."
}