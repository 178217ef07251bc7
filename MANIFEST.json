{
 "claims": [
  {
   "property": "C01",
   "status": "proved",
   "theorems": [
    "Verif.Props.C01_insert_get_frame"
   ],
   "note": "proved for the model, all inputs and histories as stated"
  },
  {
   "property": "C02",
   "status": "proved",
   "theorems": [
    "Verif.Props.C02_removed_handle_stays_dead"
   ],
   "note": "proved for the model, all inputs and histories as stated"
  },
  {
   "property": "C03",
   "status": "proved",
   "theorems": [
    "Verif.Props.C03_handles_never_reissued"
   ],
   "note": "proved for the model, all inputs and histories as stated"
  },
  {
   "property": "C04",
   "status": "proved",
   "theorems": [
    "Verif.Props.C04_refines_finite_map",
    "Verif.Props.C04_from_iter_into_iter"
   ],
   "note": "proved for the model, all inputs and histories as stated"
  },
  {
   "property": "C05",
   "status": "partial",
   "theorems": [
    "Verif.Props.C05_capacity",
    "Verif.Props.C05_reserve_zero_negation"
   ],
   "note": "Refuted for reserve(0): the next insert panics. Proved for every reservation of at least one slot. Rests on the algorithm of the external crate generational_arena 0.2.8."
  },
  {
   "property": "C06",
   "status": "proved",
   "theorems": [
    "Verif.Props.C06_one_contract_per_id"
   ],
   "note": "proved for the model, all inputs and histories as stated"
  },
  {
   "property": "C07",
   "status": "proved",
   "theorems": [
    "Verif.Props.C07_errors_change_nothing"
   ],
   "note": "proved for the model, all inputs and histories as stated"
  },
  {
   "property": "C08",
   "status": "proved",
   "theorems": [
    "Verif.Props.C08_create_accepts_exactly"
   ],
   "note": "proved for the model, all inputs and histories as stated"
  },
  {
   "property": "C09",
   "status": "proved",
   "theorems": [
    "Verif.Props.C09_create_reads_back"
   ],
   "note": "proved for the model, all inputs and histories as stated"
  },
  {
   "property": "C10",
   "status": "proved",
   "theorems": [
    "Verif.Props.C10_create_frame"
   ],
   "note": "proved for the model, all inputs and histories as stated"
  },
  {
   "property": "C11",
   "status": "proved",
   "theorems": [
    "Verif.Props.C11_every_field_reads"
   ],
   "note": "proved for the model, all inputs and histories as stated"
  },
  {
   "property": "C12",
   "status": "proved",
   "theorems": [
    "Verif.Props.C12_fields_never_alias"
   ],
   "note": "proved for the model, all inputs and histories as stated"
  },
  {
   "property": "C13",
   "status": "proved",
   "theorems": [
    "Verif.Props.C13_state_write",
    "Verif.Props.C13_channel_write"
   ],
   "note": "proved for the model, all inputs and histories as stated"
  },
  {
   "property": "C14",
   "status": "proved",
   "theorems": [
    "Verif.Props.C14_foreign_ids",
    "Verif.Props.C14_no_object"
   ],
   "note": "proved for the model, all inputs and histories as stated"
  },
  {
   "property": "C15",
   "status": "proved",
   "theorems": [
    "Verif.Props.C15_removed_handles_stay_dead"
   ],
   "note": "proved for the model, all inputs and histories as stated"
  },
  {
   "property": "C16",
   "status": "partial",
   "theorems": [
    "Verif.Props.C16_negation",
    "Verif.Props.C16_object_remove_partial"
   ],
   "note": "The full statement is false of the code (C16_negation: object_remove on a live object with a field returns Err and leaks its states). C16_object_remove_partial proves exactly what the call does."
  },
  {
   "property": "C17",
   "status": "partial",
   "theorems": [
    "Verif.Props.C17_negation",
    "Verif.Props.C17_object_set_partial"
   ],
   "note": "False of the code (C17_negation: dead handles stay listed after object_remove; a panicking unregister empties the list). Partial: no duplicates, members live-or-dead-for-good always; all live objects listed without panics; exact without removes."
  },
  {
   "property": "C18",
   "status": "partial",
   "theorems": [
    "Verif.Props.C18_negation",
    "Verif.Props.C18_unregister_partial"
   ],
   "note": "False of the code (C18_negation: unregistering a contract with a field and an object panics, then leaves orphans). Partial: exact Ok condition, effects of Ok, effects of the panic."
  },
  {
   "property": "C19",
   "status": "proved",
   "theorems": [
    "Verif.Props.C19_unregister_rejects"
   ],
   "note": "proved for the model, all inputs and histories as stated"
  },
  {
   "property": "C20",
   "status": "proved",
   "theorems": [
    "Verif.Props.C20_iter_objects"
   ],
   "note": "proved for the model, all inputs and histories as stated"
  },
  {
   "property": "C21",
   "status": "proved",
   "theorems": [
    "Verif.Props.C21_baselines_isolated",
    "Verif.Props.C21_kind_constant"
   ],
   "note": "proved for the model, all inputs and histories as stated"
  },
  {
   "property": "C22",
   "status": "partial",
   "theorems": [
    "Verif.Props.C22_negation",
    "Verif.Props.C22_only_issued_handles_resolve_partial"
   ],
   "note": "False of the code (C22_negation: Main handles resolve in Fork). Partial: only handles equal to ones this baseline issued resolve."
  },
  {
   "property": "C23",
   "status": "partial",
   "theorems": [
    "Verif.Props.C23_negation",
    "Verif.Props.C23_declared_type_reads_own_field_partial"
   ],
   "note": "False of the code (C23_negation: bind does not check the static type of an id). Partial: with the declared type the field read is the right one."
  },
  {
   "property": "C24",
   "status": "proved",
   "theorems": [
    "Verif.Props.C24_assertions"
   ],
   "note": "proved for the model, all inputs and histories as stated"
  },
  {
   "property": "C25",
   "status": "proved",
   "theorems": [
    "Verif.Props.C25_rejected_is_atomic",
    "Verif.Props.C25_engine_frame"
   ],
   "note": "proved for the model, all inputs and histories as stated"
  },
  {
   "property": "C26",
   "status": "partial",
   "theorems": [
    "Verif.Props.C26_negation_every_write_panics",
    "Verif.Props.C26_negation_witness"
   ],
   "note": "Refuted, completely: every state write to a live state with data of the right type panics (todo!) on every realm (C26_negation_every_write_panics); a reachable witness is C26_negation_witness. There is no true remainder to prove."
  },
  {
   "property": "C27",
   "status": "partial",
   "theorems": [
    "Verif.Props.C27_negation_dead_write_panics",
    "Verif.Props.C27_outcomes_partial",
    "Verif.Props.C27_dead_assert_rejected_partial"
   ],
   "note": "Refuted for writes (C27_negation_dead_write_panics). Partial: exactly which collactions panic, are rejected or accepted; an assertion on a dead handle is rejected."
  },
  {
   "property": "C28",
   "status": "proved",
   "theorems": [
    "Verif.Props.C28_fifo",
    "Verif.Props.C28_send"
   ],
   "note": "proved for the model, all inputs and histories as stated"
  },
  {
   "property": "C29",
   "status": "proved",
   "theorems": [
    "Verif.Props.C29_empty",
    "Verif.Props.C29_pending_wins",
    "Verif.Props.C29_disconnected"
   ],
   "note": "proved for the model, all inputs and histories as stated"
  },
  {
   "property": "C30",
   "status": "proved",
   "theorems": [
    "Verif.Props.C30_tick",
    "Verif.Props.C30_only_tick_changes_time",
    "Verif.Props.C30_total"
   ],
   "note": "proved for the model, all inputs and histories as stated"
  },
  {
   "property": "C31",
   "status": "proved",
   "theorems": [
    "Verif.Props.C31_f32",
    "Verif.Props.C31_f64",
    "Verif.Props.C31_assert_current",
    "Verif.Props.C31_numbers"
   ],
   "note": "C31_numbers states it in terms of the numbers the bit patterns stand for."
  },
  {
   "property": "C32",
   "status": "proved",
   "theorems": [
    "Verif.Props.C32_add_sub_saturate",
    "Verif.Props.C32_exact_iff_fits",
    "Verif.Props.C32_add_comm_zero"
   ],
   "note": "proved for the model, all inputs and histories as stated"
  },
  {
   "property": "C33",
   "status": "proved",
   "theorems": [
    "Verif.Props.C33_default_warp_identity"
   ],
   "note": "proved for the model, all inputs and histories as stated"
  },
  {
   "property": "C34",
   "status": "partial",
   "theorems": [
    "Verif.Props.C34_negation_wraps",
    "Verif.Props.C34_negation_presaturated",
    "Verif.Props.C34_warp_exact_partial",
    "Verif.Props.C34_warp_total_partial"
   ],
   "note": "Refuted (wraps modulo 2^32; difference saturated before scaling). Partial: exact whenever difference and result fit in i32, and the exact value on every input."
  },
  {
   "property": "C35",
   "status": "partial",
   "theorems": [
    "Verif.Props.C35_negation_runs_backwards",
    "Verif.Props.C35_order_partial",
    "Verif.Props.C35_order_slow_scales_partial",
    "Verif.Props.C35_order_exact_partial"
   ],
   "note": "Refuted (time runs backwards after a wrap). Partial: exactly when it holds: a warp preserves the order of all times iff its scale is 0 to 1x, and reverses all iff it is 0 down to above -1x (or -1x with a negative offset); for other warps, whenever the results are representable."
  },
  {
   "property": "C36",
   "status": "partial",
   "theorems": [
    "Verif.Props.C36_negation_not_seconds",
    "Verif.Props.C36_negation_negative",
    "Verif.Props.C36_negation_every_large",
    "Verif.Props.C36_as_secs_partial",
    "Verif.Props.C36_exact_partial"
   ],
   "note": "Refuted (divides by 1024, rounds down). Partial: exactly when as_secs is right, never outside (-85 s, 42 s) (sharp), exact formula, monotonicity."
  },
  {
   "property": "C37",
   "status": "partial",
   "theorems": [
    "Verif.Props.C37_sorted_permutation",
    "Verif.Props.C37_permutation_partial",
    "Verif.Props.C37_negation_nan_may_panic",
    "Verif.Props.C37_times_are_numbers",
    "Verif.Props.C37_sorted_by_number"
   ],
   "note": "Refuted for NaN times (a conforming sort may panic). Proved for all NaN-free inputs and every conforming sort; for NaN the result, if any, is a permutation. C37_times_are_numbers: the order is that of the numbers the bit patterns stand for."
  },
  {
   "property": "C38",
   "status": "partial",
   "theorems": [
    "Verif.Props.C38_ascending_partial",
    "Verif.Props.C38_ranges_partial",
    "Verif.Props.C38_negation_descending_stuck",
    "Verif.Props.C38_negation_unsigned_descending",
    "Verif.Props.C38_negation_long_distance",
    "Verif.Props.C38_exact_partial",
    "Verif.Props.C38_binary32_numbers"
   ],
   "note": "Refuted (descending never moves or panics; beyond 2^24 the target is missed). Partial: exactly when it holds (a <= b, the distance has the type, and the distance is an f32 value below 2^32 or is 2^32-1), for every integer type and nearest rounding."
  },
  {
   "property": "C39",
   "status": "proved",
   "theorems": [
    "Verif.Props.C39_jump",
    "Verif.Props.C39_jump_outside",
    "Verif.Props.C39_jump_bits"
   ],
   "note": "C39_jump_bits covers every f32 and f64 bit pattern."
  },
  {
   "property": "C40",
   "status": "proved",
   "theorems": [
    "Verif.Props.C40_kth_next_is_kth_field",
    "Verif.Props.C40_size_hint_exact",
    "Verif.Props.C40_collected",
    "Verif.Props.C40_contract_iterators"
   ],
   "note": "proved for the model, all inputs and histories as stated"
  },
  {
   "property": "C41",
   "status": "partial",
   "theorems": [
    "Verif.Props.C41_negation_every_hit_is_wrong",
    "Verif.Props.C41_nth_agrees_iff_exhausted_partial"
   ],
   "note": "Refuted at every position of every field list where a field is hit. Partial: nth agrees with next exactly when exhausted and never panics."
  },
  {
   "property": "C42",
   "status": "proved",
   "theorems": [
    "Verif.Props.C42_state_id",
    "Verif.Props.C42_chan_id"
   ],
   "note": "proved for the model, all inputs and histories as stated"
  },
  {
   "property": "C43",
   "status": "proved",
   "theorems": [
    "Verif.Props.C43_wrap_roundtrip",
    "Verif.Props.C43_unwrap_unique",
    "Verif.Props.C43_borrow",
    "Verif.Props.C43_dispatch"
   ],
   "note": "proved for the model, all inputs and histories as stated"
  },
  {
   "property": "C44",
   "status": "proved",
   "theorems": [
    "Verif.Props.C44_numbers",
    "Verif.Props.C44_dyn_eq_iff",
    "Verif.Props.C44_concrete_eq_iff",
    "Verif.Props.C44_concrete_agrees",
    "Verif.Props.C44_symm",
    "Verif.Props.C44_refl_iff"
   ],
   "note": "C44_numbers: equality of floats is equality of the numbers they stand for."
  },
  {
   "property": "C45",
   "status": "proved",
   "theorems": [
    "Verif.Props.C45_kind_bijective",
    "Verif.Props.C45_kind_eq_iff",
    "Verif.Props.C45_tag_eq_iff"
   ],
   "note": "proved for the model, all inputs and histories as stated"
  },
  {
   "property": "C46",
   "status": "partial",
   "theorems": [
    "Verif.Props.C46_negation",
    "Verif.Props.C46_agree_iff_partial"
   ],
   "note": "Refuted for the unsigned 32/64 bit pair. Partial: right for every pair except exactly three."
  },
  {
   "property": "C47",
   "status": "proved",
   "theorems": [
    "Verif.Props.C47_fields_numbered"
   ],
   "note": "proved for the model, all inputs and histories as stated"
  },
  {
   "property": "C48",
   "status": "proved",
   "theorems": [
    "Verif.Props.C48_round_trip"
   ],
   "note": "proved for the model, all inputs and histories as stated"
  },
  {
   "property": "C49",
   "status": "proved",
   "theorems": [
    "Verif.Props.C49_serialize_rejects"
   ],
   "note": "proved for the model, all inputs and histories as stated"
  },
  {
   "property": "C50",
   "status": "partial",
   "theorems": [
    "Verif.Props.C50_finish_iff_closed_partial",
    "Verif.Props.C50_negation"
   ],
   "note": "Refuted (finish panics instead of returning an error). Partial: finish succeeds exactly when no state refers outside of what was serialized, else panics."
  },
  {
   "property": "C51",
   "status": "partial",
   "theorems": [
    "Verif.Props.C51_files_partial",
    "Verif.Props.C51_exact_partial",
    "Verif.Props.C51_repeats_without_handles_partial",
    "Verif.Props.C51_repeated_handles_break",
    "Verif.Props.C51_negation"
   ],
   "note": "Refuted (serializing a contract twice when states hold handles gives a buffer that does not decode). Partial, exactly: the buffer decodes if and only if no contract that is serialized more than once and has objects has a handle state, and then it restores to the same contents if and only if (within the reader's limit) no state refers to a repeated contract or to an object of one; otherwise restoring is an error."
  },
  {
   "property": "C52",
   "status": "proved",
   "theorems": [
    "Verif.Props.C52_register_iff",
    "Verif.Props.C52_handles"
   ],
   "note": "proved for the model, all inputs and histories as stated"
  },
  {
   "property": "C53",
   "status": "proved",
   "theorems": [
    "Verif.Props.C53_no_placeholder"
   ],
   "note": "proved for the model, all inputs and histories as stated"
  },
  {
   "property": "C54",
   "status": "proved",
   "theorems": [
    "Verif.Props.C54_dangling_is_err",
    "Verif.Props.C54_finish_ok_iff"
   ],
   "note": "proved for the model, all inputs and histories as stated"
  },
  {
   "property": "C55",
   "status": "partial",
   "theorems": [
    "Verif.Props.C55_negation",
    "Verif.Props.C55_no_panic_partial",
    "Verif.Props.C55_damage_panics_partial",
    "Verif.Props.C55_missing_string_panics_partial",
    "Verif.Props.C55_restore_no_panic_partial"
   ],
   "note": "Refuted (three buffer defects that pass the verifier, a repeated call and an unregistered contract each panic). Partial: a call for a registered contract not called for before never panics if none of that contract's own objects has such a defect, whatever else is in the buffer; building, registering and finishing never panic on any buffer; and restoring contract types none of whose objects has such a defect never panics (C55_restore_no_panic_partial). Conversely a contract's first object with a state out of range, of an undeclared kind or a string table without a string does make the call panic (C55_damage_panics_partial, C55_missing_string_panics_partial)."
  },
  {
   "property": "C56",
   "status": "proved",
   "theorems": [
    "Verif.Props.C56_only_valid_objects"
   ],
   "note": "proved for the model, all inputs and histories as stated"
  },
  {
   "property": "C57",
   "status": "proved",
   "theorems": [
    "Verif.Props.C57_first_call_decides",
    "Verif.Props.C57_with_assignments",
    "Verif.Props.C57_freed_once"
   ],
   "note": "C57_first_call_decides: without assignments to Inner only the first Dispose, finalization or StealInner has an effect. C57_with_assignments: with assignments as well, every call acts on what was put in last."
  },
  {
   "property": "C58",
   "status": "partial",
   "theorems": [
    "Verif.Props.C58_stolen_once_partial",
    "Verif.Props.C58_negation"
   ],
   "note": "Refuted (stealing from a borrower succeeds; the object is dropped twice). Partial: at most one steal per wrapper, of its own pointer; stealing from an empty wrapper throws."
  },
  {
   "property": "C59",
   "status": "partial",
   "theorems": [
    "Verif.Props.C59_mangling_injective_partial",
    "Verif.Props.C59_negation"
   ],
   "note": "Refuted for names with runs of or trailing underscores. Partial: injective otherwise, and independent of how the path is written."
  },
  {
   "property": "C60",
   "status": "proved",
   "theorems": [
    "Verif.Props.C60_faithful"
   ],
   "note": "proved for the model, all inputs and histories as stated"
  },
  {
   "property": "C61",
   "status": "proved",
   "theorems": [
    "Verif.Props.C61_reachable"
   ],
   "note": "proved for the model, all inputs and histories as stated"
  },
  {
   "property": "C62",
   "status": "proved",
   "theorems": [
    "Verif.Props.C62_complete_buffers_restore",
    "Verif.Props.C62_restore_iff"
   ],
   "note": "proved for the model, all inputs and histories as stated"
  },
  {
   "property": "C63",
   "status": "proved",
   "theorems": [
    "Verif.Props.C63_copy_utf8_accepts_exactly_utf8",
    "Verif.Props.C63_copy_utf16_transcodes",
    "Verif.Props.C63_native_strings_are_utf8"
   ],
   "note": "proved for the model, all inputs and histories as stated"
  },
  {
   "property": "C64",
   "status": "partial",
   "theorems": [
    "Verif.Props.C64_string_round_trip_partial",
    "Verif.Props.C64_round_trip_exact_iff_partial",
    "Verif.Props.C64_distinct_strings_distinct_bytes",
    "Verif.Props.C64_empty_string_negation",
    "Verif.Props.C64_lone_surrogate_negation"
   ],
   "note": "Refuted for the empty string and lone surrogates. Partial: exact result on every non-empty string; the round trip is the identity exactly on non-empty well-formed strings."
  },
  {
   "property": "C65",
   "status": "proved",
   "theorems": [
    "Verif.Props.C65_dynamic_handles_are_typed_handles",
    "Verif.Props.C65_dynamic_reads_agree",
    "Verif.Props.C65_dynamic_state_write",
    "Verif.Props.C65_dynamic_channel_write"
   ],
   "note": "proved for the model, all inputs and histories as stated"
  },
  {
   "property": "C66",
   "status": "proved",
   "theorems": [
    "Verif.Props.C66_index_agrees"
   ],
   "note": "proved for the model, all inputs and histories as stated"
  },
  {
   "property": "C67",
   "status": "proved",
   "theorems": [
    "Verif.Props.C67_example_contract",
    "Verif.Props.C67_ball_contract",
    "Verif.Props.C67_register"
   ],
   "note": "proved for the model, all inputs and histories as stated"
  },
  {
   "property": "C68",
   "status": "partial",
   "theorems": [
    "Verif.Props.C68_negation_object_remove_always_panics",
    "Verif.Props.C68_unregister_partial"
   ],
   "note": "Refuted: object_remove of both shipped contracts panics on every baseline and handle. Partial: unregister returns exactly when the handle names the contract and no object is listed, else panics."
  },
  {
   "property": "C69",
   "status": "proved",
   "theorems": [
    "Verif.Props.C69_c_api_agrees"
   ],
   "note": "proved for the model, all inputs and histories as stated"
  },
  {
   "property": "C70",
   "status": "proved",
   "theorems": [
    "Verif.Props.C70_circle_game"
   ],
   "note": "proved for the model, all inputs and histories as stated"
  },
  {
   "property": "C71",
   "status": "partial",
   "theorems": [
    "Verif.Props.C71_negation",
    "Verif.Props.C71_color_word_partial"
   ],
   "note": "Refuted (shift counts 48 and 32 are masked). Partial: the exact word for all 2^64 inputs and exactly the colours sent correctly."
  },
  {
   "property": "C72",
   "status": "partial",
   "theorems": [
    "Verif.Props.C72_disciplined_partial",
    "Verif.Props.C72_negation",
    "Verif.Props.C72_exact_partial",
    "Verif.Props.C72_vector_negation",
    "Verif.Props.C72_stale_negation",
    "Verif.Props.C72_broken_methods_partial",
    "Verif.Props.C72_double_free_partial",
    "Verif.Props.C72_shared_write_partial"
   ],
   "note": "Refuted: programs that compile and pass all run-time checks use freed or aliased memory. Partial: programs that follow Spec/BorrowRules never do, and without vectors the rules are exact (a program follows them iff every call succeeds); four methods can never be called successfully; two more unsound methods are characterised."
  },
  {
   "property": "C73",
   "status": "partial",
   "theorems": [
    "Verif.Props.C73_no_leaks_partial",
    "Verif.Props.C73_negation"
   ],
   "note": "Refuted: vectors are never freed. Partial: after a disciplined program what is still allocated, vectors aside, is exactly what live owning wrappers hold."
  },
  {
   "property": "C74",
   "status": "proved",
   "theorems": [
    "Verif.Props.C74_binary64_numbers",
    "Verif.Props.C74_as_f64_exact",
    "Verif.Props.C74_as_f64_order",
    "Verif.Props.C74_as_f32_nearest",
    "Verif.Props.C74_default",
    "Verif.Props.C74_widening"
   ],
   "note": "C74_binary64_numbers (and C38_binary32_numbers) validate the sets of numbers roundings go to against the bit patterns."
  },
  {
   "property": "C75",
   "status": "partial",
   "theorems": [
    "Verif.Props.C75_negation_not_seconds",
    "Verif.Props.C75_as_secs_f32_partial"
   ],
   "note": "Refuted for every non-zero time and every rounding. Partial: it is the f32 nearest to ticks/1024, monotone, with the right sign, consistent with as_secs."
  },
  {
   "property": "C76",
   "status": "partial",
   "theorems": [
    "Verif.Props.C76_replaces_partial",
    "Verif.Props.C76_diverges_negation",
    "Verif.Props.C76_negation"
   ],
   "note": "Refuted: a value that mentions substitute!() in a proper subexpression never finishes on any item with a site; in attributes string literals and longer macro names are changed too. Partial: for every other value the expansion ends with exactly the specified result, or panics exactly because some attribute text cannot be re-read."
  },
  {
   "property": "C77",
   "status": "proved",
   "theorems": [
    "Verif.Props.C77_refines_database",
    "Verif.Props.C77_refines_from_any_point",
    "Verif.Props.C77_database_decides"
   ],
   "note": "proved for the model, all inputs and histories as stated"
  },
  {
   "property": "C78",
   "status": "proved",
   "theorems": [
    "Verif.Props.C78_savable_again",
    "Verif.Props.C78_forever"
   ],
   "note": "proved for the model, all inputs and histories as stated"
  },
  {
   "property": "C79",
   "status": "partial",
   "theorems": [
    "Verif.Props.C79_never_written_partial",
    "Verif.Props.C79_negation_demo_setter",
    "Verif.Props.C79_demo_getter_partial"
   ],
   "note": "Refuted: assigning to State.Value has no check, so the setters of the Unity demo always write through a shared reference (undefined behaviour). Partial: no call ever succeeds in which a shared reference reaches a writing or consuming native parameter; the demo's getters always work."
  },
  {
   "property": "C80",
   "status": "partial",
   "theorems": [
    "Verif.Props.C80_keep_alive_partial",
    "Verif.Props.C80_exact_partial",
    "Verif.Props.C80_keep_all_partial",
    "Verif.Props.C80_dispose_all_partial",
    "Verif.Props.C80_negation",
    "Verif.Props.C80_unkept_negation"
   ],
   "note": ""
  },
  {
   "property": "C81",
   "status": "partial",
   "theorems": [
    "Verif.Props.C81_not_lost_partial",
    "Verif.Props.C81_exact_negation",
    "Verif.Props.C81_double_free_negation",
    "Verif.Props.C81_serial_partial",
    "Verif.Props.C81_borrower_partial"
   ],
   "note": ""
  },
  {
   "property": "C82",
   "status": "proved",
   "theorems": [
    "Verif.Props.C82_values",
    "Verif.Props.C82_returns_or_panics",
    "Verif.Props.C82_all_return",
    "Verif.Props.C82_state_readback",
    "Verif.Props.C82_state_initial",
    "Verif.Props.C82_keyframe_immutable",
    "Verif.Props.C82_vector_bounds",
    "Verif.Props.C82_vector_element",
    "Verif.Props.C82_is_main",
    "Verif.Props.C82_example_id",
    "Verif.Props.C82_ball_id",
    "Verif.Props.C82_example_field_id",
    "Verif.Props.C82_ball_field_id"
   ],
   "note": "proved for the model, all inputs and histories as stated"
  },
  {
   "property": "C83",
   "status": "partial",
   "theorems": [
    "Verif.Props.C83_bind_state_negation",
    "Verif.Props.C83_state_access_negation"
   ],
   "note": "Refuted for every program that follows the borrow rules: object creation from C# passes the wrong pointers, so no object ever exists; a reached BindState always panics, State and StateMut are never reached."
  },
  {
   "property": "C84",
   "status": "proved",
   "theorems": [
    "Verif.Props.C84_wrapped_refuses",
    "Verif.Props.C84_rbox_refuses",
    "Verif.Props.C84_wrapped_frame",
    "Verif.Props.C84_rbox_frame",
    "Verif.Props.C84_failures",
    "Verif.Props.C84_wrapped_complete",
    "Verif.Props.C84_rbox_complete",
    "Verif.Props.C84_wrapped_exact",
    "Verif.Props.C84_wrapped_succeeds"
   ],
   "note": "proved for the model, all inputs and histories as stated"
  },
  {
   "property": "C85",
   "status": "partial",
   "theorems": [
    "Verif.Props.C85_copied_partial",
    "Verif.Props.C85_own_library_partial",
    "Verif.Props.C85_default_negation",
    "Verif.Props.C85_dot_negation",
    "Verif.Props.C85_dot_main_negation",
    "Verif.Props.C85_project_dir_partial",
    "Verif.Props.C85_publish_negation"
   ],
   "note": ""
  },
  {
   "property": "C86",
   "status": "proved",
   "theorems": [
    "Verif.Props.C86_iter_both_ends",
    "Verif.Props.C86_iter_mut"
   ],
   "note": "proved for the model, all inputs and histories as stated"
  },
  {
   "property": "C87",
   "status": "proved",
   "theorems": [
    "Verif.Props.C87_nested_error",
    "Verif.Props.C87_nested_error_slow",
    "Verif.Props.C87_nested_never_ahead",
    "Verif.Props.C87_nested_offsets_add",
    "Verif.Props.C87_nested_order"
   ],
   "note": "proved for the model, all inputs and histories as stated"
  },
  {
   "property": "C88",
   "status": "proved",
   "theorems": [
    "Verif.Props.C88_state_last_write",
    "Verif.Props.C88_channel_last_write"
   ],
   "note": "proved for the model, all inputs and histories as stated"
  },
  {
   "property": "C89",
   "status": "partial",
   "theorems": [
    "Verif.Props.C89_frames_partial",
    "Verif.Props.C89_whole_frames_partial",
    "Verif.Props.C89_not_ready_partial",
    "Verif.Props.C89_negation"
   ],
   "note": "The full statement is false of the code (C89_negation: the ball loses its material, the frame writes nine numbers and throws, so the copy has a position and a colour the ball never had together). C89_frames_partial is the exact behaviour; C89_whole_frames_partial gives whole frames whenever the ball has a colour."
  },
  {
   "property": "C90",
   "status": "partial",
   "theorems": [
    "Verif.Props.C90_in_order_partial",
    "Verif.Props.C90_negation"
   ],
   "note": "False of the code (C90_negation: keyframes_mut hands out the vector). C90_in_order_partial holds when channels are only replaced by ones made by Channel::new, which is all the C API allows."
  },
  {
   "property": "C91",
   "status": "partial",
   "theorems": [
    "Verif.Props.C91_swap_breaks_fields_negation",
    "Verif.Props.C91_swap_exact",
    "Verif.Props.C91_swaps_unseen_by_calls",
    "Verif.Props.C91_swaps_only_permute_partial",
    "Verif.Props.C91_without_swaps",
    "Verif.Props.C91_realm_kind_negation",
    "Verif.Props.C91_realm_kind_partial"
   ],
   "note": "False of the code (C91_swap_breaks_fields_negation, C91_realm_kind_negation). C91_swap_exact is one exchange exactly; C91_swaps_unseen_by_calls: no API call can tell; C91_swaps_only_permute_partial: every record still belongs to exactly one creation and its fields read back at its home baseline, for every program; C91_without_swaps: programs of calls only are ordinary histories, so C11 and C12 apply."
  },
  {
   "property": "C92",
   "status": "partial",
   "theorems": [
    "Verif.Props.C92_debug_is_the_model",
    "Verif.Props.C92_release_agrees_partial",
    "Verif.Props.C92_release_tween_partial",
    "Verif.Props.C92_release_nth_partial",
    "Verif.Props.C92_release_serializer_partial",
    "Verif.Props.C92_negation"
   ],
   "note": "False of the code (C92_negation: a tween of i8 from -128 to 127, nth(usize::MAX), 65536 contracts). C92_release_agrees_partial: wherever a debug build does not panic, a release build does the same; the other partials say exactly what a release build does where a debug build panics. C92_debug_is_the_model ties both to the models of the other properties."
  },
  {
   "property": "C93",
   "status": "partial",
   "theorems": [
    "Verif.Props.C93_seed_invisible_partial",
    "Verif.Props.C93_same_up_to_renaming_partial",
    "Verif.Props.C93_seed_visible_negation",
    "Verif.Props.C93_opaque_programs_partial"
   ],
   "note": "False of the code (C93_seed_visible_negation: after unregistering a contract with two objects the next object_create returns another handle; after a panicking unregister another object is gone and no renaming explains it; two saves of one baseline are different buffers). C93_seed_invisible_partial: nothing at all differs while no contract listing two or more objects is unregistered. C93_same_up_to_renaming_partial: for every history in which no unregister_contract panics over two or more listed objects, some bijection of object handles turns one run into the other, results and readers included. C93_opaque_programs_partial: a program that uses handles only as handles and ends at a panic sees the same with every hash seed."
  },
  {
   "property": "C94",
   "status": "proved",
   "theorems": [
    "Verif.Props.C94_word_arena_agrees",
    "Verif.Props.C94_bound_is_sharp",
    "Verif.Props.C94_baseline_generations"
   ],
   "note": "C94_bound_is_sharp shows that the bound in the statement cannot be raised by one. Only the generation counter is bounded; slot numbers are bounded by memory. C94_baseline_generations carries the bound over to baselines: a history of n calls counts at most n generations in any arena."
  },
  {
   "property": "C95",
   "status": "proved",
   "theorems": [
    "Verif.Props.C95_each_send_answered_once",
    "Verif.Props.C95_order",
    "Verif.Props.C95_everything_is_delivered",
    "Verif.Props.C95_bounded",
    "Verif.Props.C95_shared_engine_is_the_engine",
    "Verif.Props.C95_after_the_engine"
   ],
   "note": "The crossbeam channel is an external crate: its contract is modelled from its documentation (see the head of Model/Clients)."
  },
  {
   "property": "C96",
   "status": "partial",
   "theorems": [
    "Verif.Props.C96_isolation_partial",
    "Verif.Props.C96_verdict_partial",
    "Verif.Props.C96_negation"
   ],
   "note": "False of the code (C96_negation: one thread's state write panics in apply_action, which unwinds the thread that owns the engine; the other thread's accepted collaction is lost). C96_isolation_partial: it holds if that thread catches panics or if nobody sends a state write. C96_verdict_partial: the verdict on a write-free collaction depends on the fork only."
  },
  {
   "property": "C97",
   "status": "partial",
   "theorems": [
    "Verif.Props.C97_enough_room_partial",
    "Verif.Props.C97_negation_waits_for_ever",
    "Verif.Props.C97_negation"
   ],
   "note": "False of the code for bounded queues (C97_negation_waits_for_ever: with n places the (n+1)st send waits for ever; Some(0): the first). C97_enough_room_partial: it holds if the queue is unbounded or has room."
  },
  {
   "property": "C98",
   "status": "partial",
   "theorems": [
    "Verif.Props.C98_storage_partial",
    "Verif.Props.C98_negation"
   ],
   "note": "False of the code for states and channels, which object_remove leaks (see C16): C98_negation. Object and contract slots are reused, and the number of leaked fields is exact: C98_storage_partial. log and hash-set memory are not modelled."
  },
  {
   "property": "C99",
   "status": "proved",
   "theorems": [
    "Verif.Props.C99_looks_no_further",
    "Verif.Props.C99_depends_on_the_items",
    "Verif.Props.C99_all_or_nothing"
   ],
   "note": "proved for the model, all inputs and histories as stated"
  },
  {
   "property": "C100",
   "status": "partial",
   "theorems": [
    "Verif.Props.C100_negation",
    "Verif.Props.C100_panics_exactly_partial",
    "Verif.Props.C100_returns_partial"
   ],
   "note": "False of the code: Vec::with_capacity(size_hint().0) panics for std::iter::repeat (C100_negation). Proved: exactly when object_create panics, and that it returns when the hints can be allocated and the iterators do not panic."
  },
  {
   "property": "C101",
   "status": "partial",
   "theorems": [
    "Verif.Props.C101_reader_limit_partial",
    "Verif.Props.C101_exactly_partial",
    "Verif.Props.C101_thresholds_partial",
    "Verif.Props.C101_negation"
   ],
   "note": "Refuted: flatbuffers::root refuses buffers with more than a million tables (the crate's default), and the serializer does not know. Partial: exact threshold for every set of contracts, for every buffer, and the number of objects at which it is met."
  },
  {
   "property": "C102",
   "status": "proved",
   "theorems": [
    "Verif.Props.C102_restore_deterministic",
    "Verif.Props.C102_finish_deterministic",
    "Verif.Props.C102_saves_agree",
    "Verif.Props.C102_orders_agree",
    "Verif.Props.C102_any_order"
   ],
   "note": "Determinism of finish is proved for every deserializer a program can get to (DesRun), with equality of the whole model state, so every later call agrees too; contents of different saves and of different call orders are compared with SameContents (Spec/RoundTrip)."
  },
  {
   "property": "C103",
   "status": "partial",
   "theorems": [
    "Verif.Props.C103_serialize_iff_partial",
    "Verif.Props.C103_stuck_partial",
    "Verif.Props.C103_negation"
   ],
   "note": "Refuted: one removed object keeps its contract from being saved for good (C103_negation, C103_stuck_partial). Partial: serialize succeeds exactly if all listed objects are alive or the type has no states, and never panics."
  },
  {
   "property": "C104",
   "status": "partial",
   "theorems": [
    "Verif.Props.C104_only_live_saved_partial",
    "Verif.Props.C104_ghosts_partial",
    "Verif.Props.C104_negation"
   ],
   "note": "Refuted for contract types without states: a baseline without live objects is restored with one. Partial: contracts with states are saved only if all listed objects are alive; for the others exactly one object comes back per listed handle, dead or alive."
  },
  {
   "property": "C105",
   "status": "partial",
   "theorems": [
    "Verif.Props.C105_leftovers_partial",
    "Verif.Props.C105_negation"
   ],
   "note": "Refuted: after an error the contract table and a seed-dependent prefix of the objects stay in the serializer. Partial: exactly what stays; C49 has the errors that leave nothing."
  },
  {
   "property": "C106",
   "status": "partial",
   "theorems": [
    "Verif.Props.C106_reset_partial",
    "Verif.Props.C106_only_default_partial",
    "Verif.Props.C106_negation"
   ],
   "note": "Refuted: a restored object always has the default time warp. Partial: exactly the objects whose warp was the default keep it."
  },
  {
   "property": "C107",
   "status": "partial",
   "theorems": [
    "Verif.Props.C107_buffer_iff_partial",
    "Verif.Props.C107_saved_not_restored_partial",
    "Verif.Props.C107_negation"
   ],
   "note": "Refuted: with an object of a contract that has channels every step of saving succeeds, and the result never restores. Partial: restoring succeeds exactly when no contract with channels has an object, both for baselines and for arbitrary complete buffers."
  },
  {
   "property": "C108",
   "status": "proved",
   "theorems": [
    "Verif.Props.C108_no_garbage",
    "Verif.Props.C108_exactly_the_fields"
   ],
   "note": "Also for deserializations some of whose calls failed."
  },
  {
   "property": "C109",
   "status": "partial",
   "theorems": [
    "Verif.Props.C109_handles_partial",
    "Verif.Props.C109_negation",
    "Verif.Props.C109_negation_confused"
   ],
   "note": "Refuted (slot 0 is taken by the internal null object, so all handles shift; one object's handle can denote another one). Partial: exactly which handles resolve after a restore."
  },
  {
   "property": "C110",
   "status": "partial",
   "theorems": [
    "Verif.Props.C110_start_partial",
    "Verif.Props.C110_past_the_end_partial",
    "Verif.Props.C110_negation"
   ],
   "note": "Refuted (a time above 1 panics or passes the target). Partial: exactly when a time gives a value and which one (intEaseAt_ok); the start at NaN and on the start's side; growth past the target; the result at infinity."
  },
  {
   "property": "C111",
   "status": "proved",
   "theorems": [
    "Verif.Props.C111_whole",
    "Verif.Props.C111_transparent",
    "Verif.Props.C111_all_stand",
    "Verif.Props.C111_life",
    "Verif.Props.C111_warps_show"
   ],
   "note": "Proved: C111_transparent (any correspondence under which the contents are the same, any kept variables, any program, any hash orders), C111_life (restarts at any points), C111_whole (without panics the condition is just that every contract is saved, no warp is set and no state is minus zero), C111_all_stand (every bound state handle has a counterpart), C111_warps_show (the condition on warps is needed, as C106). Programs treat handles as opaque: they hold them in variables, pass them, compare them, store them in states; they end at a panic. The order of iter_objects is not observed (it does differ), only the number of its items."
  },
  {
   "property": "C112",
   "status": "proved",
   "theorems": [
    "Verif.Props.C112_independent_calls_commute",
    "Verif.Props.C112_overwrites_in_any_order",
    "Verif.Props.C112_collision_register",
    "Verif.Props.C112_collision_write",
    "Verif.Props.C112_collision_remove"
   ],
   "note": "Proved for pairs of updating calls (C112_independent_calls_commute, from any state a program can reach) and for lists of overwriting calls in any permutation (C112_overwrites_in_any_order, in any baseline, exactly the same baseline at the end). C112_collision_register, C112_collision_write and C112_collision_remove: the excluded pairs do show their order. unregister_contract is not among the calls exchanged."
  },
  {
   "property": "C113",
   "status": "proved",
   "theorems": [
    "Verif.Props.C113_separate_parts",
    "Verif.Props.C113_programs_do_not_interfere",
    "Verif.Props.C113_any_schedule",
    "Verif.Props.C113_conditions_needed"
   ],
   "note": "Proved for every schedule of any number of programs (C113_programs_do_not_interfere); C113_any_schedule: a program cannot tell two schedules apart; C113_conditions_needed: with the object count, or with a shared contract id, programs see each other. C113_separate_parts: the same from every reachable baseline, for programs with separate parts of it (removed objects, channels, vectors and time warps included)."
  },
  {
   "property": "C114",
   "status": "proved",
   "theorems": [
    "Verif.Props.C114_part_transparent",
    "Verif.Props.C114_left_out_shows"
   ],
   "note": "Proved (C114_part_transparent) for every selection of contracts that Savable allows; C114_left_out_shows: the condition on registered ids is needed."
  },
  {
   "property": "C115",
   "status": "proved",
   "theorems": [
    "Verif.Props.C115_split"
   ],
   "note": "Proved (C115_split) for every family of separate parts that Savable allows, and every schedule."
  },
  {
   "property": "C116",
   "status": "proved",
   "theorems": [
    "Verif.Props.C116_exactly",
    "Verif.Props.C116_choices_do_not_matter"
   ],
   "note": "proved for the model, all inputs and histories as stated"
  },
  {
   "property": "C117",
   "status": "partial",
   "theorems": [
    "Verif.Props.C117_run_again_partial",
    "Verif.Props.C117_negation"
   ],
   "note": ""
  },
  {
   "property": "C118",
   "status": "proved",
   "theorems": [
    "Verif.Props.C118_no_damage",
    "Verif.Props.C118_completed"
   ],
   "note": "proved for the model, all inputs and histories as stated"
  },
  {
   "property": "C119",
   "status": "partial",
   "theorems": [
    "Verif.Props.C119_links_partial",
    "Verif.Props.C119_negation"
   ],
   "note": ""
  },
  {
   "property": "C120",
   "status": "proved",
   "theorems": [
    "Verif.Props.C120_round_trip_test",
    "Verif.Props.C120_every_bit"
   ],
   "note": "proved for the model, all inputs and histories as stated"
  },
  {
   "property": "C121",
   "status": "partial",
   "theorems": [
    "Verif.Props.C121_exact_partial",
    "Verif.Props.C121_unshared_partial",
    "Verif.Props.C121_bound_partial",
    "Verif.Props.C121_multiplied_partial",
    "Verif.Props.C121_tight_partial",
    "Verif.Props.C121_negation",
    "Verif.Props.C121_saved_partial"
   ],
   "note": ""
  },
  {
   "property": "C122",
   "status": "proved",
   "theorems": [
    "Verif.Props.C122_links_replaced",
    "Verif.Props.C122_completes_iff"
   ],
   "note": "proved for the model, all inputs and histories as stated"
  },
  {
   "property": "C123",
   "status": "partial",
   "theorems": [
    "Verif.Props.C123_only_listed_partial",
    "Verif.Props.C123_in_general_partial",
    "Verif.Props.C123_empty_entry_partial",
    "Verif.Props.C123_negation"
   ],
   "note": ""
  },
  {
   "property": "C124",
   "status": "proved",
   "theorems": [
    "Verif.Props.C124_run_again"
   ],
   "note": "proved for the model, all inputs and histories as stated"
  },
  {
   "property": "C125",
   "status": "partial",
   "theorems": [
    "Verif.Props.C125_shipped_partial",
    "Verif.Props.C125_negation"
   ],
   "note": ""
  },
  {
   "property": "C126",
   "status": "partial",
   "theorems": [
    "Verif.Props.C126_exact_partial",
    "Verif.Props.C126_once_partial",
    "Verif.Props.C126_number_partial",
    "Verif.Props.C126_negation"
   ],
   "note": "Refuted: flatbuffers leaves out a field equal to its default, and -0.0 == 0.0, so the sign of a zero is lost. Partial: exactly when a cycle is bit for bit; the loss happens once; the number a float stands for, NaN payloads included, is always kept."
  },
  {
   "property": "C127",
   "status": "proved",
   "theorems": [
    "Verif.Props.C127_files_are_faithful",
    "Verif.Props.C127_failures_are_faithful",
    "Verif.Props.C127_file_restores",
    "Verif.Props.C127_exactly"
   ],
   "note": "proved for the model, all inputs and histories as stated"
  },
  {
   "property": "C128",
   "status": "proved",
   "theorems": [
    "Verif.Props.C128_cut_files",
    "Verif.Props.C128_trailing_bytes",
    "Verif.Props.C128_open_never_panics",
    "Verif.Props.C128_missing_end",
    "Verif.Props.C128_missing_words"
   ],
   "note": "proved for the model, all inputs and histories as stated"
  },
  {
   "property": "C129",
   "status": "partial",
   "theorems": [
    "Verif.Props.C129_identifier_partial",
    "Verif.Props.C129_negation"
   ],
   "note": ""
  },
  {
   "property": "C130",
   "status": "proved",
   "theorems": [
    "Verif.Props.C130_file_size"
   ],
   "note": "proved for the model, all inputs and histories as stated"
  },
  {
   "property": "C131",
   "status": "partial",
   "theorems": [
    "Verif.Props.C131_any_file_partial",
    "Verif.Props.C131_negation"
   ],
   "note": ""
  },
  {
   "property": "C132",
   "status": "proved",
   "theorems": [
    "Verif.Props.C132_never_panics",
    "Verif.Props.C132_same_schema"
   ],
   "note": "proved for the model, all inputs and histories as stated"
  },
  {
   "property": "C133",
   "status": "proved",
   "theorems": [
    "Verif.Props.C133_read_in_part"
   ],
   "note": "proved for the model, all inputs and histories as stated"
  },
  {
   "property": "C134",
   "status": "proved",
   "theorems": [
    "Verif.Props.C134_reads_inside",
    "Verif.Props.C134_restored_reads_inside"
   ],
   "note": "proved for the model, all inputs and histories as stated"
  },
  {
   "property": "C135",
   "status": "proved",
   "theorems": [
    "Verif.Props.C135_file_bounds_contents"
   ],
   "note": "proved for the model, all inputs and histories as stated"
  },
  {
   "property": "C136",
   "status": "proved",
   "theorems": [
    "Verif.Props.C136_restart",
    "Verif.Props.C136_life"
   ],
   "note": "proved for the model, all inputs and histories as stated"
  },
  {
   "property": "C137",
   "status": "partial",
   "theorems": [
    "Verif.Props.C137_setup_again_partial",
    "Verif.Props.C137_negation"
   ],
   "note": "Refuted by any two runs (C137_negation): git clone refuses a directory that is not empty. C137_setup_again_partial says exactly when a run completes, what it leaves, and that removing the directory helps."
  },
  {
   "property": "C138",
   "status": "proved",
   "theorems": [
    "Verif.Props.C138_equal_files",
    "Verif.Props.C138_equal_files_exactly",
    "Verif.Props.C138_same_files"
   ],
   "note": "Values agree up to the sign of a zero, which the format does not keep (C126); C138_equal_files_exactly is without that exception if there is no minus zero. C138_same_files is the converse; that two orders give two files is shown by an example."
  },
  {
   "property": "C139",
   "status": "proved",
   "theorems": [
    "Verif.Props.C139_no_drift",
    "Verif.Props.C139_same_file_again"
   ],
   "note": "proved for the model, all inputs and histories as stated"
  },
  {
   "property": "C140",
   "status": "proved",
   "theorems": [
    "Verif.Props.C140_seeds",
    "Verif.Props.C140_restarts"
   ],
   "note": "proved for the model, all inputs and histories as stated"
  },
  {
   "property": "C141",
   "status": "proved",
   "theorems": [
    "Verif.Props.C141_built_savable",
    "Verif.Props.C141_built_restores"
   ],
   "note": "proved for the model, all inputs and histories as stated"
  }
 ]
}