{
 "claims": [
  {
   "property": "C01",
   "status": "proved",
   "theorems": [
    "JaxAct.C01_probabilities_in_unit_interval"
   ],
   "note": "Exact arithmetic in any ordered field; all call histories."
  },
  {
   "property": "C02",
   "status": "proved",
   "theorems": [
    "JaxAct.C02_halted_stays_halted",
    "JaxAct.C02_reset_clears"
   ],
   "note": "Exact arithmetic; histories without reset; C02_reset_clears covers the reset."
  },
  {
   "property": "C03",
   "status": "proved",
   "theorems": [
    "JaxAct.C03_halted_elements_frozen",
    "JaxAct.C03_frozen_until_reset"
   ],
   "note": "Any arithmetic without laws, so NaN and rounding included."
  },
  {
   "property": "C04",
   "status": "proved",
   "theorems": [
    "JaxAct.C04_graves_weights",
    "JaxAct.C04_probability_and_halting"
   ],
   "note": "Exact arithmetic; induction on rounds; every leaf and index of every accumulator tree."
  },
  {
   "property": "C05",
   "status": "proved",
   "theorems": [
    "JaxAct.C05_halted_probability_is_one",
    "JaxAct.C05_weights_sum_to_one"
   ],
   "note": "Exact arithmetic."
  },
  {
   "property": "C06",
   "status": "proved",
   "theorems": [
    "JaxAct.C06_residual_is_remainder"
   ],
   "note": "Exact arithmetic."
  },
  {
   "property": "C07",
   "status": "proved",
   "theorems": [
    "JaxAct.C07_iterations_count_active"
   ],
   "note": "Exact arithmetic; histories with resets."
  },
  {
   "property": "C08",
   "status": "proved",
   "theorems": [
    "JaxAct.C08_iterate_clip_of_idempotent",
    "JaxAct.C08_iterate_clip",
    "JaxAct.C08_values_never_raise"
   ],
   "note": "The idempotence needed of clamping is a hypothesis in the version for any arithmetic and proved for exact arithmetic."
  },
  {
   "property": "C09",
   "status": "proved",
   "theorems": [
    "JaxAct.C09_iterate_independent",
    "JaxAct.C09_reset_independent",
    "JaxAct.C09_batch_independence"
   ],
   "note": "Two-run theorem for any arithmetic, for iterate_act, reset_batches and whole histories."
  },
  {
   "property": "C10",
   "status": "proved",
   "theorems": [
    "JaxAct.C10_cache_errors",
    "JaxAct.C10_cache_success"
   ],
   "note": "Any arithmetic; every error branch and the success case characterised."
  },
  {
   "property": "C11",
   "status": "proved",
   "theorems": [
    "JaxAct.C11_cache_order",
    "JaxAct.C11_round_order"
   ],
   "note": "Any arithmetic."
  },
  {
   "property": "C12",
   "status": "proved",
   "theorems": [
    "JaxAct.C12_missing_update_raises",
    "JaxAct.C12_success_empties",
    "JaxAct.C12_success_needs_ready"
   ],
   "note": "Any arithmetic."
  },
  {
   "property": "C13",
   "status": "proved",
   "theorems": [
    "JaxAct.C13_iterate_succeeds_iff",
    "JaxAct.C13_iterate_errors",
    "JaxAct.C13_low_precision_accumulator_never_iterates"
   ],
   "note": "Both directions, any arithmetic."
  },
  {
   "property": "C14",
   "status": "proved",
   "theorems": [
    "JaxAct.C14_types_invariant"
   ],
   "note": "Any arithmetic; all histories with resets."
  },
  {
   "property": "C15",
   "status": "proved",
   "theorems": [
    "JaxAct.C15_reset_accumulators",
    "JaxAct.C15_pending_raises",
    "JaxAct.C15_reset_bookkeeping",
    "JaxAct.C15_reset_idempotent"
   ],
   "note": "Any arithmetic; accumulators, probabilities, residuals, iterations, idempotence and the error branch."
  },
  {
   "property": "C16",
   "status": "partial",
   "theorems": [
    "JaxAct.C16_containers_raise",
    "JaxAct.C16_reset_succeeds_iff_partial",
    "JaxAct.C16_not_for_all"
   ],
   "note": "False as stated: accumulators that are containers make reset raise AttributeError (C16_containers_raise, C16_not_for_all). Proved for accumulators that are bare tensors, both directions."
  },
  {
   "property": "C17",
   "status": "proved",
   "theorems": [
    "JaxAct.C17_halting_reached_sharp",
    "JaxAct.C17_halting_reached",
    "JaxAct.C17_epsilon_zero_never_halts"
   ],
   "note": "Exact arithmetic; explicit bound on the number of iterations, and the bound fails for epsilon 0."
  },
  {
   "property": "C18",
   "status": "partial",
   "theorems": [
    "JaxAct.C18_threshold_one_never_halts",
    "JaxAct.C18_threshold_one_iff",
    "JaxAct.C18_reachable_partial",
    "JaxAct.C18_reachable_iff",
    "JaxAct.C18_false_float16",
    "JaxAct.C18_false_bfloat16",
    "JaxAct.C18_false_float32",
    "JaxAct.C18_false",
    "JaxAct.C18_float32_partial"
   ],
   "note": "False: for float16 (epsilon <= 2^-12), bfloat16 (<= 2^-9) and float32 (<= 2^-25) the threshold 1-epsilon rounds to 1 and no history halts an element (proved). Proved exactly when halting is reachable: iff the rounded threshold is below 1."
  },
  {
   "property": "C19",
   "status": "proved",
   "theorems": [
    "JaxAct.C19_remainder_exact",
    "JaxAct.C19_probabilities_in_unit_interval",
    "JaxAct.C19_halted_probability_is_one",
    "JaxAct.C19_crossing_gives_one"
   ],
   "note": "Round-to-nearest-even model of any precision and smallest exponent (subnormals included); overflow, NaN and flush-to-zero are outside this model."
  },
  {
   "property": "C20",
   "status": "proved",
   "theorems": [
    "JaxAct.C20_result",
    "JaxAct.C20_key_order",
    "JaxAct.C20_unique",
    "JaxAct.C20_terminates",
    "JaxAct.C20_exceptions"
   ],
   "note": "A returned result is reached from make_controller output by k <= max_iterations calls of run_iteration, each because not halted and below the maximum, and none after; at most one outcome; an outcome exists for jittable layers."
  },
  {
   "property": "C21",
   "status": "proved",
   "theorems": [
    "JaxAct.C21_reported",
    "JaxAct.C21_violation_raises",
    "JaxAct.C21_off",
    "JaxAct.C21_check_misses_new_controller",
    "JaxAct.C21_check_blames_old_controller"
   ],
   "note": "With checks on every run_iteration result that is not a tuple of a new controller without pending updates and a pytree makes execute_act raise TypeError or RuntimeError (exact exception for each kind); with checks off the wrapper is the identity. Finding, also proved: the wrapper tests the old controller for uncommitted updates; the new one is only caught by the while_loop type check."
  },
  {
   "property": "C22",
   "status": "proved",
   "theorems": [
    "JaxAct.C22_not_a_controller",
    "JaxAct.C22_no_accumulators",
    "JaxAct.C22_used_unchanged",
    "JaxAct.C22_returned_unchanged"
   ],
   "note": "TypeError, RuntimeError and otherwise the loop starts from that controller; with nothing to run it is returned unchanged."
  },
  {
   "property": "C23",
   "status": "partial",
   "theorems": [
    "JaxAct.C23_value_error_iff_partial",
    "JaxAct.C23_never_succeeds",
    "JaxAct.C23_epsilon_exact",
    "JaxAct.C23_fresh_with_error_mode"
   ],
   "note": "False as stated: new_builder on valid input always raises TypeError (ACTStates is constructed without error_mode). Proved: exactly which inputs give ValueError, that it never succeeds, and what the state would be with the missing field supplied."
  },
  {
   "property": "C24",
   "status": "proved",
   "theorems": [
    "JaxAct.C24_define_ok_iff",
    "JaxAct.C24_define_lookup",
    "JaxAct.C24_define_error_iff"
   ],
   "note": "Exact success and failure conditions of define_*, with the stored entries."
  },
  {
   "property": "C25",
   "status": "proved",
   "theorems": [
    "JaxAct.C25_valid_shapes",
    "JaxAct.C25_corrupt_shapes",
    "JaxAct.C25_unique"
   ],
   "note": "Exact structure, leaf shapes, dtype and fill value; ValueError for a corrupt tree, otherwise the outcome of define_accumulator_directly."
  },
  {
   "property": "C26",
   "status": "proved",
   "theorems": [
    "JaxAct.C26_aligned",
    "JaxAct.C26_reachable_wf"
   ],
   "note": "Every state reached from a base state by any sequence of builder operations is well formed and its dictionaries are aligned. The base state is the one new_builder intends (see C23)."
  },
  {
   "property": "C27",
   "status": "proved",
   "theorems": [
    "JaxAct.C27_delete_defined",
    "JaxAct.C27_delete_error_iff",
    "JaxAct.C27_define_delete",
    "JaxAct.C27_delete_define"
   ],
   "note": "delete_definition: result, exact error condition, and both round trips with define."
  },
  {
   "property": "C28",
   "status": "proved",
   "theorems": [
    "JaxAct.C28_set_probabilities",
    "JaxAct.C28_set_residuals",
    "JaxAct.C28_set_iterations",
    "JaxAct.C28_set_epsilon",
    "JaxAct.C28_silence",
    "JaxAct.C28_wf_preserved",
    "JaxAct.C28_exact_probability"
   ],
   "note": "Exact acceptance condition of the four checked setters, exception class on refusal, frame (all other fields equal), silence mode, and preservation of well-formedness. NaN passes the comparison based probability check, so the bound itself is stated in exact arithmetic."
  },
  {
   "property": "C29",
   "status": "partial",
   "theorems": [
    "JaxAct.C29_acceptance",
    "JaxAct.C29_set_accumulator_partial",
    "JaxAct.C29_set_defaults_partial",
    "JaxAct.C29_set_updates_partial",
    "JaxAct.C29_still_iterates_partial",
    "JaxAct.C29_update_fits_partial",
    "JaxAct.C29_none_accepted"
   ],
   "note": "False as stated: None in a leaf position is accepted (witness proved). Exact acceptance condition of every tree setter, and the claim for values without None."
  },
  {
   "property": "C30",
   "status": "proved",
   "theorems": [
    "JaxAct.C30_unknown_name",
    "JaxAct.C30_no_name_added",
    "JaxAct.C30_silence_adds"
   ],
   "note": "Unknown names raise KeyError or JaxRuntimeError as the code path dictates, no name is ever added in standard mode; silence mode adds the name (proved too)."
  },
  {
   "property": "C31",
   "status": "proved",
   "theorems": [
    "JaxAct.C31_success_iff",
    "JaxAct.C31_mask_entries",
    "JaxAct.C31_exact"
   ],
   "note": "Entrywise result for every arithmetic, success condition, exact arithmetic: masked entries are zero, unmasked ones unchanged."
  },
  {
   "property": "C32",
   "status": "proved",
   "theorems": [
    "JaxAct.C32_partition",
    "JaxAct.C32_every_entry"
   ],
   "note": "Each batch element, and each accumulator entry, is kept by exactly one of the two views."
  },
  {
   "property": "C33",
   "status": "partial",
   "theorems": [
    "JaxAct.C33_transform_partial",
    "JaxAct.C33_success_iff",
    "JaxAct.C33_error_is_runtime",
    "JaxAct.C33_updates_from_defaults",
    "JaxAct.C33_updates_lost"
   ],
   "note": "False for updates: they are computed from defaults (witness and general theorem proved). Proved for accumulators and defaults, with the exact success condition."
  },
  {
   "property": "C34",
   "status": "proved",
   "theorems": [
    "JaxAct.C34_state",
    "JaxAct.C34_objects",
    "JaxAct.C34_objects_distinct",
    "JaxAct.C34_rebuild",
    "JaxAct.C34_wrong_number",
    "JaxAct.C34_state_unflatten",
    "JaxAct.C34_flatten_iff"
   ],
   "note": "treeFlatten/treeUnflatten of the registered classes: the round trip gives the same object with dicts in key order (same mapping), error mode and class kept; the aux data tell classes apart; wrong number of leaves is rejected."
  },
  {
   "property": "C35",
   "status": "proved",
   "theorems": [
    "JaxAct.C35_same_flattening",
    "JaxAct.C35_utils",
    "JaxAct.C35_iterate",
    "JaxAct.C35_cache_update",
    "JaxAct.C35_reset",
    "JaxAct.C35_reset_wf",
    "JaxAct.C35_history",
    "JaxAct.C35_editor_checks"
   ],
   "note": "Trees that are the same mapping flatten to the same leaves and treedef (iff); utils, iterate_act, cache_update, reset_batches and the editor checks give the same result on states that are the same mapping."
  },
  {
   "property": "C36",
   "status": "partial",
   "theorems": [
    "JaxAct.C36_replicates",
    "JaxAct.C36_compatible_succeeds",
    "JaxAct.C36_success_iff",
    "JaxAct.C36_error_iff",
    "JaxAct.C36_raises_otherwise_partial",
    "JaxAct.C36_leaf_dropped"
   ],
   "note": "False: a source leaf facing an empty target subtree is dropped silently, no exception (witness). Proved: replication along paths, success on every compatible pair, exact success and error conditions."
  },
  {
   "property": "C37",
   "status": "partial",
   "theorems": [
    "JaxAct.C37_second_assertion",
    "JaxAct.C37_first_assertion_partial",
    "JaxAct.C37_assertion_iff",
    "JaxAct.C37_first_assertion_reachable"
   ],
   "note": "False for the first assertion (reachable, witness). Proved: the second never fires for any pair of trees; exact condition under which the first does; never on trees without empty containers."
  },
  {
   "property": "C38",
   "status": "partial",
   "theorems": [
    "JaxAct.C38_result",
    "JaxAct.C38_error",
    "JaxAct.C38_incompatible",
    "JaxAct.C38_success_partial",
    "JaxAct.C38_success_forward",
    "JaxAct.C38_second_attempt_skipped"
   ],
   "note": "False: when the first broadcast attempt fails with AssertionError the second direction is not tried (witness). Proved: shape and leafwise content of every success, RuntimeError for incompatible trees, success in the forward direction."
  },
  {
   "property": "C39",
   "status": "proved",
   "theorems": [
    "JaxAct.C39_merge_pairs",
    "JaxAct.C39_merge_assertion_iff",
    "JaxAct.C39_merge_propagates",
    "JaxAct.C39_merge_first_error"
   ],
   "note": "merge_pytrees pairs leaves in flattening order; assertion iff leaf counts differ; the exception of the first pair on which the callback raises propagates."
  },
  {
   "property": "C40",
   "status": "partial",
   "theorems": [
    "JaxAct.C40_equivalence",
    "JaxAct.C40_ignores_leaves",
    "JaxAct.C40_iff_structure_partial",
    "JaxAct.C40_characterisation",
    "JaxAct.C40_of_structure",
    "JaxAct.C40_none_confused"
   ],
   "note": "False as stated when None sits in a leaf position (witness proved). Proved: equivalence relation, blind to leaf values, equal structure implies True, the exact iff for trees without None, and what is decided for all trees (leaf and None interchangeable)."
  },
  {
   "property": "C41",
   "status": "partial",
   "theorems": [
    "JaxAct.C41_characterisation",
    "JaxAct.C41_same_structure_partial",
    "JaxAct.C41_structure_ignored",
    "JaxAct.C41_raises"
   ],
   "note": "False as stated: structure is ignored beyond the leaf count and unequal shapes may raise (witnesses proved). Exact characterisation, and the claim for trees with equal structure."
  },
  {
   "property": "C42",
   "status": "proved",
   "theorems": [
    "JaxAct.C42_iff_broadcast",
    "JaxAct.C42_iff_operation",
    "JaxAct.C42_iff_dimensions"
   ],
   "note": "True iff numpy shapes broadcast, iff the elementwise operation succeeds, iff the right aligned dimensions are pairwise compatible."
  },
  {
   "property": "C43",
   "status": "proved",
   "theorems": [
    "JaxAct.C43_error_iff",
    "JaxAct.C43_appends_unit_axes",
    "JaxAct.C43_pairs_left",
    "JaxAct.C43_no_shape"
   ],
   "note": "Exact error condition, appended axes, entry map, and the pairing in a following elementwise operation."
  },
  {
   "property": "C44",
   "status": "partial",
   "theorems": [
    "JaxAct.Obj.C44_constructors",
    "JaxAct.Obj.C44_frozen_partial",
    "JaxAct.Obj.C44_other_attributes",
    "JaxAct.Obj.C44_flag_assignable",
    "JaxAct.Obj.C44_unlocked",
    "JaxAct.Obj.C44_deletion_unprotected"
   ],
   "note": "False for the attribute _is_immutable, which can be assigned and unlocks the object; deletion is not protected (witnesses). Proved: every sequence of assignments to other attributes raises AttributeError each time and changes nothing."
  },
  {
   "property": "C45",
   "status": "proved",
   "theorems": [
    "JaxAct.Mem.C45_objects_unmodified",
    "JaxAct.Mem.C45_observations_stay",
    "JaxAct.Mem.C45_exposed_dictionaries_stay",
    "JaxAct.Mem.C45_saved_states_stay",
    "JaxAct.Mem.C45_cache_update",
    "JaxAct.Mem.C45_iterate_act",
    "JaxAct.Mem.C45_reset_batches",
    "JaxAct.Mem.C45_define",
    "JaxAct.Mem.C45_define_by_shape",
    "JaxAct.Mem.C45_delete_definition",
    "JaxAct.Mem.C45_build",
    "JaxAct.Mem.C45_make_viewer",
    "JaxAct.Mem.C45_transform",
    "JaxAct.Mem.C45_masks",
    "JaxAct.Mem.C45_edit_controller",
    "JaxAct.Mem.C45_set_tensors",
    "JaxAct.Mem.C45_set_entries",
    "JaxAct.Mem.C45_calls",
    "JaxAct.Mem.C45_build_shares_dictionary"
   ],
   "note": "Heap model with references; any program of method calls (also ones that raise midway) leaves every existing cell unmodified, and every method agrees with its value model (`C45_calls`: whatever calls came before, a call - also save, load, edit_save, replace and attribute reads - has the outcome of the value model, and what it returned keeps that value whatever is called afterwards). Shown separately: exposed dictionaries are shared, so an assignment by the user (not a method) is seen by other objects."
  },
  {
   "property": "C46",
   "status": "partial",
   "theorems": [
    "JaxAct.C46_replace_partial",
    "JaxAct.C46_missing_validators",
    "JaxAct.C46_success_iff",
    "JaxAct.C46_constructor"
   ],
   "note": "False for depression_constant and error_mode, whose validators do not exist (AttributeError, proved). Proved: for every set of other fields, exactly those are changed; exact success condition; the dataclass constructor stores exactly the given fields and raises TypeError when one is missing (`C46_constructor`)."
  },
  {
   "property": "C47",
   "status": "proved",
   "theorems": [
    "JaxAct.C47_controller",
    "JaxAct.C47_viewer",
    "JaxAct.C47_editor",
    "JaxAct.C47_shared_properties",
    "JaxAct.C47_conversions"
   ],
   "note": "load(save(x)) = x for controllers and viewers; editor/viewer/controller made from one save agree on all shared properties."
  },
  {
   "property": "C48",
   "status": "proved",
   "theorems": [
    "JaxAct.C48_monotone",
    "JaxAct.C48_zero_depression"
   ],
   "note": "Exact arithmetic."
  },
  {
   "property": "C49",
   "status": "proved",
   "theorems": [
    "JaxAct.C49_convex_bounds",
    "JaxAct.C49_weighted_mean"
   ],
   "note": "Exact arithmetic; any number of rounds."
  },
  {
   "property": "C50",
   "status": "partial",
   "theorems": [
    "JaxAct.C50_accepted_iff_partial",
    "JaxAct.C50_string_error_mode",
    "JaxAct.C50_round_preserves",
    "JaxAct.C50_layer_jittable",
    "JaxAct.C50_execute_act_succeeds"
   ],
   "note": "False when error_mode is a string: TypeError for every layer (proved). Proved otherwise: accepted iff error_mode is None, a round preserves the signature, layers made of controller calls are jittable, and execute_act succeeds for them."
  },
  {
   "property": "C51",
   "status": "proved",
   "theorems": [
    "JaxAct.C51_result_unchanged",
    "JaxAct.C51_outcome_unchanged"
   ],
   "note": "A result with the warm-up run is the result without; for jittable layers the outcomes are equal including exceptions."
  },
  {
   "property": "C52",
   "status": "proved",
   "theorems": [
    "JaxAct.Text.C52_dedent",
    "JaxAct.Text.C52_context_on_top",
    "JaxAct.Text.C52_message_indented",
    "JaxAct.Text.C52_every_line_indented",
    "JaxAct.Text.C52_splitlines_flatten"
   ],
   "note": "All strings; margin specified independently as longest common blank prefix; str.splitlines with all its line boundaries."
  },
  {
   "property": "C53",
   "status": "proved",
   "theorems": [
    "JaxAct.C53_values_do_not_matter",
    "JaxAct.C53_tracing"
   ],
   "note": "Relational theorem over two arbitrary arithmetics; instance: abstract values as used by tracing."
  },
  {
   "property": "C54",
   "status": "proved",
   "theorems": [
    "JaxAct.C54_halted_stays_halted",
    "JaxAct.C54_halting_reached",
    "JaxAct.C54_lost_steps_never_halt"
   ],
   "note": "C17 under rounding: absorption of halted elements, termination bound, and stagnation when steps are lost."
  },
  {
   "property": "C55",
   "status": "proved",
   "theorems": [
    "JaxAct.C55_halting_ignores_data"
   ],
   "note": "Relational theorem between two runs; holds for every arithmetic, so also under rounding."
  },
  {
   "property": "C56",
   "status": "proved",
   "theorems": [
    "JaxAct.C56_batching_transparent",
    "JaxAct.C56_position_irrelevant"
   ],
   "note": "Any arithmetic. The success of the unbatched run is part of the conclusion."
  },
  {
   "property": "C57",
   "status": "proved",
   "theorems": [
    "JaxAct.C57_reset_fresh",
    "JaxAct.C57_reset_starts_over"
   ],
   "note": "For every arithmetic where masking a value gives zero (MaskZero), which is proved for exact and for rounded arithmetic. It is false for NaN and infinities, see C60."
  },
  {
   "property": "C58",
   "status": "proved",
   "theorems": [
    "JaxAct.C58_pending_flags",
    "JaxAct.C58_empty_batch",
    "JaxAct.C58_halting_flags",
    "JaxAct.C58_flags_persist"
   ],
   "note": "Pending updates and the empty batch in any arithmetic, persistence in exact arithmetic. Caching None succeeds and leaves the slot empty; the statement counts only other trees as updates."
  },
  {
   "property": "C59",
   "status": "proved",
   "theorems": [
    "JaxAct.C59_linear",
    "JaxAct.C59_monotone"
   ],
   "note": "Exact arithmetic."
  },
  {
   "property": "C60",
   "status": "proved",
   "theorems": [
    "JaxAct.C60_nan_halting_poisons",
    "JaxAct.C60_nan_forever",
    "JaxAct.C60_nan_accumulates",
    "JaxAct.C60_infinite_halting_clamped",
    "JaxAct.C60_mask_leaks"
   ],
   "note": "Findings about the code rather than promises it makes. Signed zeros are not modelled. That other batch elements are not affected is C09."
  },
  {
   "property": "C61",
   "status": "proved",
   "theorems": [
    "JaxAct.C61_loop_is_history",
    "JaxAct.C61_execute_act_is_graves"
   ],
   "note": "C61_loop_is_history in any arithmetic, C61_execute_act_is_graves in exact arithmetic. That execute_act returns at all is C50 and C20."
  },
  {
   "property": "C62",
   "status": "proved",
   "theorems": [
    "JaxAct.C62_session_aligned",
    "JaxAct.C62_session_ranges"
   ],
   "note": "C62_session_aligned holds in any arithmetic, C62_session_ranges in exact arithmetic with depression_constant >= 0. Examples show that silence mode and shape changing transforms break it. The start is the state described by new_builder, not its result: new_builder itself always raises (C23)."
  },
  {
   "property": "C63",
   "status": "proved",
   "theorems": [
    "JaxAct.C63_rounded_weighted_sum"
   ],
   "note": "Accumulators and updates may have any dtypes iterate_act accepts; updates count as converted to the common dtype of update and probabilities. prec and emin are those of the dtype of the probabilities. Hypothesis on the formats: a dtype converts exactly to those it is promoted to (fmt_sub: true of bfloat16, float16, float32, float64). Overflow is not modelled here (C60 has infinities)."
  },
  {
   "property": "C64",
   "status": "partial",
   "theorems": [
    "JaxAct.C64_traced_equals_eager_partial",
    "JaxAct.C64_threshold_gap",
    "JaxAct.C64_decisions",
    "JaxAct.C64_false",
    "JaxAct.C64_default_scalars",
    "JaxAct.C64_depression_float32"
   ],
   "note": "False: with epsilon = 2^-25 + 2^-52 in float32 an eager iteration halts and a traced one never does (C64_false). Proved: equality of whole runs when threshold and depression factor round to the same numbers, which holds for the default epsilon in float32, float16 and bfloat16; the distance of the two thresholds in general; and that decisions differ exactly for probabilities between them."
  },
  {
   "property": "C65",
   "status": "partial",
   "theorems": [
    "JaxAct.C65_execute_act_traced_partial",
    "JaxAct.C65_false"
   ],
   "note": "False: with halting probabilities one and epsilon = 2^-25 + 2^-52 in float32 the documented loop runs once and every element is halted; execute_act runs max_iterations iterations and no element is halted (C65_false). Proved: the outcomes agree when threshold and depression factor round to the same numbers either way, which holds for the defaults (C64_default_scalars)."
  },
  {
   "property": "C66",
   "status": "proved",
   "theorems": [
    "JaxAct.C66_counter_saturates",
    "JaxAct.C66_exact_count_fails"
   ],
   "note": "C66_exact_count_fails: in every floating dtype 2^precision + 1 iterations with halting probability zero succeed, the element is never halted, and the counter shows 2^precision."
  },
  {
   "property": "C67",
   "status": "partial",
   "theorems": [
    "JaxAct.Mem.C67_separation_partial",
    "JaxAct.Mem.C67_sharing_partial",
    "JaxAct.Mem.C67_same_state_partial",
    "JaxAct.Mem.C67_new_containers_partial",
    "JaxAct.Mem.C67_false"
   ],
   "note": "False of the code (C67_false): emptying the dictionary `controller.accumulators` empties that of the builder it was built from. Proved: an object that shares no container with anything a program can reach is never changed (C67_separation_partial); the exact table of which containers of a result are new and which are those of the original, for every method (C67_sharing_partial); build, make_viewer and edit_controller give objects that have the same state for ever, whatever is done (C67_same_state_partial); writing to a container the table calls new changes nothing that existed before (C67_new_containers_partial)."
  },
  {
   "property": "C68",
   "status": "proved",
   "theorems": [
    "JaxAct.C68_counter_and_residual",
    "JaxAct.C68_bounds",
    "JaxAct.C68_monotone"
   ],
   "note": "Exact arithmetic. The costs can only be compared once the first run has halted: an element pays its remainder at the halting step (example)."
  },
  {
   "property": "C69",
   "status": "proved",
   "theorems": [
    "JaxAct.C69_response",
    "JaxAct.C69_response_running",
    "JaxAct.C69_stable",
    "JaxAct.C69_derivative"
   ],
   "note": "Exact arithmetic. This is the derivative of the function the code computes; that JAX's forward-mode differentiation computes it is C77 and C78."
  },
  {
   "property": "C70",
   "status": "proved",
   "theorems": [
    "JaxAct.C70_restriction",
    "JaxAct.C70_product",
    "JaxAct.C70_value"
   ],
   "note": "Any arithmetic, so also floating point."
  },
  {
   "property": "C71",
   "status": "partial",
   "theorems": [
    "JaxAct.C71_last_edit_counts",
    "JaxAct.C71_accepted_independently_partial",
    "JaxAct.C71_any_order_partial",
    "JaxAct.C71_order_matters"
   ],
   "note": "The first sentence is proved without restriction (C71_last_edit_counts). The second is false as stated (C71_order_matters: after set_accumulator(name, None) was accepted, set_defaults accepts any shape) and proved when the trees contain no None."
  },
  {
   "property": "C72",
   "status": "proved",
   "theorems": [
    "JaxAct.Viewer.C72_transform_transform",
    "JaxAct.C72_mask_mask",
    "JaxAct.C72_parts"
   ],
   "note": ""
  },
  {
   "property": "C73",
   "status": "proved",
   "theorems": [
    "JaxAct.C73_exceptions",
    "JaxAct.C73_enough",
    "JaxAct.C73_none",
    "JaxAct.C73_one_more"
   ],
   "note": "Results are compared after dictionaries were put in key order, which jax.lax.while_loop does to its carry."
  },
  {
   "property": "C74",
   "status": "proved",
   "theorems": [
    "JaxAct.C74_returns",
    "JaxAct.C74_exceptions",
    "JaxAct.C74_failed_check",
    "JaxAct.C74_last_check",
    "JaxAct.C74_other_exception",
    "JaxAct.C74_jit_roundtrip",
    "JaxAct.C74_same_object"
   ],
   "note": "jit puts the dictionaries of arguments and results in key order; C74_same_object compares them as mappings. The Python floats epsilon and depression_constant keep their values here; what their conversion to float32 arrays changes is C64. C74_other_exception shows that the kind of exception can differ from the eager one."
  },
  {
   "property": "C75",
   "status": "proved",
   "theorems": [
    "JaxAct.C75_metadata",
    "JaxAct.C75_metadata_unflatten",
    "JaxAct.C75_metadata_roundtrip",
    "JaxAct.C75_carry_roundtrip",
    "JaxAct.C75_carry_rebuild",
    "JaxAct.C75_types",
    "JaxAct.C75_no_overflow"
   ],
   "note": "Also justifies two simplifications of the loop model: its signature leaves out the metadata and its counter is an unbounded integer. For max_iterations outside the int32 range JAX raises OverflowError, which is not modelled."
  },
  {
   "property": "C76",
   "status": "proved",
   "theorems": [
    "JaxAct.C76_results",
    "JaxAct.C76_exceptions",
    "JaxAct.C76_documented",
    "JaxAct.C76_jit",
    "JaxAct.C76_reset_order"
   ],
   "note": "Extends C35 from controllers satisfying the invariant to sessions over all classes, including editors in mode \"silence\" and the broken states they produce. The dependence of reset_batches' exception on the order is proved with a concrete state (C76_reset_order). C76_jit strengthens C74_returns, which speaks of the argument after reordering."
  },
  {
   "property": "C77",
   "status": "proved",
   "theorems": [
    "JaxAct.C77_values",
    "JaxAct.C77_jvp",
    "JaxAct.C77_example",
    "JaxAct.C77_corner",
    "JaxAct.C77_jump"
   ],
   "note": "Forward mode only: the run over Arith.dual is the same model run with JAX's tangent rules (maximum and minimum share the tangent at a tie). The exceptional set is necessary at both kinds of points (C77_corner, C77_jump). The user's layer between the calls enters through the families of arguments; differentiating the layers' while loop as a whole is not modelled (reverse mode through lax.while_loop is not supported by JAX at all)."
  },
  {
   "property": "C78",
   "status": "proved",
   "theorems": [
    "JaxAct.C78_bookkeeping",
    "JaxAct.C78_gradients"
   ],
   "note": "Epsilon and the depression constant are constants here; C77 has no such restriction. With C77 these tangents are the true derivatives away from ties. C69 states the finite response for a fixed number of steps. The gradient of the last step's halting probability is zero although it decides that the element halts, as in Graves' paper."
  },
  {
   "property": "C79",
   "status": "proved",
   "theorems": [
    "JaxAct.C79_values",
    "JaxAct.C79_jvp",
    "JaxAct.C79_call_layers",
    "JaxAct.C79_example"
   ],
   "note": "Exact arithmetic. `C79_values`: same outcome, same values, for any numbers. `C79_jvp`: derivatives, for any layer whose own functions are differentiated correctly (`LayerRel`). `C79_call_layers`: for layers made of controller calls, this is needed only of the functions that choose the arguments. `C79_example`: a loop of two iterations. Reverse mode is not covered; JAX does not support it for while_loop."
  },
  {
   "property": "C80",
   "status": "proved",
   "theorems": [
    "JaxAct.C80_rest_of_batch_irrelevant",
    "JaxAct.C80_rest_of_batch_irrelevant_rounded",
    "JaxAct.C80_state_depends_on_batch"
   ],
   "note": "C80_rest_of_batch_irrelevant in exact arithmetic, C80_rest_of_batch_irrelevant_rounded with rounding. C80_state_depends_on_batch is a run in which the returned user state of an early halted element depends on the rest of the batch, so users must read results from the accumulators. An element halted from the start keeps its cumulative probability if no iteration is run and gets 1 otherwise, hence the condition."
  },
  {
   "property": "C81",
   "status": "proved",
   "theorems": [
    "JaxAct.C81_remainder",
    "JaxAct.C81_residual_under_rounding",
    "JaxAct.C81_residual_positive",
    "JaxAct.C81_tiny_epsilon_loses_residual"
   ],
   "note": "C81_residual_under_rounding is C06 in rounded arithmetic, C81_remainder gives the size of the rounded remainder, C81_residual_positive the equivalence of being halted and having a non-zero residual. The threshold must be below one in the core dtype (C18); C81_tiny_epsilon_loses_residual shows what happens otherwise: an element that is not halted gets the residual 1/2 and the next iteration replaces it by 0."
  },
  {
   "property": "C82",
   "status": "proved",
   "theorems": [
    "JaxAct.C82_gradients_of_execute_act"
   ],
   "note": "Exact arithmetic; epsilon and the depression constant carry no tangent. That these tangents are the derivatives of the plain execute_act is C79. Reverse mode is not covered (JAX has none for while_loop)."
  },
  {
   "property": "C83",
   "status": "proved",
   "theorems": [
    "JaxAct.C83_epsilon_bounds_error"
   ],
   "note": "Exact arithmetic. The repository documents epsilon only as a halting threshold; the error bound is derived."
  },
  {
   "property": "C84",
   "status": "proved",
   "theorems": [
    "JaxAct.C84_depression_is_scaling",
    "JaxAct.C84_not_beyond_one"
   ],
   "note": "Exact arithmetic. That the restriction to r <= 1 is needed is C84_not_beyond_one."
  },
  {
   "property": "C85",
   "status": "proved",
   "theorems": [
    "JaxAct.C85_halting_step",
    "JaxAct.C85_results",
    "JaxAct.C85_margin_needed"
   ],
   "note": "Rounding to nearest even with unbounded exponent range, as in C63. The halting probabilities are taken as converted to the dtype of the probabilities, and the updates as converted to the dtype of the product. That some margin is needed is C85_margin_needed. When the threshold rounds to one the element never halts (C18)."
  },
  {
   "property": "C86",
   "status": "proved",
   "theorems": [
    "JaxAct.C86_execute_act_rounded",
    "JaxAct.C86_execute_act_traced"
   ],
   "note": "Rounding to nearest even with unbounded exponent range. C86_execute_act_traced is the version with the floats tracked (Spec/Traced). That execute_act returns at all is C50 and C20. The margin is the one of C85; without it the number of iterations can differ (C85_margin_needed, C65_false)."
  },
  {
   "property": "C87",
   "status": "proved",
   "theorems": [
    "JaxAct.C87_properties",
    "JaxAct.C87_editor_fields",
    "JaxAct.C87_editor_trees",
    "JaxAct.C87_builder",
    "JaxAct.C87_layer_builder"
   ],
   "note": "Absolute version of the agreement in C47: each property against the named field, and read-after-write with a frame condition for all seven editor setters and for definitions."
  },
  {
   "property": "C88",
   "status": "proved",
   "theorems": [
    "JaxAct.C88_no_leak",
    "JaxAct.C88_execute_act_no_leak",
    "JaxAct.C88_no_gradient_after_halting",
    "JaxAct.C88_rest_of_batch_irrelevant"
   ],
   "note": "C88_no_leak and C88_execute_act_no_leak are (a), C88_no_gradient_after_halting is (b), C88_rest_of_batch_irrelevant is (c). In (b) and (c) the cumulative probability itself is not among the results compared. Forward mode only: in reverse mode a masked branch receives a cotangent of zero, and a masked update that is NaN or infinite could still give NaN; cotangents and non-finite numbers are not part of this arithmetic."
  },
  {
   "property": "C89",
   "status": "proved",
   "theorems": [
    "JaxAct.C89_counter",
    "JaxAct.C89_residual",
    "JaxAct.C89_entry",
    "JaxAct.C89_training_signal"
   ],
   "note": "The derivatives are those of the plain run over the real numbers; C77 and C78 show that JAX's tangents agree with the true derivative. The functions of the parameters are arbitrary, so updates that depend on the results of earlier rounds are included. Where the point is on a tie the plain result is not differentiable (C77_corner, C77_jump). The gradient formulas are defined in Spec/TrainingSignal.lean without use of the model."
  },
  {
   "property": "C90",
   "status": "proved",
   "theorems": [
    "JaxAct.C90_identity",
    "JaxAct.C90_composition",
    "JaxAct.C90_composition_iff",
    "JaxAct.C90_target",
    "JaxAct.C90_natural",
    "JaxAct.C90_swap",
    "JaxAct.C90_swap_fails"
   ],
   "note": "C90_swap_fails is a finding: an accumulator tree whose probabilities operand comes second behaves differently from one where it comes first when the tree is None. Trees are compared after JAX's sorting of dict keys, which is what tree_unflatten returns."
  },
  {
   "property": "C91",
   "status": "proved",
   "theorems": [
    "JaxAct.C91_calls",
    "JaxAct.C91_execute_act",
    "JaxAct.C91_call_layers",
    "JaxAct.C91_example",
    "JaxAct.C91_loop_example"
   ],
   "note": "C91_calls for call sequences, C91_execute_act for arbitrary layers, C91_call_layers for layers made of controller calls. C91_example is at a corner of the clip, C91_loop_example has any number of directions. With the weights all zero it says that without tangents going in none come out; with one direction it is homogeneity. The rules for tangents are those of Basic/Dual (forward mode); the transposed map itself is not modelled."
  },
  {
   "property": "C92",
   "status": "proved",
   "theorems": [
    "JaxAct.C92_no_overflow",
    "JaxAct.C92_bookkeeping",
    "JaxAct.C92_bounded",
    "JaxAct.C92_execute_act",
    "JaxAct.C92_bounded_example",
    "JaxAct.C92_overflow_example",
    "JaxAct.C92_loop_example"
   ],
   "note": "C92_no_overflow for call sequences, C92_bookkeeping for the bookkeeping, C92_bounded for bounded updates, C92_execute_act for the loop. C92_overflow_example shows that the hypothesis on accumulators is needed: an accumulator at the largest float32 plus an update of the same size is infinity. C92_bounded_example has updates of 10^38 in float32. Signed zero, flush-to-zero and the wrap-around of int32 are in neither arithmetic, so for int32 counters the claim says only that they are not turned into infinities; wrapping would take 2^31 iterations. What infinite or NaN inputs do is C60."
  },
  {
   "property": "C93",
   "status": "proved",
   "theorems": [
    "JaxAct.C93_leaf",
    "JaxAct.C93_grouping",
    "JaxAct.C93_grouping_example",
    "JaxAct.C93_grouping_converse_fails",
    "JaxAct.C93_grouping_reset_fails",
    "JaxAct.C93_leaf_example"
   ],
   "note": "C93_leaf for call sequences that succeed on both controllers, C93_grouping for complete rounds, including success. Two limits are proved: C93_grouping_converse_fails (the list accepts updates that the separate accumulators refuse, because only flattened leaves are compared) and C93_grouping_reset_fails (a list cannot be reset under a non-scalar batch shape, the defect of C16). C93_leaf_example has a renamed accumulator and a reset, C93_grouping_example a tensor and a list kept as one list."
  },
  {
   "property": "C94",
   "status": "proved",
   "theorems": [
    "JaxAct.C94_reachable_iff",
    "JaxAct.C94_manual_reset",
    "JaxAct.C94_manual_reset_example",
    "JaxAct.C94_manual_reset_example_ranges"
   ],
   "note": "Trees free of None are assumed, in the state and in the edits, because setting a tree with None where there was none (and the reverse) is the defect of C29 and C71. C94_manual_reset asks for an idle controller, as reset_batches does, and for tensors in range, since the editor refuses others (C28). C94_manual_reset_example is a controller on which reset_batches raises AttributeError (C16) and the edits a user would write for it."
  },
  {
   "property": "C95",
   "status": "proved",
   "theorems": [
    "JaxAct.C95_stream",
    "JaxAct.C95_output",
    "JaxAct.C95_every_turn",
    "JaxAct.C95_example"
   ],
   "note": "Sessions in which every call succeeds; with container accumulators reset_batches raises (C16). Graves.began (Spec/Stream) gives the beginning of the present computation without reference to the model. In other arithmetics a single reset is C57. C95_example follows two elements that are reset at different times."
  },
  {
   "property": "C96",
   "status": "partial",
   "theorems": [
    "JaxAct.C96_accepts_iff",
    "JaxAct.C96_error_iff",
    "JaxAct.C96_errors",
    "JaxAct.C96_docstring_partial",
    "JaxAct.C96_builtin",
    "JaxAct.C96_longer_static_data_unnoticed",
    "JaxAct.C96_atom_fails",
    "JaxAct.C96_not_symmetric_nor_transitive"
   ],
   "note": "True for lists, tuples, namedtuples and dicts (C96_docstring_partial, C96_builtin). False for registered classes with static data, since the code zips the static data: C96_accepts_iff and C96_error_iff give the exact behaviour. Static data of which one begins with the other pass (C96_longer_static_data_unnoticed), static data that cannot be iterated over fail with TypeError even against themselves (C96_atom_fails), and the check is neither symmetric nor transitive (C96_not_symmetric_nor_transitive)."
  },
  {
   "property": "C97",
   "status": "proved",
   "theorems": [
    "JaxAct.C97_iterations_between",
    "JaxAct.C97_constant",
    "JaxAct.C97_execute_act"
   ],
   "note": "The statement about execute_act is for layers that cache and iterate (C61) and calls that return. What rounding can change about the halting step is C85."
  },
  {
   "property": "C98",
   "status": "proved",
   "theorems": [
    "JaxAct.C98_nested",
    "JaxAct.C98_multiplicative"
   ],
   "note": "docs/brainstorms and speculation/ACT with long sequence duration.rst proposes nesting. Calls that return; that nested loops are jittable is JAX's affair."
  },
  {
   "property": "C99",
   "status": "proved",
   "theorems": [
    "JaxAct.C99_continue",
    "JaxAct.C99_accumulators",
    "JaxAct.C99_halted",
    "JaxAct.C99_fresh",
    "JaxAct.C99_raised_epsilon_loses_mass"
   ],
   "note": "C99_raised_epsilon_loses_mass is an accepted session in which the editor raises epsilon between rounds and the output of an element is 3/5 of the average of its updates though its probability is one (finding 30). What rounding changes is C85."
  },
  {
   "property": "C100",
   "status": "proved",
   "theorems": [
    "JaxAct.C100_vmap",
    "JaxAct.C100_stack",
    "JaxAct.C100_vmap_resets_containers"
   ],
   "note": "vmap is not modelled as a JAX transformation; the theorem is about the semantics documented for it, one call per slice. What vmap makes of the loop of execute_act follows from C80, which allows any two batch shapes. The converse asks that all tensors of the calls and the pending updates have the axes P."
  },
  {
   "property": "C101",
   "status": "proved",
   "theorems": [
    "JaxAct.C101_resume",
    "JaxAct.C101_resume_iff"
   ],
   "note": "C101_resume; C101_resume_iff adds, for jittable code (the hypothesis of C20), that the resumed run succeeds and the converse. The hypothesis that the accumulators are not empty is what the checks of core.py:178-197 require. Negative maxima are excluded because there `m + m'` would be smaller than either run. An example stops a two-iteration computation after one iteration, saves, loads and resumes."
  },
  {
   "property": "C102",
   "status": "proved",
   "theorems": [
    "JaxAct.C102_checks_change_nothing",
    "JaxAct.C102_what_checks_add",
    "JaxAct.C102_raises_iff"
   ],
   "note": "C102_checks_change_nothing, C102_what_checks_add (the exceptions), C102_raises_iff (exactly when). No hypothesis on the user's code. The last reason is a consequence of finding C21 (the wrapper looks at the old controller): a layer that iterates first and caches for the next round, starting from a controller with cached updates, works with the checks off only. The concrete case is a layer that returns a list."
  },
  {
   "property": "C103",
   "status": "proved",
   "theorems": [
    "JaxAct.C103_largest_counter",
    "JaxAct.C103_largest_counter_rounded"
   ],
   "note": "C103_largest_counter (exact) and C103_largest_counter_rounded. The cumulative probabilities at the start are arbitrary in the exact version and representable numbers in [0,1] in the rounded one. Concrete cases: the layer of C50 (two iterations, both counters 2) and a layer with growing halting probabilities in IEEE arithmetic."
  },
  {
   "property": "C104",
   "status": "proved",
   "theorems": [
    "JaxAct.C104_same_key_iff",
    "JaxAct.C104_compiled_once",
    "JaxAct.C104_pending_names",
    "JaxAct.C104_finitely_many"
   ],
   "note": "C104_same_key_iff, C104_compiled_once, C104_pending_names, C104_finitely_many. With a string as error_mode a controller is not a valid argument of a jitted function at all (C50). Weak types are not modelled."
  },
  {
   "property": "C105",
   "status": "proved",
   "theorems": [
    "JaxAct.C105_silent",
    "JaxAct.C105_execute_act",
    "JaxAct.C105_silent_rounded",
    "JaxAct.C105_execute_act_rounded"
   ],
   "note": "C105_silent, C105_execute_act, and the same with rounding for numbers representable in their dtypes (any stored number is): C105_silent_rounded, C105_execute_act_rounded. The rounded model has finite numbers only; an update that is NaN or infinite times weight zero is NaN (C60). Finding 31."
  },
  {
   "property": "C106",
   "status": "proved",
   "theorems": [
    "JaxAct.C106_readout",
    "JaxAct.C106_example"
   ],
   "note": "Rounds and resets (the Turn of C95), exact arithmetic, 0 < epsilon <= 1 and a depression constant >= 0. The entries read belong to one batch element."
  },
  {
   "property": "C107",
   "status": "proved",
   "theorems": [
    "JaxAct.C107_halting",
    "JaxAct.C107_execute_act",
    "JaxAct.C107_updates",
    "JaxAct.C107_example_updates",
    "JaxAct.C107_example_halting",
    "JaxAct.C107_example_execute_act"
   ],
   "note": "Rounding to nearest even with unbounded exponent range, as in C63. The halting probabilities are compared as converted to the dtype of the probabilities. Elements start with cumulative probability 0 for the bookkeeping; the accumulator part starts from any state whose probabilities are numbers of their format in [0,1]. The residual is not monotone, also not in exact arithmetic (C107_example_halting)."
  },
  {
   "property": "C108",
   "status": "proved",
   "theorems": [
    "JaxAct.C108_write_only",
    "JaxAct.C108_example"
   ],
   "note": "Any arithmetic, so also floating point. A layer may of course read the counters of the controller it is given; execute_act itself does not (C73, C103)."
  },
  {
   "property": "C109",
   "status": "proved",
   "theorems": [
    "JaxAct.C109_pause",
    "JaxAct.C109_pause_rounded",
    "JaxAct.C109_example"
   ],
   "note": "Only the counter differs: it counts pauses too (C105). Numbers are finite here; an update of infinity or NaN in a pause would spoil the accumulator, as 0 * inf is NaN (C60). The start must be a legal one: a halted element has cumulative probability 1 (an editor can set other values, C87), and in rounded arithmetic the start values are representable."
  },
  {
   "property": "C110",
   "status": "proved",
   "theorems": [
    "JaxAct.C110_mirror",
    "JaxAct.C110_exact",
    "JaxAct.C110_rounded",
    "JaxAct.C110_special",
    "JaxAct.C110_example"
   ],
   "note": "No hypotheses on the values. The model has one zero, so nothing is said about the sign of a zero. That the bookkeeping does not depend on the updates is C55."
  },
  {
   "property": "C111",
   "status": "proved",
   "theorems": [
    "JaxAct.C111_same_loop",
    "JaxAct.C111_readout",
    "JaxAct.C111_example"
   ],
   "note": "If the loop is cut off by max_iterations the bias counts only as often as probability was spent, which the theorem says exactly. The accumulators start at zero, as new accumulators usually do; other starts are covered by C106. In floating point the two differ by rounding, but the number of iterations is the same."
  },
  {
   "property": "C112",
   "status": "proved",
   "theorems": [
    "JaxAct.C112_split",
    "JaxAct.C112_example",
    "JaxAct.C112_example_values"
   ],
   "note": "Halting probabilities count as clipped, so a total above one needs more than one iteration. Residuals and counters do differ, as C112_example_values shows, and so does the ponder cost (C68). With rounding the sums differ by rounding errors (C63 bounds them); dividing into zeros is exact (C109)."
  },
  {
   "property": "C113",
   "status": "proved",
   "theorems": [
    "JaxAct.C113_convex",
    "JaxAct.C113_distribution",
    "JaxAct.C113_jensen",
    "JaxAct.C113_example",
    "JaxAct.C113_example_distribution"
   ],
   "note": "Exact arithmetic, accumulators that start at zero. Updates given after the element has halted need not satisfy the constraint. Before the element is halted the accumulated values are only a part of the combination, so the constraint need not hold (C49 has bounds for that). With rounding the constraint holds up to the error bounded in C63."
  },
  {
   "property": "C114",
   "status": "proved",
   "theorems": [
    "JaxAct.C114_ones",
    "JaxAct.C114_ones_rounded",
    "JaxAct.C114_example"
   ],
   "note": "So the weights the updates are given are those that are recorded. The start must be legal: a halted element has cumulative probability 1. With another dtype for the accumulator the weights are rounded to it and the numbers can differ."
  },
  {
   "property": "C115",
   "status": "proved",
   "theorems": [
    "JaxAct.C115_exact_products",
    "JaxAct.C115_depression_one",
    "JaxAct.C115_inexact_products_fail"
   ],
   "note": "Only the sum that is compared with the threshold is contracted. The sum that is stored cannot be, because of the `select` in between. The contraction of products and sums in `_update_accumulator` is not covered."
  },
  {
   "property": "C116",
   "status": "proved",
   "theorems": [
    "JaxAct.C116_same_bookkeeping",
    "JaxAct.C116_halted_untouched",
    "JaxAct.C116_at_least_as_close",
    "JaxAct.C116_unit_updates",
    "JaxAct.C116_not_over_histories"
   ],
   "note": "Together with C115 this covers both places where products meet sums. (1) and (2) hold whatever the contracted operation returns. In (3) the weight and the previous entry are the ones of the state before the iteration."
  },
  {
   "property": "C117",
   "status": "proved",
   "theorems": [
    "JaxAct.C117_probabilities_in_unit_interval",
    "JaxAct.C117_halted_probability_is_one",
    "JaxAct.C117_same_bookkeeping",
    "JaxAct.C117_accumulator_entry",
    "JaxAct.C117_subnormal_demands_are_lost",
    "JaxAct.C117_smallest_normal_numbers"
   ],
   "note": "Only results are flushed; subnormal operands supplied by the caller are used as they are. The halting probabilities must have the dtype of the cumulative probabilities for the agreement. Counters may be integers or, as the builder makes them, floating point numbers. The agreement on accumulators is for one iteration and for accumulators and updates of the dtype of the probabilities."
  },
  {
   "property": "C118",
   "status": "proved",
   "theorems": [
    "JaxAct.C118_truncation",
    "JaxAct.C118_unspent_probability",
    "JaxAct.C118_normalised",
    "JaxAct.C118_execute_act",
    "JaxAct.C118_example"
   ],
   "note": "Exact arithmetic; what rounding adds is C63 and C85. The element must not be halted at the start, otherwise its probability may jump to one without giving weight to an update (C99). C118_example runs the example layer with one and with two iterations and attains the bounds."
  },
  {
   "property": "C119",
   "status": "proved",
   "theorems": [
    "JaxAct.C119_final",
    "JaxAct.C119_final_rounded",
    "JaxAct.C119_example",
    "JaxAct.C119_example_rounded"
   ],
   "note": "C73 has the case of a completely halted batch, for any layer. C119_example is a run in which one element is final after two iterations while the other changes until the fourth, as does the user state."
  },
  {
   "property": "C120",
   "status": "proved",
   "theorems": [
    "JaxAct.C120_halted_from_the_start",
    "JaxAct.C120_empty_batch",
    "JaxAct.C120_otherwise_runs",
    "JaxAct.C120_empty_no_entries",
    "JaxAct.C120_example_halted",
    "JaxAct.C120_example_empty"
   ],
   "note": "Results are compared after dictionaries were put in key order, which jax.lax.while_loop does to its carry. run_iteration is still traced once, so its exceptions are raised also for a batch that needs no iteration (C73_exceptions)."
  },
  {
   "property": "C121",
   "status": "proved",
   "theorems": [
    "JaxAct.C121_stability",
    "JaxAct.C121_halting_probabilities",
    "JaxAct.C121_jump",
    "JaxAct.C121_execute_act",
    "JaxAct.C121_example",
    "JaxAct.C121_example_execute_act"
   ],
   "note": "Exact arithmetic; what rounding adds is C63 and C85. C69 gives the exact change while the number of steps stays the same. C121_jump is the discontinuity, C121_example a run with it."
  },
  {
   "property": "C122",
   "status": "proved",
   "theorems": [
    "JaxAct.C122_before_halting",
    "JaxAct.C122_then",
    "JaxAct.C122_example",
    "JaxAct.C122_halting_round",
    "JaxAct.C122_rounded"
   ],
   "note": "Exact arithmetic; C122_rounded is a pair of orders that float32 rounding tells apart. C122_halting_round is the exchange that is not allowed. Both runs are assumed to raise no exception, and each round to have a halting probability for the element (and an update for the entry, for the claim on accumulators)."
  },
  {
   "property": "C123",
   "status": "proved",
   "theorems": [
    "JaxAct.C123_ahead",
    "JaxAct.C123_execute_act",
    "JaxAct.C123_example",
    "JaxAct.C123_example_execute_act"
   ],
   "note": "Exact arithmetic. Higher halting probabilities, a larger depression constant and a larger epsilon are all cases of it; C48 and C97 have the number of iterations, C68 the ponder cost. The ponder cost part needs a cumulative probability of at least 0 at the start, which every fresh controller has."
  },
  {
   "property": "C124",
   "status": "proved",
   "theorems": [
    "JaxAct.C124_only_admissible",
    "JaxAct.C124_every_admissible",
    "JaxAct.C124_execute_act",
    "JaxAct.C124_example",
    "JaxAct.C124_example_execute_act"
   ],
   "note": "Exact arithmetic. The runs are those that raise no exception."
  },
  {
   "property": "C125",
   "status": "proved",
   "theorems": [
    "JaxAct.C125_mean_iteration",
    "JaxAct.C125_execute_act",
    "JaxAct.C125_example"
   ],
   "note": "Exact arithmetic. Both bounds are attained by elements with one or two iterations."
  },
  {
   "property": "C126",
   "status": "proved",
   "theorems": [
    "JaxAct.C126_determined",
    "JaxAct.C126_example"
   ],
   "note": "Exact arithmetic. C126_example has two runs that differ in the halting probability of the halting round and cannot be told apart."
  }
 ]
}
