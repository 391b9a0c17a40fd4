{"id": "C01", "title": "Cumulative probability stays in [0,1]", "statement": "Starting from a controller whose cumulative probabilities lie in [0,1], with epsilon in [0,1] and a non-negative depression constant, every successful sequence of cache_update, iterate_act and reset_batches calls yields a controller whose `probabilities` are all in [0,1], whatever halting probabilities (including out-of-range ones) were passed.", "quantifier": "all batch shapes, all call sequences, all halting probability tensors, all epsilon in [0,1], all depression constants >= 0", "why_tests_cant": "An unbounded set of histories and real-valued inputs; a test fixes a few.", "anchors": ["src/jax_act/core/controller.py:iterate_act", "src/jax_act/core/controller.py:_process_probabilities", "src/jax_act/core/controller.py:reset_batches"]}
{"id": "C02", "title": "A halted batch element stays halted until reset", "statement": "With a depression constant >= 0 and epsilon > 0, if an element of `halted_batches` is True then after any successful sequence of cache_update and iterate_act calls it is still True; only reset_batches clears it.", "quantifier": "all controllers, batch indices, sequences of caches and iterations", "why_tests_cant": "Needs every continuation of every history.", "anchors": ["src/jax_act/core/controller.py:halted_batches", "src/jax_act/core/controller.py:iterate_act"]}
{"id": "C03", "title": "Halted batch elements are frozen", "statement": "iterate_act never changes the accumulator entries, residual or iteration count of a batch element that was already halted, whatever the updates, halting probabilities, scalar arithmetic (NaN and rounding included) or pytree shape.", "quantifier": "all controllers, accumulators, leaves, indices, updates, and all scalar arithmetics", "why_tests_cant": "Quantifies over all tensors and over any floating point behaviour.", "anchors": ["src/jax_act/core/controller.py:iterate_act", "src/jax_act/core/controller.py:_update_accumulator"]}
{"id": "C04", "title": "iterate_act realises Graves' ACT weights", "statement": "From freshly defined accumulators, after any number of successful cache/iterate rounds, each accumulator entry equals its default plus the sum of weight_t * update_t, where weight_t is depression*clip(h_t) for every step before the first step N at which the running sum exceeds 1-epsilon, the remainder 1 - sum_{t<N} at step N, and 0 afterwards; `probabilities` is the sum of the weights.", "quantifier": "all run lengths, halting sequences, updates, batch shapes, accumulator pytrees", "why_tests_cant": "An equation about runs of arbitrary length in exact arithmetic.", "anchors": ["src/jax_act/core/controller.py:iterate_act", "src/jax_act/core/controller.py:_process_probabilities", "src/jax_act/core/controller.py:_update_accumulator"]}
{"id": "C05", "title": "Weights of a halted element sum to exactly one", "statement": "When a batch element has become halted through iterate_act its `probabilities` entry is exactly 1, and the weights with which its updates were added sum to exactly 1.", "quantifier": "all histories ending in a halted element, epsilon in (0,1]", "why_tests_cant": "Infinite histories.", "anchors": ["src/jax_act/core/controller.py:_process_probabilities"]}
{"id": "C06", "title": "Residual is the remainder at the halting step", "statement": "`residuals` is 0 for an element until the iteration at which it first halts, is then set to one minus the cumulative probability held before that iteration, and does not change again until reset.", "quantifier": "all runs and batch elements", "why_tests_cant": "All run lengths and values.", "anchors": ["src/jax_act/core/controller.py:_process_probabilities", "src/jax_act/core/controller.py:residuals"]}
{"id": "C07", "title": "Iteration counter counts exactly the un-halted iterations", "statement": "`iterations` of a batch element equals the number of successful iterate_act calls (since the start or the last reset of that element) made while the element was not halted.", "quantifier": "all histories with resets", "why_tests_cant": "All histories.", "anchors": ["src/jax_act/core/controller.py:iterate_act", "src/jax_act/core/controller.py:reset_batches"]}
{"id": "C08", "title": "Halting probabilities are clamped", "statement": "iterate_act(h) and iterate_act(clip(h,0,1)) produce the same controller, and passing values outside [0,1] never raises.", "quantifier": "all tensors h of the batch shape", "why_tests_cant": "All real values.", "anchors": ["src/jax_act/core/controller.py:iterate_act"]}
{"id": "C09", "title": "Batch elements are independent", "statement": "After iterate_act or reset_batches, everything observable about batch element b (probability, residual, iterations, all accumulator entries under b) depends only on what was stored and passed for b: two controllers and inputs that agree at b give results that agree at b.", "quantifier": "all pairs of controllers/inputs, all batch shapes and accumulators, all arithmetics", "why_tests_cant": "A relational (two-run) property over all inputs.", "anchors": ["src/jax_act/core/controller.py:iterate_act", "src/jax_act/core/controller.py:reset_batches", "src/jax_act/core/utils.py:setup_left_broadcast"]}
{"id": "C10", "title": "cache_update stores exactly one slot or raises", "statement": "cache_update(name, item) raises ValueError iff name is not a configured accumulator slot, RuntimeError iff it is configured and already holds an update, and otherwise returns a controller that differs only in that slot.", "quantifier": "all controllers, names and items", "why_tests_cant": "All names and states.", "anchors": ["src/jax_act/core/controller.py:cache_update"]}
{"id": "C11", "title": "Caching order is irrelevant", "statement": "Caching updates for distinct accumulators commutes: both orders give controllers with the same observable contents, and the same subsequent iterate_act results.", "quantifier": "all pairs of names and items", "why_tests_cant": "All pairs and states.", "anchors": ["src/jax_act/core/controller.py:cache_update", "src/jax_act/core/controller.py:iterate_act"]}
{"id": "C12", "title": "iterate_act needs every update and then empties the slots", "statement": "iterate_act raises RuntimeError if any accumulator has no cached update; if it succeeds, no accumulator has a pending update afterwards and the accumulator names are unchanged.", "quantifier": "all controllers and halting probabilities", "why_tests_cant": "All subsets of cached slots.", "anchors": ["src/jax_act/core/controller.py:iterate_act", "src/jax_act/core/controller.py:updates_ready_to_commit", "src/jax_act/core/controller.py:has_cached_updates"]}
{"id": "C13", "title": "Exact success condition and error kinds of iterate_act", "statement": "For a well-formed controller, iterate_act succeeds iff the halting tensor has the batch shape and (after clipping) the dtype of the probabilities, every slot holds an update whose leaves match the accumulator's leaves in number and shape, and the promoted dtype of probability, update and accumulator is the accumulator's; otherwise it raises ValueError for the batch shape, TypeError for the halting dtype, RuntimeError for anything about an accumulator.", "quantifier": "all well-formed controllers and all arguments", "why_tests_cant": "Needs both directions over all inputs.", "anchors": ["src/jax_act/core/controller.py:iterate_act", "src/jax_act/core/controller.py:_update_accumulator"]}
{"id": "C14", "title": "Structure, shape and dtype never change", "statement": "Every successful cache_update/iterate_act/reset_batches call preserves the accumulator names, each accumulator's tree structure, and the shape and dtype of every accumulator leaf and of probabilities, residuals and iterations - the property a jitted while loop relies on.", "quantifier": "all call sequences", "why_tests_cant": "All histories.", "anchors": ["src/jax_act/core/controller.py:iterate_act", "src/jax_act/core/controller.py:reset_batches", "src/jax_act/layers/act.py:execute_act"]}
{"id": "C15", "title": "reset_batches restores halted elements and only those", "statement": "reset_batches on a controller with no pending updates sets probability, residual and iterations to 0 and accumulator entries to their defaults for exactly the halted batch elements, and leaves all other elements unchanged; it is idempotent; it raises RuntimeError when an update is pending.", "quantifier": "all controllers, including accumulators that are pytrees", "why_tests_cant": "All controllers.", "anchors": ["src/jax_act/core/controller.py:reset_batches"]}
{"id": "C16", "title": "reset_batches works for pytree accumulators", "statement": "reset_batches succeeds for every well-formed controller without pending updates, including controllers whose accumulators are lists, tuples or dicts of tensors.", "quantifier": "all well-formed controllers", "why_tests_cant": "All accumulator tree shapes; the suite only uses bare tensors.", "anchors": ["src/jax_act/core/controller.py:reset_batches"]}
{"id": "C17", "title": "Halting is reached", "statement": "If every halting probability supplied is at least c and depression*c = q > 0, then with epsilon > 0 every batch element is halted after at most floor(1/q)+1 iterations, so a `while not is_completely_halted` loop terminates.", "quantifier": "all sequences of halting tensors bounded below, all q > 0", "why_tests_cant": "Liveness over unbounded runs.", "anchors": ["src/jax_act/core/controller.py:is_completely_halted", "src/jax_act/core/controller.py:iterate_act"]}
{"id": "C18", "title": "Halting is reachable in every supported dtype", "statement": "For every floating core_dtype accepted by the builder and every epsilon it accepts, some sequence of halting probabilities makes a batch element halted.", "quantifier": "all dtypes, all epsilon in (0,1)", "why_tests_cant": "Needs all float inputs; failures appear only for some dtype/epsilon pairs.", "anchors": ["src/jax_act/core/controller.py:halt_threshold", "src/jax_act/core/controller.py:halted_batches", "src/jax_act/core/builder.py:new_builder"]}
{"id": "C19", "title": "Total probability is exactly one under floating point rounding", "statement": "In round-to-nearest-even arithmetic of any precision, cumulative probabilities never exceed 1 and an element whose threshold is crossed gets probability exactly 1 (p + (1-p) rounds to 1).", "quantifier": "all precisions, all representable p in [0,1], all histories", "why_tests_cant": "2^32 values per step and unbounded steps.", "anchors": ["src/jax_act/core/controller.py:_process_probabilities"]}
{"id": "C20", "title": "execute_act runs the documented loop", "statement": "execute_act returns the controller and state obtained by applying run_iteration repeatedly until the controller is completely halted or max_iterations iterations have run, whichever comes first, and never runs an iteration after that.", "quantifier": "all layers, initial states, max_iterations", "why_tests_cant": "All user layers.", "anchors": ["src/jax_act/layers/act.py:execute_act", "src/jax_act/layers/act.py:_is_act_not_complete", "src/jax_act/layers/act.py:_while_loop_adapter_factory"]}
{"id": "C21", "title": "Contract violations in run_iteration are reported", "statement": "With check_for_errors on, execute_act raises if run_iteration returns something other than a pair of a controller and a state, returns the controller it was given, or returns a controller with uncommitted updates; with it off none of these checks runs.", "quantifier": "all user layers and returned values", "why_tests_cant": "All possible return values.", "anchors": ["src/jax_act/layers/core.py:ContractValidationWrapper", "src/jax_act/layers/core.py:_validate_all_act_updates_committed"]}
{"id": "C22", "title": "make_controller contract", "statement": "With checks on, execute_act raises TypeError if make_controller does not return a controller, RuntimeError if the controller has no accumulators, and otherwise uses that controller unchanged.", "quantifier": "all user layers", "why_tests_cant": "All returned values.", "anchors": ["src/jax_act/layers/core.py:make_controller", "src/jax_act/layers/core.py:_validate_controller_not_empty"]}
{"id": "C23", "title": "new_builder yields a fresh builder", "statement": "new_builder(batch_shape, core_dtype, epsilon, depression_constant) raises ValueError iff core_dtype is given and not floating, or epsilon is not strictly between 0 and 1; otherwise it returns a builder with zero probabilities, residuals and iterations of the batch shape and no accumulators.", "quantifier": "all argument values", "why_tests_cant": "All argument values.", "anchors": ["src/jax_act/core/builder.py:new_builder", "src/jax_act/core/states.py:ACTStates"]}
{"id": "C24", "title": "define_accumulator_directly accepts exactly valid definitions", "statement": "define_accumulator_directly(name, tree) succeeds iff every leaf of the tree is a floating tensor whose shape starts with the batch shape; TypeError for the first bad leaf being non-floating, ValueError for a bad batch shape; on success defaults and accumulators hold the tree under name, the update slot is empty, and nothing else changes.", "quantifier": "all trees, names, builder states", "why_tests_cant": "All pytrees.", "anchors": ["src/jax_act/core/builder.py:_validate_definition_pytree", "src/jax_act/core/builder.py:_define", "src/jax_act/core/builder.py:define_accumulator_directly"]}
{"id": "C25", "title": "define_accumulator_by_shape builds the filled tree", "statement": "define_accumulator_by_shape(name, shapes, dtype, fill) replaces every list of ints in `shapes` by a tensor of that shape filled with `fill`, keeps the rest of the structure, raises ValueError if something other than lists of ints is found at a leaf, and behaves like define_accumulator_directly on the result.", "quantifier": "all shape trees", "why_tests_cant": "All shape pytrees.", "anchors": ["src/jax_act/core/builder.py:define_accumulator_by_shape"]}
{"id": "C26", "title": "The three accumulator dictionaries stay aligned", "statement": "In every controller obtainable through builder definitions followed by any sequence of controller operations, defaults, accumulators and update slots have the same names, and each accumulator has the same structure, shapes and dtypes as its default.", "quantifier": "all build programs and operation sequences", "why_tests_cant": "All histories.", "anchors": ["src/jax_act/core/builder.py:_define", "src/jax_act/core/builder.py:_delete_definition", "src/jax_act/core/controller.py:iterate_act", "src/jax_act/core/controller.py:reset_batches"]}
{"id": "C27", "title": "Deleting a definition", "statement": "Removing a defined accumulator removes it from defaults, accumulators and updates and leaves all others unchanged; removing an undefined name raises KeyError; define followed by delete of a new name restores the builder.", "quantifier": "all builders and names", "why_tests_cant": "All states.", "anchors": ["src/jax_act/core/builder.py:_delete_definition"]}
{"id": "C28", "title": "Editor setters keep the edited state sane", "statement": "In standard mode set_probabilities/set_residuals succeed iff the new tensor has the old shape and dtype and no element below 0 or above 1, set_iterations iff same shape, dtype and no negative element, set_epsilon iff 0 <= epsilon <= 1; otherwise they raise; on success exactly that field changes. In silence mode they always succeed.", "quantifier": "all states and arguments", "why_tests_cant": "All tensors.", "anchors": ["src/jax_act/core/tensoreditor.py:set_probabilities", "src/jax_act/core/tensoreditor.py:set_residuals", "src/jax_act/core/tensoreditor.py:set_iterations", "src/jax_act/core/tensoreditor.py:set_epsilon", "src/jax_act/core/tensoreditor.py:_execute_validation"]}
{"id": "C29", "title": "Editor cannot redefine a pytree", "statement": "In standard mode set_accumulator/set_defaults/set_updates only accept a pytree with the same structure, leaf shapes and leaf dtypes as the accumulator being edited (or None for updates), so the edited controller can still iterate.", "quantifier": "all states and pytrees", "why_tests_cant": "All pytrees, including ones with None in leaf position.", "anchors": ["src/jax_act/core/tensoreditor.py:set_accumulator", "src/jax_act/core/tensoreditor.py:set_defaults", "src/jax_act/core/tensoreditor.py:set_updates", "src/jax_act/core/tensoreditor.py:_validate_same_pytree_structure", "src/jax_act/core/utils.py:are_pytree_structure_equal"]}
{"id": "C30", "title": "Editor rejects unknown accumulators", "statement": "In standard mode, setting an accumulator, default or update under a name that was never defined raises and never adds a name.", "quantifier": "all names and states", "why_tests_cant": "All names.", "anchors": ["src/jax_act/core/tensoreditor.py:_validate_accumulator_exists"]}
{"id": "C31", "title": "Viewer masks show exactly the selected batch elements", "statement": "mask_data(mask) returns a viewer where probabilities, residuals, iterations, accumulators and defaults are unchanged at batch elements where the mask is True and 0 elsewhere; it raises ValueError iff the mask is not boolean or not of batch shape.", "quantifier": "all viewers and masks, every leaf and index", "why_tests_cant": "All masks and tensors.", "anchors": ["src/jax_act/core/viewer.py:mask_data", "src/jax_act/core/viewer.py:transform"]}
{"id": "C32", "title": "halted_only and unhalted_only partition the data", "statement": "For every entry of every tensor, the entry of halted_only() plus the entry of unhalted_only() is the original entry, and at most one of them is non-zero.", "quantifier": "all viewers", "why_tests_cant": "All tensors.", "anchors": ["src/jax_act/core/viewer.py:halted_only", "src/jax_act/core/viewer.py:unhalted_only"]}
{"id": "C33", "title": "Viewer transform applies the function to every tensor and leaves pending updates pending", "statement": "transform(f) applies f to every tensor held (iterations, residuals, probabilities, accumulators, defaults and updates), keeps an empty update slot empty, keeps names and structure, and turns any exception of f into RuntimeError.", "quantifier": "all viewers and functions", "why_tests_cant": "All functions.", "anchors": ["src/jax_act/core/viewer.py:transform"]}
{"id": "C34", "title": "Pytree round trip", "statement": "Flattening a controller, builder, viewer, editor or state as a JAX pytree and unflattening it again gives an equal object (dictionaries compared as mappings), with the editor's error mode preserved.", "quantifier": "all states", "why_tests_cant": "All states and pytrees.", "anchors": ["src/jax_act/core/states.py:state_flatten", "src/jax_act/core/states.py:state_unflatten", "src/jax_act/core/controller.py:flatten_controller", "src/jax_act/core/viewer.py:flatten_viewer", "src/jax_act/core/builder.py:flatten_builder", "src/jax_act/core/tensoreditor.py:flatten_editor"]}
{"id": "C35", "title": "Dictionary insertion order never matters", "statement": "Two pytrees whose dictionaries have the same keys and values in different insertion order flatten to the same leaves and structure, so every operation treats them alike.", "quantifier": "all pytrees and key orders", "why_tests_cant": "All permutations at all depths.", "anchors": ["src/jax_act/core/utils.py:merge_pytrees", "src/jax_act/core/utils.py:broadcast_pytree_shape"]}
{"id": "C36", "title": "broadcast_pytree_shape replicates each source leaf over the matching target subtree", "statement": "If it succeeds, the result has exactly the target's structure and at every leaf position holds the source leaf that lies on the path to it; if source and target are compatible (source is target with some non-empty subtrees collapsed to leaves) it succeeds; it raises otherwise.", "quantifier": "all pairs of pytrees", "why_tests_cant": "All tree shapes.", "anchors": ["src/jax_act/core/utils.py:broadcast_pytree_shape", "src/jax_act/core/utils.py:_replicate_leaves", "src/jax_act/core/utils.py:_count_linked_leaves", "src/jax_act/core/utils.py:_validate_children_descent"]}
{"id": "C37", "title": "Broadcast internal assertions never fire", "statement": "The two 'This should never happen' assertions of broadcast_pytree_shape are unreachable.", "quantifier": "all pairs of pytrees", "why_tests_cant": "Unreachability needs all inputs.", "anchors": ["src/jax_act/core/utils.py:broadcast_pytree_shape"]}
{"id": "C38", "title": "execute_binary_operator works leafwise with left broadcasting in either direction", "statement": "execute_binary_operator(op, a, b) returns the tree of op(leaf_a, leaf_b) with the lower-rank leaf extended by trailing axes, in argument order, when either operand can be tree-broadcast to the other; otherwise RuntimeError.", "quantifier": "all operators and pytrees", "why_tests_cant": "All trees and operators.", "anchors": ["src/jax_act/core/utils.py:execute_binary_operator"]}
{"id": "C39", "title": "merge_pytrees pairs leaves", "statement": "merge_pytrees(f, primary, aux) returns a tree with the primary's structure whose i-th leaf is f of the i-th leaves, and raises AssertionError iff the numbers of leaves differ.", "quantifier": "all trees and functions", "why_tests_cant": "All trees.", "anchors": ["src/jax_act/core/utils.py:merge_pytrees"]}
{"id": "C40", "title": "Structure comparison is an equivalence that ignores leaf contents", "statement": "are_pytree_structure_equal is reflexive, symmetric and transitive and true iff the trees are equal after erasing leaf contents.", "quantifier": "all pytrees", "why_tests_cant": "All trees.", "anchors": ["src/jax_act/core/utils.py:are_pytree_structure_equal"]}
{"id": "C41", "title": "Equality comparison of pytrees", "statement": "are_pytrees_equal(a, b) is True iff a and b have the same structure and pairwise equal leaves, and never raises.", "quantifier": "all pytrees", "why_tests_cant": "All trees.", "anchors": ["src/jax_act/core/utils.py:are_pytrees_equal"]}
{"id": "C42", "title": "can_right_broadcast is exactly numpy broadcastability", "statement": "can_right_broadcast(a, b) is True iff an elementwise numpy operation between a and b is defined.", "quantifier": "all shapes", "why_tests_cant": "All shapes of all ranks.", "anchors": ["src/jax_act/core/utils.py:can_right_broadcast"]}
{"id": "C43", "title": "setup_left_broadcast aligns from the left", "statement": "setup_left_broadcast(t, target) appends unit axes to reach the target rank, so that a following elementwise operation with a tensor whose shape begins with t's shape pairs entry (b, rest) with t's entry b; it raises AssertionError iff t has more axes than the target (scalars excepted).", "quantifier": "all tensors", "why_tests_cant": "All shapes and indices.", "anchors": ["src/jax_act/core/utils.py:setup_left_broadcast"]}
{"id": "C44", "title": "Objects are immutable after construction", "statement": "After construction every attribute assignment on a controller, builder, viewer or editor raises AttributeError and leaves it unchanged.", "quantifier": "all attribute names, values and sequences of assignments", "why_tests_cant": "All sequences.", "anchors": ["src/jax_act/core/immutable.py:Immutable"]}
{"id": "C45", "title": "Methods never modify the object they are called on", "statement": "Every builder, controller, viewer and editor method leaves every previously obtained object (and the dictionaries it exposes) observably unchanged; results of earlier calls stay valid after any later calls.", "quantifier": "all interleavings of calls on all live objects", "why_tests_cant": "Aliasing bugs appear only in particular histories.", "anchors": ["src/jax_act/core/controller.py:cache_update", "src/jax_act/core/controller.py:iterate_act", "src/jax_act/core/builder.py:_define", "src/jax_act/core/tensoreditor.py:set_accumulator", "src/jax_act/core/states.py:replace"]}
{"id": "C46", "title": "replace changes exactly the fields given", "statement": "ACTStates.replace(field=value) returns a state with exactly the given fields changed, for every field.", "quantifier": "all subsets of fields and values", "why_tests_cant": "All subsets of fields.", "anchors": ["src/jax_act/core/states.py:replace"]}
{"id": "C47", "title": "save and load are inverse", "statement": "load(save(x)) is equivalent to x for controllers and viewers, and a controller, viewer and editor built from the same save agree on all shared properties.", "quantifier": "all states", "why_tests_cant": "All states.", "anchors": ["src/jax_act/core/controller.py:save", "src/jax_act/core/controller.py:load", "src/jax_act/core/viewer.py:save", "src/jax_act/core/tensoreditor.py:edit_save", "src/jax_act/core/tensoreditor.py:build"]}
{"id": "C48", "title": "Depression constant and epsilon act monotonically", "statement": "For the same halting inputs, a smaller depression constant or a smaller epsilon never makes a batch element halt earlier, and with depression constant 0 nothing ever accumulates.", "quantifier": "all pairs of constants and all input sequences", "why_tests_cant": "A relational property over runs.", "anchors": ["src/jax_act/core/controller.py:_process_probabilities", "src/jax_act/core/controller.py:depression_constant", "src/jax_act/core/controller.py:halt_threshold"]}
{"id": "C49", "title": "Accumulators stay inside the convex hull of their inputs", "statement": "If the default is 0 and every update entry at a position lies in [lo,hi] with lo <= 0 <= hi, the accumulator entry always lies in [lo,hi]; once halted it is a true weighted mean of the updates.", "quantifier": "all runs", "why_tests_cant": "All runs.", "anchors": ["src/jax_act/core/controller.py:iterate_act"]}
{"id": "C50", "title": "A jitted ACT loop accepts the controller", "statement": "jax.lax.while_loop accepts a controller as carry: all leaves are arrays or numbers and one cache-all/iterate round preserves the carry's tree structure and leaf types.", "quantifier": "all well-formed controllers", "why_tests_cant": "All structures.", "anchors": ["src/jax_act/layers/act.py:execute_act", "src/jax_act/core/states.py:state_flatten"]}
{"id": "C51", "title": "Preparing lazy parameters has no effect on the result", "statement": "Running the optional warm-up iteration before the loop does not change the controller or state that execute_act returns.", "quantifier": "all layers", "why_tests_cant": "All layers.", "anchors": ["src/jax_act/frameworks/flax.py:setup_lazy_parameters", "src/jax_act/layers/act.py:execute_act"]}
{"id": "C52", "title": "Error messages carry context", "statement": "format_error_message(message, context) always contains the (dedented) context on top and every non-blank line of the message indented under it.", "quantifier": "all strings", "why_tests_cant": "All strings.", "anchors": ["src/jax_act/core/utils.py:format_error_message"]}
{"id": "C53", "title": "Exceptions and result types do not depend on values", "statement": "Which exception a sequence of cache_update, iterate_act and reset_batches calls raises, and the tree structure, shapes and dtypes of the controller it returns, depend only on the structure, shapes and dtypes of the controller and the arguments, never on the numbers; so tracing with abstract values finds exactly the exceptions of a real run.", "quantifier": "all well-formed controllers, call sequences, and pairs of arithmetics (floats of any precision, exact numbers, abstract values)", "why_tests_cant": "All pairs of value assignments and call sequences.", "anchors": ["src/jax_act/core/controller.py:cache_update", "src/jax_act/core/controller.py:iterate_act", "src/jax_act/core/controller.py:reset_batches"]}
{"id": "C54", "title": "Halting is reached under rounding unless steps are lost", "statement": "In round-to-nearest-even arithmetic a halted batch element stays halted, and if every (depressed) halting step q of an element is at least 2^-precision of the core dtype and the threshold is below 1 it is halted after more than 2/q iterations; a step small enough to be lost when added to the accumulated probability leaves the element running for ever.", "quantifier": "all precisions, all histories of iterations", "why_tests_cant": "Unbounded runs over all float values.", "anchors": ["src/jax_act/core/controller.py:_process_probabilities", "src/jax_act/core/controller.py:halted_batches"]}
{"id": "C55", "title": "Halting does not depend on the accumulated data", "statement": "Two controllers with the same probability, residual and iteration count at a batch element, whatever their accumulators, that go through the same iterate_act and reset_batches calls with arbitrary updates cached in between, end with the same probability, residual, iteration count and halting decision for that element.", "quantifier": "all pairs of well-formed controllers, all histories, all batch elements, any arithmetic", "why_tests_cant": "Quantifies over all pairs of data and unbounded histories.", "anchors": ["src/jax_act/core/controller.py:cache_update", "src/jax_act/core/controller.py:iterate_act", "src/jax_act/core/controller.py:reset_batches"]}
{"id": "C56", "title": "Batching is transparent", "statement": "Running a sequence of cache_update, iterate_act and reset_batches calls on a batch gives each batch element exactly the probability, residual, iteration count, accumulator entries and halting decision it would get alone, in a controller with batch shape () fed with its slices of the arguments; the position of an element in the batch does not matter.", "quantifier": "all well-formed controllers of any batch shape, all batch elements, all histories whose updates have the batch dimensions, any arithmetic", "why_tests_cant": "Any batch shape, unbounded histories, all pairs of batched and unbatched runs.", "anchors": ["src/jax_act/core/controller.py:cache_update", "src/jax_act/core/controller.py:iterate_act", "src/jax_act/core/controller.py:reset_batches"]}
{"id": "C57", "title": "A reset element starts over", "statement": "After reset_batches a halted batch element has probability, residual and iteration count 0 and its accumulators equal to their defaults, and from then on it behaves in every history exactly like the same element of a controller that was never used.", "quantifier": "all well-formed controllers, all histories before and after the reset, all batch elements", "why_tests_cant": "Two-run property over unbounded histories.", "anchors": ["src/jax_act/core/controller.py:reset_batches", "src/jax_act/core/controller.py:iterate_act"]}
{"id": "C58", "title": "The status flags mean what their names say", "statement": "After any history from a controller without pending updates, has_cached_updates is true iff some accumulator has had an update cached since the last iteration, and updates_ready_to_commit iff all have; is_completely_halted is true iff every batch element has cumulative probability above 1 - epsilon and is_any_halted iff some element has; once halted an element stays so until it is reset; with an empty batch the controller counts as completely halted with none halted.", "quantifier": "all well-formed controllers, all histories", "why_tests_cant": "Unbounded histories.", "anchors": ["src/jax_act/core/controller.py:has_cached_updates", "src/jax_act/core/controller.py:updates_ready_to_commit", "src/jax_act/core/controller.py:is_completely_halted", "src/jax_act/core/controller.py:is_any_halted", "src/jax_act/core/controller.py:halted_batches"]}
{"id": "C59", "title": "Results are linear and monotone in the updates", "statement": "For fixed halting probabilities the amount added to an accumulator entry is a linear function of the updates cached for it, and larger updates never give a smaller result.", "quantifier": "all well-formed controllers, all sequences of rounds of any length, all entries of all accumulators", "why_tests_cant": "Relates three runs for all values and lengths.", "anchors": ["src/jax_act/core/controller.py:iterate_act", "src/jax_act/core/controller.py:_update_accumulator"]}
{"id": "C60", "title": "NaN and infinite inputs", "statement": "In floating point arithmetic with infinities and NaN: an infinite halting probability acts as 1 or 0; a NaN halting probability makes its batch element NaN and not halted, even if the element was halted before; it stays so through every history including resets, so is_completely_halted is false from then on, and its accumulators keep taking every further update with the full depressed halting probability; masked views show NaN instead of 0 for masked non-finite entries.", "quantifier": "all well-formed controllers, all histories, all rounding functions", "why_tests_cant": "Unbounded histories after the NaN, all states.", "anchors": ["src/jax_act/core/controller.py:_process_probabilities", "src/jax_act/core/controller.py:_update_accumulator", "src/jax_act/core/controller.py:reset_batches", "src/jax_act/core/viewer.py:mask_data"]}
{"id": "C61", "title": "execute_act computes Graves' ACT", "statement": "For a layer whose iteration caches an update per accumulator and then iterates, execute_act from a fresh controller returns accumulators that are their initial values plus the sum of the updates with Graves' halting weights, after k iterations, where k is the first number of iterations after which all batch elements have exceeded 1 - epsilon, or max_iterations; the user state is the one computed by k iterations. More generally, for any controller calls in the iteration, the loop gives what the same calls give one after the other without a loop.", "quantifier": "all layers made of controller calls, all well-formed controllers, all user states, all max_iterations", "why_tests_cant": "Quantifies over user code, states and unbounded loops.", "anchors": ["src/jax_act/layers/act.py:execute_act", "src/jax_act/core/controller.py:iterate_act"]}
{"id": "C62", "title": "Every session keeps the state sane", "statement": "Start from the state that new_builder describes and call any public methods of builder, controller, editor and viewer, in any order, saving and loading in between. If the arguments are documented ones (trees without None, editors in standard mode, transforms that keep shapes and dtypes), then after every sequence of calls that raises nothing: defaults, accumulators and updates have the same names; each accumulator has the structure, shapes and dtypes of its default; every leaf is a floating tensor whose shape starts with the batch shape; probabilities, residuals and iterations have one shape. In exact arithmetic, with boolean masks and transforms that keep the ranges, epsilon is not negative, probabilities and residuals are in [0,1] and iterations are not negative.", "quantifier": "all batch shapes, all sequences of calls of the four classes, all arguments of the documented kind", "why_tests_cant": "Quantifies over unbounded sequences of calls across four classes.", "anchors": ["src/jax_act/core/builder.py", "src/jax_act/core/controller.py", "src/jax_act/core/tensoreditor.py", "src/jax_act/core/viewer.py"]}
{"id": "C63", "title": "Accumulators are close to a weighted mean under rounding", "statement": "In floating point arithmetic with round to nearest even of any precision: for an element that starts with cumulative probability 0 there are weights in [0,1], one per iteration and the same for all accumulators, such that the cumulative probability differs from their sum by at most n * 2^-prec after n iterations (so the weights of a halted element sum to one up to n * 2^-prec), and each accumulator entry that started at 0, with updates at most M in absolute value, differs from the exact weighted sum of the updates by at most n (1 + 2^-prec)^n (2 * 2^-prec * M (1 + n 2^-prec) + 2^emin).", "quantifier": "all precisions, all well-formed controllers, all numbers of rounds, all halting probabilities and updates, all combinations of dtypes", "why_tests_cant": "An error bound over unboundedly many rounds and all inputs.", "anchors": ["src/jax_act/core/controller.py:_process_probabilities", "src/jax_act/core/controller.py:_update_accumulator"]}
{"id": "C64", "title": "Calls inside a traced function compute what eager calls compute", "statement": "A controller whose calls happen inside jax.jit or while_loop returns the arrays, the halted elements and the exceptions of the same calls made eagerly, although tracing turns the Python floats epsilon and depression_constant into float32 arrays.", "quantifier": "all formats with round to nearest even, all well-formed states and call sequences without float64 arrays (jax_enable_x64 off), all epsilon in [0,1]", "why_tests_cant": "The two thresholds agree for the default epsilon and for almost every other one; a test never meets an epsilon where they differ.", "anchors": ["src/jax_act/core/states.py:state_flatten", "src/jax_act/core/controller.py:halt_threshold", "src/jax_act/layers/act.py:execute_act"]}
{"id": "C65", "title": "execute_act runs the documented loop in the precision of the arrays", "statement": "For a layer that makes controller calls on arrays of which none is float64, execute_act has the outcome of the Python loop in its documentation under floating point rounding: the same exception, or the same number of iterations, user state and arrays, although inside while_loop epsilon and depression_constant are float32 arrays instead of Python floats.", "quantifier": "all formats with round to nearest even, all layers made of controller calls, all initial controllers and states, any maximal number of iterations, checks on or off", "why_tests_cant": "The precision only matters for values of epsilon next to a rounding boundary, and the wrong outcome is a loop that silently runs to its limit.", "anchors": ["src/jax_act/layers/act.py:execute_act", "src/jax_act/layers/act.py:_is_act_not_complete", "src/jax_act/core/states.py:state_flatten", "src/jax_act/core/controller.py:halt_threshold"]}
{"id": "C66", "title": "The iteration counter under rounding", "statement": "In rounded arithmetic the iteration counter of a batch element shows the number of iterations made while the element was not halted since the start or since its last reset, as long as this is at most 2^precision of the counter's dtype; from then on it shows 2^precision for ever. The counter has the core dtype, so the limit is 256 in bfloat16, 2048 in float16 and 2^24 in float32.", "quantifier": "all formats with at least two bits, all well-formed states, all batch indices and all successful histories", "why_tests_cant": "The counter stops silently, and only after hundreds to millions of iterations.", "anchors": ["src/jax_act/core/controller.py:iterate_act", "src/jax_act/core/controller.py:reset_batches", "src/jax_act/core/builder.py:new_builder"]}
{"id": "C67", "title": "Objects cannot be changed through shared containers", "statement": "A controller, builder, viewer or editor looks the same for as long as it exists, whatever a program does with the objects it obtained from it: calling methods, reading attributes, and modifying in place the dictionaries, pytrees and states it was handed or has passed in.", "quantifier": "all heaps, all objects and all finite programs of calls, look-ups and in-place modifications", "why_tests_cant": "The tests never modify a container after it was handed out or passed in, and the number of ways in which two objects can share one is not bounded.", "anchors": ["src/jax_act/core/immutable.py:__setattr__", "src/jax_act/core/states.py:ACTStates", "src/jax_act/core/builder.py:build", "src/jax_act/core/controller.py:cache_update", "src/jax_act/core/controller.py:accumulators", "src/jax_act/core/viewer.py:load"]}
{"id": "C68", "title": "The ponder cost", "statement": "For a batch element that starts from zero, iterations and residuals are the number of steps it takes until its halting probabilities exceed the threshold and the remainder given to the last one. The residual of a halted element lies between epsilon and 1, so the ponder cost iterations + residuals is above the number of steps and at most one more. Larger halting probabilities, a larger depression constant or a larger epsilon never make an element halt later, take more steps, or cost more.", "quantifier": "all ordered fields, all well-formed states, all batch indices, all sequences of rounds of any length", "why_tests_cant": "The monotonicity relates every pair of runs, including those with different numbers of steps.", "anchors": ["src/jax_act/core/controller.py:iterate_act", "src/jax_act/core/controller.py:_process_probabilities", "src/jax_act/core/controller.py:residuals", "src/jax_act/core/controller.py:iterations"]}
{"id": "C69", "title": "How results respond to the halting probabilities", "statement": "While the number of steps of a halted element stays the same, changing its halting probabilities changes each accumulator entry by the sum over the steps before the last of depression * (change of the clipped probability) * (update of that step - last update), and the residual by minus the sum of depression * change. Nothing else matters: the probability of the last step and of later steps has no influence. The number of steps stays the same under small enough changes unless the residual is exactly epsilon. Hence the derivative with respect to a halting probability strictly between 0 and 1 is depression * (update - last update) before the last step and zero afterwards.", "quantifier": "all ordered fields (the derivative: real numbers), all well-formed states, all accumulator entries, all sequences of rounds", "why_tests_cant": "Derivatives and the size of the neighbourhood are statements about infinitely many runs.", "anchors": ["src/jax_act/core/controller.py:iterate_act", "src/jax_act/core/controller.py:_process_probabilities", "src/jax_act/core/controller.py:_update_accumulator"]}
{"id": "C70", "title": "Accumulators do not influence each other", "statement": "A controller with several accumulators is the product of its accumulators: calls of cache_update, iterate_act and reset_batches succeed on it exactly when, for every name, the calls without the updates of the other names succeed on the controller with only that accumulator, and then the halting state and the accumulator, default and update of that name are the same in both. More generally, leaving out any set of accumulators and their updates from a successful history leaves the rest of the result unchanged.", "quantifier": "all states whose dictionaries have distinct keys, all histories of calls of any length, all sets of names, any arithmetic", "why_tests_cant": "It relates every history to all histories obtained from it by leaving out accumulators.", "anchors": ["src/jax_act/core/controller.py:cache_update", "src/jax_act/core/controller.py:iterate_act", "src/jax_act/core/controller.py:reset_batches", "src/jax_act/core/controller.py:_update_accumulator"]}
{"id": "C71", "title": "The order of edits only matters for edits of the same thing", "statement": "After any sequence of editor calls that succeeds every field and every named accumulator, default and update holds what the last edit of it wrote, or what it held if it was not edited. In standard mode each edit of a sequence is accepted or refused as if it were the only one, and edits of different things give the same result in every order.", "quantifier": "all editors, all sequences of calls of the seven setters, any arithmetic", "why_tests_cant": "Every order of every sequence of edits.", "anchors": ["src/jax_act/core/tensoreditor.py:set_probabilities", "src/jax_act/core/tensoreditor.py:set_residuals", "src/jax_act/core/tensoreditor.py:set_iterations", "src/jax_act/core/tensoreditor.py:set_epsilon", "src/jax_act/core/tensoreditor.py:set_accumulator", "src/jax_act/core/tensoreditor.py:set_defaults", "src/jax_act/core/tensoreditor.py:set_updates"]}
{"id": "C72", "title": "Views of views", "statement": "Transforming a view by f and the result by g is transforming it by g after f, with the same exceptions. Masking twice is masking with the conjunction of the masks. halted_only and unhalted_only are idempotent, and one after the other masks everything.", "quantifier": "all views and all functions for transform, in any arithmetic; all well-formed views and masks for the rest, in exact arithmetic", "why_tests_cant": "Every pair of functions and masks, every tree of accumulators.", "anchors": ["src/jax_act/core/viewer.py:transform", "src/jax_act/core/viewer.py:mask_data", "src/jax_act/core/viewer.py:halted_only", "src/jax_act/core/viewer.py:unhalted_only"]}
{"id": "C73", "title": "max_iterations only truncates the loop", "statement": "Which exception execute_act raises does not depend on max_iterations. If all batch elements are halted within some maximum every larger maximum gives the same result. With a maximum of zero or less the result is the controller make_controller returned and the initial state. If some element is not halted after m iterations, allowing one more runs run_iteration exactly once more, on the result of the first m.", "quantifier": "all layers, initial states, maxima, with and without checks, any arithmetic", "why_tests_cant": "Every layer and every maximum.", "anchors": ["src/jax_act/layers/act.py:execute_act", "src/jax_act/layers/act.py:_is_act_not_complete"]}
{"id": "C74", "title": "jit_and_checkify reports what an eager run reports", "statement": "A function that makes any sequence of calls on a builder, controller, editor or viewer, wrapped by jit_and_checkify, returns exactly when the eager calls return, and returns the same object. If an eager call raises an exception other than a failed check, the wrapped function raises the same one. A failed check of the editor is never lost: the wrapped function raises too, with JaxRuntimeError if it was the last call; otherwise a call after it may raise something else first.", "quantifier": "all sequences of calls on the four classes, all objects, any arithmetic", "why_tests_cant": "Every sequence of calls and every position of a failing check.", "anchors": ["src/jax_act/core/utils.py:jit_and_checkify", "src/jax_act/core/tensoreditor.py:_execute_validation"]}
{"id": "C75", "title": "The loop carry passes through JAX unchanged and its counter cannot overflow", "statement": "Flattening the loop carry (controller, state, metadata) as a JAX pytree and unflattening it gives back the same controller, state and counts, dictionaries in key order; with any other values in the leaf positions it flattens back to those values and the same treedef, and a wrong number of values raises ValueError. jax.lax.while_loop accepts the carry exactly if no leaf is a string or other object, and the metadata never cause a mismatch between the carry before and after an iteration. The iteration counter is an int32 inside the loop and never overflows: with any int32 max_iterations execute_act has the outcomes it would have with unbounded integers.", "quantifier": "all carries, all leaf values, all layers, all max_iterations below 2^31, any arithmetic", "why_tests_cant": "an overflow would need 2^31 iterations, and the tests never look at the treedef of the carry", "anchors": ["src/jax_act/layers/act.py:state_flatten", "src/jax_act/layers/act.py:state_unflatten", "src/jax_act/layers/act.py:ACTMetaData.increase_counter", "src/jax_act/layers/act.py:AbstractACTTemplate.execute_act"]}
{"id": "C76", "title": "Insertion order never matters, whatever the classes used", "statement": "Take two objects of the same class (builder, controller, editor in the same mode, or viewer) whose states are equal except for the insertion order of dictionaries at any depth, and two sequences of public method calls whose arguments are equal except for insertion order. Both sequences succeed or both fail; if they succeed the results are equal except for insertion order. If they fail they raise the same exception, provided reset_batches is not called or the session started from a builder with documented arguments; on objects a silent editor has bent out of shape, which exception reset_batches raises can depend on the order. Consequently the key ordering performed by jit does not show: jit_and_checkify applied to any sequence of calls returns exactly the result of the eager calls on the original object, with its dictionaries in key order.", "quantifier": "all pairs of states and call sequences of any length over all four classes that differ only in insertion order, any arithmetic, any user function given to transform, any editor mode", "why_tests_cant": "the tests build each dictionary in one order and never compare orders", "anchors": ["src/jax_act/core/builder.py:ControllerBuilder.define_accumulator_by_shape", "src/jax_act/core/builder.py:ControllerBuilder._define", "src/jax_act/core/builder.py:ControllerBuilder._delete_definition", "src/jax_act/core/tensoreditor.py:TensorEditor.set_accumulator", "src/jax_act/core/tensoreditor.py:TensorEditor.set_updates", "src/jax_act/core/viewer.py:ACTViewer.transform", "src/jax_act/core/controller.py:ACT_Controller.reset_batches", "src/jax_act/core/utils.py:jit_and_checkify"]}
{"id": "C77", "title": "Forward-mode differentiation gives the true derivative", "statement": "Run any sequence of cache_update, iterate_act and reset_batches calls on numbers that carry tangents, as jax.jvp does. The run raises the exception the plain run raises, or succeeds with the same values; the tangents have no influence on values, on halting or on exceptions. If epsilon, the depression constant, every tensor of the controller and every argument depend differentiably on a parameter, the tangents of the result are the derivatives of the plain result with respect to it, provided no element sits exactly on the threshold 1 - epsilon before or after a step or at a reset, and a halting probability of a step that does not cross is not exactly 0 or 1. At these excluded points the plain result is really not differentiable: at a halting probability of exactly 0 it has a corner, and jvp then returns half of the incoming tangent; at the threshold it jumps.", "quantifier": "all well-formed controllers, all call sequences of any length with differentiable families of arguments and tangents, exact arithmetic (values: any ordered field; derivatives: the real numbers)", "why_tests_cant": "the tests never differentiate; a finite-difference test at a few points cannot see the exceptional set", "anchors": ["src/jax_act/core/controller.py:ACT_Controller.iterate_act", "src/jax_act/core/controller.py:ACT_Controller._process_probabilities", "src/jax_act/core/controller.py:ACT_Controller._update_accumulator", "src/jax_act/core/controller.py:ACT_Controller.reset_batches", "src/jax_act/core/controller.py:ACT_Controller.cache_update"]}
{"id": "C78", "title": "The gradients are those of Graves' paper", "statement": "After any number of rounds on numbers that carry tangents, for an element that starts with zero probability, residual and counter: the counter has tangent zero. The tangent of the residual is minus the sum of the tangents of the demands of all steps before the last one, so the derivative of the ponder cost with respect to a halting probability is minus the depression constant before the last step and zero from the last step on. The tangent of an accumulator entry is the weighted sum of the tangents of the updates plus, for every step before the last one, the tangent of its demand times the difference between its update and the last update; for an element that has not halted, the tangent of each demand times its update. The tangent of a demand is the depression constant times that of the halting probability inside the unit interval, zero outside, one half of it at the ends.", "quantifier": "all well-formed controllers over dual numbers of any ordered field, all numbers of rounds, all halting probabilities and updates with all tangents, all epsilons in (0,1] and depression constants >= 0", "why_tests_cant": "the tests never look at gradients", "anchors": ["src/jax_act/core/controller.py:ACT_Controller.iterate_act", "src/jax_act/core/controller.py:ACT_Controller._process_probabilities", "src/jax_act/core/controller.py:ACT_Controller._update_accumulator"]}
{"id": "C79", "title": "execute_act can be differentiated through its loop", "statement": "Let the user's layer, the initial state and the depression constant depend differentiably on a parameter. Then forward-mode differentiation of a whole `execute_act` call (jax.jvp, values with tangents carried through `jax.lax.while_loop`) ends when the plain call ends, runs the same number of iterations, raises what the plain call raises, and returns the values of the plain result together with its derivatives, provided no batch element sits exactly on the halting threshold when the loop decides whether to go on and the controller calls are made away from the corners of the clip. The values agree without any such condition.", "quantifier": "all layers (families of make_controller, setup_lazy_parameters and run_iteration related to a layer on dual numbers), all initial states, depression constants, maximal iteration numbers, both settings of check_for_errors, all parameters; for the value part all linearly ordered fields", "why_tests_cant": "A gradient test compares finite differences at a few points with a tolerance. The number of iterations is itself a function of the parameter, and a step of the finite difference that changes it gives nonsense; that the derivative is right wherever the iteration count is locally constant, and that it is locally constant off the threshold, is a statement about all layers and all parameters.", "anchors": ["src/jax_act/layers/act.py:execute_act", "src/jax_act/layers/act.py:_is_act_not_complete", "src/jax_act/layers/act.py:run_layer_adapter", "src/jax_act/layers/core.py:ContractValidationWrapper", "src/jax_act/core/controller.py:iterate_act", "src/jax_act/core/controller.py:reset_batches"]}
{"id": "C80", "title": "What execute_act accumulates for an element does not depend on the rest of the batch", "statement": "Run a layer with execute_act on two batches that have an element in common, at whatever positions and in batches of whatever shapes, so that in every iteration the layer supplies the same updates and halting probabilities for it. The loop runs until the slowest element of the batch is halted, so it may run for different numbers of iterations. The two controllers returned nevertheless hold the same residual, iteration count, halting decision and accumulator entries for the element, and the same cumulative probability unless the element was halted from the start. In particular an element gets what it would get alone. The returned user state has no such property: it is the state after the last iteration of the whole batch, also for elements that were halted earlier.", "quantifier": "all pairs of layers made of controller calls (no reset), all well-formed controllers and batch shapes, all user states, all max_iterations, exact arithmetic in any ordered field and rounding in formats of any precision", "why_tests_cant": "A test runs one batch with a handful of elements. Whether an element is disturbed by being carried along for any number of further iterations, with any updates, beside any other elements, is a statement about all pairs of batches and loops of any length.", "anchors": ["src/jax_act/layers/act.py:execute_act", "src/jax_act/layers/act.py:_is_act_not_complete", "src/jax_act/core/controller.py:iterate_act", "src/jax_act/core/controller.py:halted_batches"]}
{"id": "C81", "title": "The residual under floating point rounding", "statement": "With round-to-nearest-even arithmetic of any precision and a halting threshold that does not round to one, for an element that starts not halted with residual 0: after any history of calls, resets included, its residual is 0 exactly as long as it is not halted. When it is halted the residual is the rounded difference of one and the cumulative probability p it had just before the iteration that halted it. That residual lies in (0, 1], is within half a spacing (2^-precision / 2) of the true remainder 1 - p, equals it whenever p is at least one half, and p plus the residual rounds to exactly one.", "quantifier": "all formats with a valid precision, all well-formed states, all epsilon in [0, 1] whose threshold does not round to one, all non-negative depression constants, all histories of calls", "why_tests_cant": "Rounding effects appear only for particular pairs of probability and precision. Tests compare a few values with a tolerance, so they neither see whether the stored residual is the correctly rounded one nor whether it can be zero for a halted element or non-zero for a running one after some history.", "anchors": ["src/jax_act/core/controller.py:_process_probabilities", "src/jax_act/core/controller.py:iterate_act", "src/jax_act/core/controller.py:reset_batches", "src/jax_act/core/controller.py:halted_batches"]}
{"id": "C82", "title": "The gradients of execute_act in closed form", "statement": "Run a layer with execute_act on numbers that carry tangents, from a fresh controller, each iteration caching one update per accumulator and then iterating with halting probabilities, all computed from the user state in any way. The number k of iterations is decided by the values alone: the first number of iterations after which all batch elements have exceeded 1 - epsilon, or max_iterations. In the returned controller the iteration counter of every element has tangent zero, the residual has tangent minus the sum of the tangents of the demands of the steps before the last one, and every accumulator entry has the weighted sum of the tangents of its updates plus, for each step before the last one, the tangent of its demand times the difference between its update and the last update. So the ponder cost has derivative minus the depression constant with respect to each halting probability before the last step and zero from then on, whatever the batch and however long the loop.", "quantifier": "all layers made of rounds of controller calls over dual numbers of any ordered field, all well-formed fresh controllers, all epsilons in (0,1], all depression constants >= 0, all user states, all max_iterations, both settings of check_for_errors", "why_tests_cant": "A numerical gradient check covers one layer, one batch and one loop length, and is blind where the derivative is zero by design. The closed form is a statement about loops of every length and all tangents at once.", "anchors": ["src/jax_act/layers/act.py:execute_act", "src/jax_act/layers/act.py:_is_act_not_complete", "src/jax_act/core/controller.py:iterate_act", "src/jax_act/core/controller.py:_process_probabilities", "src/jax_act/core/controller.py:_update_accumulator"]}
{"id": "C83", "title": "Epsilon bounds the error of stopping early", "statement": "Two controllers get the same halting probabilities for a batch element and the same update entries for an accumulator entry of it, and differ in epsilon. If the element is halted at the end under the smaller epsilon, then it is also halted under the larger one, and the two accumulator entries differ by at most the larger epsilon times the largest distance of a later update from the update of the step at which it is halted under the larger epsilon. So epsilon bounds what halting early may change in the result.", "quantifier": "all pairs of well-formed fresh controllers over any ordered field with epsilons 0 < e <= e' <= 1 and the same depression constant >= 0, all histories of rounds of the same length, all accumulators, entries, halting probabilities and updates, of any size and sign", "why_tests_cant": "A test compares two epsilons on one history. The bound is over all histories, all lengths and all pairs of epsilons, and it is what makes epsilon a tolerance at all.", "anchors": ["src/jax_act/core/controller.py:iterate_act", "src/jax_act/core/controller.py:_process_probabilities", "src/jax_act/core/controller.py:_update_accumulator", "src/jax_act/core/states.py:ACTStates"]}
{"id": "C84", "title": "Depression is a scaling of the halting probabilities", "statement": "For r between 0 and 1, any sequence of calls on a controller with depression constant r*d gives what it gives on the same controller with constant d when each tensor of halting probabilities is first clipped to [0, 1] and multiplied by r: the same exception, or controllers that are equal but for the constant. With d = 1: a depression constant of at most one can be done away with by scaling the halting probabilities. For r above one this is false.", "quantifier": "all controllers (no well-formedness needed), all sequences of cache_update, iterate_act and reset_batches calls, all r in [0,1], all d, over any ordered field", "why_tests_cant": "An equality of two programs over all call sequences, including those that raise; a test can compare the two only on the sequences it runs.", "anchors": ["src/jax_act/core/controller.py:iterate_act", "src/jax_act/core/controller.py:_process_probabilities", "src/jax_act/core/controller.py:depression_constant"]}
{"id": "C85", "title": "Rounding changes the halting step only near the threshold", "statement": "In arithmetic that rounds every operation, with a depression constant of at least 0 and a stored threshold below one, an element that starts with cumulative probability 0 and has made n rounds is halted only if the exact sum of its scaled clipped halting probabilities exceeds 1 - epsilon minus a margin, and is not halted only if that sum is at most 1 - epsilon plus the margin; the margin is 2n units (4n for depression above one) 2^-prec of the probabilities' dtype plus half a unit of that dtype and half a unit of float64. If no exact running sum up to n is within the margin of 1 - epsilon, the element is halted exactly when the exact recurrence says so, its counter is the exact number of steps, and its probability, residual and accumulators are within stated multiples of the unit of the values of the exact recurrence.", "quantifier": "all well-formed states, all batch sizes, all rounds of cache_update and iterate_act that complete, any number of them, all precisions of the floating-point formats; depression constant at least 0, threshold below one", "why_tests_cant": "The error of a run depends on all the roundings made along it; a test sees single runs, and the claim is a bound over all of them and over every format.", "anchors": ["src/jax_act/core/controller.py:iterate_act", "src/jax_act/core/controller.py:_process_probabilities", "src/jax_act/core/controller.py:_update_accumulator", "src/jax_act/core/controller.py:halted_batches", "src/jax_act/core/controller.py:halt_threshold"]}
{"id": "C86", "title": "execute_act in floating point computes Graves' ACT up to rounding", "statement": "For a layer whose iteration caches an update per accumulator and then iterates, run by execute_act from a fresh controller in arithmetic that rounds every operation, with a depression constant of at least 0 and a stored threshold below one: if no exact running sum of the scaled clipped halting probabilities up to max_iterations is within the margin of C85 of 1 - epsilon, then the number k of iterations is the first after which the exact running sums of all batch elements have exceeded 1 - epsilon, or max_iterations; the user state is the k-th; the halting decisions and counters are those of Graves' ACT; the probabilities, residuals and accumulators are within stated multiples of the rounding unit of those of Graves' ACT. With the precision of the two Python floats tracked the same holds for epsilon and depression_constant rounded to float32.", "quantifier": "all layers made of cache_update and iterate_act calls, all well-formed fresh controllers, all batch shapes, user states and max_iterations, with and without checks, all precisions of the formats; depression constant at least 0, threshold below one", "why_tests_cant": "The number of iterations is a discrete function of a rounded sum over all steps; a test compares single runs and cannot bound the deviation for every layer, length and format.", "anchors": ["src/jax_act/layers/act.py:execute_act", "src/jax_act/layers/act.py:_is_act_not_complete", "src/jax_act/core/controller.py:iterate_act", "src/jax_act/core/controller.py:_process_probabilities", "src/jax_act/core/controller.py:_update_accumulator"]}
{"id": "C87", "title": "What is set is what is read", "statement": "Every read property of a builder, controller, viewer and editor returns the field of its state that bears its name. When an editor setter returns, in either error mode, the property of that name reads exactly the value given, while every other field, every other entry of the same dictionary and the error mode are as before. When a builder definition returns, defaults and accumulators read the definition under its name, updates reads an empty slot, everything else is as before, and the controller that is built reads the same values.", "quantifier": "all states, error modes, names, values and trees", "why_tests_cant": "A test reads back a few fields of one state; a property returning a neighbouring field of the same type, or a setter disturbing another field, is missed whenever the two hold equal values, as they do in a fresh state.", "anchors": ["src/jax_act/core/builder.py:ControllerBuilder", "src/jax_act/core/controller.py:ACT_Controller", "src/jax_act/core/viewer.py:ACTViewer", "src/jax_act/core/tensoreditor.py:TensorEditor"]}
{"id": "C88", "title": "Gradients do not leak between batch elements, nor out of iterations after halting", "statement": "Run the library under forward-mode differentiation. (a) If epsilon, the depression constant and everything given for one batch element have tangent zero, then after any calls everything the controller holds for this element has tangent zero, whatever values and tangents the other elements have; the same holds for what execute_act returns. (b) Once an element is halted, no call other than reset changes the values or the tangents of its residual, iteration count and accumulator entries, whatever values and tangents are passed for it. (c) Two batches that have an element in common, in values and tangents, give the same results for it in values and tangents, though execute_act may run a different number of iterations for them.", "quantifier": "all well-formed controllers and batch shapes, all sequences of calls that succeed (for (b) and (c) without reset), all layers made of controller calls, all values and tangents in any ordered field, at every point, including those where the library is not differentiable; for (b) and (c) epsilon above zero and a depression constant of at least zero", "why_tests_cant": "A gradient test differentiates a few batches at a few points. That no entry of one element ever influences the gradient of another one is a statement about all pairs of elements, all histories and all points, including the ties of the clip and the threshold that random inputs miss.", "anchors": ["src/jax_act/core/controller.py:iterate_act", "src/jax_act/core/controller.py:reset_batches", "src/jax_act/core/controller.py:cache_update", "src/jax_act/layers/act.py:execute_act"]}
{"id": "C89", "title": "The training signal: the gradient of any loss with respect to the parameters of the layer", "statement": "Let the halting probabilities and the updates of every round be functions of the parameters of a layer. At parameters where no batch element sits on the threshold (residual equal to epsilon, or accumulated probability equal to 1 - epsilon while running) and the halting probabilities before the last step of each element lie strictly between 0 and 1, any differentiable loss of the accumulators, residuals and iteration counts of the whole batch is differentiable in the parameters. Its derivative is the chain rule through these derivatives: an accumulator entry has the sum over the steps before the last one of depression constant * (update - last update) * derivative of the halting probability, plus the weighted sum of the derivatives of the updates, with the remainder as the weight of the last one; the residual has minus the sum of depression constant * derivative of the halting probability over the steps before the last one; the iteration count has zero. For an element still running every step counts with its demand, and the residual has derivative zero. The halting probability of the last step and everything after it has no influence; it needs to be continuous only.", "quantifier": "all well-formed controllers, all batch shapes and all finite selections of entries, all numbers of rounds, all normed parameter spaces, all families of rounds differentiable at the point, all losses differentiable at the point, all epsilons in (0,1] and depression constants >= 0; fresh elements (zero probability, residual and counter), real arithmetic", "why_tests_cant": "A gradient check compares a few directional differences at a few parameters with a tolerance. The claim is an exact derivative in every direction of every parameter space for every loss, including that the step at which an element halts gets no gradient at all.", "anchors": ["src/jax_act/core/controller.py:iterate_act", "src/jax_act/core/controller.py:cache_update", "src/jax_act/core/controller.py:halted_batches"]}
{"id": "C90", "title": "The laws of pytree broadcasting", "statement": "broadcast_pytree_shape obeys the laws one expects of broadcasting. Broadcasting a tree to a target of its own structure returns its own leaves. If s broadcasts to t and the result broadcasts to v, then s broadcasts to v directly with the same result, and the second broadcast succeeds exactly when t broadcasts to v. Only the structure of the target matters. Broadcasting commutes with any function applied to the leaves and then raises the same exceptions. For trees without None and empty containers, execute_binary_operator(op, a, b) equals execute_binary_operator with the operands and the arguments of the operator swapped, including exceptions. With None or an empty container the order of the operands matters: a tensor with None gives None, None with a tensor raises RuntimeError.", "quantifier": "all pytrees (leaves, None, lists, tuples and dicts of any nesting), all leaf values, all operators", "why_tests_cant": "These are equations between results for all pairs and triples of trees; a test compares a handful. The asymmetry of the operands only shows for trees that hold None or an empty container.", "anchors": ["src/jax_act/core/utils.py:broadcast_pytree_shape", "src/jax_act/core/utils.py:_replicate_leaves", "src/jax_act/core/utils.py:execute_binary_operator"]}
{"id": "C91", "title": "Tangents superpose: the derivative computed by the library is a linear map at every point", "statement": "Run the same calls on the same values with several choices of the tangents of everything that goes in (epsilon, the depression constant, the state, the updates, the halting probabilities), and once with a linear combination of these tangents. Either all runs raise the same exception, or the last run returns the values of the others, and its tangents are the same linear combination of their tangents. The same holds for a whole execute_act call: it ends when the others end and after as many iterations, raises what they raise, and returns the combined tangents.", "quantifier": "all well-formed controllers, all call sequences, all layers whose methods treat tangents linearly (all layers made of controller calls whose functions do), any finite number of tangents and any weights in any ordered field, at every point: on the threshold and at the corners of the clip too", "why_tests_cant": "jax.grad, jax.linearize and jax.jacfwd all rely on the map of tangents being linear. A test compares finitely many directions at points where the library is smooth; the claim is about all combinations, and about the ties of the clip and of the threshold, where the derivative does not exist (C77_corner, C77_jump) and a piecewise rule for tangents could easily be non-linear.", "anchors": ["src/jax_act/core/controller.py:iterate_act", "src/jax_act/core/controller.py:reset_batches", "src/jax_act/core/controller.py:cache_update", "src/jax_act/layers/act.py:execute_act"]}
{"id": "C92", "title": "Nothing but the accumulators can overflow", "statement": "IEEE arithmetic has infinities and NaN. Let a controller's epsilon, depression constant and cumulative probabilities be between 0 and 1 and its tensors finite. Then, whatever calls follow, cumulative probabilities, residuals and iteration counters never overflow. If no call takes an accumulator out of the range of its dtype, the run in IEEE arithmetic is the run in arithmetic that only rounds: same exceptions, same numbers, no infinity and no NaN; the same for execute_act. Accumulators that start at 0 stay in range for n rounds whenever the updates are at most M and M plus the rounding errors of n rounds is in range.", "quantifier": "all well-formed controllers in range, all call sequences, all layers made of controller calls, all four floating dtypes, all finite updates and halting probabilities of any magnitude", "why_tests_cant": "Overflow needs values near the largest number of a dtype, and a run of any length; the claim that bookkeeping can never overflow is about all of them. It is also what makes the theorems proved in arithmetic that only rounds (C19, C63, C85, C86) statements about IEEE arithmetic.", "anchors": ["src/jax_act/core/controller.py:iterate_act", "src/jax_act/core/controller.py:_process_probabilities", "src/jax_act/core/controller.py:_update_accumulator", "src/jax_act/core/controller.py:reset_batches", "src/jax_act/layers/act.py:execute_act"]}
{"id": "C93", "title": "A leaf is a leaf, whatever it is called and wherever it is kept", "statement": "What happens to a tensor depends neither on the name of its accumulator nor on the tree it is part of nor on the other accumulators. Two controllers with the same halting state that keep a tensor as different leaves of differently named accumulators still agree on it after the same iterations and resets with the same update for that leaf. In particular all accumulators of an idle controller may be kept as one list: complete rounds that succeed with separate accumulators succeed with the list and give the same tensors and the same halting state.", "quantifier": "all arithmetics, all pairs of well-formed controllers with the same halting state, all names, trees and leaf positions, all call sequences; for the grouping all idle controllers, all numbers of rounds that cache each name at most once", "why_tests_cant": "It compares runs on two controllers for every way to name and group the tensors and for every history; a test fixes one grouping and one history.", "anchors": ["src/jax_act/core/controller.py:cache_update", "src/jax_act/core/controller.py:iterate_act", "src/jax_act/core/controller.py:_update_accumulator", "src/jax_act/core/controller.py:reset_batches"]}
{"id": "C94", "title": "An editor reaches exactly the states of the same type, among them the reset one", "statement": "Starting from a well-formed state, an editor in standard mode can reach every state with the same names, tree structures, shapes and dtypes whose changed numbers are in range, and no other. In particular it can do by hand what reset_batches does: set halted elements back to zero and to their defaults and leave the others alone. This also works for accumulators that are containers, for which reset_batches itself raises an error.", "quantifier": "all arithmetics, all well-formed states and all target states without None in their trees, all edit sequences; for the reset all ordered fields, all well-formed idle states with tensors in range", "why_tests_cant": "It is an exact description of the reachable set over all edit sequences, both what can be reached and what cannot; a test tries single sequences.", "anchors": ["src/jax_act/core/tensoreditor.py:set_probabilities", "src/jax_act/core/tensoreditor.py:set_residuals", "src/jax_act/core/tensoreditor.py:set_iterations", "src/jax_act/core/tensoreditor.py:set_epsilon", "src/jax_act/core/tensoreditor.py:set_accumulator", "src/jax_act/core/tensoreditor.py:set_defaults", "src/jax_act/core/tensoreditor.py:set_updates", "src/jax_act/core/controller.py:reset_batches"]}
{"id": "C95", "title": "Streams: with resets an element makes one ACT computation after the other", "statement": "A controller can be kept running, with reset_batches after some or all iterations, so that elements that are done start on something new while the others go on. At any time the bookkeeping and the accumulators of an element are those of Graves' ACT over the iterations since its present computation began, and this beginning is determined by its own halting probabilities and the times of the resets. When an iteration ends with the element halted, its accumulators hold the complete output of the computation, whose weights sum to one. With a reset after every iteration no iteration is wasted on a halted element, and if the halting probabilities are at least delta, no computation gets older than (1 - epsilon) / (depression_constant * delta) iterations.", "quantifier": "all well-formed controllers, all batch shapes and elements that start fresh, all numbers of iterations, all choices of which are followed by a reset, all halting probabilities and updates; exact arithmetic in any ordered field", "why_tests_cant": "It describes sessions of any length in which the elements of a batch are reset at different times; a test can follow only a few sessions.", "anchors": ["src/jax_act/core/controller.py:reset_batches", "src/jax_act/core/controller.py:iterate_act", "src/jax_act/core/controller.py:cache_update"]}
{"id": "C96", "title": "What the descent check of broadcast_pytree_shape compares", "statement": "As its docstring says, _validate_children_descent lets a pair of nodes pass if and only if their classes, their keys (if they exist) and their numbers of children match, and raises RuntimeError otherwise.", "quantifier": "all pairs of nodes of all classes known to JAX, including registered classes with static data", "why_tests_cant": "The keys of a registered class are arbitrary static data of any length.", "anchors": ["src/jax_act/core/utils.py:_validate_children_descent"]}
{"id": "C97", "title": "How depression sets the number of iterations", "statement": "If the halting probabilities of an element lie between lo and hi, the number n of iterations it takes to halt satisfies (1 - epsilon) / (depression_constant * hi) < n and n - 1 <= (1 - epsilon) / (depression_constant * lo). With a constant halting probability p it halts in iteration floor((1 - epsilon) / (depression_constant * p)) + 1 and not before; every update but the last has weight depression_constant * p, the last one has the rest. execute_act of a layer with halting probability p everywhere runs exactly that many iterations, or max_iterations if that is less. So the depression constant stretches the computation by its inverse, as the notes on probability depression in docs say (0.5 takes two iterations, with a depression constant of 0.1 it takes twenty).", "quantifier": "all well-formed fresh controllers, all epsilon in (0, 1], all positive depression constants, all histories with halting probabilities in the given range, all max_iterations; exact arithmetic in any ordered field", "why_tests_cant": "The count is claimed for all probabilities and constants, a test checks a few.", "anchors": ["src/jax_act/core/controller.py:iterate_act", "src/jax_act/layers/act.py:execute_act"]}
{"id": "C98", "title": "ACT inside ACT", "statement": "If each iteration of an outer layer run by execute_act calls execute_act of an inner layer and uses what that accumulated as its update, then the outer result is the sum of all inner updates of all outer iterations, each weighted with the product of its outer and its inner Graves weight, plus the initial values; where outer and inner elements are halted, these weights sum to one. With constant halting probabilities the numbers of iterations multiply.", "quantifier": "all layers that cache and iterate, all batch shapes and accumulators of either level, all numbers of iterations, an arbitrary inner layer for each outer iteration; exact arithmetic in any ordered field", "why_tests_cant": "It is about two loops with lengths that depend on the data.", "anchors": ["src/jax_act/layers/act.py:execute_act"]}
{"id": "C99", "title": "Continuing from any point", "statement": "A controller that was loaded or edited may hold any cumulative probability p. If p <= 1 - epsilon, the rounds that follow give the updates of the element their depressed, clipped halting probabilities until the sum counted from p exceeds 1 - epsilon, then the missing part to one, then nothing; the counter grows by the number of steps up to and including that one, the residual keeps its old value until then and is the weight of that step afterwards, the element is halted exactly from then on, and then the weights given sum to 1 - p. If p > 1 - epsilon, the element counts as halted: the next round sets its probability to one and nothing else of it ever changes, so the missing 1 - p is given to no update. For p = 0 the weights are those of C04.", "quantifier": "all well-formed states, all positive epsilon, all depression constants >= 0, all p, residuals, counters and accumulators, all sequences of rounds of any length; exact arithmetic in any ordered field", "why_tests_cant": "The starting point is arbitrary and the number of rounds unbounded.", "anchors": ["src/jax_act/core/controller.py:iterate_act", "src/jax_act/core/tensoreditor.py:set_epsilon", "src/jax_act/core/tensoreditor.py:set_probabilities"]}
{"id": "C100", "title": "Mapping over a batch axis gives what the batch gives", "statement": "Let the batch shape of a controller begin with axes P, the rest being Q. A sequence of cache_update, iterate_act and reset_batches calls that succeeds on it succeeds on each of the controllers of batch shape Q obtained by indexing P, with the arguments indexed likewise, and the resulting state is exactly the result indexed at the same place; so mapping the calls over P with jax.vmap and stacking the results gives what the batched calls give. Conversely, if the calls succeed on one of these parts, they succeed on the whole, except that reset_batches needs bare tensor accumulators or a nonempty Q. reset_batches mapped over all batch axes succeeds also for containers, where the batched call raises (C16), and restores the defaults of the halted elements.", "quantifier": "all well-formed controllers, all ways of splitting the batch shape, all indices, all call sequences, any arithmetic", "why_tests_cant": "Shapes, splits and sequences of calls are arbitrary, and whole states are compared.", "anchors": ["src/jax_act/core/controller.py:cache_update", "src/jax_act/core/controller.py:iterate_act", "src/jax_act/core/controller.py:reset_batches"]}
{"id": "C101", "title": "An interrupted execute_act can be resumed", "statement": "If `execute_act` with at most `m` iterations returns a controller and a state, and a layer with the same `run_iteration` whose `make_controller` returns that controller (e.g. loaded from its saved state) is run from that state with at most `m'` further iterations, then the result is exactly that of the first layer with at most `m + m'` iterations: accumulators, probabilities, residuals, iteration counts, user state, everything. For jittable user code the resumed computation moreover never fails, and returns exactly when, and what, the uninterrupted one returns.", "quantifier": "for all layers, initial states, arguments, maxima m, m' >= 0, with or without checks, in every arithmetic (rounding included)", "why_tests_cant": "It is about every user layer and every place where the loop can be stopped.", "anchors": ["src/jax_act/layers/act.py:execute_act", "src/jax_act/layers/act.py:_is_act_not_complete", "src/jax_act/core/controller.py:save"]}
{"id": "C102", "title": "The checks of execute_act only add exceptions", "statement": "Whatever `execute_act` returns with `check_for_errors` on, it also returns with `check_for_errors` off. If it returns with the checks off, then with the checks on it raises exactly if the controller from `make_controller` has no accumulators, the first iteration returned a list instead of a tuple, the first iteration returned the controller object it was given, or the controller from `make_controller` already held a cached update (a controller whose update slots do not belong to its accumulators counts as well); it raises TypeError for the list and RuntimeError otherwise.", "quantifier": "for all layers, initial states, arguments and maxima, in every arithmetic", "why_tests_cant": "It is about every user layer, including ones nobody wrote a test for.", "anchors": ["src/jax_act/layers/act.py:execute_act", "src/jax_act/layers/core.py:ContractValidationWrapper"]}
{"id": "C103", "title": "The largest iteration counter tells how often the loop ran", "statement": "Run a layer that caches an update per accumulator and then iterates with `execute_act`, from a controller whose counters are zero. The user state that is returned is the one computed by k iterations, with k at most max_iterations; no entry of `iterations` exceeds k, and some entry equals k (if k = 0 all are zero): the user code ran exactly as often as the slowest element needed. With rounding the same holds for what a counter can show, which is at most 2^precision in a floating dtype.", "quantifier": "for all such layers, well-formed controllers with zero counters, user states, batch shapes and maxima; exact arithmetic and every rounding format", "why_tests_cant": "The number of iterations depends on the data of the whole batch.", "anchors": ["src/jax_act/layers/act.py:execute_act", "src/jax_act/core/controller.py:iterate_act"]}
{"id": "C104", "title": "A jitted function of the controller is compiled once", "statement": "jax.jit looks up a compiled function by the treedef and the shapes and dtypes of the leaves of its arguments. After any history of calls from a controller without pending updates, the controller has the key it had before exactly if no update is pending (has_cached_updates is false): complete rounds and resets never cause a recompilation, a cached update always does. Two controllers from the same one have the same key exactly if the same names have pending updates of the same types; so with updates of fixed types there are at most 2^n keys for n accumulators, however many histories there are.", "quantifier": "all well-formed controllers with error_mode None, all histories of calls; any arithmetic", "why_tests_cant": "The histories are unbounded, and a test that compiles twice does not fail.", "anchors": ["src/jax_act/core/controller.py:flatten_controller", "src/jax_act/core/controller.py:cache_update", "src/jax_act/core/controller.py:iterate_act", "src/jax_act/core/controller.py:reset_batches"]}
{"id": "C105", "title": "Iterations with halting probability or depression constant zero do nothing but count", "statement": "Calls in which the halting probabilities of an active element are zero or negative, and any calls if the depression constant is zero, leave its cumulative probability, residual and accumulator entries as they were; it stays active and its counter counts the iterations. With a depression constant of zero, with which the notes on probability depression in docs propose to begin, execute_act of a layer that caches and iterates makes exactly max_iterations iterations and returns all active elements with the accumulators they started with.", "quantifier": "all well-formed controllers, all histories without reset, all halting probabilities and updates, all max_iterations; exact arithmetic in any ordered field and every rounding format", "why_tests_cant": "The histories and maxima are unbounded and the updates arbitrary.", "anchors": ["src/jax_act/core/controller.py:_process_probabilities", "src/jax_act/core/controller.py:iterate_act", "src/jax_act/layers/act.py:execute_act"]}
{"id": "C106", "title": "An affine readout commutes with ACT", "statement": "Applying a linear layer with bias to the accumulated result is the same as applying it to every update and accumulating that: the entry that accumulates the readouts is the readout of the accumulated entries, with the bias counted once for an element that has halted and in proportion to the probability spent so far for one that has not. This holds for readouts of any entries of any accumulators, with arbitrary resets in between.", "quantifier": "all pairs of well-formed controllers, all finite readouts with all coefficients and biases, all sequences of rounds and resets of any length, all batch elements; exact arithmetic", "why_tests_cant": "Relates two runs of different controllers for all linear maps, all update values, and all patterns of halting and resetting.", "anchors": ["src/jax_act/core/controller.py:iterate_act", "src/jax_act/core/controller.py:_update_accumulator", "src/jax_act/core/controller.py:reset_batches"]}
{"id": "C107", "title": "Order survives rounding", "statement": "When every operation is rounded, larger halting probabilities, a larger depression constant and a larger epsilon still give a larger (or equal) cumulative probability after any number of rounds, never delay halting, and never give a larger iteration counter; and for the same halting probabilities larger updates never give a smaller accumulated value; and the loop of execute_act never makes more iterations with the larger halting probabilities, and leaves no element unhalted that was halted with the smaller ones.", "quantifier": "all pairs of well-formed controllers with the same dtypes, all sequences of rounds of any length, all halting probabilities and updates, all floating point formats of at least one digit", "why_tests_cant": "Relates two rounded computations for all numbers and all lengths; a single number where a rounding reverses the order would break it.", "anchors": ["src/jax_act/core/controller.py:iterate_act", "src/jax_act/core/controller.py:_process_probabilities", "src/jax_act/core/controller.py:_update_accumulator", "src/jax_act/layers/act.py:execute_act"]}
{"id": "C108", "title": "Residuals and counters are never read", "statement": "The residuals, the iteration counters and the error mode of a controller influence nothing else, and the defaults influence nothing before the next reset_batches: two controllers that differ only in these raise the same exception for any calls, or return controllers with the same cumulative probabilities, accumulators, pending updates and halted elements. Nor do these fields influence each other.", "quantifier": "all pairs of well-formed states, all sequences of cache_update, iterate_act and reset_batches calls including failing ones, any arithmetic", "why_tests_cant": "A non-interference claim about all values of the fields and all continuations.", "anchors": ["src/jax_act/core/controller.py:_process_probabilities", "src/jax_act/core/controller.py:iterate_act", "src/jax_act/core/controller.py:reset_batches", "src/jax_act/core/controller.py:cache_update"]}
{"id": "C109", "title": "Elements may pause", "statement": "A round in which an element gets a halting probability of zero or less is a pause for it: pauses can be inserted or left out anywhere, any number of them and with any updates, without changing the cumulative probability, the residual, any accumulated entry or the halted status of the element. Two elements that get the same halting probabilities and updates apart from pauses therefore end with the same numbers.", "quantifier": "all pairs of well-formed states and elements, all sequences of rounds with pauses on either side, any ordered field, and rounding to nearest even in any valid formats", "why_tests_cant": "A claim about all interleavings of rounds with pauses of any length, in exact and in rounded arithmetic.", "anchors": ["src/jax_act/core/controller.py:iterate_act", "src/jax_act/core/controller.py:_process_probabilities", "src/jax_act/core/controller.py:_update_accumulator"]}
{"id": "C110", "title": "Positive and negative numbers are treated alike", "statement": "Accumulating updates of the opposite sign gives the opposite numbers, to the last digit: if an accumulator entry of one element starts as the opposite of an entry of another, has the opposite default and gets the opposite updates, with the same halting probabilities, the two entries are opposite after any number of rounds and resets, and the halted status, cumulative probabilities and residuals are the same.", "quantifier": "all pairs of well-formed states, elements and entries, all sequences of rounds and reset_batches calls, exact arithmetic, rounding to nearest even in any formats, IEEE arithmetic with overflow, infinities and NaN", "why_tests_cant": "Bitwise equality up to sign for all inputs, rounding included.", "anchors": ["src/jax_act/core/controller.py:iterate_act", "src/jax_act/core/controller.py:_process_probabilities", "src/jax_act/core/controller.py:_update_accumulator", "src/jax_act/core/controller.py:reset_batches"]}
{"id": "C111", "title": "A final linear layer can be moved out of the loop", "statement": "execute_act makes the same number of iterations whatever is accumulated: two layers that ask for the same halting probabilities run equally long and end with the same bookkeeping. In exact arithmetic, a layer that accumulates an affine function of the updates of another layer therefore returns, for every halted element, that affine function of what the other layer returns.", "quantifier": "all pairs of layers that cache updates and iterate, all states, any maximum of iterations; the first part in any arithmetic, the second in any ordered field, for any number of entries read", "why_tests_cant": "Relates two runs of an unbounded loop for all layers.", "anchors": ["src/jax_act/layers/act.py:execute_act", "src/jax_act/core/controller.py:iterate_act", "src/jax_act/core/controller.py:_update_accumulator"]}
{"id": "C112", "title": "An iteration can be split", "statement": "In exact arithmetic, what an update contributes is determined by the halting probability it is given in all: an iteration can be replaced by any number of iterations with the same update among which its halting probability is divided, and conversely, without changing the cumulative probability, the halted status and the accumulated entries of the element, also when halting occurs in between.", "quantifier": "all pairs of well-formed states and elements, all sequences of rounds cut into segments of constant update, any division of the halting probability, different depression constants included, any ordered field", "why_tests_cant": "A claim about all ways to divide all sequences of rounds.", "anchors": ["src/jax_act/core/controller.py:iterate_act", "src/jax_act/core/controller.py:_process_probabilities", "src/jax_act/core/controller.py:_update_accumulator"]}
{"id": "C113", "title": "Convex constraints survive, and Jensen's inequality holds", "statement": "If the updates an element is given while it is running satisfy a convex constraint on any number of entries, so does what it has accumulated once it is halted; updates that are probability distributions accumulate to a probability distribution. If a further entry accumulates a convex function of the updates, a loss for example, then that function of the accumulated values is at most the accumulated value of the function.", "quantifier": "all well-formed states, all runs, all convex sets and convex functions of any families of entries, any ordered field", "why_tests_cant": "Quantifies over all convex constraints and functions and all runs.", "anchors": ["src/jax_act/core/controller.py:iterate_act", "src/jax_act/core/controller.py:_process_probabilities", "src/jax_act/core/controller.py:_update_accumulator"]}
{"id": "C114", "title": "Accumulating ones gives the cumulative probability", "statement": "An accumulator entry of the dtype of `probabilities` that starts with the cumulative probability of its element, zero for a new one, and is given the update 1 in every round holds the cumulative probability of its element at every time, to the last digit also in floating point.", "quantifier": "all well-formed states, elements and entries, all runs, any ordered field, and rounding to nearest even in any valid formats", "why_tests_cant": "Bitwise equality of two separately computed numbers for all runs.", "anchors": ["src/jax_act/core/controller.py:iterate_act", "src/jax_act/core/controller.py:_process_probabilities", "src/jax_act/core/controller.py:_update_accumulator"]}
{"id": "C115", "title": "Contracting the total is harmless when the products are exact", "statement": "If a compiler evaluates `depression_constant*halting_probabilities + probabilities` in `_process_probabilities` with one rounding instead of two (a fused multiply-add), every history of calls gives the same states and the same exceptions, provided that every product of the depression constant and a clipped halting probability is a number of the format. This is so for the depression constant 1. It is not so in general: in float32 with the depression constant 3/4 an element can be halted with a cumulative probability below one and without a residual.", "quantifier": "all well-formed states, all histories of calls, all valid formats; the failure is a concrete float32 history", "why_tests_cant": "The backend used by the tests either contracts or does not, and the difference shows only for halting probabilities that hit the threshold to the last digit.", "anchors": ["src/jax_act/core/controller.py:_process_probabilities", "src/jax_act/core/controller.py:iterate_act"]}
{"id": "C116", "title": "Contracting the accumulator sums only changes the rounding of accumulators", "statement": "If a compiler evaluates the weighted sum `accumulator + weight * update` in `_update_accumulator` with one rounding instead of two (a fused multiply-add), then (1) every history of calls raises the same exceptions, and the probabilities, residuals, iteration counters, halted flags, pending updates, defaults and the key order and structure of the accumulators are the same; (2) halted elements still keep their accumulator entry exactly; (3) in one iteration every new accumulator entry is at least as close to the exact weighted sum as without contraction; (4) the accumulators themselves are the same if all updates are 0, 1 or -1. (3) does not extend to histories: in float32 two iterations can leave the contracted accumulator further from the exact sum than the plain one.", "quantifier": "all states, all histories of calls, all functions in place of the fused multiply-add for (1) and (2), all valid formats for (3) and (4); the failure over histories is a concrete float32 history", "why_tests_cant": "Whether the backend contracts depends on the device, and the differences are in the last digit of accumulators.", "anchors": ["src/jax_act/core/controller.py:_update_accumulator", "src/jax_act/core/controller.py:iterate_act"]}
{"id": "C117", "title": "Flushing subnormal numbers to zero keeps the guarantees", "statement": "In arithmetic that rounds to nearest and replaces subnormal results by zero (as most XLA backends do), after every history of calls the cumulative probabilities are numbers of the format between 0 and 1 and none is subnormal, and an element that was not halted and now is has cumulative probability exactly one. If every product of the depression constant and a clipped halting probability is zero or normal, the history raises the same exception, or gives the same probabilities, residuals, counters and halted flags, as without flushing. An accumulator entry is the same after an iteration if moreover the product of weight and update and the sum are not subnormal. Without the condition the results can differ: in float32 two halting probabilities of 2^-127 give 2^-126 or 0.", "quantifier": "all well-formed states without subnormal probabilities and residuals, epsilon between 0 and 1/2, all nonnegative depression constants, all histories of calls, all formats in which 1 - p is never subnormal (bfloat16, float16, float32, float64)", "why_tests_cant": "The tests run on a CPU; accelerators flush, and the affected numbers are smaller than any that tests use.", "anchors": ["src/jax_act/core/controller.py:_process_probabilities", "src/jax_act/core/controller.py:iterate_act", "src/jax_act/core/controller.py:reset_batches"]}
{"id": "C118", "title": "Truncation costs at most the probability not yet spent", "statement": "If max_iterations ends the loop while an element has cumulative probability p, then its accumulator entries differ from those of any longer run by at most (1 - p) times the largest later update; more exactly the difference lies between lo and hi times the probability spent in between, for later updates between lo and hi. So if the longer run halts the element its result lies between a + (1 - p) lo and a + (1 - p) hi, with a and p read off the truncated result. Dividing a truncated result by p gives a value between the bounds of the updates made so far. All bounds are attained.", "quantifier": "all well-formed controllers, all epsilon in (0, 1] and depression constants >= 0, all histories of rounds and continuations, all layers made of controller calls, all pairs of maxima m <= m', all accumulator entries; exact arithmetic in any ordered field", "why_tests_cant": "The bound relates two executions of any length and holds for all updates; a test compares a few.", "anchors": ["src/jax_act/core/controller.py:iterate_act", "src/jax_act/layers/act.py:execute_act"]}
{"id": "C119", "title": "An element halted within a smaller maximum already has its final results", "statement": "Run a layer with execute_act with a maximum of m and with a larger maximum m' of iterations. For every batch element that is halted in the first result the second result holds the same residual, iteration count, halting decision and accumulator entries, and the same cumulative probability unless the element was halted from the start. So the halted part of a truncated result is final, whatever happens to the rest of the batch. The elements that are not halted, and the returned user state, do change.", "quantifier": "all layers made of controller calls (no reset), all well-formed controllers, all user states, all pairs of maxima m <= m', exact arithmetic in any ordered field and rounding in formats of any precision", "why_tests_cant": "The claim relates two executions of any length for all layers, batches and maxima, with rounding at any precision.", "anchors": ["src/jax_act/layers/act.py:execute_act", "src/jax_act/core/controller.py:iterate_act"]}
{"id": "C120", "title": "A batch that is halted or empty costs no iteration", "statement": "If all batch elements are halted in the controller make_controller returns, execute_act returns that controller and the initial state without running an iteration, whatever the layer and the maximum. This includes batches with no elements (a batch dimension of size 0), which are completely halted without any element being halted and stay so in every history, no accumulator having an entry. Conversely, if some element is not halted and the maximum is positive, an iteration is run.", "quantifier": "all layers, initial states, maxima, with and without checks; all well-formed states and histories; any arithmetic", "why_tests_cant": "The claim is about all layers and all states, among them degenerate shapes that are rarely tested.", "anchors": ["src/jax_act/layers/act.py:execute_act", "src/jax_act/core/controller.py:is_completely_halted"]}
{"id": "C121", "title": "Results are stable up to epsilon", "statement": "Two elements that start with cumulative probability 0 are run for the same number of rounds; initial values, updates, halting probabilities, depression constant and epsilon may all differ. If M bounds the updates of the first, the accumulator entries differ by at most the difference of the initial values, plus the largest difference of the updates, plus M times (twice the sum of the differences of the depressed clipped halting probabilities plus twice both epsilons). The same holds for the results of execute_act. In particular changing the halting probabilities by a total of D changes a result by at most M (2 depression D + 4 epsilon), also when the number of steps changes. The epsilon term cannot be left out: when the running sum is exactly at the threshold, raising it by any positive amount, however small, changes the result by epsilon times the difference of two updates.", "quantifier": "all pairs of well-formed fresh controllers over any ordered field with epsilons in (0, 1] and depression constants >= 0, all histories of rounds of the same length, all pairs of layers that cache and iterate with the same maximum", "why_tests_cant": "The bound is uniform in the number of rounds and covers the discontinuities of the result, which random tests miss.", "anchors": ["src/jax_act/core/controller.py:iterate_act", "src/jax_act/layers/act.py:execute_act"]}
{"id": "C122", "title": "The order of the rounds before the halting one is irrelevant", "statement": "Run a batch element that is not halted by the same rounds (updates and halting probabilities) in two orders. If it is not halted at the end of one of them it is not halted at the end of the other, and both controllers hold the same cumulative probability, residual, iteration count and accumulator entries for it. The same rounds following both then lead to the same results, also when they halt the element. The halting round itself is different: exchanging it with an earlier one changes the result and the number of iterations. With rounding the order matters even before halting.", "quantifier": "all well-formed controllers over any ordered field with positive epsilon and depression constant >= 0, all lists of rounds and all their permutations, all rounds that follow, all elements and accumulator entries", "why_tests_cant": "The claim relates all permutations of histories of any length.", "anchors": ["src/jax_act/core/controller.py:iterate_act", "src/jax_act/core/controller.py:cache_update"]}
{"id": "C123", "title": "Halting earlier moves the weight to earlier updates", "statement": "Two batch elements, of one controller or of two, start with the same cumulative probability, counter and accumulator entry and are given the same updates. The first has the same or a larger epsilon, and the running sum of its depressed clipped halting probabilities is never below that of the second. Then the first is never behind in cumulative probability and takes no more iterations. If the second is halted at the end so is the first; its ponder cost (iterations plus residual) is at most that of the second; and its accumulator entry is at most that of the second if the updates grow from round to round, at least that of the second if they shrink. The same holds for the results of execute_act for elements that are halted, also if the two loops run for different numbers of iterations.", "quantifier": "all pairs of well-formed controllers over any ordered field with positive epsilons and depression constants >= 0, all histories of rounds, all pairs of layers that cache and iterate, all maxima, elements and accumulator entries", "why_tests_cant": "The claim compares all pairs of histories of any length, with steps at which the two elements halt at different times.", "anchors": ["src/jax_act/core/controller.py:iterate_act", "src/jax_act/layers/act.py:execute_act"]}
{"id": "C124", "title": "Exactly which weightings of the updates can be learned", "statement": "Take an element with cumulative probability p that is not halted. If it is halted after some rounds, it has taken n + 1 iterations for some n, and every accumulator entry has received its updates with weights w(0), ..., w(n) for which: all are non-negative, w(t) is at most the depression constant for t < n, w(n) is at least epsilon and less than depression constant plus epsilon, and they sum to 1 - p. The residual is w(n). Conversely for all weights with these properties there are halting probabilities from 0 to 1 such that any n + 1 rounds with them end with the element halted, n + 1 iterations, residual w(n) and these weights of whatever updates there are. The results of execute_act for elements halted at its end have such weights too, with n below max_iterations. So with depression constant 1 every convex combination whose last weight is at least epsilon can be learned, and no other.", "quantifier": "all well-formed controllers over any ordered field with positive epsilon and depression constant >= 0, all elements not halted, all histories of rounds, all numbers of iterations and weights, all layers that cache and iterate, all updates", "why_tests_cant": "It is an exact description of the set of reachable results, in both directions and for any number of iterations.", "anchors": ["src/jax_act/core/controller.py:iterate_act", "src/jax_act/layers/act.py:execute_act"]}
{"id": "C125", "title": "The mean iteration lies within the ponder cost", "statement": "A fresh element that is halted, with iteration counter n and residual r, has a mean iteration m counted from 0: every accumulator entry that is given x + y t in iteration t has received x + y m, with the same m for all entries. It satisfies (n - 1) r <= m <= n + r - 2. So the ponder cost n + r used as the penalty in training is at least the mean number of the iteration the result is from, plus one, and cannot be small while the result comes from late iterations. The same holds for the results of execute_act.", "quantifier": "all well-formed controllers over any ordered field with epsilon in (0, 1] and depression constant >= 0, all histories of rounds, all layers that cache and iterate, all elements and entries, all x and y", "why_tests_cant": "The bounds hold for all sequences of halting probabilities and any number of iterations.", "anchors": ["src/jax_act/core/controller.py:iterate_act", "src/jax_act/layers/act.py:execute_act"]}
{"id": "C126", "title": "The weights tell everything about halting", "statement": "An accumulator entry that is given 1 in one round and 0 in all others shows the weight of that round. Take two elements with the same cumulative probability and counter, neither halted, run for the same number of rounds; depression constants, epsilons and halting probabilities may differ. If such entries show the same for every round, the two elements end with the same cumulative probability, halting decision and iteration count, with the same residual if they are halted, and the depressed clipped halting probabilities of all rounds before the halting one are equal. So what the controller records is a function of the weights, and the accumulators determine the halting probabilities up to depression, clipping and the halting round.", "quantifier": "all pairs of well-formed controllers over any ordered field with positive epsilons and depression constants >= 0, all histories of rounds of the same length, all elements not halted", "why_tests_cant": "The claim compares all pairs of histories of any length.", "anchors": ["src/jax_act/core/controller.py:iterate_act"]}
