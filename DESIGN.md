# Formal model of jax_act_controller

Source: `/repo` (smithblack-0/jax_act_controller, pinned commit), read as text.
The model and the proofs are Lean 4 (4.33.0) with Mathlib, in `lean/Verif`.

## 1. Approach

* **Shallow, function by function.** Every Python function of `core/`, `layers/` and `frameworks/`
  that exists at this commit is mirrored by a Lean function with the same branches in the same
  order. Exceptions are values (`Except Err _`, one constructor per Python exception class).
* **Arithmetic is a parameter.** The array code is written over an arbitrary `Arith α`
  (add/sub/mul per dtype, casts, max/min, comparisons; *no laws*). Structural facts (freezing,
  independence, shapes, errors) are proved for every `Arith`, hence for IEEE floats with NaN and
  rounding. Quantitative facts (ACT weights, bounds, liveness) are proved for exact arithmetic in
  any linearly ordered field. The ones that survive rounding are proved again for a model of
  rounding to nearest even in any precision (`Basic/Round`).
* **Refinement.** `iterate_act` and `reset_batches` on tensors are proved to act on each batch
  element as a scalar step function (`Spec/Step`, `Spec/Reset`), and the scalar machine is proved
  against Graves' definition of ACT (`Spec/Graves`). Property theorems are then read off.
* **Negative results.** Where the property is false of the code, the negation is proved with a
  concrete witness. What remains true is proved under a `_partial` name.
* **Two models of the objects.** `Model/Controller` and its neighbours compute with values.
  `Model/Heap` has the same methods on a heap with references, and is proved to agree with the value
  model (`Lemmas/HeapSim`, `Lemmas/HeapValue`).
* **Non-vacuity.** Beside the theorems are examples that meet the hypotheses with a concrete
  controller (`Props/Fixtures`) and evaluate the model on it in the kernel.
* **Mutation tests.** `seeded/LOG.jsonl` records wrong versions of the model and the theorems that
  stop proving. There are two kinds of line.
  * Edits written by hand (ids not starting with `A`): the claim they break was chosen in advance, and
    every proof that fails is listed.
  * Automatic single edits (ids starting with `A`): the build was stopped at the first proof that
    failed, often that of an auxiliary lemma, and the claim was not determined by hand. Such a line shows
    that the edit does not go unnoticed. It does not show that each property listed is false of the
    edited model: those are only the theorems that depend on the failing proof.

## 2. Model layout (`lean/Verif`)

| module | models |
|---|---|
| `Basic/Err` | Python exceptions |
| `Basic/DType` | dtypes, JAX promotion, weak Python scalars |
| `Basic/Arith` | scalar arithmetic as a parameter; exact arithmetic |
| `Basic/Round` | arithmetic rounded to nearest even, formats of the dtypes |
| `Basic/Special` | arithmetic with infinities and NaN over any rounding function |
| `Basic/Dual` | numbers with tangents, the arithmetic of `jax.jvp` |
| `Basic/Arr`, `Basic/Tensor` | arrays, numpy broadcasting, `lax.select`, `jnp.broadcast_to`, `jnp.clip`, `jnp.full` |
| `Basic/Dict`, `Basic/PyTree` | Python dicts, pytrees, `tree_flatten`, `tree_unflatten`, `tree_map`, `tree_structure` |
| `Basic/WhileLoop` | `jax.lax.while_loop` |
| `Model/Utils` | `core/utils.py` |
| `Model/Text` | `format_error_message` with `textwrap.dedent` and `textwrap.indent` |
| `Model/State` | `core/states.py` |
| `Model/Controller` | `core/controller.py` |
| `Model/Builder` | `core/builder.py` |
| `Model/Editor` | `core/tensoreditor.py` |
| `Model/Viewer` | `core/viewer.py` |
| `Model/Immutable` | `core/immutable.py` |
| `Model/Flatten` | the pytree registrations of all classes |
| `Model/Layers` | `layers/act.py`, `layers/core.py`, `frameworks/flax.py` |
| `Model/Checkify` | `jit_and_checkify` (`core/utils.py`) and the checks of the editor under `checkify` |
| `Model/Carry` | `ACTMetaData` as a pytree and the loop carry as JAX flattens it, int32 counter (`layers/act.py:26-57`) |
| `Spec/Ownership` | reachability and programs that modify containers in place |
| `Model/Heap` | the methods of all classes with references and dictionary identity |
| `Spec/*` | independent specifications: scalar step, Graves' weights, call histories, sessions over all four classes, slices of batched states, paths in trees, equality of trees as mappings, the documented loop, sameness of types, the state seen by a traced function, what can be read from a heap object, the value every call on the heap should have (`Spec/HeapValue`), the ponder cost (`Spec/Ponder`), the state with some accumulators only (`Spec/Restrict`), sequences of edits (`Spec/Edit`), sessions that differ only in insertion order (`Spec/SessionSame`), families of states related entry by entry to one state (`Spec/Families`), derivatives of runs (`Spec/Tangent`) and of loops (`Spec/LoopTangent`), Graves' gradients (`Spec/Gradient`), the recurrence of one element in rounding arithmetic (`Spec/Rounded`) |
| `Lemmas/*` | helper lemmas |
| `Props/*` | the property theorems, with non-vacuity examples |
| `Conformance/*` | the expectations of `/repo/tests` replayed on the model (evidence for the model, not part of any proof); `Applied1`, `Applied2`: theorems applied to concrete objects, showing that their hypotheses can be met together |

## 3. The properties, one by one

For each property: status, how it is proved, what is missing if anything. The theorems are in `Props/Cxx.lean`.

**C01 Cumulative probability stays in [0,1]** (proved). Invariant over call histories, read off the scalar step; each batch element separately.
Result: Exact arithmetic in any ordered field; all call histories.

**C02 A halted batch element stays halted until reset** (proved). Induction over reset-free histories on the scalar step.
Result: Exact arithmetic; histories without reset; C02_reset_clears covers the reset.

**C03 Halted batch elements are frozen** (proved). Pointwise refinement; the halted branch of the step is the identity for any arithmetic because the code selects rather than multiplies.
Result: Any arithmetic without laws, so NaN and rounding included.

**C04 iterate_act realises Graves' ACT weights** (proved). Induction on the rounds against the weights of `Spec/Graves`, which is stated from the list of halting probabilities alone.
Result: Exact arithmetic; induction on rounds; every leaf and index of every accumulator tree.

**C05 Weights of a halted element sum to exactly one** (proved). Telescoping sum of the Graves weights.
Result: Exact arithmetic.

**C06 Residual is the remainder at the halting step** (proved). Case analysis at the halting step.
Result: Exact arithmetic.

**C07 Iteration counter counts exactly the un-halted iterations** (proved). Induction over histories with resets; counts steps that start below the threshold.
Result: Exact arithmetic; histories with resets.

**C08 Halting probabilities are clamped** (proved). The clipped run and the unclipped run are compared as whole `Res` values.
Result: The idempotence needed of clamping is a hypothesis in the version for any arithmetic and proved for exact arithmetic.

**C09 Batch elements are independent** (proved). Two-run (relational) theorem on histories: batch elements not mentioned in the difference agree.
Result: Two-run theorem for any arithmetic, for iterate_act, reset_batches and whole histories.

**C10 cache_update stores exactly one slot or raises** (proved). Case analysis of every branch in order.
Result: Any arithmetic; every error branch and the success case characterised.

**C11 Caching order is irrelevant** (proved). Permutation argument on lookups.
Result: Any arithmetic.

**C12 iterate_act needs every update and then empties the slots** (proved). Characterisation of the readiness check and of the result.
Result: Any arithmetic.

**C13 Exact success condition and error kinds of iterate_act** (proved). Success iff an explicit typing condition, both directions, and the error class of each failure.
Result: Both directions, any arithmetic.

**C14 Structure, shape and dtype never change** (proved). Invariant over histories.
Result: Any arithmetic; all histories with resets.

**C15 reset_batches restores halted elements and only those** (proved). Pointwise refinement of `reset_batches`.
Result: Any arithmetic; accumulators, probabilities, residuals, iterations, idempotence and the error branch.

**C16 reset_batches works for pytree accumulators** (partial). The selector is broadcast to the accumulator as if it were an array, so containers raise.
Result: False as stated: accumulators that are containers make reset raise AttributeError (C16_containers_raise, C16_not_for_all). Proved for accumulators that are bare tensors, both directions.

**C17 Halting is reached** (proved). Potential argument, with a sharp bound.
Result: Exact arithmetic; explicit bound on the number of iterations, and the bound fails for epsilon 0.

**C18 Halting is reachable in every supported dtype** (partial). Rounding model: the threshold `1 - epsilon` is computed in double precision and cast to the dtype of the probabilities.
Result: False: for float16 (epsilon <= 2^-12), bfloat16 (<= 2^-9) and float32 (<= 2^-25) the threshold 1-epsilon rounds to 1 and no history halts an element (proved). Proved exactly when halting is reachable: iff the rounded threshold is below 1.

**C19 Total probability is exactly one under floating point rounding** (proved). Rounding model: `1 - p` is exact for `p` in `[1/2, 1]` (Sterbenz) and absorbed otherwise.
Result: Round-to-nearest-even model of any precision and smallest exponent (subnormals included); overflow, NaN and flush-to-zero are outside this model.

**C20 execute_act runs the documented loop** (proved). Inversion of the `while_loop` relation; determinism; termination by the iteration bound. C20_key_order: the key order in which JAX hands over dicts changes nothing else.
Result: A returned result is reached from make_controller output by k <= max_iterations calls of run_iteration, each because not halted and below the maximum, and none after; at most one outcome; an outcome exists for jittable layers.

**C21 Contract violations in run_iteration are reported** (proved). Case analysis over everything `run_iteration` can return.
Result: With checks on every run_iteration result that is not a tuple of a new controller without pending updates and a pytree makes execute_act raise TypeError or RuntimeError (exact exception for each kind); with checks off the wrapper is the identity. Finding, also proved: the wrapper tests the old controller for uncommitted updates; the new one is only caught by the while_loop type check.

**C22 make_controller contract** (proved). Unfolding of the preparation phase.
Result: TypeError, RuntimeError and otherwise the loop starts from that controller; with nothing to run it is returned unchanged.

**C23 new_builder yields a fresh builder** (partial). Characterisation of validation; the constructor call lacks an argument.
Result: False as stated: new_builder on valid input always raises TypeError (ACTStates is constructed without error_mode). Proved: exactly which inputs give ValueError, that it never succeeds, and what the state would be with the missing field supplied.

**C24 define_accumulator_directly accepts exactly valid definitions** (proved). Characterisation of `_define`.
Result: Exact success and failure conditions of define_*, with the stored entries.

**C25 define_accumulator_by_shape builds the filled tree** (proved). Structural induction on the tree of shapes.
Result: Exact structure, leaf shapes, dtype and fill value; ValueError for a corrupt tree, otherwise the outcome of define_accumulator_directly.

**C26 The three accumulator dictionaries stay aligned** (proved). Invariant over programs of builder operations.
Result: Every state reached from a base state by any sequence of builder operations is well formed and its dictionaries are aligned. The base state is the one new_builder intends (see C23).

**C27 Deleting a definition** (proved). Dictionary algebra.
Result: delete_definition: result, exact error condition, and both round trips with define.

**C28 Editor setters keep the edited state sane** (proved). Characterisation of each setter.
Result: Exact acceptance condition of the four checked setters, exception class on refusal, frame (all other fields equal), silence mode, and preservation of well-formedness. NaN passes the comparison based probability check, so the bound itself is stated in exact arithmetic.

**C29 Editor cannot redefine a pytree** (partial). Characterisation of the structure check; JAX treats None as an empty node.
Result: False as stated: None in a leaf position is accepted (witness proved). Exact acceptance condition of every tree setter, and the claim for values without None.

**C30 Editor rejects unknown accumulators** (proved). Case analysis in standard and silence mode.
Result: Unknown names raise KeyError or JaxRuntimeError as the code path dictates, no name is ever added in standard mode; silence mode adds the name (proved too).

**C31 Viewer masks show exactly the selected batch elements** (proved). Pointwise refinement of `mask_data`.
Result: Entrywise result for every arithmetic, success condition, exact arithmetic: masked entries are zero, unmasked ones unchanged.

**C32 halted_only and unhalted_only partition the data** (proved). From C31 with complementary masks.
Result: Each batch element, and each accumulator entry, is kept by exactly one of the two views.

**C33 Viewer transform applies the function to every tensor and leaves pending updates pending** (partial). Characterisation of `transform`.
Result: False for updates: they are computed from defaults (witness and general theorem proved). Proved for accumulators and defaults, with the exact success condition.

**C34 Pytree round trip** (proved). Structural induction on trees, then on objects.
Result: treeFlatten/treeUnflatten of the registered classes: the round trip gives the same object with dicts in key order (same mapping), error mode and class kept; the aux data tell classes apart; wrong number of leaves is rejected.

**C35 Dictionary insertion order never matters** (proved). Equality of mappings is defined on paths and shown equivalent to equality of canonical forms.
Result: Trees that are the same mapping flatten to the same leaves and treedef (iff); utils, iterate_act, cache_update, reset_batches and the editor checks give the same result on states that are the same mapping.

**C36 broadcast_pytree_shape replicates each source leaf over the matching target subtree** (partial). Structural induction on pairs of trees, stated on paths.
Result: False: a source leaf facing an empty target subtree is dropped silently, no exception (witness). Proved: replication along paths, success on every compatible pair, exact success and error conditions.

**C37 Broadcast internal assertions never fire** (partial). Exact condition for the assertion by induction on the pair of trees.
Result: False for the first assertion (reachable, witness). Proved: the second never fires for any pair of trees; exact condition under which the first does; never on trees without empty containers.

**C38 execute_binary_operator works leafwise with left broadcasting in either direction** (partial). Reduction to C36 and C39.
Result: False: when the first broadcast attempt fails with AssertionError the second direction is not tried (witness). Proved: shape and leafwise content of every success, RuntimeError for incompatible trees, success in the forward direction.

**C39 merge_pytrees pairs leaves** (proved). Induction on leaf lists.
Result: merge_pytrees pairs leaves in flattening order; assertion iff leaf counts differ; the exception of the first pair on which the callback raises propagates.

**C40 Structure comparison is an equivalence that ignores leaf contents** (partial). Structural induction.
Result: False as stated when None sits in a leaf position (witness proved). Proved: equivalence relation, blind to leaf values, equal structure implies True, the exact iff for trees without None, and what is decided for all trees (leaf and None interchangeable).

**C41 Equality comparison of pytrees** (partial). Characterisation by leaf lists.
Result: False as stated: structure is ignored beyond the leaf count and unequal shapes may raise (witnesses proved). Exact characterisation, and the claim for trees with equal structure.

**C42 can_right_broadcast is exactly numpy broadcastability** (proved). Induction on reversed shapes.
Result: True iff numpy shapes broadcast, iff the elementwise operation succeeds, iff the right aligned dimensions are pairwise compatible.

**C43 setup_left_broadcast aligns from the left** (proved). Index arithmetic on appended unit axes.
Result: Exact error condition, appended axes, entry map, and the pairing in a following elementwise operation.

**C44 Objects are immutable after construction** (partial). State machine over attribute assignments.
Result: False for the attribute _is_immutable, which can be assigned and unlocks the object; deletion is not protected (witnesses). Proved: every sequence of assignments to other attributes raises AttributeError each time and changes nothing.

**C45 Methods never modify the object they are called on** (proved). Heap model: frame calculus (`Safe`) and simulation (`Sim`) for every method, lifted to programs of calls, also ones that raise midway.
Result: Heap model with references; any program of method calls (also ones that raise midway) leaves every existing cell unmodified, and every method agrees with its value model (`C45_calls`: whatever calls came before, a call - also save, load, edit_save, replace and attribute reads - has the outcome of the value model, and what it returned keeps that value whatever is called afterwards). Shown separately: exposed dictionaries are shared, so an assignment by the user (not a method) is seen by other objects.

**C46 replace changes exactly the fields given** (partial). Characterisation of `replace` over all sets of keyword arguments.
Result: False for depression_constant and error_mode, whose validators do not exist (AttributeError, proved). Proved: for every set of other fields, exactly those are changed; exact success condition; the dataclass constructor stores exactly the given fields and raises TypeError when one is missing (`C46_constructor`).

**C47 save and load are inverse** (proved). On observations of the loaded objects.
Result: load(save(x)) = x for controllers and viewers; editor/viewer/controller made from one save agree on all shared properties.

**C48 Depression constant and epsilon act monotonically** (proved). Monotonicity by induction on rounds.
Result: Exact arithmetic.

**C49 Accumulators stay inside the convex hull of their inputs** (proved). Graves weights are a convex combination.
Result: Exact arithmetic; any number of rounds.

**C50 A jitted ACT loop accepts the controller** (partial). Signature preservation for layers made of controller calls.
Result: False when error_mode is a string: TypeError for every layer (proved). Proved otherwise: accepted iff error_mode is None, a round preserves the signature, layers made of controller calls are jittable, and execute_act succeeds for them.

**C51 Preparing lazy parameters has no effect on the result** (proved). Two loops compared.
Result: A result with the warm-up run is the result without; for jittable layers the outcomes are equal including exceptions.

**C52 Error messages carry context** (proved). String induction; dedent is specified by the longest common blank prefix.
Result: All strings; margin specified independently as longest common blank prefix; str.splitlines with all its line boundaries.

**C53 Exceptions and result types do not depend on values** (proved). Relational theorem over two arbitrary arithmetics.
Result: Relational theorem over two arbitrary arithmetics; instance: abstract values as used by tracing.

**C54 Halting is reached under rounding unless steps are lost** (proved). Rounding model: every step that is not lost adds at least one unit in the last place.
Result: C17 under rounding: absorption of halted elements, termination bound, and stagnation when steps are lost.

**C55 Halting does not depend on the accumulated data** (proved). Relational induction over two histories with the same steps.
Result: Relational theorem between two runs; holds for every arithmetic, so also under rounding.

**C56 Batching is transparent** (proved). Slicing of arrays, trees and calls is defined in Spec/Slice. The relation between a state and its slice is preserved by every call; success of the sliced call from the success conditions C13 and C16.
Result: Any arithmetic. The success of the unbatched run is part of the conclusion.

**C57 A reset element starts over** (proved). The reset relation gives the fresh state; the two-run lemma behind C55 and C09 carries it through the following history.
Result: For every arithmetic where masking a value gives zero (MaskZero), which is proved for exact and for rounded arithmetic. It is false for NaN and infinities, see C60.

**C58 The status flags mean what their names say** (proved). Induction over histories with a ghost computation of what is pending.
Result: Pending updates and the empty batch in any arithmetic, persistence in exact arithmetic. Caching None succeeds and leaves the slot empty; the statement counts only other trees as updates.

**C59 Results are linear and monotone in the updates** (proved). From C04: both results are sums with the same Graves weights, which are nonnegative.
Result: Exact arithmetic.

**C60 NaN and infinite inputs** (proved). Arithmetic of numbers, two infinities and NaN over an arbitrary rounding function (Basic/Special); the step relation of C04 for one element; induction over histories.
Result: Findings about the code rather than promises it makes. Signed zeros are not modelled. That other batch elements are not affected is C09.

**C61 execute_act computes Graves' ACT** (proved). C20 gives the trajectory of the loop; C35 for whole histories removes the reordering of dicts by flattening; C04 gives the weights.
Result: C61_loop_is_history in any arithmetic, C61_execute_act_is_graves in exact arithmetic. That execute_act returns at all is C50 and C20.

**C62 Every session keeps the state sane** (proved). Induction over the calls; each method has its own preservation lemma (C26, C28, C31 and the step lemmas of iterate_act and reset_batches).
Result: C62_session_aligned holds in any arithmetic, C62_session_ranges in exact arithmetic with depression_constant >= 0. Examples show that silence mode and shape changing transforms break it. The start is the state described by new_builder, not its result: new_builder itself always raises (C23).

**C63 Accumulators are close to a weighted mean under rounding** (proved). Induction over the rounds with an invariant that extends the list of weights; each rounding has a relative error of 2^-prec and an absolute error of half the smallest number; rounded sums of probabilities stay below two, so their error is at most 2^-prec.
Result: Accumulators and updates may have any dtypes iterate_act accepts; updates count as converted to the common dtype of update and probabilities. prec and emin are those of the dtype of the probabilities. Hypothesis on the formats: a dtype converts exactly to those it is promoted to (fmt_sub: true of bfloat16, float16, float32, float64). Overflow is not modelled here (C60 has infinities).

**C64 Calls inside a traced function compute what eager calls compute** (partial). A relational lemma for two arithmetics that agree except in float64 (Lemmas/Traced), instantiated with the formats seen by a traced function; the negative half from C18 with those formats.
Result: False: with epsilon = 2^-25 + 2^-52 in float32 an eager iteration halts and a traced one never does (C64_false). Proved: equality of whole runs when threshold and depression factor round to the same numbers, which holds for the default epsilon in float32, float16 and bfloat16; the distance of the two thresholds in general; and that decisions differ exactly for probabilities between them.

**C65 execute_act runs the documented loop in the precision of the arrays** (partial). A simulation lemma for while_loop (WhileLoop.map_iff) with C64's run_agree as the step; the negative half from C61 and C18 in the traced arithmetic.
Result: False: with halting probabilities one and epsilon = 2^-25 + 2^-52 in float32 the documented loop runs once and every element is halted; execute_act runs max_iterations iterations and no element is halted (C65_false). Proved: the outcomes agree when threshold and depression factor round to the same numbers either way, which holds for the defaults (C64_default_scalars).

**C66 The iteration counter under rounding** (proved). The proof of C07 with the number replaced by min(n, 2^precision): whole numbers up to 2^precision are representable, and 2^precision + 1 is a tie that rounds to even.
Result: C66_exact_count_fails: in every floating dtype 2^precision + 1 iterations with halting probability zero succeed, the element is never halted, and the counter shows 2^precision.

**C67 Objects cannot be changed through shared containers** (partial). Reachability in the heap is an invariant of every step: the cells a program can reach are closed under references, and a call on reachable objects reads and returns reachable or new cells only. What an object looks like depends on the cells reachable from it only.
Result: False of the code (C67_false): emptying the dictionary `controller.accumulators` empties that of the builder it was built from. Proved: an object that shares no container with anything a program can reach is never changed (C67_separation_partial); the exact table of which containers of a result are new and which are those of the original, for every method (C67_sharing_partial); build, make_viewer and edit_controller give objects that have the same state for ever, whatever is done (C67_same_state_partial); writing to a container the table calls new changes nothing that existed before (C67_new_containers_partial).

**C68 The ponder cost** (proved). Induction over the rounds with the refinement of iterate_act, then case analysis on whether the two runs halt at the same step.
Result: Exact arithmetic. The costs can only be compared once the first run has halted: an element pays its remainder at the halting step (example).

**C69 How results respond to the halting probabilities** (proved). The closed form of C04 split at the last step; clipping is 1-Lipschitz, so the partial sums stay on their sides of the threshold.
Result: Exact arithmetic. This is the derivative of the function the code computes; that JAX's forward-mode differentiation computes it is C77 and C78.

**C70 Accumulators do not influence each other** (proved). The loops commute with filtering the dictionaries; induction over the calls.
Result: Any arithmetic, so also floating point.

**C71 The order of edits only matters for edits of the same thing** (partial). An invariant that the edited state has the types of the first one makes the acceptance conditions independent of earlier edits; writes to different places commute.
Result: The first sentence is proved without restriction (C71_last_edit_counts). The second is false as stated (C71_order_matters: after set_accumulator(name, None) was accepted, set_defaults accepts any shape) and proved when the trees contain no None.

**C72 Views of views** (proved). Functoriality of tree_map with exceptions; masks as multiplication by 0 or 1.
Result: 

**C73 max_iterations only truncates the loop** (proved). The adapter commutes with replacing the maximum in the carry; induction over the loop.
Result: Results are compared after dictionaries were put in key order, which jax.lax.while_loop does to its carry.

**C74 jit_and_checkify reports what an eager run reports** (proved). A staged semantics that records failed checks and goes on is related to the eager semantics by induction over the calls. C74_jit_roundtrip: what jit hands over is the argument flattened and unflattened. C74_same_object (in Props/C76, where insertion order is treated): what the wrapped function returns is what the eager calls on the argument itself return, class, error mode and state, dicts compared as mappings.
Result: jit puts the dictionaries of arguments and results in key order; C74_same_object compares them as mappings. The Python floats epsilon and depression_constant keep their values here; what their conversion to float32 arrays changes is C64. C74_other_exception shows that the kind of exception can differ from the eager one.

**C75 The loop carry passes through JAX unchanged and its counter cannot overflow** (proved). state_flatten and state_unflatten of ACTMetaData and the flattening of the whole tuple are modelled function by function; round trips by the lemmas of C34. The int32 loop and the unbounded loop take the same steps because the condition bounds the counter by max_iterations before it is increased.
Result: Also justifies two simplifications of the loop model: its signature leaves out the metadata and its counter is an unbounded integer. For max_iterations outside the int32 range JAX raises OverflowError, which is not modelled.

**C76 Insertion order never matters, whatever the classes used** (proved). One lemma per method (definitions and shapes via the canonical form of trees, setters via the equality of their checks, transform via a dictionary comprehension that is insensitive to order), then induction over the calls.
Result: Extends C35 from controllers satisfying the invariant to sessions over all classes, including editors in mode "silence" and the broken states they produce. The dependence of reset_batches' exception on the order is proved with a concrete state (C76_reset_order). C76_jit strengthens C74_returns, which speaks of the argument after reordering.

**C77 Forward-mode differentiation gives the true derivative** (proved). A lemma for every call on families related entry by entry to one state over another arithmetic (Spec/Families, Lemmas/Families), with the scalar obligations separated. They are discharged once for equality of values and once for derivatives; away from ties each comparison is locally constant, so every choice differentiates along its branch.
Result: Forward mode only: the run over Arith.dual is the same model run with JAX's tangent rules (maximum and minimum share the tangent at a tie). The exceptional set is necessary at both kinds of points (C77_corner, C77_jump). The user's layer between the calls enters through the families of arguments; differentiating the layers' while loop as a whole is not modelled (reverse mode through lax.while_loop is not supported by JAX at all).

**C78 The gradients are those of Graves' paper** (proved). Induction over the rounds; the values follow Graves' weights because comparisons ignore tangents (C77), the tangent of the weight is computed in the three cases before, at and after the crossing step.
Result: Epsilon and the depression constant are constants here; C77 has no such restriction. With C77 these tangents are the true derivatives away from ties. C69 states the finite response for a fixed number of steps. The gradient of the last step's halting probability is zero although it decides that the element halts, as in Graves' paper.

**C79 execute_act can be differentiated through its loop** (proved). Families of carries related entry by entry to one carry on dual numbers; the loop body, the validation wrapper, `tree_flatten`/`tree_unflatten` between iterations and the type check of `while_loop` keep the relation, and the loop condition is locally constant where no element is on the threshold.
Result: Exact arithmetic. `C79_values`: same outcome, same values, for any numbers. `C79_jvp`: derivatives, for any layer whose own functions are differentiated correctly (`LayerRel`). `C79_call_layers`: for layers made of controller calls, this is needed only of the functions that choose the arguments. `C79_example`: a loop of two iterations. Reverse mode is not covered; JAX does not support it for while_loop.

**C80 What execute_act accumulates for an element does not depend on the rest of the batch** (proved). Both loops are histories of calls (C61). Up to the shorter length the two histories agree at the element (C56). If one loop is shorter, it stopped because everything is halted, so the element is halted in the other one as well and stays so (C02, C54), and a halted element is frozen (C03).
Result: C80_rest_of_batch_irrelevant in exact arithmetic, C80_rest_of_batch_irrelevant_rounded with rounding. C80_state_depends_on_batch is a run in which the returned user state of an early halted element depends on the rest of the batch, so users must read results from the accumulators. An element halted from the start keeps its cumulative probability if no iteration is run and gets 1 otherwise, hence the condition.

**C81 The residual under floating point rounding** (proved). Induction over the history as in C06, with the invariant of C19 (probabilities are numbers of the format in [0, 1]). From one half on the remainder is a number of the format; below one half the spacing of 1 - p is 2^-precision.
Result: C81_residual_under_rounding is C06 in rounded arithmetic, C81_remainder gives the size of the rounded remainder, C81_residual_positive the equivalence of being halted and having a non-zero residual. The threshold must be below one in the core dtype (C18); C81_tiny_epsilon_loses_residual shows what happens otherwise: an element that is not halted gets the residual 1/2 and the next iteration replaces it by 0.

**C82 The gradients of execute_act in closed form** (proved). The loop is a history of calls (C61, in any arithmetic, so also over dual numbers); the tangents after a history of rounds are C78, whose bookkeeping part also says when an element is halted.
Result: Exact arithmetic; epsilon and the depression constant carry no tangent. That these tangents are the derivatives of the plain execute_act is C79. Reverse mode is not covered (JAX has none for while_loop).

**C83 Epsilon bounds the error of stopping early** (proved). Both results are weighted sums with the weights of Graves' formulas (C48). The weights agree before the earlier halting step, and from there on those of the smaller epsilon sum to the remainder at that step, of which all but the demand of that step, which is below the larger epsilon, moves to later updates.
Result: Exact arithmetic. The repository documents epsilon only as a halting threshold; the error bound is derived.

**C84 Depression is a scaling of the halting probabilities** (proved). The clip is idempotent on r * clip(h) for r in [0,1], so _process_probabilities returns the same on both sides; no other code reads the depression constant. Induction over the calls.
Result: Exact arithmetic. That the restriction to r <= 1 is needed is C84_not_beyond_one.

**C85 Rounding changes the halting step only near the threshold** (proved). C63's trajectory gives the stored values as a scalar recurrence with rounding (Spec/Rounded.lean). Each step adds at most two roundings of numbers of at most one, so the rounded sum stays within 2n units of the exact one (for depression above one, four units per step), and the decisions agree while both are on the same side of both thresholds.
Result: Rounding to nearest even with unbounded exponent range, as in C63. The halting probabilities are taken as converted to the dtype of the probabilities, and the updates as converted to the dtype of the product. That some margin is needed is C85_margin_needed. When the threshold rounds to one the element never halts (C18).

**C86 execute_act in floating point computes Graves' ACT up to rounding** (proved). C61_loop_is_history, which holds in any arithmetic, turns the loop into a call history; C85 compares the history with Graves' formulas at every step, so both stopping tests agree.
Result: Rounding to nearest even with unbounded exponent range. C86_execute_act_traced is the version with the floats tracked (Spec/Traced). That execute_act returns at all is C50 and C20. The margin is the one of C85; without it the number of iterations can differ (C85_margin_needed, C65_false).

**C87 What is set is what is read** (proved). Each call that returns reduces to a `replace` of one field or to three dict assignments; the fields are then compared one by one, using the enumeration of fields of C46.
Result: Absolute version of the agreement in C47: each property against the named field, and read-after-write with a frame condition for all seven editor setters and for definitions.

**C88 Gradients do not leak between batch elements, nor out of iterations after halting** (proved). (a) is an invariant kept by every call, from the description of one call at one batch element. Whether an element is halted depends on the values only, so it stays halted as in C02; (b) then follows from C03, which holds in any arithmetic, and (c) from the comparison of two loops made for C80, also in any arithmetic.
Result: C88_no_leak and C88_execute_act_no_leak are (a), C88_no_gradient_after_halting is (b), C88_rest_of_batch_irrelevant is (c). In (b) and (c) the cumulative probability itself is not among the results compared. Forward mode only: in reverse mode a masked branch receives a cotangent of zero, and a masked update that is NaN or infinite could still give NaN; cotangents and non-finite numbers are not part of this arithmetic.

**C89 The training signal: the gradient of any loss with respect to the parameters of the layer** (proved). By C04 and C68 entries and residuals are the closed formulas of Graves' paper. Off the ties the last step is locally constant (Graves.steps_stable), so near the point entries and residuals are polynomials in halting probabilities and updates; the chain rule does the rest.
Result: The derivatives are those of the plain run over the real numbers; C77 and C78 show that JAX's tangents agree with the true derivative. The functions of the parameters are arbitrary, so updates that depend on the results of earlier rounds are included. Where the point is on a tie the plain result is not differentiable (C77_corner, C77_jump). The gradient formulas are defined in Spec/TrainingSignal.lean without use of the model.

**C90 The laws of pytree broadcasting** (proved). The result of a broadcast is characterised by the relation Spread (C36); here Spread is shown to be functional, reflexive on equal structures, transitive and compatible with maps. For the swap, without empty containers mutual broadcastability forces equal structures.
Result: C90_swap_fails is a finding: an accumulator tree whose probabilities operand comes second behaves differently from one where it comes first when the tree is None. Trees are compared after JAX's sorting of dict keys, which is what tree_unflatten returns.

**C91 Tangents superpose: the derivative computed by the library is a linear map at every point** (proved). The relation "same value, tangent is the weighted sum" between a family of dual numbers and one dual number is kept by sums, products, the tie rules of maximum and minimum, and by every choice, because comparisons look at values only. The theorems on families of runs and loops made for C77 and C79 carry it over to calls and to execute_act.
Result: C91_calls for call sequences, C91_execute_act for arbitrary layers, C91_call_layers for layers made of controller calls. C91_example is at a corner of the clip, C91_loop_example has any number of directions. With the weights all zero it says that without tangents going in none come out; with one direction it is homogeneity. The rules for tangents are those of Basic/Dual (forward mode); the transposed map itself is not modelled.

**C92 Nothing but the accumulators can overflow** (proved). The relation "is this finite number" between the two arithmetics is kept by every operation of iterate_act as long as the operands are between 0 and 1 (threshold, clip, demand, remainder, weight, probability); a clipped halting probability is between 0 and 1 even if its conversion overflowed. The counter is held because adding one rounds back to the largest number. The product of a weight and an update does not exceed the update; only the sum can overflow, which the hypothesis excludes. C63 on every prefix of the rounds gives the bound. The theorems on families of runs and loops made for C77 and C79 carry the relation over to calls and execute_act.
Result: C92_no_overflow for call sequences, C92_bookkeeping for the bookkeeping, C92_bounded for bounded updates, C92_execute_act for the loop. C92_overflow_example shows that the hypothesis on accumulators is needed: an accumulator at the largest float32 plus an update of the same size is infinity. C92_bounded_example has updates of 10^38 in float32. Signed zero, flush-to-zero and the wrap-around of int32 are in neither arithmetic, so for int32 counters the claim says only that they are not turned into infinities; wrapping would take 2^31 iterations. What infinite or NaN inputs do is C60.

**C93 A leaf is a leaf, whatever it is called and wherever it is kept** (proved). Both refinement theorems (iterate_act, reset_batches) give a leaf after the call from that leaf, its update or default, and the halting state alone. Induction over the two call sequences gives C93_leaf. For C93_grouping, C13 and C14 turn success of all rounds into a condition on the types of the first state, which is carried over to the concatenated leaves; the position of each leaf in the list is the number of leaves before it, and C93_leaf is applied to each.
Result: C93_leaf for call sequences that succeed on both controllers, C93_grouping for complete rounds, including success. Two limits are proved: C93_grouping_converse_fails (the list accepts updates that the separate accumulators refuse, because only flattened leaves are compared) and C93_grouping_reset_fails (a list cannot be reset under a non-scalar batch shape, the defect of C16). C93_leaf_example has a renamed accumulator and a reset, C93_grouping_example a tensor and a list kept as one list.

**C94 An editor reaches exactly the states of the same type, among them the reset one** (proved). Reachable states are editable because C71 turns acceptance of the sequence into a condition on each edit against the first state and says that the last edit of each field counts. Conversely one edit per field is written down, each satisfies that condition, and both sides agree field by field. The reset state is built from the halting mask with a selection per leaf; it satisfies the specification of reset_batches, which determines it uniquely, and it is editable.
Result: Trees free of None are assumed, in the state and in the edits, because setting a tree with None where there was none (and the reverse) is the defect of C29 and C71. C94_manual_reset asks for an idle controller, as reset_batches does, and for tensors in range, since the editor refuses others (C28). C94_manual_reset_example is a controller on which reset_batches raises AttributeError (C16) and the edits a user would write for it.

**C95 Streams: with resets an element makes one ACT computation after the other** (proved). Induction over the turns from the end of the list. One round advances Graves' formulas by one step (the step lemmas of C04 and C68, restated for any starting step); one reset sets a halted element to zero steps of a new computation and leaves another alone (C15).
Result: Sessions in which every call succeeds; with container accumulators reset_batches raises (C16). Graves.began (Spec/Stream) gives the beginning of the present computation without reference to the model. In other arithmetics a single reset is C57. C95_example follows two elements that are reset at different times.

**C96 What the descent check of broadcast_pytree_shape compares** (partial). The comparison loop over zip accepts exactly if one list is a prefix of the other; the rest is case analysis.
Result: True for lists, tuples, namedtuples and dicts (C96_docstring_partial, C96_builtin). False for registered classes with static data, since the code zips the static data: C96_accepts_iff and C96_error_iff give the exact behaviour. Static data of which one begins with the other pass (C96_longer_static_data_unnoticed), static data that cannot be iterated over fail with TypeError even against themselves (C96_atom_fails), and the check is neither symmetric nor transitive (C96_not_symmetric_nor_transitive).

**C97 How depression sets the number of iterations** (proved). The demands of constant probabilities sum to n * depression * p, the rest is arithmetic of floor; C04, C68 and C61 tie it to the code.
Result: The statement about execute_act is for layers that cache and iterate (C61) and calls that return. What rounding can change about the halting step is C85.

**C98 ACT inside ACT** (proved). C61 for the outer and for every inner call, and C97 for the number of iterations.
Result: docs/brainstorms and speculation/ACT with long sequence duration.rst proposes nesting. Calls that return; that nested loops are jittable is JAX's affair.

**C99 Continuing from any point** (proved). Induction over the rounds with the single step of C03 and the invariant that the probability is p plus the weights so far.
Result: C99_raised_epsilon_loses_mass is an accepted session in which the editor raises epsilon between rounds and the output of an element is 3/5 of the average of its updates though its probability is one (finding 30). What rounding changes is C85.

**C100 Mapping over a batch axis gives what the batch gives** (proved). The refinement theorems for iterate_act and reset_batches give every entry of both results; trees are compared by structure, leaves and key order. Success by C13 and C16.
Result: vmap is not modelled as a JAX transformation; the theorem is about the semantics documented for it, one call per slice. What vmap makes of the loop of execute_act follows from C80, which allows any two batch shapes. The converse asks that all tensors of the calls and the pending updates have the axes P.

**C101 An interrupted execute_act can be resumed** (proved). The body depends on the loop metadata only by increasing the counter, so the steps of the resumed loop are steps of the joint loop with counter and maximum moved by m; and the carry returned by a loop is already in key order, so handing it to a new loop does not change it.
Result: C101_resume; C101_resume_iff adds, for jittable code (the hypothesis of C20), that the resumed run succeeds and the converse. The hypothesis that the accumulators are not empty is what the checks of core.py:178-197 require. Negative maxima are excluded because there `m + m'` would be smaller than either run. An example stops a two-iteration computation after one iteration, saves, loads and resumes.

**C102 The checks of execute_act only add exceptions** (proved). The wrapped body succeeds only if the unwrapped one does, with the same result, so every step of the checked loop is a step of the unchecked one; an exception can only come from the preparation or the traced first iteration (C20_exceptions), and there each check is followed branch by branch.
Result: C102_checks_change_nothing, C102_what_checks_add (the exceptions), C102_raises_iff (exactly when). No hypothesis on the user's code. The last reason is a consequence of finding C21 (the wrapper looks at the old controller): a layer that iterates first and caches for the next round, starting from a controller with cached updates, works with the checks off only. The concrete case is a layer that returns a list.

**C103 The largest iteration counter tells how often the loop ran** (proved). The loop makes the k-th iteration because some element is not halted; halted elements stay halted (C02, C54), so this element was active in all k iterations, and C07/C66 count them.
Result: C103_largest_counter (exact) and C103_largest_counter_rounded. The cumulative probabilities at the start are arbitrary in the exact version and representable numbers in [0,1] in the rounded one. Concrete cases: the layer of C50 (two iterations, both counters 2) and a layer with growing halting probabilities in IEEE arithmetic.

**C104 A jitted function of the controller is compiled once** (proved). Equal treedefs and avals mean equal types of all fields (Lemmas/Sig); every call keeps the types of all fields but the slots, and the slots are followed through the history as in C58.
Result: C104_same_key_iff, C104_compiled_once, C104_pending_names, C104_finitely_many. With a string as error_mode a controller is not a valid argument of a jitted function at all (C50). Weak types are not modelled.

**C105 Iterations with halting probability or depression constant zero do nothing but count** (proved). With demand zero the step does not cross the threshold and has weight zero; induction on the history, using only that zero is neutral, which holds in exact and rounded arithmetic.
Result: C105_silent, C105_execute_act, and the same with rounding for numbers representable in their dtypes (any stored number is): C105_silent_rounded, C105_execute_act_rounded. The rounded model has finite numbers only; an update that is NaN or infinite times weight zero is NaN (C60). Finding 31.

**C106 An affine readout commutes with ACT** (proved). C106_readout: the relation Readout.Related between the two states is kept by a round (Readout.Related.round, from the refinement theorem of iterate_act) and by a reset (Readout.Related.reset). The invariant is that the target entry is the readout with the bias counted p times, where p is the cumulative probability, and that p is one for a halted element. C106_example applies the theorem to four turns with a reset in which the element halts and starts again.
Result: Rounds and resets (the Turn of C95), exact arithmetic, 0 < epsilon <= 1 and a depression constant >= 0. The entries read belong to one batch element.

**C107 Order survives rounding** (proved). C107_halting: by C63 the trajectory of an element is the recurrence of Spec/Rounded, and rounding is monotone (Rounded.prob_mono; once the larger one halts it is exactly one, which nothing exceeds). C107_updates: a simulation between the two runs (EntryBelow.round), with accStep_mono for one entry. C107_execute_act: by C61 the two loops are two histories of rounds; if the second were longer, C107_halting at the length of the first would make it stop there. The theorems are applied to three rounds and to two loops of four and two iterations in IEEE arithmetic.
Result: Rounding to nearest even with unbounded exponent range, as in C63. The halting probabilities are compared as converted to the dtype of the probabilities. Elements start with cumulative probability 0 for the bookkeeping; the accumulator part starts from any state whose probabilities are numbers of their format in [0,1]. The residual is not monotone, also not in exact arithmetic (C107_example_halting).

**C108 Residuals and counters are never read** (proved). C108_write_only, by induction over the calls: success and the kind of exception are determined by the other fields (C13, Controller.resetBatches_result), and the computations of the other fields are the same terms (Controller.iterateAct_core, Controller.resetBatches_core). C108_example applies it to a state with arbitrary residuals, counters, defaults and error mode, and shows that the defaults do show after a reset.
Result: Any arithmetic, so also floating point. A layer may of course read the counters of the controller it is given; execute_act itself does not (C73, C103).

**C109 Elements may pause** (proved). C109_pause (exact) and C109_pause_rounded, by induction over the interleaving with the simulation relation PausedStates; a round on one side only is one that adds zero, which is neutral for the arithmetic (NeutralZero of C105). C109_example applies it in IEEE arithmetic to two elements of which one halts after three iterations and the other, with two pauses, after five.
Result: Only the counter differs: it counts pauses too (C105). Numbers are finite here; an update of infinity or NaN in a pause would spoil the accumulator, as 0 * inf is NaN (C60). The start must be a legal one: a halted element has cumulative probability 1 (an editor can set other values, C87), and in rounded arithmetic the start values are representable.

**C110 Positive and negative numbers are treated alike** (proved). C110_mirror, for any arithmetic that satisfies OddArith, by induction over the turns with the simulation relation MirrorStates. C110_exact, C110_rounded and C110_special show OddArith for the three arithmetics. C110_example applies it in IEEE arithmetic to two elements, one of which gets the opposite updates, through a halt and a reset.
Result: No hypotheses on the values. The model has one zero, so nothing is said about the sign of a zero. That the bookkeeping does not depend on the updates is C55.

**C111 A final linear layer can be moved out of the loop** (proved). C111_same_loop (any arithmetic) from C61_loop_is_history and C55; C111_readout from it and C106. C111_example applies the theorem to two layers whose state changes in every iteration: three iterations, X and 2 X + 5.
Result: If the loop is cut off by max_iterations the bias counts only as often as probability was spent, which the theorem says exactly. The accumulators start at zero, as new accumulators usually do; other starts are covered by C106. In floating point the two differ by rounding, but the number of iterations is the same.

**C112 An iteration can be split** (proved). C112_split: a segment takes the cumulative probability p to 1 if p plus what is spent exceeds the threshold and to the sum otherwise, and adds the difference times the update, by induction over the rounds of the segment (EntryOf.held); the rest by induction over the segments. C112_example and C112_example_values: three iterations against seven.
Result: Halting probabilities count as clipped, so a total above one needs more than one iteration. Residuals and counters do differ, as C112_example_values shows, and so does the ponder cost (C68). With rounding the sums differ by rounding errors (C63 bounds them); dividing into zeros is exact (C109).

**C113 Convex constraints survive, and Jensen's inequality holds** (proved). running_combination: from C04, C05 and weights being zero after halting, what is accumulated is a convex combination of the updates of the running iterations, the same for all entries. C113_convex, C113_distribution and C113_jensen follow with the convexity theorems of Mathlib. C113_example (squares) and C113_example_distribution apply them.
Result: Exact arithmetic, accumulators that start at zero. Updates given after the element has halted need not satisfy the constraint. Before the element is halted the accumulated values are only a part of the combination, so the constraint need not hold (C49 has bounds for that). With rounding the constraint holds up to the error bounded in C63.

**C114 Accumulating ones gives the cumulative probability** (proved). C114_ones (exact) and C114_ones_rounded from CopyState.rounds, by induction over the rounds: a weight is a stored number, so multiplying it by one and rounding does not change it, and a halted element keeps its probability (Pausable of C109). C114_example applies it in IEEE arithmetic, where 1/10 + 1/5 is not 3/10.
Result: So the weights the updates are given are those that are recorded. The start must be legal: a halted element has cumulative probability 1. With another dtype for the accumulator the weights are rounded to it and the numbers can differ.

**C115 Contracting the total is harmless when the products are exact** (proved). Model/Fused repeats `_process_probabilities` with the total contracted. runFused_eq: the total is entrywise the same, so the functions are. C115_exact_products and C115_depression_one instantiate it with rounding to nearest even. C115_inexact_products_fail evaluates the history 0.33, 0.87 both ways: without contraction probability 1 and a residual; with contraction a probability one unit above the threshold, residual 0, and after a third iteration probability 1 although the accumulator of ones is still at 0.9.
Result: Only the sum that is compared with the threshold is contracted. The sum that is stored cannot be, because of the `select` in between. The contraction of products and sums in `_update_accumulator` is not covered.

**C116 Contracting the accumulator sums only changes the rounding of accumulators** (proved). Model/Fused repeats `_update_accumulator` and `iterate_act` with the contracted sum. runFusedSums_rel: a run with contraction and one without stay in lockstep, equal except for accumulator values. C116_at_least_as_close uses that rounding picks a nearest number of the format (Lemmas/Nearest) and that without contraction the result is a number of the format too. C116_unit_updates: a product with 0, 1 or -1 is not rounded, and conversion keeps these numbers. C116_not_over_histories evaluates the weights 0.4, 0.22 with the updates 2.3, 0.8.
Result: Together with C115 this covers both places where products meet sums. (1) and (2) hold whatever the contracted operation returns. In (3) the weight and the previous entry are the ones of the state before the iteration.

**C117 Flushing subnormal numbers to zero keeps the guarantees** (proved). Basic/Flush defines the arithmetic; the model of the controller is the same. Lemmas/Flush: what is left to one is never subnormal, sums of nonnegative normal numbers are normal. Lemmas/TwoAriths: if two arithmetics agree on the bookkeeping of single elements (StepsAgree), they agree on histories (run_two_ariths, with C53 for the exceptions). C117_halted_probability_is_one and C117_probabilities_in_unit_interval are inductions over the history as in C19.
Result: Only results are flushed; subnormal operands supplied by the caller are used as they are. The halting probabilities must have the dtype of the cumulative probabilities for the agreement. Counters may be integers or, as the builder makes them, floating point numbers. The agreement on accumulators is for one iteration and for accumulators and updates of the dtype of the probabilities.

**C118 Truncation costs at most the probability not yet spent** (proved). C118_truncation splits the longer history and applies C99 from the truncated state, whose elements are open or at probability exactly one by C05. C118_execute_act reduces both loops to histories by C61_loop_is_history and shows that the shorter one is a prefix of the longer.
Result: Exact arithmetic; what rounding adds is C63 and C85. The element must not be halted at the start, otherwise its probability may jump to one without giving weight to an update (C99). C118_example runs the example layer with one and with two iterations and attains the bounds.

**C119 An element halted within a smaller maximum already has its final results** (proved). Both loops are histories by C61_loop_is_history, the shorter a prefix of the longer; the elements halted at its end are frozen by C03 as halting persists (C02, C54 with rounding).
Result: C73 has the case of a completely halted batch, for any layer. C119_example is a run in which one element is final after two iterations while the other changes until the fourth, as does the user state.

**C120 A batch that is halted or empty costs no iteration** (proved). From C20_result: the loop tests before the first iteration. C58_empty_batch gives the value of the test for empty batches.
Result: Results are compared after dictionaries were put in key order, which jax.lax.while_loop does to its carry. run_iteration is still traced once, so its exceptions are raised also for a batch that needs no iteration (C73_exceptions).

**C121 Results are stable up to epsilon** (proved). Graves.weight_distance bounds the total distance of two systems of weights: demands cut off at a total of one are 2-Lipschitz (Graves.spent_distance, by a potential argument), and rounding up at the threshold moves at most epsilon (Graves.weight_spent). C04 and C61 connect the weights to the code.
Result: Exact arithmetic; what rounding adds is C63 and C85. C69 gives the exact change while the number of steps stays the same. C121_jump is the discontinuity, C121_example a run with it.

**C122 The order of the rounds before the halting one is irrelevant** (proved). By C99 the results of an element that is not halted are sums over the rounds, and so is what decides halting; sums do not depend on the order. C99 from the common state gives the part that follows.
Result: Exact arithmetic; C122_rounded is a pair of orders that float32 rounding tells apart. C122_halting_round is the exchange that is not allowed. Both runs are assumed to raise no exception, and each round to have a halting probability for the element (and an update for the entry, for the claim on accumulators).

**C123 Halting earlier moves the weight to earlier updates** (proved). The probability spent after t rounds is a monotone function of the running sum (Graves.ahead), and summation by parts turns that into an order of the weighted sums (Graves.mean_le_of_ahead). C99 and C61 connect the weights to the code.
Result: Exact arithmetic. Higher halting probabilities, a larger depression constant and a larger epsilon are all cases of it; C48 and C97 have the number of iterations, C68 the ponder cost. The ponder cost part needs a cumulative probability of at least 0 at the start, which every fresh controller has.

**C124 Exactly which weightings of the updates can be learned** (proved). C99 gives the weights of a run; Graves.admissible_of_crossing checks the conditions. For the converse the halting probability of iteration t < n is w(t) divided by the depression constant and that of the last is 1 (Graves.weightFrom_halting).
Result: Exact arithmetic. The runs are those that raise no exception.

**C125 The mean iteration lies within the ponder cost** (proved). From C124: the weights are admissible, so those before the last are non-negative and sum to 1 - r. executed_rounds, from C61, carries it over to execute_act.
Result: Exact arithmetic. Both bounds are attained by elements with one or two iterations.

**C126 The weights tell everything about halting** (proved). By C99 the probes show the weights (probe_weight). Weights that sum to 1 - p mean that the element has crossed the threshold, smaller sums that it has not (Graves.crossed_of_weights), so the halting step is determined and with it everything else (Graves.determined).
Result: Exact arithmetic. C126_example has two runs that differ in the halting probability of the halting round and cannot be told apart.

## 4. Findings about the code

1. `new_builder` raises `TypeError` for every valid input: `ACTStates` is constructed without `error_mode` (C23).
2. `reset_batches` raises `AttributeError` when an accumulator is a container (C16).
3. `ACTViewer.transform` computes the updates from the defaults, so a masked view shows pending updates that were never cached (C33).
4. `ContractValidationWrapper.run_iteration` tests the *old* controller for uncommitted updates (`layers/core.py:305`). `execute_act` still fails with `TypeError` because the loop carry changes its type (C21).
5. The editor accepts `None` in a leaf position (C29). `are_pytree_structure_equal` has the same blind spot (C40).
6. `are_pytrees_equal` ignores structure beyond the leaf count and may raise (C41).
7. The first assertion of `broadcast_pytree_shape` is reachable, the second is not (C37). A source leaf facing an empty target is dropped silently (C36).
8. `execute_binary_operator` does not try the second direction when the first fails with `AssertionError` (C38).
9. `ACTStates.replace(depression_constant=..)` and `replace(error_mode=..)` raise `AttributeError` (C46).
10. A string `error_mode` makes `while_loop` raise `TypeError`, so `execute_act` never works with one (C50).
11. Accumulators of lower precision than the probabilities make `iterate_act` fail (C13).
12. With epsilon 0 nothing ever halts (C17). With the default epsilon the threshold rounds to 1 for float16 and bfloat16 probabilities, and nothing ever halts either (C18).
13. NaN passes the comparison based checks of the editor (C28) and of `new_builder` (C23).
14. Assigning `_is_immutable` unlocks an object, and deleting attributes is not protected (C44).
15. The dictionaries returned by properties are the internal ones, and builder and controller share them (C45).
16. Small halting probabilities can be lost to rounding for ever (C54).
17. A NaN halting probability un-halts a batch element that had already halted. The element stays NaN through resets, never halts again, and its accumulators grow with every further update (C60).
18. Viewer masks multiply, so masked entries that are infinite or NaN show as NaN (C60). `reset_batches` has the same flaw for its bookkeeping (C60).
19. Caching `None` succeeds and leaves the update slot empty (C58).
20. Inside `jit` and `while_loop` the threshold `1 - epsilon` is computed in float32 from a rounded `epsilon`; outside it is computed in double precision. For some `epsilon` the same calls halt outside and never halt inside (C64), so `execute_act` runs to `max_iterations` where the documented loop stops (C65).
21. The iteration counter has the core dtype (`builder.py:440`), so in floating point it stops at `2^precision`: 256 in bfloat16, 2048 in float16 (C66). C07's exact count holds below that.
22. Containers are shared: `build`, `make_viewer`, `load` and `edit_controller` keep the state object of the original, `accumulators`, `defaults` and `updates` hand out the internal dictionaries, `cache_update` and `define_accumulator_directly` keep the pytree they are given, and a definition is one object in two dictionaries. In-place modification of any of these changes other objects (C67, with the exact table).
23. Under `jit_and_checkify` a failed check of the editor does not stop the function; an exception of a later call then hides it (C74).
24. After `set_accumulator(name, None)` was accepted, `set_defaults` accepts any shape (C71).
25. `execute_act` keeps running the layer on elements that are already halted, so the user state it returns for them depends on the rest of the batch; the accumulators do not (C80).
26. The validators of `ACTStates` do not validate. `execute_validation` (`states.py:66`) names `ErrorModes`, which the module neither defines nor imports, so `validate_epsilon` and `validate_iterations` raise `NameError` for every value. `validate_residuals` (`states.py:111-125`) builds its checks, runs none and returns `None`. Nothing in the package calls them. They are modelled in `Model/State`; no property is claimed, because the model follows the code line by line and a theorem would only repeat it.
27. `execute_binary_operator` is not symmetric in which side has the gap: `tensor op None` gives `None`, `None op tensor` raises `RuntimeError` (C90).
28. Observation, not proved: JAX refuses reverse-mode differentiation through `lax.while_loop`, so `jax.grad` of a function that calls `execute_act` raises `ValueError`. `tests/frameworks/flax_test_features.py:60` (a script, not collected as a test) tries exactly this. Forward mode works (C77, C79, C89, C91), and so does reverse mode through a Python loop over the controller.
29. `_validate_children_descent` compares the static data of registered classes with `zip`: longer static data go unnoticed, static data that are not iterable (a number, say) raise `TypeError` even between equal nodes, and the check is neither symmetric nor transitive (C96).
30. Raising epsilon with the editor (or writing a probability between 1 - epsilon and 1) makes an element count as halted although its updates have total weight below one; the next `iterate_act` writes the probability one, so the loss is not visible afterwards (C99).
31. `docs/brainstorms and speculation/ACT with long sequence duration.rst` proposes to schedule the depression constant from 0 on. At 0 nothing is ever accumulated and `execute_act` always runs `max_iterations` iterations (C105).
32. A compiler that evaluates `depression_constant*halting_probabilities + probabilities` (155, 164) with a fused multiply-add compares another number with the threshold than line 183 stores. With a depression constant other than one an element can then be halted without its remainder and without a residual (C115). Whether XLA contracts here depends on the backend; comparing the stored sum would avoid the question.
33. Contraction of the weighted sum in `_update_accumulator` (232) cannot disturb the bookkeeping and is never worse in one iteration, but over several iterations the contracted accumulator can be further from the exact sum than the plain one (C116). So tests that compare accumulators between backends need a tolerance in both directions.

## 5. Trusted base

* Lean's kernel, and the Lean toolchain that runs it.
* The axioms `propext`, `Classical.choice` and `Quot.sound`; see the list at the end. No other axioms, no `sorry`, no `native_decide`, no `bv_decide`.
* The fidelity of `Model/*` to `/repo`. Each definition cites the lines it models, and simplifications are written beside it.
* The behaviour of Python, JAX and numpy written down in `Basic/*` and `Model/Text`: dtype promotion, broadcasting, `lax.select`, `lax.while_loop`, pytree flattening, `checkify`, `textwrap`.

### Modelled

`core/utils.py`, `core/states.py` (`ACTStates`), `core/controller.py`, `core/builder.py`,
`core/tensoreditor.py`, `core/viewer.py`, `core/immutable.py`, `layers/core.py`, `layers/act.py`, `frameworks/flax.py`.

### Not modelled

* `core/validation.py`: not valid Python at this commit and imported by nothing. `core/errors.py`, `layers/lazy_memory.py`: empty.
* `core/broadcast_editor.py` and `EditorConfig` (`states.py:16-30`): a stub with a constructor only.
* `FlaxACTLayer.setup` (only raises `NotImplementedError`), flax modules and parameters. A layer is a pure function.
* `warnings.warn`, printing, docstrings, type annotations. The text of error messages, except that `format_error_message` itself is modelled (C52).
* Tracing: eager semantics. `while_loop` runs the body on the initial values where JAX traces it; that the two agree is C53 for controller calls and a hypothesis for user functions (`Jittable`). Inside `while_loop` the model still treats `epsilon` and `depression_constant` as Python floats. With rounding this is a simplification: JAX makes float32 scalars of them. `Layer.TracedExecuteAct` (`Spec/Traced`) does not make it. C64 and C65 relate the two. Theorems for every `Arith`, and theorems for every choice of formats, also hold for the traced arithmetic (`tracedFmt` in `Spec/Traced`).
* `vmap` as a transformation (C100 is about one call per slice, C80 about the loop), sharding, devices, performance. Differentiation: forward mode over call sequences and through `execute_act` is modelled (C77, C78, C79, C82, C88, C89, C91; `Basic/Dual`), reverse mode is not (JAX does not support it through `lax.while_loop`).
* Rounding model (`Basic/Round`): no overflow, infinities or NaN; `Basic/Special` adds these, and C92 proves that the two agree as long as no accumulator leaves the range of its dtype. Flush-to-zero is `Basic/Flush` (C117). Signed zero is in none. Theorems for arbitrary `Arith` cover all of these.
* Contraction: every operation is rounded by itself. A compiler may fuse products and sums. `Model/Fused` covers the two places where a product meets a sum: the total that is compared with the threshold (C115) and the weighted sum of `_update_accumulator` (C116), each contracted by itself. Other reassociations a compiler may do are not covered.
* Weakly typed arrays (`jnp.full`, `jnp.array` of Python numbers without a dtype): modelled as the default dtype; promotion could differ only against a float16 or bfloat16 operand.
* Other dtypes than bool, int32, bfloat16, float16, float32, float64; integer overflow (for the layers' loop counter see C75).
* Static data of registered classes inside accumulators, except in C96; namedtuples and registered classes without static data are modelled (`Kind.user`), with the usual JAX convention that unflattening after flattening gives the same object and accepts any children. Dict keys that are not strings.
* In the heap model: identity of containers nested inside one accumulator value.

### Axioms of every property theorem

Printed by `#print axioms` (collected for all theorems of `MANIFEST.json` at once).

* Classical.choice, Quot.sound, propext: C01_probabilities_in_unit_interval, C02_halted_stays_halted, C02_reset_clears, C03_halted_elements_frozen, C03_frozen_until_reset, C04_graves_weights, C04_probability_and_halting, C05_halted_probability_is_one, C05_weights_sum_to_one, C06_residual_is_remainder, C07_iterations_count_active, C08_iterate_clip_of_idempotent, C08_iterate_clip, C08_values_never_raise, C09_iterate_independent, C09_reset_independent, C09_batch_independence, C10_cache_success, C11_cache_order, C11_round_order, C12_missing_update_raises, C12_success_empties, C12_success_needs_ready, C13_iterate_succeeds_iff, C13_iterate_errors, C13_low_precision_accumulator_never_iterates, C14_types_invariant, C15_reset_accumulators, C15_pending_raises, C15_reset_bookkeeping, C15_reset_idempotent, C16_containers_raise, C16_reset_succeeds_iff_partial, C16_not_for_all, C17_halting_reached_sharp, C17_halting_reached, C17_epsilon_zero_never_halts, C18_threshold_one_never_halts, C18_threshold_one_iff, C18_reachable_partial, C18_reachable_iff, C18_false_float16, C18_false_bfloat16, C18_false_float32, C18_false, C18_float32_partial, C19_remainder_exact, C19_probabilities_in_unit_interval, C19_halted_probability_is_one, C19_crossing_gives_one, C20_result, C20_key_order, C20_unique, C20_terminates, C20_exceptions, C21_reported, C21_violation_raises, C22_not_a_controller, C22_no_accumulators, C22_used_unchanged, C22_returned_unchanged, C23_epsilon_exact, C23_fresh_with_error_mode, C24_define_ok_iff, C24_define_lookup, C24_define_error_iff, C25_valid_shapes, C25_corrupt_shapes, C25_unique, C26_aligned, C26_reachable_wf, C27_delete_defined, C27_define_delete, C27_delete_define, C28_set_probabilities, C28_set_residuals, C28_set_iterations, C28_wf_preserved, C28_exact_probability, C29_acceptance, C29_set_accumulator_partial, C29_set_defaults_partial, C29_set_updates_partial, C29_still_iterates_partial, C29_update_fits_partial, C29_none_accepted, C30_unknown_name, C30_no_name_added, C30_silence_adds, C31_success_iff, C31_mask_entries, C31_exact, C32_partition, C32_every_entry, C33_transform_partial, C33_success_iff, C33_error_is_runtime, C33_updates_from_defaults, C33_updates_lost, C34_state, C34_objects, C34_rebuild, C34_wrong_number, C34_state_unflatten, C34_flatten_iff, C35_same_flattening, C35_utils, C35_iterate, C35_cache_update, C35_reset, C35_reset_wf, C35_history, C35_editor_checks, C36_replicates, C36_compatible_succeeds, C36_success_iff, C36_error_iff, C36_raises_otherwise_partial, C36_leaf_dropped, C37_second_assertion, C37_first_assertion_partial, C37_assertion_iff, C37_first_assertion_reachable, C38_result, C38_error, C38_incompatible, C38_success_partial, C38_success_forward, C38_second_attempt_skipped, C39_merge_pairs, C39_merge_assertion_iff, C39_merge_propagates, C39_merge_first_error, C40_equivalence, C40_ignores_leaves, C40_iff_structure_partial, C40_characterisation, C40_of_structure, C40_none_confused, C41_characterisation, C41_same_structure_partial, C41_structure_ignored, C41_raises, C42_iff_broadcast, C42_iff_operation, C42_iff_dimensions, C43_appends_unit_axes, C43_pairs_left, C44_constructors, C44_frozen_partial, C44_other_attributes, C44_flag_assignable, C44_unlocked, C44_deletion_unprotected, C45_objects_unmodified, C45_observations_stay, C45_exposed_dictionaries_stay, C45_saved_states_stay, C45_cache_update, C45_iterate_act, C45_reset_batches, C45_define, C45_define_by_shape, C45_delete_definition, C45_build, C45_make_viewer, C45_transform, C45_masks, C45_edit_controller, C45_set_tensors, C45_set_entries, C45_calls, C46_constructor, C48_monotone, C48_zero_depression, C49_convex_bounds, C49_weighted_mean, C50_accepted_iff_partial, C50_string_error_mode, C50_round_preserves, C50_layer_jittable, C50_execute_act_succeeds, C51_result_unchanged, C51_outcome_unchanged, C52_dedent, C52_context_on_top, C52_message_indented, C52_every_line_indented, C53_values_do_not_matter, C53_tracing, C54_halted_stays_halted, C54_halting_reached, C54_lost_steps_never_halt, C55_halting_ignores_data, C56_batching_transparent, C56_position_irrelevant, C57_reset_fresh, C57_reset_starts_over, C58_pending_flags, C58_halting_flags, C58_flags_persist, C59_linear, C59_monotone, C60_nan_halting_poisons, C60_nan_forever, C60_nan_accumulates, C60_infinite_halting_clamped, C60_mask_leaks, C61_loop_is_history, C61_execute_act_is_graves, C62_session_aligned, C62_session_ranges, C63_rounded_weighted_sum, C64_traced_equals_eager_partial, C64_threshold_gap, C64_decisions, C64_false, C64_default_scalars, C64_depression_float32, C65_execute_act_traced_partial, C65_false, C66_counter_saturates, C66_exact_count_fails, C67_separation_partial, C67_sharing_partial, C67_same_state_partial, C67_new_containers_partial, C67_false, C68_counter_and_residual, C68_bounds, C68_monotone, C69_response, C69_response_running, C69_stable, C69_derivative, C70_restriction, C70_product, C70_value, C71_last_edit_counts, C71_accepted_independently_partial, C71_any_order_partial, C71_order_matters, C72_transform_transform, C72_mask_mask, C72_parts, C73_exceptions, C73_enough, C73_none, C73_one_more, C74_returns, C74_exceptions, C74_failed_check, C74_last_check, C74_other_exception, C74_jit_roundtrip, C74_same_object, C75_metadata, C75_metadata_unflatten, C75_metadata_roundtrip, C75_carry_roundtrip, C75_carry_rebuild, C75_types, C75_no_overflow, C76_results, C76_exceptions, C76_documented, C76_jit, C76_reset_order, C77_values, C77_jvp, C77_example, C77_corner, C77_jump, C78_bookkeeping, C78_gradients, C79_values, C79_jvp, C79_call_layers, C79_example, C80_rest_of_batch_irrelevant, C80_rest_of_batch_irrelevant_rounded, C80_state_depends_on_batch, C81_remainder, C81_residual_under_rounding, C81_residual_positive, C81_tiny_epsilon_loses_residual, C82_gradients_of_execute_act, C83_epsilon_bounds_error, C84_depression_is_scaling, C84_not_beyond_one, C85_halting_step, C85_results, C85_margin_needed, C86_execute_act_rounded, C86_execute_act_traced, C87_editor_trees, C87_builder, C88_no_leak, C88_execute_act_no_leak, C88_no_gradient_after_halting, C88_rest_of_batch_irrelevant, C89_counter, C89_residual, C89_entry, C89_training_signal, C90_identity, C90_composition, C90_composition_iff, C90_target, C90_natural, C90_swap, C90_swap_fails, C91_calls, C91_execute_act, C91_call_layers, C91_example, C91_loop_example, C92_no_overflow, C92_bookkeeping, C92_bounded, C92_execute_act, C92_bounded_example, C92_overflow_example, C92_loop_example, C93_leaf, C93_grouping, C93_grouping_example, C93_grouping_converse_fails, C93_grouping_reset_fails, C93_leaf_example, C94_reachable_iff, C94_manual_reset, C94_manual_reset_example, C94_manual_reset_example_ranges, C95_stream, C95_output, C95_every_turn, C95_example, C96_accepts_iff, C96_docstring_partial, C96_longer_static_data_unnoticed, C96_not_symmetric_nor_transitive, C97_iterations_between, C97_constant, C97_execute_act, C98_nested, C98_multiplicative, C99_continue, C99_accumulators, C99_halted, C99_fresh, C99_raised_epsilon_loses_mass, C100_vmap, C100_stack, C100_vmap_resets_containers, C101_resume, C101_resume_iff, C102_checks_change_nothing, C102_what_checks_add, C102_raises_iff, C103_largest_counter, C103_largest_counter_rounded, C104_same_key_iff, C104_compiled_once, C104_pending_names, C104_finitely_many, C105_silent, C105_execute_act, C105_silent_rounded, C105_execute_act_rounded, C106_readout, C106_example, C107_halting, C107_execute_act, C107_updates, C107_example_updates, C107_example_halting, C107_example_execute_act, C108_write_only, C108_example, C109_pause, C109_pause_rounded, C109_example, C110_mirror, C110_rounded, C110_special, C110_example, C111_same_loop, C111_readout, C111_example, C112_split, C112_example, C112_example_values, C113_convex, C113_distribution, C113_jensen, C113_example, C113_example_distribution, C114_ones, C114_ones_rounded, C114_example, C115_exact_products, C115_depression_one, C115_inexact_products_fail, C116_same_bookkeeping, C116_halted_untouched, C116_at_least_as_close, C116_unit_updates, C116_not_over_histories, C117_probabilities_in_unit_interval, C117_halted_probability_is_one, C117_same_bookkeeping, C117_accumulator_entry, C117_subnormal_demands_are_lost, C117_smallest_normal_numbers, C118_truncation, C118_unspent_probability, C118_normalised, C118_execute_act, C118_example, C119_final, C119_final_rounded, C119_example, C119_example_rounded, C120_halted_from_the_start, C120_empty_batch, C120_otherwise_runs, C120_empty_no_entries, C120_example_halted, C120_example_empty, C121_stability, C121_halting_probabilities, C121_jump, C121_execute_act, C121_example, C121_example_execute_act, C122_before_halting, C122_then, C122_example, C122_halting_round, C122_rounded, C123_ahead, C123_execute_act, C123_example, C123_example_execute_act, C124_only_admissible, C124_every_admissible, C124_execute_act, C124_example, C124_example_execute_act, C125_mean_iteration, C125_execute_act, C125_example, C126_determined, C126_example.
* Quot.sound, propext: C10_cache_errors, C23_value_error_iff_partial, C27_delete_error_iff, C28_silence, C58_empty_batch, C87_editor_fields, C96_error_iff, C96_atom_fails, C110_exact.
* none: C46_replace_partial, C46_missing_validators, C46_success_iff, C47_controller, C47_viewer, C87_properties.
* propext: C21_off, C21_check_misses_new_controller, C21_check_blames_old_controller, C23_never_succeeds, C28_set_epsilon, C34_objects_distinct, C43_error_iff, C43_no_shape, C45_build_shares_dictionary, C47_editor, C47_shared_properties, C47_conversions, C52_splitlines_flatten, C87_layer_builder, C96_errors, C96_builtin.
