# A formal model of green_tsetlin in Lean 4

This directory holds a shallow, executable Lean 4 model of ooki/green_tsetlin (Python front end in
`/repo/green_tsetlin`, C++ core in `/repo/src`) and theorems about it. The properties are listed in
`properties.jsonl`; `MANIFEST.json` maps each to the theorems that settle it; `seeded/LOG.jsonl`
records the wrong programs the theorems were tried against.

## Layout

| directory | contents |
|---|---|
| `lean/Verif/Model/*.lean`  | the model, function by function, each definition citing the file and lines it models |
| `lean/Verif/Spec/*.lean`   | small specifications, independent of the model's helpers, in which the properties are phrased |
| `lean/Verif/Lemmas/*.lean` | helper lemmas |
| `lean/Verif/Props/*.lean`  | one theorem (or a few) per property, with non-vacuity `example`s beside each |

## Modelling conventions

* Loops become folds or structural recursion; in-place mutation becomes a function returning the new value.
* Python exceptions and C++ throws are values (`Except`-like results), with the guard that raises them modelled.
* `int8_t` counters and `int16_t` weights are `Int`s with an explicit wrap (`wrap8`, `wrap16`) or saturation
  (`sat8`) at each arithmetic operation that the code performs on them; nothing is assumed about overflow.
* `double`s that are only compared or go through + - * / are exact rationals (`Rat`), except in `Model/Double` (C83) and
  `Model/Random`, where results are rounded as in the code. Every property that depends on the value of a double says so.
* A random generator is an arbitrary infinite stream of draws plus a position; quantifying over all streams
  covers every seed and every generator. The statistical quality of generators is not modelled.
* Thread schedules are arbitrary interleavings of small atomic steps, with the code's own locks.
* numpy/scipy/sklearn primitives are modelled by their documented effect on lists.

## Plan per property

| id | model | proof |
|---|---|---|
| C01 | `set_num_clause_blocks` over `Int`/list argument with its exceptions | arithmetic on `/` and `%`, list sums |
| C02 | `set_literal_budget`, `construct_clause_blocks` (itertools.cycle + zip) | index-wise list induction; the list-budget part is false of the code: negation + partial |
| C03 | constructor with its guards | case analysis, iff |
| C04 | scalar T1a/T1b/T2, clause update, train update, initialisation, with wrap8 | invariant by induction over histories |
| C05, C06 | scalar eval/set clause output loops with early exit | loop induction to a conjunction spec |
| C07 | AVX2 lane-chunk loops over padded rows with remainder mask | chunk induction; refinement to the scalar outputs |
| C08–C10 | feedback functions, scalar and AVX2 | pointwise on rows; iteration lemma for the 128-step bound |
| C11, C12 | `TrainUpdate`, `ClauseUpdate` | case analysis + histories |
| C13, C14 | `CountVotes`, `register_votes` with wrap16 | list sums modulo 2^16, permutations |
| C15 | small-step interleaving of blocks with the feedback lock | invariant/commutation: every schedule ends in the sequential result |
| C16–C18 | executor loops | folds over permutations, frame lemmas |
| C19–C21 | feedback block | rational arithmetic, argmax spec |
| C22–C24 | ruleset compile, Inference.predict, executor eval | vote-sum equality, composed end to end |
| C25, C26 | C writers: generated program as an AST with a small evaluator | program semantics equals rule semantics; tree by induction with arbitrary choice function |
| C27 | `calculate_importance` | sum spec |
| C28, C29 | flat-memory get/set with offsets and padding; CSR | index arithmetic, round trips |
| C30–C33 | trainer loop as a fold over epochs | induction; counterexamples for the false parts |
| C34, C35 | validation chain; context manager with a body that may raise | case analysis; counterexample for the exception path |
| C36–C38 | sparse clause operations | list invariants; counterexamples where the code violates them |
| C39 | im2col index arithmetic | pointwise; counterexample for non-square images |
| C40 | input blocks | buffer equality for every prior buffer |
| C41 | conv clause outputs | existential over patches; counterexample for the budget count |
| C42 | NEON lanes | as C07; counterexample for the active mask carried across clauses |
| C43 | multi-label votes | counterexample: OFF votes are never registered; partial for ON |
| C44 | thread pool as a transition system | invariant over all reachable states |
| C45 | selection tables, global registry | finite tables; counterexample for the interference |
| C46 | predictor front end | case analysis over call histories |
| C47 | pure-Python state | counterexample at state 0 and for two blocks; partial otherwise |
| C48 | dataset generator | pointwise |
| C49 | set_s | rational arithmetic (floor) |
| C50 | npz save/load with validation | round trip, error branches |
| C51 | hpsearch objective | case analysis |
| C52 | sparse ruleset compile | vote equality under the stated gap (state 0) + counterexample |
| C53–C55 | `Trainer.__init__` (n_jobs), configuration calls, the start of `_train_inner` with pybind's integer conversions | case analysis; counterexamples |
| C56 | the pool's destructor in the transition system of C44 | a reachable stuck state; termination outside the window |
| C57, C58 | multi-label feedback block, executor, predictor | case analysis over draws; counterexamples |
| C59–C61 | sparse feedback, pruning, literal insertion | list induction; counterexamples |
| C62 | sparse state transfer with pybind conversions | round trip; counterexamples |
| C63–C65 | `has_avx2`, constructor of the convolutional machine, patches | decision tables; counterexamples |
| C66–C68 | the three generators on `BitVec 64` | GF(2)-linear algebra, full period by a unit, orbits; negations |
| C69 | trainer, machine state, ruleset, predictor and exported program composed, for dense (portable, AVX2, NEON) and sparse machines | the earlier theorems joined; negations for 16-bit votes and for sparse clauses whose rule differs and for empty clauses on NEON |
| C70 | numpy arrays as base, dtype, shape, strides over a byte memory | address arithmetic; negations for strided signed and short arrays |
| C71 | the characters the two writers print; a definition of the C subset (`Spec/CLang`): lexer, preprocessor, parser, evaluator | the text parses to the program and the program computes the votes; negations for overflow and the empty rule |
| C72 | heap of live allocations, pointers of each block object, calls in any order | invariant over call sequences; counting live arrays; negation (leak) |
| C73 | the portable backend once more, statement by statement on flat arrays with checked accesses and `int` overflow | refinement: commutes with the clause-by-clause model through `flatten`; negations for size and label |
| C74 | the AVX2 backend once more on its byte arrays: 32-byte accesses must be inside and aligned, `int` must not overflow | refinement: commutes with the row-by-row model through `flattenAvx`; independence of the contents of fresh memory; negations for no literals and a strict allocator |
| C75 | every backend's `initialize` with the contents of fresh memory as a parameter | two runs with different fresh memory are related by equality up to the scratch counters, preserved by every step (for AVX2 through C07's padding theorem) |
| C76 | `SetClauseOutputConvAVX2`, `EvalClauseOutputConvAVX2` and `TrainUpdateConvAVX2` with every load of literals made from the example buffer at the address the code computes | the checked functions equal the unchecked ones of C41 by induction over chunks, patches and clauses when all loads succeed; a load at `num_literals` fails otherwise |
| C77 | the three input blocks on arrays of definite length (`set_data`, `prepare_example`, the label pointer), `m_index_set`, the loops of `train_slice` and `eval_predict`, and the trainer's calls (Model/Session.lean) | one argument for all input blocks: set_data establishes and prepare_example keeps that the block holds the data set; induction over the loops and over the history |
| C78 | the Python dense and CSR input blocks and the loops of the two Python executors (Model/PySession.lean) | the Python calls equal the calls of the C77 session for whole slices; then the C77 argument with the Python blocks |
| C79 | the executor's loop as the program of the owning thread, the pool of C44 and the tasks of C15 in one transition system (Model/PoolExec.lean) | the pool part of a run is a run of C44's system, the example phase a run of C15's; one invariant ties task positions to both; progress and a measure from both; races defined on what each next step touches |
| C80 | numpy arrays with type, strides and buffer, pybind11's conversion, the four copy loops with checked accesses and `int` arithmetic (Model/StateArrays.lean) | each checked loop refines the loop of Model/Layout.lean when the memory suffices, and a defined loop implies that it does; then the C28 lemmas |
| C81 | `Inference` with its example buffer, every array access and `int32_t` addition checked, and the predictor calls on top (Model/InferFlat.lean) | each checked loop equals the loop of Model/Inference.lean under bounds; the active rules are a sublist of all rules, which bounds every sum; induction over the call history |
| C82 | the sparse block on its separate vectors of literals, states, active literals, replace indices, counts, outputs, votes and weights, every access and row number checked (Model/SparseFlat.lean) | each checked loop equals the function of Model/Sparse.lean on the pairs, by induction over the row; then over clauses and over the call history |
| C83 | a rounding function on rationals (53 bits, nearest, ties to even, any exponent), the probability computations, the sampler, the engine and the counters with it after every operation (Model/Double.lean) | rounding shown to give a nearest double, to be monotone and to have a relative error of at most 2^-53; strictness from the gap of 1/(2T) between neighbouring quotients; the sampler's sums bounded by n rounding errors, the engine's draws by 1 - 2^-32 |
| C84 | `train` statement by statement on the attributes, with an exception after any number of statements (Model/Interrupt.lean) | the statements without an exception equal Model/Trainer.lean; induction over epochs and folds for where an exception strikes; induction over attempts |
| C85 | the portable convolutional block statement by statement on flat arrays with checked accesses and `int` overflow (Model/ConvScalarFlat.lean) | refinement: commutes with Model/Conv.lean through `flattenConv`; invariant that a clause that is on has a patch of the example; negations for size, label and missing outputs |
| C86 | `TsetlinStateSparse` and `ClauseBlockSparse` statement by statement (Model/PySparse.lean), exceptions as values | invariant by induction over histories; an update is related to a separate description of the rules (`Fed`, Spec/PySparse.lean); negations on a reachable block |
| C87 | state objects on a heap, machines, trainers and variables with references, training statement by statement with exceptions (Model/Sharing.lean) | simulation: every statement and call on references commutes with the same on values (Spec/Sharing.lean); existing objects are a prefix of the heap |
| C88 | blocks with flags, the executor with its list of recorded blocks, programs of set_trainable, training, evaluation and construction (Model/Trainable.lean) | invariant over programs; position-wise description of the update loop; simulation by the flagless executor; the thread model with the flags as task conditions |
| C89 | `optimize` over a study with directions and trials, a storage by name, Optuna's create_study, ask, tell and best_trials by their documentation (Model/Study.lean) | induction over the trials; equivalence of the computed front with the order-theoretic one; a least sum of normalised values for existence |
| C90 | the initialisers of all backends (Model/Dense, Conv, Avx2, Neon, Sparse) over generators as arbitrary streams | index of the draw behind every value by induction over literals and clauses; streams built backwards from wanted tables |
| C91 | constructor of the sparse machine, `_set_extra_params_on_cb`, the C++ setters and the loop over blocks (Model/SparseParams) | least square root by `Nat.sqrt`; any rounding of it to a double has the same ceiling; induction over the blocks; limits over histories from C36 and C38 |
| C92 | the NEON backend once more on its byte arrays: 16-byte accesses must be inside, rows must start at multiples of 32 as promised to the compiler, `int` must not overflow, sizes pass through a conversion to `int` (Model/NeonFlat) | refinement: commutes with the row-by-row model through `flattenNeon`; independence of the contents of fresh memory; negations for no literals, no budget and too many weights |
| C93 | the training loops of the executor over each backend, unchanged; `Settled`, `NoTinyDraw` and `trainEpochs` in Spec/Settled | invariant by induction over examples and epochs: what the blocks have learned stays the same, hence so do the votes, hence the update probabilities stay 0 and 1e-16; negation through a zero draw of the wyhash generator |
| C94 | `Predictor.predict` on arrays given by shape, steps and memory: contiguity, `np.copyto` with casting and broadcasting rules, pybind11's conversion, the flat read of `predict_npy` (Model/PredictNd) | induction over the dimensions: a contiguous array's elements lie one behind the other; invariant over call histories; negations for batches, fractions and columns |
| C95 | writing as steps (open empties the file, then one character or one archive piece after the other) that may stop anywhere (Model/Crash); reading: `Spec/CLang.compile`, the directory at the end of a zip archive | no proper beginning of a C file of the subset is another C file (brace depth); an archive without its directory is refused |
| C96 | the preprocessor of `Spec/CLang` with include guards, on concatenated exports | the second text is skipped as its guard is defined; negations for two machines |
| C97 | `trainStep` of all blocks; the specification reads a clause as the set of examples that satisfy it (Spec/Matching) | included literals that agree with the example stay, silent feedback adds none; potential argument for the bound of 254; negation for sparse |
| C98 | `get_predictor` on the arrays of a machine's state (Model/Moved), joined with the executors, state files, rule sets, predictors and exported C texts of the other modules | composition: every part computes the lowest-numbered class with the most votes of one clause list |
| C99 | The convolutional and the dense blocks under one executor model (Model/Conv, Model/ConvExec, Model/Dense, Model/Avx2) | simulation between the two machines; the training step is shown to read its stream one number after the other and no others, so that the dense stream can be built backwards from the end of the history |
| C100 | The dense blocks and the executor of Model/Dense and Model/Executor, run on recoded examples; the AVX2 and NEON blocks | simulation of one literal loop by the other, where the second reads the same random numbers in another order (a relation between computations that composes), then backwards induction over the calls to build the second machine's streams. AVX2 and NEON: a Type I update always takes the same number of vectors, so the second byte stream is the first with the bytes permuted within windows of that length |
| C101 | The executor with every kind of block, run on renumbered labels | commutation of each block operation with the renumbering of weight and vote rows; an interval exchange on the numbers that choose the negative class; backwards induction over the calls to build the second machine's numbers |
| C102 | The whole training run on rearranged rows | two executors that answer every call alike (evaluation leaves other scratch data behind); simulation of the epoch loop; the shuffles correspond through the place of each row |
| C103 | Votes before and after one feature is turned round, and the two explanations | the matching rules that do not use the feature are the same for both examples; the others are what the explanation adds up |
| C104 | Two machines with the clauses of each block in another order, on histories of calls | each clause's step reads its own word of random numbers and nothing else, so the words can be moved with the clauses; the second machine is built backwards from the end of the history |
| C105 | Two machines that agree in settings, learned state and generators, through sequences of epochs and predictions; a saved state put into a new machine | a simulation: outputs and votes are overwritten before they are read, counters of literals likewise when there is a budget, the padding is masked; the feedback block is determined by its votes, settings and generator |
| C106 | Sequences of epochs and predictions on all six kinds of blocks; the initialisers of the weights | a relation between a block and what it becomes, indexed by the number of examples, closed under composition; one step is the pair of weight steps of one clause; the overflow by induction over a concrete run |

Later properties have their plan in the comments of their `Props` file.

## Which part of the code is modelled where

| code | model | left out |
|---|---|---|
| `tsetlin_machine.py` | `Config`, `Files`, `Layout`, `Backend`, `Setup` | docstrings |
| `sparse_tsetlin_machine.py` | `SparseState`, `SparseParams`, `Backend` | |
| `trainer.py` | `Trainer`, `Data`, `Setup`, `Backend`, `Interrupt` (statement by statement) | timing, progress bar, callback |
| `ruleset.py` | `Ruleset`, `SparseState` | |
| `predictor.py`, `inference.hpp` | `Inference`, `InferFlat` (flat arrays), `PredictArray`, `PredictNd` (arrays of any shape) | feature explanations cannot be reached (shown in C27) |
| `writers/simple_c.py`, `writers/topographical_c.py` | `Writers`: the emitted text as tokens with a small C semantics; `CText`: the characters of the file; `Crash`: writing them one by one | compiler |
| `hpsearch.py` | `HpSearch`, `Study` | progress bar, `__main__` block; Optuna by its documentation |
| `dataset_generator.py` | `Dataset` (`xor_dataset`) | `imdb_dataset` (downloads, scikit-learn) |
| `backend.py`, `has_avx2`, registrations of `main.cpp` | `Backend`, `Setup` | |
| `py_gtc/*` | `PyGtc`, `PySession`, `PySparse` | what an exception leaves of the sparse state; its multi-label block |
| `func_tm.hpp`, `aligned_tsetlin_state.hpp`, `clause_block.hpp` | `Dense`, `Layout`, `Memory` (allocation and release), `Flat` (flat arrays) | allocation failure |
| `func_avx2.hpp` | `Simd`, `Avx2`, `AvxFlat` (byte arrays, alignment) | |
| `func_neon.hpp` | `Simd`, `Neon`, `NeonTrainer`, `NeonFlat` (byte arrays, alignment) | |
| `func_conv_tm.hpp`, `func_conv_avx2.hpp` | `Conv`, `ConvExec`, `ConvScalarFlat` (flat arrays, portable), `ConvFlat` (loads of the AVX2 blocks) | |
| `func_sparse.hpp`, `sparse_tsetlin_state.hpp` | `Sparse`, `SparseExec`, `SparseState`, `SparseFlat` (separate vectors) | the `test_*` helpers |
| `feedback_block.hpp` | `Feedback`, `Multi` | |
| `executor.hpp` | `Executor`, `Threads`, `Multi`, `PoolExec` (on the thread pool), `Session` | printing |
| `BS_thread_pool.hpp` | `Pool` (`push_task`, `wait_for_tasks`, `worker`, destructor) | `pause`, `submit`, `push_loop`, `reset`, `timer`, `synced_stream`: unused by the project |
| `input_block.hpp` | `Input` | |
| `random_generator.hpp` | `Random`, `Double` | `FAKE_NEON_PRNG`, the standard library's engines |
| `setup.py`, `tests`, `examples`, `performance_tests`, `generator_tests`, `docs` | not modelled | not part of the library's behaviour |

## Trusted base

* Lean 4.33.0's kernel. Every theorem depends on a subset of `propext`, `Classical.choice` and `Quot.sound`; `AXIOMS.md`
  (made by `tools/axioms.py`) lists the subset for each theorem of `MANIFEST.json`. No axiom is added, nothing is left open,
  and no proof uses compiled evaluation.
* The reading of `/repo` recorded in the comments of `lean/Verif/Model`: each definition cites the lines it models and states its
  simplifications. The model was not run against the code, which cannot be built here.
* External code is used through its documentation: numpy, scipy, scikit-learn's `StratifiedKFold` (`Spec/Trainer`), Optuna
  (`Spec/HpSearch`), pybind11's conversions, the C++ standard library (`std::discrete_distribution` as a function of one draw: the
  theorems hold for any such function meeting the stated contract, and libstdc++'s algorithm is shown to meet it), x86 and ARM vector
  instructions lane by lane (`Model/Simd`), the C subset of the exported programs (`Model/Writers`).
* Doubles are exact rationals except in `Random`, where the one conversion that rounds is modelled bit by bit, and in `Double`, where
  every operation on probabilities, `s`, counters and accuracy is rounded to 53 bits (nearest, ties to even; the exponent is unbounded and
  shown to stay in the normal range). That the compiler evaluates in plain doubles (no x87, no
  -ffast-math) is trusted; with `-mfma` it may fuse a product and a sum, which occurs in the library's `generate_canonical` only, and both
  variants are covered.
* Memory is total: an access the code makes outside its arrays is either excluded by a hypothesis or given an explicit outcome
  (`undefined`, `crash`, `none`), as each comment says. Integer types wider than 16 bits are unbounded unless a comment says otherwise;
  the pool's task counter is an integer.
* Threads interleave at the granularity of the steps in `Threads` and `Pool` under sequential consistency: every shared access in the
  code is atomic or made under a lock.

## Where the code disagrees with a property

Each item is a theorem in `lean/Verif/Props`; the property then has the status `partial`, with the part that holds proved beside it.

| property | what the code does | theorems |
|---|---|---|
| C02 | A list of literal budgets is ignored (only its first element counts) or raises; trainable flags can never be set | C02_budget_list_is_ignored, C02_budget_list_type_error, C02_flags_never_settable |
| C03 | The budget given to the constructor is not validated; an empty list of s is accepted | C03_budget_not_checked, C03_empty_s_accepted |
| C09, C10 | AVX2 boosts negated literals too; AVX2 and NEON states reach -128 | C09_avx2_boosts_negated_literals, C10_avx2_floor_is_lower |
| C12 | Class weights wrap at 16 bits | the witness beside C12 |
| C14 | On NEON an empty clause after a firing one in the same block votes, so moving it to its own block changes predictions | C14_neon_split_matters; the rest C14_neon_block_split_invariance_partial |
| C22, C24, C25 | Merged rule weights, 32-bit predictor votes and 16-bit program votes differ outside 16 bits | C25_disagree_on_overflow and neighbours |
| C26 | A second export with one tree writer loses rules | C26_second_export_loses_rules |
| C27, C46 | Feature explanations cannot be constructed; explain('all') with names and explain() before predict() raise | C27_features_unavailable, C46_explain_all_with_names_raises |
| C28 | The shape of a loaded state is not checked | C28_shape_not_checked |
| C30–C32 | Scores of -1 or less: wrong best epoch, no state, or a stale state | C30_low_scores_not_reported, C31_low_scores_no_state, C32_old_state_returns |
| C33 | Folds share one machine, so later folds have seen their evaluation data | C33_folds_leak |
| C34 | Rejections are not always ValueError; values are not checked | C34_other_errors, C34_values_not_checked |
| C35 | No clean-up when the body raises | C35_no_cleanup_on_exception |
| C36–C38 | Sparse clauses: the bound is per half; missing literals not noticed; one-sided clauses never fire; excluded-only clauses fire; lists take literals of other classes | C36_total_can_exceed_clause_size, C37_*, C38_literals_of_other_classes |
| C39, C41, C64, C65 | Convolution: non-square images misread; stale literal counts; options misplaced; patches never set, so no clause fires | C39_not_square, C41_count_is_stale, C41_budget_not_enforced, C64_multi_label_lost, C65_no_clause_ever_fires |
| C40 | Strides ignored, stored zeros read as ones, 64-bit indices misread, refused data partly taken | C40_strides_ignored, C40_stored_zero_is_one, C40_wide_indices_misread, C40_refused_* |
| C42 | NEON: training without a budget crashes; an empty clause after a firing one fires | C42_train_without_budget_crashes, C42_empty_clause_fires |
| C43, C57, C58 | Multi-label: OFF votes are lost, OFF probability constant, one label diverges, evaluation exits the process, predictor gives one output | C43_off_votes_lost, C57_off_probability_constant, C57_one_label_diverges, C58_* |
| C45 | A second sparse machine is not recognised; portable convolution and the pure-Python fallback construct nothing | C45_two_sparse_machines_fail, C45_conv_class_partial, C45_pure_python_constructs_nothing |
| C47 | Python fallback: states of 0 left out in evaluation, only the last block's votes count, 8-bit weights, low votes scored as class 0, threads do not train, labels mis-subscripted | C47_* |
| C50 | Wrong dtypes raise TypeError; sparse state files of equal-sized blocks are unusable | C50_wrong_dtype_is_type_error, C50_sparse_equal_blocks_file_unusable |
| C51 | Hyper-parameter search: last instead of best score, int s fails, step 0.1, AttributeError, label gaps | C51_* |
| C52 | Rules of sparse states leave out states of 0, and differ for one-sided and excluded-only clauses | C52_*_disagrees |
| C53–C55 | Too negative n_jobs; rejected configuration kept; default seed 0 raises or crashes | C53_too_negative_is_not_rejected, C54_rejected_calls_are_kept, C55_default_seed_fails |
| C56 | The pool's destructor can hang | C56_destructor_can_hang |
| C60, C61 | Pruning skips neighbours; thresholds outside -133..-6 make new literals included | C60_literal_below_threshold_kept, C61_threshold_near_zero, C61_very_low_threshold |
| C62 | Sparse states with uneven lists or another split cannot be put back | C62_uneven_active_literals_fail, C62_more_blocks_fail |
| C63 | AVX2 is detected by the vendor string | C63_vendor_string_decides, C63_wrong_both_ways |
| C66–C68 | A draw can be exactly 1; the AVX2 generator ignores half its seed, has period 51166430 and stuck states; NEON bytes repeat | C66_one_is_drawn, C67_avx2_*, C68_neon_bytes_repeat |
| C69 | A score reached with 16-bit overflow of votes is not reproduced by the predictor; nor is the score of a sparse machine with a one-sided clause, nor one reached on NEON with an empty clause | the witnesses beside C69 |
| C70 | Strided arrays of another dtype raise TypeError; a short contiguous example is read beyond its end | C70_* witnesses |
| C71 | The exported programs count votes in 16 bits; an empty rule would not be C | C71_overflow_disagrees, C71_empty_rule_is_not_c |
| C72 | No clean-up releases the clause outputs; save_state after a run without a stored state reads released memory | C72_cleanup_leaks, C72_use_after_cleanup |
| C73 | Index arithmetic is in `int`: machines with 2^31 or more literal states are undefined; labels that are not classes reach outside the weights or into the next clause's | C73_large_machine_undefined, C73_label_out_of_range, C73_label_hits_next_clause |
| C74 | A machine without literals, which the constructors accept, reads 32 bytes before its arrays; `aligned_alloc` is called with sizes that are not multiples of the alignment | C74_no_literals, C74_strict_allocator |
| C75 | A convolutional block with at least two patches reads `literal_counts_per_patch` at a position that may never have been written; as such a block always has a budget (65535 by default) training depends on the fresh memory | C75_conv_depends_on_garbage; the rest C75_conv_partial, C75_conv_large_budget_partial |
| C76 | With two or more patches of a size that is not a multiple of 32 the second patch is loaded by an aligned load from an unaligned address: every training step faults, and every evaluation in which some clause does not hold in the first patch | C76_training_faults, C76_evaluation_faults; the other shapes C76_aligned_patches_partial |
| C77 | Offsets are `int`: a dense data set with `(n-1)*n_literals >= 2^31` overflows in every epoch. `train_slice` does not check its bounds and reuses an order drawn for other data. A refused data set leaves the old examples with the new count. Training without labels reads an unset or stale pointer. CSR column numbers are not checked against the buffer | C77_large_data_faults, C77_slice_past_end_faults, C77_stale_order_faults, C77_refused_data_faults, C77_no_labels_faults, C77_stale_label, C77_csr_column_outside_faults, C77_csr_column_in_padding; everything else C77_dense_partial, C77_csr_partial, C77_csr_dense_partial |
| C78 | The Python dense block subscripts examples and labels with `index * labels per example` and keeps empty labels; `train_slice` uses a local order and `range(end)`; `MultiThreadExecutor.train_slice` is commented out and its `eval_predict` takes no argument | C78_multi_label_raises, C78_no_labels_raise, C78_later_slice_raises, C78_threads_raise; the rest C78_dense_partial, C78_csr_dense_partial, C78_trainer_same_partial |
| C80 | `load_state` checks nothing and `load_from_file` only row counts and types; the `array_t` parameters have neither a shape check nor `c_style`, so strides and sizes are ignored and another element type is converted into a temporary array | C80_fortran_order_garbled, C80_other_machine_garbled, C80_smaller_file_reads_outside, C80_other_type_not_collected; the rest C80_restore_partial, C80_collect_in_place_partial |
| C81 | `predict` does not look at the size of the array and `calculate_importance` does not check the class, so a short example, an unknown class and a surplus target name read outside the arrays; `SparseState.copy` loses the number of literals; `set_features` compares with the number of features instead of rules | C81_predict_defined_iff, C81_explain_defined_iff, C81_surplus_name_outside, C81_copied_state_outside, C81_too_few_feature_lists_outside, C81_rules_replaced_outside; the rest C81_inside_partial |
| C82 | `UpdateAL` writes `at(0)` of an empty list if `active_literals_size` is 0 and the list is dynamic (only `SparseTsetlinMachine` refuses 0); `set_clause_state_sparse` accepts any number of rows; `CleanupSparseTM` does not clear `active_literals`; classes are not checked | C82_no_room_for_active_literals_throws, C82_fewer_rows_outside, C82_stale_active_literals, C82_update_defined_iff; the rest C82_history_partial, C82_from_initialize_partial, C82_second_run_partial |
| C84 | `train` has no handler: after an exception the blocks remain and `save_state` takes their state as the machine's; `_tm._state` and `results` are assigned apart; cross-validation overwrites the trainer's data and the machine's state fold by fold | C84_state_without_results, C84_save_keeps_unfinished, C84_save_undefined, C84_folds_not_undone, C84_labels_mixed; the rest C84_retry, C84_folds_examples_partial |
| C85 | Index arithmetic of the convolutional block is in `int`: an example whose last patch starts at element 2^31 or later is undefined, and `initialize` does not refuse it; labels that are not classes reach outside the weights | C85_long_example_undefined, C85_label_out_of_range; the rest C85_history_partial, C85_from_initialize_partial |
| C86 | Pure-Python sparse block: `set_clause_output` looks for the other half of a clause at `k + n_classes`, `eval_clause_output` loops over `n_classes` clauses only, literal counts are never updated | C86_train_output_wrong, C86_eval_output_wrong, C86_budget_ignored, C86_more_classes_than_clauses_fail; the rest C86_train_output_partial, C86_eval_output_partial |
| C88 | `set_trainable(True)` on a block that was untrainable when the executor was made has no effect: the executor only trains the blocks it recorded then (src/executor.hpp:82-83, 140) | `C88_enabled_block_does_not_learn`, `C88_late_enabling_ignored` |
| C89 | `optimize` opens an existing study with `load_if_exists=True` and does not compare its directions with the ones it needs (green_tsetlin/hpsearch.py:272-276): all trials fail without an exception, or `best_trials[0]` raises IndexError | `C89_conflict_is_silent`, `C89_conflict_index_error`, `C89_direction_conflict` |
| C92 | The NEON backend without a literal budget writes through a null pointer when it trains; without literals it reads 16 bytes before its arrays; with 2^30 weights or more it allocates 32 bytes for them | C92_defined_iff, C92_no_literals, C92_weights_overflow |
| C93 | The update probability of the negative class is 1e-16 when its votes are at `-threshold`, so a machine certain of all its data still changes when 0 is drawn, which every seed does some time | C93_zero_is_drawn, C93_still_learns |
| C94 | `predict_npy` fetches the shape and ignores it: a matrix of examples is answered with the prediction for its first row; fractions are cut off | C94_batch_first_row, C94_fraction_is_zero, C94_column_refused |
| C96 | Every exported program has the same include guard and function name per exporter: the second machine's program is silently left out of a C file that includes two | C96_second_machine_is_left_out, C96_both_exporters_refused |
| C97 | A sparse clause that fires on an example without one of its literals is rejected there and loses examples it matched | C97_sparse_rejected_without_matching |
| C98 | Beyond 16 bits, and on NEON with empty clauses, the places disagree | C24_disagree_on_overflow, C14_neon_split_matters |
| C100 | With boosting of true positives a feature and its opposite are trained differently (portable and NEON backends: only positive literals are boosted) | C100_boost_breaks_complement, C100_neon_boost_breaks_complement |
| C101 | Examples for which several classes have the most votes are predicted as the lowest class number, so which class that is depends on the numbering | C101_ties_depend_on_numbers |
| C104 | In sparse blocks the clauses share the active literals, in convolutional blocks with a budget the literal counts per patch, and in NEON evaluation the mask of active literals, so a clause depends on those before it | C104_sparse_order_matters, C104_conv_budget_order_matters, C104_neon_order_matters |
| C105 | A saved state does not hold the generators, nor the index of the active literal that a sparse block replaces next; a convolutional block with several patches reads counts left from before: training on in a new machine is not the same as not having stopped | `C105_uninterrupted_differs`, `C105_sparse_index_matters`, `C105_conv_scratch_matters` |
| C106 | Weights are 16-bit and steps are not limited: a machine shown label 0 only, with a threshold above the weights, predicts class 1 after 32767 examples | `C106_overflow` |
