{"id": "C01", "title": "Clause blocks partition the clauses", "statement": "After a successful set_num_clause_blocks the block sizes are all at least 1 and sum to exactly n_clauses: with an int b every block but the first has n_clauses//b clauses and the first takes the remainder; with a list the sizes are the list. The call raises (ValueError; ZeroDivisionError for b = 0; IndexError for b < 0) exactly when no such split exists.", "quantifier": "every n_clauses, every integer b, every list of block sizes", "why_tests_cant": "the sum/positivity law ranges over all n_clauses and all block counts; a test fixes a few pairs", "anchors": [["green_tsetlin/tsetlin_machine.py", "TsetlinMachine.set_num_clause_blocks"]]}
{"id": "C02", "title": "Specificity and literal budgets are dealt to blocks cyclically", "statement": "After construct_clause_blocks, block k is configured with s[k mod len(s)], with the literal budget budgets[k mod len(budgets)] where budgets is what the user passed to set_literal_budget (an int means the one-element list), and with the trainable flag of block k; one block is built per block size, in order.", "quantifier": "every number of blocks, every list of s values, every list of budgets, every flag list", "why_tests_cant": "cycling over coprime list lengths and arbitrary block counts is an unbounded family", "anchors": [["green_tsetlin/tsetlin_machine.py", "TsetlinMachine.construct_clause_blocks"], ["green_tsetlin/tsetlin_machine.py", "TsetlinMachine.set_literal_budget"]]}
{"id": "C03", "title": "A TsetlinMachine is constructed only with legal hyper-parameters", "statement": "TsetlinMachine(...) succeeds iff every s is >= 1.0, threshold >= 1 and the literal budget is None or >= 1; the constructed object reports n_classes doubled iff multi_label, and the given parameters.", "quantifier": "all values of s (scalar or list), threshold, literal_budget, n_clauses, multi_label", "why_tests_cant": "acceptance must be an equivalence over the whole parameter space, tests check two rejected points", "anchors": [["green_tsetlin/tsetlin_machine.py", "TsetlinMachine.__init__"], ["green_tsetlin/tsetlin_machine.py", "TsetlinMachine.set_literal_budget"]]}
{"id": "C04", "title": "Literal states never leave [-127,127] in the portable backend", "statement": "In the portable dense backend, whatever examples are trained on, in whatever order, with whatever random draws and update probabilities, every stored literal state stays in [-127,127] (so the 8-bit counter never wraps) as long as it starts there, which every fresh initialisation does.", "quantifier": "every machine shape, every initial state, every finite sequence of training steps, every random stream", "why_tests_cant": "wrap-around needs a long lucky history; a test run visits one history", "anchors": [["src/func_tm.hpp", "Type1aFeedbackTM"], ["src/func_tm.hpp", "Type1bFeedbackTM"], ["src/func_tm.hpp", "Type2FeedbackTM"], ["src/func_tm.hpp", "InitializeTM"], ["src/func_tm.hpp", "TrainUpdateTM"]]}
{"id": "C05", "title": "Evaluation output of a clause is its conjunction; an empty clause is silent", "statement": "During eval_predict a dense clause outputs 1 iff it includes at least one literal, every included positive literal is 1 in the example and every included negated literal is 0 in the example; a literal is included iff its state is >= 0.", "quantifier": "all clause states, all examples, all literal counts", "why_tests_cant": "2^(2n) include masks times 2^n inputs", "anchors": [["src/func_tm.hpp", "EvalClauseOutputTM"]]}
{"id": "C06", "title": "Training output of a clause is its conjunction; an empty clause fires", "statement": "During training a dense clause outputs 1 iff every included literal is satisfied by the example (so the empty clause outputs 1), and whenever the output is 1 the recorded literal count equals the number of included literals of the clause.", "quantifier": "all clause states, all examples, all literal counts, with and without a literal budget", "why_tests_cant": "exponential in the number of literals", "anchors": [["src/func_tm.hpp", "SetClauseOutputTM"]]}
{"id": "C07", "title": "The AVX2 backend computes the same clause outputs as the portable backend", "statement": "For 0/1 examples the vectorised dense backend gives, for every clause, exactly the training output, the literal count (whenever the output is 1) and the evaluation output that the portable backend gives, for every number of literals (multiple of the vector width or not) and independently of the contents of the padding lanes.", "quantifier": "all numbers of literals, all clause states, all padding contents of clause rows and example buffer, all 0/1 examples", "why_tests_cant": "padding effects depend on n mod 32 and on uninitialised/stale memory", "anchors": [["src/func_avx2.hpp", "SetClauseOutputAVX2"], ["src/func_avx2.hpp", "EvalClauseOutputAVX2"], ["src/func_avx2.hpp", "InitializeAVX2"]]}
{"id": "C08", "title": "Type II feedback only strengthens a clause", "statement": "Feedback that makes a wrongly firing clause more selective never decreases a literal state, never changes an included literal, never raises a state above 0, raises exactly the excluded literals that the example contradicts, and if repeated at least 128 times on the same example makes the clause reject that example whenever the clause has at least one literal the example contradicts (always true when there is at least one literal).", "quantifier": "all clause rows with states in [-127,127], all examples, any number of repetitions", "why_tests_cant": "quantifies over all rows, examples and repetition counts", "anchors": [["src/func_tm.hpp", "Type2FeedbackTM"], ["src/func_avx2.hpp", "Type2FeedbackAVX2"]]}
{"id": "C09", "title": "Type I feedback moves literals only towards agreement with the example", "statement": "Reinforcing feedback on a firing clause moves each literal state by at most one step: literals true in the example never go down, literals false in the example never go up; with boost_true_positives every positive literal that is true in the example and below the cap goes up by exactly one, whatever the random draws.", "quantifier": "all rows, examples, random draws, s values, boost settings", "why_tests_cant": "the guarantee is for every random draw", "anchors": [["src/func_tm.hpp", "Type1aFeedbackTM"], ["src/func_avx2.hpp", "Type1aFeedbackAVX2"]]}
{"id": "C10", "title": "Forgetting feedback only lowers literal states", "statement": "Feedback to a non-firing clause never raises any literal state, lowers it by at most one and never below the floor.", "quantifier": "all rows, all random draws", "why_tests_cant": "the guarantee is for every random draw", "anchors": [["src/func_tm.hpp", "Type1bFeedbackTM"], ["src/func_avx2.hpp", "Type1bFeedbackAVX2"]]}
{"id": "C100", "title": "The order of the features, and which value is called 1, do not matter", "statement": "Writing the columns of all examples in another order changes nothing about how a machine trains and predicts, except that its clauses name the columns by their new positions. Nor does writing some features as their opposites, where a clause then uses the negated literal.", "quantifier": "every number of features, every order of columns, every choice of features written as opposites, every machine and every history of training and prediction calls", "why_tests_cant": "A test fixes one data set in one order and one seed; with another order the same seed gives other numbers to each literal, so runs cannot be compared. The statement is about all orders and all number streams", "anchors": [["src/func_tm.hpp", "Type1aFeedback"], ["src/func_tm.hpp", "Type1bFeedback"], ["src/func_tm.hpp", "Type2Feedback"], ["src/func_tm.hpp", "SetClauseOutputTM"], ["src/func_tm.hpp", "EvalClauseOutputTM"], ["src/func_tm.hpp", "InitializeTM"]]}
{"id": "C101", "title": "The numbering of the classes does not matter", "statement": "Giving the classes other numbers in all labels changes nothing about how a machine trains and votes, except that weights, votes and active literals stand under the new numbers; predictions are the same classes.", "quantifier": "every number of classes, every renumbering, every backend (portable, AVX2, NEON, convolutional, sparse), every machine and every history of training and prediction calls", "why_tests_cant": "A test fixes one numbering and one seed; under another numbering the same seed draws other negative classes, so runs cannot be compared. The statement is about all numberings, all histories and all number streams", "anchors": [["src/feedback_block.hpp", "FeedbackBlock::process"], ["src/feedback_block.hpp", "FeedbackBlock::register_votes"], ["src/feedback_block.hpp", "FeedbackBlock::predict"], ["src/func_tm.hpp", "TrainUpdateTM"], ["src/func_tm.hpp", "InitializeTM"], ["src/func_sparse.hpp", "UpdateAL"], ["src/func_conv_tm.hpp", "TrainUpdateConvTM"], ["src/func_avx2.hpp", "TrainUpdateAVX2"], ["src/func_neon.hpp", "TrainUpdateNeon"]]}
{"id": "C102", "title": "The order of the rows does not matter", "statement": "Training on the same examples listed in another order, and evaluating on the same examples listed in another order, gives the same results and the same final state when the epochs visit the examples in the same order; the shuffles of one listing correspond one to one to the shuffles of the other. Predictions for rows listed in another order are the predictions in that order.", "quantifier": "every training and evaluation set, every order of their rows, every shuffle of every epoch, every score that looks at labels and predictions in pairs, every trainer and machine state, every backend", "why_tests_cant": "A test compares two listings under one seed, where the same seed gives another visiting order and other results. That nothing but the visiting order enters, and that no visiting order is lost or gained, is a statement about all orders of all data sets", "anchors": [["green_tsetlin/trainer.py", "Trainer._train_inner"], ["src/executor.hpp", "Executor::train_slice"], ["src/executor.hpp", "Executor::eval_predict"], ["src/input_block.hpp", "DenseInputBlock::prepare_example"]]}
{"id": "C103", "title": "An explanation tells how the votes react to a change of the example", "statement": "After predict(x), the literal explanation is the exact effect of turning one feature round: the votes for a class lose the importance of the literal that was true and gain the importance, after the change, of the literal that is now true. Only literals true in x ever have importance. With negative clauses excluded, keeping every literal of nonzero importance for a class true keeps every rule that speaks for the class. A feature no rule mentions never changes votes or class.", "quantifier": "every rule set, every example and feature, every class, every history of predict and explain calls before and between", "why_tests_cant": "A test looks at a few rule sets and examples; that the reported numbers are the exact difference, for every rule set with positive and negative weights and for every history of calls, is a statement about all of them", "anchors": [["green_tsetlin/predictor.py", "Predictor.explain"], ["green_tsetlin/predictor.py", "Predictor.predict"], ["src/inference.hpp", "Inference::calculate_importance"], ["src/inference.hpp", "Inference::predict"]]}
{"id": "C104", "title": "The numbering of the clauses inside a block does not matter", "statement": "Listing the clauses of every block in another order changes nothing but the order: for some reordering of the same random numbers, every prediction, the votes, the feedback and each clause's states, weights and outputs are the same after every number of training and prediction calls, and the reordered machine is as likely a start as the first.", "quantifier": "every machine, every number of blocks and clauses, every order of the clauses of each block, every history of training and prediction calls, every pair of random streams", "why_tests_cant": "A test fixes a seed, and with a fixed seed the reordered machine trains differently; that some reordering of the numbers always gives the same training concerns all streams and histories", "anchors": [["src/func_tm.hpp", "TrainUpdateTM"], ["src/func_avx2.hpp", "TrainUpdateAVX2"], ["src/func_conv_tm.hpp", "SetClauseOutputConvTM"], ["src/func_sparse.hpp", "TrainUpdateSparseTM"], ["src/func_neon.hpp", "EvalClauseOutputNeon"], ["src/clause_block.hpp", "ClauseBlockT"]]}
{"id": "C105", "title": "Training goes on from what was saved", "statement": "What a machine does next depends on its settings, its learned states and weights and its generators, and on nothing else it holds: a machine into which the saved state of another has been put gives, through every further sequence of epochs and predictions, the accuracies and predictions that the saved machine would give with the new machine's generators, and learns the same.", "quantifier": "every pair of machines that agree in settings, learned state and generators, whatever their outputs, votes, counters, last feedback and padding; every sequence of training epochs (any data, any order) and predictions", "why_tests_cant": "A test resumes a few machines on one data set; that no left-over of earlier use can ever show concerns all contents of the scratch memory and all further histories", "anchors": [["green_tsetlin/trainer.py", "Trainer._train_inner"], ["green_tsetlin/tsetlin_machine.py", "TsetlinMachine._save_state_in_backend"], ["src/executor.hpp", "train_epoch"], ["src/executor.hpp", "eval_predict"], ["src/feedback_block.hpp", "FeedbackBlock"], ["src/aligned_tsetlin_state.hpp", "AlignedTsetlinState"]]}
{"id": "C106", "title": "Training moves a machine by at most one step per example", "statement": "Training on N examples, in any epochs and orders and with predictions in between, moves no clause weight by more than N and no literal state by more than 2N, and adds or loses none. So a fresh machine cannot overflow its 16-bit weights in its first 32766 examples, and while the number of clauses times (largest weight + N) is at most 32767 it predicts by the true sums of the votes. A machine trained without limit on one class keeps predicting that class. A machine whose literal states are all more than 2N away from changing sides, and whose votes for an example are clear by more than 2N per clause, still predicts the same class for it afterwards.", "quantifier": "every machine and backend, every sequence of training epochs (any data, labels, order) and predictions, every random sequence", "why_tests_cant": "A test trains for a few epochs; that no weight can run away or wrap concerns all histories of that length and all random numbers, and the overflow shows only after tens of thousands of examples", "anchors": [["src/func_tm.hpp", "ClauseUpdateTM"], ["src/func_avx2.hpp", "ClauseUpdateAVX2"], ["src/func_neon.hpp", "ClauseUpdateNeon"], ["src/func_sparse.hpp", "ClauseUpdateSparseTM"], ["src/func_conv_tm.hpp", "TrainUpdateConvTM"], ["src/executor.hpp", "train_epoch"]]}
{"id": "C11", "title": "A clause above its literal budget is only ever forgotten", "statement": "With a literal budget, a clause whose included-literal count exceeds the budget in the current training step keeps all its class weights and none of its literal states rises in that step; over any history, included literals of a clause above its budget can only be dropped until it is within budget again.", "quantifier": "all budgets, clause states, examples, random draws, histories", "why_tests_cant": "needs every history of feedback", "anchors": [["src/func_tm.hpp", "TrainUpdateTM"], ["src/func_tm.hpp", "SetClauseOutputTM"], ["src/func_avx2.hpp", "TrainUpdateAVX2"]]}
{"id": "C12", "title": "A training step moves class weights by at most one, in the right direction, and only for the two sampled classes", "statement": "One training step changes the weight of a clause only for the positive and the negative class, by at most one each; a clause that does not fire keeps all its weights; the positive-class weight never decreases and the negative-class weight never increases. Holds exactly while the weight is strictly inside the 16-bit range.", "quantifier": "all weights, all clause outputs, all random draws, all class pairs", "why_tests_cant": "all 16-bit weights and random outcomes", "anchors": [["src/func_tm.hpp", "ClauseUpdateTM"], ["src/func_avx2.hpp", "ClauseUpdateAVX2"]]}
{"id": "C13", "title": "Class votes are the weight sums of the firing clauses", "statement": "The vote of a class reported for an example equals the sum over firing clauses of that clause's weight for the class (modulo 2^16, exactly when the partial sums fit in 16 bits).", "quantifier": "all clause outputs and weight matrices of all shapes", "why_tests_cant": "unbounded shapes; overflow only at large sums", "anchors": [["src/func_tm.hpp", "CountVotesTM"], ["src/func_avx2.hpp", "CountVotesAVX2"], ["src/feedback_block.hpp", "FeedbackBlock.register_votes"]]}
{"id": "C14", "title": "Splitting clauses into blocks does not change a prediction", "statement": "For a fixed learned state, the predicted class of every example is the same for every way of splitting the clauses into blocks and every order in which blocks deliver their votes.", "quantifier": "all states, examples, partitions and orders", "why_tests_cant": "factorially many orders and exponentially many partitions", "anchors": [["src/executor.hpp", "Executor.eval_predict"], ["src/feedback_block.hpp", "FeedbackBlock.register_votes"], ["green_tsetlin/tsetlin_machine.py", "TsetlinMachine._save_state_in_backend"]]}
{"id": "C15", "title": "Multi-threaded training and prediction equal the single-threaded run", "statement": "For every thread schedule, training an example with a thread pool ends in the same clause states, weights, votes and feedback as running the blocks one after another, and eval_predict returns the same classes; hence the number of worker threads does not change results for a fixed split into blocks and fixed seeds.", "quantifier": "every number of blocks and threads, every interleaving of their steps, every example sequence", "why_tests_cant": "schedules are not controllable by tests", "anchors": [["src/executor.hpp", "Executor.train_slice"], ["src/executor.hpp", "Executor.eval_predict"], ["src/feedback_block.hpp", "FeedbackBlock.register_votes"]]}
{"id": "C16", "title": "An epoch trains on every example exactly once and reports correct/total", "statement": "train_epoch visits each of the n examples exactly once, whatever the shuffle, and returns (number of examples whose pre-update vote argmax equals the label) / n, and 0.0 when there are no examples.", "quantifier": "all n, all shuffles, all labels and votes", "why_tests_cant": "every permutation", "anchors": [["src/executor.hpp", "Executor.train_epoch"], ["src/executor.hpp", "Executor.train_slice"], ["src/feedback_block.hpp", "FeedbackBlock.get_train_accuracy"]]}
{"id": "C17", "title": "Each prediction depends only on the model and that example", "statement": "eval_predict's answer for an example does not depend on the other examples in the batch, on their order, or on whatever was trained or predicted before with the same blocks, as long as the literal states and weights are the same.", "quantifier": "all batches, all prior buffer contents and vote tallies", "why_tests_cant": "history independence quantifies over all histories", "anchors": [["src/executor.hpp", "Executor.eval_predict"], ["src/feedback_block.hpp", "FeedbackBlock.reset"]]}
{"id": "C18", "title": "Evaluation never modifies the learned model", "statement": "eval_predict leaves every literal state and every class weight of every block unchanged.", "quantifier": "all batches, states and schedules", "why_tests_cant": "frame condition over all histories", "anchors": [["src/executor.hpp", "Executor.eval_predict"], ["src/func_tm.hpp", "EvalClauseOutputTM"]]}
{"id": "C19", "title": "Update probabilities are probabilities and push votes towards the margin", "statement": "After processing an example, the positive update probability is (T - clamp(v,-T,T))/(2T), lies in [0,1], is non-increasing in the votes of the true class, is 0 at votes >= T and 1 at votes <= -T; the negative one is (T + clamp(v,-T,T))/(2T) (+1e-16) for the sampled class, non-decreasing in its votes.", "quantifier": "all vote vectors, all thresholds >= 1, all labels, all random draws", "why_tests_cant": "all real vote/threshold combinations", "anchors": [["src/feedback_block.hpp", "FeedbackBlock.process"], ["src/feedback_block.hpp", "FeedbackBlockUniform.process"], ["src/feedback_block.hpp", "FeedbackBlockMultiLabel.process"]]}
{"id": "C20", "title": "The sampled negative class is a valid class different from the true class", "statement": "With at least two classes and a valid label, the negative class chosen for an example is in range and differs from the label, for the focused and the uniform feedback; every other class has positive probability of being chosen.", "quantifier": "all vote vectors, labels, random streams, numbers of classes", "why_tests_cant": "must hold for every random draw", "anchors": [["src/feedback_block.hpp", "FeedbackBlock.process"], ["src/feedback_block.hpp", "FeedbackBlockUniform.process"]]}
{"id": "C21", "title": "A prediction is the lowest-numbered class with the most votes", "statement": "The executor's and the predictor's predicted class is a valid class index whose votes are maximal, and every lower-numbered class has strictly fewer votes.", "quantifier": "all vote vectors of every length >= 1", "why_tests_cant": "all vote vectors", "anchors": [["src/feedback_block.hpp", "FeedbackBlock.predict"], ["src/inference.hpp", "Inference.predict"]]}
{"id": "C22", "title": "A compiled rule set votes exactly like the dense state", "statement": "For every dense state and example, the sum of weights of the matching rules of get_ruleset() equals the sum of weights of the firing clauses of the state (exactly when merged rule weights stay within 16 bits); merging identical clauses and dropping all-zero ones is invisible.", "quantifier": "all states, all examples, all shapes", "why_tests_cant": "all include patterns times all inputs", "anchors": [["green_tsetlin/ruleset.py", "RuleSet.compile_from_dense_state"]]}
{"id": "C23", "title": "Compiled rules are distinct, non-empty and well-formed", "statement": "Every rule of a compiled rule set is a non-empty strictly increasing list of literal indices below 2*n_literals, no two rules are equal, and there is one weight row of length n_classes per rule.", "quantifier": "all dense states", "why_tests_cant": "all states", "anchors": [["green_tsetlin/ruleset.py", "RuleSet.compile_from_dense_state"]]}
{"id": "C24", "title": "The predictor agrees with the trained machine", "statement": "For every learned dense state and every 0/1 example, get_predictor().predict(x) returns the class that eval_predict returns for x on the same state, whenever no vote leaves the 16-bit range.", "quantifier": "all states, examples, shapes and block partitions", "why_tests_cant": "all states and inputs", "anchors": [["green_tsetlin/tsetlin_machine.py", "TsetlinMachine.get_predictor"], ["green_tsetlin/predictor.py", "Predictor.predict"], ["src/inference.hpp", "Inference.predict"], ["src/executor.hpp", "Executor.eval_predict"]]}
{"id": "C25", "title": "The exported plain C program predicts like the predictor", "statement": "For every rule set with non-empty rules and every 0/1 input, the C function written by export_as_program with exporter \"simple_c\" compiles, computes the rule set's votes and returns the class Predictor.predict returns, whenever votes stay in 16 bits.", "quantifier": "all rule sets and inputs", "why_tests_cant": "all rule sets and inputs", "anchors": [["green_tsetlin/writers/simple_c.py", "SimpleC.to_file"], ["green_tsetlin/predictor.py", "Predictor.export_as_program"]]}
{"id": "C26", "title": "The exported decision-tree C program predicts like the predictor", "statement": "For every rule set of distinct non-empty rules, every tie-breaking order and every input, the nested-if C program written by export_as_program with exporter \"topological_c\" computes the same votes and class as the flat program; generation always terminates.", "quantifier": "all rule sets, all tie-breaking choices, all inputs", "why_tests_cant": "depends on hash-iteration order of sets, which tests cannot control", "anchors": [["green_tsetlin/writers/topographical_c.py", "ToporaphicalC"]]}
{"id": "C27", "title": "Literal explanations account for exactly the matching rules", "statement": "After predict(x), the importance of a literal for class y is the sum of the weights for y of the matching rules that contain the literal (only positive weights when negative clauses are excluded), so it is independent of earlier calls and zero for literals in no matching rule.", "quantifier": "all rule sets, inputs, classes, prior explanation calls", "why_tests_cant": "all rule sets, inputs and call histories", "anchors": [["src/inference.hpp", "Inference.calculate_importance"], ["green_tsetlin/predictor.py", "Predictor.explain"]]}
{"id": "C28", "title": "Dense state survives transfer to and from the blocks", "statement": "Writing a dense state into the blocks and reading it back gives the same clauses and weights, for every split into blocks and every vector padding, and writing one block touches no row of another.", "quantifier": "all shapes, all padding widths, all block partitions, all states", "why_tests_cant": "index arithmetic over all shapes", "anchors": [["green_tsetlin/tsetlin_machine.py", "TsetlinMachine._save_state_in_backend"], ["green_tsetlin/tsetlin_machine.py", "TsetlinMachine._load_state_from_backend"], ["src/aligned_tsetlin_state.hpp", "AlignedTsetlinState.get_clause_state"], ["src/aligned_tsetlin_state.hpp", "AlignedTsetlinState.set_clause_state"]]}
{"id": "C29", "title": "Sparse state survives transfer to and from a block", "statement": "Setting a sparse block's clauses from CSR arrays and reading them back gives the same data, indices and indptr, and reading then setting restores the same clauses.", "quantifier": "all CSR matrices with int8 data, all block sizes", "why_tests_cant": "all sparse patterns including empty rows", "anchors": [["src/clause_block.hpp", "ClauseBlockSparseT.get_clause_state_sparse_npy"], ["src/clause_block.hpp", "ClauseBlockSparseT.set_clause_state_sparse_npy"]]}
{"id": "C30", "title": "Training results report the first best epoch and the true logs", "statement": "After train(): best_eval_score is the maximum of eval_log, best_eval_epoch the first epoch attaining it, train_log and eval_log have one entry per epoch run, did_early_exit holds iff some eval score reached early_exit_acc, and then training stopped at the first such epoch, otherwise n_epochs epochs ran.", "quantifier": "all score sequences, epoch counts and early-exit thresholds", "why_tests_cant": "all score sequences", "anchors": [["green_tsetlin/trainer.py", "Trainer._train_inner"]]}
{"id": "C31", "title": "After training the machine holds the state of the reported best epoch", "statement": "With load_best_state the machine's state after train() is the state it had right after epoch best_eval_epoch; without it, the state after the last epoch.", "quantifier": "all score sequences, all state histories", "why_tests_cant": "all training histories", "anchors": [["green_tsetlin/trainer.py", "Trainer._train_inner"]]}
{"id": "C32", "title": "Calling train() again never resurrects an older state", "statement": "The state a machine holds after a train() call that ran at least one epoch is one produced in that call, even on a Trainer that trained before.", "quantifier": "all sequences of train calls and score histories (any metric)", "why_tests_cant": "depends on scores over several runs", "anchors": [["green_tsetlin/trainer.py", "Trainer._train_inner"]]}
{"id": "C33", "title": "Cross-validation folds are disjoint, covering and independent", "statement": "With k_folds > 1 every sample is evaluated in exactly one fold and trained on in all others, and each fold's scores do not depend on the other folds.", "quantifier": "all data sets, fold counts, histories", "why_tests_cant": "independence is a non-interference property over all data", "anchors": [["green_tsetlin/trainer.py", "Trainer.train"]]}
{"id": "C34", "title": "Rejected data never replaces accepted data", "statement": "set_train_data / set_eval_data accept exactly the arrays with matching lengths, uint8 examples, uint32 labels and n_literals columns (and consistent dense/sparse types), and a rejected call leaves the trainer's data as it was.", "quantifier": "all arrays, all prior trainer states", "why_tests_cant": "all combinations of violations and prior states", "anchors": [["green_tsetlin/trainer.py", "Trainer.set_train_data"], ["green_tsetlin/trainer.py", "Trainer.set_eval_data"]]}
{"id": "C35", "title": "Blocks get distinct seeds and are released after training", "statement": "Within allocate_clause_blocks block i is initialised exactly once with seed+i, and when the with-block is left, normally or by an exception, every block has been cleaned up exactly once.", "quantifier": "all seeds, numbers of blocks, and every point at which the body may fail", "why_tests_cant": "every crash point", "anchors": [["green_tsetlin/tsetlin_machine.py", "allocate_clause_blocks"]]}
{"id": "C36", "title": "Sparse clauses stay sorted, duplicate-free and within clause_size", "statement": "In the sparse backend, after every training step on sorted duplicate-free examples, each clause's literal list is strictly increasing (positive and negated part separately) and holds at most clause_size literals in total, and states correspond to their literals.", "quantifier": "all histories, all sparse examples, all configurations", "why_tests_cant": "structural invariant over all histories", "anchors": [["src/func_sparse.hpp", "Type2FeedbackSparse"], ["src/func_sparse.hpp", "sort_clauses_and_states"], ["src/func_sparse.hpp", "prune_clause"]]}
{"id": "C37", "title": "Sparse clause outputs equal dense clause outputs", "statement": "For every sparse clause with sorted literals and every sparse example, the sparse backend's training and evaluation outputs equal those of the dense clause with the same included literals.", "quantifier": "all sparse clauses, all examples", "why_tests_cant": "merge-scan corner cases over all list pairs", "anchors": [["src/func_sparse.hpp", "SetClauseOutputSparse"], ["src/func_sparse.hpp", "EvalClauseOutputSparse"]]}
{"id": "C38", "title": "The active-literal list is a bounded duplicate-free set of seen literals", "statement": "For every class, the active-literal list never exceeds active_literals_size, never contains duplicates, and only contains literals that occurred in some training example of that class.", "quantifier": "all histories of examples", "why_tests_cant": "all histories", "anchors": [["src/func_sparse.hpp", "UpdateAL"]]}
{"id": "C39", "title": "Convolution patches cover the image at every window position", "statement": "The patch extractor lays out, for every window position, an injective thermometer code of the position followed by exactly the window's pixels; every pixel of the image appears in at least one patch when the window fits.", "quantifier": "all image and window sizes", "why_tests_cant": "all sizes and positions", "anchors": [["src/input_block.hpp", "tsetlin_im2col"], ["src/input_block.hpp", "cumlative_encode"]]}
{"id": "C40", "title": "Input blocks present exactly the chosen example", "statement": "After prepare_example(i) the literals seen by the clause blocks are exactly row i of the data set last given to set_data, for dense input, for CSR input densified and for CSR input, whatever was prepared before.", "quantifier": "all data sets, all index sequences", "why_tests_cant": "stale-bit bugs depend on the sequence of examples", "anchors": [["src/input_block.hpp", "DenseInputBlock"], ["src/input_block.hpp", "SparseInputDenseOutputBlock"], ["src/input_block.hpp", "SparseInputBlock"]]}
{"id": "C41", "title": "Convolutional evaluation is an existential over patches", "statement": "A convolutional clause outputs 1 at evaluation iff it is non-empty and some patch satisfies all its literals; at training iff some patch satisfies them, and the patch used for feedback is one of those; its literal count is that of the clause.", "quantifier": "all clauses, patch counts, examples, random draws", "why_tests_cant": "exponentially many patches/literals", "anchors": [["src/func_conv_tm.hpp", "SetClauseOutputConvTM"], ["src/func_conv_tm.hpp", "EvalClauseOutputConvTM"]]}
{"id": "C42", "title": "The NEON backend computes the same clause outputs as the portable backend", "statement": "For 0/1 examples the NEON dense backend gives the same training and evaluation output as the portable one for every clause, whatever clauses precede it in the block.", "quantifier": "all numbers of literals, clause lists and examples", "why_tests_cant": "cross-clause leakage needs particular neighbours", "anchors": [["src/func_neon.hpp", "SetClauseOutputNeon"], ["src/func_neon.hpp", "EvalClauseOutputNeon"]]}
{"id": "C43", "title": "Multi-label votes reach both the ON and the OFF side of every label", "statement": "In multi-label mode the vote tally of every one of the 2*n_labels outputs equals the sum of the blocks' votes for it.", "quantifier": "all vote vectors and block counts", "why_tests_cant": "all vote vectors", "anchors": [["src/feedback_block.hpp", "FeedbackBlockMultiLabel"], ["src/feedback_block.hpp", "FeedbackBlock.register_votes"]]}
{"id": "C44", "title": "The thread pool barrier waits for exactly the submitted tasks and cannot deadlock", "statement": "When wait_for_tasks returns, every task pushed before it has finished exactly once; and as long as a pushed task is unfinished some thread can make progress, so the wait cannot hang through a lost wake-up.", "quantifier": "every number of worker threads >= 1, every task list, every interleaving", "why_tests_cant": "schedules, lost wake-ups", "anchors": [["src/BS_thread_pool.hpp", "thread_pool.push_task"], ["src/BS_thread_pool.hpp", "thread_pool.wait_for_tasks"], ["src/BS_thread_pool.hpp", "thread_pool.worker"]]}
{"id": "C45", "title": "Backend variants are selected by the requested features and by nothing else", "statement": "The clause-block variant used by a machine is the one for (literal budget given, boost_true_positives[, dynamic_AL]); the inference variant is the one for (explanation, exclude_negative_clauses); creating or training other machines does not change which input block or variant a machine uses.", "quantifier": "all option combinations, all sequences of machine constructions", "why_tests_cant": "global registry mutated by other instances", "anchors": [["green_tsetlin/tsetlin_machine.py", "TsetlinMachine._get_backend"], ["green_tsetlin/sparse_tsetlin_machine.py", "SparseTsetlinMachine._get_backend"], ["green_tsetlin/predictor.py", "Predictor._get_backend"], ["green_tsetlin/trainer.py", "Trainer._select_backend_ib"]]}
{"id": "C46", "title": "Predictions are reported under the target names", "statement": "With target names set, predict returns the name at the predicted index, explain for a name uses the class of that name (names being distinct), and explain without target uses the class last predicted.", "quantifier": "all name lists, predictions and call orders", "why_tests_cant": "all call orders", "anchors": [["green_tsetlin/predictor.py", "Predictor.predict"], ["green_tsetlin/predictor.py", "Predictor.explain"], ["green_tsetlin/predictor.py", "Predictor.set_target_names"]]}
{"id": "C47", "title": "The pure-Python fallback evaluates clauses like the C++ backend", "statement": "For the same literal states and weights the pure-Python backend's clause outputs, votes and predictions equal the C++ backend's.", "quantifier": "all states, examples and block splits", "why_tests_cant": "all states and inputs", "anchors": [["green_tsetlin/py_gtc/tsetlin_state.py", "TsetlinState"], ["green_tsetlin/py_gtc/feedback_block.py", "FeedbackBlock"]]}
{"id": "C48", "title": "The XOR generator labels examples by the XOR of the first two literals", "statement": "xor_dataset returns test labels equal to x0 xor x1 for every test row, train labels equal to x0 xor x1 except where noise flipped them, with the requested shapes, and rejects n_literals < 2.", "quantifier": "all sizes, seeds and noise draws", "why_tests_cant": "all random draws", "anchors": [["green_tsetlin/dataset_generator.py", "xor_dataset"]]}
{"id": "C49", "title": "Specificity threshold is monotone and in range", "statement": "The 8-bit comparison threshold derived from s is always a valid signed byte, is non-increasing in s, and gives at least one and not all of the 256 byte values as update draws for every s >= 1.", "quantifier": "all s >= 1", "why_tests_cant": "continuum of s values", "anchors": [["src/aligned_tsetlin_state.hpp", "AlignedTsetlinState.set_s"]]}
{"id": "C50", "title": "Saving and loading a state file is the identity on valid states and rejects invalid ones", "statement": "load_state(save_state(f)) yields the same weights and clauses; files whose arrays disagree on the number of clauses or have wrong dtypes, or whose name lacks .npz, are rejected with ValueError.", "quantifier": "all states, file contents and names", "why_tests_cant": "all contents", "anchors": [["green_tsetlin/tsetlin_machine.py", "DenseState.load_from_file"], ["green_tsetlin/tsetlin_machine.py", "DenseState.save_to_file"], ["green_tsetlin/sparse_tsetlin_machine.py", "SparseState"]]}
{"id": "C51", "title": "Hyper-parameter search scores a trial by the evaluation accuracy it optimises", "statement": "HyperparameterSearch.objective samples every parameter within the range given (fixed values pass through unchanged) and returns the trial's evaluation score together with the sampled budget when minimising it.", "quantifier": "all search spaces, all suggestion sequences, all trial results", "why_tests_cant": "all suggestion sequences", "anchors": [["green_tsetlin/hpsearch.py", "HyperparameterSearch.objective"]]}
{"id": "C52", "title": "A rule set compiled from a sparse state votes like the sparse state", "statement": "For every sparse state, the rules compiled from it contain exactly the literals the sparse backend treats as included, with merged weights, so predictor and executor agree.", "quantifier": "all sparse states and examples", "why_tests_cant": "all sparse patterns", "anchors": [["green_tsetlin/ruleset.py", "RuleSet.compile_from_sparse_state"]]}
{"id": "C53", "title": "n_jobs resolves to a usable number of jobs", "statement": "Trainer(n_jobs) uses n_jobs jobs when it is positive, one job for 0, and for a negative value all cpus but |n_jobs|-1; the result is always at least one job.", "quantifier": "all integers n_jobs and all cpu counts", "why_tests_cant": "depends on the machine's cpu count; extreme negative values", "anchors": [["green_tsetlin/trainer.py", "Trainer.__init__"]]}
{"id": "C54", "title": "A configuration call that raises leaves the machine as it was", "statement": "If set_num_clause_blocks, set_literal_budget or set_trainable_flags raises an exception, the machine's configuration (block sizes, budgets, flags) is what it was before the call, so that a caller who catches the exception continues with the old configuration.", "quantifier": "all machines and all arguments", "why_tests_cant": "all argument values and prior configurations", "anchors": [["green_tsetlin/tsetlin_machine.py", "TsetlinMachine.set_num_clause_blocks"], ["green_tsetlin/tsetlin_machine.py", "TsetlinMachine.set_literal_budget"], ["green_tsetlin/tsetlin_machine.py", "TsetlinMachine.set_trainable_flags"]]}
{"id": "C55", "title": "Training starts with the seeds the trainer was given", "statement": "train() on a trainer with data, a known feedback type, at least one epoch and one job and a machine with a block layout starts training for every seed: block i of the layout is initialised with seed+i and the feedback block with the seed, so a run can be repeated. A trainer whose labels do not fit the machine is refused before training.", "quantifier": "every machine configuration with a block layout, every seed, every number of labels and jobs, with and without an earlier state", "why_tests_cant": "the default seed, large seeds, re-training and label counts interact; tests use one seed on a fresh machine", "anchors": [["green_tsetlin/trainer.py", "Trainer._train_inner"], ["green_tsetlin/tsetlin_machine.py", "allocate_clause_blocks"], ["src/executor.hpp", "Executor::Executor"]]}
{"id": "C56", "title": "Destroying a multi-threaded executor always ends", "statement": "When an executor with a thread pool is destroyed after its last wait has returned, all worker threads leave and the destructor returns, whatever the threads are doing at that moment.", "quantifier": "every number of worker threads, every earlier sequence of pushes and waits, every interleaving", "why_tests_cant": "the failing interleaving needs a worker between evaluating its predicate and blocking; no test can force every such window", "anchors": [["src/BS_thread_pool.hpp", "thread_pool::destroy_threads"], ["src/BS_thread_pool.hpp", "thread_pool::worker"]]}
{"id": "C57", "title": "Multi-label feedback pushes one true and one false output of two different labels", "statement": "In multi-label training each example pushes up one output that says something true about it (ON for a label that is 1, OFF for a label that is 0) and pushes down one output of a different label that says something false; every pair of labels can be chosen, the push probabilities follow the clamped votes of the pushed outputs, the choice always ends, and the training accuracy counts the labels whose prediction (ON votes at least OFF votes) is right.", "quantifier": "all numbers of labels, label vectors, vote vectors and random draws", "why_tests_cant": "choices are random and depend on the label vector; tests see one draw", "anchors": [["src/feedback_block.hpp", "FeedbackBlockMultiLabel::process"]]}
{"id": "C58", "title": "Multi-label machines can be trained, evaluated and used to predict label sets", "statement": "train() on a multi-label machine returns after evaluating every epoch, and predicting an example with a multi-label machine gives for every label whether it is on (ON votes at least OFF votes).", "quantifier": "all data sets, machines and numbers of epochs", "why_tests_cant": "the failure is in every multi-label run; no test of the project trains a multi-label machine to the end", "anchors": [["src/executor.hpp", "Executor::eval_predict_multi"], ["src/feedback_block.hpp", "FeedbackBlockMultiLabel::predict_multi"], ["green_tsetlin/predictor.py", "Predictor.predict"]]}
{"id": "C59", "title": "Sparse feedback moves tracked literals as dense feedback does", "statement": "In the sparse backend one update of a clause changes each tracked literal's state exactly as dense feedback would: rewarding feedback raises literals the example satisfies (with probability (s-1)/s, or always with boosting) and lowers the others with probability 1/s; forgetting feedback lowers every tracked literal with probability 1/s; rejecting feedback raises exactly the excluded literals the example falsifies by one; a clause that needs no feedback is unchanged. States stay within a signed byte in every history.", "quantifier": "all clauses, examples, random draws, configurations and training histories", "why_tests_cant": "the literals, states and draws are unbounded; tests see single draws", "anchors": [["src/func_sparse.hpp", "Type1aFeedbackSparse"], ["src/func_sparse.hpp", "Type1bFeedbackSparse"], ["src/func_sparse.hpp", "Type2FeedbackSparse"], ["src/func_sparse.hpp", "TrainUpdateSparse"]]}
{"id": "C60", "title": "Pruning removes exactly the literals below the threshold", "statement": "After each update of a sparse clause, the literals whose state is below lower_ta_threshold are no longer tracked, and all others still are, in the same order.", "quantifier": "all clauses and thresholds", "why_tests_cant": "the effect depends on which neighbouring entries are below the threshold", "anchors": [["src/func_sparse.hpp", "prune_clause"]]}
{"id": "C61", "title": "A newly tracked sparse literal starts excluded", "statement": "When rejecting feedback adds an active literal to a sparse clause, the literal starts excluded (it does not change on which examples the clause fires until it has been raised), for every lower_ta_threshold the machine accepts.", "quantifier": "all clauses, active-literal lists and accepted thresholds", "why_tests_cant": "all accepted threshold values", "anchors": [["src/func_sparse.hpp", "Type2FeedbackSparse"], ["green_tsetlin/sparse_tsetlin_machine.py", "SparseTsetlinMachine._set_extra_params_on_cb"]]}
{"id": "C62", "title": "A sparse state can be put back into a machine", "statement": "Writing the state read from a sparse machine into a machine of the same dimensions gives that machine the same clauses, weights and active literals, for every number of blocks on either side, so training can go on from it.", "quantifier": "all states reached by training, all splits into blocks on both sides", "why_tests_cant": "the failing states differ in data-dependent list lengths", "anchors": [["green_tsetlin/sparse_tsetlin_machine.py", "SparseTsetlinMachine._save_state_in_backend"], ["green_tsetlin/sparse_tsetlin_machine.py", "SparseTsetlinMachine._load_state_from_backend"], ["src/clause_block.hpp", "ClauseBlockSparseT.set_active_literals_npy"], ["src/clause_block.hpp", "ClauseBlockSparseT.set_clause_state_sparse_npy"]]}
{"id": "C63", "title": "The AVX2 implementation is used only on processors that have it", "statement": "The AVX2 classes are selected on a machine exactly when the module was compiled with AVX2 and the processor supports AVX2.", "quantifier": "all processors (all answers of the cpuid instruction)", "why_tests_cant": "a test machine is one processor", "anchors": [["src/main.cpp", "has_avx2"], ["green_tsetlin/backend.py", "impl"]]}
{"id": "C64", "title": "A convolutional machine has the options it is given", "statement": "ConvolutionalTsetlinMachine(..., multi_label=True) is a multi-label machine, and the constructor's other arguments have the same meaning as for TsetlinMachine.", "quantifier": "all constructor arguments", "why_tests_cant": "all argument combinations", "anchors": [["green_tsetlin/tsetlin_machine.py", "ConvolutionalTsetlinMachine.__init__"]]}
{"id": "C65", "title": "A convolutional machine evaluates its clauses on the patches of the example", "statement": "When a convolutional machine is trained or evaluated through a Trainer, each clause is evaluated on every patch of the example.", "quantifier": "all machines, training histories and examples", "why_tests_cant": "all histories and examples", "anchors": [["green_tsetlin/tsetlin_machine.py", "TsetlinMachine.construct_clause_blocks"], ["green_tsetlin/tsetlin_machine.py", "ConvolutionalTsetlinMachine"], ["src/func_conv_avx2.hpp", "InitializeConvAVX2"], ["src/func_conv_tm.hpp", "InitializeConvTM"]]}
{"id": "C66", "title": "Numbers compared with probabilities lie in [0, 1)", "statement": "Every number a clause block draws to decide whether a clause is updated is at least 0 and below 1, so that an update with probability 1 always happens and one with probability 0 never does, whatever the seed and however long training runs.", "quantifier": "all seeds of the generator and all positions in its stream", "why_tests_cant": "The generator has 2^64 states; the offending ones are a 2^-54 fraction, far beyond any test run.", "anchors": [["src/random_generator.hpp", "Wyhash64"], ["src/func_tm.hpp", "TrainUpdateTM"]]}
{"id": "C67", "title": "The vector random generators do not degenerate", "statement": "The random bytes the SIMD backends use for literal feedback depend on the whole seed, never become constant, and do not start repeating within a realistic training run.", "quantifier": "all seeds and all positions in the stream", "why_tests_cant": "Period and dependence on the seed are statements about all states of the generator; a test sees a few thousand draws from a few seeds.", "anchors": [["src/random_generator.hpp", "XorShift128plus4G"], ["src/random_generator.hpp", "Xoshiro128Plus"]]}
{"id": "C68", "title": "Each literal gets its own random number", "statement": "Within one feedback step no two literals of a clause are forced to share a random number: two features with equal values in every example can still be treated differently by random feedback.", "quantifier": "all seeds, all pairs of literals, all histories of calls", "why_tests_cant": "It is about the relation between draws for every seed and every history; a test can only observe single outcomes, which are random anyway.", "anchors": [["src/random_generator.hpp", "XorShift128plus4G"], ["src/random_generator.hpp", "Xoshiro128Plus"], ["src/func_neon.hpp", "Type1aFeedbackNeon"], ["src/func_avx2.hpp", "Type1aFeedbackAVX2"]]}
{"id": "C69", "title": "Reported scores are reproduced by what is delivered", "statement": "After train(), the predictor from get_predictor() and the C program exported from it, run on the evaluation data, give the class numbers whose metric is the score that train() reported: the best score with load_best_state, the last score of the evaluation log without it. This holds for both ways of writing the program, for fresh machines and machines trained before, for the portable, AVX2 and NEON backends, and for sparse machines.", "quantifier": "every initial executor of matching shape, random stream, shuffling, metric, training and evaluation data, number of epochs, earlier state, and every later use of the predictor", "why_tests_cant": "Tests retrain small machines on a fixed seed and compare a score; the claim spans training, state saving, rule compilation, inference and code generation for all data and all random draws", "anchors": [["green_tsetlin/trainer.py", "Trainer._train_inner"], ["green_tsetlin/tsetlin_machine.py", "get_predictor"], ["green_tsetlin/predictor.py", "Predictor.predict"], ["green_tsetlin/writers.py", "SimpleC"], ["src/executor.hpp", "Executor.eval_predict"], ["green_tsetlin/sparse_tsetlin_machine.py", "SparseTsetlinMachine._load_state_from_backend"]]}
{"id": "C70", "title": "Predictions do not depend on the example's memory layout", "statement": "predict(x) depends only on the elements of the array x: not on whether it is contiguous, on its step or position in memory, on its integer element type, on what lies around it in memory, or on examples predicted before; an array that is rejected leaves the predictor as it was.", "quantifier": "every rule set, predictor history, example, array layout (any offset and step, also negative) and content of the surrounding memory", "why_tests_cant": "Layouts and surrounding memory contents are not enumerable; a read beyond the array usually goes unnoticed in a test", "anchors": [["green_tsetlin/predictor.py", "Predictor.predict"], ["src/inference.hpp", "Inference.predict_npy"]]}
{"id": "C71", "title": "The exported C files compile and predict like the predictor", "statement": "The text export_as_program writes is a C file with one function; calling that function any number of times from the start of the process returns, for each example whose votes fit in 16 bits, the class the predictor predicts, and reads and writes only inside its arrays. The two exporters' files compute the same function, also when votes overflow. Any other exporter name is a ValueError.", "quantifier": "every rule set compiled from a machine, every tie-breaking while building the tree, every predictor history, every sequence of calls with binary examples", "why_tests_cant": "The file is text read by a C compiler: quoting, braces, digits, macros and array bounds must be right for every rule set and input, and static memory couples successive calls", "anchors": [["green_tsetlin/predictor.py", "Predictor.export_as_program"], ["green_tsetlin/writers/simple_c.py", "SimpleC.to_file"], ["green_tsetlin/writers/topographical_c.py", "TopographicalC.to_file"]]}
{"id": "C72", "title": "Memory of clause blocks is safe and released", "statement": "Whatever calls a program makes on its clause blocks (construct, initialise, use, clean up, delete, in any order and on any number of blocks), memory is never released twice, no two arrays share memory, and as long as a block's arrays are used only while it is initialised no released or missing array is touched; after clean-up all memory of the block is released, so that repeated training does not grow the process.", "quantifier": "every backend, every number of blocks, every sequence of calls", "why_tests_cant": "leaks and double releases depend on the whole history of calls, and a test of results sees neither", "anchors": ["src/clause_block.hpp:initialize,cleanup", "src/func_tm.hpp:InitializeTM,CleanupTM", "src/func_avx2.hpp:InitializeAligned,CleanupAligned", "src/func_neon.hpp", "src/func_conv_tm.hpp", "src/func_conv_avx2.hpp", "src/func_sparse.hpp", "src/aligned_tsetlin_state.hpp"]}
{"id": "C73", "title": "The portable backend stays inside its arrays", "statement": "For any machine size, seed, examples, labels and order of training and evaluation calls, the portable backend never reads or writes outside its arrays and never overflows an index computation, and its flat arrays hold exactly the clauses, weights, outputs and votes that the clause-by-clause description of training gives.", "quantifier": "every number of clauses, literals and classes, every history of calls, all random draws", "why_tests_cant": "an access outside an array may go unnoticed in a test, and index overflow needs sizes no test uses", "anchors": ["src/func_tm.hpp:InitializeTM,SetClauseOutputTM,EvalClauseOutputTM,CountVotesTM,TrainUpdateTM,ClauseUpdateTM,Type1aFeedbackTM,Type1bFeedbackTM,Type2FeedbackTM", "src/aligned_tsetlin_state.hpp"]}
{"id": "C74", "title": "The AVX2 backend stays inside its arrays and its vector accesses are aligned", "statement": "For any machine size, seed, examples, labels and order of training and evaluation calls, the AVX2 backend never reads or writes outside its arrays, every 32-byte vector access is at a multiple of 32 bytes, no index computation overflows, and the bytes it leaves are those of the row-by-row description of training.", "quantifier": "every number of clauses, literals and classes, every history of calls, all random draws, all contents of fresh memory", "why_tests_cant": "an access past the end of a padded buffer goes unnoticed in a test, and whether a row is aligned depends on the sizes", "anchors": ["src/func_avx2.hpp:InitializeAVX2,SetClauseOutputAVX2,EvalClauseOutputAVX2,CountVotesAVX2,TrainUpdateAVX2,ClauseUpdateAVX2,Type1aFeedbackAVX2,Type1bFeedbackAVX2,Type2FeedbackAVX2", "src/gt_common.hpp:safe_aligned_alloc", "src/input_block.hpp:DenseInputBlock"]}
{"id": "C75", "title": "Results do not depend on uninitialised memory", "statement": "Two machines initialised with the same sizes, parameters and seed and taken through the same training and evaluation steps have the same literal states, weights, clause outputs, votes and random draws, whatever the memory they were given contained before.", "quantifier": "every machine size and configuration, every backend, every history of training and evaluation steps, all contents of fresh memory", "why_tests_cant": "a test process usually gets zeroed memory, so a result that depends on it repeats from run to run", "anchors": ["src/func_tm.hpp:InitializeTM", "src/func_avx2.hpp:InitializeAVX2", "src/func_neon.hpp:InitializeAlignedNeon", "src/func_sparse.hpp:InitializeSparseTM", "src/func_conv_tm.hpp:InitializeConvTM,SetClauseOutputConvTM"]}
{"id": "C76", "title": "The AVX2 convolutional block reads examples at aligned addresses inside the example buffer", "statement": "Training and evaluating a convolutional clause block of the AVX2 backend loads literals only from inside the buffer its input block allocated for one example, at addresses that are multiples of 32 as the aligned load instructions require; no step faults.", "quantifier": "every number of patches and of literals per patch, all clauses, examples and random streams, every history of training steps and evaluations", "why_tests_cant": "the tests of this class use a single patch; whether a load faults depends on the patch sizes and on which clauses hold in which patch", "anchors": ["src/func_conv_avx2.hpp:SetClauseOutputConvAVX2,EvalClauseOutputConvAVX2,TrainUpdateConvAVX2", "src/input_block.hpp:DenseInputBlock"]}
{"id": "C77", "title": "Training and evaluation use exactly the examples and labels of the data set in place, and read nothing outside its arrays", "statement": "Each training epoch gives every example of the data set, exactly once and with its own labels, to the clause blocks and the feedback; a slice gives the corresponding part of the order drawn; an evaluation gives every example in order. No array is read or written outside its bounds, no unset pointer is used and no offset overflows.", "quantifier": "every history of setting data, training epochs, training slices and evaluations, every data set (dense, CSR with dense clause blocks, CSR with sparse clause blocks), every shuffle and every number of epochs", "why_tests_cant": "tests use small data sets that fit, a single data set per block and whole epochs; stale counts, stale orders, missing labels and offsets beyond 2^31 only show up in particular histories or sizes", "anchors": ["src/input_block.hpp:DenseInputBlock,SparseInputDenseOutputBlock,SparseInputBlock", "src/executor.hpp:train_epoch,train_slice,eval_predict", "green_tsetlin/trainer.py:_train_inner"]}
{"id": "C78", "title": "The pure-Python fallback trains and evaluates on the same examples and labels as the compiled core", "statement": "When the compiled core cannot be imported, each call that sets data, trains or evaluates gives the clause blocks and the feedback the same examples with the same labels, in the same order for the same shuffle, as the compiled input blocks and executors do.", "quantifier": "every history of setting data, training epochs, slices and evaluations; dense and CSR data sets of every size, one or more labels per example, one or more threads", "why_tests_cant": "the fallback is only tested on one small single-label data set with one thread", "anchors": ["green_tsetlin/py_gtc/dense_input_block.py:DenseInputBlock,SparseInpuDenseOutputBlock", "green_tsetlin/py_gtc/executors.py:SingleThreadExecutor,MultiThreadExecutor", "green_tsetlin/trainer.py:_train_inner"]}
{"id": "C79", "title": "Training and predicting with threads always ends, has no data race and gives the single-threaded result", "statement": "With n_jobs > 1, a call that trains on a sequence of examples or predicts a batch returns, whatever the scheduler does; the machine's state and the predictions are those of the same call with one thread; and at no time do two threads access the same clause block, the feedback or the current example with one of them writing.", "quantifier": "every number of requested and available threads, every sequence of training examples and predictions, every number of clause blocks and classes, every interleaving of the owning thread's, the workers' and the tasks' steps, with spurious wake-ups", "why_tests_cant": "the threads' interleaving, the queue's contents and the wake-ups differ from run to run; a test sees a handful of schedules and no race detector proves absence", "anchors": ["src/executor.hpp:train_slice,eval_predict", "src/BS_thread_pool.hpp:push_task,wait_for_tasks,worker", "src/clause_block.hpp:train_example,eval_example,train_update", "src/feedback_block.hpp:register_votes"]}
{"id": "C80", "title": "Putting a saved state into a machine uses exactly the state's values, or is refused", "statement": "When a machine with a loaded state object or state file starts training, its clause blocks receive exactly the literal states and weights found at each row and column of the state's arrays, whatever their memory layout and element type, or the call raises; no value outside the arrays is read. Collecting the state writes exactly the elements of the state's arrays.", "quantifier": "every machine size and division into blocks with any padding; arrays of every element type, shape, stride and offset into a larger buffer; state objects and state files", "why_tests_cant": "tests restore arrays that the same machine has just made; layouts, element types and sizes a user can pass are unbounded and out-of-bounds reads need not crash", "anchors": ["src/aligned_tsetlin_state.hpp:get_clause_state,set_clause_state,get_clause_weights,set_clause_weights", "src/clause_block.hpp:get_clause_state_npy,set_clause_state_npy,get_clause_weights_npy,set_clause_weights_npy", "green_tsetlin/tsetlin_machine.py:_load_state_from_backend,_save_state_in_backend,load_state,DenseState.load_from_file"]}
{"id": "C81", "title": "Predicting and explaining never touch memory outside the predictor's arrays", "statement": "A predictor made from a rule set answers every sequence of predict, explain and set_target_names calls from its own arrays only: no read or write outside them, no integer overflow, no dependence on uninitialised memory, and an example that is too short or a class that does not exist is refused with an exception.", "quantifier": "all rule sets, explanation modes, call sequences, examples, classes and names, and all contents of uninitialised memory", "why_tests_cant": "out-of-bounds reads usually return some value without crashing; rule sets and call histories are unbounded", "anchors": ["src/inference.hpp:Inference,predict,calculate_importance,set_features,set_rules", "green_tsetlin/predictor.py:from_ruleset,predict,explain,set_target_names"]}
{"id": "C82", "title": "The sparse backend stays inside its vectors, over any number of initialise / train / clean up rounds", "statement": "A sparse clause block accepted by the constructor can be initialised, trained, evaluated, read out, cleaned up and initialised again in any order without reading or writing outside its vectors, without an exception from them and without integer overflow; literals and states stay paired row by row; a state that does not fit the block is refused; after cleanup and initialisation it is a fresh block.", "quantifier": "all block sizes, configurations, seeds, random draws, contents of uninitialised memory, examples, feedback, call sequences and states put in", "why_tests_cant": "an access one past a vector rarely crashes, and which rows grow, shrink and are sorted depends on the whole random training history", "anchors": ["src/func_sparse.hpp:InitializeSparseTM,SetClauseOutputSparseTM,EvalClauseOutputSparseTM,CountVotesSparseTM,ClauseUpdateSparseTM,Type1aFeedbackSparseTM,Type1bFeedbackSparseTM,Type2FeedbackSparseTM,UpdateAL,TrainUpdateSparseTM,CleanupSparseTM", "src/sparse_tsetlin_state.hpp"]}
{"id": "C83", "title": "Rounding of double-precision numbers does not change what the probabilities and scores mean", "statement": "Computed with IEEE doubles, the probability of updating for the target is between 0 and 1, is 0 exactly when the target has reached the threshold, and is within 2^-52 of (T - votes)/(2T); more votes never raise it and lower it if T is an integer. The probability for the class trained against is above 0, never above 1 and within 2^-51 of (T + votes)/(2T) + 1e-16, with the same monotonicity. The class trained against is never the target, whatever the seed. The training accuracy orders epochs by the number of correct predictions, is 0 only for none and 1 only for all. For every s >= 1 the probabilities 1/s and (s-1)/s are between 0 and 1, and the threshold of the vectorised backends is in range, never increases with s, and updates within 2 of 256/s of the 256 byte values. None of these computations overflows or underflows.", "quantifier": "all thresholds that are doubles from 1 (integers up to 2^49 for the strict order, values up to 2^900 for the range), all votes, all numbers of classes up to 2^20, all seeds and numbers of earlier draws, all numbers of examples up to 2^50, all s >= 1", "why_tests_cant": "a rounding error shows for single values of 2^64 and a test that compares with a tolerance does not see a probability of 1 + 2^-52, an order that flips or a class with weight 0 being drawn", "anchors": ["src/feedback_block.hpp:process,get_train_accuracy", "src/aligned_tsetlin_state.hpp:set_s", "src/sparse_tsetlin_state.hpp:set_s"]}
{"id": "C84", "title": "Training ended by an exception can be tried again as if it had not begun", "statement": "If an exception ends train() at any point (callback, metric, backend error, KeyboardInterrupt), the trainer's data and results and the machine's state are as before the call, or the machine has the state of the complete run, never a partly trained one; calling train() again gives the same results and state as if the first call had succeeded. Examples keep their labels. Saving the machine afterwards writes no partly trained state.", "quantifier": "all points between two statements at which an exception can strike, any number of attempts, all settings, data, backends and earlier states", "why_tests_cant": "the exception can strike between any two statements of any epoch or fold, and what it leaves behind shows only in a later call", "anchors": ["green_tsetlin/trainer.py:train,_train_inner,set_train_data,set_eval_data", "green_tsetlin/tsetlin_machine.py:save_state"]}
{"id": "C85", "title": "The portable convolutional block stays inside its arrays and the example", "statement": "With the portable convolutional backend, from initialize on, no training or evaluation reads or writes outside the block's arrays or outside the example, no index computation overflows, and the arrays always hold exactly the clauses, weights, outputs, counts and active patches that training each clause on its patches gives. This holds whatever the freshly allocated arrays contained.", "quantifier": "all sizes, seeds, patch counts, contents of fresh memory, random draws, examples, feedback and orders of training and evaluation", "why_tests_cant": "the patch used for feedback is taken from an array that is not initialised and only valid after the outputs were set; a wrong offset reads a neighbouring patch or past the example without any error", "anchors": ["src/func_conv_tm.hpp:InitializeConvTM,SetClauseOutputConvTM,EvalClauseOutputConvTM,TrainUpdateConvTM", "src/aligned_tsetlin_state.hpp:AlignedTsetlinState"]}
{"id": "C86", "title": "The pure-Python sparse block answers its conjunctions, learns by the stated rules and stays consistent", "statement": "In the pure-Python sparse backend a clause outputs 1 exactly when its conjunction holds, in training and in evaluation. Every history of examples and updates with existing class numbers succeeds, keeps one state for each tracked literal, tracks no literal twice and only literals that occurred in an example, keeps at most seven active literals for each class and no state below -20. An update moves each literal's state by the type I and type II rules with its own random number, moves the weight by one, and drops exactly the literals below -20. The literal budget limits the literals of a clause.", "quantifier": "all numbers of clauses and classes, states, examples, draws, feedback and histories of calls", "why_tests_cant": "rows shrink and grow during training and are addressed by position and by value; the errors need particular states of other clauses, several updates and more clauses than classes", "anchors": [["green_tsetlin/py_gtc/tsetlin_state.py", "TsetlinStateSparse"], ["green_tsetlin/py_gtc/clause_block.py", "ClauseBlockSparse"]]}
{"id": "C87", "title": "Sharing a state object between machines, trainers and variables changes nothing", "statement": "load_state keeps a reference to the state object it is given, and train() gives the machine the trainer's own best-state object, so several machines, trainers and variables can refer to one object. In every program of constructor, load, save, copy, rule set, data and training calls, with training runs ended by exceptions at any point, all results, rule sets, files and states are what they are when each of them has a private copy. No such call changes a state object that exists already; after copy() even writing into the copy's arrays changes nothing else.", "quantifier": "all programs over any number of machines, trainers, states and files; all training outcomes, settings, folds and points of interruption", "why_tests_cant": "whether an object is shared depends on the whole history of calls, and a wrong in-place update shows up in another machine, later", "anchors": [["green_tsetlin/tsetlin_machine.py", "DenseState"], ["green_tsetlin/tsetlin_machine.py", "TsetlinMachine._load_state_from_backend"], ["green_tsetlin/tsetlin_machine.py", "TsetlinMachine.load_state"], ["green_tsetlin/tsetlin_machine.py", "TsetlinMachine.save_state"], ["green_tsetlin/trainer.py", "Trainer.train"]]}
{"id": "C88", "title": "A clause block made untrainable keeps what it has learned and still votes", "statement": "set_trainable(False) on a clause block stops training from changing its states, weights and generators, whatever is trained and evaluated and however many threads are used, until it is made trainable again; its clauses go on voting in training and in predictions. set_trainable(True) makes it learn from the next example on. The other blocks learn from every example as before.", "quantifier": "all programs of set_trainable, training, evaluation and executor construction over any blocks, data, shuffles and thread schedules", "why_tests_cant": "the effect of a flag depends on when it was set relative to the construction of the executor and on all examples trained afterwards", "anchors": [["src/executor.hpp", "Executor"], ["src/clause_block.hpp", "ClauseBlock::set_trainable"], ["green_tsetlin/py_gtc/executors.py", "SingleThreadExecutor"], ["green_tsetlin/py_gtc/clause_block.py", "ClauseBlock.set_trainable"]]}
{"id": "C89", "title": "A search reports exactly the best trials of its study and survives interruption", "statement": "optimize(n) of a HyperparameterSearch runs exactly n trials, each chosen knowing all earlier ones. Afterwards best_trials lists exactly those completed trials of the study, including the ones of earlier calls with the same study name and storage, that no other completed trial beats in score (and in literal budget, if that is minimised); every other completed trial is beaten by a listed one. n trials and then m more give what n + m trials give. If a trial raises, the exception reaches the caller, best_trials keeps its old value and the finished trials stay in the storage. Other studies are untouched.", "quantifier": "all samplers, objectives, numbers of trials, stored studies and points at which a trial raises", "why_tests_cant": "which trials are reported depends on all values told so far, over several processes and at every point of interruption", "anchors": [["green_tsetlin/hpsearch.py", "HyperparameterSearch.optimize"], ["green_tsetlin/hpsearch.py", "HyperparameterSearch.objective"]]}
{"id": "C90", "title": "Every start value of a fresh block is made from a draw of its own", "statement": "When a block is allocated, each automaton state is -1 or 0 and each weight -1 or +1, decided by one draw from the block's seeded generator that decides nothing else; training goes on with the draws after these. Hence every start is possible: whatever states and signs are wanted, some draws in [0, 1) give them. Holds for the portable, convolutional, AVX2, NEON and sparse backends (sparse clauses start without literals). A new feedback block holds no votes and reports a training accuracy of 0.", "quantifier": "all numbers of literals, clauses and classes, all seeds and all sequences of draws", "why_tests_cant": "which draw decides which value depends on the sizes; a test sees a few seeds and cannot tell a shared draw from a coincidence", "anchors": [["src/clause_block.hpp", "ClauseBlock.initialize"], ["src/func_tm.hpp", "InitializeTM"], ["src/func_avx2.hpp", "InitializeAVX2"], ["src/func_neon.hpp", "InitializeAlignedNeon"], ["src/func_sparse.hpp", "InitializeSparseTM"], ["src/feedback_block.hpp", "FeedbackBlock"]]}
{"id": "C91", "title": "The size limits and the threshold of a sparse machine reach every block", "statement": "A new sparse machine allows each half of a clause and each class's list of active literals the square root of the number of literals, rounded up, and has threshold -40. Every block made for a training gets the machine's clause size, active-literal size and threshold as they are at that moment, whatever the number of blocks, so that rows and lists never exceed what is set. A size below 1 or a positive threshold is refused with ValueError before any block is kept, and leaves no trace once corrected.", "quantifier": "all numbers of literals up to 2^31, all parameter values, all numbers of blocks and jobs, all earlier trainings or refusals, all histories of the blocks", "why_tests_cant": "the values pass through a rounded square root, Python attributes, casts to C++ types and a loop over blocks; tests use a few sizes and mostly one block", "anchors": [["green_tsetlin/sparse_tsetlin_machine.py", "SparseTsetlinMachine.__init__"], ["green_tsetlin/sparse_tsetlin_machine.py", "SparseTsetlinMachine._set_extra_params_on_cb"], ["green_tsetlin/tsetlin_machine.py", "TsetlinMachine.construct_clause_blocks"], ["src/clause_block.hpp", "ClauseBlockSparseT"]]}
{"id": "C92", "title": "The NEON backend stays inside its arrays", "statement": "On the NEON backend, initialisation and every call of training and evaluation read and write only inside the arrays allocated for the block and the example, compute array positions without overflow, and keep the promises about alignment made to the compiler, so that any history of calls has the effect the row-by-row reading of the code describes, whatever the fresh memory held.", "quantifier": "all numbers of literals, clauses and classes whose arrays have fewer than 2^31 bytes, all seeds, random draws, contents of fresh memory, examples, feedback and orders of calls", "why_tests_cant": "an access outside an array usually goes unnoticed, depends on the sizes modulo 16, 32 and 64 and on the allocator, and the backend only runs on ARM, where the tests rarely run", "anchors": [["src/func_neon.hpp", "InitializeAlignedNeon"], ["src/func_neon.hpp", "SetClauseOutputNeon"], ["src/func_neon.hpp", "EvalClauseOutputNeon"], ["src/func_neon.hpp", "CountVotesNeon"], ["src/func_neon.hpp", "TrainUpdateNeon"], ["src/func_neon.hpp", "Type1aFeedbackNeon"], ["src/gt_common.hpp", "safe_aligned_alloc"]]}
{"id": "C93", "title": "Training on data the machine is already certain of changes nothing", "statement": "Once every training example has at least `threshold` votes for its label and at most `-threshold` votes for every other class, further training epochs leave every literal state and every weight unchanged and report a training accuracy of 1.", "quantifier": "all machines, block kinds, thresholds, data sets, shuffles, numbers of epochs, thread schedules and random draws", "why_tests_cant": "a change needs a draw that comes once in about 10^16, so no test run sees one; and the claim is about every number of epochs", "anchors": [["src/feedback_block.hpp", "process"], ["src/func_tm.hpp", "TrainUpdateTM"], ["src/func_avx2.hpp", "TrainUpdateAVX2"], ["src/func_sparse.hpp", "TrainUpdateSparseTM"], ["src/executor.hpp", "train_epoch"]]}
{"id": "C94", "title": "A prediction is for the whole array given, or refused", "statement": "predict(x), for an array x of any number of dimensions, element type and layout, answers with the prediction for the example that the elements of x spell in order when there are n_literals of them and each is 0 or 1, and raises an error otherwise; an error leaves the predictor as it was.", "quantifier": "every rule set, predictor history, array shape, steps, element type, values and surrounding memory", "why_tests_cant": "Shapes, layouts and values are not enumerable, and a wrong shape gives a plausible answer instead of an error", "anchors": [["green_tsetlin/predictor.py", "Predictor.predict"], ["src/inference.hpp", "Inference.predict_npy"]]}
{"id": "C95", "title": "An interrupted export or save never leaves a wrong program or state", "statement": "If the process ends at any point while export_as_program or save_state writes its file, then the file is as it was before, or a compiler (or load_state) refuses it, or it is the complete program (or state); what it leaves never compiles to, or loads as, anything else, and no other file changes.", "quantifier": "every rule set, exporter, dense state, previous file and point of interruption", "why_tests_cant": "The points of interruption are every character and every piece written, for every rule set and state", "anchors": [["green_tsetlin/predictor.py", "Predictor.export_as_program"], ["green_tsetlin/writers/simple_c.py", "SimpleC.to_file"], ["green_tsetlin/writers/topographical_c.py", "TopographicalC.to_file"], ["green_tsetlin/tsetlin_machine.py", "DenseState.save_to_file"], ["green_tsetlin/tsetlin_machine.py", "DenseState.load_from_file"]]}
{"id": "C96", "title": "Exported programs can be included together", "statement": "A C file may include an exported program any number of times, which is the same as once, and may include the programs of several predictors and use each of them.", "quantifier": "every rule set, exporter and number of inclusions, every pair of exported programs", "why_tests_cant": "Rule sets are not enumerable and the loss of a program shows only in its predictions", "anchors": [["green_tsetlin/writers/simple_c.py", "SimpleC.to_file"], ["green_tsetlin/writers/topographical_c.py", "TopographicalC.to_file"], ["green_tsetlin/predictor.py", "Predictor.export_as_program"]]}
{"id": "C97", "title": "Training narrows a clause only on examples it matches and widens it only on others", "statement": "A training step on an example a clause does not match (or matches with more literals than its budget) leaves it matching everything it matched before; a step on an example it matches leaves it matching nothing new; a clause rewarded for an example goes on matching it; and a clause can be rejected for examples it matches at most 254 times in a row.", "quantifier": "every block, backend, clause, example, feedback and random draws, and every history of steps", "why_tests_cant": "The set of matched examples is exponential in the number of literals, and draws and feedback range over everything", "anchors": [["src/func_tm.hpp", "TrainUpdateTM"], ["src/func_tm.hpp", "Type1aFeedbackTM"], ["src/func_tm.hpp", "Type1bFeedbackTM"], ["src/func_tm.hpp", "Type2FeedbackTM"], ["src/func_avx2.hpp", "TrainUpdateAVX2"], ["src/func_neon.hpp", "TrainUpdateNeon"], ["src/func_conv_tm.hpp", "TrainUpdateConvTM"], ["src/func_sparse.hpp", "TrainUpdateSparseTM"]]}
{"id": "C98", "title": "A trained model answers the same wherever it is used", "statement": "After training, the machine itself, a machine of any other division into blocks and any backend that loaded its saved file, the predictors made from either, and the C programs exported from those predictors all give the same class for every example.", "quantifier": "every trained machine, division into blocks, backend, file name, list of examples, explanation option and use of the predictor", "why_tests_cant": "The parts are tested one by one on a few models; that the whole chain agrees is a statement about all models and examples", "anchors": [["green_tsetlin/tsetlin_machine.py", "TsetlinMachine.save_state"], ["green_tsetlin/tsetlin_machine.py", "TsetlinMachine.load_state"], ["green_tsetlin/tsetlin_machine.py", "TsetlinMachine.get_predictor"], ["green_tsetlin/ruleset.py", "RuleSet.compile_from_dense_state"], ["green_tsetlin/predictor.py", "Predictor.export_as_program"], ["src/executor.hpp", "Executor.eval_predict"]]}
{"id": "C99", "title": "A convolutional machine over one patch is a dense machine", "statement": "When every example consists of a single patch, a convolutional machine behaves as the plain machine over the patch's literals does: through every history of training and prediction calls both give the same predictions and hold the same states, weights, votes and clause outputs, apart from the random numbers spent on choosing the only patch.", "quantifier": "every machine, number of blocks, history of training and prediction calls, budget, boosting and random sequence, on the portable and the AVX2 backend", "why_tests_cant": "Tests run one machine at a time; that two kinds of machine stay in step forever, for all random sequences, is a relation between infinitely many runs", "anchors": [["src/func_conv_tm.hpp", "SetClauseOutputConvTM"], ["src/func_conv_tm.hpp", "EvalClauseOutputConvTM"], ["src/func_conv_tm.hpp", "TrainUpdateConvTM"], ["src/func_conv_avx2.hpp", "SetClauseOutputConvAVX2"], ["src/func_conv_avx2.hpp", "TrainUpdateConvAVX2"], ["src/func_tm.hpp", "TrainUpdateTM"]]}
