C01	proved	C01_rollDice_ok_iff	both directions: succeeds exactly when the feeder delivers the dice
C02	proved	C02_rollDice_invalid C02_rollDice_err_cause	
C03	proved	C03_rollDice_queue C03_too_many	
C04	proved	C04_queue_fifo	
C06	proved	C06_mt_dice_fair C06_mt_no_intn_panic C03_too_many	the generator is any function with Intn(n) in [0,n)
C07	proved	C07_dice_accounting C07_dice_accounting_queue	
C08	proved	C08_dRoll_value	
C09	proved	C09_sum_roll_bounds queue_fairOn mt_fairOn	
C10	proved	C10_bRoll C10_bRoll_successes	
C11	proved	C11_rRoll_groups	
C12	proved	C12_rRoll_successes	
C13	proved	C13_uRoll_groups UChain.ne_nil	
C14	proved	C14_uRoll_max_total C14_uRoll_successes	
C15	proved	C15_bounded_dice C15_bounded_calls C15_bounded_input	any outcome, any feeder; bound in terms of the command (or input length) and MaxRerolls only
C16	proved	C16_random_number C16_random_number_errors	
C17	proved	C17_division	
C18	proved	C18_div_up C18_bound_needed	with the witnesses showing that the bound is needed
C19	proved	C19_div_round C19_bound_needed	with a witness showing that a bound is needed
C20	proved	C20_exact_arithmetic C20_wraps	
C21	proved	C21_verdict C21_unspecified	
C22	proved	C22_choice C22_choice_panic	
C23	proved	C23_calc_pure C23_calc_pure_tree C23_typed	Texts starting (after an optional secret marker) with a Calc command; outcome fixed before the feeder is chosen.
C24	proved	C24_no_panic C24_execute C24_basicBot C24_typed	any game-specific command that itself does not panic; inputs and choices shorter than 2^63 (every Go string)
C25	proved	C25_malformed C25_typed	Basic dice bot.
C27	proved	C27_language C27_unambiguous C27_sums C27_products	The parser accepts exactly the grammar of Spec/Grammar.lean; sums and products characterised as left-grouped sequences.
C28	proved	C28_depth C28_repetitions	Depth bound and consumption; the Go recursion itself is modelled with a depth argument that is proved irrelevant.
C29	proved	C29_case_insensitive C29_choice_keyword	ASCII letters.
C30	proved	C30_literals C30_numbers C30_leading_zeros	
C31	proved	C31_random_element C31_arithmetic_rejected	
C32	proved	C32_roll_whole C32_prefix C32_roll_chars	
C33	proved	C33_secret C33_flag	Any dice bot.
C34	proved	C34_retry C34_two_attempts C34_refuted C34_typed	Property states the actual behaviour; C34_refuted refutes the natural expectation.
C35	proved	C35_rRoll_refusal C35_uRoll_refusal C35_rRollComp_refusal C35_uRollComp_refusal	
C36	proved	C36_default_threshold C12_rRoll_successes	
C37	proved	C37_message	
C38	proved	C38_replay_any C38_replay_queue	
C39	proved	C39_later_dice	
C40	proved	C40_staged_eq_direct	
C41	proved	C41_staging	
C42	proved	C42_dRollComp_executes_iff C42_computed_left_never_executes C42_usage_example_never_executes	exact condition, and refutation of the expectation
C43	proved	C43_random_term_never_executes C43_example_never_executes	refutation of the expectation, for all such commands
C52	proved	C52_execute C52_history	all outcomes, all histories of rolls
C53	proved	C53_comment C53_first_word C34_typed	Basic dice bot.
C26	proved	C26_command C26_calc C26_value C26_stable C26_redisplay C26_refuted C26_typed	true with the exceptions stated by Node.Faithful; the unrestricted expectation is refuted
C44	proved	C44_bonus C44_bonus_compare C44_refuted	
C48	proved	C48_language C48_error C48_round_trip C48_injective C48_bound_needed C48_string C48_string_injective	Full language, errors, round trip, injectivity; the printable-character table of %q is a parameter.
C56	proved	C56_case C56_file C56_files_numbered	File system access is not modelled: files are given by their contents.
C54	proved	C54_sexp_injective C54_same_sexp_iff_same_tree	Injective for every table of printable characters; trees are those of the typed model (everything the parser builds and the evaluator makes of them).
C49	proved	C49_listed_iff_found C49_found_has_id C49_sorted C49_deterministic C49_total C49_infos C49_infos_sorted C49_infos_deterministic C49_infos_refuted C49_repo	For every registry, every iteration order and every unstable sort; string order is code-point order (= Go's byte order on UTF-8).
C50	proved	C50_ok_flag C50_array C50_error C50_error_text	echo (c.JSON) is the pair of its arguments.
C51	proved	C51_messages C51_has_messages	All histories.
C57	proved	C57_select C57_history	All registries keyed by the bots' own ids.
C58	proved	C58_routes C58_total C58_repo_systems	Routing table as registered in controllers/router.go; echo not modelled.
C05	proved	C05_queues_by_value C05_clients_untouched C05_client_operations C05_next_delivers	Memory model with backing arrays, capacities and an arbitrary growth policy; any number of queues and client slices.
C45	proved	C45_restored C45_same_again C45_history C45_determined	
C46	proved	C46_one_feeder	
C47	proved	C47_ends_iff C47_end_of_input C47_eof_ends_refuted C47_crash_iff C47_crash_origin	the expectation that the end of input ends the tool is refuted
C59	proved	C59_dispatch	
C60	proved	C60_game C60_games_total	with C57_history
C55	proved	C55_dRoll_message C55_dComp_message C55_determined C55_command	RollsShown (Spec/Message.lean) relates plain texts and dice; determinacy proved.
C61	proved	C61_reads C61_means C61_bonus	Stated with the grammar relation and executeBasicCommand; exception a*(b/c) is finding 1.
C62	proved	C62_answers_only C62_basic C62_roller	Feeders as state machines; BotsAlike/AnswerAlike in Spec/Sim.lean.
C63	proved	C63_eval_queue C63_eval_random C63_eval_empty C63_roll_queue C63_roll_random C63_roll_usage C63_ast C63_ast_empty C63_list_games C63_list_games_repo C63_help C63_set_game_shown C63_set_game C63_set_die_feeder C63_set_dice_queue C63_silent C63_welcome	Evaluation theorems for the registry of the code (basic game only).
C64	proved	C64_total C64_sound C64_language C64_rule_functions C64_invalid_bytes	Interpreter (Verif/Pigeon.lean) run on the table extracted mechanically from parser.go (Verif/PigeonGrammar.lean).
C65	proved	C65_located C65_kinds C65_no_random C65_no_random_compare C65_trailing C65_meaning C65_exact C65_truthful C65_accepted	posAt in Spec/Pigeon.lean gives line, column and offset; Spec/Peg.lean gives the meaning of the table and its misses.
C66	proved	C66_returns C66_execute C66_malformed C66_ast C66_typed	Depth bound 171*(length+1) calls of the interpreter.
C67	proved	C67_exponential	Cost counted by ExprCnt, as the code counts it.
C68	proved	C68_execute C68_built C68_sharing_matters	Relation RepNode between memory and trees in Spec/Raw.lean; sharing hypothesis shown necessary.
C69	proved	C69_eval C69_notation C69_sexp C69_texts C69_execute	Arbitrary graphs of nodes; Obj.skeleton in Spec/Raw.lean lists the replaceable links.
C70	proved	C70_d_roll_frozen C70_d_comparison_once C70_others_again	Two executions of the same node in memory.
C71	proved	C71_verdict C71_panics C71_names C71_blind C71_golden C71_replay	Names differ for fewer than 2^63 test cases. Reporting to testing.T is modelled as lists of messages.
C72	proved	C72_parse C72_text C72_independent C72_basic C72_command C72_session	Simulation of the generated parser on memory by the one on trees (C64), joined with C68. Depth of calls bounded by the length of the text.
C73	proved	C73_text_identifies C73_inspect C73_same_text C73_without_spaces C73_type C73_cycle	Stack depth is a parameter.
C74	proved	C74_max C74_sum C74_max_empty C74_other	On every memory.
C75	proved	C75_newArray_copies C75_newArrayByMove_shares C75_write C75_append C75_append_shows	Growth of append is a parameter.
C76	proved	C76_calls_do_not_modify C76_values C76_computed_once C76_bad_groups	Text of a failed type assertion is abstract.
C77	proved	C77_case C77_file C77_division_unique C77_files_error C77_files	Files are name and contents; reading them from disk is not modelled.
C78	proved	C78_execute C78_unique C78_answer	Outcome (Spec/Command), CommandText (Spec/Grammar), Marked, FirstWord, Succeeds (Spec/Answer); game bots other than the basic one do not exist in the repository.
C79	proved	C79_execute_error C79_execute_panic C79_exclusive C79_determined C79_complete C79_texts C79_random C79_answer C79_answer_panic	CommandStops (Spec/Stop) and Fails, RefusalText (Spec/Answer); the text of a Go run-time panic is not specified.
C80	proved	C80_execute C80_answer C80_comment C80_random_dice	The generator is abstract (contract of Intn).
C81	proved	C81_parser C81_basic C81_text C81_secret C81_answer C81_answer_error C81_answer_panic C81_order C81_secret_choice	ByteCommand, Repaired, MarkedBytes, ByteSucceeds, ByteFails (Spec/Bytes).
C82	proved	C82_answers C82_race_free C82_pool C82_progress C82_finitely_many_steps C82_finishes C82_fair_execution C82_can_finish C82_parse	answersAlone, Worker, startAll, Execution, Execution.Fair (Spec/Conc); Step, CStep, Reaches (Conc).
C83	proved	C83_double C83_determined C83_overflow C83_accurate	IsDouble, RoundsTo (Spec/Float): IEEE-754 binary64 declaratively.
C84	proved	C84_answers C84_queue C84_alone C84_progress C84_finitely_many_calls C84_finishes C84_can_finish C84_not_serial C84_uninterrupted C84_same_die_twice C84_panic	Deals, callsOf, expecting, diceOf, SharedExecution (Spec/Share); stand, Step, Reaches, nextStep, twoCalls (Share).
C85	proved	C85_roll C85_execute C85_answer C85_favourable C85_certain C85_independent C85_choice C85_expression C85_total C85_success C85_binomial C85_chain C85_chain_atLeast	chance, fated, odds, allFaces, Answered, winningFaces (Spec/Chance): a probability space (Mathlib's product measure) for an ideal generator; that MT19937 is ideal is an assumption, not a theorem.
C86	proved	C86_settings C86_unique C86_defaults C86_limit_kept C86_limit_exceeded C86_invalid_bytes C86_unknown_entry C86_memoize_refuses C86_entry_without_counter	CallsWith, limitOf, entryOf, memoOf, allowOf, recoverOf (Spec/PigeonOpt); exprCalls is the count the parser itself keeps. The last two are refutations of expectations (concrete inputs). Debug, Statistics, GlobalStore and InitState are not modelled.
C87	proved	C87_candidates C87_order C87_command C87_set_die_feeder C87_set_game C87_list_games C87_blank_id_refused	PcItem.Path, completedLine, Typeable (Spec/Complete); Asks (Spec/Repl). The readline library that walks the tree is not modelled.
C88	proved	C88_log_kept C88_files C88_stdout C88_not_created C88_log_lost C88_port	startsOf, linesOf, Causal, logPath (Spec/Server). echo and its logger are not modelled: a server writes lines to the output it was given. C88_log_lost is a refutation.
C89	proved	C89_compile C89_search_none C89_search_some C89_first_word C89_first_word_bytes C89_die C89_die_groups C89_roll C89_source C89_source_none C89_command C89_command_groups C89_tail	RxMatch (Spec/Regex) says what matching means; FirstWord, DieText, CaseDivision, CommandLine are the specifications of the other properties. The order of preference among matches beginning at one place (greedy first, as Go documents) is part of the model, Rx.ways.
C90	proved	C90_range C90_draws C90_returns C90_uniform C90_next C90_dice C90_answers C90_answer	math/rand is not in /repo: its Intn is modelled from its documented source (Rand.lean). That the source of numbers (MT19937) is perfect is the hypothesis, not a claim.
C91	proved	C91_limits C91_mean C91_variance C91_symmetric C91_opposite C91_successes	Expr.limits, mean, variance, Linear, Fits (Spec/Average); chance (Spec/Chance) is the ideal generator of C85; by C90 the same holds for 63-bit words.
C92	proved	C92_R C92_U C92_R_successes	winningFaces, Answered (Spec/Chance), ShowsSuccesses (Spec/Average). One roll per command; ideal generator as in C85.
C93	proved	C93_characters C93_message C93_one_line C93_parts C93_verdict C93_same_message C93_choice_mark C93_choice_verdict C93_choice_line	answerLetters, Chosen, verdictOf (Spec/Text.lean); splitSeq is strings.Split as in C56/C77. Error texts are the subject of C65 and C79.
C94	proved	C94_sound C94_again C94_commands C94_only C94_missing_left C94_missing_right C94_missing_minus C94_mismatch C94_unknown_operator	Type soundness of Eval on graphs of nodes in memory with sharing (Spec/Typed gives the typing rules, one node at a time); the converse is for numbers and truth values, in memory without dangling references.  The text of an operator is all that counts: NewCompare("+", 2, 3) evaluates to 5.
C95	proved	C95_execute C95_infix C95_sexp C95_history	Histories of calls are NodeCall, runCalls (Spec/NodeCalls); d is the room for nested calls, one more than the depth of the graph suffices.
C96	proved	C96_kind C96_names C96_refused C96_accepted C96_u_roll C96_unready C96_random C96_unsettled C96_no_comparison C96_no_infix	The tables of kinds and refusals are in Spec/Kinds.
C97	proved	C97_reads C97_table C97_parse C97_source C97_functions C97_helpers	The reader of grammar files is in Spec/GrammarFile; the texts are embedded character by character by tools/gen_grammar_text.py, which interprets nothing. C97_parse is for all inputs; the others are facts about the whole text of the two files.
C98	proved	C98_numbers C98_whole C98_compare C98_answer C98_calc_needed C98_limits C98_parentheses C98_parentheses_answer C98_balanced_needed C98_typed	WholeNumber, Spelling and Balanced (Spec/Writing) speak of texts only.
C99	proved	C99_sum C99_B C99_R C99_U C99_opposite C99_chance C99_easier C99_R_needs_threshold	Easier, CountShown and RefusalShown are in Spec/Easier.
C100	proved	C100_total C100_verdict C100_B C100_move C100_move_bound_needed C100_order_matters C100_twice_refuted	Rearranged and ShowsVerdict are in Spec/Rearrange; chance (Spec/Chance) is the ideal generator of C85.
C101	proved	C101_die C101_more C101_op C101_number C101_target	Totals, BinOp.value (Spec/Rearrange), divValue (C17-C19); chance (Spec/Chance) is the ideal generator of C85.
C102	proved	C102_total C102_success C102_B C102_product_falls C102_division C102_division_success	Better, Tends (Spec/Better); Whole and Fits are those of C91; C102_division allows / by numbers below 2^52 (Expr.reach).
C103	proved	C103_by_value C103_clients_untouched C103_client_operations C103_results_stay C103_roll	listOwners, listHeld (Spec/EnvMem) are the by-value specification.
C104	proved	C104_answer C104_shared C104_select C104_lost C104_proper C104_separate C104_feeder C104_execute C104_new C104_typed	Uses, underName, BotOp.proper, BotOp.keepsDiceBots in Spec/BotMem.
C105	proved	C105_shape C105_chat C105_first	LooksLikeChoice, LooksLikeCalc, LooksLikeRoll, Nested in Spec/Chat; basic dice bot.
C106	proved	C106_again C106_replay C106_dots_needed C106_failure_needed	session, sessionLog, HasDots, RefusesThreshold in Spec/Session; basic dice bot.
C107	proved	C107_polynomial C107_no_parentheses C107_limit	NestedAtMost in Spec/Nesting; rule Command, without Memoize.
C108	proved	C108_call C108_shared C108_count	CountedCall, CountedCalls, workOf in Spec/PigeonStats; ExprCnt as a natural number; ChoiceAltCnt not modelled.
C109	proved	C109_passes C109_failure C109_line_needed	C109_passes for every session, feeder and game ID by C106, C71, C56, C93 and the characterisation of failures (C79); C109_failure that failing does not depend on the dice being there; C109_line_needed the exception.
C110	proved	C110_dividend C110_divisor C110_methods C110_range_needed	C110_dividend and C110_divisor for all 64-bit operands and methods whose quotients fit (the double quotient is monotone, C83); C110_methods compares the methods; C110_range_needed the exception.
C111	proved	C111_length C111_dice_shown	C111_length for everything typed, by C78 (outcomes) and C27 (trees of texts); C111_dice_shown that the number of dice must be in the bound. Lengths in characters.
C112	proved	C112_by_hand C112_rolls C112_target C112_single_needed C112_typed C112_typed_rolls	The balanced pair is found in every derivation of the grammar and replaced by one with the same value; trees that differ in such calculations only are evaluated alike stage by stage; C112_single_needed the exception. C112_typed, C112_typed_rolls: the same for the text typed to the bot, with the mark of secret rolls and with comments.
C113	proved	C113_outcome C113_calculation C113_steps C113_errors C113_rounding C113_number C113_laws	Spec/Steps says what calculating and failing mean in terms of typed commands; calculations are texts with matching parentheses.
C114	proved	C114_signs C114_opposite C114_counts	FitTogether (Spec/Signs) says what it means that six answers fit together; the values and the target compared are existentially quantified, the same for the six (C08, C10, C11, C12 say which they are).
C115	proved	C115_values C115_successes C115_total C115_successes_U C115_max_total C115_typed C115_R_needed C115_numbers_needed	Replies (Spec/InTurn): the text is answered with these dice and this last message part, the feeder going from f to f'. The two _needed are counterexamples for R rolls and random numbers (concrete inputs). Totals wrap modulo 2^64 as everywhere (C20).
C116	proved	C116_total C116_R C116_U C116_max_total C116_calm_needed	Same rolls (RollsText with the letters of each kind, same list of numbers and sides); Replies as in C115, C115_typed carries all to what is typed. C116_calm_needed is the example that shows the need of the condition.
C117	proved	C117_operation C117_division C117_rounding C117_answered C117_sign	IsAmount and Amount (Spec/Amount): a D roll executed by itself, or what C(...) answers. C117_operation contains C115_total. Without a bound on the amounts /U and /R are answered under the same conditions (C117_rounding, C117_answered), the quotient being the double precision one of C83.
C118	proved	C118_total C118_B C118_R	Replies as in C115 (answered text, dice, last message part, feeder); CmpOp.Rel (Spec/Command) are the six relations on integers.
C119	proved	C119_bonus C119_target C119_overflow	Replies and maxAndTotalShown as in C115. C119_overflow is the example for >= (concrete inputs).
