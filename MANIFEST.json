{
 "claims": [
  {
   "property": "C01",
   "status": "proved",
   "theorems": [
    "GoBCDice.C01_rollDice_ok_iff"
   ],
   "note": "both directions: succeeds exactly when the feeder delivers the dice"
  },
  {
   "property": "C02",
   "status": "proved",
   "theorems": [
    "GoBCDice.C02_rollDice_invalid",
    "GoBCDice.C02_rollDice_err_cause"
   ],
   "note": ""
  },
  {
   "property": "C03",
   "status": "proved",
   "theorems": [
    "GoBCDice.C03_rollDice_queue",
    "GoBCDice.C03_too_many"
   ],
   "note": ""
  },
  {
   "property": "C04",
   "status": "proved",
   "theorems": [
    "GoBCDice.C04_queue_fifo"
   ],
   "note": ""
  },
  {
   "property": "C06",
   "status": "proved",
   "theorems": [
    "GoBCDice.C06_mt_dice_fair",
    "GoBCDice.C06_mt_no_intn_panic",
    "GoBCDice.C03_too_many"
   ],
   "note": "the generator is any function with Intn(n) in [0,n)"
  },
  {
   "property": "C07",
   "status": "proved",
   "theorems": [
    "GoBCDice.C07_dice_accounting",
    "GoBCDice.C07_dice_accounting_queue"
   ],
   "note": ""
  },
  {
   "property": "C08",
   "status": "proved",
   "theorems": [
    "GoBCDice.C08_dRoll_value"
   ],
   "note": ""
  },
  {
   "property": "C09",
   "status": "proved",
   "theorems": [
    "GoBCDice.C09_sum_roll_bounds",
    "GoBCDice.queue_fairOn",
    "GoBCDice.mt_fairOn"
   ],
   "note": ""
  },
  {
   "property": "C10",
   "status": "proved",
   "theorems": [
    "GoBCDice.C10_bRoll",
    "GoBCDice.C10_bRoll_successes"
   ],
   "note": ""
  },
  {
   "property": "C11",
   "status": "proved",
   "theorems": [
    "GoBCDice.C11_rRoll_groups"
   ],
   "note": ""
  },
  {
   "property": "C12",
   "status": "proved",
   "theorems": [
    "GoBCDice.C12_rRoll_successes"
   ],
   "note": ""
  },
  {
   "property": "C13",
   "status": "proved",
   "theorems": [
    "GoBCDice.C13_uRoll_groups",
    "GoBCDice.UChain.ne_nil"
   ],
   "note": ""
  },
  {
   "property": "C14",
   "status": "proved",
   "theorems": [
    "GoBCDice.C14_uRoll_max_total",
    "GoBCDice.C14_uRoll_successes"
   ],
   "note": ""
  },
  {
   "property": "C15",
   "status": "proved",
   "theorems": [
    "GoBCDice.C15_bounded_dice",
    "GoBCDice.C15_bounded_calls",
    "GoBCDice.C15_bounded_input"
   ],
   "note": "any outcome, any feeder; bound in terms of the command (or input length) and MaxRerolls only"
  },
  {
   "property": "C16",
   "status": "proved",
   "theorems": [
    "GoBCDice.C16_random_number",
    "GoBCDice.C16_random_number_errors"
   ],
   "note": ""
  },
  {
   "property": "C17",
   "status": "proved",
   "theorems": [
    "GoBCDice.C17_division"
   ],
   "note": ""
  },
  {
   "property": "C18",
   "status": "proved",
   "theorems": [
    "GoBCDice.C18_div_up",
    "GoBCDice.C18_bound_needed"
   ],
   "note": "with the witnesses showing that the bound is needed"
  },
  {
   "property": "C19",
   "status": "proved",
   "theorems": [
    "GoBCDice.C19_div_round",
    "GoBCDice.C19_bound_needed"
   ],
   "note": "with a witness showing that a bound is needed"
  },
  {
   "property": "C20",
   "status": "proved",
   "theorems": [
    "GoBCDice.C20_exact_arithmetic",
    "GoBCDice.C20_wraps"
   ],
   "note": ""
  },
  {
   "property": "C21",
   "status": "proved",
   "theorems": [
    "GoBCDice.C21_verdict",
    "GoBCDice.C21_unspecified"
   ],
   "note": ""
  },
  {
   "property": "C22",
   "status": "proved",
   "theorems": [
    "GoBCDice.C22_choice",
    "GoBCDice.C22_choice_panic"
   ],
   "note": ""
  },
  {
   "property": "C23",
   "status": "proved",
   "theorems": [
    "GoBCDice.C23_calc_pure",
    "GoBCDice.C23_calc_pure_tree",
    "GoBCDice.C23_typed"
   ],
   "note": "Texts starting (after an optional secret marker) with a Calc command; outcome fixed before the feeder is chosen."
  },
  {
   "property": "C24",
   "status": "proved",
   "theorems": [
    "GoBCDice.C24_no_panic",
    "GoBCDice.C24_execute",
    "GoBCDice.C24_basicBot",
    "GoBCDice.C24_typed"
   ],
   "note": "any game-specific command that itself does not panic; inputs and choices shorter than 2^63 (every Go string)"
  },
  {
   "property": "C25",
   "status": "proved",
   "theorems": [
    "GoBCDice.C25_malformed",
    "GoBCDice.C25_typed"
   ],
   "note": "Basic dice bot."
  },
  {
   "property": "C27",
   "status": "proved",
   "theorems": [
    "GoBCDice.C27_language",
    "GoBCDice.C27_unambiguous",
    "GoBCDice.C27_sums",
    "GoBCDice.C27_products"
   ],
   "note": "The parser accepts exactly the grammar of Spec/Grammar.lean; sums and products characterised as left-grouped sequences."
  },
  {
   "property": "C28",
   "status": "proved",
   "theorems": [
    "GoBCDice.C28_depth",
    "GoBCDice.C28_repetitions"
   ],
   "note": "Depth bound and consumption; the Go recursion itself is modelled with a depth argument that is proved irrelevant."
  },
  {
   "property": "C29",
   "status": "proved",
   "theorems": [
    "GoBCDice.C29_case_insensitive",
    "GoBCDice.C29_choice_keyword"
   ],
   "note": "ASCII letters."
  },
  {
   "property": "C30",
   "status": "proved",
   "theorems": [
    "GoBCDice.C30_literals",
    "GoBCDice.C30_numbers",
    "GoBCDice.C30_leading_zeros"
   ],
   "note": ""
  },
  {
   "property": "C31",
   "status": "proved",
   "theorems": [
    "GoBCDice.C31_random_element",
    "GoBCDice.C31_arithmetic_rejected"
   ],
   "note": ""
  },
  {
   "property": "C32",
   "status": "proved",
   "theorems": [
    "GoBCDice.C32_roll_whole",
    "GoBCDice.C32_prefix",
    "GoBCDice.C32_roll_chars"
   ],
   "note": ""
  },
  {
   "property": "C33",
   "status": "proved",
   "theorems": [
    "GoBCDice.C33_secret",
    "GoBCDice.C33_flag"
   ],
   "note": "Any dice bot."
  },
  {
   "property": "C34",
   "status": "proved",
   "theorems": [
    "GoBCDice.C34_retry",
    "GoBCDice.C34_two_attempts",
    "GoBCDice.C34_refuted",
    "GoBCDice.C34_typed"
   ],
   "note": "Property states the actual behaviour; C34_refuted refutes the natural expectation."
  },
  {
   "property": "C35",
   "status": "proved",
   "theorems": [
    "GoBCDice.C35_rRoll_refusal",
    "GoBCDice.C35_uRoll_refusal",
    "GoBCDice.C35_rRollComp_refusal",
    "GoBCDice.C35_uRollComp_refusal"
   ],
   "note": ""
  },
  {
   "property": "C36",
   "status": "proved",
   "theorems": [
    "GoBCDice.C36_default_threshold",
    "GoBCDice.C12_rRoll_successes"
   ],
   "note": ""
  },
  {
   "property": "C37",
   "status": "proved",
   "theorems": [
    "GoBCDice.C37_message"
   ],
   "note": ""
  },
  {
   "property": "C38",
   "status": "proved",
   "theorems": [
    "GoBCDice.C38_replay_any",
    "GoBCDice.C38_replay_queue"
   ],
   "note": ""
  },
  {
   "property": "C39",
   "status": "proved",
   "theorems": [
    "GoBCDice.C39_later_dice"
   ],
   "note": ""
  },
  {
   "property": "C40",
   "status": "proved",
   "theorems": [
    "GoBCDice.C40_staged_eq_direct"
   ],
   "note": ""
  },
  {
   "property": "C41",
   "status": "proved",
   "theorems": [
    "GoBCDice.C41_staging"
   ],
   "note": ""
  },
  {
   "property": "C42",
   "status": "proved",
   "theorems": [
    "GoBCDice.C42_dRollComp_executes_iff",
    "GoBCDice.C42_computed_left_never_executes",
    "GoBCDice.C42_usage_example_never_executes"
   ],
   "note": "exact condition, and refutation of the expectation"
  },
  {
   "property": "C43",
   "status": "proved",
   "theorems": [
    "GoBCDice.C43_random_term_never_executes",
    "GoBCDice.C43_example_never_executes"
   ],
   "note": "refutation of the expectation, for all such commands"
  },
  {
   "property": "C52",
   "status": "proved",
   "theorems": [
    "GoBCDice.C52_execute",
    "GoBCDice.C52_history"
   ],
   "note": "all outcomes, all histories of rolls"
  },
  {
   "property": "C53",
   "status": "proved",
   "theorems": [
    "GoBCDice.C53_comment",
    "GoBCDice.C53_first_word",
    "GoBCDice.C34_typed"
   ],
   "note": "Basic dice bot."
  },
  {
   "property": "C26",
   "status": "proved",
   "theorems": [
    "GoBCDice.C26_command",
    "GoBCDice.C26_calc",
    "GoBCDice.C26_value",
    "GoBCDice.C26_stable",
    "GoBCDice.C26_redisplay",
    "GoBCDice.C26_refuted",
    "GoBCDice.C26_typed"
   ],
   "note": "true with the exceptions stated by Node.Faithful; the unrestricted expectation is refuted"
  },
  {
   "property": "C44",
   "status": "proved",
   "theorems": [
    "GoBCDice.C44_bonus",
    "GoBCDice.C44_bonus_compare",
    "GoBCDice.C44_refuted"
   ],
   "note": ""
  },
  {
   "property": "C48",
   "status": "proved",
   "theorems": [
    "GoBCDice.C48_language",
    "GoBCDice.C48_error",
    "GoBCDice.C48_round_trip",
    "GoBCDice.C48_injective",
    "GoBCDice.C48_bound_needed",
    "GoBCDice.C48_string",
    "GoBCDice.C48_string_injective"
   ],
   "note": "Full language, errors, round trip, injectivity; the printable-character table of %q is a parameter."
  },
  {
   "property": "C56",
   "status": "proved",
   "theorems": [
    "GoBCDice.C56_case",
    "GoBCDice.C56_file",
    "GoBCDice.C56_files_numbered"
   ],
   "note": "File system access is not modelled: files are given by their contents."
  },
  {
   "property": "C54",
   "status": "proved",
   "theorems": [
    "GoBCDice.C54_sexp_injective",
    "GoBCDice.C54_same_sexp_iff_same_tree"
   ],
   "note": "Injective for every table of printable characters; trees are those of the typed model (everything the parser builds and the evaluator makes of them)."
  },
  {
   "property": "C49",
   "status": "proved",
   "theorems": [
    "GoBCDice.C49_listed_iff_found",
    "GoBCDice.C49_found_has_id",
    "GoBCDice.C49_sorted",
    "GoBCDice.C49_deterministic",
    "GoBCDice.C49_total",
    "GoBCDice.C49_infos",
    "GoBCDice.C49_infos_sorted",
    "GoBCDice.C49_infos_deterministic",
    "GoBCDice.C49_infos_refuted",
    "GoBCDice.C49_repo"
   ],
   "note": "For every registry, every iteration order and every unstable sort; string order is code-point order (= Go's byte order on UTF-8)."
  },
  {
   "property": "C50",
   "status": "proved",
   "theorems": [
    "GoBCDice.C50_ok_flag",
    "GoBCDice.C50_array",
    "GoBCDice.C50_error",
    "GoBCDice.C50_error_text"
   ],
   "note": "echo (c.JSON) is the pair of its arguments."
  },
  {
   "property": "C51",
   "status": "proved",
   "theorems": [
    "GoBCDice.C51_messages",
    "GoBCDice.C51_has_messages"
   ],
   "note": "All histories."
  },
  {
   "property": "C57",
   "status": "proved",
   "theorems": [
    "GoBCDice.C57_select",
    "GoBCDice.C57_history"
   ],
   "note": "All registries keyed by the bots' own ids."
  },
  {
   "property": "C58",
   "status": "proved",
   "theorems": [
    "GoBCDice.C58_routes",
    "GoBCDice.C58_total",
    "GoBCDice.C58_repo_systems"
   ],
   "note": "Routing table as registered in controllers/router.go; echo not modelled."
  },
  {
   "property": "C05",
   "status": "proved",
   "theorems": [
    "GoBCDice.C05_queues_by_value",
    "GoBCDice.C05_clients_untouched",
    "GoBCDice.C05_client_operations",
    "GoBCDice.C05_next_delivers"
   ],
   "note": "Memory model with backing arrays, capacities and an arbitrary growth policy; any number of queues and client slices."
  },
  {
   "property": "C45",
   "status": "proved",
   "theorems": [
    "GoBCDice.C45_restored",
    "GoBCDice.C45_same_again",
    "GoBCDice.C45_history",
    "GoBCDice.C45_determined"
   ],
   "note": ""
  },
  {
   "property": "C46",
   "status": "proved",
   "theorems": [
    "GoBCDice.C46_one_feeder"
   ],
   "note": ""
  },
  {
   "property": "C47",
   "status": "proved",
   "theorems": [
    "GoBCDice.C47_ends_iff",
    "GoBCDice.C47_end_of_input",
    "GoBCDice.C47_eof_ends_refuted",
    "GoBCDice.C47_crash_iff",
    "GoBCDice.C47_crash_origin"
   ],
   "note": "the expectation that the end of input ends the tool is refuted"
  },
  {
   "property": "C59",
   "status": "proved",
   "theorems": [
    "GoBCDice.C59_dispatch"
   ],
   "note": ""
  },
  {
   "property": "C60",
   "status": "proved",
   "theorems": [
    "GoBCDice.C60_game",
    "GoBCDice.C60_games_total"
   ],
   "note": "with C57_history"
  },
  {
   "property": "C55",
   "status": "proved",
   "theorems": [
    "GoBCDice.C55_dRoll_message",
    "GoBCDice.C55_dComp_message",
    "GoBCDice.C55_determined",
    "GoBCDice.C55_command"
   ],
   "note": "RollsShown (Spec/Message.lean) relates plain texts and dice; determinacy proved."
  },
  {
   "property": "C61",
   "status": "proved",
   "theorems": [
    "GoBCDice.C61_reads",
    "GoBCDice.C61_means",
    "GoBCDice.C61_bonus"
   ],
   "note": "Stated with the grammar relation and executeBasicCommand; exception a*(b/c) is finding 1."
  },
  {
   "property": "C62",
   "status": "proved",
   "theorems": [
    "GoBCDice.C62_answers_only",
    "GoBCDice.C62_basic",
    "GoBCDice.C62_roller"
   ],
   "note": "Feeders as state machines; BotsAlike/AnswerAlike in Spec/Sim.lean."
  },
  {
   "property": "C63",
   "status": "proved",
   "theorems": [
    "GoBCDice.C63_eval_queue",
    "GoBCDice.C63_eval_random",
    "GoBCDice.C63_eval_empty",
    "GoBCDice.C63_roll_queue",
    "GoBCDice.C63_roll_random",
    "GoBCDice.C63_roll_usage",
    "GoBCDice.C63_ast",
    "GoBCDice.C63_ast_empty",
    "GoBCDice.C63_list_games",
    "GoBCDice.C63_list_games_repo",
    "GoBCDice.C63_help",
    "GoBCDice.C63_set_game_shown",
    "GoBCDice.C63_set_game",
    "GoBCDice.C63_set_die_feeder",
    "GoBCDice.C63_set_dice_queue",
    "GoBCDice.C63_silent",
    "GoBCDice.C63_welcome"
   ],
   "note": "Evaluation theorems for the registry of the code (basic game only)."
  },
  {
   "property": "C64",
   "status": "proved",
   "theorems": [
    "GoBCDice.C64_total",
    "GoBCDice.C64_sound",
    "GoBCDice.C64_language",
    "GoBCDice.C64_rule_functions",
    "GoBCDice.C64_invalid_bytes"
   ],
   "note": "Interpreter (Verif/Pigeon.lean) run on the table extracted mechanically from parser.go (Verif/PigeonGrammar.lean)."
  },
  {
   "property": "C65",
   "status": "proved",
   "theorems": [
    "GoBCDice.C65_located",
    "GoBCDice.C65_kinds",
    "GoBCDice.C65_no_random",
    "GoBCDice.C65_no_random_compare",
    "GoBCDice.C65_trailing",
    "GoBCDice.C65_meaning",
    "GoBCDice.C65_exact",
    "GoBCDice.C65_truthful",
    "GoBCDice.C65_accepted"
   ],
   "note": "posAt in Spec/Pigeon.lean gives line, column and offset; Spec/Peg.lean gives the meaning of the table and its misses."
  },
  {
   "property": "C66",
   "status": "proved",
   "theorems": [
    "GoBCDice.C66_returns",
    "GoBCDice.C66_execute",
    "GoBCDice.C66_malformed",
    "GoBCDice.C66_ast",
    "GoBCDice.C66_typed"
   ],
   "note": "Depth bound 171*(length+1) calls of the interpreter."
  },
  {
   "property": "C67",
   "status": "proved",
   "theorems": [
    "GoBCDice.C67_exponential"
   ],
   "note": "Cost counted by ExprCnt, as the code counts it."
  },
  {
   "property": "C68",
   "status": "proved",
   "theorems": [
    "GoBCDice.C68_execute",
    "GoBCDice.C68_built",
    "GoBCDice.C68_sharing_matters"
   ],
   "note": "Relation RepNode between memory and trees in Spec/Raw.lean; sharing hypothesis shown necessary."
  },
  {
   "property": "C69",
   "status": "proved",
   "theorems": [
    "GoBCDice.C69_eval",
    "GoBCDice.C69_notation",
    "GoBCDice.C69_sexp",
    "GoBCDice.C69_texts",
    "GoBCDice.C69_execute"
   ],
   "note": "Arbitrary graphs of nodes; Obj.skeleton in Spec/Raw.lean lists the replaceable links."
  },
  {
   "property": "C70",
   "status": "proved",
   "theorems": [
    "GoBCDice.C70_d_roll_frozen",
    "GoBCDice.C70_d_comparison_once",
    "GoBCDice.C70_others_again"
   ],
   "note": "Two executions of the same node in memory."
  },
  {
   "property": "C71",
   "status": "proved",
   "theorems": [
    "GoBCDice.C71_verdict",
    "GoBCDice.C71_panics",
    "GoBCDice.C71_names",
    "GoBCDice.C71_blind",
    "GoBCDice.C71_golden",
    "GoBCDice.C71_replay"
   ],
   "note": "Names differ for fewer than 2^63 test cases. Reporting to testing.T is modelled as lists of messages."
  },
  {
   "property": "C72",
   "status": "proved",
   "theorems": [
    "GoBCDice.C72_parse",
    "GoBCDice.C72_text",
    "GoBCDice.C72_independent",
    "GoBCDice.C72_basic",
    "GoBCDice.C72_command",
    "GoBCDice.C72_session"
   ],
   "note": "Simulation of the generated parser on memory by the one on trees (C64), joined with C68. Depth of calls bounded by the length of the text."
  },
  {
   "property": "C73",
   "status": "proved",
   "theorems": [
    "GoBCDice.C73_text_identifies",
    "GoBCDice.C73_inspect",
    "GoBCDice.C73_same_text",
    "GoBCDice.C73_without_spaces",
    "GoBCDice.C73_type",
    "GoBCDice.C73_cycle"
   ],
   "note": "Stack depth is a parameter."
  },
  {
   "property": "C74",
   "status": "proved",
   "theorems": [
    "GoBCDice.C74_max",
    "GoBCDice.C74_sum",
    "GoBCDice.C74_max_empty",
    "GoBCDice.C74_other"
   ],
   "note": "On every memory."
  },
  {
   "property": "C75",
   "status": "proved",
   "theorems": [
    "GoBCDice.C75_newArray_copies",
    "GoBCDice.C75_newArrayByMove_shares",
    "GoBCDice.C75_write",
    "GoBCDice.C75_append",
    "GoBCDice.C75_append_shows"
   ],
   "note": "Growth of append is a parameter."
  },
  {
   "property": "C76",
   "status": "proved",
   "theorems": [
    "GoBCDice.C76_calls_do_not_modify",
    "GoBCDice.C76_values",
    "GoBCDice.C76_computed_once",
    "GoBCDice.C76_bad_groups"
   ],
   "note": "Text of a failed type assertion is abstract."
  },
  {
   "property": "C77",
   "status": "proved",
   "theorems": [
    "GoBCDice.C77_case",
    "GoBCDice.C77_file",
    "GoBCDice.C77_division_unique",
    "GoBCDice.C77_files_error",
    "GoBCDice.C77_files"
   ],
   "note": "Files are name and contents; reading them from disk is not modelled."
  },
  {
   "property": "C78",
   "status": "proved",
   "theorems": [
    "GoBCDice.C78_execute",
    "GoBCDice.C78_unique",
    "GoBCDice.C78_answer"
   ],
   "note": "Outcome (Spec/Command), CommandText (Spec/Grammar), Marked, FirstWord, Succeeds (Spec/Answer); game bots other than the basic one do not exist in the repository."
  },
  {
   "property": "C79",
   "status": "proved",
   "theorems": [
    "GoBCDice.C79_execute_error",
    "GoBCDice.C79_execute_panic",
    "GoBCDice.C79_exclusive",
    "GoBCDice.C79_determined",
    "GoBCDice.C79_complete",
    "GoBCDice.C79_texts",
    "GoBCDice.C79_random",
    "GoBCDice.C79_answer",
    "GoBCDice.C79_answer_panic"
   ],
   "note": "CommandStops (Spec/Stop) and Fails, RefusalText (Spec/Answer); the text of a Go run-time panic is not specified."
  },
  {
   "property": "C80",
   "status": "proved",
   "theorems": [
    "GoBCDice.C80_execute",
    "GoBCDice.C80_answer",
    "GoBCDice.C80_comment",
    "GoBCDice.C80_random_dice"
   ],
   "note": "The generator is abstract (contract of Intn)."
  },
  {
   "property": "C81",
   "status": "proved",
   "theorems": [
    "GoBCDice.C81_parser",
    "GoBCDice.C81_basic",
    "GoBCDice.C81_text",
    "GoBCDice.C81_secret",
    "GoBCDice.C81_answer",
    "GoBCDice.C81_answer_error",
    "GoBCDice.C81_answer_panic",
    "GoBCDice.C81_order",
    "GoBCDice.C81_secret_choice"
   ],
   "note": "ByteCommand, Repaired, MarkedBytes, ByteSucceeds, ByteFails (Spec/Bytes)."
  },
  {
   "property": "C82",
   "status": "proved",
   "theorems": [
    "GoBCDice.C82_answers",
    "GoBCDice.C82_race_free",
    "GoBCDice.C82_pool",
    "GoBCDice.C82_progress",
    "GoBCDice.C82_finitely_many_steps",
    "GoBCDice.C82_finishes",
    "GoBCDice.C82_fair_execution",
    "GoBCDice.C82_can_finish",
    "GoBCDice.C82_parse"
   ],
   "note": "answersAlone, Worker, startAll, Execution, Execution.Fair (Spec/Conc); Step, CStep, Reaches (Conc)."
  },
  {
   "property": "C83",
   "status": "proved",
   "theorems": [
    "GoBCDice.C83_double",
    "GoBCDice.C83_determined",
    "GoBCDice.C83_overflow",
    "GoBCDice.C83_accurate"
   ],
   "note": "IsDouble, RoundsTo (Spec/Float): IEEE-754 binary64 declaratively."
  },
  {
   "property": "C84",
   "status": "proved",
   "theorems": [
    "GoBCDice.C84_answers",
    "GoBCDice.C84_queue",
    "GoBCDice.C84_alone",
    "GoBCDice.C84_progress",
    "GoBCDice.C84_finitely_many_calls",
    "GoBCDice.C84_finishes",
    "GoBCDice.C84_can_finish",
    "GoBCDice.C84_not_serial",
    "GoBCDice.C84_uninterrupted",
    "GoBCDice.C84_same_die_twice",
    "GoBCDice.C84_panic"
   ],
   "note": "Deals, callsOf, expecting, diceOf, SharedExecution (Spec/Share); stand, Step, Reaches, nextStep, twoCalls (Share)."
  },
  {
   "property": "C85",
   "status": "proved",
   "theorems": [
    "GoBCDice.C85_roll",
    "GoBCDice.C85_execute",
    "GoBCDice.C85_answer",
    "GoBCDice.C85_favourable",
    "GoBCDice.C85_certain",
    "GoBCDice.C85_independent",
    "GoBCDice.C85_choice",
    "GoBCDice.C85_expression",
    "GoBCDice.C85_total",
    "GoBCDice.C85_success",
    "GoBCDice.C85_binomial",
    "GoBCDice.C85_chain",
    "GoBCDice.C85_chain_atLeast"
   ],
   "note": "chance, fated, odds, allFaces, Answered, winningFaces (Spec/Chance): a probability space (Mathlib's product measure) for an ideal generator; that MT19937 is ideal is an assumption, not a theorem."
  },
  {
   "property": "C86",
   "status": "proved",
   "theorems": [
    "GoBCDice.C86_settings",
    "GoBCDice.C86_unique",
    "GoBCDice.C86_defaults",
    "GoBCDice.C86_limit_kept",
    "GoBCDice.C86_limit_exceeded",
    "GoBCDice.C86_invalid_bytes",
    "GoBCDice.C86_unknown_entry",
    "GoBCDice.C86_memoize_refuses",
    "GoBCDice.C86_entry_without_counter"
   ],
   "note": "CallsWith, limitOf, entryOf, memoOf, allowOf, recoverOf (Spec/PigeonOpt); exprCalls is the count the parser itself keeps. The last two are refutations of expectations (concrete inputs). Debug, Statistics, GlobalStore and InitState are not modelled."
  },
  {
   "property": "C87",
   "status": "proved",
   "theorems": [
    "GoBCDice.C87_candidates",
    "GoBCDice.C87_order",
    "GoBCDice.C87_command",
    "GoBCDice.C87_set_die_feeder",
    "GoBCDice.C87_set_game",
    "GoBCDice.C87_list_games",
    "GoBCDice.C87_blank_id_refused"
   ],
   "note": "PcItem.Path, completedLine, Typeable (Spec/Complete); Asks (Spec/Repl). The readline library that walks the tree is not modelled."
  },
  {
   "property": "C88",
   "status": "proved",
   "theorems": [
    "GoBCDice.C88_log_kept",
    "GoBCDice.C88_files",
    "GoBCDice.C88_stdout",
    "GoBCDice.C88_not_created",
    "GoBCDice.C88_log_lost",
    "GoBCDice.C88_port"
   ],
   "note": "startsOf, linesOf, Causal, logPath (Spec/Server). echo and its logger are not modelled: a server writes lines to the output it was given. C88_log_lost is a refutation."
  },
  {
   "property": "C89",
   "status": "proved",
   "theorems": [
    "GoBCDice.C89_compile",
    "GoBCDice.C89_search_none",
    "GoBCDice.C89_search_some",
    "GoBCDice.C89_first_word",
    "GoBCDice.C89_first_word_bytes",
    "GoBCDice.C89_die",
    "GoBCDice.C89_die_groups",
    "GoBCDice.C89_roll",
    "GoBCDice.C89_source",
    "GoBCDice.C89_source_none",
    "GoBCDice.C89_command",
    "GoBCDice.C89_command_groups",
    "GoBCDice.C89_tail"
   ],
   "note": "RxMatch (Spec/Regex) says what matching means; FirstWord, DieText, CaseDivision, CommandLine are the specifications of the other properties. The order of preference among matches beginning at one place (greedy first, as Go documents) is part of the model, Rx.ways."
  },
  {
   "property": "C90",
   "status": "proved",
   "theorems": [
    "GoBCDice.C90_range",
    "GoBCDice.C90_draws",
    "GoBCDice.C90_returns",
    "GoBCDice.C90_uniform",
    "GoBCDice.C90_next",
    "GoBCDice.C90_dice",
    "GoBCDice.C90_answers",
    "GoBCDice.C90_answer"
   ],
   "note": "math/rand is not in /repo: its Intn is modelled from its documented source (Rand.lean). That the source of numbers (MT19937) is perfect is the hypothesis, not a claim."
  },
  {
   "property": "C91",
   "status": "proved",
   "theorems": [
    "GoBCDice.C91_limits",
    "GoBCDice.C91_mean",
    "GoBCDice.C91_variance",
    "GoBCDice.C91_symmetric",
    "GoBCDice.C91_opposite",
    "GoBCDice.C91_successes"
   ],
   "note": "Expr.limits, mean, variance, Linear, Fits (Spec/Average); chance (Spec/Chance) is the ideal generator of C85; by C90 the same holds for 63-bit words."
  },
  {
   "property": "C92",
   "status": "proved",
   "theorems": [
    "GoBCDice.C92_R",
    "GoBCDice.C92_U",
    "GoBCDice.C92_R_successes"
   ],
   "note": "winningFaces, Answered (Spec/Chance), ShowsSuccesses (Spec/Average). One roll per command; ideal generator as in C85."
  },
  {
   "property": "C93",
   "status": "proved",
   "theorems": [
    "GoBCDice.C93_characters",
    "GoBCDice.C93_message",
    "GoBCDice.C93_one_line",
    "GoBCDice.C93_parts",
    "GoBCDice.C93_verdict",
    "GoBCDice.C93_same_message",
    "GoBCDice.C93_choice_mark",
    "GoBCDice.C93_choice_verdict",
    "GoBCDice.C93_choice_line"
   ],
   "note": "answerLetters, Chosen, verdictOf (Spec/Text.lean); splitSeq is strings.Split as in C56/C77. Error texts are the subject of C65 and C79."
  },
  {
   "property": "C94",
   "status": "proved",
   "theorems": [
    "GoBCDice.C94_sound",
    "GoBCDice.C94_again",
    "GoBCDice.C94_commands",
    "GoBCDice.C94_only",
    "GoBCDice.C94_missing_left",
    "GoBCDice.C94_missing_right",
    "GoBCDice.C94_missing_minus",
    "GoBCDice.C94_mismatch",
    "GoBCDice.C94_unknown_operator"
   ],
   "note": "Type soundness of Eval on graphs of nodes in memory with sharing (Spec/Typed gives the typing rules, one node at a time); the converse is for numbers and truth values, in memory without dangling references.  The text of an operator is all that counts: NewCompare(\"+\", 2, 3) evaluates to 5."
  },
  {
   "property": "C95",
   "status": "proved",
   "theorems": [
    "GoBCDice.C95_execute",
    "GoBCDice.C95_infix",
    "GoBCDice.C95_sexp",
    "GoBCDice.C95_history"
   ],
   "note": "Histories of calls are NodeCall, runCalls (Spec/NodeCalls); d is the room for nested calls, one more than the depth of the graph suffices."
  },
  {
   "property": "C96",
   "status": "proved",
   "theorems": [
    "GoBCDice.C96_kind",
    "GoBCDice.C96_names",
    "GoBCDice.C96_refused",
    "GoBCDice.C96_accepted",
    "GoBCDice.C96_u_roll",
    "GoBCDice.C96_unready",
    "GoBCDice.C96_random",
    "GoBCDice.C96_unsettled",
    "GoBCDice.C96_no_comparison",
    "GoBCDice.C96_no_infix"
   ],
   "note": "The tables of kinds and refusals are in Spec/Kinds."
  },
  {
   "property": "C97",
   "status": "proved",
   "theorems": [
    "GoBCDice.C97_reads",
    "GoBCDice.C97_table",
    "GoBCDice.C97_parse",
    "GoBCDice.C97_source",
    "GoBCDice.C97_functions",
    "GoBCDice.C97_helpers"
   ],
   "note": "The reader of grammar files is in Spec/GrammarFile; the texts are embedded character by character by tools/gen_grammar_text.py, which interprets nothing. C97_parse is for all inputs; the others are facts about the whole text of the two files."
  },
  {
   "property": "C98",
   "status": "proved",
   "theorems": [
    "GoBCDice.C98_numbers",
    "GoBCDice.C98_whole",
    "GoBCDice.C98_compare",
    "GoBCDice.C98_answer",
    "GoBCDice.C98_calc_needed",
    "GoBCDice.C98_limits",
    "GoBCDice.C98_parentheses",
    "GoBCDice.C98_parentheses_answer",
    "GoBCDice.C98_balanced_needed",
    "GoBCDice.C98_typed"
   ],
   "note": "WholeNumber, Spelling and Balanced (Spec/Writing) speak of texts only."
  },
  {
   "property": "C99",
   "status": "proved",
   "theorems": [
    "GoBCDice.C99_sum",
    "GoBCDice.C99_B",
    "GoBCDice.C99_R",
    "GoBCDice.C99_U",
    "GoBCDice.C99_opposite",
    "GoBCDice.C99_chance",
    "GoBCDice.C99_easier",
    "GoBCDice.C99_R_needs_threshold"
   ],
   "note": "Easier, CountShown and RefusalShown are in Spec/Easier."
  },
  {
   "property": "C100",
   "status": "proved",
   "theorems": [
    "GoBCDice.C100_total",
    "GoBCDice.C100_verdict",
    "GoBCDice.C100_B",
    "GoBCDice.C100_move",
    "GoBCDice.C100_move_bound_needed",
    "GoBCDice.C100_order_matters",
    "GoBCDice.C100_twice_refuted"
   ],
   "note": "Rearranged and ShowsVerdict are in Spec/Rearrange; chance (Spec/Chance) is the ideal generator of C85."
  },
  {
   "property": "C101",
   "status": "proved",
   "theorems": [
    "GoBCDice.C101_die",
    "GoBCDice.C101_more",
    "GoBCDice.C101_op",
    "GoBCDice.C101_number",
    "GoBCDice.C101_target"
   ],
   "note": "Totals, BinOp.value (Spec/Rearrange), divValue (C17-C19); chance (Spec/Chance) is the ideal generator of C85."
  },
  {
   "property": "C102",
   "status": "proved",
   "theorems": [
    "GoBCDice.C102_total",
    "GoBCDice.C102_success",
    "GoBCDice.C102_B",
    "GoBCDice.C102_product_falls",
    "GoBCDice.C102_division",
    "GoBCDice.C102_division_success"
   ],
   "note": "Better, Tends (Spec/Better); Whole and Fits are those of C91; C102_division allows / by numbers below 2^52 (Expr.reach)."
  },
  {
   "property": "C103",
   "status": "proved",
   "theorems": [
    "GoBCDice.C103_by_value",
    "GoBCDice.C103_clients_untouched",
    "GoBCDice.C103_client_operations",
    "GoBCDice.C103_results_stay",
    "GoBCDice.C103_roll"
   ],
   "note": "listOwners, listHeld (Spec/EnvMem) are the by-value specification."
  },
  {
   "property": "C104",
   "status": "proved",
   "theorems": [
    "GoBCDice.C104_answer",
    "GoBCDice.C104_shared",
    "GoBCDice.C104_select",
    "GoBCDice.C104_lost",
    "GoBCDice.C104_proper",
    "GoBCDice.C104_separate",
    "GoBCDice.C104_feeder",
    "GoBCDice.C104_execute",
    "GoBCDice.C104_new",
    "GoBCDice.C104_typed"
   ],
   "note": "Uses, underName, BotOp.proper, BotOp.keepsDiceBots in Spec/BotMem."
  },
  {
   "property": "C105",
   "status": "proved",
   "theorems": [
    "GoBCDice.C105_shape",
    "GoBCDice.C105_chat",
    "GoBCDice.C105_first"
   ],
   "note": "LooksLikeChoice, LooksLikeCalc, LooksLikeRoll, Nested in Spec/Chat; basic dice bot."
  },
  {
   "property": "C106",
   "status": "proved",
   "theorems": [
    "GoBCDice.C106_again",
    "GoBCDice.C106_replay",
    "GoBCDice.C106_dots_needed",
    "GoBCDice.C106_failure_needed"
   ],
   "note": "session, sessionLog, HasDots, RefusesThreshold in Spec/Session; basic dice bot."
  },
  {
   "property": "C107",
   "status": "proved",
   "theorems": [
    "GoBCDice.C107_polynomial",
    "GoBCDice.C107_no_parentheses",
    "GoBCDice.C107_limit"
   ],
   "note": "NestedAtMost in Spec/Nesting; rule Command, without Memoize."
  },
  {
   "property": "C108",
   "status": "proved",
   "theorems": [
    "GoBCDice.C108_call",
    "GoBCDice.C108_shared",
    "GoBCDice.C108_count"
   ],
   "note": "CountedCall, CountedCalls, workOf in Spec/PigeonStats; ExprCnt as a natural number; ChoiceAltCnt not modelled."
  },
  {
   "property": "C109",
   "status": "proved",
   "theorems": [
    "GoBCDice.C109_passes",
    "GoBCDice.C109_failure",
    "GoBCDice.C109_line_needed"
   ],
   "note": "C109_passes for every session, feeder and game ID by C106, C71, C56, C93 and the characterisation of failures (C79); C109_failure that failing does not depend on the dice being there; C109_line_needed the exception."
  },
  {
   "property": "C110",
   "status": "proved",
   "theorems": [
    "GoBCDice.C110_dividend",
    "GoBCDice.C110_divisor",
    "GoBCDice.C110_methods",
    "GoBCDice.C110_range_needed"
   ],
   "note": "C110_dividend and C110_divisor for all 64-bit operands and methods whose quotients fit (the double quotient is monotone, C83); C110_methods compares the methods; C110_range_needed the exception."
  },
  {
   "property": "C111",
   "status": "proved",
   "theorems": [
    "GoBCDice.C111_length",
    "GoBCDice.C111_dice_shown"
   ],
   "note": "C111_length for everything typed, by C78 (outcomes) and C27 (trees of texts); C111_dice_shown that the number of dice must be in the bound. Lengths in characters."
  },
  {
   "property": "C112",
   "status": "proved",
   "theorems": [
    "GoBCDice.C112_by_hand",
    "GoBCDice.C112_rolls",
    "GoBCDice.C112_target",
    "GoBCDice.C112_single_needed",
    "GoBCDice.C112_typed",
    "GoBCDice.C112_typed_rolls"
   ],
   "note": "The balanced pair is found in every derivation of the grammar and replaced by one with the same value; trees that differ in such calculations only are evaluated alike stage by stage; C112_single_needed the exception. C112_typed, C112_typed_rolls: the same for the text typed to the bot, with the mark of secret rolls and with comments."
  },
  {
   "property": "C113",
   "status": "proved",
   "theorems": [
    "GoBCDice.C113_outcome",
    "GoBCDice.C113_calculation",
    "GoBCDice.C113_steps",
    "GoBCDice.C113_errors",
    "GoBCDice.C113_rounding",
    "GoBCDice.C113_number",
    "GoBCDice.C113_laws"
   ],
   "note": "Spec/Steps says what calculating and failing mean in terms of typed commands; calculations are texts with matching parentheses."
  },
  {
   "property": "C114",
   "status": "proved",
   "theorems": [
    "GoBCDice.C114_signs",
    "GoBCDice.C114_opposite",
    "GoBCDice.C114_counts"
   ],
   "note": "FitTogether (Spec/Signs) says what it means that six answers fit together; the values and the target compared are existentially quantified, the same for the six (C08, C10, C11, C12 say which they are)."
  },
  {
   "property": "C115",
   "status": "proved",
   "theorems": [
    "GoBCDice.C115_values",
    "GoBCDice.C115_successes",
    "GoBCDice.C115_total",
    "GoBCDice.C115_successes_U",
    "GoBCDice.C115_max_total",
    "GoBCDice.C115_typed",
    "GoBCDice.C115_R_needed",
    "GoBCDice.C115_numbers_needed"
   ],
   "note": "Replies (Spec/InTurn): the text is answered with these dice and this last message part, the feeder going from f to f'. The two _needed are counterexamples for R rolls and random numbers (concrete inputs). Totals wrap modulo 2^64 as everywhere (C20)."
  },
  {
   "property": "C116",
   "status": "proved",
   "theorems": [
    "GoBCDice.C116_total",
    "GoBCDice.C116_R",
    "GoBCDice.C116_U",
    "GoBCDice.C116_max_total",
    "GoBCDice.C116_calm_needed"
   ],
   "note": "Same rolls (RollsText with the letters of each kind, same list of numbers and sides); Replies as in C115, C115_typed carries all to what is typed. C116_calm_needed is the example that shows the need of the condition."
  },
  {
   "property": "C117",
   "status": "proved",
   "theorems": [
    "GoBCDice.C117_operation",
    "GoBCDice.C117_division",
    "GoBCDice.C117_rounding",
    "GoBCDice.C117_answered",
    "GoBCDice.C117_sign"
   ],
   "note": "IsAmount and Amount (Spec/Amount): a D roll executed by itself, or what C(...) answers. C117_operation contains C115_total. Without a bound on the amounts /U and /R are answered under the same conditions (C117_rounding, C117_answered), the quotient being the double precision one of C83."
  },
  {
   "property": "C118",
   "status": "proved",
   "theorems": [
    "GoBCDice.C118_total",
    "GoBCDice.C118_B",
    "GoBCDice.C118_R"
   ],
   "note": "Replies as in C115 (answered text, dice, last message part, feeder); CmpOp.Rel (Spec/Command) are the six relations on integers."
  },
  {
   "property": "C119",
   "status": "proved",
   "theorems": [
    "GoBCDice.C119_bonus",
    "GoBCDice.C119_target",
    "GoBCDice.C119_overflow"
   ],
   "note": "Replies and maxAndTotalShown as in C115. C119_overflow is the example for >= (concrete inputs)."
  }
 ]
}