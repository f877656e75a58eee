{"id": "C01", "title": "RollDice returns exactly the requested dice, in feed order", "statement": "When DiceRoller.RollDice(num, sides) succeeds it returns exactly num dice, every one of them has the requested number of sides, and they are exactly the num dice obtained by calling the feeder num times, in the order the feeder produced them; the feeder is left just after them.", "quantifier": "every die feeder (any implementation of DieFeeder), every feeder state, every num and sides in the 64-bit range", "why_tests_cant": "A test fixes one feeder content, one num and one sides; the claim is about all counts, all sides and every feeder implementation.", "anchors": ["pkg/core/dice/roller/roller.go:DiceRoller.RollDice", "pkg/core/dice/feeder/queue.go:Queue.Next"]}
{"id": "C02", "title": "RollDice rejects non-positive counts and sides before touching the feeder", "statement": "RollDice(num, sides) with sides < 1 or num < 1 returns an error (the sides error taking precedence) and no die is drawn; conversely it never returns one of those two errors for num >= 1 and sides >= 1 unless the feeder itself reports it.", "quantifier": "all num, sides and feeder states", "why_tests_cant": "The bad region is a half-plane of inputs.", "anchors": ["pkg/core/dice/roller/roller.go:DiceRoller.RollDice"]}
{"id": "C03", "title": "RollDice failures with a queue: exactly the dice up to and including the offending one are consumed", "statement": "With a Queue feeder, sides >= 1 and num between 1 and 2^44, RollDice succeeds iff the first num queued dice exist and all have the requested sides; otherwise it fails with the mismatch error naming the first wrong die (consuming the dice up to and including it) or with the empty-queue error (consuming the whole queue). For num > 2^44 (more than make() can allocate) RollDice panics with any feeder and draws nothing.", "quantifier": "all queues, num, sides", "why_tests_cant": "Position of the first mismatch, queue length and num are unbounded.", "anchors": ["pkg/core/dice/roller/roller.go:DiceRoller.RollDice", "pkg/core/dice/feeder/queue.go:Queue.Next"]}
{"id": "C04", "title": "Queue feeder is a FIFO of dice over every history", "statement": "After any history of Push/Append/Clear/Set/Next calls on a Queue, Dice() is the list a plain FIFO would hold, Remaining() is its length, IsEmpty() says whether it is empty, and Next returns the oldest die whatever sides are requested, or an error and no change when empty.", "quantifier": "all histories of queue operations", "why_tests_cant": "Histories are unbounded; tests exercise a handful.", "anchors": ["pkg/core/dice/feeder/queue.go"]}
{"id": "C05", "title": "Queue isolation: slices passed in or handed out are never aliased with the queue", "statement": "Mutating a slice obtained from Queue.Dice() or previously given to NewQueue/Append/Set never changes what the queue later delivers, and queue operations never change such a slice.", "quantifier": "all heaps, all slices, all operation interleavings", "why_tests_cant": "Aliasing depends on slice capacities and histories.", "anchors": ["pkg/core/dice/feeder/queue.go:Queue.Dice", "pkg/core/dice/feeder/queue.go:Queue.Set"]}
{"id": "C06", "title": "Random dice are always in range", "statement": "With the MT19937 feeder every die drawn by a successful or failing RollDice has the requested sides and a value between 1 and sides, RollDice never fails for sides >= 1 and num between 1 and 2^44 (the most make() can allocate) and never reaches the panic of rand.Intn.", "quantifier": "all generators whose Intn(n) lies in [0,n), all seeds/states, num, sides", "why_tests_cant": "Random streams cannot be enumerated.", "anchors": ["pkg/core/dice/feeder/mt19937.go:MT19937.Next", "pkg/core/dice/roller/roller.go"]}
{"id": "C07", "title": "Dice accounting: RolledDice is exactly what the command drew", "statement": "When executing a basic command succeeds and is not a reroll-threshold rejection and not a Calc, Result.RolledDice is exactly the sequence of all dice the command drew from the feeder, in draw order (with a Queue: old queue = RolledDice followed by the new queue).", "quantifier": "all command trees, feeders and feeder states", "why_tests_cant": "Quantifies over all commands and all dice.", "anchors": ["pkg/core/command/command.go:Execute", "pkg/core/evaluator/evaluator.go:Evaluator.RollDice", "pkg/core/evaluator/environment.go"]}
{"id": "C08", "title": "D-roll expression: the reported value is the arithmetic of the dice", "statement": "When a D-roll command succeeds, the reported value equals the value of the arithmetic expression in which each roll xDy is replaced by the sum of the x dice drawn for it, the dice being drawn left to right, after the random-number arguments.", "quantifier": "all D-roll expression trees, feeders, dice", "why_tests_cant": "Unbounded expression trees.", "anchors": ["pkg/core/command/execute_d_roll_expr.go", "pkg/core/evaluator/eval_var_args.go", "pkg/core/evaluator/determine_values.go", "pkg/core/evaluator/eval_infix_expression.go"]}
{"id": "C09", "title": "Sum roll bounds", "statement": "For dice whose values lie in 1..sides, a successful xDy has a value between x and x*y provided x*y fits in 64 bits.", "quantifier": "all x, y, dice", "why_tests_cant": "Range of x and y and dice outcomes.", "anchors": ["pkg/core/evaluator/eval_infix_expression.go:evalSumRoll"]}
{"id": "C10", "title": "B roll: one value per die, in order; success count is the number of values satisfying the comparison", "statement": "xBy+zBw+... yields exactly the x+z+... drawn dice values in order; with a comparison the count reported is exactly the number of those values that satisfy it.", "quantifier": "all B-roll lists, comparison operators, targets and dice", "why_tests_cant": "Unbounded lists.", "anchors": ["pkg/core/evaluator/eval_b_roll_list.go", "pkg/core/evaluator/eval_b_roll_comp.go", "pkg/core/evaluator/eval_infix_expression.go:countNumOfSuccesses"]}
{"id": "C11", "title": "R roll: reroll groups follow the reroll rule", "statement": "The value groups of an R roll are produced by a FIFO of pending rolls: every group with k>0 values at or above the threshold schedules one more roll of k dice of the same sides behind the pending ones, groups appear in that order, and the process stops when nothing is pending or after MaxRerolls groups.", "quantifier": "all R-roll lists, thresholds, dice", "why_tests_cant": "Chains of rerolls are unbounded in principle.", "anchors": ["pkg/core/evaluator/eval_r_roll_list.go"]}
{"id": "C12", "title": "R roll success count", "statement": "For an R roll with comparison, the number reported is the number of values, over all groups including rerolls, that satisfy the comparison.", "quantifier": "all R-roll results", "why_tests_cant": "Unbounded groups.", "anchors": ["pkg/core/evaluator/eval_r_roll_comp.go"]}
{"id": "C13", "title": "U roll: group structure", "statement": "A U roll yields exactly one group per requested die, in order; in each group every value except possibly the last reaches the threshold and the last does not, unless the group has MaxRerolls values; groups are never empty (for MaxRerolls >= 1) and concatenated they are the dice drawn in order.", "quantifier": "all U-roll lists, thresholds, dice", "why_tests_cant": "Unbounded chains.", "anchors": ["pkg/core/evaluator/eval_u_roll_expr.go:evalCompoundingRoll"]}
{"id": "C14", "title": "U roll: maximum and total", "statement": "A U-roll expression reports max = (largest group sum) + modifier and total = (sum of all values) + modifier; with a comparison it counts the groups whose sum + modifier satisfies it.", "quantifier": "all group arrays and modifiers", "why_tests_cant": "Unbounded groups.", "anchors": ["pkg/core/object/u_roll_expr_result.go", "pkg/core/evaluator/eval_u_roll_comp.go", "pkg/core/object/array.go"]}
{"id": "C15", "title": "Rerolls terminate: bounded number of dice", "statement": "Whatever the dice, an R roll makes at most MaxRerolls group rolls and a U roll draws at most num*MaxRerolls dice, so execution of any command draws a bounded number of dice.", "quantifier": "all dice streams, including adversarial ones", "why_tests_cant": "A liveness property over infinite streams.", "anchors": ["pkg/core/evaluator/eval_r_roll_list.go", "pkg/core/evaluator/eval_u_roll_expr.go"]}
{"id": "C16", "title": "Random number lies in its interval", "statement": "[min...max] with min < max draws one die with max-min+1 sides and, for an in-range die, yields a value v with min <= v <= max; min >= max is an error drawing nothing; when max-min+1 overflows it is an error, never a wrong value.", "quantifier": "all 64-bit min, max and dice", "why_tests_cant": "2^128 argument pairs with wrap-around.", "anchors": ["pkg/core/evaluator/eval_infix_expression.go:evalRandomNumber"]}
{"id": "C17", "title": "Plain division truncates toward zero and zero divisors are errors", "statement": "a/b with b <> 0 yields the mathematical quotient truncated toward zero (wrapping only for MinInt64/-1); any division by zero yields the error \"a divided by zero\" and never panics.", "quantifier": "all 64-bit a, b and rounding methods", "why_tests_cant": "2^128 pairs.", "anchors": ["pkg/core/evaluator/eval_infix_expression.go:evalIntegerDivide"]}
{"id": "C18", "title": "Division rounding up", "statement": "For all operands below 2^53 in magnitude, b nonzero, a/bU yields the smallest integer not below a/b. The restriction is needed because the code divides in float64: 9007199254740993/1U yields 9007199254740992 and 9223372036854775807/1U yields -9223372036854775808.", "quantifier": "all 64-bit a, b", "why_tests_cant": "Floating point rounding over 2^128 pairs.", "anchors": ["pkg/core/evaluator/eval_infix_expression.go:evalIntegerDivide"]}
{"id": "C19", "title": "Division rounding to nearest", "statement": "For all operands with |a| < 2^52 and |b| < 2^53, b nonzero, a/bR yields the integer nearest to a/b, halves going away from zero. A restriction is needed because the code divides in float64: 9007199254740993/1R does not yield the nearest integer.", "quantifier": "all 64-bit a, b", "why_tests_cant": "Floating point rounding over 2^128 pairs.", "anchors": ["pkg/core/evaluator/eval_infix_expression.go:evalIntegerDivide"]}
{"id": "C20", "title": "Arithmetic agrees with mathematics when nothing overflows", "statement": "If every intermediate result of an expression fits in 64 bits, Eval returns exactly the mathematical value; in general +,-,* are exact modulo 2^64.", "quantifier": "all expression trees", "why_tests_cant": "Unbounded trees.", "anchors": ["pkg/core/evaluator/eval_infix_expression.go", "pkg/core/evaluator/eval_prefix_expression.go"]}
{"id": "C21", "title": "D-roll comparison verdict", "statement": "A D-roll comparison command reports success exactly when the value of its left side stands in the written relation to the value of its right side; the text 成功/失敗 and SuccessCheckResult agree; every other command reports UNSPECIFIED.", "quantifier": "all comparison commands, operators, dice", "why_tests_cant": "All expressions and dice.", "anchors": ["pkg/core/command/execute_d_roll_comp.go", "pkg/core/command/result.go"]}
{"id": "C22", "title": "Choice picks exactly one of its items with one die", "statement": "CHOICE[...] with n items draws exactly one n-sided die and reports item number v for die value v in 1..n; every item is reachable; a die outside 1..n panics.", "quantifier": "all item lists and dice", "why_tests_cant": "Unbounded item lists.", "anchors": ["pkg/core/evaluator/eval_choice.go", "pkg/core/command/execute_choice.go"]}
{"id": "C23", "title": "Calc is pure", "statement": "Executing C(expr) never draws dice, leaves the feeder unchanged, reports no RolledDice and its result does not depend on the feeder.", "quantifier": "all calc commands and feeders", "why_tests_cant": "All expressions and feeder states.", "anchors": ["pkg/core/command/execute_calc.go"]}
{"id": "C24", "title": "No panic on sane feeders", "statement": "If every die the feeder delivers has a value within its sides, and no roll asks for more dice than make() can allocate, ExecuteCommand never panics, whatever the input string.", "quantifier": "all input strings, all well-formed feeders", "why_tests_cant": "All strings.", "anchors": ["pkg/bcdice/bcdice.go:BCDice.ExecuteCommand", "pkg/core/evaluator", "pkg/core/command"]}
{"id": "C25", "title": "Malformed input costs no dice", "statement": "If neither the input (after removing the secret marker) nor its first word parses as a command, ExecuteCommand returns an error and the feeder is unchanged.", "quantifier": "all strings and feeders", "why_tests_cant": "All strings.", "anchors": ["pkg/bcdice/bcdice.go:BCDice.ExecuteCommand"]}
{"id": "C26", "title": "The displayed command means the command", "statement": "The first part of a successful roll's message, without its parentheses, is itself a command; executed on the dice of the rolls proper (a suffix of the dice rolled) it gives the same message and verdict. The first part of a calculation is a calculation with the same result. Exceptions, stated exactly: a product whose right factor starts with a division (2*(3/2) is displayed 2*3/2 -- refuted), values equal to the smallest 64-bit integer, empty choice items, more than 10000 R rolls in one list. For every arithmetic expression the displayed text is in the language, is displayed as itself and, in the absence of such products, has the same values.", "quantifier": "all input texts, all feeders, all dice; all arithmetic expressions the parser can produce", "why_tests_cant": "Unbounded trees.", "anchors": ["pkg/core/notation/notation.go:InfixNotation", "pkg/core/parser/parser.pigeon"]}
{"id": "C27", "title": "Operator precedence and associativity of the accepted language", "statement": "Every accepted arithmetic text is a sequence of terms joined by + and -, each a sequence of primaries joined by *, /, /..U, /..R; the tree returned groups * and / before + and -, and operators of the same level to the left; conversely every text of that shape is accepted, with that tree.", "quantifier": "all strings", "why_tests_cant": "All strings.", "anchors": ["pkg/core/parser/parser.pigeon:IntExpr", "pkg/core/parser/parser.pigeon:leftAssociativeAdditive"]}
{"id": "C28", "title": "The parser terminates on every input", "statement": "Parsing any string finishes, with a recursion depth bounded by the length of the input, and the repetition operators never loop without consuming input.", "quantifier": "all strings", "why_tests_cant": "All strings.", "anchors": ["pkg/core/parser/parser.go", "pkg/core/parser/parser.pigeon"]}
{"id": "C29", "title": "Command letters are case-insensitive", "statement": "Changing the case of any ASCII letter of a command without choice items changes neither whether it is accepted nor the tree produced.", "quantifier": "all strings", "why_tests_cant": "All strings.", "anchors": ["pkg/core/parser/parser.pigeon"]}
{"id": "C30", "title": "Integer literals", "statement": "A literal denotes its decimal value, leading zeros ignored, and saturates at 2^63-1 instead of failing.", "quantifier": "all digit strings", "why_tests_cant": "Digit strings are unbounded.", "anchors": ["pkg/core/parser/parser.pigeon:Integer"]}
{"id": "C31", "title": "A D command needs a random element", "statement": "A text accepted as a D-roll command or comparison always contains at least one roll or random number; a purely arithmetic text is rejected.", "quantifier": "all strings", "why_tests_cant": "All strings.", "anchors": ["pkg/core/parser/parser.pigeon:DRollExprCommand", "pkg/core/parser/parser.pigeon:DRollCompCommand"]}
{"id": "C32", "title": "Whole-input matching", "statement": "Roll commands are accepted only when they span the entire text; Calc and Choice ignore any text after their closing bracket.", "quantifier": "all strings", "why_tests_cant": "All strings.", "anchors": ["pkg/core/parser/parser.pigeon:CommandWithExpression", "pkg/core/parser/parser.pigeon:Calc"]}
{"id": "C33", "title": "Secret rolls", "statement": "For every input not itself starting with S/s, 'S'+input and 's'+input have the same outcome and side effects as input except that Result.IsSecret is true; IsSecret is true exactly when the input starts with S or s and it succeeds.", "quantifier": "all strings and feeders", "why_tests_cant": "All strings.", "anchors": ["pkg/core/util/secret_roll.go", "pkg/bcdice/bcdice.go:BCDice.ExecuteCommand"]}
{"id": "C34", "title": "A failing command is silently evaluated a second time", "statement": "When the evaluation of a command without white space fails, ExecuteCommand evaluates the same text exactly once more, from the feeder state the failed attempt left, and reports the outcome of that second attempt; never are there more than two attempts. (One would expect that a failing command is not re-rolled; that expectation is refuted: with the queue 3/8, 4/6 the command 1D6 first fails and then reports 4, and 1D6/0 costs two dice.)", "quantifier": "all inputs and all feeders, in any state", "why_tests_cant": "All histories.", "anchors": ["pkg/bcdice/bcdice.go:BCDice.ExecuteCommand"]}
{"id": "C35", "title": "Reroll thresholds below 2 are refused", "statement": "R and U commands whose threshold is missing or evaluates below 2 roll none of their dice and report the explanatory message; those with a threshold >= 2 are rolled.", "quantifier": "all R and U commands", "why_tests_cant": "All thresholds expressions.", "anchors": ["pkg/core/evaluator/reroll_threshold.go", "pkg/core/command/execute_r_roll_list.go"]}
{"id": "C36", "title": "Default reroll threshold of an R comparison is its target", "statement": "An R-roll comparison without [n] uses the value of its target as reroll threshold, an explicit [n] wins; if the target contains no random number, the comparison without [n] succeeds exactly when the one with [target] does, with the same result, dice and feeder.", "quantifier": "all R comparisons", "why_tests_cant": "All expressions.", "anchors": ["pkg/core/evaluator/reroll_threshold.go:SetRerollThreshold"]}
{"id": "C37", "title": "Message format", "statement": "Result.Message is GameID + \" : \" + the message parts joined by \" ＞ \", and each command kind produces a fixed number and shape of parts.", "quantifier": "all results", "why_tests_cant": "All commands.", "anchors": ["pkg/core/command/result.go"]}
{"id": "C38", "title": "Replay", "statement": "Re-executing a command with a Queue holding exactly the RolledDice of a previous successful execution (with any feeder) gives the same Result and empties the queue.", "quantifier": "all commands, feeders, histories", "why_tests_cant": "All dice sequences.", "anchors": ["pkg/core/command", "pkg/core/dice/feeder/queue.go"]}
{"id": "C39", "title": "Later dice do not matter", "statement": "With a Queue, dice behind those drawn influence neither the result nor are they removed: a success on queue q is the same success on q++extra leaving extra behind.", "quantifier": "all commands, queues and extra dice", "why_tests_cant": "All queues.", "anchors": ["pkg/core/dice/feeder/queue.go"]}
{"id": "C40", "title": "Staged evaluation agrees with direct evaluation", "statement": "For roll expressions without random-number arguments, evaluating arguments, then determining the dice, then evaluating (as commands do) succeeds in exactly the same cases, with the same value and the same dice, as evaluating the tree directly.", "quantifier": "all expression trees", "why_tests_cant": "Unbounded trees.", "anchors": ["pkg/core/evaluator/eval_var_args.go", "pkg/core/evaluator/determine_values.go", "pkg/core/evaluator/evaluator.go"]}
{"id": "C41", "title": "After staging nothing variable remains", "statement": "After a successful EvalVarArgs every remaining D roll that is a proper operand has literal integer arguments; after a successful DetermineValues the tree contains no variable node, so the final evaluation draws no dice.", "quantifier": "all expression trees", "why_tests_cant": "Unbounded trees.", "anchors": ["pkg/core/evaluator/eval_var_args.go", "pkg/core/evaluator/determine_values.go"]}
{"id": "C42", "title": "Computed dice counts in comparisons", "statement": "A D comparison executes only if its left side is a compound expression or a single roll with literal number and sides; in particular a comparison whose left side is a single roll with computed number or sides, such as (8/2)D(4+6)<=(5*3) from the usage text, fails on every feeder.", "quantifier": "all such commands", "why_tests_cant": "All expressions.", "anchors": ["pkg/core/evaluator/eval_var_args.go:evalVarArgsInCompare", "pkg/dicebot/gamesystem/basic/basic.go"]}
{"id": "C43", "title": "Random numbers as terms of a D expression", "statement": "A D command in which [a...b] is used as a term, e.g. [1...3]+2D6, is accepted by the parser but its execution fails on every feeder and every dice history.", "quantifier": "all such commands", "why_tests_cant": "All expressions.", "anchors": ["pkg/core/evaluator/eval_var_args.go", "pkg/core/evaluator/determine_values.go"]}
{"id": "C44", "title": "The bonus of a U roll is one signed sum", "statement": "In xUy[t]+e and xUy[t]-e everything after the sign is one arithmetic expression e: the modifier is the value of e, resp. its negation. (One would expect -1+2 to mean +1 as in ordinary arithmetic; that is refuted: 3U6[6]-1+2 has modifier -3.)", "quantifier": "all U commands, with and without comparison", "why_tests_cant": "All strings.", "anchors": ["pkg/core/parser/parser.pigeon:URollExpr"]}
{"id": "C45", "title": "REPL restores a manual dice queue after each evaluation", "statement": "In the interactive tool with a manual dice queue, any line that evaluates a command, rolls (.roll), shows a syntax tree, lists or helps leaves the whole state as it was apart from the text printed, and entering it again any number of times prints the same text each time. After any history of lines the manual queue is exactly the one last set with .set-dice-queue (empty after .set-die-feeder queue).", "quantifier": "all REPL states and lines", "why_tests_cant": "All histories of lines.", "anchors": ["cmd/GoBCDiceREPL/repl/repl.go:eval", "cmd/GoBCDiceREPL/repl/repl.go:rollDice"]}
{"id": "C46", "title": "REPL components share one feeder", "statement": "After any history of REPL lines the feeder, the roller and the BCDice instance of the REPL use the same feeder.", "quantifier": "all histories of lines", "why_tests_cant": "All histories.", "anchors": ["cmd/GoBCDiceREPL/repl/repl.go:setDieFeeder"]}
{"id": "C47", "title": "When the interactive tool ends", "statement": "The loop of the interactive tool returns exactly when a line .q or a command quit is read while it runs. In particular the end of input does not end it (the comment in the code says it should: break only leaves the switch): every end of input prints the usage of .eval and the loop goes on, any number of times. A crash can only come from evaluating or rolling.", "quantifier": "all histories of reads", "why_tests_cant": "Non-termination and all histories.", "anchors": ["cmd/GoBCDiceREPL/repl/repl.go:REPL.Start"]}
{"id": "C48", "title": "Dice text round trip", "statement": "ParseDice accepts exactly the empty text and comma-separated items value/sides (digits, optional white space around an item, numbers capped at 2^63-1) and returns the dice they denote; any other text is refused with an error showing the first bad item and its position. ParseDice(FormatDice(ds)) and ParseDice(FormatDiceWithoutSpaces(ds)) return ds for every list of dice with non-negative values and sides; both formats are injective there. The text of a single die (String) encloses such a text, and different dice have different texts.", "quantifier": "all dice lists", "why_tests_cant": "Unbounded lists and numbers.", "anchors": ["pkg/core/dice/die.go", "pkg/dicebot/testing/testcase.go:ParseDice"]}
{"id": "C49", "title": "Game list consistency", "statement": "Every id listed by AvailableGameIDs(true) is found by Find, whose dice bot has that id; ids not listed are rejected with an error naming them; AvailableGameIDs(true) is the basic bot followed by AvailableGameIDs(false), which is strictly sorted and does not depend on the order in which Go visits the registry; AvailableGameInfos lists the same ids with the names and sort keys of the bots Find gives, in order of sort key, and is determined when no two sort keys are equal (with equal sort keys it may differ from call to call).", "quantifier": "all registries and ids", "why_tests_cant": "All strings.", "anchors": ["pkg/dicebot/list/list.go"]}
{"id": "C50", "title": "API responses carry a truthful ok flag", "statement": "JSONResponse, JSONResponseArray and JSONResponseError send the given status with ok = (status is 200), whatever the body already contains, leaving the other fields as given; a nil body makes JSONResponse panic.", "quantifier": "all bodies and status codes", "why_tests_cant": "All maps.", "anchors": ["cmd/GoBCDiceAPI/helpers/response.go"]}
{"id": "C51", "title": "Validation errors record", "statement": "After any history of Add/ValidateMin/ValidateMax/Clear, HasMessages is true exactly when some field has been reported since the last Clear and the message kept per field is the last one.", "quantifier": "all histories", "why_tests_cant": "All histories.", "anchors": ["cmd/GoBCDiceAPI/helpers/errors.go"]}
{"id": "C52", "title": "Failed sub-rolls are not logged", "statement": "RolledDice never contains dice of a roll that failed, even though these dice have left the feeder; it is append-only over successive rolls with one environment.", "quantifier": "all histories of rolls", "why_tests_cant": "All histories.", "anchors": ["pkg/core/evaluator/evaluator.go:Evaluator.RollDice", "pkg/core/evaluator/environment.go"]}
{"id": "C53", "title": "Trailing comments", "statement": "Text after the first white space following a roll command is ignored: its outcome and its effect on the feeder are those of one evaluation of the command. More generally, if the whole input is not itself a command, its outcome is that of one evaluation of its first word.", "quantifier": "all inputs", "why_tests_cant": "All strings.", "anchors": ["pkg/bcdice/bcdice.go:BCDice.ExecuteCommand"]}
{"id": "C54", "title": "S-expressions identify trees", "statement": "Two different command trees produced by the parser have different S-expressions, so the .ast output (and the parser tests based on it) cannot confuse them.", "quantifier": "all pairs of trees", "why_tests_cant": "Unbounded trees.", "anchors": ["pkg/core/ast", "cmd/GoBCDiceREPL/repl/repl.go:printSExp"]}
{"id": "C55", "title": "The second part of a D message is the first with every roll replaced by its result", "statement": "When a D roll (with or without a comparison) succeeds, its message shows first, in parentheses, the expression with the operands of the rolls computed, and then the same text in which each xDy, from left to right, is replaced by s[v1,...,vx]: the sum s and the values of the next x dice, all with y sides; everything else is copied unchanged. The dice so shown are the last ones reported, in order; the text and the dice determine what is shown.", "quantifier": "all D-roll expressions, feeders and dice", "why_tests_cant": "Expressions have unbounded depth and any number of rolls; dice are arbitrary.", "anchors": ["pkg/core/notation/notation.go:infixNotationOfSumRollResult", "pkg/core/command/execute_d_roll_expr.go", "pkg/core/command/execute_d_roll_comp.go", "pkg/core/evaluator/determine_values.go"]}
{"id": "C56", "title": "Test case files are read back as written", "statement": "A test data file consisting of test cases written as input:/lines/output:/text/rand:/dice, separated by lines of 28 equals signs, is read by ParseFile as exactly those cases, in order, numbered from 1, provided no line of a case is the separator and no output line starts with output:; ParseFiles numbers the cases 1, 2, 3, ... across files.", "quantifier": "all lists of test cases and files", "why_tests_cant": "Greedy matching with backtracking over unbounded texts; keywords may occur inside inputs and outputs.", "anchors": ["pkg/dicebot/testing/testcase.go:Parse", "pkg/dicebot/testing/testcase.go:ParseFile", "pkg/dicebot/testing/testcase.go:ParseFiles"]}
{"id": "C57", "title": "Selecting a game system", "statement": "SetDiceBotByGameID succeeds exactly for the listed ids and then the current dice bot has that id; for any other id it returns an error naming it and the current dice bot stays. After any sequence of calls the current game is the last listed one asked for.", "quantifier": "all registries, ids and sequences of selections", "why_tests_cant": "All strings and histories.", "anchors": ["pkg/bcdice/bcdice.go:BCDice.SetDiceBotByGameID", "pkg/dicebot/list/list.go:Find"]}
{"id": "C58", "title": "API routes answer", "statement": "GET /, /v1/version, /v1/systems and /v1/names always answer 200 with ok true and exactly the greeting, the versions, the listed game ids and the listed game details.", "quantifier": "all registries and map iteration orders", "why_tests_cant": "Map iteration order is unspecified.", "anchors": ["cmd/GoBCDiceAPI/controllers", "cmd/GoBCDiceAPI/models", "cmd/GoBCDiceAPI/helpers/response.go"]}
{"id": "C59", "title": "How lines of the interactive tool are understood", "statement": "Every line asks for exactly one thing: nothing (^C), leaving (.q), one of the nine commands with its arguments (a dot, the name, then blanks and the arguments; anything else directly after the name is ignored), or the evaluation of the trimmed line.", "quantifier": "all lines", "why_tests_cant": "All strings.", "anchors": ["cmd/GoBCDiceREPL/repl/repl.go:REPL.Start", "cmd/GoBCDiceREPL/repl/repl.go:commandRe"]}
{"id": "C60", "title": "The game in use in the interactive tool", "statement": "After any history of lines the game in use is the one reached by the accepted .set-game lines; no other line, in particular no change of the dice feeder, changes it.", "quantifier": "all histories of lines and registries", "why_tests_cant": "All histories.", "anchors": ["cmd/GoBCDiceREPL/repl/repl.go:setGame", "cmd/GoBCDiceREPL/repl/repl.go:setDieFeeder", "pkg/bcdice/bcdice.go:BCDice.SetDieFeeder"]}
{"id": "C61", "title": "The infix notation of a parsed command is that command", "statement": "InfixNotation of any parsed command (choice without empty items, calculation, D/B/R/U roll, with or without comparison, threshold and bonus) is a command text; showing the parsed text again gives the same text; and executing it with any feeder succeeds exactly when the original does, with the same result and feeder state, unless a product has a quotient as right factor. The bonus of a U roll is printed with parentheses exactly so that, read as ordinary arithmetic, it has the value the program adds.", "quantifier": "all command texts, feeders and feeder states", "why_tests_cant": "Commands are unbounded trees; parenthesization depends on every nesting of operators.", "anchors": ["pkg/core/notation/notation.go:InfixNotation", "pkg/core/notation/notation.go:infixNotationOfURollExpr", "pkg/core/notation/notation.go:infixNotationOfRRollList", "pkg/core/notation/notation.go:infixNotationOfCommand"]}
{"id": "C62", "title": "The result depends on the feeder's answers only", "statement": "ExecuteCommand and the roller see nothing of the die feeder but its answers: with two feeders (of whatever implementation) that answer alike, every command gives the same outcome (message, rolled dice, secrecy, error or panic), and the feeders still answer alike afterwards.", "quantifier": "all pairs of feeders, relations between their states, commands and game systems that behave alike", "why_tests_cant": "Ranges over all feeder implementations and states.", "anchors": ["pkg/bcdice/bcdice.go:BCDice.ExecuteCommand", "pkg/core/dice/roller/roller.go:DiceRoller.RollDice", "pkg/core/dice/feeder/feeder.go:DieFeeder"]}
{"id": "C63", "title": "What the interactive tool prints", "statement": "After any history of lines, evaluating a line prints exactly what ExecuteCommand answers on the dice of the feeder last chosen (manual queue or generator), after the arrow and, for a line starting with s or S, the mark of a secret roll, or the error in red; .roll n s prints the dice the roller gives; .ast prints the tree of the command, or an error; and nothing else changes except the generator.", "quantifier": "all histories of lines, generators, queues and lines", "why_tests_cant": "All histories and lines.", "anchors": ["cmd/GoBCDiceREPL/repl/repl.go:eval", "cmd/GoBCDiceREPL/repl/repl.go:rollDice", "cmd/GoBCDiceREPL/repl/repl.go:printSExp"]}
{"id": "C64", "title": "The generated parser implements the grammar", "statement": "parser.Parse ends on every input with a single result; on valid UTF-8 it returns a tree exactly when the text is one of the command grammar, and the tree is the one the grammar assigns; it never returns a nil or ill-typed value without an error, and its actions never panic; a roll command containing a byte that is not valid UTF-8 is always an error.", "quantifier": "all inputs, including invalid UTF-8, and all file names", "why_tests_cant": "The table is interpreted with backtracking, a value stack and mutable state restored on failure: a stale value or a wrong restore shows only for particular inputs, of which there are infinitely many.", "anchors": ["pkg/core/parser/parser.go:Parse", "pkg/core/parser/parser.go:parseExpr", "pkg/core/parser/parser.go:g", "pkg/core/parser/parser.go:parseActionExpr", "pkg/core/parser/parser.go:parseSeqExpr"]}
{"id": "C65", "title": "What parse errors say", "statement": "Every message of a parse error gives a line, column and byte offset of the input (or its beginning). For valid UTF-8 there is one message: either that a D command has no random element, or that no match was found, at the farthest position at which some terminal of the grammar was missed, with the sorted list of all that was missed there (EOF last). The list is never empty and never lies: nothing it names matches at that position. An arithmetic expression without dice is always reported in the first way, even when garbage follows it (1+2xyz), and one with dice followed by garbage in the second.", "quantifier": "all inputs and file names", "why_tests_cant": "Positions are kept incrementally through backtracking; the claim is about every input and every failure.", "anchors": ["pkg/core/parser/parser.go:addErrAt", "pkg/core/parser/parser.go:failAt", "pkg/core/parser/parser.go:read", "pkg/core/parser/parser.go:parse", "pkg/core/parser/parser.go:onDRollExprCommand1"]}
{"id": "C66", "title": "Parsing always returns; the error of a malformed command", "statement": "parser.Parse returns on every input, with a depth of nested calls at most linear in its length. ExecuteCommand on a text that is no command and whose first word is none returns exactly the error of Parse on the first word, with file name input, of one of the two kinds of C65, and takes no die; .ast prints the error of Parse on the text, with file name REPL.", "quantifier": "all inputs, valid UTF-8 or not for Parse; all texts, feeders and states for the rest", "why_tests_cant": "Termination and a depth bound are claims about all inputs of all lengths; the message is computed through backtracking over two attempts.", "anchors": ["pkg/core/parser/parser.go:Parse", "pkg/core/parser/parser.go:parseRule", "pkg/bcdice/bcdice.go:ExecuteCommand", "pkg/bcdice/bcdice.go:ExecuteBasicCommand", "cmd/GoBCDiceREPL/repl/repl.go:printSExp"]}
{"id": "C67", "title": "Parsing nested divisions takes exponentially many steps", "statement": "Parsing is not polynomial in the length of the input: for every n the command c(1/(1/(...))) with n nested divisions, of length 4n+4, is accepted, and Parse calls parseExpr (its ExprCnt statistic) at least 2^n times on it.", "quantifier": "every n", "why_tests_cant": "A lower bound on the growth of the cost for all sizes; a test can only time a few.", "anchors": ["pkg/core/parser/parser.go:parseExpr", "pkg/core/parser/parser.go:Stats", "pkg/core/parser/parser.pigeon"]}
{"id": "C68", "title": "Execution in memory is execution on trees", "statement": "command.Execute on a command node in memory, none of whose nodes is shared, returns the outcome (result with message and dice, or error with its text, or panic) and leaves the feeder and dice log that execution on the immutable tree determines: no failed type assertion, nil dereference or stale link comes from the in-place rewriting. It overwrites no node outside the command, and after success the same address holds a command, again unshared. Every command made by constructor calls qualifies, whatever else is in memory. Sharing matters: with a subtree used twice, its dice are rolled once.", "quantifier": "all commands, memories holding them unshared, evaluators, feeders, states, game IDs and stack depths at least the height of the tree", "why_tests_cant": "Equality of behaviour for all trees, feeders and memory contents; a test sees a few trees alone in memory.", "anchors": ["pkg/core/command/command.go:Execute", "pkg/core/evaluator/eval_var_args.go:EvalVarArgs", "pkg/core/evaluator/determine_values.go:DetermineValues", "pkg/core/evaluator/evaluator.go:Eval", "pkg/core/ast/infix_expression.go:SetLeft", "pkg/core/ast/infix_expression.go:SetRight"]}
{"id": "C69", "title": "Reading functions do not modify nodes; Execute replaces links only", "statement": "On any graph of nodes, including shared, cyclic, incomplete and ill-typed ones, Eval, InfixNotation and SExp modify no existing node (the copy of the bonus of a U roll is a new node), whether they return, fail or panic; InfixNotation and SExp touch neither feeder nor dice log, and on a command give the texts of its tree. Execute on any graph removes no node and changes nothing of an existing node but operands of operators, the expression of a command, the threshold of a roll list and the bonus of a U roll.", "quantifier": "all memories and nodes, well-formed or not, all evaluators, states and stack depths", "why_tests_cant": "Absence of a write to any node of any graph, on all outcomes including panics.", "anchors": ["pkg/core/evaluator/evaluator.go:Eval", "pkg/core/notation/notation.go:InfixNotation", "pkg/core/ast/u_roll_expr.go:SExp", "pkg/core/util/clone.go:Clone", "pkg/core/command/command.go:Execute"]}
{"id": "C70", "title": "Executing the same parsed command twice", "statement": "After a successful Execute of a D roll node, every later Execute of that node takes no die and repeats the middle and last message part (the first is the middle one in parentheses). After a successful Execute of a D roll with comparison, every later Execute of it fails with EvalVarArgs not implemented: Int and takes no die. For all other commands a second successful Execute shows the same command text, and the tree does not change any more.", "quantifier": "all unshared command nodes, evaluators, feeder states before each run and game IDs", "why_tests_cant": "A claim about all histories of two executions over all trees and dice.", "anchors": ["pkg/core/command/command.go:Execute", "pkg/core/command/execute_d_roll_expr.go:executeDRollExpr", "pkg/core/command/execute_d_roll_comp.go:executeDRollComp", "pkg/core/evaluator/partial_eval_of_compare.go:EvalCompareLeft"]}
{"id": "C71", "title": "What a passing recorded test establishes", "statement": "Running recorded test files gives one subtest per recorded case, in order, with pairwise different names built from game ID, running number, first input line and dice. A subtest passes exactly when ExecuteCommand of the basic dice bot on the first input line, with the recorded dice queued, fails (no output recorded) or yields the recorded message (with ###secret dice### appended for secret rolls) and leaves no die. Further input lines and the game ID never influence an outcome. A golden file written in the documented layout passes as a whole exactly when all its records are true, and a record made from an actual run that used up its dice is true. The runner itself never panics: a panic is always that of a command under test.", "quantifier": "all test files, game IDs, test cases, recorded outputs and dice", "why_tests_cant": "It is a claim about what the test runner itself certifies, for every possible test file; running tests presupposes it.", "anchors": ["pkg/dicebot/testing/testing.go:Run", "pkg/dicebot/testing/testcase.go:ParseFiles", "pkg/bcdice/bcdice.go:ExecuteCommand"]}
{"id": "C72", "title": "Parsed commands have memory of their own", "statement": "Parse, whose actions make and overwrite nodes in memory while rules are tried and abandoned, returns the address of exactly the tree its text denotes (or exactly the error), made of new nodes none of which occurs twice, and leaves every node that existed before as it was. Trees from two calls, of the same text or not, have no node in common: executing one, with whatever outcome, does not influence the other. Hence parsing and executing in memory gives, command by command over a session of any length, the outcomes and the feeder of execution on immutable trees, and no older node is touched.", "quantifier": "all inputs (valid UTF-8 or not, for Parse), file names, memories, dice bots, feeders and sessions", "why_tests_cant": "Sharing between trees is invisible to a test that runs one command; the claim is about all inputs, all memories and all histories.", "anchors": ["pkg/core/parser/parser.go:Parse", "pkg/core/parser/parser.go:leftAssociativeAdditive", "pkg/core/ast/choice.go:Append", "pkg/core/ast/r_roll_list.go:Append", "pkg/core/ast/nil.go:NilInstance", "pkg/bcdice/bcdice.go:ExecuteBasicCommand", "pkg/bcdice/bcdice.go:ExecuteCommand"]}
{"id": "C73", "title": "The text of an object identifies its value", "statement": "In every state a client of package object can produce, Inspect (and InspectWithoutSpaces) returns exactly for objects that are finite trees without nil, given enough stack, and returns the text of the value; two objects with the same text have the same type and the same value. On integers, Booleans and arrays of them InspectWithoutSpaces is Inspect with the spaces removed. An object that contains itself, directly or through others, never yields a text.", "quantifier": "all sequences of calls and assignments of a client, all objects, all printable-character tables, all stack sizes", "why_tests_cant": "Injectivity ranges over pairs of arbitrarily nested values; the behaviour depends on aliasing created by arbitrary histories.", "anchors": ["pkg/core/object/object.go:Object", "pkg/core/object/array.go:Inspect", "pkg/core/object/array.go:InspectWithoutSpaces", "pkg/core/object/b_roll_comp_result.go:Inspect", "pkg/core/object/r_roll_comp_result.go:Inspect", "pkg/core/object/u_roll_expr_result.go:Inspect", "pkg/core/object/u_roll_comp_result.go:Inspect"]}
{"id": "C74", "title": "Greatest element and sum of an array", "statement": "MaxInteger of a non-empty array of integers returns the first element object holding the greatest value, the object itself and not a copy, and changes nothing; of an empty array a new object holding 0. SumOfIntegers returns a new object holding the sum modulo 2^64 (0 for no elements). Both report failure and change nothing as soon as one element is nil or no integer.", "quantifier": "all memories and arrays of any length", "why_tests_cant": "Lengths and values are unbounded; which object is returned matters only under later assignment.", "anchors": ["pkg/core/object/array.go:MaxInteger", "pkg/core/object/array.go:SumOfIntegers"]}
{"id": "C75", "title": "NewArray copies, NewArrayByMove shares", "statement": "After NewArray the elements of the array are those passed, whatever the client does later with its slices (writes, appends, reslices) or other objects, unless it reads or assigns the field Elements of this very array. After NewArrayByMove the elements of the array are at every later time those the slice passed shows, unless the field of this very array is assigned. Assigning to an element of a slice replaces this element of the slice only; appending to a slice gives its elements followed by the new one, and leaves slices and arrays in other memory alone (but with room to spare it shows in slices of the same memory).", "quantifier": "all reachable states, slices (with any capacity and aliasing) and later histories", "why_tests_cant": "Aliasing through spare capacity shows only in particular histories.", "anchors": ["pkg/core/object/array.go:NewArray", "pkg/core/object/array.go:NewArrayByMove"]}
{"id": "C76", "title": "Results of U rolls compute their sums once", "statement": "In every history without assignments since its construction, the result of a U roll answers SumOfGroups with the array of the sums of its groups, SumOfValues with the total plus the modifier and MaxValue with the greatest group sum plus the modifier (modulo 2^64), however many calls come between, and no call changes the value of any object. After the first successful SumOfGroups the same array object is returned for ever, even if the client changes the groups. If some group is not an array of integers the first such group decides the panic of each of the three calls.", "quantifier": "all reachable states, groups of any number and size, all later histories", "why_tests_cant": "Caching bugs depend on the order of calls and assignments, of which there are infinitely many.", "anchors": ["pkg/core/object/u_roll_expr_result.go:SumOfGroups", "pkg/core/object/u_roll_expr_result.go:MaxValue", "pkg/core/object/u_roll_expr_result.go:SumOfValues", "pkg/core/object/u_roll_expr_result.go:calculateSumOfGroups"]}
{"id": "C77", "title": "Which texts are test cases", "statement": "Every text given to the reader of test cases either has no division into the sections input, output and rand with a non-empty input, and is refused with an error naming the game and the number of the test case; or it is read by the division with the longest input and then the longest output: input by lines, output without the newlines it starts with, dice by their notation, whose error is returned if malformed. A file is divided, from the left, at lines of 28 equals signs, after the newlines at its end are dropped; the first part that cannot be read decides the error, otherwise all are returned in order. Several files fail exactly if one does, with the first failing file's name in front of its error; otherwise all test cases are returned in order.", "quantifier": "all texts, game identifiers, numbers and lists of files", "why_tests_cant": "The pattern is greedy and backtracks; ambiguous texts (several output: or rand: lines, adjacent separators) are unboundedly many.", "anchors": ["pkg/dicebot/testing/testcase.go:Parse", "pkg/dicebot/testing/testcase.go:ParseFile", "pkg/dicebot/testing/testcase.go:ParseFiles"]}
{"id": "C78", "title": "The answer to every text: results", "statement": "ExecuteCommand with the basic dice bot returns the result r exactly when, after removal of a leading S or s, the whole text is a command of the grammar whose outcome on the dice the feeder delivers is r, or the whole text fails and its first word (up to the first blank) is a command whose outcome on the dice that are left is r; r is marked secret exactly if the text was. Execute of a node returns r exactly when the feeder delivers dice for which the outcome specification gives r. The outcome is a function of the dice consumed, and no command has outcomes both on a list of dice and on a proper extension of it.", "quantifier": "all texts, feeders, feeder states, results, nodes, lists of dice and reroll limits", "why_tests_cant": "An equivalence over all texts, dice sequences and results.", "anchors": ["pkg/bcdice/bcdice.go:BCDice.ExecuteCommand", "pkg/core/command/command.go:Execute", "pkg/core/util/secret_roll.go"]}
{"id": "C79", "title": "The answer to every text: errors and panics", "statement": "ExecuteCommand returns the error msg exactly when the whole text fails and then, with the dice that are left, its first word fails with msg; it panics exactly when one of the two attempts does. An attempt fails with the syntax error of Parse, or after dice specified command by command (operands left to right, threshold before operands, bonus and target before the dice) for one of: an error of the program's own, from a closed list of ten texts with their conditions; a feeder that gives no die; a die with other sides than asked for. For every command every list of dice either gives a result, or ends with an error or crash of the program's own, or is used up, or shows a die with wrong sides; results and the program's own errors exclude each other and do not depend on the dice that follow. With random dice the program's own errors are the only ones.", "quantifier": "all texts, nodes, feeders, feeder states, messages and lists of dice", "why_tests_cant": "Error conditions over all trees and dice; completeness and exclusiveness are statements about all executions.", "anchors": ["pkg/bcdice/bcdice.go:BCDice.ExecuteCommand", "pkg/core/evaluator", "pkg/core/command", "pkg/core/dice/roller/roller.go"]}
{"id": "C80", "title": "Ordinary commands always succeed with random dice", "statement": "With random dice, a command whose rolls have a literal number of dice between 1 and 2^44 and a literal positive number of sides, whose divisors are literals other than zero and which contains no random number [a...b], always returns a result: no error and no panic, whatever the dice; with or without secret marker, and also when followed by a comment.", "quantifier": "all such commands, generators fulfilling the contract of Intn and their states", "why_tests_cant": "All commands and all dice sequences, including unboundedly long rerolls.", "anchors": ["pkg/bcdice/bcdice.go:BCDice.ExecuteCommand", "pkg/core/dice/feeder/mt19937.go", "pkg/core/evaluator"]}
{"id": "C81", "title": "The answer to arbitrary bytes", "statement": "ExecuteCommand takes a Go string, that is any bytes. The parser accepts exactly the UTF-8 of the commands of the grammar, and a choice or calculation followed by one character and then any bytes. A text that is UTF-8 gets the answer of C78 and C79. For other bytes: behind a leading S or s every byte that is not part of a character is read as U+FFFD, without a marker the bytes stay as they are; the whole is tried first, then, on an error, the bytes before the first blank byte, with the dice that are left; results, errors and panics are exactly those of the attempts. So choice[\\xff] is a syntax error while Schoice[\\xff] succeeds with the item U+FFFD.", "quantifier": "all byte strings, feeders, feeder states and messages", "why_tests_cant": "Ranges over all byte strings, valid UTF-8 or not, and over all dice.", "anchors": ["pkg/bcdice/bcdice.go:BCDice.ExecuteCommand", "pkg/core/util/secret_roll.go", "pkg/core/parser/parser.go"]}
{"id": "C82", "title": "Goroutines with bots of their own do not disturb each other", "statement": "Any number of goroutines each execute their inputs, one after the other, on a BCDice of their own with its own die feeder; all share the parser's pool of state dictionaries. In every interleaving of their steps on dictionaries and pool, whatever dictionary sync.Pool returns and whenever the garbage collector drops pooled ones: a goroutine that finishes has exactly the results and feeder that its bot gives when it runs alone; a dictionary that a goroutine is about to read, write or put into the pool is neither in the pool nor about to be touched by another goroutine (no data race); the pool never holds a dictionary twice and only empty ones; a goroutine that has not finished can always make a step, makes only finitely many steps, and finishes in every execution whose schedule does not forget it (which never leaves a goroutine that can go on without a turn for ever). The same for goroutines that only call parser.Parse.", "quantifier": "all families of goroutines, inputs (any bytes), feeders, bots, schedules, choices of the pool and of the garbage collector", "why_tests_cant": "Ranges over all interleavings and all choices of sync.Pool; a test run, also with the race detector, sees one of them.", "anchors": ["pkg/core/parser/parser.go:statePool", "pkg/core/parser/parser.go:cloneState", "pkg/core/parser/parser.go:restoreState", "pkg/core/parser/parser.go:Discard", "pkg/core/parser/parser.go:pushV", "pkg/core/parser/parser.go:popV", "pkg/bcdice/bcdice.go:BCDice.ExecuteCommand"]}
{"id": "C83", "title": "Rounding divisions are double precision on all operands", "statement": "For all 64-bit a and b <> 0, a/bU and a/bR are exactly: a and b each rounded to the nearest IEEE-754 double (ties to even), their quotient rounded to the nearest double, then the smallest whole number not below it, respectively the nearest one (halves away from zero), converted to 64 bits; no overflow to infinity and no subnormal number occurs. The conversion overflows exactly when b = 1 and a >= 2^63-512 or b = -1 and a <= -(2^63-512), and then yields the smallest 64-bit integer (on amd64). In all other cases a/bR is within 1/2 and a/bU less than 1 above, and neither is off by more than a relative error of 2^-51 in addition.", "quantifier": "all 64-bit operands, all operand expressions and dice", "why_tests_cant": "Ranges over all pairs of 64-bit integers; the deviations appear only for large operands.", "anchors": ["pkg/core/evaluator/eval_infix_expression.go:evalIntegerDivide"]}
{"id": "C84", "title": "One bot shared by goroutines whose feeder's Next is indivisible", "statement": "Any number of goroutines execute their inputs, one after the other, on one and the same bot of the basic game system, and calls of the feeder's Next do not overlap. In every interleaving of these calls there is one sequence of calls that explains everything: the feeder gives these answers in this order, and a goroutine that has finished has exactly the results of a bot that is asked its own calls and given its own answers. On a queue no die is dealt twice and none is lost, and a finished goroutine has exactly the results of a bot with a queue of its own that holds the dice dealt to it. A goroutine that was the only one to ask has the results it has when nothing else runs. Every goroutine makes finitely many calls and finishes if the schedule does not forget it. Commands are not indivisible: dice of one roll may be interleaved with those of another. The indivisibility of Next is needed and Queue.Next does not provide it: two overlapping calls can return the same die (and lose another), and on a queue with one die one of them can panic.", "quantifier": "all families of goroutines, inputs (any bytes), feeders and schedules; all queues for the failures", "why_tests_cant": "Ranges over all interleavings of calls (and of the steps of Queue.Next); a test run sees one of them.", "anchors": ["pkg/bcdice/bcdice.go:BCDice.ExecuteCommand", "pkg/core/dice/roller/roller.go:DiceRoller.RollDice", "pkg/core/dice/feeder/queue.go:Queue.Next", "pkg/core/dice/feeder/feeder.go:DieFeeder"]}
{"id": "C85", "title": "Probabilities of answers with perfect random numbers", "statement": "Suppose the generator behind the random dice is perfect: each number below n is equally likely whenever Intn(n) is called, independently of all other calls. Then every list of faces of a roll is equally likely; an answer to an ordinary command without rerolls has the probability (favourable combinations of faces)/(all combinations), secret or not and whatever has been rolled before; an ordinary command is answered with certainty; with rerolls the probability of a result is the sum of the probabilities of the lists of dice that give it. In particular CHOICE chooses each item equally often, the successes of xBy compared with a number are binomially distributed, 1Uy[t] rerolls exactly k and at least k times (k < 10000) with the geometric probabilities. Answers to inputs typed later are independent of the answers to earlier ones, whatever bytes are typed.", "quantifier": "all commands, numbers of dice and sides, all predicates of results, all histories; probability measure on all infinite sequences of random numbers", "why_tests_cant": "Probabilities are statements about all random sequences; a test sees one seed, a statistical test only frequencies.", "anchors": ["pkg/core/dice/feeder/mt19937.go:MT19937.Next", "pkg/core/dice/roller/roller.go:DiceRoller.RollDice", "pkg/core/evaluator/eval_choice.go", "pkg/core/evaluator/eval_b_roll_comp.go", "pkg/core/evaluator/eval_u_roll_expr.go", "pkg/bcdice/bcdice.go:BCDice.ExecuteCommand"]}
{"id": "C86", "title": "Options of the parser", "statement": "parser.Parse takes options; the last option of each kind counts. With options that set neither Memoize, AllowInvalidUTF8, another Entrypoint nor a limit smaller than the number of expressions needed, Parse returns exactly what it returns without options, and no panic comes out even with Recover(false). With MaxExpressions(n) the result is that without a limit if the work takes at most n expressions; otherwise an error with the message `max number of expresssions parsed` is returned or, with Recover(false), that panic comes out. With AllowInvalidUTF8(true) the inputs accepted are exactly those whose runes (an invalid byte counts as U+FFFD) spell a command, with the tree of those runes. An unknown entry point is an error whatever the data. A call ends in one way only. Memoize(true) is not transparent: 2D6 is refused; and entry points below Command cannot parse dice (they panic inside).", "quantifier": "all data of any length, valid UTF-8 or not, all file names, all lists of options, all limits", "why_tests_cant": "The equality of the results with and without options, and the exact limit, concern all inputs and all lists of options; tests use no options at all.", "anchors": ["pkg/core/parser/parser.go:Parse", "pkg/core/parser/parser.go:MaxExpressions", "pkg/core/parser/parser.go:Entrypoint", "pkg/core/parser/parser.go:AllowInvalidUTF8", "pkg/core/parser/parser.go:Recover", "pkg/core/parser/parser.go:Memoize", "pkg/core/parser/parser.go:parser.parseExpr"]}
{"id": "C87", "title": "Completion in the REPL offers exactly what works", "statement": "The completer of the REPL offers, at the first word, the nine commands in the order of the table (each with its dot), after `.set-die-feeder` exactly `mt` and `queue`, after `.set-game` exactly the available game ids, and nothing else. A line completed from these words and entered is understood: a completed command name asks for that command without argument; `.set-die-feeder mt`/`queue` installs a fresh feeder of that kind and prints OK; `.set-game ID` with an offered id selects exactly the bot registered under that id and prints OK; `.list-games` prints exactly the ids that are offered. The exception: an id that begins or ends with white space is offered but refused.", "quantifier": "all registries of game systems, all words, all sessions (any state of the REPL), all enumeration orders of the map", "why_tests_cant": "The agreement between the tree of completions and the command interpreter must hold for every registry and every state; there are no tests of the completer.", "anchors": ["cmd/GoBCDiceREPL/repl/repl.go:init", "cmd/GoBCDiceREPL/repl/repl.go:setGame", "cmd/GoBCDiceREPL/repl/repl.go:setDieFeeder", "pkg/dicebot/list/list.go:AvailableGameIDs"]}
{"id": "C88", "title": "Start-up and logs of the web server", "statement": "The server listens on the port in PORT, or on 4000 if that is empty; it is in production exactly if ECHO_ENV is `production` (empty means development). Whatever the history of servers started on one machine, one after the other or side by side: the log file of a production server contains exactly its lines, in order, provided no other production server was started in the same second on that machine; a server that is not in production writes exactly its lines to its standard output; no file other than these log files is created or changed; a production server whose log file cannot be created does not come up. A second production server started in the same second destroys the log of the first.", "quantifier": "all histories of starts and log lines of any number of servers, all contents of the file system before, all times and values of the environment variables", "why_tests_cant": "It concerns every interleaving of starts and writes of several processes sharing a directory; the server has no tests.", "anchors": ["cmd/GoBCDiceAPI/main.go:getPort", "cmd/GoBCDiceAPI/main.go:main", "cmd/GoBCDiceAPI/config/environment.go:Setup"]}
{"id": "C89", "title": "What the regular expressions take", "statement": "All six regular expressions of the code compile. For every text: the one that delimits the first word of a command always matches and takes exactly the text before the first blank (on bytes that are not valid UTF-8, the bytes before the first blank byte); the one for a die item matches exactly `value/sides` with optional blanks around, giving the two numerals; the one for the arguments of `.roll` matches exactly numeral, blanks, numeral; the one for the source of a test case matches exactly the sources with the three sections and divides them with the longest input and then the longest output; the one for command lines of the interactive tool matches, on a trimmed line, exactly `.name` with its arguments; the one for trailing blanks removes exactly these. In general a search by the matcher fails only where the expression matches nowhere, and never misses a match further left.", "quantifier": "all texts over any alphabet; all byte strings; all expressions of the subset modelled", "why_tests_cant": "Greedy repetition and leftmost-first choice act on texts of every shape and length; tests try a few.", "anchors": ["pkg/bcdice/bcdice.go:commandFirstPartRe", "pkg/dicebot/testing/testcase.go:sourceRe", "pkg/dicebot/testing/testcase.go:diceRe", "cmd/GoBCDiceREPL/repl/repl.go:commandRe", "cmd/GoBCDiceREPL/repl/repl.go:tailSpacesRe", "cmd/GoBCDiceREPL/repl/repl.go:rollDiceRe"]}
{"id": "C90", "title": "No modulo bias: fair dice from 63-bit numbers", "statement": "The random feeder takes its numbers from Intn of Go's library, which makes a number below n of the 63-bit numbers of its source by masking (powers of two) or rejection. Whatever the source returns, the number is in [0, n). If the source returns all 63-bit numbers with the same probability and independently, then Intn(n) returns each of 0, ..., n-1 with probability exactly 1/n for every n below 2^63, also if n does not divide a power of two; it needs more than k numbers of the source with probability at most (1/2)^k and with certainty never hangs; successive dice are independent; and the answers to everything that is typed in a session have the same probabilities as with perfect dice, so that the formulas of C85 hold.", "quantifier": "all numbers of sides, all sequences of 63-bit numbers, all sessions of byte inputs, all sets of answers", "why_tests_cant": "Tests sample; a bias of one part in 2^31 or a correlation between dice is invisible to them, and no sample shows that a loop ends with certainty.", "anchors": ["pkg/core/dice/feeder/mt19937.go:Next", "pkg/core/dice/roller/roller.go:RollDice"]}
{"id": "C91", "title": "Averages, spread and symmetry of rolls", "statement": "With perfect random numbers the total shown for a D command of rolls xDy and numbers combined by +, -, * (if it cannot leave 64 bits) always lies between the least and greatest value of the arithmetic, is x(y+1)/2 on average for each roll (sums, differences and products of these for the whole) and has the variance of independent dice (x(y^2-1)/12 for each roll). Unless rolls are multiplied with each other, totals at equal distance above and below the average are equally likely. A comparison succeeds exactly as often as the opposite comparison fails. The average number of successes of B rolls is the sum over the dice of the chance of one die.", "quantifier": "all such expressions of any size, all numbers of dice and sides, all targets, any time in a session; probability measure on all infinite sequences of random numbers", "why_tests_cant": "averages and symmetry are statements about all outcomes together and about all expressions; a statistical test only samples them", "anchors": ["pkg/core/evaluator/evaluator.go: Eval, RollDice", "pkg/core/dice/feeder/mt19937.go: Next", "pkg/core/command/execute_d_roll_expr.go", "pkg/core/command/execute_d_roll_comp.go", "pkg/core/command/execute_b_roll_comp.go", "pkg/bcdice/bcdice.go: ExecuteCommand"]}
{"id": "C92", "title": "How many dice are rerolled", "statement": "With perfect random numbers, xRy[t] and xUy[t] reroll exactly k dice (k < 9999) with the probability of the negative binomial law: C(x+k-1, k) p^k (1-p)^x, where p is the chance that one die reaches t; xRy>=t shows exactly k successes (k < 10000) with the same probability. So R and U, though they reroll in different orders, roll equally many dice in distribution.", "quantifier": "all numbers of dice x up to 2^44, all numbers of sides, all thresholds from 2 on, all k below the limit of rerolls, any time in a session, secret or not", "why_tests_cant": "an infinite family of probability laws over all outcomes; statistical tests only sample", "anchors": ["pkg/core/evaluator/eval_r_roll_list.go: evalRRollList", "pkg/core/evaluator/eval_u_roll_expr.go: evalURollList", "pkg/core/command/execute_r_roll_list.go", "pkg/core/command/execute_r_roll_comp.go", "pkg/core/command/execute_u_roll_expr.go", "pkg/core/dice/feeder/mt19937.go: Next"]}
{"id": "C93", "title": "What answers are made of, and taking them apart", "statement": "Whatever is typed and whatever the dice, every part of the answer consists of a fixed set of characters (digits, signs, brackets, the roll letters and the fixed Japanese words), except that the answer to a choice repeats the typed items. So a message has no line break or mark-up character that was not typed; splitting the joined parts at ' ＞ ' gives the message parts back; the success flag is exactly what the last part says; and two answers with the same message have the same parts and verdict. Choices are the only exception: an item may contain the mark, a line break or the word for success.", "quantifier": "all input texts, all feeders and dice, all results of ExecuteCommand with the basic dice bot", "why_tests_cant": "injection safety and unambiguity of the output must hold for every input and every roll; tests only compare a few messages", "anchors": ["pkg/core/command/result.go: JoinedMessageParts, Message", "pkg/core/command/execute_*.go", "pkg/core/notation/notation.go: InfixNotation", "pkg/bcdice/bcdice.go: ExecuteCommand"]}
{"id": "C94", "title": "Eval on any graph of nodes built by hand", "statement": "Evaluating a graph of nodes built with the constructors of package ast that makes sense (every operand is of a kind its place calls for), with any sharing, returns a value of the kind the nodes' shapes call for (number, truth value, item, array of numbers, array of groups, ...) or one of the errors that only numbers and dice can cause (division by zero, refused or failing roll, empty interval, absent threshold), or fails to allocate an enormous slice: there is no failed type assertion, nil dereference, index error or endless recursion, for any feeder of fair dice. Every command of the parser is such a graph. Conversely only such graphs evaluate to a number or a truth value; a missing operand is reported by the operator's name and side before anything is evaluated, operands of other kinds by both kinds and the operator after evaluating both, an unknown operator by its text.", "quantifier": "all graphs of nodes that make sense (for the converse and the reports: all graphs, cyclic ones, shared nodes and nil operands included), all depths, all feeders of fair dice, all evaluator states", "why_tests_cant": "The constructors accept any node as an operand, so the space of graphs is unbounded and contains sharing and cycles; tests build a handful of trees of the parser's shapes.", "anchors": ["pkg/core/evaluator/evaluator.go:Eval", "pkg/core/evaluator/eval_infix_expression.go", "pkg/core/evaluator/eval_prefix_expression.go", "pkg/core/ast"]}
{"id": "C95", "title": "Execute, InfixNotation and SExp on graphs of nodes built by hand, again and again", "statement": "For a graph of nodes that makes sense (C94's rules), with any sharing between commands: Execute returns a result or an error and never fails a type assertion, dereferences nil, indexes out of range or recurses endlessly (the only panic left is Go's make, for a number of dice beyond all memory); InfixNotation and SExp always return a text, roll no dice and change no existing node. Execute overwrites links of the nodes as it works, yet whatever made sense before makes sense afterwards, whatever the outcome, so all this holds along every history of Eval, EvalVarArgs, DetermineValues, Execute, InfixNotation and SExp calls on any of the nodes in any order.", "quantifier": "all graphs of nodes that make sense, with any sharing; all feeders of fair dice; all evaluator states; all finite histories of calls", "why_tests_cant": "The interplay of overwriting and sharing ranges over unboundedly many graphs and call histories; the tests execute freshly parsed trees once.", "anchors": ["pkg/core/command/command.go: Execute", "pkg/core/evaluator/eval_var_args.go", "pkg/core/evaluator/determine_values.go", "pkg/core/evaluator/reroll_threshold.go", "pkg/core/notation/notation.go: InfixNotation", "pkg/core/ast: SExp"]}
{"id": "C96", "title": "Entry points refuse the kinds of nodes they are not made for, by name", "statement": "Every node has exactly one kind, with a name of its own. Eval refuses String and Nil nodes, EvalVarArgs the atoms (Int, String, Nil, SumRollResult) and Choice, DetermineValues these and the three lists of rolls, Execute everything that is no command, InfixNotation String and Nil, SExp nothing. A refusal is an error that names the call and the kind; it comes before anything else, so nodes, dice and log are as before, whatever the node points to. No other kind is refused: there are nodes of each on which the call succeeds, except that Eval never finds a value for a single U roll. DetermineValues on a D roll that EvalVarArgs has not prepared reports the kind of the first operand that is no number, and rolls nothing; other rolls in place of a D roll are reported by kind. Execute of a D comparison command whose operand is no comparison reports an error and changes nothing; of a B, R or U comparison command whose operand is no comparison, addition, subtraction or multiplication it panics and changes nothing.", "quantifier": "all nodes in all memories (with nil, shared and cyclic links), all entry points, all evaluators and states", "why_tests_cant": "The claim is about all nodes of a kind, whatever hangs below them, and about all kinds; the tests call the entry points on trees they accept.", "anchors": ["pkg/core/ast/node.go: nodeTypeString", "pkg/core/evaluator/evaluator.go: Eval", "pkg/core/evaluator/eval_var_args.go: EvalVarArgs", "pkg/core/evaluator/determine_values.go: DetermineValues", "pkg/core/command/command.go: Execute", "pkg/core/notation/notation.go: InfixNotation"]}
{"id": "C97", "title": "The parser that ships is the parser of the grammar file", "statement": "parser.go is generated from parser.pigeon and checked in beside it. Read as a pigeon grammar, the text of parser.pigeon has 50 rules, and these are, rule by rule and in order, the table the shipped parser runs on; so Parse is, on every input, the interpreter at work on the rules of the file. The Go source of the table is, line by line (blanks and positions aside), the one the file prescribes; the functions it calls are, character by character, the code of the rules with their labels as parameters; the helper functions are those of the file.", "quantifier": "all rules and all functions of the grammar; all inputs, file names and results of Parse", "why_tests_cant": "Tests run the generated file only and never look at the grammar: a stale parser.go passes them all. That both agree is a claim about the whole text of two files and about all inputs.", "anchors": ["pkg/core/parser/parser.pigeon", "pkg/core/parser/parser.go: g, on..., callon..., toIfaceSlice, leftAssociativeAdditive, leftAssociativeMultitive"]}
{"id": "C98", "title": "Ways of writing a command that make no difference", "statement": "In every accepted command other than a choice, any whole number may be put in any number of parentheses and given leading zeros: Parse returns the same tree, and the command gets the same answer from every feeder, leaving it in the same state. Any pair of matching parentheses may be doubled, and any doubled pair made a single one. A whole sum roll, and both sides of a comparison of one, may be put in parentheses or after a plus sign. The parentheses of a calculation cannot be left out, part of a number cannot be put in parentheses, and numbers in the items of a choice are texts.", "quantifier": "all commands, all numbers and matching parentheses in them, all spellings, all feeders and states", "why_tests_cant": "A rewriting of a text is harmless at every place of every command; tests compare a few spellings.", "anchors": ["pkg/core/parser/parser.pigeon: RollOperand, RandomNumberOperand, IntExprPrimary, IntRandExprPrimary, DRollExprPrimary, Integer", "pkg/core/parser/parser.go: Parse", "pkg/bcdice/bcdice.go: ExecuteBasicCommand"]}
{"id": "C99", "title": "An easier target never makes things worse", "statement": "Take two targets that need no dice and a comparison that holds of every value the other one holds of (>=6 and >=7, <=3 and =3, ...). From the same feeder in the same state: if a sum roll compared with the harder one is answered, so is the one compared with the easier one, with the same dice and total, leaving the feeder in the same state, and it succeeds if the harder one does; a B roll, a U roll, and an R roll with a threshold of its own roll the same dice in the same groups and show at least as many successes (or are both refused). A B roll compared the opposite way counts exactly the remaining dice. With perfect random numbers, at any time in a session, the easier sum roll is at least as likely to succeed. An R roll without a threshold is no such case: the target is its threshold, so that the easier one may need more dice and fail.", "quantifier": "all rolls, comparison operators, targets, feeders, states; all times in a session", "why_tests_cant": "It relates two runs of two commands, for every pair of comparable targets and every sequence of dice.", "anchors": ["pkg/core/evaluator/eval_infix_expression.go", "pkg/core/command/execute_d_roll_comp.go", "pkg/core/command/execute_b_roll_comp.go", "pkg/core/command/execute_r_roll_comp.go", "pkg/core/command/execute_u_roll_comp.go"]}
{"id": "C100", "title": "Rearranging a command changes no probability", "statement": "With perfect random numbers: if the expression of a D command is rearranged by school algebra (commutative and associative laws, signs, a number multiplied into parentheses, numbers computed in the head) without writing a roll twice, if dice of one kind are rolled in two portions (3D6 as 1D6+2D6) or read upside down (2D6 as 14-2D6), then every total is exactly as likely as before, secret or not and at any time in a session; the same for every pair of total and verdict of a comparison, whichever side is rearranged, even if 64-bit arithmetic overflows. B rolls compared with a number show every number of successes equally often in whatever order and portions the same dice are written. With given dice a number may be moved to the other side of a comparison without changing the verdict unless a side overflows; the order of rolls, on the other hand, matters, and 2*1D6 is not 1D6+1D6.", "quantifier": "all pairs of ordinary commands of any size related by any number of such steps, all totals, verdicts, numbers of successes, all times in a session", "why_tests_cant": "It compares the distributions of two commands over all sequences of random numbers, for infinitely many pairs of commands.", "anchors": ["pkg/core/evaluator/eval_infix_expression.go", "pkg/core/evaluator/determine_values.go", "pkg/core/command/execute_d_roll_expr.go", "pkg/core/command/execute_d_roll_comp.go", "pkg/core/command/execute_b_roll_comp.go", "pkg/core/dice/roller/roller.go: RollDice", "pkg/core/dice/feeder/mt19937.go"]}
{"id": "C101", "title": "Computing with the probabilities of totals", "statement": "With perfect random numbers the probabilities of the totals of D commands are computed from those of their parts: 1Dy shows each of 1..y with probability 1/y and nothing else; (x+x')Dy shows t with the sum of P(xDy = u) P(x'Dy = v) over u+v = t; a+b, a-b and a*b of two expressions with rolls show t with the sum of P(a = u) P(b = v) over the pairs with that result (modulo 2^64); a number on either side of an operator, a sign, or a division by a number other than 0 transforms the totals; a comparison succeeds with the sum of the probabilities of the totals for which it holds. Each command may be typed as a secret roll or not, at any time in a session.", "quantifier": "all ordinary D commands of any size, all totals, numbers, targets; all times in a session", "why_tests_cant": "Equalities between distributions over all sequences of random numbers, for infinitely many commands.", "anchors": ["pkg/core/evaluator/eval_infix_expression.go", "pkg/core/evaluator/determine_values.go", "pkg/core/command/execute_d_roll_expr.go", "pkg/core/command/execute_d_roll_comp.go", "pkg/core/dice/feeder/mt19937.go"]}
{"id": "C102", "title": "Better dice never give a worse total", "statement": "Execute the same D command twice, by any evaluators, with fair dice of the same kinds in the same order, every die of the second execution showing at least as much as in the first. If the rolls of the command are counted positively (added, subtracted an even number of times, multiplied by numbers that are not negative) and its range of totals fits a 64-bit integer, then the second total is at least the first; if they are counted negatively, at most the first. So a comparison that asks for a high total (>=, >) of rolls counted positively, or for a low one (<=, <) of rolls counted negatively, that succeeded still succeeds. A B roll has at least as many successes of >= and > with better dice, and at most as many of <= and <. The same holds with division by numbers, under any rounding, as long as the numbers stay below 2^52 (division by a negative number counts the rolls the other way). The condition on the command is needed: 1D6*(1-1D6) falls from -1 to -3 when its first die rises from 1 to 3.", "quantifier": "all D commands of ordinary rolls, numbers, +, -, * by numbers, / by numbers; all B rolls; all pairs of dice sequences; all targets", "why_tests_cant": "A relation between two executions, for all commands and all pairs of sequences of dice.", "anchors": ["pkg/core/evaluator/determine_values.go", "pkg/core/evaluator/eval_infix_expression.go", "pkg/core/command/execute_d_roll_expr.go", "pkg/core/command/execute_d_roll_comp.go", "pkg/core/command/execute_b_roll_comp.go"]}
{"id": "C103", "title": "Recorded dice are nobody else's", "statement": "After any sequence of calls of NewEnvironment, PushRolledDie, AppendRolledDice, ClearRolledDice, RolledDice, RollDice of evaluators (sharing environments or not) and NewSumRollResult, and of anything a client does with the slices it made or was given (writing, appending, reslicing), each environment holds exactly the dice recorded with it and each SumRollResult the dice it was made of, as if slices were passed by value. No call changes a slice the client holds or the array behind it: the dice of a result (RolledDice) stay what they are, whatever is rolled later. RollDice of an evaluator returns a new slice of the dice rolled, records them in its environment, and if it fails records and returns nothing, although dice have left the feeder. (The exported field Dice of SumRollResult is not read or assigned directly.)", "quantifier": "all histories of calls and client operations, all growth policies of append, all feeders", "why_tests_cant": "Aliasing depends on capacities and on the history of all slices; tests see single calls.", "anchors": ["pkg/core/evaluator/environment.go", "pkg/core/evaluator/evaluator.go", "pkg/core/dice/roller/roller.go", "pkg/core/ast/sum_roll_result.go"]}
{"id": "C104", "title": "The information of game systems is shared", "statement": "basic.BasicInfo() returns a pointer to a package variable that all dice bots of the basic game system share. After any sequence of bcdice.New, SetDiceBotByGameID, SetDieFeeder, ExecuteCommand, basic.New, making information and dice bots of one's own, and assigning the exported fields GameID etc., BasicInfo and DiceBot: a BCDice with a dice bot that has information answers every input as the basic dice bot does, under the name now found there; without a dice bot it panics on every input; with a dice bot without information it panics exactly on texts that are commands or begin with one, without rolling dice. Writing information changes the name in the answers of all who use it, whenever they were made, and nobody else's. SetDiceBotByGameID accepts exactly the name now found in the shared information and otherwise changes nothing; bcdice.New, which ignores this error, gives a BCDice that panics on every input once the shared information is not called DiceBot any more. If no field is assigned, every BCDice answers as the basic dice bot; if only the field DiceBot is not assigned, every BCDice has a dice bot of its own, and changing that of one changes no answer of another. A BCDice rolls the dice of the feeder last given to it: SetDieFeeder and New change no other's answers, and a command changes the answers of exactly those that share its feeder, who go on with the dice left.", "quantifier": "all histories of calls and assignments, all feeders, all inputs", "why_tests_cant": "What is shared shows only in histories with several bots and writes; tests use one bot and never write to the information.", "anchors": ["pkg/dicebot/gamesystem/basic/basic.go", "pkg/dicebot/dicebot.go", "pkg/dicebot/list/list.go", "pkg/bcdice/bcdice.go"]}
{"id": "C105", "title": "Ordinary chat is not taken for a command", "statement": "Every command is a choice (the word choice in any case and a bracket), a calculation (C or c, parentheses, arithmetic with a digit in between), or a roll; a roll starts with a digit, a sign or an opening bracket, is written in the characters 0123456789+-*/()[].<>= and the letters DBRU only, contains a digit, contains one of these letters or the dots of a random number, and its parentheses and brackets match. Hence any text that, after an optional S, does not begin like a choice or calculation and whose first word is no such roll is answered with an error and rolls no die; in particular any text that begins with another character, such as D66 or full-width digits (both in the usage text).", "quantifier": "all texts, feeders and feeder states", "why_tests_cant": "It speaks of every text a chat can contain; tests list a few.", "anchors": ["pkg/core/parser/parser.pigeon", "pkg/bcdice/bcdice.go", "pkg/core/util/secret_roll.go"]}
{"id": "C106", "title": "Sessions can be replayed from their logs", "statement": "The dice shown with a result (RolledDice) are all that matters: with a queue feeder holding them, followed by any others, the same text gives the same result (game system, message parts, dice, success, secrecy) and leaves exactly the others. So a session in which every command succeeded, chat that is no command included, is repeated answer by answer by a queue of the dice shown in it, whatever feeder was used in the session. Two exceptions are real: a reroll command that is refused for its threshold may have rolled a random number [a...b] which is not shown, and a command that fails after rolling shows no dice.", "quantifier": "all sessions of any length, all texts, feeders, feeder states and dice behind", "why_tests_cant": "It compares two executions of every session; tests supply the dice themselves, so they cannot notice a die that was rolled but not shown by other commands.", "anchors": ["pkg/bcdice/bcdice.go", "pkg/core/command/result.go", "pkg/core/evaluator/environment.go", "pkg/core/dice/feeder/queue.go"]}
{"id": "C107", "title": "Only nested parentheses make parsing slow", "statement": "For any bound d on the number of parentheses open at any place of a text, the work of Parse (calls of its expression matcher, Stats.ExprCnt) is bounded by a polynomial in the length of the text: 17351*N^4*(1300*N^3)^d with N the number of runes plus one, for every text, command or not, with invalid bytes or not; without parentheses 17351*N^4. Hence a limit MaxExpressions(m) can be chosen that no text of at most n runes nested at most d deep meets. (C67 shows that without a bound on the nesting the work doubles with each level.)", "quantifier": "all inputs (any decoded bytes), all nesting depths, both settings of AllowInvalidUTF8", "why_tests_cant": "It bounds the running time for every input of every length; tests time a few.", "anchors": ["pkg/core/parser/parser.go", "pkg/core/parser/parser.pigeon"]}
{"id": "C108", "title": "Calls that share statistics share the limit", "statement": "Parse with Statistics(&stats, ...) goes on counting where stats stands, and MaxExpressions(m) is compared with that count: calls that share a Stats, one after the other, do what they do alone as long as the work of all calls so far, the present one included, is at most m; every later call is refused with the error \"max number of expresssions parsed\", however short its text. Without a limit nothing is refused and the count grows by exactly the work of each call.", "quantifier": "all inputs, all sequences of calls of any length, all counts, limits and other options but Memoize and Entrypoint", "why_tests_cant": "It speaks of histories of calls of any length; tests make single calls.", "anchors": ["pkg/core/parser/parser.go"]}
{"id": "C109", "title": "The transcript of a session is a test file that passes", "statement": "Write down a session (texts of one line each, the answers of the bot with ###secret dice### behind secret ones, the dice shown; nothing for texts that are no command or that fail) in the format of the test data files. The test runner reads the file as one test per text, runs all of them and all pass, whatever feeder the dice came from, for every game ID, with any number of line breaks at the end. In particular a text that fails with some feeder fails with no dice at all. A text with a line break in it does not survive.", "quantifier": "all sessions of texts without line break (not empty, not the separating bar), all feeders whose dice show no negative numbers, answers that are results or errors (a random number in a reroll command without threshold excepted, C106)", "why_tests_cant": "It relates the bot, the writer of test files, the reader of test files and the test runner for every session of any length; a test has one file.", "anchors": ["pkg/dicebot/testing/testing.go:Run", "pkg/dicebot/testing/testcase.go:ParseFiles", "pkg/bcdice/bcdice.go:ExecuteCommand", "pkg/core/dice/die.go:FormatDiceWithoutSpaces"]}
{"id": "C110", "title": "Division respects the order of numbers", "statement": "Divide a greater number by the same positive divisor and the quotient is at least as great, by a negative one at most as great; a greater positive divisor gives a quotient at least as close to zero on the same side. This holds for the plain division, for U and for R and for all 64-bit numbers, as long as the quotients lie in the 64-bit range. For a number that is not negative and a positive divisor, both below 2^52, the plain quotient is at most the rounded one, that at most the one rounded up, and that at most one more than the plain one; plain and rounded up are equal just when the division is exact. Outside of the range the order is lost: 2^63-1 divided by 1 and rounded up is -2^63.", "quantifier": "all operands (64-bit integers), all rounding methods", "why_tests_cant": "Three algorithms through floating point numbers over 2^128 pairs of operands.", "anchors": ["pkg/core/evaluator/eval_infix_expression.go"]}
{"id": "C111", "title": "How long answers are", "statement": "Whatever is typed and whatever the feeder gives, the message of an answer has at most 48 characters for each character typed, 44 for each die it shows and 150 besides: computed numbers have at most twenty characters, nothing typed is shown more than twice, no die more than once. The dice have to be counted: a B roll of n dice answers with at least 2n characters.", "quantifier": "all input texts, all feeders and dice, all answers of ExecuteCommand with the basic dice bot", "why_tests_cant": "A bound for every text of every length and every number of dice; the text of an answer is built recursively.", "anchors": ["pkg/bcdice/bcdice.go:ExecuteCommand", "pkg/core/notation/notation.go:InfixNotation", "pkg/core/command/result.go:Message"]}
{"id": "C112", "title": "Calculations may be done by hand", "statement": "If C(m) and C(w) answer the same value, then (w) may be written for (m) at any place of any command but a choice: as a number of dice or sides, a bound of a random number, a reroll threshold, a bonus, a target or part of a larger calculation. With the same feeder the same dice are drawn and the feeder is left alike; what fails fails with the same error; the answer has the same dice, success, secrecy and the same values (all message parts from the third on). B, R and U commands answer exactly the same text, D comparisons too if the calculation is part of the target. Exception: the roll of a comparison that has a single D roll must have plain numbers (finding 2).", "quantifier": "all pairs of calculations of the same value, all texts before and behind (so all commands of any size and nesting), all feeders and feeder states", "why_tests_cant": "It compares two executions of every command for every pair of calculations; tests check literal commands.", "anchors": ["pkg/bcdice/bcdice.go:ExecuteCommand", "pkg/core/parser/parser.pigeon", "pkg/core/evaluator/eval_var_args.go:EvalVarArgs", "pkg/core/evaluator/determine_values.go:DetermineValues", "pkg/core/command/command.go:Execute"]}
{"id": "C113", "title": "Calculations can be done step by step", "statement": "For any two calculations a and b, C((a)+(b)), C((a)-(b)), C((a)*(b)), C((a)/(b)), C(-(a)), C(+(a)) and C((a)) are calculations again, and answer what is computed from the answers to C(a) and C(b): the sum, difference and product modulo 2^64, the quotient rounded toward zero, and with /…U and /…R (operands below 2^52) the least integer not below it and the nearest one. Each calculation has one outcome, a value or an error; the only error is \"x divided by zero\"; an error of the left part is reported before one of the right part, and that before a division by zero of the whole. So the commutative, associative and distributive laws hold for all calculations, even those that leave 64 bits. All this for c and C, secret or not, whatever follows the closing parenthesis, with every feeder, which is left alone.", "quantifier": "all pairs and triples of calculations of any size and nesting, all feeders and states, all ways of typing them", "why_tests_cant": "It relates the answers to infinitely many commands to each other; tests check literal calculations.", "anchors": ["pkg/core/evaluator/eval_infix_expression.go: evalInfixExpression", "pkg/core/evaluator/eval_prefix_expression.go", "pkg/core/command/execute_calc.go", "pkg/core/parser/parser.pigeon: IntExpr, IntExprPrimary", "pkg/bcdice/bcdice.go: ExecuteCommand"]}
{"id": "C114", "title": "The six comparisons of one roll fit together", "statement": "If a D, B, R or U roll is compared with a target by one of =, <>, <, >, <=, >=, then it may be compared by any of the six, and the six answers of the same feeder in the same state fit together: they leave the feeder alike, and are either the same error or panic, or results with the same dice, the same secrecy and the same message but for the sign in the notation and the last part, whose verdicts (D) or numbers of successes (B, R, U) are those of the same values and the same target (or all are refused with the same message). So a D comparison succeeds exactly if the opposite one fails; the numbers of successes of opposite comparisons (= and <>, < and >=, > and <=) add up to the number of values, that of >= is those of > and = together, that of <= those of < and = together. All this for what is typed to the bot, with or without the mark of secret rolls and a comment.", "quantifier": "all rolls and targets of any size and nesting, all signs, all feeders and feeder states, all ways of typing", "why_tests_cant": "It relates six executions of every comparison with the same dice to each other; tests check single executions of literal commands.", "anchors": ["pkg/core/command/execute_d_roll_comp.go", "pkg/core/command/execute_b_roll_comp.go", "pkg/core/command/execute_r_roll_comp.go", "pkg/core/command/execute_u_roll_comp.go", "pkg/core/parser/parser.pigeon", "pkg/bcdice/bcdice.go: ExecuteCommand"]}
{"id": "C115", "title": "Rolls may be made one after another", "statement": "A list s+t of B rolls without random numbers is answered (with dice ds, the feeder going from f to f2) exactly if s and then t, executed one after the other with the same feeder, are answered; the dice are those of s followed by those of t, and the values shown are those of s, a comma, and those of t. With a target the number of successes is the sum of the two. U rolls with the same threshold likewise: the successes add up (also with a bonus, the same for all), the maximum is the larger of the two maxima and the total the sum of the totals. D rolls likewise: (x)+(y), (x)-(y), (x)*(y) are answered exactly if x and then y are, with their dice and the sum, difference or product of their totals. The same holds for what is typed to the bot, with the mark of secret rolls and a comment. Exceptions: R rolls (dice rolled again wait until the whole list has been rolled) and numbers of dice or sides that are random (they are drawn first).", "quantifier": "all lists of B and U rolls, all D rolls of any size and nesting, all thresholds, bonuses, targets, feeders and feeder states", "why_tests_cant": "It relates one execution to two consecutive ones for every command and feeder; tests execute single literal commands.", "anchors": ["pkg/core/evaluator/eval_b_roll_list.go", "pkg/core/evaluator/eval_u_roll_expr.go", "pkg/core/evaluator/determine_values.go:DetermineValues", "pkg/core/command/command.go:Execute", "pkg/core/parser/parser.pigeon", "pkg/bcdice/bcdice.go: ExecuteCommand"]}
{"id": "C116", "title": "The kinds of rolls agree on the same dice", "statement": "For any rolls (numbers of dice and sides being calculations) and the same feeder: the list of B rolls and the sum of the same D rolls draw the same dice, leave the feeder alike, and are answered or not together; B shows the values, D their sum. As long as no die reaches the threshold (at least 2), R and U rolls draw the same dice too and comparisons with the same target show the same number of successes as those of B rolls; U shows as total the total of the D rolls and as maximum the greatest value of the B rolls. If a die reaches the threshold this is no longer so.", "quantifier": "all lists of rolls (up to 10000 for R, the reroll limit), all thresholds, targets, feeders and feeder states", "why_tests_cant": "It relates the executions of four kinds of commands to each other for every list of rolls and every feeder; tests check each kind by itself on literal commands.", "anchors": ["pkg/core/evaluator/eval_b_roll_list.go", "pkg/core/evaluator/eval_r_roll_list.go", "pkg/core/evaluator/eval_u_roll_expr.go", "pkg/core/evaluator/determine_values.go:DetermineValues", "pkg/core/command/command.go:Execute"]}
{"id": "C117", "title": "Totals and calculations, one after another", "statement": "Let x and y be D rolls or calculations without random numbers, at least one of them a D roll. (x)+(y), (x)-(y) and (x)*(y) are answered (with dice ds, the feeder going from f to f2) exactly if x and then y are, the first by itself as a command and a calculation by C(...); the dice are those of x followed by those of y, and the total is the sum, difference or product of the two modulo 2^64. (x)/(y) likewise, if the second amount is not 0 (otherwise there is no answer); the total is the quotient rounded toward zero, and with a U or R behind the division the least integer not below, or the integer nearest to, the exact quotient (for amounts below 2^53, resp. 2^52 for the dividend with R). (x) and +(x) are answered as x is, -(x) with the opposite.", "quantifier": "all D roll expressions and calculations, all feeders, feeder states and dice", "why_tests_cant": "Infinitely many commands and feeders.", "anchors": ["pkg/core/evaluator/eval_infix_expression.go: evalInfixExpression, evalIntegerDivide", "pkg/core/evaluator/eval_prefix_expression.go", "pkg/core/command/execute_d_roll_expr.go", "pkg/core/command/execute_calc.go", "pkg/core/parser/parser.pigeon: DRollExpr, IntExpr"]}
{"id": "C118", "title": "A comparison is a roll, a calculation and a comparison", "statement": "Let x be a D roll without random numbers, either compound or a single roll whose number and sides are plain numbers (others cannot be compared, C42), and c a calculation. x followed by one of =, <>, <, >, <=, >= and c is answered (with dice ds, the feeder going from f to f2) exactly if x is by itself, with the same dice and the same effect on the feeder, and C(c) has a value; the answer is 成功 if the total of x stands in the relation to the value of c, else 失敗. Lists of B rolls likewise, and lists of R rolls with a threshold that is a calculation of value 2 or more: their answer is the number of all dice rolled (those rolled again included) whose value stands in the relation to the value of c.", "quantifier": "all D, B and R rolls, targets and thresholds, all six comparisons, all feeders, feeder states and dice", "why_tests_cant": "Infinitely many commands and feeders.", "anchors": ["pkg/core/command/execute_d_roll_comp.go", "pkg/core/command/execute_b_roll_comp.go", "pkg/core/command/execute_r_roll_comp.go", "pkg/core/evaluator/eval_infix_expression.go", "pkg/core/parser/parser.pigeon: DRollComp, BRollComp, RRollComp"]}
{"id": "C119", "title": "The bonus of U rolls is added in the end", "statement": "Let s be a list of U rolls without random numbers, u a threshold that is a calculation of value 2 or more, b a calculation. s[u]+b is answered (with dice ds, the feeder going from f to f2) exactly if s[u] is, with the same dice and effect on the feeder, and C(b) has a value; maximum and total are those of s[u], each plus that value (modulo 2^64). s[u]-b likewise, the value being subtracted. Comparing s[u]+b (or s[u]-b) with c by = or <> is comparing s[u] with (c)-(b) (or (c)+(b)): same dice, same effect on the feeder, same number of successes, answered or not together. For the other comparisons this fails when something overflows.", "quantifier": "all lists of U rolls, thresholds, bonuses and targets, all feeders, feeder states and dice", "why_tests_cant": "Infinitely many commands and feeders.", "anchors": ["pkg/core/command/execute_u_roll_expr.go", "pkg/core/command/execute_u_roll_comp.go", "pkg/core/evaluator/eval_u_roll_expr.go", "pkg/core/parser/parser.pigeon: URollExpr, URollComp"]}
