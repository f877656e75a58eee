# Formal model of raa0121/GoBCDice in Lean 4

Layout: `lean/Verif/*.lean` is the model (one definition per Go function, each citing file and lines),
`lean/Verif/Spec/*` the specifications that theorem statements refer to and that are not part of the
program, `lean/Verif/Lemmas/*` helper lemmas, `lean/Verif/Props/*` the property theorems (`Cnn_...`) with
their `example`s. `properties.jsonl` has the properties in words, `MANIFEST.json` (generated from
`tools/claims.tsv`) maps them to theorems, `seeded/LOG.jsonl` records the wrong programs tried.

## 1. What is modelled

| model module | code | simplifications |
|---|---|---|
| `Basic` | Go `int`, `string`, `%d`, `strings.Join/TrimSpace/Fields…`, error and panic outcomes | `int` is `Int64` (64-bit Go). A string is the list of its Unicode scalar values, i.e. valid UTF-8; invalid UTF-8 is covered by `Pigeon` only |
| `Float` | `float64(int)`, `/`, `math.Round`, `math.Ceil`, `int(float)` in `evalIntegerDivide` | IEEE binary64 as round-to-nearest-even on rationals (no subnormals or overflow possible from 64-bit ints); out-of-range `int(f)` is MinInt64 (amd64) |
| `Dice` | `dice.Die`, `DieFeeder`, `Queue`, `MT19937`, `DiceRoller.RollDice` | a feeder is an arbitrary deterministic state machine; `rand.Intn` is any function with its documented contract `0 ≤ Intn n < n` |
| `Heap` | `feeder/queue.go` again, with backing arrays, windows, capacities and in-place `append` | growth policy of `append` is a parameter |
| `EnvMem` | `evaluator/environment.go`, `roller.RollDice`, `Evaluator.RollDice`, `ast.NewSumRollResult` again, with the memory of `Heap` | growth policy of `append` is a parameter; direct use of the exported field `Dice` is left out |
| `BotMem` | `basic.BasicInfo`, `basic.New`, `list.Find`, `bcdice.New`, `SetDiceBotByGameID`, `ExecuteCommand` again, with the information of game systems, dice bots and the field `DiceBot` in memory | dice bots are `basic.Basic` values; the list of other game systems is empty, as in the code |
| `Ast`, `SExp`, `Quote` | package `ast`, `SExp` methods, `%q` | typed: the trees the parser and the evaluator build. `strconv.IsPrint` is a parameter |
| `Eval` | packages `evaluator`, `object` | state monad over feeder state and dice log, **kept on errors** as in Go; in-place mutation of nodes becomes returning the new node (proved equivalent to `Raw*` by C68) |
| `Notation` | package `notation` | - |
| `Parser` | `parser.pigeon`, one function per rule, PEG semantics | valid UTF-8; error texts are in `Pigeon` |
| `Pigeon`, `PigeonGrammar`, `PigeonParse` | the generated `parser.go`: interpreter, action functions, error list, and the grammar table, which `tools/gen_pigeon_grammar.py` extracts mechanically | runes with widths, including invalid bytes. Options are in `PigeonOpt`; the five expression kinds absent from the table are left out; `exprCnt` counts one extra for the entry rule |
| `GrammarText` | the text of `parser.pigeon` and of the table, functions and helpers in `parser.go`, character by character (generated by `tools/gen_grammar_text.py`) | none; `C97` reads this text, so that the table in `PigeonGrammar` need not be trusted to be extracted rightly |
| `PigeonOpt` | `Parse` with options: `MaxExpressions`, `Entrypoint`, `Memoize` (table of remembered results), `AllowInvalidUTF8`, `Recover` | `Statistics` is in `PigeonStats`; `Debug`, `GlobalStore`, `InitState` left out; the repository itself passes no options. The text of a failed type assertion is shortened |
| `PigeonStats` | `Parse` with `Statistics`: `Stats.ExprCnt` carried from call to call and compared with the limit | `Stats.ChoiceAltCnt` left out; natural numbers for `uint64` |
| `Complete` | the completer of the REPL (`repl.go:init`, `New`): the tree of words | the readline library that walks the tree is left out |
| `Server` | `cmd/GoBCDiceAPI/main.go` (`getPort`, address), `config/environment.go` (`Setup`): environment, log file; machines with files and several servers, writing through handles with offsets | echo and its logger are left out; `os.MkdirAll` is assumed to succeed or `os.Create` to fail; `os.TempDir()` has no slash at its end |
| `Regex` | the six regular expressions of the repository (`bcdice.go:60`, `testcase.go:28, 30`, `repl.go:89, 91, 357`), read from their literals, and package `regexp` as far as they use it: compiling, leftmost-first matching with groups, `FindStringSubmatch`, `ReplaceAllString` with the empty text | alternatives, lazy and counted repetition, flags other than a leading `(?s)` are refused by `compileRx`; the order of preference follows the documentation of package regexp |
| `Rand` | `Intn` of package math/rand (called at `mt19937.go:54`), on any sequence of 63-bit numbers: masking for powers of two, rejection otherwise, 31 bits below 2^31 | the numbers themselves (MT19937) are an arbitrary sequence; where all numbers are rejected for ever, the model returns 0 and Go hangs (probability 0, C90_returns) |
| `Command` | package `command` | - |
| `BCDice` | `pkg/bcdice`, `pkg/core/util/secret_roll.go`, `pkg/dicebot`, basic dice bot | a dice bot is any function of input and feeder |
| `Games`, `GoMap` | `pkg/dicebot/list`, `SetDiceBotByGameID`, Go maps and `range` | iteration order and instability of `sort` are nondeterministic: the functions are relations |
| `Api` | `cmd/GoBCDiceAPI/helpers`, `controllers`, `router.go`, `structs` | echo, JSON encoding, sockets: `c.JSON(status, body)` is the pair of its arguments |
| `Repl` | `cmd/GoBCDiceREPL/repl/repl.go` | feeders are objects in a heap with references. Not modelled: readline, completer, colour support detection, the time seed; `strings.ToLower` on ASCII |
| `RawAst`, `RawEval`, `RawNotation`, `RawCommand` | packages `ast`, `evaluator`, `object`, `notation`, `command` again, untyped: nodes are objects in memory behind references, with type switches, failing type assertions, nil dereferences, `SetLeft`/`SetRight` and shallow copies | depth of recursion is a parameter (stack overflow beyond it); zero values such as `&ast.Divide{}` are not modelled; texts of failed type assertions are not modelled |
| `TestRun` | `pkg/dicebot/testing/testing.go` (`Run`) | what is reported to `testing.T` is a list of messages per subtest; renaming of equal or odd subtest names by package `testing` is not modelled; files are name and contents, always readable |
| `MemParse` | `pkg/core/parser/parser.go` (actions on nodes), `bcdice.go` (`ExecuteBasicCommand`, `ExecuteCommand`) with memory | as `Pigeon`, but nodes are addresses, type assertions look at the object, `Append` overwrites; slices of list nodes are immutable lists (no two lists share a backing array, as each list is built from a fresh `[]T{x}`); nodes made by a dice bot are not modelled |
| `ObjMem` | `pkg/core/object/*.go` with memory: objects and arrays behind slices have addresses; client programs are sequences of calls and assignments | depth of recursion of `Inspect` and growth of `append` are parameters; typed nil pointers inside interfaces and zero values such as `&object.Array{}` are not modelled |
| `Bytes` | `ExecuteCommand`, `ExecuteBasicCommand`, `secret_roll.go` on arbitrary bytes; `unicode/utf8` decoding | `regexp` is modelled by its match on decoded runes |
| `Share` | goroutines on one bot that take turns at `Next` (bcdice.go:63-119, roller.go:57-74), and `Queue.Next` step by step (queue.go:47-57) | where a goroutine stands is computed from the answers it has been given; slices are read and written at once |
| `Conc` | the parser with its state dictionaries at addresses, `sync.Pool`, the reuse of label maps (parser.go:2855-2884, 3019-3055), goroutines that parse or execute, each with its own bot and feeder | one key (`RandCount`) per dictionary; single steps are sequentially consistent; `append` doubles; a goroutine recovers panics and goes on |
| `Testcase` | `pkg/dicebot/testing/testcase.go`, reading of test data files | the file system: files are given by their contents |
| `Conformance`, `ParserConformance`, `UnitConformance` | the project's own recorded test data, its `TestParse` cases, and 1124 cases of its unit-test tables (`pkg/core`, `pkg/dicebot/testing`), replayed on the typed and raw-memory models by `decide` | tests of the model, not properties |

Not modelled: `cmd/GoBCDiceGUI/main.go` (widgets, no logic), the CUI's `main` (empty), the REPL's `main`
(it calls `repl.New` and `Start`), the packages echo, readline, go-colorable, mt19937. Goroutines (the repository starts none, a program that
imports it may) are modelled in `Conc`, goroutines on one bot in `Share` (there the parser is not
interleaved, which C82 justifies). Setting a bot's feeder or game system while another goroutine uses it
is not modelled.

`Out α` has `ok`, `err` (with the exact text of the Go error) and `panic`.

## 2. Trusted base

* Lean 4.33.0's kernel. No axioms are added; no compiled evaluation. The axioms each property theorem
  depends on are listed in section 5 (at most `propext`, `Classical.choice`, `Quot.sound`).
* The reading of the Go code recorded in the comments of the model, checked only by re-reading, by the
  conformance modules (all recorded test data, all `TestParse` cases and 1124 cases of the unit-test
  tables agree with the model) and, for
  the parser table, by the extraction script.
* The Go language and library facts named in section 1: 64-bit `int`, amd64 float-to-int conversion, the
  contracts of `rand.Intn`, `sort`, `strconv`, `strings`, `fmt`, map iteration in arbitrary order.
* C85 and C90: the perfect generator is a hypothesis of the claim, defined as a probability measure with
  Mathlib's measure theory. C90 derives it from perfect 63-bit numbers through the model of `Intn`; no claim
  is made that MT19937 returns such numbers.

## 3. Plan per property

How each property is modelled and proved. Where the natural expectation is false of the code, the
property states what the code does and a theorem with suffix `_refuted` (or `_never_executes`,
`_bound_needed`) proves the negation of the expectation.

* **C01**: `RollDice` loop is recursion on the count; specification `Draws` (successive `Next` calls). Induction on the count, both directions.
* **C02**: same recursion; error cases and their causes by case analysis, no die drawn.
* **C03**: `Queue` instance of C01: list specification (take, first wrong die). Induction.
* **C04**: histories of queue operations as lists of operations; refinement to a plain list by induction on the history.
* **C05**: memory model (`Heap`): worlds of queues and client slices; invariant "arrays of queues are reachable from that queue only"; induction over histories of calls.
* **C06**: abstract generator with its contract; invariant over the roll loop.
* **C07**: every evaluator function "realizes" (Lemmas/Realize) a draw of `ds` with `ds` appended to the log; commands compose; queue version via `Draws` on a queue.
* **C08**: big-step specification `Ev` (Spec/Eval) of expressions with dice; staged evaluation related to it by induction on trees.
* **C09**: bounds of sums of in-range dice; induction on the list; overflow excluded by the stated hypothesis.
* **C10**: `evalBRollList` against plain list concatenation and counting.
* **C11**: FIFO specification of rerolls (Spec) independent of the code's loop; loop invariant.
* **C12**: counting over all groups; corollary of C11's structure.
* **C13**: `UChain` specification of one group; induction on the reroll fuel and the list.
* **C14**: max and totals as arithmetic on the groups (`Int64` wrap included).
* **C15**: potential argument: dice and feeder calls bounded for every outcome, every feeder; then input-length bound.
* **C16**: interval arithmetic on `Int64`, overflow case separated.
* **C17**: `Int64` division against `Int.tdiv`.
* **C18**: float64 division: error analysis of one rounding; witnesses show that the bound is needed.
* **C19**: as C18 for rounding to nearest.
* **C20**: induction over expressions; ring homomorphism modulo 2^64.
* **C21**: verdict of comparison against integer order; text and enum agree.
* **C22**: one n-sided die; item by index; panic outside.
* **C23**: no feeder call: outcome exists before the feeder is chosen.
* **C24**: invariant "no panic" through evaluator, commands and top level, for sane feeders.
* **C25**: top level unfolds to two failing parses.
* **C26**: notation of the evaluated tree is printed text of a concrete syntax derivation that re-parses to an equivalent command (Lemmas/Redisplay); exceptions are a decidable predicate; refutation by witness.
* **C27**: `Der` (Spec/Grammar), a context-free grammar: parser sound and complete for it, tree unique; left-grouping by induction.
* **C28**: fuel irrelevance above the input length; every repetition consumes.
* **C29**: case folding commutes with every rule of the grammar.
* **C30**: digits against positional value, saturation.
* **C31**: user state `RandCount` equals the number of random elements consumed.
* **C32**: derivations span the text for rolls; prefix for calc and choice.
* **C33**: the secret marker is stripped once; any dice bot.
* **C34**: case analysis of `ExecuteCommand`; refutation by a witness.
* **C35**: threshold evaluation precedes rolling; no feeder call.
* **C36**: default of the threshold in the comparison.
* **C37**: shape of messages per command kind.
* **C38, C39**: one frame lemma: outcome depends on the feeder only through the dice drawn (Lemmas/Outcome).
* **C40, C41**: staged evaluation against direct `Eval` by induction on trees.
* **C42, C43**: exact condition of execution; the expectations are refuted for all such commands.
* **C44**: grammar of the bonus; value as one signed sum; refutation by witness.
* **C45**: state of the REPL before and after a line; induction over repetitions and histories.
* **C46**: references of the three components equal: invariant over histories.
* **C47**: loop with an arbitrary stream of reads; returns iff a quitting line is read; refutation for end of input.
* **C48**: grammar of the dice notation (Spec/Testcase), language, error text, round trip, injectivity.
* **C49**: relations for map iteration and unstable sorting; listing = sorted keys whatever the order; refutation for equal sort keys.
* **C50, C51**: maps; histories of validations by induction.
* **C52**: log only grows by successful rolls; all outcomes, histories of rolls.
* **C53**: `ExecuteCommand` on a command followed by white space; via C32.
* **C54**: the S-expression text is uniquely readable: induction over trees with a prefix-freeness invariant.
* **C55**: `RollsShown` on plain texts; induction over the expression; determinacy.
* **C56**: the scanner of test files as a fold over lines; writer as specification.
* **C57**: registry lookup; induction over call sequences.
* **C58**: routing table; evaluation of handlers.
* **C59**: classification of lines by the handler table (regular expressions as functions).
* **C60**: game state invariant over histories.
* **C61**: notation of parsed trees re-parses (Lemmas/NodeNotation) and executes alike.
* **C62**: simulation between feeders with equal answers, through all layers.
* **C63**: exact output text of every REPL request after any history.
* **C64**: generic interpreter on the extracted table simulates the rule functions of `Parser` (Lemmas/Pigeon*), including values on the label stack; termination measure.
* **C65**: invariants of the farthest-failure record; `Spec/Peg` gives the meaning of the table with its misses, deterministic; error list = misses at the farthest position.
* **C66**: depth measure: position and rule rank; exact error through `ExecuteCommand`.
* **C67**: cost recurrence on the nested family, counted by the interpreter's own counter.
* **C68**: `Rep*` relates memory to trees (footprints list the nodes, `Nodup` says unshared). Simulation of every function of evaluator, notation and command, with frames; `build` (constructor calls) establishes the relation.
* **C69**: relations between memories (grows; same kinds) closed under sequencing, pushed through all functions on arbitrary graphs.
* **C70**: second execution of the remaining tree (`executeT`, Lemmas/Twice), transported to memory by C68.
* **C71**: `runTests` over `parseFiles` (C56) and `executeCommand`; verdicts by induction over the cases.
* **C72**: `Mem.run` (parser with nodes in memory) simulates `Pigeon.run`: induction on fuel, invariant: every value and every frame of labels is in memory without sharing, made of new nodes; actions stand only at the top of rules. Joined with C64 and C68; height of trees bounded by the text.
* **C73**: `Denotes` (Spec/Object) relates an address to a value; texts split uniquely (Lemmas/Inspect), `Inspect` returns iff `Denotes` by induction on depth; cycles by size of the value.
* **C74**: induction over the elements, on any memory.
* **C75**: invariant over histories: no slice of the client reaches the array behind `NewArray`'s slice (`Iso`).
* **C76**: every call extends memory (`Ext`) and keeps `CacheGood`: a stored array has the sums of the groups; fields of U roll results are never assigned after construction.
* **C77**: `splitLast` finds the longest accepted division (induction over the text), uniqueness of divisions; files by induction over their parts.
* **C78**: `execute_ok_iff` with the text level unfolded; uniqueness by running the queue feeder on both lists.
* **C79**: `CommandStops` (Spec/Stop) describes every execution without a result; `Halts` is its analogue of `Realizes`, proved compositionally for every evaluator function (Lemmas/Stop, Lemmas/StopCommand); completeness and exclusiveness by running a queue; texts by inversion (Lemmas/Known).
* **C80**: `CommandStops` of an ordinary command has no cause of the program's own (Lemmas/Ordinary); random dice exclude the others.
* **C81**: the parser reads no invalid byte it accepts (`PigeonClosed`, `PigeonFence`: nothing behind the character it stops at matters); UTF-8 decoding inverts encoding for every character (arithmetic on code points); then C78/C79's argument on bytes.
* **C82**: weakest preconditions with ownership of dictionaries for the parser's steps (`WP`, `run_wp`: the parser with addresses refines `Pigeon.run`), and an invariant over all schedules (owned dictionaries are disjoint from each other and from the pool, pooled ones are empty).
* **C83**: `toF64` is shown to be the nearest double with ties to even (a double is a multiple of the unit of the last place, or smaller than the power of two below the number), rounding is shown to be a function, then the ranges of the operands and first-order error bounds.
* **C84**: `SimU` (Lemmas/SimUnless): evaluation with two feeders that answer alike until the first gives up; used to show that one more answer continues a goroutine where it stood (`follows_step`), that a goroutine asks exactly for what the history says, and, with an endless supply of answers, that it finishes.
* **C85**: `chance` is the product of uniform measures over (time, bound); the event "the next dice are `ds`" is a cylinder (`chance_dealt`), executions are unions of such events that exclude each other (`outcome_separate`), ordinary commands always roll the same numbers of dice and sides (`Outcome.dice`), the rest is counting. Independence over byte sessions uses a feeder that records what it deals (`session_trace`). Not claimed: that the Mersenne Twister is such a generator.
* **C86**: the interpreter with options simulates the one without as long as the limit is not exceeded (`runO_plain`, induction on fuel), and panics otherwise; the rest follows from the theorems on `Parse` without options, whose proofs hold for any value of `AllowInvalidUTF8` (`top_run`). For `Memoize(true)` only a counterexample to transparency is proved.
* **C87**: the paths in the tree are computed (`path_iff`, `path_leaves`); that they work follows from C49, C59 and C63.
* **C88**: an invariant of all histories (`machine_ok`), then induction on the history from its end; paths are injective in the time because decimal numerals are.
* **C89**: expressions are compiled from the literals in the source (`compileRx`, by computation in the kernel); `Rx.ways` lists all ways to match in order of preference. `ways_iff` (induction on the expression, rounds of `*` by induction on the length of the text) shows that it lists exactly the matches of the declarative `RxMatch`; the search theorems follow. For each of the six expressions the first way is computed in continuation-passing style (`Rx.first`, `greedy`) and shown equal to the function the model uses, which the specifications of C06, C39, C46, C63 describe.
* **C90**: `goIntn` is the loop of the library with a bound on the draws; `goIntn_iff` says which numbers it takes (`Acc`) and what it returns. Counting (`card_hit`) shows that every residue is hit by the same number of 63-bit numbers; a geometric series over the rejections gives 1/n, and the product measure (`infinitePi`) gives independence for lists of dice by induction. Sessions are reduced to lists of dice as in C85; events agree up to the null set where `Intn` hangs.
* **C91**: averages over all faces (`avg`) are linear and multiplicative over disjoint dice; by induction on the expression they are the textbook mean and mean square; `C85_expression` turns averages over faces into sums over shown totals. Symmetry: turning every die over permutes the faces. Opposite comparisons are complementary events.
* **C92**: the dice of a reroll are one stream that ends with the x-th die below the threshold (induction over `RGroups` and over the chains of a U roll, in both directions); counting such streams gives the law.
* **C93**: by cases on `Outcome`, every text helper yields characters of `answerLetters` (structural induction over `infixNotation`); items of a choice are pieces of the typed text by the grammar; splitting undoes joining when the mark occurs in no part.
* **C94**: typing rules for nodes in memory (`HasType`, one node at a time, indexed by depth so that cycles have no type); soundness by induction on depth with a Hoare-style predicate that also says that everything typed stays typed (evaluation only adds nodes); the converse by inversion of `Eval`'s run.
* **C95**: the Hoare-style predicate of C94, with the relation that every type and every skeleton (kind, operator, list links) is kept; each write of `EvalVarArgs`, `DetermineValues`, `SetRerollThreshold` and `EvalCompareLeft` keeps it because the new operand is a literal, which has the type of numbers at depth one, and a number has no other type (`HasType.unique`); histories by induction on the calls.
* **C96**: kinds and the tables of what each entry point refuses are an inductive relation and lists in
  Spec/Kinds; refusal by running the model on an arbitrary memory; acceptance by exhibiting a node of every kind on
  which the call succeeds (kernel computation); U rolls, unprepared D rolls and other rolls by running the model.
* **C97**: a reader of the pigeon notation (`Spec/GrammarFile`) and a writer of the Go source of a table are applied to the embedded text of both files; the kernel computes that they meet, and Parse on every input is rewritten along the equality of the tables.
* **C98**: induction on derivations of the grammar (`Spec/Grammar`, to which C27 ties the parser): a whole number of a text lies within one of the pieces a rule joins, because what stands between the pieces is no digit; at the leaves a spelling can stand wherever a number can. Matching parentheses: what stands between them is balanced, so a pair lies on one side of every separator; between them any text may be replaced by one that the grammar gives the same trees, as a text and the same text in parentheses are.
* **C99**: C78 turns the run into an outcome; an expression worth something without dice is worth that whenever it is evaluated; the outcome of the other command uses the same dice, and counting is monotone. The chance: inclusion of events.
* **C100**: the chance of a total is (times it occurs)/(number of values) in the multiset of all values of the expression; each law of `Rearranged` preserves that multiset (induction on the derivation; portions: faces of a concatenation of dice; upside down: the permutation of faces of C91). B rolls: induction on the permutation. `C100_move`: outcomes of C78.
* **C101**: the multiset of values of C100 is that of all pairs for an operator; counting in it is a sum over pairs; probabilities are counts divided by numbers of values.
* **C102**: both executions are outcomes (C78), whose totals are the exact sums of their dice (C91); those are monotone in each die, by induction on how the rolls are counted; division by numbers is monotone by C110 as long as the numbers (Expr.reach bounds them) stay below 2^52.
* **C103**: memory model of environments, rolling and nodes (`EnvMem`); the separation invariant of C05 (distinct owners have distinct arrays, none of which the client holds) is kept by every operation and gives the by-value effects.
* **C104**: memory model `BotMem` of information, dice bots and BCDice values; the name is shown to be only a name (`execute_renames`), invariants over all histories.
* **C105**: induction on the derivations of the grammar (`Der`), which C27 shows to be what the parser accepts; then C25.
* **C106**: from C78 (what an answer is) every die recorded is in the result, except with refused reroll commands, whose texts must contain the dots of a random number (induction on derivations); then induction on the session.
* **C107**: a static analysis of the extracted table (`analyse`: cost a·Nᵏ·Yᵈ with the level of nesting known after each expression, the sign the text begins with, and whether a rune was taken) is proved right by induction on the runs of the interpreter (`run_bound`); a table of costs per rule is checked against it by the kernel (`ruleTable_right`).
* **C108**: runs are equivariant under shifting the count (`run_up`), and runs with a limit are runs without one until it is exceeded (`runO_plain`); then induction on the calls.
* **C109**: the transcript of a session as a test file is specified in `Spec/Transcript`; that it passes is proved from C106 (a result is given again by the dice shown), C71 and C56 (what the runner does with a file in the documented layout) and C93 (answers are one line).
* **C110**: the nearest double is monotone in the real number, floor, ceiling, truncation and rounding half away from zero are monotone, so their composition is; with the bounds of C18, C19 the methods are compared as roundings of the exact quotient.
* **C111**: a tree has no more nodes than its text has characters (induction on derivations), staging adds none, and the notation of a tree has at most 24 characters for a node and 21 for a die (induction on trees); the other parts are bounded part by part for every kind of outcome (C78).
* **C112**: calculations of the same value in parentheses may be exchanged: replacement in derivations (as for C98) with a relation of trees that differ in constant calculations; the stages of evaluation and the executors keep that relation and draw the same dice.
* **C113**: a calculation has one tree and the evaluation of a tree without dice has one outcome that depends on nothing; the tree of `(a)+(b)` is built of those of `a` and `b`, so its outcome is composed of theirs; the converse directions because outcomes are unique. Stated for typed commands (Spec/Steps).
* **C114**: the commands of the four kinds of comparison are run with the sign left open: all steps before the last one do not look at the sign, so they end alike; the text has one sign only, so its derivation with another sign is the same one.
* **C115**: by the specification of outcomes (C78): texts without `[` have operands that cost no dice; operands, groups and dice of a list of rolls are those of its parts in a row; the totals by the big-step semantics of D expressions.
* **C116**: by the specification of outcomes (C78) the dice of each kind are one admissible group per roll: for R and U because no group is rolled again (induction on the list), for sums of D rolls by induction on the text.
* **C117**: `Amount` (Spec/Amount) says what a D roll answers by itself, or a calculation in `C(...)`; a calculation's tree has a value without dice exactly if it evaluates to it (`ev_gives`), so both are `Ev` of a tree and the theorems follow from the rules of `Ev` and the splitting of `Draws`.
* **C118**: both commands are characterised by `Outcome`; the target's tree is a calculation, so it has the value `C(…)` answers and draws no dice (`ev_gives`).
* **C119**: `Outcome` of U rolls with any bonus (`replies_u`, `replies_u_comp`); in 64-bit arithmetic x + v = t exactly if x = t - v, and the target (c)-(b) has the value C113 says.

## 4. Findings

Behaviour of the code that contradicts what a user (or a comment in the code) would expect; each is a
theorem.

1. Notation of `a*(b/c)` prints `a*b/c` (C26_refuted).
2. `(8/2)D(4+6)<=(5*3)`, an example of the usage text, always fails (C42).
3. `[1...3]+2D6` is accepted and always fails (C43).
4. `3U6[6]-1+2` has modifier -3 (C44_refuted).
5. `ExecuteCommand` evaluates a failing command a second time (C34).
6. Choice with an out-of-range die panics (C22); huge dice counts panic in `make` (excluded in C24).
7. Results refused for their threshold show no dice although random-number arguments drew some (C07's exception).
8. The REPL does not end at end of input: it prints the usage for ever (C47_eof_ends_refuted).
9. `/U`, `/R` go through float64: inexact beyond 2^53 and 2^52; `9223372036854775807/1U` is MinInt64 (C18, C19).
10. MinInt64's notation re-parses off by one; parsing nested divisions is exponential (C67); the REPL strips the secret marker twice.
11. A choice item of blanks trims to the empty item, whose display does not re-parse (C61's exception).
12. Beyond `MaxRerolls` pending R rolls are dropped silently (C11, C15).
13. `JSONResponse` with a nil map panics (C50).
14. The order of `AvailableGameInfos` is undetermined for equal sort keys (C49_infos_refuted).
15. `1+2xyz` is reported as "random element not found" (C65_no_random); a text starting with a newline that does not match is reported at 1:1.
16. A parsed D roll can only be rolled once: executing the same node again repeats the first outcome, and a D comparison executed again fails with "EvalVarArgs not implemented: Int" (C70).
17. A subtree used twice in a hand-built tree is rolled once (C68_sharing_matters).
18. `testing.Run` always tests the basic dice bot whatever game ID it is given, looks at the first input line only, and a case without recorded output passes on any error, leftover dice included (C71_blind, C71_verdict).
19. `URollExprResult` stores its sums at the first call: later changes of the dice show in `Inspect` but not in `MaxValue`, `SumOfValues` or `SumOfGroups` (C76_computed_once); `MaxInteger` returns the element itself, so changing the answer changes the array (C74_max).
20. A byte that is not UTF-8 is a syntax error in `choice[\xff]` but read as U+FFFD in `Schoice[\xff]`, because removing the secret marker re-encodes the text (C81_secret_choice).
21. `Queue.Next` is not safe for concurrent use: two overlapping calls can return the same die, lose one, or panic (C84_same_die_twice, C84_panic); with a locked `Next` sharing a bot is safe (C84_answers), but the dice of one roll may be interleaved with those of another (C84_not_serial).
22. `Memoize(true)` changes the language: `2D6` is refused ("random element not found"), because the remembered operand does not increment the counter of dice again (C86_memoize_refuses). `Entrypoint` with a rule below `Command` panics inside on the first die (C86_entry_without_counter).
23. The log file of a production server is named after the second of its start and created with `os.Create`: a server restarted within a second, or two started at once, truncate and overwrite each other's log (C88_log_lost).
24. Game ids that begin or end with white space would be offered by the completer but refused by `.set-game` (C87_blank_id_refused); no such id is registered in the repository.
25. The text of a choice can imitate anything: an item may contain ` ＞ `, a line break, or be 成功, so such messages cannot be taken apart by their text (C93_choice_mark, C93_choice_verdict, C93_choice_line).
26. `Eval` looks at the text of an operator only: a node made by `NewCompare("+", 2, 3)` evaluates to 5, although it calls itself a comparison (C94_only).
27. `basic.BasicInfo()` returns a pointer to the package variable: a client that writes to it renames the game system for every bot, and makes `bcdice.New`, which ignores the error of `SetDiceBotByGameID`, return bots that panic on every input (C104_shared, C104_lost).
28. The usage text offers `D66`, `D66N`, `D66S` and full-width input (`２ｄ６＋１`); no text that begins so is a command (C105_first).
29. `MaxExpressions` is compared with `Stats.ExprCnt`, which a `Stats` passed with `Statistics` carries from call to call: the limit of a call becomes one for all calls with that `Stats`, and after it is met every text is refused (C108_shared).

## 5. Axioms of each property theorem

(generated by `tools/design.py` from `#print axioms`)

* **no axioms**: `C62_roller`, `C88_port`, `C96_names`.

* **`propext`**: `C27_products`, `C30_leading_zeros`, `C49_found_has_id`, `C49_infos_sorted`, `C74_max_empty`, `C74_other`, `C75_append_shows`, `C84_uninterrupted`, `C84_same_die_twice`, `C84_panic`, `C86_entry_without_counter`, `C87_order`, `C88_log_lost`, `C89_compile`, `C96_kind`, `C96_unready`, `C96_unsettled`, `C97_table`, `C97_parse`, `C97_source`, `C97_functions`, `C97_helpers`, `C98_calc_needed`, `C98_limits`, `C98_balanced_needed`.

* **`propext`, `Quot.sound`**: `queue_fairOn`, `UChain.ne_nil`, `C15_bounded_dice`, `C27_sums`, `C30_numbers`, `C48_language`, `C48_error`, `C48_bound_needed`, `C56_case`, `C56_files_numbered`, `C49_listed_iff_found`, `C49_infos`, `C57_select`, `C57_history`, `C65_truthful`, `C66_returns`, `C69_notation`, `C69_sexp`, `C73_without_spaces`, `C74_max`, `C77_case`, `C77_file`, `C77_division_unique`, `C77_files_error`, `C77_files`, `C86_settings`, `C86_unique`, `C86_unknown_entry`, `C87_candidates`, `C88_files`, `C88_stdout`, `C88_not_created`, `C89_source`, `C89_source_none`, `C94_commands`, `C97_reads`, `C113_calculation`.

* **`propext`, `Classical.choice`, `Quot.sound`**: `C01_rollDice_ok_iff`, `C02_rollDice_invalid`, `C02_rollDice_err_cause`, `C03_rollDice_queue`, `C03_too_many`, `C04_queue_fifo`, `C06_mt_dice_fair`, `C06_mt_no_intn_panic`, `C03_too_many`, `C07_dice_accounting`, `C07_dice_accounting_queue`, `C08_dRoll_value`, `C09_sum_roll_bounds`, `mt_fairOn`, `C10_bRoll`, `C10_bRoll_successes`, `C11_rRoll_groups`, `C12_rRoll_successes`, `C13_uRoll_groups`, `C14_uRoll_max_total`, `C14_uRoll_successes`, `C15_bounded_calls`, `C15_bounded_input`, `C16_random_number`, `C16_random_number_errors`, `C17_division`, `C18_div_up`, `C18_bound_needed`, `C19_div_round`, `C19_bound_needed`, `C20_exact_arithmetic`, `C20_wraps`, `C21_verdict`, `C21_unspecified`, `C22_choice`, `C22_choice_panic`, `C23_calc_pure`, `C23_calc_pure_tree`, `C23_typed`, `C24_no_panic`, `C24_execute`, `C24_basicBot`, `C24_typed`, `C25_malformed`, `C25_typed`, `C27_language`, `C27_unambiguous`, `C28_depth`, `C28_repetitions`, `C29_case_insensitive`, `C29_choice_keyword`, `C30_literals`, `C31_random_element`, `C31_arithmetic_rejected`, `C32_roll_whole`, `C32_prefix`, `C32_roll_chars`, `C33_secret`, `C33_flag`, `C34_retry`, `C34_two_attempts`, `C34_refuted`, `C34_typed`, `C35_rRoll_refusal`, `C35_uRoll_refusal`, `C35_rRollComp_refusal`, `C35_uRollComp_refusal`, `C36_default_threshold`, `C12_rRoll_successes`, `C37_message`, `C38_replay_any`, `C38_replay_queue`, `C39_later_dice`, `C40_staged_eq_direct`, `C41_staging`, `C42_dRollComp_executes_iff`, `C42_computed_left_never_executes`, `C42_usage_example_never_executes`, `C43_random_term_never_executes`, `C43_example_never_executes`, `C52_execute`, `C52_history`, `C53_comment`, `C53_first_word`, `C34_typed`, `C26_command`, `C26_calc`, `C26_value`, `C26_stable`, `C26_redisplay`, `C26_refuted`, `C26_typed`, `C44_bonus`, `C44_bonus_compare`, `C44_refuted`, `C48_round_trip`, `C48_injective`, `C48_string`, `C48_string_injective`, `C56_file`, `C54_sexp_injective`, `C54_same_sexp_iff_same_tree`, `C49_sorted`, `C49_deterministic`, `C49_total`, `C49_infos_deterministic`, `C49_infos_refuted`, `C49_repo`, `C50_ok_flag`, `C50_array`, `C50_error`, `C50_error_text`, `C51_messages`, `C51_has_messages`, `C58_routes`, `C58_total`, `C58_repo_systems`, `C05_queues_by_value`, `C05_clients_untouched`, `C05_client_operations`, `C05_next_delivers`, `C45_restored`, `C45_same_again`, `C45_history`, `C45_determined`, `C46_one_feeder`, `C47_ends_iff`, `C47_end_of_input`, `C47_eof_ends_refuted`, `C47_crash_iff`, `C47_crash_origin`, `C59_dispatch`, `C60_game`, `C60_games_total`, `C55_dRoll_message`, `C55_dComp_message`, `C55_determined`, `C55_command`, `C61_reads`, `C61_means`, `C61_bonus`, `C62_answers_only`, `C62_basic`, `C63_eval_queue`, `C63_eval_random`, `C63_eval_empty`, `C63_roll_queue`, `C63_roll_random`, `C63_roll_usage`, `C63_ast`, `C63_ast_empty`, `C63_list_games`, `C63_list_games_repo`, `C63_help`, `C63_set_game_shown`, `C63_set_game`, `C63_set_die_feeder`, `C63_set_dice_queue`, `C63_silent`, `C63_welcome`, `C64_total`, `C64_sound`, `C64_language`, `C64_rule_functions`, `C64_invalid_bytes`, `C65_located`, `C65_kinds`, `C65_no_random`, `C65_no_random_compare`, `C65_trailing`, `C65_meaning`, `C65_exact`, `C65_accepted`, `C66_execute`, `C66_malformed`, `C66_ast`, `C66_typed`, `C67_exponential`, `C68_execute`, `C68_built`, `C68_sharing_matters`, `C69_eval`, `C69_texts`, `C69_execute`, `C70_d_roll_frozen`, `C70_d_comparison_once`, `C70_others_again`, `C71_verdict`, `C71_panics`, `C71_names`, `C71_blind`, `C71_golden`, `C71_replay`, `C72_parse`, `C72_text`, `C72_independent`, `C72_basic`, `C72_command`, `C72_session`, `C73_text_identifies`, `C73_inspect`, `C73_same_text`, `C73_type`, `C73_cycle`, `C74_sum`, `C75_newArray_copies`, `C75_newArrayByMove_shares`, `C75_write`, `C75_append`, `C76_calls_do_not_modify`, `C76_values`, `C76_computed_once`, `C76_bad_groups`, `C78_execute`, `C78_unique`, `C78_answer`, `C79_execute_error`, `C79_execute_panic`, `C79_exclusive`, `C79_determined`, `C79_complete`, `C79_texts`, `C79_random`, `C79_answer`, `C79_answer_panic`, `C80_execute`, `C80_answer`, `C80_comment`, `C80_random_dice`, `C81_parser`, `C81_basic`, `C81_text`, `C81_secret`, `C81_answer`, `C81_answer_error`, `C81_answer_panic`, `C81_order`, `C81_secret_choice`, `C82_answers`, `C82_race_free`, `C82_pool`, `C82_progress`, `C82_finitely_many_steps`, `C82_finishes`, `C82_fair_execution`, `C82_can_finish`, `C82_parse`, `C83_double`, `C83_determined`, `C83_overflow`, `C83_accurate`, `C84_answers`, `C84_queue`, `C84_alone`, `C84_progress`, `C84_finitely_many_calls`, `C84_finishes`, `C84_can_finish`, `C84_not_serial`, `C85_roll`, `C85_execute`, `C85_answer`, `C85_favourable`, `C85_certain`, `C85_independent`, `C85_choice`, `C85_expression`, `C85_total`, `C85_success`, `C85_binomial`, `C85_chain`, `C85_chain_atLeast`, `C86_defaults`, `C86_limit_kept`, `C86_limit_exceeded`, `C86_invalid_bytes`, `C86_memoize_refuses`, `C87_command`, `C87_set_die_feeder`, `C87_set_game`, `C87_list_games`, `C87_blank_id_refused`, `C88_log_kept`, `C89_search_none`, `C89_search_some`, `C89_first_word`, `C89_first_word_bytes`, `C89_die`, `C89_die_groups`, `C89_roll`, `C89_command`, `C89_command_groups`, `C89_tail`, `C90_range`, `C90_draws`, `C90_returns`, `C90_uniform`, `C90_next`, `C90_dice`, `C90_answers`, `C90_answer`, `C91_limits`, `C91_mean`, `C91_variance`, `C91_symmetric`, `C91_opposite`, `C91_successes`, `C92_R`, `C92_U`, `C92_R_successes`, `C93_characters`, `C93_message`, `C93_one_line`, `C93_parts`, `C93_verdict`, `C93_same_message`, `C93_choice_mark`, `C93_choice_verdict`, `C93_choice_line`, `C94_sound`, `C94_again`, `C94_only`, `C94_missing_left`, `C94_missing_right`, `C94_missing_minus`, `C94_mismatch`, `C94_unknown_operator`, `C95_execute`, `C95_infix`, `C95_sexp`, `C95_history`, `C96_refused`, `C96_accepted`, `C96_u_roll`, `C96_random`, `C96_no_comparison`, `C96_no_infix`, `C98_numbers`, `C98_whole`, `C98_compare`, `C98_answer`, `C98_parentheses`, `C98_parentheses_answer`, `C98_typed`, `C99_sum`, `C99_B`, `C99_R`, `C99_U`, `C99_opposite`, `C99_chance`, `C99_easier`, `C99_R_needs_threshold`, `C100_total`, `C100_verdict`, `C100_B`, `C100_move`, `C100_move_bound_needed`, `C100_order_matters`, `C100_twice_refuted`, `C101_die`, `C101_more`, `C101_op`, `C101_number`, `C101_target`, `C102_total`, `C102_success`, `C102_B`, `C102_product_falls`, `C102_division`, `C102_division_success`, `C103_by_value`, `C103_clients_untouched`, `C103_client_operations`, `C103_results_stay`, `C103_roll`, `C104_answer`, `C104_shared`, `C104_select`, `C104_lost`, `C104_proper`, `C104_separate`, `C104_feeder`, `C104_execute`, `C104_new`, `C104_typed`, `C105_shape`, `C105_chat`, `C105_first`, `C106_again`, `C106_replay`, `C106_dots_needed`, `C106_failure_needed`, `C107_polynomial`, `C107_no_parentheses`, `C107_limit`, `C108_call`, `C108_shared`, `C108_count`, `C109_passes`, `C109_failure`, `C109_line_needed`, `C110_dividend`, `C110_divisor`, `C110_methods`, `C110_range_needed`, `C111_length`, `C111_dice_shown`, `C112_by_hand`, `C112_rolls`, `C112_target`, `C112_single_needed`, `C112_typed`, `C112_typed_rolls`, `C113_outcome`, `C113_steps`, `C113_errors`, `C113_rounding`, `C113_number`, `C113_laws`, `C114_signs`, `C114_opposite`, `C114_counts`, `C115_values`, `C115_successes`, `C115_total`, `C115_successes_U`, `C115_max_total`, `C115_typed`, `C115_R_needed`, `C115_numbers_needed`, `C116_total`, `C116_R`, `C116_U`, `C116_max_total`, `C116_calm_needed`, `C117_operation`, `C117_division`, `C117_rounding`, `C117_answered`, `C117_sign`, `C118_total`, `C118_B`, `C118_R`, `C119_bonus`, `C119_target`, `C119_overflow`.
