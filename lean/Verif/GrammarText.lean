import Verif.Basic

/-!
# The text of the grammar file and of the parts of the parser made from it (generated by
tools/gen_grammar_text.py)
-/

namespace GoBCDice

/-- pkg/core/parser/parser.pigeon:1-70 -/
def pigeonInit : List Str :=
  [chars!"{",
   [],
   chars!"package parser",
   [],
   chars!"import (",
   chars!"\t\"github.com/raa0121/GoBCDice/pkg/core/ast\"",
   chars!"\t\"github.com/raa0121/GoBCDice/pkg/core/token\"",
   chars!"\t\"strconv\"",
   chars!"\t\"strings\"",
   chars!")",
   [],
   chars!"// toIfaceSlice は、vを任意の型のスライスに変換する。",
   chars!"func toIfaceSlice(v interface{}) []interface{} {",
   chars!"\tif v == nil {",
   chars!"\t\treturn nil",
   chars!"\t}",
   chars!"\treturn v.([]interface{})",
   chars!"}",
   [],
   chars!"// leftAssociativeAdditive は、複数の加算/減算項からなる抽象構文木を作る。",
   chars!"func leftAssociativeAdditive(first interface{}, rest interface{}) (ast.Node, error) {",
   chars!"\tlastNode := first.(ast.Node)",
   chars!"\tfor _, r := range toIfaceSlice(rest) {",
   chars!"\t\trs := toIfaceSlice(r)",
   chars!"\t\top := string(rs[0].([]byte))",
   chars!"\t\tright := rs[1].(ast.Node)",
   [],
   chars!"\t\tswitch op {",
   chars!"\t\tcase \"+\":",
   chars!"\t\t\tlastNode = ast.NewAdd(lastNode, right)",
   chars!"\t\tcase \"-\":",
   chars!"\t\t\tlastNode = ast.NewSubtract(lastNode, right)",
   chars!"\t\t}",
   chars!"\t}",
   [],
   chars!"\treturn lastNode, nil",
   chars!"}",
   [],
   chars!"// leftAssociativeAdditive は、複数の乗算/除算項からなる抽象構文木を作る。",
   chars!"func leftAssociativeMultitive(first interface{}, rest interface{}) (ast.Node, error) {",
   chars!"\tlastNode := first.(ast.Node)",
   chars!"\tfor _, r := range toIfaceSlice(rest) {",
   chars!"\t\trs := toIfaceSlice(r)",
   chars!"\t\top := string(rs[0].([]byte))",
   chars!"\t\tright := rs[1].(ast.Node)",
   [],
   chars!"\t\troundingMethod := \"\"",
   chars!"\t\tif len(rs) >= 3 {",
   chars!"\t\t\troundingMethod = strings.ToUpper(string(rs[2].([]byte)))",
   chars!"\t\t}",
   [],
   chars!"\t\tswitch op {",
   chars!"\t\tcase \"*\":",
   chars!"\t\t\tlastNode = ast.NewMultiply(lastNode, right)",
   chars!"\t\tcase \"/\":",
   chars!"\t\t\tswitch roundingMethod {",
   chars!"\t\t\tcase \"U\":",
   chars!"\t\t\t\tlastNode = ast.NewDivideWithRoundingUp(lastNode, right)",
   chars!"\t\t\tcase \"R\":",
   chars!"\t\t\t\tlastNode = ast.NewDivideWithRounding(lastNode, right)",
   chars!"\t\t\tcase \"\":",
   chars!"\t\t\t\tlastNode = ast.NewDivideWithRoundingDown(lastNode, right)",
   chars!"\t\t\t}",
   chars!"\t\t}",
   chars!"\t}",
   [],
   chars!"\treturn lastNode, nil",
   chars!"}",
   [],
   chars!"}"]

/-- pkg/core/parser/parser.pigeon:71-75 -/
def pigeonCommand : List Str :=
  [[],
   chars!"Command <- ResetRandCount n:(Choice / Calc / CommandWithExpression) {",
   chars!"\treturn n, nil",
   chars!"}",
   []]

/-- pkg/core/parser/parser.pigeon:76-79 -/
def pigeonCommandWithExpression : List Str :=
  [chars!"CommandWithExpression <- n:(BRollComp / BRollList / RRollComp / RRollList / URollComp / URollExpr / DRollCompCommand / DRollExprCommand) EOT {",
   chars!"\treturn n, nil",
   chars!"}",
   []]

/-- pkg/core/parser/parser.pigeon:80-83 -/
def pigeonChoice : List Str :=
  [chars!"Choice <- \"CHOICE[\"i items:ChoiceItems (',' [\\pZ]*)? ']' {",
   chars!"\treturn items, nil",
   chars!"}",
   []]

/-- pkg/core/parser/parser.pigeon:84-97 -/
def pigeonChoiceItems : List Str :=
  [chars!"ChoiceItems <- first:ChoiceItem rest:(',' ChoiceItem)* {",
   chars!"\tfirstString := first.(*ast.String)",
   chars!"\tchoice := ast.NewChoice(firstString)",
   [],
   chars!"\tfor _, r := range toIfaceSlice(rest) {",
   chars!"\t\trs := toIfaceSlice(r)",
   chars!"\t\ti := rs[1].(*ast.String)",
   [],
   chars!"\t\tchoice.Append(i)",
   chars!"\t}",
   [],
   chars!"\treturn choice, nil",
   chars!"}",
   []]

/-- pkg/core/parser/parser.pigeon:98-101 -/
def pigeonChoiceItem : List Str :=
  [chars!"ChoiceItem <- [\\pZ]* s:ChoiceItemChars {",
   chars!"\treturn s, nil",
   chars!"}",
   []]

/-- pkg/core/parser/parser.pigeon:102-105 -/
def pigeonChoiceItemChars : List Str :=
  [chars!"ChoiceItemChars <- [^\\],]+ {",
   chars!"\treturn ast.NewString(strings.TrimSpace(string(c.text))), nil",
   chars!"}",
   []]

/-- pkg/core/parser/parser.pigeon:106-109 -/
def pigeonCalc : List Str :=
  [chars!"Calc <- 'C'i '(' expr:IntExpr ')' {",
   chars!"\treturn ast.NewCalc(expr.(ast.Node)), nil",
   chars!"}",
   []]

/-- pkg/core/parser/parser.pigeon:110-117 -/
def pigeonDRollExprCommand : List Str :=
  [chars!"DRollExprCommand <- expr:DRollExpr {",
   chars!"\tif c.state[\"RandCount\"].(int) < 1 {",
   chars!"\t\treturn nil, fmt.Errorf(\"random element not found\")",
   chars!"\t}",
   [],
   chars!"\treturn ast.NewDRollExpr(expr.(ast.Node)), nil",
   chars!"}",
   []]

/-- pkg/core/parser/parser.pigeon:118-125 -/
def pigeonDRollCompCommand : List Str :=
  [chars!"DRollCompCommand <- expr:DRollComp {",
   chars!"\tif c.state[\"RandCount\"].(int) < 1 {",
   chars!"\t\treturn nil, fmt.Errorf(\"random element not found\")",
   chars!"\t}",
   [],
   chars!"\treturn ast.NewDRollComp(expr.(ast.Node)), nil",
   chars!"}",
   []]

/-- pkg/core/parser/parser.pigeon:126-137 -/
def pigeonBRollList : List Str :=
  [chars!"BRollList <- first:BRoll rest:('+' BRoll)* {",
   chars!"\tbRollList := ast.NewBRollList(first.(*ast.VariableInfixExpression))",
   [],
   chars!"\tfor _, r := range toIfaceSlice(rest) {",
   chars!"\t\trs := toIfaceSlice(r)",
   chars!"\t\tb := rs[1].(*ast.VariableInfixExpression)",
   chars!"\t\tbRollList.Append(b)",
   chars!"\t}",
   [],
   chars!"\treturn bRollList, nil",
   chars!"}",
   []]

/-- pkg/core/parser/parser.pigeon:138-147 -/
def pigeonBRollComp : List Str :=
  [chars!"BRollComp <- left:BRollList op:CompareOp right:IntExpr {",
   chars!"\treturn ast.NewBRollComp(",
   chars!"\t\tast.NewCompare(",
   chars!"\t\t\tleft.(ast.Node),",
   chars!"\t\t\tstring(op.([]byte)),",
   chars!"\t\t\tright.(ast.Node),",
   chars!"\t\t),",
   chars!"\t), nil",
   chars!"}",
   []]

/-- pkg/core/parser/parser.pigeon:148-166 -/
def pigeonRRollList : List Str :=
  [chars!"RRollList <- first:RRoll rest:('+' RRoll)* th:('[' IntExpr ']')? {",
   chars!"\tths := toIfaceSlice(th)",
   [],
   chars!"\tvar threshold ast.Node = ast.NilInstance()",
   chars!"\tif ths != nil {",
   chars!"\t\tthreshold = ths[1].(ast.Node)",
   chars!"\t}",
   [],
   chars!"\trRollList := ast.NewRRollList(first.(*ast.VariableInfixExpression), threshold)",
   [],
   chars!"\tfor _, r := range toIfaceSlice(rest) {",
   chars!"\t\trs := toIfaceSlice(r)",
   chars!"\t\trr := rs[1].(*ast.VariableInfixExpression)",
   chars!"\t\trRollList.Append(rr)",
   chars!"\t}",
   [],
   chars!"\treturn rRollList, nil",
   chars!"}",
   []]

/-- pkg/core/parser/parser.pigeon:167-176 -/
def pigeonRRollComp : List Str :=
  [chars!"RRollComp <- left:RRollList op:CompareOp right:IntExpr {",
   chars!"\treturn ast.NewRRollComp(",
   chars!"\t\tast.NewCompare(",
   chars!"\t\t\tleft.(ast.Node),",
   chars!"\t\t\tstring(op.([]byte)),",
   chars!"\t\t\tright.(ast.Node),",
   chars!"\t\t),",
   chars!"\t), nil",
   chars!"}",
   []]

/-- pkg/core/parser/parser.pigeon:177-186 -/
def pigeonURollComp : List Str :=
  [chars!"URollComp <- left:URollExpr op:CompareOp right:IntExpr {",
   chars!"\treturn ast.NewURollComp(",
   chars!"\t\tast.NewCompare(",
   chars!"\t\t\tleft.(ast.Node),",
   chars!"\t\t\tstring(op.([]byte)),",
   chars!"\t\t\tright.(ast.Node),",
   chars!"\t\t),",
   chars!"\t), nil",
   chars!"}",
   []]

/-- pkg/core/parser/parser.pigeon:187-207 -/
def pigeonURollExpr : List Str :=
  [chars!"URollExpr <- uRollList:URollList bonus:(('+' / '-') IntExprAdditive)? {",
   chars!"\tbonusSlice := toIfaceSlice(bonus)",
   [],
   chars!"\tvar bonusNode ast.InfixExpression = nil",
   chars!"\tif bonusSlice != nil {",
   chars!"\t\top := string(bonusSlice[0].([]byte))",
   chars!"\t\tright := bonusSlice[1].(ast.Node)",
   [],
   chars!"\t\tswitch op {",
   chars!"\t\tcase \"+\":",
   chars!"\t\t\tbonusNode = ast.NewAdd(ast.NewInt(0), right)",
   chars!"\t\tcase \"-\":",
   chars!"\t\t\tbonusNode = ast.NewSubtract(ast.NewInt(0), right)",
   chars!"\t\tdefault:",
   chars!"\t\t\treturn nil, fmt.Errorf(\"unknown operator: %s\", op)",
   chars!"\t\t}",
   chars!"\t}",
   [],
   chars!"\treturn ast.NewURollExpr(uRollList.(*ast.RRollList), bonusNode), nil",
   chars!"}",
   []]

/-- pkg/core/parser/parser.pigeon:208-226 -/
def pigeonURollList : List Str :=
  [chars!"URollList <- first:URoll rest:('+' URoll)* th:('[' IntExpr ']')? {",
   chars!"\tths := toIfaceSlice(th)",
   [],
   chars!"\tvar threshold ast.Node = ast.NilInstance()",
   chars!"\tif ths != nil {",
   chars!"\t\tthreshold = ths[1].(ast.Node)",
   chars!"\t}",
   [],
   chars!"\tuRollList := ast.NewRRollList(first.(*ast.VariableInfixExpression), threshold)",
   [],
   chars!"\tfor _, r := range toIfaceSlice(rest) {",
   chars!"\t\trs := toIfaceSlice(r)",
   chars!"\t\trr := rs[1].(*ast.VariableInfixExpression)",
   chars!"\t\tuRollList.Append(rr)",
   chars!"\t}",
   [],
   chars!"\treturn uRollList, nil",
   chars!"}",
   []]

/-- pkg/core/parser/parser.pigeon:227-228 -/
def pigeonIntExpr : List Str :=
  [chars!"IntExpr <- IntExprAdditive",
   []]

/-- pkg/core/parser/parser.pigeon:229-232 -/
def pigeonIntExprAdditive : List Str :=
  [chars!"IntExprAdditive <- first:IntExprMultitive rest:(('+' / '-') IntExprMultitive)* {",
   chars!"\treturn leftAssociativeAdditive(first, rest)",
   chars!"}",
   []]

/-- pkg/core/parser/parser.pigeon:233-236 -/
def pigeonIntExprMultitive : List Str :=
  [chars!"IntExprMultitive <- first:IntExprPrimary rest:('/' IntExprPrimary [ur]i / (('*' / '/') IntExprPrimary))* {",
   chars!"\treturn leftAssociativeMultitive(first, rest)",
   chars!"}",
   []]

/-- pkg/core/parser/parser.pigeon:237-238 -/
def pigeonIntExprPrimary : List Str :=
  [chars!"IntExprPrimary <- Integer / IntExprUnaryPlus / IntExprUnaryMinus / ParenthesizedIntExpr",
   []]

/-- pkg/core/parser/parser.pigeon:239-242 -/
def pigeonParenthesizedIntExpr : List Str :=
  [chars!"ParenthesizedIntExpr <- '(' e:IntExpr ')' {",
   chars!"\treturn e.(ast.Node), nil",
   chars!"}",
   []]

/-- pkg/core/parser/parser.pigeon:243-246 -/
def pigeonIntExprUnaryPlus : List Str :=
  [chars!"IntExprUnaryPlus <- '+' e:IntExprPrimary {",
   chars!"\treturn e.(ast.Node), nil",
   chars!"}",
   []]

/-- pkg/core/parser/parser.pigeon:247-250 -/
def pigeonIntExprUnaryMinus : List Str :=
  [chars!"IntExprUnaryMinus <- '-' e:IntExprPrimary {",
   chars!"\treturn ast.NewUnaryMinus(e.(ast.Node)), nil",
   chars!"}",
   []]

/-- pkg/core/parser/parser.pigeon:251-258 -/
def pigeonDRollComp : List Str :=
  [chars!"DRollComp <- left:DRollExprAdditive op:CompareOp right:IntExpr {",
   chars!"\treturn ast.NewCompare(",
   chars!"\t\tleft.(ast.Node),",
   chars!"\t\tstring(op.([]byte)),",
   chars!"\t\tright.(ast.Node),",
   chars!"\t), nil",
   chars!"}",
   []]

/-- pkg/core/parser/parser.pigeon:259-260 -/
def pigeonDRollExpr : List Str :=
  [chars!"DRollExpr <- DRollExprAdditive",
   []]

/-- pkg/core/parser/parser.pigeon:261-264 -/
def pigeonDRollExprAdditive : List Str :=
  [chars!"DRollExprAdditive <- first:DRollExprMultitive rest:(('+' / '-') DRollExprMultitive)* {",
   chars!"\treturn leftAssociativeAdditive(first, rest)",
   chars!"}",
   []]

/-- pkg/core/parser/parser.pigeon:265-268 -/
def pigeonDRollExprMultitive : List Str :=
  [chars!"DRollExprMultitive <- first:DRollExprPrimary rest:('/' DRollExprPrimary [ur]i / (('*' / '/') DRollExprPrimary))* {",
   chars!"\treturn leftAssociativeMultitive(first, rest)",
   chars!"}",
   []]

/-- pkg/core/parser/parser.pigeon:269-270 -/
def pigeonDRollExprPrimary : List Str :=
  [chars!"DRollExprPrimary <- DRoll / RandomNumber / Integer / DRollExprUnaryPlus / DRollExprUnaryMinus / ParenthesizedDRollExpr",
   []]

/-- pkg/core/parser/parser.pigeon:271-274 -/
def pigeonParenthesizedDRollExpr : List Str :=
  [chars!"ParenthesizedDRollExpr <- '(' e:DRollExpr ')' {",
   chars!"\treturn e.(ast.Node), nil",
   chars!"}",
   []]

/-- pkg/core/parser/parser.pigeon:275-278 -/
def pigeonDRollExprUnaryPlus : List Str :=
  [chars!"DRollExprUnaryPlus <- '+' e:DRollExprPrimary {",
   chars!"\treturn e.(ast.Node), nil",
   chars!"}",
   []]

/-- pkg/core/parser/parser.pigeon:279-282 -/
def pigeonDRollExprUnaryMinus : List Str :=
  [chars!"DRollExprUnaryMinus <- '-' e:DRollExprPrimary {",
   chars!"\treturn ast.NewUnaryMinus(e.(ast.Node)), nil",
   chars!"}",
   []]

/-- pkg/core/parser/parser.pigeon:283-284 -/
def pigeonIntRandExpr : List Str :=
  [chars!"IntRandExpr <- IntRandExprAdditive",
   []]

/-- pkg/core/parser/parser.pigeon:285-288 -/
def pigeonIntRandExprAdditive : List Str :=
  [chars!"IntRandExprAdditive <- first:IntRandExprMultitive rest:(('+' / '-') IntRandExprMultitive)* {",
   chars!"\treturn leftAssociativeAdditive(first, rest)",
   chars!"}",
   []]

/-- pkg/core/parser/parser.pigeon:289-292 -/
def pigeonIntRandExprMultitive : List Str :=
  [chars!"IntRandExprMultitive <- first:IntRandExprPrimary rest:('/' IntRandExprPrimary [ur]i / (('*' / '/') IntRandExprPrimary))* {",
   chars!"\treturn leftAssociativeMultitive(first, rest)",
   chars!"}",
   []]

/-- pkg/core/parser/parser.pigeon:293-294 -/
def pigeonIntRandExprPrimary : List Str :=
  [chars!"IntRandExprPrimary <- Integer / RandomNumber / IntRandExprUnaryPlus / IntRandExprUnaryMinus / ParenthesizedIntRandExpr",
   []]

/-- pkg/core/parser/parser.pigeon:295-298 -/
def pigeonParenthesizedIntRandExpr : List Str :=
  [chars!"ParenthesizedIntRandExpr <- '(' e:IntRandExpr ')' {",
   chars!"\treturn e.(ast.Node), nil",
   chars!"}",
   []]

/-- pkg/core/parser/parser.pigeon:299-302 -/
def pigeonIntRandExprUnaryPlus : List Str :=
  [chars!"IntRandExprUnaryPlus <- '+' e:IntRandExprPrimary {",
   chars!"\treturn e.(ast.Node), nil",
   chars!"}",
   []]

/-- pkg/core/parser/parser.pigeon:303-306 -/
def pigeonIntRandExprUnaryMinus : List Str :=
  [chars!"IntRandExprUnaryMinus <- '-' e:IntRandExprPrimary {",
   chars!"\treturn ast.NewUnaryMinus(e.(ast.Node)), nil",
   chars!"}",
   []]

/-- pkg/core/parser/parser.pigeon:307-313 -/
def pigeonDRoll : List Str :=
  [chars!"DRoll <- num:RollOperand 'D'i sides:RollOperand IncRandCount {",
   chars!"\tnumNode := num.(ast.Node)",
   chars!"\tsidesNode := sides.(ast.Node)",
   [],
   chars!"\treturn ast.NewDRoll(numNode, sidesNode), nil",
   chars!"}",
   []]

/-- pkg/core/parser/parser.pigeon:314-320 -/
def pigeonBRoll : List Str :=
  [chars!"BRoll <- num:RollOperand 'B'i sides:RollOperand IncRandCount {",
   chars!"\tnumNode := num.(ast.Node)",
   chars!"\tsidesNode := sides.(ast.Node)",
   [],
   chars!"\treturn ast.NewBRoll(numNode, sidesNode), nil",
   chars!"}",
   []]

/-- pkg/core/parser/parser.pigeon:321-327 -/
def pigeonRRoll : List Str :=
  [chars!"RRoll <- num:RollOperand 'R'i sides:RollOperand IncRandCount {",
   chars!"\tnumNode := num.(ast.Node)",
   chars!"\tsidesNode := sides.(ast.Node)",
   [],
   chars!"\treturn ast.NewRRoll(numNode, sidesNode), nil",
   chars!"}",
   []]

/-- pkg/core/parser/parser.pigeon:328-334 -/
def pigeonURoll : List Str :=
  [chars!"URoll <- num:RollOperand 'U'i sides:RollOperand IncRandCount {",
   chars!"\tnumNode := num.(ast.Node)",
   chars!"\tsidesNode := sides.(ast.Node)",
   [],
   chars!"\treturn ast.NewURoll(numNode, sidesNode), nil",
   chars!"}",
   []]

/-- pkg/core/parser/parser.pigeon:335-336 -/
def pigeonRollOperand : List Str :=
  [chars!"RollOperand <- Integer / RandomNumber / ParenthesizedIntRandExpr",
   []]

/-- pkg/core/parser/parser.pigeon:337-343 -/
def pigeonRandomNumber : List Str :=
  [chars!"RandomNumber <- '[' min:RandomNumberOperand \"...\" max:RandomNumberOperand ']' IncRandCount {",
   chars!"\tminNode := min.(ast.Node)",
   chars!"\tmaxNode := max.(ast.Node)",
   [],
   chars!"\treturn ast.NewRandomNumber(minNode, maxNode), nil",
   chars!"}",
   []]

/-- pkg/core/parser/parser.pigeon:344-345 -/
def pigeonRandomNumberOperand : List Str :=
  [chars!"RandomNumberOperand <- Integer / ParenthesizedIntExpr",
   []]

/-- pkg/core/parser/parser.pigeon:346-350 -/
def pigeonResetRandCount : List Str :=
  [chars!"ResetRandCount <- #{",
   chars!"\tc.state[\"RandCount\"] = 0",
   chars!"\treturn nil",
   chars!"}",
   []]

/-- pkg/core/parser/parser.pigeon:351-355 -/
def pigeonIncRandCount : List Str :=
  [chars!"IncRandCount <- #{",
   chars!"\tc.state[\"RandCount\"] = c.state[\"RandCount\"].(int) + 1",
   chars!"\treturn nil",
   chars!"}",
   []]

/-- pkg/core/parser/parser.pigeon:356-364 -/
def pigeonInteger : List Str :=
  [chars!"Integer <- [0-9]+ {",
   chars!"\ts := string(c.text)",
   [],
   chars!"\t// TODO: 整数が大きすぎるときなどのエラー処理が必要",
   chars!"\tvalue, _ := strconv.Atoi(s)",
   [],
   chars!"\treturn ast.NewInt(value), nil",
   chars!"}",
   []]

/-- pkg/core/parser/parser.pigeon:365-366 -/
def pigeonCompareOp : List Str :=
  [chars!"CompareOp <- \"=\" / \"<>\" / \"<=\" / \"<\" / \">=\" / \">\"",
   []]

/-- pkg/core/parser/parser.pigeon:367-367 -/
def pigeonEOT : List Str :=
  [chars!"EOT <- !."]

/-- The lines of pkg/core/parser/parser.pigeon, in pieces. -/
def pigeonPieces : List (List Str) :=
  [pigeonInit, pigeonCommand, pigeonCommandWithExpression, pigeonChoice, pigeonChoiceItems,
   pigeonChoiceItem, pigeonChoiceItemChars, pigeonCalc, pigeonDRollExprCommand, pigeonDRollCompCommand,
   pigeonBRollList, pigeonBRollComp, pigeonRRollList, pigeonRRollComp, pigeonURollComp, pigeonURollExpr,
   pigeonURollList, pigeonIntExpr, pigeonIntExprAdditive, pigeonIntExprMultitive, pigeonIntExprPrimary,
   pigeonParenthesizedIntExpr, pigeonIntExprUnaryPlus, pigeonIntExprUnaryMinus, pigeonDRollComp,
   pigeonDRollExpr, pigeonDRollExprAdditive, pigeonDRollExprMultitive, pigeonDRollExprPrimary,
   pigeonParenthesizedDRollExpr, pigeonDRollExprUnaryPlus, pigeonDRollExprUnaryMinus, pigeonIntRandExpr,
   pigeonIntRandExprAdditive, pigeonIntRandExprMultitive, pigeonIntRandExprPrimary,
   pigeonParenthesizedIntRandExpr, pigeonIntRandExprUnaryPlus, pigeonIntRandExprUnaryMinus, pigeonDRoll,
   pigeonBRoll, pigeonRRoll, pigeonURoll, pigeonRollOperand, pigeonRandomNumber,
   pigeonRandomNumberOperand, pigeonResetRandCount, pigeonIncRandCount, pigeonInteger, pigeonCompareOp,
   pigeonEOT]

/-- pkg/core/parser/parser.go:83-120 -/
def goRuleCommand : List Str :=
  [chars!"\t\t{",
   chars!"\t\t\tname: \"Command\",",
   chars!"\t\t\tpos:  position{line: 72, col: 1, offset: 1640},",
   chars!"\t\t\texpr: &actionExpr{",
   chars!"\t\t\t\tpos: position{line: 72, col: 12, offset: 1651},",
   chars!"\t\t\t\trun: (*parser).callonCommand1,",
   chars!"\t\t\t\texpr: &seqExpr{",
   chars!"\t\t\t\t\tpos: position{line: 72, col: 12, offset: 1651},",
   chars!"\t\t\t\t\texprs: []interface{}{",
   chars!"\t\t\t\t\t\t&ruleRefExpr{",
   chars!"\t\t\t\t\t\t\tpos:  position{line: 72, col: 12, offset: 1651},",
   chars!"\t\t\t\t\t\t\tname: \"ResetRandCount\",",
   chars!"\t\t\t\t\t\t},",
   chars!"\t\t\t\t\t\t&labeledExpr{",
   chars!"\t\t\t\t\t\t\tpos:   position{line: 72, col: 27, offset: 1666},",
   chars!"\t\t\t\t\t\t\tlabel: \"n\",",
   chars!"\t\t\t\t\t\t\texpr: &choiceExpr{",
   chars!"\t\t\t\t\t\t\t\tpos: position{line: 72, col: 30, offset: 1669},",
   chars!"\t\t\t\t\t\t\t\talternatives: []interface{}{",
   chars!"\t\t\t\t\t\t\t\t\t&ruleRefExpr{",
   chars!"\t\t\t\t\t\t\t\t\t\tpos:  position{line: 72, col: 30, offset: 1669},",
   chars!"\t\t\t\t\t\t\t\t\t\tname: \"Choice\",",
   chars!"\t\t\t\t\t\t\t\t\t},",
   chars!"\t\t\t\t\t\t\t\t\t&ruleRefExpr{",
   chars!"\t\t\t\t\t\t\t\t\t\tpos:  position{line: 72, col: 39, offset: 1678},",
   chars!"\t\t\t\t\t\t\t\t\t\tname: \"Calc\",",
   chars!"\t\t\t\t\t\t\t\t\t},",
   chars!"\t\t\t\t\t\t\t\t\t&ruleRefExpr{",
   chars!"\t\t\t\t\t\t\t\t\t\tpos:  position{line: 72, col: 46, offset: 1685},",
   chars!"\t\t\t\t\t\t\t\t\t\tname: \"CommandWithExpression\",",
   chars!"\t\t\t\t\t\t\t\t\t},",
   chars!"\t\t\t\t\t\t\t\t},",
   chars!"\t\t\t\t\t\t\t},",
   chars!"\t\t\t\t\t\t},",
   chars!"\t\t\t\t\t},",
   chars!"\t\t\t\t},",
   chars!"\t\t\t},",
   chars!"\t\t},"]

/-- pkg/core/parser/parser.go:121-178 -/
def goRuleCommandWithExpression : List Str :=
  [chars!"\t\t{",
   chars!"\t\t\tname: \"CommandWithExpression\",",
   chars!"\t\t\tpos:  position{line: 76, col: 1, offset: 1728},",
   chars!"\t\t\texpr: &actionExpr{",
   chars!"\t\t\t\tpos: position{line: 76, col: 26, offset: 1753},",
   chars!"\t\t\t\trun: (*parser).callonCommandWithExpression1,",
   chars!"\t\t\t\texpr: &seqExpr{",
   chars!"\t\t\t\t\tpos: position{line: 76, col: 26, offset: 1753},",
   chars!"\t\t\t\t\texprs: []interface{}{",
   chars!"\t\t\t\t\t\t&labeledExpr{",
   chars!"\t\t\t\t\t\t\tpos:   position{line: 76, col: 26, offset: 1753},",
   chars!"\t\t\t\t\t\t\tlabel: \"n\",",
   chars!"\t\t\t\t\t\t\texpr: &choiceExpr{",
   chars!"\t\t\t\t\t\t\t\tpos: position{line: 76, col: 29, offset: 1756},",
   chars!"\t\t\t\t\t\t\t\talternatives: []interface{}{",
   chars!"\t\t\t\t\t\t\t\t\t&ruleRefExpr{",
   chars!"\t\t\t\t\t\t\t\t\t\tpos:  position{line: 76, col: 29, offset: 1756},",
   chars!"\t\t\t\t\t\t\t\t\t\tname: \"BRollComp\",",
   chars!"\t\t\t\t\t\t\t\t\t},",
   chars!"\t\t\t\t\t\t\t\t\t&ruleRefExpr{",
   chars!"\t\t\t\t\t\t\t\t\t\tpos:  position{line: 76, col: 41, offset: 1768},",
   chars!"\t\t\t\t\t\t\t\t\t\tname: \"BRollList\",",
   chars!"\t\t\t\t\t\t\t\t\t},",
   chars!"\t\t\t\t\t\t\t\t\t&ruleRefExpr{",
   chars!"\t\t\t\t\t\t\t\t\t\tpos:  position{line: 76, col: 53, offset: 1780},",
   chars!"\t\t\t\t\t\t\t\t\t\tname: \"RRollComp\",",
   chars!"\t\t\t\t\t\t\t\t\t},",
   chars!"\t\t\t\t\t\t\t\t\t&ruleRefExpr{",
   chars!"\t\t\t\t\t\t\t\t\t\tpos:  position{line: 76, col: 65, offset: 1792},",
   chars!"\t\t\t\t\t\t\t\t\t\tname: \"RRollList\",",
   chars!"\t\t\t\t\t\t\t\t\t},",
   chars!"\t\t\t\t\t\t\t\t\t&ruleRefExpr{",
   chars!"\t\t\t\t\t\t\t\t\t\tpos:  position{line: 76, col: 77, offset: 1804},",
   chars!"\t\t\t\t\t\t\t\t\t\tname: \"URollComp\",",
   chars!"\t\t\t\t\t\t\t\t\t},",
   chars!"\t\t\t\t\t\t\t\t\t&ruleRefExpr{",
   chars!"\t\t\t\t\t\t\t\t\t\tpos:  position{line: 76, col: 89, offset: 1816},",
   chars!"\t\t\t\t\t\t\t\t\t\tname: \"URollExpr\",",
   chars!"\t\t\t\t\t\t\t\t\t},",
   chars!"\t\t\t\t\t\t\t\t\t&ruleRefExpr{",
   chars!"\t\t\t\t\t\t\t\t\t\tpos:  position{line: 76, col: 101, offset: 1828},",
   chars!"\t\t\t\t\t\t\t\t\t\tname: \"DRollCompCommand\",",
   chars!"\t\t\t\t\t\t\t\t\t},",
   chars!"\t\t\t\t\t\t\t\t\t&ruleRefExpr{",
   chars!"\t\t\t\t\t\t\t\t\t\tpos:  position{line: 76, col: 120, offset: 1847},",
   chars!"\t\t\t\t\t\t\t\t\t\tname: \"DRollExprCommand\",",
   chars!"\t\t\t\t\t\t\t\t\t},",
   chars!"\t\t\t\t\t\t\t\t},",
   chars!"\t\t\t\t\t\t\t},",
   chars!"\t\t\t\t\t\t},",
   chars!"\t\t\t\t\t\t&ruleRefExpr{",
   chars!"\t\t\t\t\t\t\tpos:  position{line: 76, col: 138, offset: 1865},",
   chars!"\t\t\t\t\t\t\tname: \"EOT\",",
   chars!"\t\t\t\t\t\t},",
   chars!"\t\t\t\t\t},",
   chars!"\t\t\t\t},",
   chars!"\t\t\t},",
   chars!"\t\t},"]

/-- pkg/core/parser/parser.go:179-232 -/
def goRuleChoice : List Str :=
  [chars!"\t\t{",
   chars!"\t\t\tname: \"Choice\",",
   chars!"\t\t\tpos:  position{line: 80, col: 1, offset: 1889},",
   chars!"\t\t\texpr: &actionExpr{",
   chars!"\t\t\t\tpos: position{line: 80, col: 11, offset: 1899},",
   chars!"\t\t\t\trun: (*parser).callonChoice1,",
   chars!"\t\t\t\texpr: &seqExpr{",
   chars!"\t\t\t\t\tpos: position{line: 80, col: 11, offset: 1899},",
   chars!"\t\t\t\t\texprs: []interface{}{",
   chars!"\t\t\t\t\t\t&litMatcher{",
   chars!"\t\t\t\t\t\t\tpos:        position{line: 80, col: 11, offset: 1899},",
   chars!"\t\t\t\t\t\t\tval:        \"choice[\",",
   chars!"\t\t\t\t\t\t\tignoreCase: true,",
   chars!"\t\t\t\t\t\t},",
   chars!"\t\t\t\t\t\t&labeledExpr{",
   chars!"\t\t\t\t\t\t\tpos:   position{line: 80, col: 22, offset: 1910},",
   chars!"\t\t\t\t\t\t\tlabel: \"items\",",
   chars!"\t\t\t\t\t\t\texpr: &ruleRefExpr{",
   chars!"\t\t\t\t\t\t\t\tpos:  position{line: 80, col: 28, offset: 1916},",
   chars!"\t\t\t\t\t\t\t\tname: \"ChoiceItems\",",
   chars!"\t\t\t\t\t\t\t},",
   chars!"\t\t\t\t\t\t},",
   chars!"\t\t\t\t\t\t&zeroOrOneExpr{",
   chars!"\t\t\t\t\t\t\tpos: position{line: 80, col: 40, offset: 1928},",
   chars!"\t\t\t\t\t\t\texpr: &seqExpr{",
   chars!"\t\t\t\t\t\t\t\tpos: position{line: 80, col: 41, offset: 1929},",
   chars!"\t\t\t\t\t\t\t\texprs: []interface{}{",
   chars!"\t\t\t\t\t\t\t\t\t&litMatcher{",
   chars!"\t\t\t\t\t\t\t\t\t\tpos:        position{line: 80, col: 41, offset: 1929},",
   chars!"\t\t\t\t\t\t\t\t\t\tval:        \",\",",
   chars!"\t\t\t\t\t\t\t\t\t\tignoreCase: false,",
   chars!"\t\t\t\t\t\t\t\t\t},",
   chars!"\t\t\t\t\t\t\t\t\t&zeroOrMoreExpr{",
   chars!"\t\t\t\t\t\t\t\t\t\tpos: position{line: 80, col: 45, offset: 1933},",
   chars!"\t\t\t\t\t\t\t\t\t\texpr: &charClassMatcher{",
   chars!"\t\t\t\t\t\t\t\t\t\t\tpos:        position{line: 80, col: 45, offset: 1933},",
   chars!"\t\t\t\t\t\t\t\t\t\t\tval:        \"[\\\\pZ]\",",
   chars!"\t\t\t\t\t\t\t\t\t\t\tclasses:    []*unicode.RangeTable{rangeTable(\"Z\")},",
   chars!"\t\t\t\t\t\t\t\t\t\t\tignoreCase: false,",
   chars!"\t\t\t\t\t\t\t\t\t\t\tinverted:   false,",
   chars!"\t\t\t\t\t\t\t\t\t\t},",
   chars!"\t\t\t\t\t\t\t\t\t},",
   chars!"\t\t\t\t\t\t\t\t},",
   chars!"\t\t\t\t\t\t\t},",
   chars!"\t\t\t\t\t\t},",
   chars!"\t\t\t\t\t\t&litMatcher{",
   chars!"\t\t\t\t\t\t\tpos:        position{line: 80, col: 54, offset: 1942},",
   chars!"\t\t\t\t\t\t\tval:        \"]\",",
   chars!"\t\t\t\t\t\t\tignoreCase: false,",
   chars!"\t\t\t\t\t\t},",
   chars!"\t\t\t\t\t},",
   chars!"\t\t\t\t},",
   chars!"\t\t\t},",
   chars!"\t\t},"]

/-- pkg/core/parser/parser.go:233-274 -/
def goRuleChoiceItems : List Str :=
  [chars!"\t\t{",
   chars!"\t\t\tname: \"ChoiceItems\",",
   chars!"\t\t\tpos:  position{line: 84, col: 1, offset: 1970},",
   chars!"\t\t\texpr: &actionExpr{",
   chars!"\t\t\t\tpos: position{line: 84, col: 16, offset: 1985},",
   chars!"\t\t\t\trun: (*parser).callonChoiceItems1,",
   chars!"\t\t\t\texpr: &seqExpr{",
   chars!"\t\t\t\t\tpos: position{line: 84, col: 16, offset: 1985},",
   chars!"\t\t\t\t\texprs: []interface{}{",
   chars!"\t\t\t\t\t\t&labeledExpr{",
   chars!"\t\t\t\t\t\t\tpos:   position{line: 84, col: 16, offset: 1985},",
   chars!"\t\t\t\t\t\t\tlabel: \"first\",",
   chars!"\t\t\t\t\t\t\texpr: &ruleRefExpr{",
   chars!"\t\t\t\t\t\t\t\tpos:  position{line: 84, col: 22, offset: 1991},",
   chars!"\t\t\t\t\t\t\t\tname: \"ChoiceItem\",",
   chars!"\t\t\t\t\t\t\t},",
   chars!"\t\t\t\t\t\t},",
   chars!"\t\t\t\t\t\t&labeledExpr{",
   chars!"\t\t\t\t\t\t\tpos:   position{line: 84, col: 33, offset: 2002},",
   chars!"\t\t\t\t\t\t\tlabel: \"rest\",",
   chars!"\t\t\t\t\t\t\texpr: &zeroOrMoreExpr{",
   chars!"\t\t\t\t\t\t\t\tpos: position{line: 84, col: 38, offset: 2007},",
   chars!"\t\t\t\t\t\t\t\texpr: &seqExpr{",
   chars!"\t\t\t\t\t\t\t\t\tpos: position{line: 84, col: 39, offset: 2008},",
   chars!"\t\t\t\t\t\t\t\t\texprs: []interface{}{",
   chars!"\t\t\t\t\t\t\t\t\t\t&litMatcher{",
   chars!"\t\t\t\t\t\t\t\t\t\t\tpos:        position{line: 84, col: 39, offset: 2008},",
   chars!"\t\t\t\t\t\t\t\t\t\t\tval:        \",\",",
   chars!"\t\t\t\t\t\t\t\t\t\t\tignoreCase: false,",
   chars!"\t\t\t\t\t\t\t\t\t\t},",
   chars!"\t\t\t\t\t\t\t\t\t\t&ruleRefExpr{",
   chars!"\t\t\t\t\t\t\t\t\t\t\tpos:  position{line: 84, col: 43, offset: 2012},",
   chars!"\t\t\t\t\t\t\t\t\t\t\tname: \"ChoiceItem\",",
   chars!"\t\t\t\t\t\t\t\t\t\t},",
   chars!"\t\t\t\t\t\t\t\t\t},",
   chars!"\t\t\t\t\t\t\t\t},",
   chars!"\t\t\t\t\t\t\t},",
   chars!"\t\t\t\t\t\t},",
   chars!"\t\t\t\t\t},",
   chars!"\t\t\t\t},",
   chars!"\t\t\t},",
   chars!"\t\t},"]

/-- pkg/core/parser/parser.go:275-305 -/
def goRuleChoiceItem : List Str :=
  [chars!"\t\t{",
   chars!"\t\t\tname: \"ChoiceItem\",",
   chars!"\t\t\tpos:  position{line: 98, col: 1, offset: 2240},",
   chars!"\t\t\texpr: &actionExpr{",
   chars!"\t\t\t\tpos: position{line: 98, col: 15, offset: 2254},",
   chars!"\t\t\t\trun: (*parser).callonChoiceItem1,",
   chars!"\t\t\t\texpr: &seqExpr{",
   chars!"\t\t\t\t\tpos: position{line: 98, col: 15, offset: 2254},",
   chars!"\t\t\t\t\texprs: []interface{}{",
   chars!"\t\t\t\t\t\t&zeroOrMoreExpr{",
   chars!"\t\t\t\t\t\t\tpos: position{line: 98, col: 15, offset: 2254},",
   chars!"\t\t\t\t\t\t\texpr: &charClassMatcher{",
   chars!"\t\t\t\t\t\t\t\tpos:        position{line: 98, col: 15, offset: 2254},",
   chars!"\t\t\t\t\t\t\t\tval:        \"[\\\\pZ]\",",
   chars!"\t\t\t\t\t\t\t\tclasses:    []*unicode.RangeTable{rangeTable(\"Z\")},",
   chars!"\t\t\t\t\t\t\t\tignoreCase: false,",
   chars!"\t\t\t\t\t\t\t\tinverted:   false,",
   chars!"\t\t\t\t\t\t\t},",
   chars!"\t\t\t\t\t\t},",
   chars!"\t\t\t\t\t\t&labeledExpr{",
   chars!"\t\t\t\t\t\t\tpos:   position{line: 98, col: 22, offset: 2261},",
   chars!"\t\t\t\t\t\t\tlabel: \"s\",",
   chars!"\t\t\t\t\t\t\texpr: &ruleRefExpr{",
   chars!"\t\t\t\t\t\t\t\tpos:  position{line: 98, col: 24, offset: 2263},",
   chars!"\t\t\t\t\t\t\t\tname: \"ChoiceItemChars\",",
   chars!"\t\t\t\t\t\t\t},",
   chars!"\t\t\t\t\t\t},",
   chars!"\t\t\t\t\t},",
   chars!"\t\t\t\t},",
   chars!"\t\t\t},",
   chars!"\t\t},"]

/-- pkg/core/parser/parser.go:306-323 -/
def goRuleChoiceItemChars : List Str :=
  [chars!"\t\t{",
   chars!"\t\t\tname: \"ChoiceItemChars\",",
   chars!"\t\t\tpos:  position{line: 102, col: 1, offset: 2299},",
   chars!"\t\t\texpr: &actionExpr{",
   chars!"\t\t\t\tpos: position{line: 102, col: 20, offset: 2318},",
   chars!"\t\t\t\trun: (*parser).callonChoiceItemChars1,",
   chars!"\t\t\t\texpr: &oneOrMoreExpr{",
   chars!"\t\t\t\t\tpos: position{line: 102, col: 20, offset: 2318},",
   chars!"\t\t\t\t\texpr: &charClassMatcher{",
   chars!"\t\t\t\t\t\tpos:        position{line: 102, col: 20, offset: 2318},",
   chars!"\t\t\t\t\t\tval:        \"[^\\\\],]\",",
   chars!"\t\t\t\t\t\tchars:      []rune{']', ','},",
   chars!"\t\t\t\t\t\tignoreCase: false,",
   chars!"\t\t\t\t\t\tinverted:   true,",
   chars!"\t\t\t\t\t},",
   chars!"\t\t\t\t},",
   chars!"\t\t\t},",
   chars!"\t\t},"]

/-- pkg/core/parser/parser.go:324-359 -/
def goRuleCalc : List Str :=
  [chars!"\t\t{",
   chars!"\t\t\tname: \"Calc\",",
   chars!"\t\t\tpos:  position{line: 106, col: 1, offset: 2393},",
   chars!"\t\t\texpr: &actionExpr{",
   chars!"\t\t\t\tpos: position{line: 106, col: 9, offset: 2401},",
   chars!"\t\t\t\trun: (*parser).callonCalc1,",
   chars!"\t\t\t\texpr: &seqExpr{",
   chars!"\t\t\t\t\tpos: position{line: 106, col: 9, offset: 2401},",
   chars!"\t\t\t\t\texprs: []interface{}{",
   chars!"\t\t\t\t\t\t&litMatcher{",
   chars!"\t\t\t\t\t\t\tpos:        position{line: 106, col: 9, offset: 2401},",
   chars!"\t\t\t\t\t\t\tval:        \"c\",",
   chars!"\t\t\t\t\t\t\tignoreCase: true,",
   chars!"\t\t\t\t\t\t},",
   chars!"\t\t\t\t\t\t&litMatcher{",
   chars!"\t\t\t\t\t\t\tpos:        position{line: 106, col: 14, offset: 2406},",
   chars!"\t\t\t\t\t\t\tval:        \"(\",",
   chars!"\t\t\t\t\t\t\tignoreCase: false,",
   chars!"\t\t\t\t\t\t},",
   chars!"\t\t\t\t\t\t&labeledExpr{",
   chars!"\t\t\t\t\t\t\tpos:   position{line: 106, col: 18, offset: 2410},",
   chars!"\t\t\t\t\t\t\tlabel: \"expr\",",
   chars!"\t\t\t\t\t\t\texpr: &ruleRefExpr{",
   chars!"\t\t\t\t\t\t\t\tpos:  position{line: 106, col: 23, offset: 2415},",
   chars!"\t\t\t\t\t\t\t\tname: \"IntExpr\",",
   chars!"\t\t\t\t\t\t\t},",
   chars!"\t\t\t\t\t\t},",
   chars!"\t\t\t\t\t\t&litMatcher{",
   chars!"\t\t\t\t\t\t\tpos:        position{line: 106, col: 31, offset: 2423},",
   chars!"\t\t\t\t\t\t\tval:        \")\",",
   chars!"\t\t\t\t\t\t\tignoreCase: false,",
   chars!"\t\t\t\t\t\t},",
   chars!"\t\t\t\t\t},",
   chars!"\t\t\t\t},",
   chars!"\t\t\t},",
   chars!"\t\t},"]

/-- pkg/core/parser/parser.go:360-375 -/
def goRuleDRollExprCommand : List Str :=
  [chars!"\t\t{",
   chars!"\t\t\tname: \"DRollExprCommand\",",
   chars!"\t\t\tpos:  position{line: 110, col: 1, offset: 2474},",
   chars!"\t\t\texpr: &actionExpr{",
   chars!"\t\t\t\tpos: position{line: 110, col: 21, offset: 2494},",
   chars!"\t\t\t\trun: (*parser).callonDRollExprCommand1,",
   chars!"\t\t\t\texpr: &labeledExpr{",
   chars!"\t\t\t\t\tpos:   position{line: 110, col: 21, offset: 2494},",
   chars!"\t\t\t\t\tlabel: \"expr\",",
   chars!"\t\t\t\t\texpr: &ruleRefExpr{",
   chars!"\t\t\t\t\t\tpos:  position{line: 110, col: 26, offset: 2499},",
   chars!"\t\t\t\t\t\tname: \"DRollExpr\",",
   chars!"\t\t\t\t\t},",
   chars!"\t\t\t\t},",
   chars!"\t\t\t},",
   chars!"\t\t},"]

/-- pkg/core/parser/parser.go:376-391 -/
def goRuleDRollCompCommand : List Str :=
  [chars!"\t\t{",
   chars!"\t\t\tname: \"DRollCompCommand\",",
   chars!"\t\t\tpos:  position{line: 118, col: 1, offset: 2655},",
   chars!"\t\t\texpr: &actionExpr{",
   chars!"\t\t\t\tpos: position{line: 118, col: 21, offset: 2675},",
   chars!"\t\t\t\trun: (*parser).callonDRollCompCommand1,",
   chars!"\t\t\t\texpr: &labeledExpr{",
   chars!"\t\t\t\t\tpos:   position{line: 118, col: 21, offset: 2675},",
   chars!"\t\t\t\t\tlabel: \"expr\",",
   chars!"\t\t\t\t\texpr: &ruleRefExpr{",
   chars!"\t\t\t\t\t\tpos:  position{line: 118, col: 26, offset: 2680},",
   chars!"\t\t\t\t\t\tname: \"DRollComp\",",
   chars!"\t\t\t\t\t},",
   chars!"\t\t\t\t},",
   chars!"\t\t\t},",
   chars!"\t\t},"]

/-- pkg/core/parser/parser.go:392-433 -/
def goRuleBRollList : List Str :=
  [chars!"\t\t{",
   chars!"\t\t\tname: \"BRollList\",",
   chars!"\t\t\tpos:  position{line: 126, col: 1, offset: 2836},",
   chars!"\t\t\texpr: &actionExpr{",
   chars!"\t\t\t\tpos: position{line: 126, col: 14, offset: 2849},",
   chars!"\t\t\t\trun: (*parser).callonBRollList1,",
   chars!"\t\t\t\texpr: &seqExpr{",
   chars!"\t\t\t\t\tpos: position{line: 126, col: 14, offset: 2849},",
   chars!"\t\t\t\t\texprs: []interface{}{",
   chars!"\t\t\t\t\t\t&labeledExpr{",
   chars!"\t\t\t\t\t\t\tpos:   position{line: 126, col: 14, offset: 2849},",
   chars!"\t\t\t\t\t\t\tlabel: \"first\",",
   chars!"\t\t\t\t\t\t\texpr: &ruleRefExpr{",
   chars!"\t\t\t\t\t\t\t\tpos:  position{line: 126, col: 20, offset: 2855},",
   chars!"\t\t\t\t\t\t\t\tname: \"BRoll\",",
   chars!"\t\t\t\t\t\t\t},",
   chars!"\t\t\t\t\t\t},",
   chars!"\t\t\t\t\t\t&labeledExpr{",
   chars!"\t\t\t\t\t\t\tpos:   position{line: 126, col: 26, offset: 2861},",
   chars!"\t\t\t\t\t\t\tlabel: \"rest\",",
   chars!"\t\t\t\t\t\t\texpr: &zeroOrMoreExpr{",
   chars!"\t\t\t\t\t\t\t\tpos: position{line: 126, col: 31, offset: 2866},",
   chars!"\t\t\t\t\t\t\t\texpr: &seqExpr{",
   chars!"\t\t\t\t\t\t\t\t\tpos: position{line: 126, col: 32, offset: 2867},",
   chars!"\t\t\t\t\t\t\t\t\texprs: []interface{}{",
   chars!"\t\t\t\t\t\t\t\t\t\t&litMatcher{",
   chars!"\t\t\t\t\t\t\t\t\t\t\tpos:        position{line: 126, col: 32, offset: 2867},",
   chars!"\t\t\t\t\t\t\t\t\t\t\tval:        \"+\",",
   chars!"\t\t\t\t\t\t\t\t\t\t\tignoreCase: false,",
   chars!"\t\t\t\t\t\t\t\t\t\t},",
   chars!"\t\t\t\t\t\t\t\t\t\t&ruleRefExpr{",
   chars!"\t\t\t\t\t\t\t\t\t\t\tpos:  position{line: 126, col: 36, offset: 2871},",
   chars!"\t\t\t\t\t\t\t\t\t\t\tname: \"BRoll\",",
   chars!"\t\t\t\t\t\t\t\t\t\t},",
   chars!"\t\t\t\t\t\t\t\t\t},",
   chars!"\t\t\t\t\t\t\t\t},",
   chars!"\t\t\t\t\t\t\t},",
   chars!"\t\t\t\t\t\t},",
   chars!"\t\t\t\t\t},",
   chars!"\t\t\t\t},",
   chars!"\t\t\t},",
   chars!"\t\t},"]

/-- pkg/core/parser/parser.go:434-470 -/
def goRuleBRollComp : List Str :=
  [chars!"\t\t{",
   chars!"\t\t\tname: \"BRollComp\",",
   chars!"\t\t\tpos:  position{line: 138, col: 1, offset: 3111},",
   chars!"\t\t\texpr: &actionExpr{",
   chars!"\t\t\t\tpos: position{line: 138, col: 14, offset: 3124},",
   chars!"\t\t\t\trun: (*parser).callonBRollComp1,",
   chars!"\t\t\t\texpr: &seqExpr{",
   chars!"\t\t\t\t\tpos: position{line: 138, col: 14, offset: 3124},",
   chars!"\t\t\t\t\texprs: []interface{}{",
   chars!"\t\t\t\t\t\t&labeledExpr{",
   chars!"\t\t\t\t\t\t\tpos:   position{line: 138, col: 14, offset: 3124},",
   chars!"\t\t\t\t\t\t\tlabel: \"left\",",
   chars!"\t\t\t\t\t\t\texpr: &ruleRefExpr{",
   chars!"\t\t\t\t\t\t\t\tpos:  position{line: 138, col: 19, offset: 3129},",
   chars!"\t\t\t\t\t\t\t\tname: \"BRollList\",",
   chars!"\t\t\t\t\t\t\t},",
   chars!"\t\t\t\t\t\t},",
   chars!"\t\t\t\t\t\t&labeledExpr{",
   chars!"\t\t\t\t\t\t\tpos:   position{line: 138, col: 29, offset: 3139},",
   chars!"\t\t\t\t\t\t\tlabel: \"op\",",
   chars!"\t\t\t\t\t\t\texpr: &ruleRefExpr{",
   chars!"\t\t\t\t\t\t\t\tpos:  position{line: 138, col: 32, offset: 3142},",
   chars!"\t\t\t\t\t\t\t\tname: \"CompareOp\",",
   chars!"\t\t\t\t\t\t\t},",
   chars!"\t\t\t\t\t\t},",
   chars!"\t\t\t\t\t\t&labeledExpr{",
   chars!"\t\t\t\t\t\t\tpos:   position{line: 138, col: 42, offset: 3152},",
   chars!"\t\t\t\t\t\t\tlabel: \"right\",",
   chars!"\t\t\t\t\t\t\texpr: &ruleRefExpr{",
   chars!"\t\t\t\t\t\t\t\tpos:  position{line: 138, col: 48, offset: 3158},",
   chars!"\t\t\t\t\t\t\t\tname: \"IntExpr\",",
   chars!"\t\t\t\t\t\t\t},",
   chars!"\t\t\t\t\t\t},",
   chars!"\t\t\t\t\t},",
   chars!"\t\t\t\t},",
   chars!"\t\t\t},",
   chars!"\t\t},"]

/-- pkg/core/parser/parser.go:471-538 -/
def goRuleRRollList : List Str :=
  [chars!"\t\t{",
   chars!"\t\t\tname: \"RRollList\",",
   chars!"\t\t\tpos:  position{line: 148, col: 1, offset: 3293},",
   chars!"\t\t\texpr: &actionExpr{",
   chars!"\t\t\t\tpos: position{line: 148, col: 14, offset: 3306},",
   chars!"\t\t\t\trun: (*parser).callonRRollList1,",
   chars!"\t\t\t\texpr: &seqExpr{",
   chars!"\t\t\t\t\tpos: position{line: 148, col: 14, offset: 3306},",
   chars!"\t\t\t\t\texprs: []interface{}{",
   chars!"\t\t\t\t\t\t&labeledExpr{",
   chars!"\t\t\t\t\t\t\tpos:   position{line: 148, col: 14, offset: 3306},",
   chars!"\t\t\t\t\t\t\tlabel: \"first\",",
   chars!"\t\t\t\t\t\t\texpr: &ruleRefExpr{",
   chars!"\t\t\t\t\t\t\t\tpos:  position{line: 148, col: 20, offset: 3312},",
   chars!"\t\t\t\t\t\t\t\tname: \"RRoll\",",
   chars!"\t\t\t\t\t\t\t},",
   chars!"\t\t\t\t\t\t},",
   chars!"\t\t\t\t\t\t&labeledExpr{",
   chars!"\t\t\t\t\t\t\tpos:   position{line: 148, col: 26, offset: 3318},",
   chars!"\t\t\t\t\t\t\tlabel: \"rest\",",
   chars!"\t\t\t\t\t\t\texpr: &zeroOrMoreExpr{",
   chars!"\t\t\t\t\t\t\t\tpos: position{line: 148, col: 31, offset: 3323},",
   chars!"\t\t\t\t\t\t\t\texpr: &seqExpr{",
   chars!"\t\t\t\t\t\t\t\t\tpos: position{line: 148, col: 32, offset: 3324},",
   chars!"\t\t\t\t\t\t\t\t\texprs: []interface{}{",
   chars!"\t\t\t\t\t\t\t\t\t\t&litMatcher{",
   chars!"\t\t\t\t\t\t\t\t\t\t\tpos:        position{line: 148, col: 32, offset: 3324},",
   chars!"\t\t\t\t\t\t\t\t\t\t\tval:        \"+\",",
   chars!"\t\t\t\t\t\t\t\t\t\t\tignoreCase: false,",
   chars!"\t\t\t\t\t\t\t\t\t\t},",
   chars!"\t\t\t\t\t\t\t\t\t\t&ruleRefExpr{",
   chars!"\t\t\t\t\t\t\t\t\t\t\tpos:  position{line: 148, col: 36, offset: 3328},",
   chars!"\t\t\t\t\t\t\t\t\t\t\tname: \"RRoll\",",
   chars!"\t\t\t\t\t\t\t\t\t\t},",
   chars!"\t\t\t\t\t\t\t\t\t},",
   chars!"\t\t\t\t\t\t\t\t},",
   chars!"\t\t\t\t\t\t\t},",
   chars!"\t\t\t\t\t\t},",
   chars!"\t\t\t\t\t\t&labeledExpr{",
   chars!"\t\t\t\t\t\t\tpos:   position{line: 148, col: 44, offset: 3336},",
   chars!"\t\t\t\t\t\t\tlabel: \"th\",",
   chars!"\t\t\t\t\t\t\texpr: &zeroOrOneExpr{",
   chars!"\t\t\t\t\t\t\t\tpos: position{line: 148, col: 47, offset: 3339},",
   chars!"\t\t\t\t\t\t\t\texpr: &seqExpr{",
   chars!"\t\t\t\t\t\t\t\t\tpos: position{line: 148, col: 48, offset: 3340},",
   chars!"\t\t\t\t\t\t\t\t\texprs: []interface{}{",
   chars!"\t\t\t\t\t\t\t\t\t\t&litMatcher{",
   chars!"\t\t\t\t\t\t\t\t\t\t\tpos:        position{line: 148, col: 48, offset: 3340},",
   chars!"\t\t\t\t\t\t\t\t\t\t\tval:        \"[\",",
   chars!"\t\t\t\t\t\t\t\t\t\t\tignoreCase: false,",
   chars!"\t\t\t\t\t\t\t\t\t\t},",
   chars!"\t\t\t\t\t\t\t\t\t\t&ruleRefExpr{",
   chars!"\t\t\t\t\t\t\t\t\t\t\tpos:  position{line: 148, col: 52, offset: 3344},",
   chars!"\t\t\t\t\t\t\t\t\t\t\tname: \"IntExpr\",",
   chars!"\t\t\t\t\t\t\t\t\t\t},",
   chars!"\t\t\t\t\t\t\t\t\t\t&litMatcher{",
   chars!"\t\t\t\t\t\t\t\t\t\t\tpos:        position{line: 148, col: 60, offset: 3352},",
   chars!"\t\t\t\t\t\t\t\t\t\t\tval:        \"]\",",
   chars!"\t\t\t\t\t\t\t\t\t\t\tignoreCase: false,",
   chars!"\t\t\t\t\t\t\t\t\t\t},",
   chars!"\t\t\t\t\t\t\t\t\t},",
   chars!"\t\t\t\t\t\t\t\t},",
   chars!"\t\t\t\t\t\t\t},",
   chars!"\t\t\t\t\t\t},",
   chars!"\t\t\t\t\t},",
   chars!"\t\t\t\t},",
   chars!"\t\t\t},",
   chars!"\t\t},"]

/-- pkg/core/parser/parser.go:539-575 -/
def goRuleRRollComp : List Str :=
  [chars!"\t\t{",
   chars!"\t\t\tname: \"RRollComp\",",
   chars!"\t\t\tpos:  position{line: 167, col: 1, offset: 3726},",
   chars!"\t\t\texpr: &actionExpr{",
   chars!"\t\t\t\tpos: position{line: 167, col: 14, offset: 3739},",
   chars!"\t\t\t\trun: (*parser).callonRRollComp1,",
   chars!"\t\t\t\texpr: &seqExpr{",
   chars!"\t\t\t\t\tpos: position{line: 167, col: 14, offset: 3739},",
   chars!"\t\t\t\t\texprs: []interface{}{",
   chars!"\t\t\t\t\t\t&labeledExpr{",
   chars!"\t\t\t\t\t\t\tpos:   position{line: 167, col: 14, offset: 3739},",
   chars!"\t\t\t\t\t\t\tlabel: \"left\",",
   chars!"\t\t\t\t\t\t\texpr: &ruleRefExpr{",
   chars!"\t\t\t\t\t\t\t\tpos:  position{line: 167, col: 19, offset: 3744},",
   chars!"\t\t\t\t\t\t\t\tname: \"RRollList\",",
   chars!"\t\t\t\t\t\t\t},",
   chars!"\t\t\t\t\t\t},",
   chars!"\t\t\t\t\t\t&labeledExpr{",
   chars!"\t\t\t\t\t\t\tpos:   position{line: 167, col: 29, offset: 3754},",
   chars!"\t\t\t\t\t\t\tlabel: \"op\",",
   chars!"\t\t\t\t\t\t\texpr: &ruleRefExpr{",
   chars!"\t\t\t\t\t\t\t\tpos:  position{line: 167, col: 32, offset: 3757},",
   chars!"\t\t\t\t\t\t\t\tname: \"CompareOp\",",
   chars!"\t\t\t\t\t\t\t},",
   chars!"\t\t\t\t\t\t},",
   chars!"\t\t\t\t\t\t&labeledExpr{",
   chars!"\t\t\t\t\t\t\tpos:   position{line: 167, col: 42, offset: 3767},",
   chars!"\t\t\t\t\t\t\tlabel: \"right\",",
   chars!"\t\t\t\t\t\t\texpr: &ruleRefExpr{",
   chars!"\t\t\t\t\t\t\t\tpos:  position{line: 167, col: 48, offset: 3773},",
   chars!"\t\t\t\t\t\t\t\tname: \"IntExpr\",",
   chars!"\t\t\t\t\t\t\t},",
   chars!"\t\t\t\t\t\t},",
   chars!"\t\t\t\t\t},",
   chars!"\t\t\t\t},",
   chars!"\t\t\t},",
   chars!"\t\t},"]

/-- pkg/core/parser/parser.go:576-612 -/
def goRuleURollComp : List Str :=
  [chars!"\t\t{",
   chars!"\t\t\tname: \"URollComp\",",
   chars!"\t\t\tpos:  position{line: 177, col: 1, offset: 3908},",
   chars!"\t\t\texpr: &actionExpr{",
   chars!"\t\t\t\tpos: position{line: 177, col: 14, offset: 3921},",
   chars!"\t\t\t\trun: (*parser).callonURollComp1,",
   chars!"\t\t\t\texpr: &seqExpr{",
   chars!"\t\t\t\t\tpos: position{line: 177, col: 14, offset: 3921},",
   chars!"\t\t\t\t\texprs: []interface{}{",
   chars!"\t\t\t\t\t\t&labeledExpr{",
   chars!"\t\t\t\t\t\t\tpos:   position{line: 177, col: 14, offset: 3921},",
   chars!"\t\t\t\t\t\t\tlabel: \"left\",",
   chars!"\t\t\t\t\t\t\texpr: &ruleRefExpr{",
   chars!"\t\t\t\t\t\t\t\tpos:  position{line: 177, col: 19, offset: 3926},",
   chars!"\t\t\t\t\t\t\t\tname: \"URollExpr\",",
   chars!"\t\t\t\t\t\t\t},",
   chars!"\t\t\t\t\t\t},",
   chars!"\t\t\t\t\t\t&labeledExpr{",
   chars!"\t\t\t\t\t\t\tpos:   position{line: 177, col: 29, offset: 3936},",
   chars!"\t\t\t\t\t\t\tlabel: \"op\",",
   chars!"\t\t\t\t\t\t\texpr: &ruleRefExpr{",
   chars!"\t\t\t\t\t\t\t\tpos:  position{line: 177, col: 32, offset: 3939},",
   chars!"\t\t\t\t\t\t\t\tname: \"CompareOp\",",
   chars!"\t\t\t\t\t\t\t},",
   chars!"\t\t\t\t\t\t},",
   chars!"\t\t\t\t\t\t&labeledExpr{",
   chars!"\t\t\t\t\t\t\tpos:   position{line: 177, col: 42, offset: 3949},",
   chars!"\t\t\t\t\t\t\tlabel: \"right\",",
   chars!"\t\t\t\t\t\t\texpr: &ruleRefExpr{",
   chars!"\t\t\t\t\t\t\t\tpos:  position{line: 177, col: 48, offset: 3955},",
   chars!"\t\t\t\t\t\t\t\tname: \"IntExpr\",",
   chars!"\t\t\t\t\t\t\t},",
   chars!"\t\t\t\t\t\t},",
   chars!"\t\t\t\t\t},",
   chars!"\t\t\t\t},",
   chars!"\t\t\t},",
   chars!"\t\t},"]

/-- pkg/core/parser/parser.go:613-664 -/
def goRuleURollExpr : List Str :=
  [chars!"\t\t{",
   chars!"\t\t\tname: \"URollExpr\",",
   chars!"\t\t\tpos:  position{line: 187, col: 1, offset: 4090},",
   chars!"\t\t\texpr: &actionExpr{",
   chars!"\t\t\t\tpos: position{line: 187, col: 14, offset: 4103},",
   chars!"\t\t\t\trun: (*parser).callonURollExpr1,",
   chars!"\t\t\t\texpr: &seqExpr{",
   chars!"\t\t\t\t\tpos: position{line: 187, col: 14, offset: 4103},",
   chars!"\t\t\t\t\texprs: []interface{}{",
   chars!"\t\t\t\t\t\t&labeledExpr{",
   chars!"\t\t\t\t\t\t\tpos:   position{line: 187, col: 14, offset: 4103},",
   chars!"\t\t\t\t\t\t\tlabel: \"uRollList\",",
   chars!"\t\t\t\t\t\t\texpr: &ruleRefExpr{",
   chars!"\t\t\t\t\t\t\t\tpos:  position{line: 187, col: 24, offset: 4113},",
   chars!"\t\t\t\t\t\t\t\tname: \"URollList\",",
   chars!"\t\t\t\t\t\t\t},",
   chars!"\t\t\t\t\t\t},",
   chars!"\t\t\t\t\t\t&labeledExpr{",
   chars!"\t\t\t\t\t\t\tpos:   position{line: 187, col: 34, offset: 4123},",
   chars!"\t\t\t\t\t\t\tlabel: \"bonus\",",
   chars!"\t\t\t\t\t\t\texpr: &zeroOrOneExpr{",
   chars!"\t\t\t\t\t\t\t\tpos: position{line: 187, col: 40, offset: 4129},",
   chars!"\t\t\t\t\t\t\t\texpr: &seqExpr{",
   chars!"\t\t\t\t\t\t\t\t\tpos: position{line: 187, col: 41, offset: 4130},",
   chars!"\t\t\t\t\t\t\t\t\texprs: []interface{}{",
   chars!"\t\t\t\t\t\t\t\t\t\t&choiceExpr{",
   chars!"\t\t\t\t\t\t\t\t\t\t\tpos: position{line: 187, col: 42, offset: 4131},",
   chars!"\t\t\t\t\t\t\t\t\t\t\talternatives: []interface{}{",
   chars!"\t\t\t\t\t\t\t\t\t\t\t\t&litMatcher{",
   chars!"\t\t\t\t\t\t\t\t\t\t\t\t\tpos:        position{line: 187, col: 42, offset: 4131},",
   chars!"\t\t\t\t\t\t\t\t\t\t\t\t\tval:        \"+\",",
   chars!"\t\t\t\t\t\t\t\t\t\t\t\t\tignoreCase: false,",
   chars!"\t\t\t\t\t\t\t\t\t\t\t\t},",
   chars!"\t\t\t\t\t\t\t\t\t\t\t\t&litMatcher{",
   chars!"\t\t\t\t\t\t\t\t\t\t\t\t\tpos:        position{line: 187, col: 48, offset: 4137},",
   chars!"\t\t\t\t\t\t\t\t\t\t\t\t\tval:        \"-\",",
   chars!"\t\t\t\t\t\t\t\t\t\t\t\t\tignoreCase: false,",
   chars!"\t\t\t\t\t\t\t\t\t\t\t\t},",
   chars!"\t\t\t\t\t\t\t\t\t\t\t},",
   chars!"\t\t\t\t\t\t\t\t\t\t},",
   chars!"\t\t\t\t\t\t\t\t\t\t&ruleRefExpr{",
   chars!"\t\t\t\t\t\t\t\t\t\t\tpos:  position{line: 187, col: 53, offset: 4142},",
   chars!"\t\t\t\t\t\t\t\t\t\t\tname: \"IntExprAdditive\",",
   chars!"\t\t\t\t\t\t\t\t\t\t},",
   chars!"\t\t\t\t\t\t\t\t\t},",
   chars!"\t\t\t\t\t\t\t\t},",
   chars!"\t\t\t\t\t\t\t},",
   chars!"\t\t\t\t\t\t},",
   chars!"\t\t\t\t\t},",
   chars!"\t\t\t\t},",
   chars!"\t\t\t},",
   chars!"\t\t},"]

/-- pkg/core/parser/parser.go:665-732 -/
def goRuleURollList : List Str :=
  [chars!"\t\t{",
   chars!"\t\t\tname: \"URollList\",",
   chars!"\t\t\tpos:  position{line: 208, col: 1, offset: 4623},",
   chars!"\t\t\texpr: &actionExpr{",
   chars!"\t\t\t\tpos: position{line: 208, col: 14, offset: 4636},",
   chars!"\t\t\t\trun: (*parser).callonURollList1,",
   chars!"\t\t\t\texpr: &seqExpr{",
   chars!"\t\t\t\t\tpos: position{line: 208, col: 14, offset: 4636},",
   chars!"\t\t\t\t\texprs: []interface{}{",
   chars!"\t\t\t\t\t\t&labeledExpr{",
   chars!"\t\t\t\t\t\t\tpos:   position{line: 208, col: 14, offset: 4636},",
   chars!"\t\t\t\t\t\t\tlabel: \"first\",",
   chars!"\t\t\t\t\t\t\texpr: &ruleRefExpr{",
   chars!"\t\t\t\t\t\t\t\tpos:  position{line: 208, col: 20, offset: 4642},",
   chars!"\t\t\t\t\t\t\t\tname: \"URoll\",",
   chars!"\t\t\t\t\t\t\t},",
   chars!"\t\t\t\t\t\t},",
   chars!"\t\t\t\t\t\t&labeledExpr{",
   chars!"\t\t\t\t\t\t\tpos:   position{line: 208, col: 26, offset: 4648},",
   chars!"\t\t\t\t\t\t\tlabel: \"rest\",",
   chars!"\t\t\t\t\t\t\texpr: &zeroOrMoreExpr{",
   chars!"\t\t\t\t\t\t\t\tpos: position{line: 208, col: 31, offset: 4653},",
   chars!"\t\t\t\t\t\t\t\texpr: &seqExpr{",
   chars!"\t\t\t\t\t\t\t\t\tpos: position{line: 208, col: 32, offset: 4654},",
   chars!"\t\t\t\t\t\t\t\t\texprs: []interface{}{",
   chars!"\t\t\t\t\t\t\t\t\t\t&litMatcher{",
   chars!"\t\t\t\t\t\t\t\t\t\t\tpos:        position{line: 208, col: 32, offset: 4654},",
   chars!"\t\t\t\t\t\t\t\t\t\t\tval:        \"+\",",
   chars!"\t\t\t\t\t\t\t\t\t\t\tignoreCase: false,",
   chars!"\t\t\t\t\t\t\t\t\t\t},",
   chars!"\t\t\t\t\t\t\t\t\t\t&ruleRefExpr{",
   chars!"\t\t\t\t\t\t\t\t\t\t\tpos:  position{line: 208, col: 36, offset: 4658},",
   chars!"\t\t\t\t\t\t\t\t\t\t\tname: \"URoll\",",
   chars!"\t\t\t\t\t\t\t\t\t\t},",
   chars!"\t\t\t\t\t\t\t\t\t},",
   chars!"\t\t\t\t\t\t\t\t},",
   chars!"\t\t\t\t\t\t\t},",
   chars!"\t\t\t\t\t\t},",
   chars!"\t\t\t\t\t\t&labeledExpr{",
   chars!"\t\t\t\t\t\t\tpos:   position{line: 208, col: 44, offset: 4666},",
   chars!"\t\t\t\t\t\t\tlabel: \"th\",",
   chars!"\t\t\t\t\t\t\texpr: &zeroOrOneExpr{",
   chars!"\t\t\t\t\t\t\t\tpos: position{line: 208, col: 47, offset: 4669},",
   chars!"\t\t\t\t\t\t\t\texpr: &seqExpr{",
   chars!"\t\t\t\t\t\t\t\t\tpos: position{line: 208, col: 48, offset: 4670},",
   chars!"\t\t\t\t\t\t\t\t\texprs: []interface{}{",
   chars!"\t\t\t\t\t\t\t\t\t\t&litMatcher{",
   chars!"\t\t\t\t\t\t\t\t\t\t\tpos:        position{line: 208, col: 48, offset: 4670},",
   chars!"\t\t\t\t\t\t\t\t\t\t\tval:        \"[\",",
   chars!"\t\t\t\t\t\t\t\t\t\t\tignoreCase: false,",
   chars!"\t\t\t\t\t\t\t\t\t\t},",
   chars!"\t\t\t\t\t\t\t\t\t\t&ruleRefExpr{",
   chars!"\t\t\t\t\t\t\t\t\t\t\tpos:  position{line: 208, col: 52, offset: 4674},",
   chars!"\t\t\t\t\t\t\t\t\t\t\tname: \"IntExpr\",",
   chars!"\t\t\t\t\t\t\t\t\t\t},",
   chars!"\t\t\t\t\t\t\t\t\t\t&litMatcher{",
   chars!"\t\t\t\t\t\t\t\t\t\t\tpos:        position{line: 208, col: 60, offset: 4682},",
   chars!"\t\t\t\t\t\t\t\t\t\t\tval:        \"]\",",
   chars!"\t\t\t\t\t\t\t\t\t\t\tignoreCase: false,",
   chars!"\t\t\t\t\t\t\t\t\t\t},",
   chars!"\t\t\t\t\t\t\t\t\t},",
   chars!"\t\t\t\t\t\t\t\t},",
   chars!"\t\t\t\t\t\t\t},",
   chars!"\t\t\t\t\t\t},",
   chars!"\t\t\t\t\t},",
   chars!"\t\t\t\t},",
   chars!"\t\t\t},",
   chars!"\t\t},"]

/-- pkg/core/parser/parser.go:733-740 -/
def goRuleIntExpr : List Str :=
  [chars!"\t\t{",
   chars!"\t\t\tname: \"IntExpr\",",
   chars!"\t\t\tpos:  position{line: 227, col: 1, offset: 5056},",
   chars!"\t\t\texpr: &ruleRefExpr{",
   chars!"\t\t\t\tpos:  position{line: 227, col: 12, offset: 5067},",
   chars!"\t\t\t\tname: \"IntExprAdditive\",",
   chars!"\t\t\t},",
   chars!"\t\t},"]

/-- pkg/core/parser/parser.go:741-792 -/
def goRuleIntExprAdditive : List Str :=
  [chars!"\t\t{",
   chars!"\t\t\tname: \"IntExprAdditive\",",
   chars!"\t\t\tpos:  position{line: 229, col: 1, offset: 5084},",
   chars!"\t\t\texpr: &actionExpr{",
   chars!"\t\t\t\tpos: position{line: 229, col: 20, offset: 5103},",
   chars!"\t\t\t\trun: (*parser).callonIntExprAdditive1,",
   chars!"\t\t\t\texpr: &seqExpr{",
   chars!"\t\t\t\t\tpos: position{line: 229, col: 20, offset: 5103},",
   chars!"\t\t\t\t\texprs: []interface{}{",
   chars!"\t\t\t\t\t\t&labeledExpr{",
   chars!"\t\t\t\t\t\t\tpos:   position{line: 229, col: 20, offset: 5103},",
   chars!"\t\t\t\t\t\t\tlabel: \"first\",",
   chars!"\t\t\t\t\t\t\texpr: &ruleRefExpr{",
   chars!"\t\t\t\t\t\t\t\tpos:  position{line: 229, col: 26, offset: 5109},",
   chars!"\t\t\t\t\t\t\t\tname: \"IntExprMultitive\",",
   chars!"\t\t\t\t\t\t\t},",
   chars!"\t\t\t\t\t\t},",
   chars!"\t\t\t\t\t\t&labeledExpr{",
   chars!"\t\t\t\t\t\t\tpos:   position{line: 229, col: 43, offset: 5126},",
   chars!"\t\t\t\t\t\t\tlabel: \"rest\",",
   chars!"\t\t\t\t\t\t\texpr: &zeroOrMoreExpr{",
   chars!"\t\t\t\t\t\t\t\tpos: position{line: 229, col: 48, offset: 5131},",
   chars!"\t\t\t\t\t\t\t\texpr: &seqExpr{",
   chars!"\t\t\t\t\t\t\t\t\tpos: position{line: 229, col: 49, offset: 5132},",
   chars!"\t\t\t\t\t\t\t\t\texprs: []interface{}{",
   chars!"\t\t\t\t\t\t\t\t\t\t&choiceExpr{",
   chars!"\t\t\t\t\t\t\t\t\t\t\tpos: position{line: 229, col: 50, offset: 5133},",
   chars!"\t\t\t\t\t\t\t\t\t\t\talternatives: []interface{}{",
   chars!"\t\t\t\t\t\t\t\t\t\t\t\t&litMatcher{",
   chars!"\t\t\t\t\t\t\t\t\t\t\t\t\tpos:        position{line: 229, col: 50, offset: 5133},",
   chars!"\t\t\t\t\t\t\t\t\t\t\t\t\tval:        \"+\",",
   chars!"\t\t\t\t\t\t\t\t\t\t\t\t\tignoreCase: false,",
   chars!"\t\t\t\t\t\t\t\t\t\t\t\t},",
   chars!"\t\t\t\t\t\t\t\t\t\t\t\t&litMatcher{",
   chars!"\t\t\t\t\t\t\t\t\t\t\t\t\tpos:        position{line: 229, col: 56, offset: 5139},",
   chars!"\t\t\t\t\t\t\t\t\t\t\t\t\tval:        \"-\",",
   chars!"\t\t\t\t\t\t\t\t\t\t\t\t\tignoreCase: false,",
   chars!"\t\t\t\t\t\t\t\t\t\t\t\t},",
   chars!"\t\t\t\t\t\t\t\t\t\t\t},",
   chars!"\t\t\t\t\t\t\t\t\t\t},",
   chars!"\t\t\t\t\t\t\t\t\t\t&ruleRefExpr{",
   chars!"\t\t\t\t\t\t\t\t\t\t\tpos:  position{line: 229, col: 61, offset: 5144},",
   chars!"\t\t\t\t\t\t\t\t\t\t\tname: \"IntExprMultitive\",",
   chars!"\t\t\t\t\t\t\t\t\t\t},",
   chars!"\t\t\t\t\t\t\t\t\t},",
   chars!"\t\t\t\t\t\t\t\t},",
   chars!"\t\t\t\t\t\t\t},",
   chars!"\t\t\t\t\t\t},",
   chars!"\t\t\t\t\t},",
   chars!"\t\t\t\t},",
   chars!"\t\t\t},",
   chars!"\t\t},"]

/-- pkg/core/parser/parser.go:793-870 -/
def goRuleIntExprMultitive : List Str :=
  [chars!"\t\t{",
   chars!"\t\t\tname: \"IntExprMultitive\",",
   chars!"\t\t\tpos:  position{line: 233, col: 1, offset: 5213},",
   chars!"\t\t\texpr: &actionExpr{",
   chars!"\t\t\t\tpos: position{line: 233, col: 21, offset: 5233},",
   chars!"\t\t\t\trun: (*parser).callonIntExprMultitive1,",
   chars!"\t\t\t\texpr: &seqExpr{",
   chars!"\t\t\t\t\tpos: position{line: 233, col: 21, offset: 5233},",
   chars!"\t\t\t\t\texprs: []interface{}{",
   chars!"\t\t\t\t\t\t&labeledExpr{",
   chars!"\t\t\t\t\t\t\tpos:   position{line: 233, col: 21, offset: 5233},",
   chars!"\t\t\t\t\t\t\tlabel: \"first\",",
   chars!"\t\t\t\t\t\t\texpr: &ruleRefExpr{",
   chars!"\t\t\t\t\t\t\t\tpos:  position{line: 233, col: 27, offset: 5239},",
   chars!"\t\t\t\t\t\t\t\tname: \"IntExprPrimary\",",
   chars!"\t\t\t\t\t\t\t},",
   chars!"\t\t\t\t\t\t},",
   chars!"\t\t\t\t\t\t&labeledExpr{",
   chars!"\t\t\t\t\t\t\tpos:   position{line: 233, col: 42, offset: 5254},",
   chars!"\t\t\t\t\t\t\tlabel: \"rest\",",
   chars!"\t\t\t\t\t\t\texpr: &zeroOrMoreExpr{",
   chars!"\t\t\t\t\t\t\t\tpos: position{line: 233, col: 47, offset: 5259},",
   chars!"\t\t\t\t\t\t\t\texpr: &choiceExpr{",
   chars!"\t\t\t\t\t\t\t\t\tpos: position{line: 233, col: 48, offset: 5260},",
   chars!"\t\t\t\t\t\t\t\t\talternatives: []interface{}{",
   chars!"\t\t\t\t\t\t\t\t\t\t&seqExpr{",
   chars!"\t\t\t\t\t\t\t\t\t\t\tpos: position{line: 233, col: 48, offset: 5260},",
   chars!"\t\t\t\t\t\t\t\t\t\t\texprs: []interface{}{",
   chars!"\t\t\t\t\t\t\t\t\t\t\t\t&litMatcher{",
   chars!"\t\t\t\t\t\t\t\t\t\t\t\t\tpos:        position{line: 233, col: 48, offset: 5260},",
   chars!"\t\t\t\t\t\t\t\t\t\t\t\t\tval:        \"/\",",
   chars!"\t\t\t\t\t\t\t\t\t\t\t\t\tignoreCase: false,",
   chars!"\t\t\t\t\t\t\t\t\t\t\t\t},",
   chars!"\t\t\t\t\t\t\t\t\t\t\t\t&ruleRefExpr{",
   chars!"\t\t\t\t\t\t\t\t\t\t\t\t\tpos:  position{line: 233, col: 52, offset: 5264},",
   chars!"\t\t\t\t\t\t\t\t\t\t\t\t\tname: \"IntExprPrimary\",",
   chars!"\t\t\t\t\t\t\t\t\t\t\t\t},",
   chars!"\t\t\t\t\t\t\t\t\t\t\t\t&charClassMatcher{",
   chars!"\t\t\t\t\t\t\t\t\t\t\t\t\tpos:        position{line: 233, col: 67, offset: 5279},",
   chars!"\t\t\t\t\t\t\t\t\t\t\t\t\tval:        \"[ur]i\",",
   chars!"\t\t\t\t\t\t\t\t\t\t\t\t\tchars:      []rune{'u', 'r'},",
   chars!"\t\t\t\t\t\t\t\t\t\t\t\t\tignoreCase: true,",
   chars!"\t\t\t\t\t\t\t\t\t\t\t\t\tinverted:   false,",
   chars!"\t\t\t\t\t\t\t\t\t\t\t\t},",
   chars!"\t\t\t\t\t\t\t\t\t\t\t},",
   chars!"\t\t\t\t\t\t\t\t\t\t},",
   chars!"\t\t\t\t\t\t\t\t\t\t&seqExpr{",
   chars!"\t\t\t\t\t\t\t\t\t\t\tpos: position{line: 233, col: 76, offset: 5288},",
   chars!"\t\t\t\t\t\t\t\t\t\t\texprs: []interface{}{",
   chars!"\t\t\t\t\t\t\t\t\t\t\t\t&choiceExpr{",
   chars!"\t\t\t\t\t\t\t\t\t\t\t\t\tpos: position{line: 233, col: 77, offset: 5289},",
   chars!"\t\t\t\t\t\t\t\t\t\t\t\t\talternatives: []interface{}{",
   chars!"\t\t\t\t\t\t\t\t\t\t\t\t\t\t&litMatcher{",
   chars!"\t\t\t\t\t\t\t\t\t\t\t\t\t\t\tpos:        position{line: 233, col: 77, offset: 5289},",
   chars!"\t\t\t\t\t\t\t\t\t\t\t\t\t\t\tval:        \"*\",",
   chars!"\t\t\t\t\t\t\t\t\t\t\t\t\t\t\tignoreCase: false,",
   chars!"\t\t\t\t\t\t\t\t\t\t\t\t\t\t},",
   chars!"\t\t\t\t\t\t\t\t\t\t\t\t\t\t&litMatcher{",
   chars!"\t\t\t\t\t\t\t\t\t\t\t\t\t\t\tpos:        position{line: 233, col: 83, offset: 5295},",
   chars!"\t\t\t\t\t\t\t\t\t\t\t\t\t\t\tval:        \"/\",",
   chars!"\t\t\t\t\t\t\t\t\t\t\t\t\t\t\tignoreCase: false,",
   chars!"\t\t\t\t\t\t\t\t\t\t\t\t\t\t},",
   chars!"\t\t\t\t\t\t\t\t\t\t\t\t\t},",
   chars!"\t\t\t\t\t\t\t\t\t\t\t\t},",
   chars!"\t\t\t\t\t\t\t\t\t\t\t\t&ruleRefExpr{",
   chars!"\t\t\t\t\t\t\t\t\t\t\t\t\tpos:  position{line: 233, col: 88, offset: 5300},",
   chars!"\t\t\t\t\t\t\t\t\t\t\t\t\tname: \"IntExprPrimary\",",
   chars!"\t\t\t\t\t\t\t\t\t\t\t\t},",
   chars!"\t\t\t\t\t\t\t\t\t\t\t},",
   chars!"\t\t\t\t\t\t\t\t\t\t},",
   chars!"\t\t\t\t\t\t\t\t\t},",
   chars!"\t\t\t\t\t\t\t\t},",
   chars!"\t\t\t\t\t\t\t},",
   chars!"\t\t\t\t\t\t},",
   chars!"\t\t\t\t\t},",
   chars!"\t\t\t\t},",
   chars!"\t\t\t},",
   chars!"\t\t},"]

/-- pkg/core/parser/parser.go:871-895 -/
def goRuleIntExprPrimary : List Str :=
  [chars!"\t\t{",
   chars!"\t\t\tname: \"IntExprPrimary\",",
   chars!"\t\t\tpos:  position{line: 237, col: 1, offset: 5369},",
   chars!"\t\t\texpr: &choiceExpr{",
   chars!"\t\t\t\tpos: position{line: 237, col: 19, offset: 5387},",
   chars!"\t\t\t\talternatives: []interface{}{",
   chars!"\t\t\t\t\t&ruleRefExpr{",
   chars!"\t\t\t\t\t\tpos:  position{line: 237, col: 19, offset: 5387},",
   chars!"\t\t\t\t\t\tname: \"Integer\",",
   chars!"\t\t\t\t\t},",
   chars!"\t\t\t\t\t&ruleRefExpr{",
   chars!"\t\t\t\t\t\tpos:  position{line: 237, col: 29, offset: 5397},",
   chars!"\t\t\t\t\t\tname: \"IntExprUnaryPlus\",",
   chars!"\t\t\t\t\t},",
   chars!"\t\t\t\t\t&ruleRefExpr{",
   chars!"\t\t\t\t\t\tpos:  position{line: 237, col: 48, offset: 5416},",
   chars!"\t\t\t\t\t\tname: \"IntExprUnaryMinus\",",
   chars!"\t\t\t\t\t},",
   chars!"\t\t\t\t\t&ruleRefExpr{",
   chars!"\t\t\t\t\t\tpos:  position{line: 237, col: 68, offset: 5436},",
   chars!"\t\t\t\t\t\tname: \"ParenthesizedIntExpr\",",
   chars!"\t\t\t\t\t},",
   chars!"\t\t\t\t},",
   chars!"\t\t\t},",
   chars!"\t\t},"]

/-- pkg/core/parser/parser.go:896-926 -/
def goRuleParenthesizedIntExpr : List Str :=
  [chars!"\t\t{",
   chars!"\t\t\tname: \"ParenthesizedIntExpr\",",
   chars!"\t\t\tpos:  position{line: 239, col: 1, offset: 5458},",
   chars!"\t\t\texpr: &actionExpr{",
   chars!"\t\t\t\tpos: position{line: 239, col: 25, offset: 5482},",
   chars!"\t\t\t\trun: (*parser).callonParenthesizedIntExpr1,",
   chars!"\t\t\t\texpr: &seqExpr{",
   chars!"\t\t\t\t\tpos: position{line: 239, col: 25, offset: 5482},",
   chars!"\t\t\t\t\texprs: []interface{}{",
   chars!"\t\t\t\t\t\t&litMatcher{",
   chars!"\t\t\t\t\t\t\tpos:        position{line: 239, col: 25, offset: 5482},",
   chars!"\t\t\t\t\t\t\tval:        \"(\",",
   chars!"\t\t\t\t\t\t\tignoreCase: false,",
   chars!"\t\t\t\t\t\t},",
   chars!"\t\t\t\t\t\t&labeledExpr{",
   chars!"\t\t\t\t\t\t\tpos:   position{line: 239, col: 29, offset: 5486},",
   chars!"\t\t\t\t\t\t\tlabel: \"e\",",
   chars!"\t\t\t\t\t\t\texpr: &ruleRefExpr{",
   chars!"\t\t\t\t\t\t\t\tpos:  position{line: 239, col: 31, offset: 5488},",
   chars!"\t\t\t\t\t\t\t\tname: \"IntExpr\",",
   chars!"\t\t\t\t\t\t\t},",
   chars!"\t\t\t\t\t\t},",
   chars!"\t\t\t\t\t\t&litMatcher{",
   chars!"\t\t\t\t\t\t\tpos:        position{line: 239, col: 39, offset: 5496},",
   chars!"\t\t\t\t\t\t\tval:        \")\",",
   chars!"\t\t\t\t\t\t\tignoreCase: false,",
   chars!"\t\t\t\t\t\t},",
   chars!"\t\t\t\t\t},",
   chars!"\t\t\t\t},",
   chars!"\t\t\t},",
   chars!"\t\t},"]

/-- pkg/core/parser/parser.go:927-952 -/
def goRuleIntExprUnaryPlus : List Str :=
  [chars!"\t\t{",
   chars!"\t\t\tname: \"IntExprUnaryPlus\",",
   chars!"\t\t\tpos:  position{line: 243, col: 1, offset: 5531},",
   chars!"\t\t\texpr: &actionExpr{",
   chars!"\t\t\t\tpos: position{line: 243, col: 21, offset: 5551},",
   chars!"\t\t\t\trun: (*parser).callonIntExprUnaryPlus1,",
   chars!"\t\t\t\texpr: &seqExpr{",
   chars!"\t\t\t\t\tpos: position{line: 243, col: 21, offset: 5551},",
   chars!"\t\t\t\t\texprs: []interface{}{",
   chars!"\t\t\t\t\t\t&litMatcher{",
   chars!"\t\t\t\t\t\t\tpos:        position{line: 243, col: 21, offset: 5551},",
   chars!"\t\t\t\t\t\t\tval:        \"+\",",
   chars!"\t\t\t\t\t\t\tignoreCase: false,",
   chars!"\t\t\t\t\t\t},",
   chars!"\t\t\t\t\t\t&labeledExpr{",
   chars!"\t\t\t\t\t\t\tpos:   position{line: 243, col: 25, offset: 5555},",
   chars!"\t\t\t\t\t\t\tlabel: \"e\",",
   chars!"\t\t\t\t\t\t\texpr: &ruleRefExpr{",
   chars!"\t\t\t\t\t\t\t\tpos:  position{line: 243, col: 27, offset: 5557},",
   chars!"\t\t\t\t\t\t\t\tname: \"IntExprPrimary\",",
   chars!"\t\t\t\t\t\t\t},",
   chars!"\t\t\t\t\t\t},",
   chars!"\t\t\t\t\t},",
   chars!"\t\t\t\t},",
   chars!"\t\t\t},",
   chars!"\t\t},"]

/-- pkg/core/parser/parser.go:953-978 -/
def goRuleIntExprUnaryMinus : List Str :=
  [chars!"\t\t{",
   chars!"\t\t\tname: \"IntExprUnaryMinus\",",
   chars!"\t\t\tpos:  position{line: 247, col: 1, offset: 5603},",
   chars!"\t\t\texpr: &actionExpr{",
   chars!"\t\t\t\tpos: position{line: 247, col: 22, offset: 5624},",
   chars!"\t\t\t\trun: (*parser).callonIntExprUnaryMinus1,",
   chars!"\t\t\t\texpr: &seqExpr{",
   chars!"\t\t\t\t\tpos: position{line: 247, col: 22, offset: 5624},",
   chars!"\t\t\t\t\texprs: []interface{}{",
   chars!"\t\t\t\t\t\t&litMatcher{",
   chars!"\t\t\t\t\t\t\tpos:        position{line: 247, col: 22, offset: 5624},",
   chars!"\t\t\t\t\t\t\tval:        \"-\",",
   chars!"\t\t\t\t\t\t\tignoreCase: false,",
   chars!"\t\t\t\t\t\t},",
   chars!"\t\t\t\t\t\t&labeledExpr{",
   chars!"\t\t\t\t\t\t\tpos:   position{line: 247, col: 26, offset: 5628},",
   chars!"\t\t\t\t\t\t\tlabel: \"e\",",
   chars!"\t\t\t\t\t\t\texpr: &ruleRefExpr{",
   chars!"\t\t\t\t\t\t\t\tpos:  position{line: 247, col: 28, offset: 5630},",
   chars!"\t\t\t\t\t\t\t\tname: \"IntExprPrimary\",",
   chars!"\t\t\t\t\t\t\t},",
   chars!"\t\t\t\t\t\t},",
   chars!"\t\t\t\t\t},",
   chars!"\t\t\t\t},",
   chars!"\t\t\t},",
   chars!"\t\t},"]

/-- pkg/core/parser/parser.go:979-1015 -/
def goRuleDRollComp : List Str :=
  [chars!"\t\t{",
   chars!"\t\t\tname: \"DRollComp\",",
   chars!"\t\t\tpos:  position{line: 251, col: 1, offset: 5695},",
   chars!"\t\t\texpr: &actionExpr{",
   chars!"\t\t\t\tpos: position{line: 251, col: 14, offset: 5708},",
   chars!"\t\t\t\trun: (*parser).callonDRollComp1,",
   chars!"\t\t\t\texpr: &seqExpr{",
   chars!"\t\t\t\t\tpos: position{line: 251, col: 14, offset: 5708},",
   chars!"\t\t\t\t\texprs: []interface{}{",
   chars!"\t\t\t\t\t\t&labeledExpr{",
   chars!"\t\t\t\t\t\t\tpos:   position{line: 251, col: 14, offset: 5708},",
   chars!"\t\t\t\t\t\t\tlabel: \"left\",",
   chars!"\t\t\t\t\t\t\texpr: &ruleRefExpr{",
   chars!"\t\t\t\t\t\t\t\tpos:  position{line: 251, col: 19, offset: 5713},",
   chars!"\t\t\t\t\t\t\t\tname: \"DRollExprAdditive\",",
   chars!"\t\t\t\t\t\t\t},",
   chars!"\t\t\t\t\t\t},",
   chars!"\t\t\t\t\t\t&labeledExpr{",
   chars!"\t\t\t\t\t\t\tpos:   position{line: 251, col: 37, offset: 5731},",
   chars!"\t\t\t\t\t\t\tlabel: \"op\",",
   chars!"\t\t\t\t\t\t\texpr: &ruleRefExpr{",
   chars!"\t\t\t\t\t\t\t\tpos:  position{line: 251, col: 40, offset: 5734},",
   chars!"\t\t\t\t\t\t\t\tname: \"CompareOp\",",
   chars!"\t\t\t\t\t\t\t},",
   chars!"\t\t\t\t\t\t},",
   chars!"\t\t\t\t\t\t&labeledExpr{",
   chars!"\t\t\t\t\t\t\tpos:   position{line: 251, col: 50, offset: 5744},",
   chars!"\t\t\t\t\t\t\tlabel: \"right\",",
   chars!"\t\t\t\t\t\t\texpr: &ruleRefExpr{",
   chars!"\t\t\t\t\t\t\t\tpos:  position{line: 251, col: 56, offset: 5750},",
   chars!"\t\t\t\t\t\t\t\tname: \"IntExpr\",",
   chars!"\t\t\t\t\t\t\t},",
   chars!"\t\t\t\t\t\t},",
   chars!"\t\t\t\t\t},",
   chars!"\t\t\t\t},",
   chars!"\t\t\t},",
   chars!"\t\t},"]

/-- pkg/core/parser/parser.go:1016-1023 -/
def goRuleDRollExpr : List Str :=
  [chars!"\t\t{",
   chars!"\t\t\tname: \"DRollExpr\",",
   chars!"\t\t\tpos:  position{line: 259, col: 1, offset: 5857},",
   chars!"\t\t\texpr: &ruleRefExpr{",
   chars!"\t\t\t\tpos:  position{line: 259, col: 14, offset: 5870},",
   chars!"\t\t\t\tname: \"DRollExprAdditive\",",
   chars!"\t\t\t},",
   chars!"\t\t},"]

/-- pkg/core/parser/parser.go:1024-1075 -/
def goRuleDRollExprAdditive : List Str :=
  [chars!"\t\t{",
   chars!"\t\t\tname: \"DRollExprAdditive\",",
   chars!"\t\t\tpos:  position{line: 261, col: 1, offset: 5889},",
   chars!"\t\t\texpr: &actionExpr{",
   chars!"\t\t\t\tpos: position{line: 261, col: 22, offset: 5910},",
   chars!"\t\t\t\trun: (*parser).callonDRollExprAdditive1,",
   chars!"\t\t\t\texpr: &seqExpr{",
   chars!"\t\t\t\t\tpos: position{line: 261, col: 22, offset: 5910},",
   chars!"\t\t\t\t\texprs: []interface{}{",
   chars!"\t\t\t\t\t\t&labeledExpr{",
   chars!"\t\t\t\t\t\t\tpos:   position{line: 261, col: 22, offset: 5910},",
   chars!"\t\t\t\t\t\t\tlabel: \"first\",",
   chars!"\t\t\t\t\t\t\texpr: &ruleRefExpr{",
   chars!"\t\t\t\t\t\t\t\tpos:  position{line: 261, col: 28, offset: 5916},",
   chars!"\t\t\t\t\t\t\t\tname: \"DRollExprMultitive\",",
   chars!"\t\t\t\t\t\t\t},",
   chars!"\t\t\t\t\t\t},",
   chars!"\t\t\t\t\t\t&labeledExpr{",
   chars!"\t\t\t\t\t\t\tpos:   position{line: 261, col: 47, offset: 5935},",
   chars!"\t\t\t\t\t\t\tlabel: \"rest\",",
   chars!"\t\t\t\t\t\t\texpr: &zeroOrMoreExpr{",
   chars!"\t\t\t\t\t\t\t\tpos: position{line: 261, col: 52, offset: 5940},",
   chars!"\t\t\t\t\t\t\t\texpr: &seqExpr{",
   chars!"\t\t\t\t\t\t\t\t\tpos: position{line: 261, col: 53, offset: 5941},",
   chars!"\t\t\t\t\t\t\t\t\texprs: []interface{}{",
   chars!"\t\t\t\t\t\t\t\t\t\t&choiceExpr{",
   chars!"\t\t\t\t\t\t\t\t\t\t\tpos: position{line: 261, col: 54, offset: 5942},",
   chars!"\t\t\t\t\t\t\t\t\t\t\talternatives: []interface{}{",
   chars!"\t\t\t\t\t\t\t\t\t\t\t\t&litMatcher{",
   chars!"\t\t\t\t\t\t\t\t\t\t\t\t\tpos:        position{line: 261, col: 54, offset: 5942},",
   chars!"\t\t\t\t\t\t\t\t\t\t\t\t\tval:        \"+\",",
   chars!"\t\t\t\t\t\t\t\t\t\t\t\t\tignoreCase: false,",
   chars!"\t\t\t\t\t\t\t\t\t\t\t\t},",
   chars!"\t\t\t\t\t\t\t\t\t\t\t\t&litMatcher{",
   chars!"\t\t\t\t\t\t\t\t\t\t\t\t\tpos:        position{line: 261, col: 60, offset: 5948},",
   chars!"\t\t\t\t\t\t\t\t\t\t\t\t\tval:        \"-\",",
   chars!"\t\t\t\t\t\t\t\t\t\t\t\t\tignoreCase: false,",
   chars!"\t\t\t\t\t\t\t\t\t\t\t\t},",
   chars!"\t\t\t\t\t\t\t\t\t\t\t},",
   chars!"\t\t\t\t\t\t\t\t\t\t},",
   chars!"\t\t\t\t\t\t\t\t\t\t&ruleRefExpr{",
   chars!"\t\t\t\t\t\t\t\t\t\t\tpos:  position{line: 261, col: 65, offset: 5953},",
   chars!"\t\t\t\t\t\t\t\t\t\t\tname: \"DRollExprMultitive\",",
   chars!"\t\t\t\t\t\t\t\t\t\t},",
   chars!"\t\t\t\t\t\t\t\t\t},",
   chars!"\t\t\t\t\t\t\t\t},",
   chars!"\t\t\t\t\t\t\t},",
   chars!"\t\t\t\t\t\t},",
   chars!"\t\t\t\t\t},",
   chars!"\t\t\t\t},",
   chars!"\t\t\t},",
   chars!"\t\t},"]

/-- pkg/core/parser/parser.go:1076-1153 -/
def goRuleDRollExprMultitive : List Str :=
  [chars!"\t\t{",
   chars!"\t\t\tname: \"DRollExprMultitive\",",
   chars!"\t\t\tpos:  position{line: 265, col: 1, offset: 6024},",
   chars!"\t\t\texpr: &actionExpr{",
   chars!"\t\t\t\tpos: position{line: 265, col: 23, offset: 6046},",
   chars!"\t\t\t\trun: (*parser).callonDRollExprMultitive1,",
   chars!"\t\t\t\texpr: &seqExpr{",
   chars!"\t\t\t\t\tpos: position{line: 265, col: 23, offset: 6046},",
   chars!"\t\t\t\t\texprs: []interface{}{",
   chars!"\t\t\t\t\t\t&labeledExpr{",
   chars!"\t\t\t\t\t\t\tpos:   position{line: 265, col: 23, offset: 6046},",
   chars!"\t\t\t\t\t\t\tlabel: \"first\",",
   chars!"\t\t\t\t\t\t\texpr: &ruleRefExpr{",
   chars!"\t\t\t\t\t\t\t\tpos:  position{line: 265, col: 29, offset: 6052},",
   chars!"\t\t\t\t\t\t\t\tname: \"DRollExprPrimary\",",
   chars!"\t\t\t\t\t\t\t},",
   chars!"\t\t\t\t\t\t},",
   chars!"\t\t\t\t\t\t&labeledExpr{",
   chars!"\t\t\t\t\t\t\tpos:   position{line: 265, col: 46, offset: 6069},",
   chars!"\t\t\t\t\t\t\tlabel: \"rest\",",
   chars!"\t\t\t\t\t\t\texpr: &zeroOrMoreExpr{",
   chars!"\t\t\t\t\t\t\t\tpos: position{line: 265, col: 51, offset: 6074},",
   chars!"\t\t\t\t\t\t\t\texpr: &choiceExpr{",
   chars!"\t\t\t\t\t\t\t\t\tpos: position{line: 265, col: 52, offset: 6075},",
   chars!"\t\t\t\t\t\t\t\t\talternatives: []interface{}{",
   chars!"\t\t\t\t\t\t\t\t\t\t&seqExpr{",
   chars!"\t\t\t\t\t\t\t\t\t\t\tpos: position{line: 265, col: 52, offset: 6075},",
   chars!"\t\t\t\t\t\t\t\t\t\t\texprs: []interface{}{",
   chars!"\t\t\t\t\t\t\t\t\t\t\t\t&litMatcher{",
   chars!"\t\t\t\t\t\t\t\t\t\t\t\t\tpos:        position{line: 265, col: 52, offset: 6075},",
   chars!"\t\t\t\t\t\t\t\t\t\t\t\t\tval:        \"/\",",
   chars!"\t\t\t\t\t\t\t\t\t\t\t\t\tignoreCase: false,",
   chars!"\t\t\t\t\t\t\t\t\t\t\t\t},",
   chars!"\t\t\t\t\t\t\t\t\t\t\t\t&ruleRefExpr{",
   chars!"\t\t\t\t\t\t\t\t\t\t\t\t\tpos:  position{line: 265, col: 56, offset: 6079},",
   chars!"\t\t\t\t\t\t\t\t\t\t\t\t\tname: \"DRollExprPrimary\",",
   chars!"\t\t\t\t\t\t\t\t\t\t\t\t},",
   chars!"\t\t\t\t\t\t\t\t\t\t\t\t&charClassMatcher{",
   chars!"\t\t\t\t\t\t\t\t\t\t\t\t\tpos:        position{line: 265, col: 73, offset: 6096},",
   chars!"\t\t\t\t\t\t\t\t\t\t\t\t\tval:        \"[ur]i\",",
   chars!"\t\t\t\t\t\t\t\t\t\t\t\t\tchars:      []rune{'u', 'r'},",
   chars!"\t\t\t\t\t\t\t\t\t\t\t\t\tignoreCase: true,",
   chars!"\t\t\t\t\t\t\t\t\t\t\t\t\tinverted:   false,",
   chars!"\t\t\t\t\t\t\t\t\t\t\t\t},",
   chars!"\t\t\t\t\t\t\t\t\t\t\t},",
   chars!"\t\t\t\t\t\t\t\t\t\t},",
   chars!"\t\t\t\t\t\t\t\t\t\t&seqExpr{",
   chars!"\t\t\t\t\t\t\t\t\t\t\tpos: position{line: 265, col: 82, offset: 6105},",
   chars!"\t\t\t\t\t\t\t\t\t\t\texprs: []interface{}{",
   chars!"\t\t\t\t\t\t\t\t\t\t\t\t&choiceExpr{",
   chars!"\t\t\t\t\t\t\t\t\t\t\t\t\tpos: position{line: 265, col: 83, offset: 6106},",
   chars!"\t\t\t\t\t\t\t\t\t\t\t\t\talternatives: []interface{}{",
   chars!"\t\t\t\t\t\t\t\t\t\t\t\t\t\t&litMatcher{",
   chars!"\t\t\t\t\t\t\t\t\t\t\t\t\t\t\tpos:        position{line: 265, col: 83, offset: 6106},",
   chars!"\t\t\t\t\t\t\t\t\t\t\t\t\t\t\tval:        \"*\",",
   chars!"\t\t\t\t\t\t\t\t\t\t\t\t\t\t\tignoreCase: false,",
   chars!"\t\t\t\t\t\t\t\t\t\t\t\t\t\t},",
   chars!"\t\t\t\t\t\t\t\t\t\t\t\t\t\t&litMatcher{",
   chars!"\t\t\t\t\t\t\t\t\t\t\t\t\t\t\tpos:        position{line: 265, col: 89, offset: 6112},",
   chars!"\t\t\t\t\t\t\t\t\t\t\t\t\t\t\tval:        \"/\",",
   chars!"\t\t\t\t\t\t\t\t\t\t\t\t\t\t\tignoreCase: false,",
   chars!"\t\t\t\t\t\t\t\t\t\t\t\t\t\t},",
   chars!"\t\t\t\t\t\t\t\t\t\t\t\t\t},",
   chars!"\t\t\t\t\t\t\t\t\t\t\t\t},",
   chars!"\t\t\t\t\t\t\t\t\t\t\t\t&ruleRefExpr{",
   chars!"\t\t\t\t\t\t\t\t\t\t\t\t\tpos:  position{line: 265, col: 94, offset: 6117},",
   chars!"\t\t\t\t\t\t\t\t\t\t\t\t\tname: \"DRollExprPrimary\",",
   chars!"\t\t\t\t\t\t\t\t\t\t\t\t},",
   chars!"\t\t\t\t\t\t\t\t\t\t\t},",
   chars!"\t\t\t\t\t\t\t\t\t\t},",
   chars!"\t\t\t\t\t\t\t\t\t},",
   chars!"\t\t\t\t\t\t\t\t},",
   chars!"\t\t\t\t\t\t\t},",
   chars!"\t\t\t\t\t\t},",
   chars!"\t\t\t\t\t},",
   chars!"\t\t\t\t},",
   chars!"\t\t\t},",
   chars!"\t\t},"]

/-- pkg/core/parser/parser.go:1154-1186 -/
def goRuleDRollExprPrimary : List Str :=
  [chars!"\t\t{",
   chars!"\t\t\tname: \"DRollExprPrimary\",",
   chars!"\t\t\tpos:  position{line: 269, col: 1, offset: 6188},",
   chars!"\t\t\texpr: &choiceExpr{",
   chars!"\t\t\t\tpos: position{line: 269, col: 21, offset: 6208},",
   chars!"\t\t\t\talternatives: []interface{}{",
   chars!"\t\t\t\t\t&ruleRefExpr{",
   chars!"\t\t\t\t\t\tpos:  position{line: 269, col: 21, offset: 6208},",
   chars!"\t\t\t\t\t\tname: \"DRoll\",",
   chars!"\t\t\t\t\t},",
   chars!"\t\t\t\t\t&ruleRefExpr{",
   chars!"\t\t\t\t\t\tpos:  position{line: 269, col: 29, offset: 6216},",
   chars!"\t\t\t\t\t\tname: \"RandomNumber\",",
   chars!"\t\t\t\t\t},",
   chars!"\t\t\t\t\t&ruleRefExpr{",
   chars!"\t\t\t\t\t\tpos:  position{line: 269, col: 44, offset: 6231},",
   chars!"\t\t\t\t\t\tname: \"Integer\",",
   chars!"\t\t\t\t\t},",
   chars!"\t\t\t\t\t&ruleRefExpr{",
   chars!"\t\t\t\t\t\tpos:  position{line: 269, col: 54, offset: 6241},",
   chars!"\t\t\t\t\t\tname: \"DRollExprUnaryPlus\",",
   chars!"\t\t\t\t\t},",
   chars!"\t\t\t\t\t&ruleRefExpr{",
   chars!"\t\t\t\t\t\tpos:  position{line: 269, col: 75, offset: 6262},",
   chars!"\t\t\t\t\t\tname: \"DRollExprUnaryMinus\",",
   chars!"\t\t\t\t\t},",
   chars!"\t\t\t\t\t&ruleRefExpr{",
   chars!"\t\t\t\t\t\tpos:  position{line: 269, col: 97, offset: 6284},",
   chars!"\t\t\t\t\t\tname: \"ParenthesizedDRollExpr\",",
   chars!"\t\t\t\t\t},",
   chars!"\t\t\t\t},",
   chars!"\t\t\t},",
   chars!"\t\t},"]

/-- pkg/core/parser/parser.go:1187-1217 -/
def goRuleParenthesizedDRollExpr : List Str :=
  [chars!"\t\t{",
   chars!"\t\t\tname: \"ParenthesizedDRollExpr\",",
   chars!"\t\t\tpos:  position{line: 271, col: 1, offset: 6308},",
   chars!"\t\t\texpr: &actionExpr{",
   chars!"\t\t\t\tpos: position{line: 271, col: 27, offset: 6334},",
   chars!"\t\t\t\trun: (*parser).callonParenthesizedDRollExpr1,",
   chars!"\t\t\t\texpr: &seqExpr{",
   chars!"\t\t\t\t\tpos: position{line: 271, col: 27, offset: 6334},",
   chars!"\t\t\t\t\texprs: []interface{}{",
   chars!"\t\t\t\t\t\t&litMatcher{",
   chars!"\t\t\t\t\t\t\tpos:        position{line: 271, col: 27, offset: 6334},",
   chars!"\t\t\t\t\t\t\tval:        \"(\",",
   chars!"\t\t\t\t\t\t\tignoreCase: false,",
   chars!"\t\t\t\t\t\t},",
   chars!"\t\t\t\t\t\t&labeledExpr{",
   chars!"\t\t\t\t\t\t\tpos:   position{line: 271, col: 31, offset: 6338},",
   chars!"\t\t\t\t\t\t\tlabel: \"e\",",
   chars!"\t\t\t\t\t\t\texpr: &ruleRefExpr{",
   chars!"\t\t\t\t\t\t\t\tpos:  position{line: 271, col: 33, offset: 6340},",
   chars!"\t\t\t\t\t\t\t\tname: \"DRollExpr\",",
   chars!"\t\t\t\t\t\t\t},",
   chars!"\t\t\t\t\t\t},",
   chars!"\t\t\t\t\t\t&litMatcher{",
   chars!"\t\t\t\t\t\t\tpos:        position{line: 271, col: 43, offset: 6350},",
   chars!"\t\t\t\t\t\t\tval:        \")\",",
   chars!"\t\t\t\t\t\t\tignoreCase: false,",
   chars!"\t\t\t\t\t\t},",
   chars!"\t\t\t\t\t},",
   chars!"\t\t\t\t},",
   chars!"\t\t\t},",
   chars!"\t\t},"]

/-- pkg/core/parser/parser.go:1218-1243 -/
def goRuleDRollExprUnaryPlus : List Str :=
  [chars!"\t\t{",
   chars!"\t\t\tname: \"DRollExprUnaryPlus\",",
   chars!"\t\t\tpos:  position{line: 275, col: 1, offset: 6385},",
   chars!"\t\t\texpr: &actionExpr{",
   chars!"\t\t\t\tpos: position{line: 275, col: 23, offset: 6407},",
   chars!"\t\t\t\trun: (*parser).callonDRollExprUnaryPlus1,",
   chars!"\t\t\t\texpr: &seqExpr{",
   chars!"\t\t\t\t\tpos: position{line: 275, col: 23, offset: 6407},",
   chars!"\t\t\t\t\texprs: []interface{}{",
   chars!"\t\t\t\t\t\t&litMatcher{",
   chars!"\t\t\t\t\t\t\tpos:        position{line: 275, col: 23, offset: 6407},",
   chars!"\t\t\t\t\t\t\tval:        \"+\",",
   chars!"\t\t\t\t\t\t\tignoreCase: false,",
   chars!"\t\t\t\t\t\t},",
   chars!"\t\t\t\t\t\t&labeledExpr{",
   chars!"\t\t\t\t\t\t\tpos:   position{line: 275, col: 27, offset: 6411},",
   chars!"\t\t\t\t\t\t\tlabel: \"e\",",
   chars!"\t\t\t\t\t\t\texpr: &ruleRefExpr{",
   chars!"\t\t\t\t\t\t\t\tpos:  position{line: 275, col: 29, offset: 6413},",
   chars!"\t\t\t\t\t\t\t\tname: \"DRollExprPrimary\",",
   chars!"\t\t\t\t\t\t\t},",
   chars!"\t\t\t\t\t\t},",
   chars!"\t\t\t\t\t},",
   chars!"\t\t\t\t},",
   chars!"\t\t\t},",
   chars!"\t\t},"]

/-- pkg/core/parser/parser.go:1244-1269 -/
def goRuleDRollExprUnaryMinus : List Str :=
  [chars!"\t\t{",
   chars!"\t\t\tname: \"DRollExprUnaryMinus\",",
   chars!"\t\t\tpos:  position{line: 279, col: 1, offset: 6461},",
   chars!"\t\t\texpr: &actionExpr{",
   chars!"\t\t\t\tpos: position{line: 279, col: 24, offset: 6484},",
   chars!"\t\t\t\trun: (*parser).callonDRollExprUnaryMinus1,",
   chars!"\t\t\t\texpr: &seqExpr{",
   chars!"\t\t\t\t\tpos: position{line: 279, col: 24, offset: 6484},",
   chars!"\t\t\t\t\texprs: []interface{}{",
   chars!"\t\t\t\t\t\t&litMatcher{",
   chars!"\t\t\t\t\t\t\tpos:        position{line: 279, col: 24, offset: 6484},",
   chars!"\t\t\t\t\t\t\tval:        \"-\",",
   chars!"\t\t\t\t\t\t\tignoreCase: false,",
   chars!"\t\t\t\t\t\t},",
   chars!"\t\t\t\t\t\t&labeledExpr{",
   chars!"\t\t\t\t\t\t\tpos:   position{line: 279, col: 28, offset: 6488},",
   chars!"\t\t\t\t\t\t\tlabel: \"e\",",
   chars!"\t\t\t\t\t\t\texpr: &ruleRefExpr{",
   chars!"\t\t\t\t\t\t\t\tpos:  position{line: 279, col: 30, offset: 6490},",
   chars!"\t\t\t\t\t\t\t\tname: \"DRollExprPrimary\",",
   chars!"\t\t\t\t\t\t\t},",
   chars!"\t\t\t\t\t\t},",
   chars!"\t\t\t\t\t},",
   chars!"\t\t\t\t},",
   chars!"\t\t\t},",
   chars!"\t\t},"]

/-- pkg/core/parser/parser.go:1270-1277 -/
def goRuleIntRandExpr : List Str :=
  [chars!"\t\t{",
   chars!"\t\t\tname: \"IntRandExpr\",",
   chars!"\t\t\tpos:  position{line: 283, col: 1, offset: 6557},",
   chars!"\t\t\texpr: &ruleRefExpr{",
   chars!"\t\t\t\tpos:  position{line: 283, col: 16, offset: 6572},",
   chars!"\t\t\t\tname: \"IntRandExprAdditive\",",
   chars!"\t\t\t},",
   chars!"\t\t},"]

/-- pkg/core/parser/parser.go:1278-1329 -/
def goRuleIntRandExprAdditive : List Str :=
  [chars!"\t\t{",
   chars!"\t\t\tname: \"IntRandExprAdditive\",",
   chars!"\t\t\tpos:  position{line: 285, col: 1, offset: 6593},",
   chars!"\t\t\texpr: &actionExpr{",
   chars!"\t\t\t\tpos: position{line: 285, col: 24, offset: 6616},",
   chars!"\t\t\t\trun: (*parser).callonIntRandExprAdditive1,",
   chars!"\t\t\t\texpr: &seqExpr{",
   chars!"\t\t\t\t\tpos: position{line: 285, col: 24, offset: 6616},",
   chars!"\t\t\t\t\texprs: []interface{}{",
   chars!"\t\t\t\t\t\t&labeledExpr{",
   chars!"\t\t\t\t\t\t\tpos:   position{line: 285, col: 24, offset: 6616},",
   chars!"\t\t\t\t\t\t\tlabel: \"first\",",
   chars!"\t\t\t\t\t\t\texpr: &ruleRefExpr{",
   chars!"\t\t\t\t\t\t\t\tpos:  position{line: 285, col: 30, offset: 6622},",
   chars!"\t\t\t\t\t\t\t\tname: \"IntRandExprMultitive\",",
   chars!"\t\t\t\t\t\t\t},",
   chars!"\t\t\t\t\t\t},",
   chars!"\t\t\t\t\t\t&labeledExpr{",
   chars!"\t\t\t\t\t\t\tpos:   position{line: 285, col: 51, offset: 6643},",
   chars!"\t\t\t\t\t\t\tlabel: \"rest\",",
   chars!"\t\t\t\t\t\t\texpr: &zeroOrMoreExpr{",
   chars!"\t\t\t\t\t\t\t\tpos: position{line: 285, col: 56, offset: 6648},",
   chars!"\t\t\t\t\t\t\t\texpr: &seqExpr{",
   chars!"\t\t\t\t\t\t\t\t\tpos: position{line: 285, col: 57, offset: 6649},",
   chars!"\t\t\t\t\t\t\t\t\texprs: []interface{}{",
   chars!"\t\t\t\t\t\t\t\t\t\t&choiceExpr{",
   chars!"\t\t\t\t\t\t\t\t\t\t\tpos: position{line: 285, col: 58, offset: 6650},",
   chars!"\t\t\t\t\t\t\t\t\t\t\talternatives: []interface{}{",
   chars!"\t\t\t\t\t\t\t\t\t\t\t\t&litMatcher{",
   chars!"\t\t\t\t\t\t\t\t\t\t\t\t\tpos:        position{line: 285, col: 58, offset: 6650},",
   chars!"\t\t\t\t\t\t\t\t\t\t\t\t\tval:        \"+\",",
   chars!"\t\t\t\t\t\t\t\t\t\t\t\t\tignoreCase: false,",
   chars!"\t\t\t\t\t\t\t\t\t\t\t\t},",
   chars!"\t\t\t\t\t\t\t\t\t\t\t\t&litMatcher{",
   chars!"\t\t\t\t\t\t\t\t\t\t\t\t\tpos:        position{line: 285, col: 64, offset: 6656},",
   chars!"\t\t\t\t\t\t\t\t\t\t\t\t\tval:        \"-\",",
   chars!"\t\t\t\t\t\t\t\t\t\t\t\t\tignoreCase: false,",
   chars!"\t\t\t\t\t\t\t\t\t\t\t\t},",
   chars!"\t\t\t\t\t\t\t\t\t\t\t},",
   chars!"\t\t\t\t\t\t\t\t\t\t},",
   chars!"\t\t\t\t\t\t\t\t\t\t&ruleRefExpr{",
   chars!"\t\t\t\t\t\t\t\t\t\t\tpos:  position{line: 285, col: 69, offset: 6661},",
   chars!"\t\t\t\t\t\t\t\t\t\t\tname: \"IntRandExprMultitive\",",
   chars!"\t\t\t\t\t\t\t\t\t\t},",
   chars!"\t\t\t\t\t\t\t\t\t},",
   chars!"\t\t\t\t\t\t\t\t},",
   chars!"\t\t\t\t\t\t\t},",
   chars!"\t\t\t\t\t\t},",
   chars!"\t\t\t\t\t},",
   chars!"\t\t\t\t},",
   chars!"\t\t\t},",
   chars!"\t\t},"]

/-- pkg/core/parser/parser.go:1330-1407 -/
def goRuleIntRandExprMultitive : List Str :=
  [chars!"\t\t{",
   chars!"\t\t\tname: \"IntRandExprMultitive\",",
   chars!"\t\t\tpos:  position{line: 289, col: 1, offset: 6734},",
   chars!"\t\t\texpr: &actionExpr{",
   chars!"\t\t\t\tpos: position{line: 289, col: 25, offset: 6758},",
   chars!"\t\t\t\trun: (*parser).callonIntRandExprMultitive1,",
   chars!"\t\t\t\texpr: &seqExpr{",
   chars!"\t\t\t\t\tpos: position{line: 289, col: 25, offset: 6758},",
   chars!"\t\t\t\t\texprs: []interface{}{",
   chars!"\t\t\t\t\t\t&labeledExpr{",
   chars!"\t\t\t\t\t\t\tpos:   position{line: 289, col: 25, offset: 6758},",
   chars!"\t\t\t\t\t\t\tlabel: \"first\",",
   chars!"\t\t\t\t\t\t\texpr: &ruleRefExpr{",
   chars!"\t\t\t\t\t\t\t\tpos:  position{line: 289, col: 31, offset: 6764},",
   chars!"\t\t\t\t\t\t\t\tname: \"IntRandExprPrimary\",",
   chars!"\t\t\t\t\t\t\t},",
   chars!"\t\t\t\t\t\t},",
   chars!"\t\t\t\t\t\t&labeledExpr{",
   chars!"\t\t\t\t\t\t\tpos:   position{line: 289, col: 50, offset: 6783},",
   chars!"\t\t\t\t\t\t\tlabel: \"rest\",",
   chars!"\t\t\t\t\t\t\texpr: &zeroOrMoreExpr{",
   chars!"\t\t\t\t\t\t\t\tpos: position{line: 289, col: 55, offset: 6788},",
   chars!"\t\t\t\t\t\t\t\texpr: &choiceExpr{",
   chars!"\t\t\t\t\t\t\t\t\tpos: position{line: 289, col: 56, offset: 6789},",
   chars!"\t\t\t\t\t\t\t\t\talternatives: []interface{}{",
   chars!"\t\t\t\t\t\t\t\t\t\t&seqExpr{",
   chars!"\t\t\t\t\t\t\t\t\t\t\tpos: position{line: 289, col: 56, offset: 6789},",
   chars!"\t\t\t\t\t\t\t\t\t\t\texprs: []interface{}{",
   chars!"\t\t\t\t\t\t\t\t\t\t\t\t&litMatcher{",
   chars!"\t\t\t\t\t\t\t\t\t\t\t\t\tpos:        position{line: 289, col: 56, offset: 6789},",
   chars!"\t\t\t\t\t\t\t\t\t\t\t\t\tval:        \"/\",",
   chars!"\t\t\t\t\t\t\t\t\t\t\t\t\tignoreCase: false,",
   chars!"\t\t\t\t\t\t\t\t\t\t\t\t},",
   chars!"\t\t\t\t\t\t\t\t\t\t\t\t&ruleRefExpr{",
   chars!"\t\t\t\t\t\t\t\t\t\t\t\t\tpos:  position{line: 289, col: 60, offset: 6793},",
   chars!"\t\t\t\t\t\t\t\t\t\t\t\t\tname: \"IntRandExprPrimary\",",
   chars!"\t\t\t\t\t\t\t\t\t\t\t\t},",
   chars!"\t\t\t\t\t\t\t\t\t\t\t\t&charClassMatcher{",
   chars!"\t\t\t\t\t\t\t\t\t\t\t\t\tpos:        position{line: 289, col: 79, offset: 6812},",
   chars!"\t\t\t\t\t\t\t\t\t\t\t\t\tval:        \"[ur]i\",",
   chars!"\t\t\t\t\t\t\t\t\t\t\t\t\tchars:      []rune{'u', 'r'},",
   chars!"\t\t\t\t\t\t\t\t\t\t\t\t\tignoreCase: true,",
   chars!"\t\t\t\t\t\t\t\t\t\t\t\t\tinverted:   false,",
   chars!"\t\t\t\t\t\t\t\t\t\t\t\t},",
   chars!"\t\t\t\t\t\t\t\t\t\t\t},",
   chars!"\t\t\t\t\t\t\t\t\t\t},",
   chars!"\t\t\t\t\t\t\t\t\t\t&seqExpr{",
   chars!"\t\t\t\t\t\t\t\t\t\t\tpos: position{line: 289, col: 88, offset: 6821},",
   chars!"\t\t\t\t\t\t\t\t\t\t\texprs: []interface{}{",
   chars!"\t\t\t\t\t\t\t\t\t\t\t\t&choiceExpr{",
   chars!"\t\t\t\t\t\t\t\t\t\t\t\t\tpos: position{line: 289, col: 89, offset: 6822},",
   chars!"\t\t\t\t\t\t\t\t\t\t\t\t\talternatives: []interface{}{",
   chars!"\t\t\t\t\t\t\t\t\t\t\t\t\t\t&litMatcher{",
   chars!"\t\t\t\t\t\t\t\t\t\t\t\t\t\t\tpos:        position{line: 289, col: 89, offset: 6822},",
   chars!"\t\t\t\t\t\t\t\t\t\t\t\t\t\t\tval:        \"*\",",
   chars!"\t\t\t\t\t\t\t\t\t\t\t\t\t\t\tignoreCase: false,",
   chars!"\t\t\t\t\t\t\t\t\t\t\t\t\t\t},",
   chars!"\t\t\t\t\t\t\t\t\t\t\t\t\t\t&litMatcher{",
   chars!"\t\t\t\t\t\t\t\t\t\t\t\t\t\t\tpos:        position{line: 289, col: 95, offset: 6828},",
   chars!"\t\t\t\t\t\t\t\t\t\t\t\t\t\t\tval:        \"/\",",
   chars!"\t\t\t\t\t\t\t\t\t\t\t\t\t\t\tignoreCase: false,",
   chars!"\t\t\t\t\t\t\t\t\t\t\t\t\t\t},",
   chars!"\t\t\t\t\t\t\t\t\t\t\t\t\t},",
   chars!"\t\t\t\t\t\t\t\t\t\t\t\t},",
   chars!"\t\t\t\t\t\t\t\t\t\t\t\t&ruleRefExpr{",
   chars!"\t\t\t\t\t\t\t\t\t\t\t\t\tpos:  position{line: 289, col: 100, offset: 6833},",
   chars!"\t\t\t\t\t\t\t\t\t\t\t\t\tname: \"IntRandExprPrimary\",",
   chars!"\t\t\t\t\t\t\t\t\t\t\t\t},",
   chars!"\t\t\t\t\t\t\t\t\t\t\t},",
   chars!"\t\t\t\t\t\t\t\t\t\t},",
   chars!"\t\t\t\t\t\t\t\t\t},",
   chars!"\t\t\t\t\t\t\t\t},",
   chars!"\t\t\t\t\t\t\t},",
   chars!"\t\t\t\t\t\t},",
   chars!"\t\t\t\t\t},",
   chars!"\t\t\t\t},",
   chars!"\t\t\t},",
   chars!"\t\t},"]

/-- pkg/core/parser/parser.go:1408-1436 -/
def goRuleIntRandExprPrimary : List Str :=
  [chars!"\t\t{",
   chars!"\t\t\tname: \"IntRandExprPrimary\",",
   chars!"\t\t\tpos:  position{line: 293, col: 1, offset: 6906},",
   chars!"\t\t\texpr: &choiceExpr{",
   chars!"\t\t\t\tpos: position{line: 293, col: 23, offset: 6928},",
   chars!"\t\t\t\talternatives: []interface{}{",
   chars!"\t\t\t\t\t&ruleRefExpr{",
   chars!"\t\t\t\t\t\tpos:  position{line: 293, col: 23, offset: 6928},",
   chars!"\t\t\t\t\t\tname: \"Integer\",",
   chars!"\t\t\t\t\t},",
   chars!"\t\t\t\t\t&ruleRefExpr{",
   chars!"\t\t\t\t\t\tpos:  position{line: 293, col: 33, offset: 6938},",
   chars!"\t\t\t\t\t\tname: \"RandomNumber\",",
   chars!"\t\t\t\t\t},",
   chars!"\t\t\t\t\t&ruleRefExpr{",
   chars!"\t\t\t\t\t\tpos:  position{line: 293, col: 48, offset: 6953},",
   chars!"\t\t\t\t\t\tname: \"IntRandExprUnaryPlus\",",
   chars!"\t\t\t\t\t},",
   chars!"\t\t\t\t\t&ruleRefExpr{",
   chars!"\t\t\t\t\t\tpos:  position{line: 293, col: 71, offset: 6976},",
   chars!"\t\t\t\t\t\tname: \"IntRandExprUnaryMinus\",",
   chars!"\t\t\t\t\t},",
   chars!"\t\t\t\t\t&ruleRefExpr{",
   chars!"\t\t\t\t\t\tpos:  position{line: 293, col: 95, offset: 7000},",
   chars!"\t\t\t\t\t\tname: \"ParenthesizedIntRandExpr\",",
   chars!"\t\t\t\t\t},",
   chars!"\t\t\t\t},",
   chars!"\t\t\t},",
   chars!"\t\t},"]

/-- pkg/core/parser/parser.go:1437-1467 -/
def goRuleParenthesizedIntRandExpr : List Str :=
  [chars!"\t\t{",
   chars!"\t\t\tname: \"ParenthesizedIntRandExpr\",",
   chars!"\t\t\tpos:  position{line: 295, col: 1, offset: 7026},",
   chars!"\t\t\texpr: &actionExpr{",
   chars!"\t\t\t\tpos: position{line: 295, col: 29, offset: 7054},",
   chars!"\t\t\t\trun: (*parser).callonParenthesizedIntRandExpr1,",
   chars!"\t\t\t\texpr: &seqExpr{",
   chars!"\t\t\t\t\tpos: position{line: 295, col: 29, offset: 7054},",
   chars!"\t\t\t\t\texprs: []interface{}{",
   chars!"\t\t\t\t\t\t&litMatcher{",
   chars!"\t\t\t\t\t\t\tpos:        position{line: 295, col: 29, offset: 7054},",
   chars!"\t\t\t\t\t\t\tval:        \"(\",",
   chars!"\t\t\t\t\t\t\tignoreCase: false,",
   chars!"\t\t\t\t\t\t},",
   chars!"\t\t\t\t\t\t&labeledExpr{",
   chars!"\t\t\t\t\t\t\tpos:   position{line: 295, col: 33, offset: 7058},",
   chars!"\t\t\t\t\t\t\tlabel: \"e\",",
   chars!"\t\t\t\t\t\t\texpr: &ruleRefExpr{",
   chars!"\t\t\t\t\t\t\t\tpos:  position{line: 295, col: 35, offset: 7060},",
   chars!"\t\t\t\t\t\t\t\tname: \"IntRandExpr\",",
   chars!"\t\t\t\t\t\t\t},",
   chars!"\t\t\t\t\t\t},",
   chars!"\t\t\t\t\t\t&litMatcher{",
   chars!"\t\t\t\t\t\t\tpos:        position{line: 295, col: 47, offset: 7072},",
   chars!"\t\t\t\t\t\t\tval:        \")\",",
   chars!"\t\t\t\t\t\t\tignoreCase: false,",
   chars!"\t\t\t\t\t\t},",
   chars!"\t\t\t\t\t},",
   chars!"\t\t\t\t},",
   chars!"\t\t\t},",
   chars!"\t\t},"]

/-- pkg/core/parser/parser.go:1468-1493 -/
def goRuleIntRandExprUnaryPlus : List Str :=
  [chars!"\t\t{",
   chars!"\t\t\tname: \"IntRandExprUnaryPlus\",",
   chars!"\t\t\tpos:  position{line: 299, col: 1, offset: 7107},",
   chars!"\t\t\texpr: &actionExpr{",
   chars!"\t\t\t\tpos: position{line: 299, col: 25, offset: 7131},",
   chars!"\t\t\t\trun: (*parser).callonIntRandExprUnaryPlus1,",
   chars!"\t\t\t\texpr: &seqExpr{",
   chars!"\t\t\t\t\tpos: position{line: 299, col: 25, offset: 7131},",
   chars!"\t\t\t\t\texprs: []interface{}{",
   chars!"\t\t\t\t\t\t&litMatcher{",
   chars!"\t\t\t\t\t\t\tpos:        position{line: 299, col: 25, offset: 7131},",
   chars!"\t\t\t\t\t\t\tval:        \"+\",",
   chars!"\t\t\t\t\t\t\tignoreCase: false,",
   chars!"\t\t\t\t\t\t},",
   chars!"\t\t\t\t\t\t&labeledExpr{",
   chars!"\t\t\t\t\t\t\tpos:   position{line: 299, col: 29, offset: 7135},",
   chars!"\t\t\t\t\t\t\tlabel: \"e\",",
   chars!"\t\t\t\t\t\t\texpr: &ruleRefExpr{",
   chars!"\t\t\t\t\t\t\t\tpos:  position{line: 299, col: 31, offset: 7137},",
   chars!"\t\t\t\t\t\t\t\tname: \"IntRandExprPrimary\",",
   chars!"\t\t\t\t\t\t\t},",
   chars!"\t\t\t\t\t\t},",
   chars!"\t\t\t\t\t},",
   chars!"\t\t\t\t},",
   chars!"\t\t\t},",
   chars!"\t\t},"]

/-- pkg/core/parser/parser.go:1494-1519 -/
def goRuleIntRandExprUnaryMinus : List Str :=
  [chars!"\t\t{",
   chars!"\t\t\tname: \"IntRandExprUnaryMinus\",",
   chars!"\t\t\tpos:  position{line: 303, col: 1, offset: 7187},",
   chars!"\t\t\texpr: &actionExpr{",
   chars!"\t\t\t\tpos: position{line: 303, col: 26, offset: 7212},",
   chars!"\t\t\t\trun: (*parser).callonIntRandExprUnaryMinus1,",
   chars!"\t\t\t\texpr: &seqExpr{",
   chars!"\t\t\t\t\tpos: position{line: 303, col: 26, offset: 7212},",
   chars!"\t\t\t\t\texprs: []interface{}{",
   chars!"\t\t\t\t\t\t&litMatcher{",
   chars!"\t\t\t\t\t\t\tpos:        position{line: 303, col: 26, offset: 7212},",
   chars!"\t\t\t\t\t\t\tval:        \"-\",",
   chars!"\t\t\t\t\t\t\tignoreCase: false,",
   chars!"\t\t\t\t\t\t},",
   chars!"\t\t\t\t\t\t&labeledExpr{",
   chars!"\t\t\t\t\t\t\tpos:   position{line: 303, col: 30, offset: 7216},",
   chars!"\t\t\t\t\t\t\tlabel: \"e\",",
   chars!"\t\t\t\t\t\t\texpr: &ruleRefExpr{",
   chars!"\t\t\t\t\t\t\t\tpos:  position{line: 303, col: 32, offset: 7218},",
   chars!"\t\t\t\t\t\t\t\tname: \"IntRandExprPrimary\",",
   chars!"\t\t\t\t\t\t\t},",
   chars!"\t\t\t\t\t\t},",
   chars!"\t\t\t\t\t},",
   chars!"\t\t\t\t},",
   chars!"\t\t\t},",
   chars!"\t\t},"]

/-- pkg/core/parser/parser.go:1520-1557 -/
def goRuleDRoll : List Str :=
  [chars!"\t\t{",
   chars!"\t\t\tname: \"DRoll\",",
   chars!"\t\t\tpos:  position{line: 307, col: 1, offset: 7287},",
   chars!"\t\t\texpr: &actionExpr{",
   chars!"\t\t\t\tpos: position{line: 307, col: 10, offset: 7296},",
   chars!"\t\t\t\trun: (*parser).callonDRoll1,",
   chars!"\t\t\t\texpr: &seqExpr{",
   chars!"\t\t\t\t\tpos: position{line: 307, col: 10, offset: 7296},",
   chars!"\t\t\t\t\texprs: []interface{}{",
   chars!"\t\t\t\t\t\t&labeledExpr{",
   chars!"\t\t\t\t\t\t\tpos:   position{line: 307, col: 10, offset: 7296},",
   chars!"\t\t\t\t\t\t\tlabel: \"num\",",
   chars!"\t\t\t\t\t\t\texpr: &ruleRefExpr{",
   chars!"\t\t\t\t\t\t\t\tpos:  position{line: 307, col: 14, offset: 7300},",
   chars!"\t\t\t\t\t\t\t\tname: \"RollOperand\",",
   chars!"\t\t\t\t\t\t\t},",
   chars!"\t\t\t\t\t\t},",
   chars!"\t\t\t\t\t\t&litMatcher{",
   chars!"\t\t\t\t\t\t\tpos:        position{line: 307, col: 26, offset: 7312},",
   chars!"\t\t\t\t\t\t\tval:        \"d\",",
   chars!"\t\t\t\t\t\t\tignoreCase: true,",
   chars!"\t\t\t\t\t\t},",
   chars!"\t\t\t\t\t\t&labeledExpr{",
   chars!"\t\t\t\t\t\t\tpos:   position{line: 307, col: 31, offset: 7317},",
   chars!"\t\t\t\t\t\t\tlabel: \"sides\",",
   chars!"\t\t\t\t\t\t\texpr: &ruleRefExpr{",
   chars!"\t\t\t\t\t\t\t\tpos:  position{line: 307, col: 37, offset: 7323},",
   chars!"\t\t\t\t\t\t\t\tname: \"RollOperand\",",
   chars!"\t\t\t\t\t\t\t},",
   chars!"\t\t\t\t\t\t},",
   chars!"\t\t\t\t\t\t&ruleRefExpr{",
   chars!"\t\t\t\t\t\t\tpos:  position{line: 307, col: 49, offset: 7335},",
   chars!"\t\t\t\t\t\t\tname: \"IncRandCount\",",
   chars!"\t\t\t\t\t\t},",
   chars!"\t\t\t\t\t},",
   chars!"\t\t\t\t},",
   chars!"\t\t\t},",
   chars!"\t\t},"]

/-- pkg/core/parser/parser.go:1558-1595 -/
def goRuleBRoll : List Str :=
  [chars!"\t\t{",
   chars!"\t\t\tname: \"BRoll\",",
   chars!"\t\t\tpos:  position{line: 314, col: 1, offset: 7458},",
   chars!"\t\t\texpr: &actionExpr{",
   chars!"\t\t\t\tpos: position{line: 314, col: 10, offset: 7467},",
   chars!"\t\t\t\trun: (*parser).callonBRoll1,",
   chars!"\t\t\t\texpr: &seqExpr{",
   chars!"\t\t\t\t\tpos: position{line: 314, col: 10, offset: 7467},",
   chars!"\t\t\t\t\texprs: []interface{}{",
   chars!"\t\t\t\t\t\t&labeledExpr{",
   chars!"\t\t\t\t\t\t\tpos:   position{line: 314, col: 10, offset: 7467},",
   chars!"\t\t\t\t\t\t\tlabel: \"num\",",
   chars!"\t\t\t\t\t\t\texpr: &ruleRefExpr{",
   chars!"\t\t\t\t\t\t\t\tpos:  position{line: 314, col: 14, offset: 7471},",
   chars!"\t\t\t\t\t\t\t\tname: \"RollOperand\",",
   chars!"\t\t\t\t\t\t\t},",
   chars!"\t\t\t\t\t\t},",
   chars!"\t\t\t\t\t\t&litMatcher{",
   chars!"\t\t\t\t\t\t\tpos:        position{line: 314, col: 26, offset: 7483},",
   chars!"\t\t\t\t\t\t\tval:        \"b\",",
   chars!"\t\t\t\t\t\t\tignoreCase: true,",
   chars!"\t\t\t\t\t\t},",
   chars!"\t\t\t\t\t\t&labeledExpr{",
   chars!"\t\t\t\t\t\t\tpos:   position{line: 314, col: 31, offset: 7488},",
   chars!"\t\t\t\t\t\t\tlabel: \"sides\",",
   chars!"\t\t\t\t\t\t\texpr: &ruleRefExpr{",
   chars!"\t\t\t\t\t\t\t\tpos:  position{line: 314, col: 37, offset: 7494},",
   chars!"\t\t\t\t\t\t\t\tname: \"RollOperand\",",
   chars!"\t\t\t\t\t\t\t},",
   chars!"\t\t\t\t\t\t},",
   chars!"\t\t\t\t\t\t&ruleRefExpr{",
   chars!"\t\t\t\t\t\t\tpos:  position{line: 314, col: 49, offset: 7506},",
   chars!"\t\t\t\t\t\t\tname: \"IncRandCount\",",
   chars!"\t\t\t\t\t\t},",
   chars!"\t\t\t\t\t},",
   chars!"\t\t\t\t},",
   chars!"\t\t\t},",
   chars!"\t\t},"]

/-- pkg/core/parser/parser.go:1596-1633 -/
def goRuleRRoll : List Str :=
  [chars!"\t\t{",
   chars!"\t\t\tname: \"RRoll\",",
   chars!"\t\t\tpos:  position{line: 321, col: 1, offset: 7629},",
   chars!"\t\t\texpr: &actionExpr{",
   chars!"\t\t\t\tpos: position{line: 321, col: 10, offset: 7638},",
   chars!"\t\t\t\trun: (*parser).callonRRoll1,",
   chars!"\t\t\t\texpr: &seqExpr{",
   chars!"\t\t\t\t\tpos: position{line: 321, col: 10, offset: 7638},",
   chars!"\t\t\t\t\texprs: []interface{}{",
   chars!"\t\t\t\t\t\t&labeledExpr{",
   chars!"\t\t\t\t\t\t\tpos:   position{line: 321, col: 10, offset: 7638},",
   chars!"\t\t\t\t\t\t\tlabel: \"num\",",
   chars!"\t\t\t\t\t\t\texpr: &ruleRefExpr{",
   chars!"\t\t\t\t\t\t\t\tpos:  position{line: 321, col: 14, offset: 7642},",
   chars!"\t\t\t\t\t\t\t\tname: \"RollOperand\",",
   chars!"\t\t\t\t\t\t\t},",
   chars!"\t\t\t\t\t\t},",
   chars!"\t\t\t\t\t\t&litMatcher{",
   chars!"\t\t\t\t\t\t\tpos:        position{line: 321, col: 26, offset: 7654},",
   chars!"\t\t\t\t\t\t\tval:        \"r\",",
   chars!"\t\t\t\t\t\t\tignoreCase: true,",
   chars!"\t\t\t\t\t\t},",
   chars!"\t\t\t\t\t\t&labeledExpr{",
   chars!"\t\t\t\t\t\t\tpos:   position{line: 321, col: 31, offset: 7659},",
   chars!"\t\t\t\t\t\t\tlabel: \"sides\",",
   chars!"\t\t\t\t\t\t\texpr: &ruleRefExpr{",
   chars!"\t\t\t\t\t\t\t\tpos:  position{line: 321, col: 37, offset: 7665},",
   chars!"\t\t\t\t\t\t\t\tname: \"RollOperand\",",
   chars!"\t\t\t\t\t\t\t},",
   chars!"\t\t\t\t\t\t},",
   chars!"\t\t\t\t\t\t&ruleRefExpr{",
   chars!"\t\t\t\t\t\t\tpos:  position{line: 321, col: 49, offset: 7677},",
   chars!"\t\t\t\t\t\t\tname: \"IncRandCount\",",
   chars!"\t\t\t\t\t\t},",
   chars!"\t\t\t\t\t},",
   chars!"\t\t\t\t},",
   chars!"\t\t\t},",
   chars!"\t\t},"]

/-- pkg/core/parser/parser.go:1634-1671 -/
def goRuleURoll : List Str :=
  [chars!"\t\t{",
   chars!"\t\t\tname: \"URoll\",",
   chars!"\t\t\tpos:  position{line: 328, col: 1, offset: 7800},",
   chars!"\t\t\texpr: &actionExpr{",
   chars!"\t\t\t\tpos: position{line: 328, col: 10, offset: 7809},",
   chars!"\t\t\t\trun: (*parser).callonURoll1,",
   chars!"\t\t\t\texpr: &seqExpr{",
   chars!"\t\t\t\t\tpos: position{line: 328, col: 10, offset: 7809},",
   chars!"\t\t\t\t\texprs: []interface{}{",
   chars!"\t\t\t\t\t\t&labeledExpr{",
   chars!"\t\t\t\t\t\t\tpos:   position{line: 328, col: 10, offset: 7809},",
   chars!"\t\t\t\t\t\t\tlabel: \"num\",",
   chars!"\t\t\t\t\t\t\texpr: &ruleRefExpr{",
   chars!"\t\t\t\t\t\t\t\tpos:  position{line: 328, col: 14, offset: 7813},",
   chars!"\t\t\t\t\t\t\t\tname: \"RollOperand\",",
   chars!"\t\t\t\t\t\t\t},",
   chars!"\t\t\t\t\t\t},",
   chars!"\t\t\t\t\t\t&litMatcher{",
   chars!"\t\t\t\t\t\t\tpos:        position{line: 328, col: 26, offset: 7825},",
   chars!"\t\t\t\t\t\t\tval:        \"u\",",
   chars!"\t\t\t\t\t\t\tignoreCase: true,",
   chars!"\t\t\t\t\t\t},",
   chars!"\t\t\t\t\t\t&labeledExpr{",
   chars!"\t\t\t\t\t\t\tpos:   position{line: 328, col: 31, offset: 7830},",
   chars!"\t\t\t\t\t\t\tlabel: \"sides\",",
   chars!"\t\t\t\t\t\t\texpr: &ruleRefExpr{",
   chars!"\t\t\t\t\t\t\t\tpos:  position{line: 328, col: 37, offset: 7836},",
   chars!"\t\t\t\t\t\t\t\tname: \"RollOperand\",",
   chars!"\t\t\t\t\t\t\t},",
   chars!"\t\t\t\t\t\t},",
   chars!"\t\t\t\t\t\t&ruleRefExpr{",
   chars!"\t\t\t\t\t\t\tpos:  position{line: 328, col: 49, offset: 7848},",
   chars!"\t\t\t\t\t\t\tname: \"IncRandCount\",",
   chars!"\t\t\t\t\t\t},",
   chars!"\t\t\t\t\t},",
   chars!"\t\t\t\t},",
   chars!"\t\t\t},",
   chars!"\t\t},"]

/-- pkg/core/parser/parser.go:1672-1692 -/
def goRuleRollOperand : List Str :=
  [chars!"\t\t{",
   chars!"\t\t\tname: \"RollOperand\",",
   chars!"\t\t\tpos:  position{line: 335, col: 1, offset: 7971},",
   chars!"\t\t\texpr: &choiceExpr{",
   chars!"\t\t\t\tpos: position{line: 335, col: 16, offset: 7986},",
   chars!"\t\t\t\talternatives: []interface{}{",
   chars!"\t\t\t\t\t&ruleRefExpr{",
   chars!"\t\t\t\t\t\tpos:  position{line: 335, col: 16, offset: 7986},",
   chars!"\t\t\t\t\t\tname: \"Integer\",",
   chars!"\t\t\t\t\t},",
   chars!"\t\t\t\t\t&ruleRefExpr{",
   chars!"\t\t\t\t\t\tpos:  position{line: 335, col: 26, offset: 7996},",
   chars!"\t\t\t\t\t\tname: \"RandomNumber\",",
   chars!"\t\t\t\t\t},",
   chars!"\t\t\t\t\t&ruleRefExpr{",
   chars!"\t\t\t\t\t\tpos:  position{line: 335, col: 41, offset: 8011},",
   chars!"\t\t\t\t\t\tname: \"ParenthesizedIntRandExpr\",",
   chars!"\t\t\t\t\t},",
   chars!"\t\t\t\t},",
   chars!"\t\t\t},",
   chars!"\t\t},"]

/-- pkg/core/parser/parser.go:1693-1740 -/
def goRuleRandomNumber : List Str :=
  [chars!"\t\t{",
   chars!"\t\t\tname: \"RandomNumber\",",
   chars!"\t\t\tpos:  position{line: 337, col: 1, offset: 8037},",
   chars!"\t\t\texpr: &actionExpr{",
   chars!"\t\t\t\tpos: position{line: 337, col: 17, offset: 8053},",
   chars!"\t\t\t\trun: (*parser).callonRandomNumber1,",
   chars!"\t\t\t\texpr: &seqExpr{",
   chars!"\t\t\t\t\tpos: position{line: 337, col: 17, offset: 8053},",
   chars!"\t\t\t\t\texprs: []interface{}{",
   chars!"\t\t\t\t\t\t&litMatcher{",
   chars!"\t\t\t\t\t\t\tpos:        position{line: 337, col: 17, offset: 8053},",
   chars!"\t\t\t\t\t\t\tval:        \"[\",",
   chars!"\t\t\t\t\t\t\tignoreCase: false,",
   chars!"\t\t\t\t\t\t},",
   chars!"\t\t\t\t\t\t&labeledExpr{",
   chars!"\t\t\t\t\t\t\tpos:   position{line: 337, col: 21, offset: 8057},",
   chars!"\t\t\t\t\t\t\tlabel: \"min\",",
   chars!"\t\t\t\t\t\t\texpr: &ruleRefExpr{",
   chars!"\t\t\t\t\t\t\t\tpos:  position{line: 337, col: 25, offset: 8061},",
   chars!"\t\t\t\t\t\t\t\tname: \"RandomNumberOperand\",",
   chars!"\t\t\t\t\t\t\t},",
   chars!"\t\t\t\t\t\t},",
   chars!"\t\t\t\t\t\t&litMatcher{",
   chars!"\t\t\t\t\t\t\tpos:        position{line: 337, col: 45, offset: 8081},",
   chars!"\t\t\t\t\t\t\tval:        \"...\",",
   chars!"\t\t\t\t\t\t\tignoreCase: false,",
   chars!"\t\t\t\t\t\t},",
   chars!"\t\t\t\t\t\t&labeledExpr{",
   chars!"\t\t\t\t\t\t\tpos:   position{line: 337, col: 51, offset: 8087},",
   chars!"\t\t\t\t\t\t\tlabel: \"max\",",
   chars!"\t\t\t\t\t\t\texpr: &ruleRefExpr{",
   chars!"\t\t\t\t\t\t\t\tpos:  position{line: 337, col: 55, offset: 8091},",
   chars!"\t\t\t\t\t\t\t\tname: \"RandomNumberOperand\",",
   chars!"\t\t\t\t\t\t\t},",
   chars!"\t\t\t\t\t\t},",
   chars!"\t\t\t\t\t\t&litMatcher{",
   chars!"\t\t\t\t\t\t\tpos:        position{line: 337, col: 75, offset: 8111},",
   chars!"\t\t\t\t\t\t\tval:        \"]\",",
   chars!"\t\t\t\t\t\t\tignoreCase: false,",
   chars!"\t\t\t\t\t\t},",
   chars!"\t\t\t\t\t\t&ruleRefExpr{",
   chars!"\t\t\t\t\t\t\tpos:  position{line: 337, col: 79, offset: 8115},",
   chars!"\t\t\t\t\t\t\tname: \"IncRandCount\",",
   chars!"\t\t\t\t\t\t},",
   chars!"\t\t\t\t\t},",
   chars!"\t\t\t\t},",
   chars!"\t\t\t},",
   chars!"\t\t},"]

/-- pkg/core/parser/parser.go:1741-1757 -/
def goRuleRandomNumberOperand : List Str :=
  [chars!"\t\t{",
   chars!"\t\t\tname: \"RandomNumberOperand\",",
   chars!"\t\t\tpos:  position{line: 344, col: 1, offset: 8239},",
   chars!"\t\t\texpr: &choiceExpr{",
   chars!"\t\t\t\tpos: position{line: 344, col: 24, offset: 8262},",
   chars!"\t\t\t\talternatives: []interface{}{",
   chars!"\t\t\t\t\t&ruleRefExpr{",
   chars!"\t\t\t\t\t\tpos:  position{line: 344, col: 24, offset: 8262},",
   chars!"\t\t\t\t\t\tname: \"Integer\",",
   chars!"\t\t\t\t\t},",
   chars!"\t\t\t\t\t&ruleRefExpr{",
   chars!"\t\t\t\t\t\tpos:  position{line: 344, col: 34, offset: 8272},",
   chars!"\t\t\t\t\t\tname: \"ParenthesizedIntExpr\",",
   chars!"\t\t\t\t\t},",
   chars!"\t\t\t\t},",
   chars!"\t\t\t},",
   chars!"\t\t},"]

/-- pkg/core/parser/parser.go:1758-1765 -/
def goRuleResetRandCount : List Str :=
  [chars!"\t\t{",
   chars!"\t\t\tname: \"ResetRandCount\",",
   chars!"\t\t\tpos:  position{line: 346, col: 1, offset: 8294},",
   chars!"\t\t\texpr: &stateCodeExpr{",
   chars!"\t\t\t\tpos: position{line: 346, col: 19, offset: 8312},",
   chars!"\t\t\t\trun: (*parser).callonResetRandCount1,",
   chars!"\t\t\t},",
   chars!"\t\t},"]

/-- pkg/core/parser/parser.go:1766-1773 -/
def goRuleIncRandCount : List Str :=
  [chars!"\t\t{",
   chars!"\t\t\tname: \"IncRandCount\",",
   chars!"\t\t\tpos:  position{line: 351, col: 1, offset: 8356},",
   chars!"\t\t\texpr: &stateCodeExpr{",
   chars!"\t\t\t\tpos: position{line: 351, col: 17, offset: 8372},",
   chars!"\t\t\t\trun: (*parser).callonIncRandCount1,",
   chars!"\t\t\t},",
   chars!"\t\t},"]

/-- pkg/core/parser/parser.go:1774-1791 -/
def goRuleInteger : List Str :=
  [chars!"\t\t{",
   chars!"\t\t\tname: \"Integer\",",
   chars!"\t\t\tpos:  position{line: 356, col: 1, offset: 8445},",
   chars!"\t\t\texpr: &actionExpr{",
   chars!"\t\t\t\tpos: position{line: 356, col: 12, offset: 8456},",
   chars!"\t\t\t\trun: (*parser).callonInteger1,",
   chars!"\t\t\t\texpr: &oneOrMoreExpr{",
   chars!"\t\t\t\t\tpos: position{line: 356, col: 12, offset: 8456},",
   chars!"\t\t\t\t\texpr: &charClassMatcher{",
   chars!"\t\t\t\t\t\tpos:        position{line: 356, col: 12, offset: 8456},",
   chars!"\t\t\t\t\t\tval:        \"[0-9]\",",
   chars!"\t\t\t\t\t\tranges:     []rune{'0', '9'},",
   chars!"\t\t\t\t\t\tignoreCase: false,",
   chars!"\t\t\t\t\t\tinverted:   false,",
   chars!"\t\t\t\t\t},",
   chars!"\t\t\t\t},",
   chars!"\t\t\t},",
   chars!"\t\t},"]

/-- pkg/core/parser/parser.go:1792-1830 -/
def goRuleCompareOp : List Str :=
  [chars!"\t\t{",
   chars!"\t\t\tname: \"CompareOp\",",
   chars!"\t\t\tpos:  position{line: 365, col: 1, offset: 8625},",
   chars!"\t\t\texpr: &choiceExpr{",
   chars!"\t\t\t\tpos: position{line: 365, col: 14, offset: 8638},",
   chars!"\t\t\t\talternatives: []interface{}{",
   chars!"\t\t\t\t\t&litMatcher{",
   chars!"\t\t\t\t\t\tpos:        position{line: 365, col: 14, offset: 8638},",
   chars!"\t\t\t\t\t\tval:        \"=\",",
   chars!"\t\t\t\t\t\tignoreCase: false,",
   chars!"\t\t\t\t\t},",
   chars!"\t\t\t\t\t&litMatcher{",
   chars!"\t\t\t\t\t\tpos:        position{line: 365, col: 20, offset: 8644},",
   chars!"\t\t\t\t\t\tval:        \"<>\",",
   chars!"\t\t\t\t\t\tignoreCase: false,",
   chars!"\t\t\t\t\t},",
   chars!"\t\t\t\t\t&litMatcher{",
   chars!"\t\t\t\t\t\tpos:        position{line: 365, col: 27, offset: 8651},",
   chars!"\t\t\t\t\t\tval:        \"<=\",",
   chars!"\t\t\t\t\t\tignoreCase: false,",
   chars!"\t\t\t\t\t},",
   chars!"\t\t\t\t\t&litMatcher{",
   chars!"\t\t\t\t\t\tpos:        position{line: 365, col: 34, offset: 8658},",
   chars!"\t\t\t\t\t\tval:        \"<\",",
   chars!"\t\t\t\t\t\tignoreCase: false,",
   chars!"\t\t\t\t\t},",
   chars!"\t\t\t\t\t&litMatcher{",
   chars!"\t\t\t\t\t\tpos:        position{line: 365, col: 40, offset: 8664},",
   chars!"\t\t\t\t\t\tval:        \">=\",",
   chars!"\t\t\t\t\t\tignoreCase: false,",
   chars!"\t\t\t\t\t},",
   chars!"\t\t\t\t\t&litMatcher{",
   chars!"\t\t\t\t\t\tpos:        position{line: 365, col: 47, offset: 8671},",
   chars!"\t\t\t\t\t\tval:        \">\",",
   chars!"\t\t\t\t\t\tignoreCase: false,",
   chars!"\t\t\t\t\t},",
   chars!"\t\t\t\t},",
   chars!"\t\t\t},",
   chars!"\t\t},"]

/-- pkg/core/parser/parser.go:1831-1840 -/
def goRuleEOT : List Str :=
  [chars!"\t\t{",
   chars!"\t\t\tname: \"EOT\",",
   chars!"\t\t\tpos:  position{line: 367, col: 1, offset: 8676},",
   chars!"\t\t\texpr: &notExpr{",
   chars!"\t\t\t\tpos: position{line: 367, col: 8, offset: 8683},",
   chars!"\t\t\t\texpr: &anyMatcher{",
   chars!"\t\t\t\t\tline: 367, col: 9, offset: 8684,",
   chars!"\t\t\t\t},",
   chars!"\t\t\t},",
   chars!"\t\t},"]

/-- The lines of the table `var g` (pkg/core/parser/parser.go:81-1842), rule by rule. -/
def goRulePieces : List (List Str) :=
  [goRuleCommand, goRuleCommandWithExpression, goRuleChoice, goRuleChoiceItems, goRuleChoiceItem,
   goRuleChoiceItemChars, goRuleCalc, goRuleDRollExprCommand, goRuleDRollCompCommand, goRuleBRollList,
   goRuleBRollComp, goRuleRRollList, goRuleRRollComp, goRuleURollComp, goRuleURollExpr, goRuleURollList,
   goRuleIntExpr, goRuleIntExprAdditive, goRuleIntExprMultitive, goRuleIntExprPrimary,
   goRuleParenthesizedIntExpr, goRuleIntExprUnaryPlus, goRuleIntExprUnaryMinus, goRuleDRollComp,
   goRuleDRollExpr, goRuleDRollExprAdditive, goRuleDRollExprMultitive, goRuleDRollExprPrimary,
   goRuleParenthesizedDRollExpr, goRuleDRollExprUnaryPlus, goRuleDRollExprUnaryMinus, goRuleIntRandExpr,
   goRuleIntRandExprAdditive, goRuleIntRandExprMultitive, goRuleIntRandExprPrimary,
   goRuleParenthesizedIntRandExpr, goRuleIntRandExprUnaryPlus, goRuleIntRandExprUnaryMinus, goRuleDRoll,
   goRuleBRoll, goRuleRRoll, goRuleURoll, goRuleRollOperand, goRuleRandomNumber,
   goRuleRandomNumberOperand, goRuleResetRandCount, goRuleIncRandCount, goRuleInteger, goRuleCompareOp,
   goRuleEOT]

/-- pkg/core/parser/parser.go:23-80 -/
def goHelpers : List Str :=
  [chars!"// toIfaceSlice は、vを任意の型のスライスに変換する。",
   chars!"func toIfaceSlice(v interface{}) []interface{} {",
   chars!"\tif v == nil {",
   chars!"\t\treturn nil",
   chars!"\t}",
   chars!"\treturn v.([]interface{})",
   chars!"}",
   [],
   chars!"// leftAssociativeAdditive は、複数の加算/減算項からなる抽象構文木を作る。",
   chars!"func leftAssociativeAdditive(first interface{}, rest interface{}) (ast.Node, error) {",
   chars!"\tlastNode := first.(ast.Node)",
   chars!"\tfor _, r := range toIfaceSlice(rest) {",
   chars!"\t\trs := toIfaceSlice(r)",
   chars!"\t\top := string(rs[0].([]byte))",
   chars!"\t\tright := rs[1].(ast.Node)",
   [],
   chars!"\t\tswitch op {",
   chars!"\t\tcase \"+\":",
   chars!"\t\t\tlastNode = ast.NewAdd(lastNode, right)",
   chars!"\t\tcase \"-\":",
   chars!"\t\t\tlastNode = ast.NewSubtract(lastNode, right)",
   chars!"\t\t}",
   chars!"\t}",
   [],
   chars!"\treturn lastNode, nil",
   chars!"}",
   [],
   chars!"// leftAssociativeAdditive は、複数の乗算/除算項からなる抽象構文木を作る。",
   chars!"func leftAssociativeMultitive(first interface{}, rest interface{}) (ast.Node, error) {",
   chars!"\tlastNode := first.(ast.Node)",
   chars!"\tfor _, r := range toIfaceSlice(rest) {",
   chars!"\t\trs := toIfaceSlice(r)",
   chars!"\t\top := string(rs[0].([]byte))",
   chars!"\t\tright := rs[1].(ast.Node)",
   [],
   chars!"\t\troundingMethod := \"\"",
   chars!"\t\tif len(rs) >= 3 {",
   chars!"\t\t\troundingMethod = strings.ToUpper(string(rs[2].([]byte)))",
   chars!"\t\t}",
   [],
   chars!"\t\tswitch op {",
   chars!"\t\tcase \"*\":",
   chars!"\t\t\tlastNode = ast.NewMultiply(lastNode, right)",
   chars!"\t\tcase \"/\":",
   chars!"\t\t\tswitch roundingMethod {",
   chars!"\t\t\tcase \"U\":",
   chars!"\t\t\t\tlastNode = ast.NewDivideWithRoundingUp(lastNode, right)",
   chars!"\t\t\tcase \"R\":",
   chars!"\t\t\t\tlastNode = ast.NewDivideWithRounding(lastNode, right)",
   chars!"\t\t\tcase \"\":",
   chars!"\t\t\t\tlastNode = ast.NewDivideWithRoundingDown(lastNode, right)",
   chars!"\t\t\t}",
   chars!"\t\t}",
   chars!"\t}",
   [],
   chars!"\treturn lastNode, nil",
   chars!"}",
   []]

/-- pkg/core/parser/parser.go:1844-1853 -/
def goFuncCommand1 : List Str :=
  [chars!"func (c *current) onCommand1(n interface{}) (interface{}, error) {",
   chars!"\treturn n, nil",
   chars!"}",
   [],
   chars!"func (p *parser) callonCommand1() (interface{}, error) {",
   chars!"\tstack := p.vstack[len(p.vstack)-1]",
   chars!"\t_ = stack",
   chars!"\treturn p.cur.onCommand1(stack[\"n\"])",
   chars!"}",
   []]

/-- pkg/core/parser/parser.go:1854-1863 -/
def goFuncCommandWithExpression1 : List Str :=
  [chars!"func (c *current) onCommandWithExpression1(n interface{}) (interface{}, error) {",
   chars!"\treturn n, nil",
   chars!"}",
   [],
   chars!"func (p *parser) callonCommandWithExpression1() (interface{}, error) {",
   chars!"\tstack := p.vstack[len(p.vstack)-1]",
   chars!"\t_ = stack",
   chars!"\treturn p.cur.onCommandWithExpression1(stack[\"n\"])",
   chars!"}",
   []]

/-- pkg/core/parser/parser.go:1864-1873 -/
def goFuncChoice1 : List Str :=
  [chars!"func (c *current) onChoice1(items interface{}) (interface{}, error) {",
   chars!"\treturn items, nil",
   chars!"}",
   [],
   chars!"func (p *parser) callonChoice1() (interface{}, error) {",
   chars!"\tstack := p.vstack[len(p.vstack)-1]",
   chars!"\t_ = stack",
   chars!"\treturn p.cur.onChoice1(stack[\"items\"])",
   chars!"}",
   []]

/-- pkg/core/parser/parser.go:1874-1893 -/
def goFuncChoiceItems1 : List Str :=
  [chars!"func (c *current) onChoiceItems1(first, rest interface{}) (interface{}, error) {",
   chars!"\tfirstString := first.(*ast.String)",
   chars!"\tchoice := ast.NewChoice(firstString)",
   [],
   chars!"\tfor _, r := range toIfaceSlice(rest) {",
   chars!"\t\trs := toIfaceSlice(r)",
   chars!"\t\ti := rs[1].(*ast.String)",
   [],
   chars!"\t\tchoice.Append(i)",
   chars!"\t}",
   [],
   chars!"\treturn choice, nil",
   chars!"}",
   [],
   chars!"func (p *parser) callonChoiceItems1() (interface{}, error) {",
   chars!"\tstack := p.vstack[len(p.vstack)-1]",
   chars!"\t_ = stack",
   chars!"\treturn p.cur.onChoiceItems1(stack[\"first\"], stack[\"rest\"])",
   chars!"}",
   []]

/-- pkg/core/parser/parser.go:1894-1903 -/
def goFuncChoiceItem1 : List Str :=
  [chars!"func (c *current) onChoiceItem1(s interface{}) (interface{}, error) {",
   chars!"\treturn s, nil",
   chars!"}",
   [],
   chars!"func (p *parser) callonChoiceItem1() (interface{}, error) {",
   chars!"\tstack := p.vstack[len(p.vstack)-1]",
   chars!"\t_ = stack",
   chars!"\treturn p.cur.onChoiceItem1(stack[\"s\"])",
   chars!"}",
   []]

/-- pkg/core/parser/parser.go:1904-1913 -/
def goFuncChoiceItemChars1 : List Str :=
  [chars!"func (c *current) onChoiceItemChars1() (interface{}, error) {",
   chars!"\treturn ast.NewString(strings.TrimSpace(string(c.text))), nil",
   chars!"}",
   [],
   chars!"func (p *parser) callonChoiceItemChars1() (interface{}, error) {",
   chars!"\tstack := p.vstack[len(p.vstack)-1]",
   chars!"\t_ = stack",
   chars!"\treturn p.cur.onChoiceItemChars1()",
   chars!"}",
   []]

/-- pkg/core/parser/parser.go:1914-1923 -/
def goFuncCalc1 : List Str :=
  [chars!"func (c *current) onCalc1(expr interface{}) (interface{}, error) {",
   chars!"\treturn ast.NewCalc(expr.(ast.Node)), nil",
   chars!"}",
   [],
   chars!"func (p *parser) callonCalc1() (interface{}, error) {",
   chars!"\tstack := p.vstack[len(p.vstack)-1]",
   chars!"\t_ = stack",
   chars!"\treturn p.cur.onCalc1(stack[\"expr\"])",
   chars!"}",
   []]

/-- pkg/core/parser/parser.go:1924-1937 -/
def goFuncDRollExprCommand1 : List Str :=
  [chars!"func (c *current) onDRollExprCommand1(expr interface{}) (interface{}, error) {",
   chars!"\tif c.state[\"RandCount\"].(int) < 1 {",
   chars!"\t\treturn nil, fmt.Errorf(\"random element not found\")",
   chars!"\t}",
   [],
   chars!"\treturn ast.NewDRollExpr(expr.(ast.Node)), nil",
   chars!"}",
   [],
   chars!"func (p *parser) callonDRollExprCommand1() (interface{}, error) {",
   chars!"\tstack := p.vstack[len(p.vstack)-1]",
   chars!"\t_ = stack",
   chars!"\treturn p.cur.onDRollExprCommand1(stack[\"expr\"])",
   chars!"}",
   []]

/-- pkg/core/parser/parser.go:1938-1951 -/
def goFuncDRollCompCommand1 : List Str :=
  [chars!"func (c *current) onDRollCompCommand1(expr interface{}) (interface{}, error) {",
   chars!"\tif c.state[\"RandCount\"].(int) < 1 {",
   chars!"\t\treturn nil, fmt.Errorf(\"random element not found\")",
   chars!"\t}",
   [],
   chars!"\treturn ast.NewDRollComp(expr.(ast.Node)), nil",
   chars!"}",
   [],
   chars!"func (p *parser) callonDRollCompCommand1() (interface{}, error) {",
   chars!"\tstack := p.vstack[len(p.vstack)-1]",
   chars!"\t_ = stack",
   chars!"\treturn p.cur.onDRollCompCommand1(stack[\"expr\"])",
   chars!"}",
   []]

/-- pkg/core/parser/parser.go:1952-1969 -/
def goFuncBRollList1 : List Str :=
  [chars!"func (c *current) onBRollList1(first, rest interface{}) (interface{}, error) {",
   chars!"\tbRollList := ast.NewBRollList(first.(*ast.VariableInfixExpression))",
   [],
   chars!"\tfor _, r := range toIfaceSlice(rest) {",
   chars!"\t\trs := toIfaceSlice(r)",
   chars!"\t\tb := rs[1].(*ast.VariableInfixExpression)",
   chars!"\t\tbRollList.Append(b)",
   chars!"\t}",
   [],
   chars!"\treturn bRollList, nil",
   chars!"}",
   [],
   chars!"func (p *parser) callonBRollList1() (interface{}, error) {",
   chars!"\tstack := p.vstack[len(p.vstack)-1]",
   chars!"\t_ = stack",
   chars!"\treturn p.cur.onBRollList1(stack[\"first\"], stack[\"rest\"])",
   chars!"}",
   []]

/-- pkg/core/parser/parser.go:1970-1985 -/
def goFuncBRollComp1 : List Str :=
  [chars!"func (c *current) onBRollComp1(left, op, right interface{}) (interface{}, error) {",
   chars!"\treturn ast.NewBRollComp(",
   chars!"\t\tast.NewCompare(",
   chars!"\t\t\tleft.(ast.Node),",
   chars!"\t\t\tstring(op.([]byte)),",
   chars!"\t\t\tright.(ast.Node),",
   chars!"\t\t),",
   chars!"\t), nil",
   chars!"}",
   [],
   chars!"func (p *parser) callonBRollComp1() (interface{}, error) {",
   chars!"\tstack := p.vstack[len(p.vstack)-1]",
   chars!"\t_ = stack",
   chars!"\treturn p.cur.onBRollComp1(stack[\"left\"], stack[\"op\"], stack[\"right\"])",
   chars!"}",
   []]

/-- pkg/core/parser/parser.go:1986-2010 -/
def goFuncRRollList1 : List Str :=
  [chars!"func (c *current) onRRollList1(first, rest, th interface{}) (interface{}, error) {",
   chars!"\tths := toIfaceSlice(th)",
   [],
   chars!"\tvar threshold ast.Node = ast.NilInstance()",
   chars!"\tif ths != nil {",
   chars!"\t\tthreshold = ths[1].(ast.Node)",
   chars!"\t}",
   [],
   chars!"\trRollList := ast.NewRRollList(first.(*ast.VariableInfixExpression), threshold)",
   [],
   chars!"\tfor _, r := range toIfaceSlice(rest) {",
   chars!"\t\trs := toIfaceSlice(r)",
   chars!"\t\trr := rs[1].(*ast.VariableInfixExpression)",
   chars!"\t\trRollList.Append(rr)",
   chars!"\t}",
   [],
   chars!"\treturn rRollList, nil",
   chars!"}",
   [],
   chars!"func (p *parser) callonRRollList1() (interface{}, error) {",
   chars!"\tstack := p.vstack[len(p.vstack)-1]",
   chars!"\t_ = stack",
   chars!"\treturn p.cur.onRRollList1(stack[\"first\"], stack[\"rest\"], stack[\"th\"])",
   chars!"}",
   []]

/-- pkg/core/parser/parser.go:2011-2026 -/
def goFuncRRollComp1 : List Str :=
  [chars!"func (c *current) onRRollComp1(left, op, right interface{}) (interface{}, error) {",
   chars!"\treturn ast.NewRRollComp(",
   chars!"\t\tast.NewCompare(",
   chars!"\t\t\tleft.(ast.Node),",
   chars!"\t\t\tstring(op.([]byte)),",
   chars!"\t\t\tright.(ast.Node),",
   chars!"\t\t),",
   chars!"\t), nil",
   chars!"}",
   [],
   chars!"func (p *parser) callonRRollComp1() (interface{}, error) {",
   chars!"\tstack := p.vstack[len(p.vstack)-1]",
   chars!"\t_ = stack",
   chars!"\treturn p.cur.onRRollComp1(stack[\"left\"], stack[\"op\"], stack[\"right\"])",
   chars!"}",
   []]

/-- pkg/core/parser/parser.go:2027-2042 -/
def goFuncURollComp1 : List Str :=
  [chars!"func (c *current) onURollComp1(left, op, right interface{}) (interface{}, error) {",
   chars!"\treturn ast.NewURollComp(",
   chars!"\t\tast.NewCompare(",
   chars!"\t\t\tleft.(ast.Node),",
   chars!"\t\t\tstring(op.([]byte)),",
   chars!"\t\t\tright.(ast.Node),",
   chars!"\t\t),",
   chars!"\t), nil",
   chars!"}",
   [],
   chars!"func (p *parser) callonURollComp1() (interface{}, error) {",
   chars!"\tstack := p.vstack[len(p.vstack)-1]",
   chars!"\t_ = stack",
   chars!"\treturn p.cur.onURollComp1(stack[\"left\"], stack[\"op\"], stack[\"right\"])",
   chars!"}",
   []]

/-- pkg/core/parser/parser.go:2043-2069 -/
def goFuncURollExpr1 : List Str :=
  [chars!"func (c *current) onURollExpr1(uRollList, bonus interface{}) (interface{}, error) {",
   chars!"\tbonusSlice := toIfaceSlice(bonus)",
   [],
   chars!"\tvar bonusNode ast.InfixExpression = nil",
   chars!"\tif bonusSlice != nil {",
   chars!"\t\top := string(bonusSlice[0].([]byte))",
   chars!"\t\tright := bonusSlice[1].(ast.Node)",
   [],
   chars!"\t\tswitch op {",
   chars!"\t\tcase \"+\":",
   chars!"\t\t\tbonusNode = ast.NewAdd(ast.NewInt(0), right)",
   chars!"\t\tcase \"-\":",
   chars!"\t\t\tbonusNode = ast.NewSubtract(ast.NewInt(0), right)",
   chars!"\t\tdefault:",
   chars!"\t\t\treturn nil, fmt.Errorf(\"unknown operator: %s\", op)",
   chars!"\t\t}",
   chars!"\t}",
   [],
   chars!"\treturn ast.NewURollExpr(uRollList.(*ast.RRollList), bonusNode), nil",
   chars!"}",
   [],
   chars!"func (p *parser) callonURollExpr1() (interface{}, error) {",
   chars!"\tstack := p.vstack[len(p.vstack)-1]",
   chars!"\t_ = stack",
   chars!"\treturn p.cur.onURollExpr1(stack[\"uRollList\"], stack[\"bonus\"])",
   chars!"}",
   []]

/-- pkg/core/parser/parser.go:2070-2094 -/
def goFuncURollList1 : List Str :=
  [chars!"func (c *current) onURollList1(first, rest, th interface{}) (interface{}, error) {",
   chars!"\tths := toIfaceSlice(th)",
   [],
   chars!"\tvar threshold ast.Node = ast.NilInstance()",
   chars!"\tif ths != nil {",
   chars!"\t\tthreshold = ths[1].(ast.Node)",
   chars!"\t}",
   [],
   chars!"\tuRollList := ast.NewRRollList(first.(*ast.VariableInfixExpression), threshold)",
   [],
   chars!"\tfor _, r := range toIfaceSlice(rest) {",
   chars!"\t\trs := toIfaceSlice(r)",
   chars!"\t\trr := rs[1].(*ast.VariableInfixExpression)",
   chars!"\t\tuRollList.Append(rr)",
   chars!"\t}",
   [],
   chars!"\treturn uRollList, nil",
   chars!"}",
   [],
   chars!"func (p *parser) callonURollList1() (interface{}, error) {",
   chars!"\tstack := p.vstack[len(p.vstack)-1]",
   chars!"\t_ = stack",
   chars!"\treturn p.cur.onURollList1(stack[\"first\"], stack[\"rest\"], stack[\"th\"])",
   chars!"}",
   []]

/-- pkg/core/parser/parser.go:2095-2104 -/
def goFuncIntExprAdditive1 : List Str :=
  [chars!"func (c *current) onIntExprAdditive1(first, rest interface{}) (interface{}, error) {",
   chars!"\treturn leftAssociativeAdditive(first, rest)",
   chars!"}",
   [],
   chars!"func (p *parser) callonIntExprAdditive1() (interface{}, error) {",
   chars!"\tstack := p.vstack[len(p.vstack)-1]",
   chars!"\t_ = stack",
   chars!"\treturn p.cur.onIntExprAdditive1(stack[\"first\"], stack[\"rest\"])",
   chars!"}",
   []]

/-- pkg/core/parser/parser.go:2105-2114 -/
def goFuncIntExprMultitive1 : List Str :=
  [chars!"func (c *current) onIntExprMultitive1(first, rest interface{}) (interface{}, error) {",
   chars!"\treturn leftAssociativeMultitive(first, rest)",
   chars!"}",
   [],
   chars!"func (p *parser) callonIntExprMultitive1() (interface{}, error) {",
   chars!"\tstack := p.vstack[len(p.vstack)-1]",
   chars!"\t_ = stack",
   chars!"\treturn p.cur.onIntExprMultitive1(stack[\"first\"], stack[\"rest\"])",
   chars!"}",
   []]

/-- pkg/core/parser/parser.go:2115-2124 -/
def goFuncParenthesizedIntExpr1 : List Str :=
  [chars!"func (c *current) onParenthesizedIntExpr1(e interface{}) (interface{}, error) {",
   chars!"\treturn e.(ast.Node), nil",
   chars!"}",
   [],
   chars!"func (p *parser) callonParenthesizedIntExpr1() (interface{}, error) {",
   chars!"\tstack := p.vstack[len(p.vstack)-1]",
   chars!"\t_ = stack",
   chars!"\treturn p.cur.onParenthesizedIntExpr1(stack[\"e\"])",
   chars!"}",
   []]

/-- pkg/core/parser/parser.go:2125-2134 -/
def goFuncIntExprUnaryPlus1 : List Str :=
  [chars!"func (c *current) onIntExprUnaryPlus1(e interface{}) (interface{}, error) {",
   chars!"\treturn e.(ast.Node), nil",
   chars!"}",
   [],
   chars!"func (p *parser) callonIntExprUnaryPlus1() (interface{}, error) {",
   chars!"\tstack := p.vstack[len(p.vstack)-1]",
   chars!"\t_ = stack",
   chars!"\treturn p.cur.onIntExprUnaryPlus1(stack[\"e\"])",
   chars!"}",
   []]

/-- pkg/core/parser/parser.go:2135-2144 -/
def goFuncIntExprUnaryMinus1 : List Str :=
  [chars!"func (c *current) onIntExprUnaryMinus1(e interface{}) (interface{}, error) {",
   chars!"\treturn ast.NewUnaryMinus(e.(ast.Node)), nil",
   chars!"}",
   [],
   chars!"func (p *parser) callonIntExprUnaryMinus1() (interface{}, error) {",
   chars!"\tstack := p.vstack[len(p.vstack)-1]",
   chars!"\t_ = stack",
   chars!"\treturn p.cur.onIntExprUnaryMinus1(stack[\"e\"])",
   chars!"}",
   []]

/-- pkg/core/parser/parser.go:2145-2158 -/
def goFuncDRollComp1 : List Str :=
  [chars!"func (c *current) onDRollComp1(left, op, right interface{}) (interface{}, error) {",
   chars!"\treturn ast.NewCompare(",
   chars!"\t\tleft.(ast.Node),",
   chars!"\t\tstring(op.([]byte)),",
   chars!"\t\tright.(ast.Node),",
   chars!"\t), nil",
   chars!"}",
   [],
   chars!"func (p *parser) callonDRollComp1() (interface{}, error) {",
   chars!"\tstack := p.vstack[len(p.vstack)-1]",
   chars!"\t_ = stack",
   chars!"\treturn p.cur.onDRollComp1(stack[\"left\"], stack[\"op\"], stack[\"right\"])",
   chars!"}",
   []]

/-- pkg/core/parser/parser.go:2159-2168 -/
def goFuncDRollExprAdditive1 : List Str :=
  [chars!"func (c *current) onDRollExprAdditive1(first, rest interface{}) (interface{}, error) {",
   chars!"\treturn leftAssociativeAdditive(first, rest)",
   chars!"}",
   [],
   chars!"func (p *parser) callonDRollExprAdditive1() (interface{}, error) {",
   chars!"\tstack := p.vstack[len(p.vstack)-1]",
   chars!"\t_ = stack",
   chars!"\treturn p.cur.onDRollExprAdditive1(stack[\"first\"], stack[\"rest\"])",
   chars!"}",
   []]

/-- pkg/core/parser/parser.go:2169-2178 -/
def goFuncDRollExprMultitive1 : List Str :=
  [chars!"func (c *current) onDRollExprMultitive1(first, rest interface{}) (interface{}, error) {",
   chars!"\treturn leftAssociativeMultitive(first, rest)",
   chars!"}",
   [],
   chars!"func (p *parser) callonDRollExprMultitive1() (interface{}, error) {",
   chars!"\tstack := p.vstack[len(p.vstack)-1]",
   chars!"\t_ = stack",
   chars!"\treturn p.cur.onDRollExprMultitive1(stack[\"first\"], stack[\"rest\"])",
   chars!"}",
   []]

/-- pkg/core/parser/parser.go:2179-2188 -/
def goFuncParenthesizedDRollExpr1 : List Str :=
  [chars!"func (c *current) onParenthesizedDRollExpr1(e interface{}) (interface{}, error) {",
   chars!"\treturn e.(ast.Node), nil",
   chars!"}",
   [],
   chars!"func (p *parser) callonParenthesizedDRollExpr1() (interface{}, error) {",
   chars!"\tstack := p.vstack[len(p.vstack)-1]",
   chars!"\t_ = stack",
   chars!"\treturn p.cur.onParenthesizedDRollExpr1(stack[\"e\"])",
   chars!"}",
   []]

/-- pkg/core/parser/parser.go:2189-2198 -/
def goFuncDRollExprUnaryPlus1 : List Str :=
  [chars!"func (c *current) onDRollExprUnaryPlus1(e interface{}) (interface{}, error) {",
   chars!"\treturn e.(ast.Node), nil",
   chars!"}",
   [],
   chars!"func (p *parser) callonDRollExprUnaryPlus1() (interface{}, error) {",
   chars!"\tstack := p.vstack[len(p.vstack)-1]",
   chars!"\t_ = stack",
   chars!"\treturn p.cur.onDRollExprUnaryPlus1(stack[\"e\"])",
   chars!"}",
   []]

/-- pkg/core/parser/parser.go:2199-2208 -/
def goFuncDRollExprUnaryMinus1 : List Str :=
  [chars!"func (c *current) onDRollExprUnaryMinus1(e interface{}) (interface{}, error) {",
   chars!"\treturn ast.NewUnaryMinus(e.(ast.Node)), nil",
   chars!"}",
   [],
   chars!"func (p *parser) callonDRollExprUnaryMinus1() (interface{}, error) {",
   chars!"\tstack := p.vstack[len(p.vstack)-1]",
   chars!"\t_ = stack",
   chars!"\treturn p.cur.onDRollExprUnaryMinus1(stack[\"e\"])",
   chars!"}",
   []]

/-- pkg/core/parser/parser.go:2209-2218 -/
def goFuncIntRandExprAdditive1 : List Str :=
  [chars!"func (c *current) onIntRandExprAdditive1(first, rest interface{}) (interface{}, error) {",
   chars!"\treturn leftAssociativeAdditive(first, rest)",
   chars!"}",
   [],
   chars!"func (p *parser) callonIntRandExprAdditive1() (interface{}, error) {",
   chars!"\tstack := p.vstack[len(p.vstack)-1]",
   chars!"\t_ = stack",
   chars!"\treturn p.cur.onIntRandExprAdditive1(stack[\"first\"], stack[\"rest\"])",
   chars!"}",
   []]

/-- pkg/core/parser/parser.go:2219-2228 -/
def goFuncIntRandExprMultitive1 : List Str :=
  [chars!"func (c *current) onIntRandExprMultitive1(first, rest interface{}) (interface{}, error) {",
   chars!"\treturn leftAssociativeMultitive(first, rest)",
   chars!"}",
   [],
   chars!"func (p *parser) callonIntRandExprMultitive1() (interface{}, error) {",
   chars!"\tstack := p.vstack[len(p.vstack)-1]",
   chars!"\t_ = stack",
   chars!"\treturn p.cur.onIntRandExprMultitive1(stack[\"first\"], stack[\"rest\"])",
   chars!"}",
   []]

/-- pkg/core/parser/parser.go:2229-2238 -/
def goFuncParenthesizedIntRandExpr1 : List Str :=
  [chars!"func (c *current) onParenthesizedIntRandExpr1(e interface{}) (interface{}, error) {",
   chars!"\treturn e.(ast.Node), nil",
   chars!"}",
   [],
   chars!"func (p *parser) callonParenthesizedIntRandExpr1() (interface{}, error) {",
   chars!"\tstack := p.vstack[len(p.vstack)-1]",
   chars!"\t_ = stack",
   chars!"\treturn p.cur.onParenthesizedIntRandExpr1(stack[\"e\"])",
   chars!"}",
   []]

/-- pkg/core/parser/parser.go:2239-2248 -/
def goFuncIntRandExprUnaryPlus1 : List Str :=
  [chars!"func (c *current) onIntRandExprUnaryPlus1(e interface{}) (interface{}, error) {",
   chars!"\treturn e.(ast.Node), nil",
   chars!"}",
   [],
   chars!"func (p *parser) callonIntRandExprUnaryPlus1() (interface{}, error) {",
   chars!"\tstack := p.vstack[len(p.vstack)-1]",
   chars!"\t_ = stack",
   chars!"\treturn p.cur.onIntRandExprUnaryPlus1(stack[\"e\"])",
   chars!"}",
   []]

/-- pkg/core/parser/parser.go:2249-2258 -/
def goFuncIntRandExprUnaryMinus1 : List Str :=
  [chars!"func (c *current) onIntRandExprUnaryMinus1(e interface{}) (interface{}, error) {",
   chars!"\treturn ast.NewUnaryMinus(e.(ast.Node)), nil",
   chars!"}",
   [],
   chars!"func (p *parser) callonIntRandExprUnaryMinus1() (interface{}, error) {",
   chars!"\tstack := p.vstack[len(p.vstack)-1]",
   chars!"\t_ = stack",
   chars!"\treturn p.cur.onIntRandExprUnaryMinus1(stack[\"e\"])",
   chars!"}",
   []]

/-- pkg/core/parser/parser.go:2259-2271 -/
def goFuncDRoll1 : List Str :=
  [chars!"func (c *current) onDRoll1(num, sides interface{}) (interface{}, error) {",
   chars!"\tnumNode := num.(ast.Node)",
   chars!"\tsidesNode := sides.(ast.Node)",
   [],
   chars!"\treturn ast.NewDRoll(numNode, sidesNode), nil",
   chars!"}",
   [],
   chars!"func (p *parser) callonDRoll1() (interface{}, error) {",
   chars!"\tstack := p.vstack[len(p.vstack)-1]",
   chars!"\t_ = stack",
   chars!"\treturn p.cur.onDRoll1(stack[\"num\"], stack[\"sides\"])",
   chars!"}",
   []]

/-- pkg/core/parser/parser.go:2272-2284 -/
def goFuncBRoll1 : List Str :=
  [chars!"func (c *current) onBRoll1(num, sides interface{}) (interface{}, error) {",
   chars!"\tnumNode := num.(ast.Node)",
   chars!"\tsidesNode := sides.(ast.Node)",
   [],
   chars!"\treturn ast.NewBRoll(numNode, sidesNode), nil",
   chars!"}",
   [],
   chars!"func (p *parser) callonBRoll1() (interface{}, error) {",
   chars!"\tstack := p.vstack[len(p.vstack)-1]",
   chars!"\t_ = stack",
   chars!"\treturn p.cur.onBRoll1(stack[\"num\"], stack[\"sides\"])",
   chars!"}",
   []]

/-- pkg/core/parser/parser.go:2285-2297 -/
def goFuncRRoll1 : List Str :=
  [chars!"func (c *current) onRRoll1(num, sides interface{}) (interface{}, error) {",
   chars!"\tnumNode := num.(ast.Node)",
   chars!"\tsidesNode := sides.(ast.Node)",
   [],
   chars!"\treturn ast.NewRRoll(numNode, sidesNode), nil",
   chars!"}",
   [],
   chars!"func (p *parser) callonRRoll1() (interface{}, error) {",
   chars!"\tstack := p.vstack[len(p.vstack)-1]",
   chars!"\t_ = stack",
   chars!"\treturn p.cur.onRRoll1(stack[\"num\"], stack[\"sides\"])",
   chars!"}",
   []]

/-- pkg/core/parser/parser.go:2298-2310 -/
def goFuncURoll1 : List Str :=
  [chars!"func (c *current) onURoll1(num, sides interface{}) (interface{}, error) {",
   chars!"\tnumNode := num.(ast.Node)",
   chars!"\tsidesNode := sides.(ast.Node)",
   [],
   chars!"\treturn ast.NewURoll(numNode, sidesNode), nil",
   chars!"}",
   [],
   chars!"func (p *parser) callonURoll1() (interface{}, error) {",
   chars!"\tstack := p.vstack[len(p.vstack)-1]",
   chars!"\t_ = stack",
   chars!"\treturn p.cur.onURoll1(stack[\"num\"], stack[\"sides\"])",
   chars!"}",
   []]

/-- pkg/core/parser/parser.go:2311-2323 -/
def goFuncRandomNumber1 : List Str :=
  [chars!"func (c *current) onRandomNumber1(min, max interface{}) (interface{}, error) {",
   chars!"\tminNode := min.(ast.Node)",
   chars!"\tmaxNode := max.(ast.Node)",
   [],
   chars!"\treturn ast.NewRandomNumber(minNode, maxNode), nil",
   chars!"}",
   [],
   chars!"func (p *parser) callonRandomNumber1() (interface{}, error) {",
   chars!"\tstack := p.vstack[len(p.vstack)-1]",
   chars!"\t_ = stack",
   chars!"\treturn p.cur.onRandomNumber1(stack[\"min\"], stack[\"max\"])",
   chars!"}",
   []]

/-- pkg/core/parser/parser.go:2324-2334 -/
def goFuncResetRandCount1 : List Str :=
  [chars!"func (c *current) onResetRandCount1() error {",
   chars!"\tc.state[\"RandCount\"] = 0",
   chars!"\treturn nil",
   chars!"}",
   [],
   chars!"func (p *parser) callonResetRandCount1() error {",
   chars!"\tstack := p.vstack[len(p.vstack)-1]",
   chars!"\t_ = stack",
   chars!"\treturn p.cur.onResetRandCount1()",
   chars!"}",
   []]

/-- pkg/core/parser/parser.go:2335-2345 -/
def goFuncIncRandCount1 : List Str :=
  [chars!"func (c *current) onIncRandCount1() error {",
   chars!"\tc.state[\"RandCount\"] = c.state[\"RandCount\"].(int) + 1",
   chars!"\treturn nil",
   chars!"}",
   [],
   chars!"func (p *parser) callonIncRandCount1() error {",
   chars!"\tstack := p.vstack[len(p.vstack)-1]",
   chars!"\t_ = stack",
   chars!"\treturn p.cur.onIncRandCount1()",
   chars!"}",
   []]

/-- pkg/core/parser/parser.go:2346-2360 -/
def goFuncInteger1 : List Str :=
  [chars!"func (c *current) onInteger1() (interface{}, error) {",
   chars!"\ts := string(c.text)",
   [],
   chars!"\t// TODO: 整数が大きすぎるときなどのエラー処理が必要",
   chars!"\tvalue, _ := strconv.Atoi(s)",
   [],
   chars!"\treturn ast.NewInt(value), nil",
   chars!"}",
   [],
   chars!"func (p *parser) callonInteger1() (interface{}, error) {",
   chars!"\tstack := p.vstack[len(p.vstack)-1]",
   chars!"\t_ = stack",
   chars!"\treturn p.cur.onInteger1()",
   chars!"}",
   []]

/-- The lines of the functions called by the table (pkg/core/parser/parser.go:1844-2360). -/
def goFuncPieces : List (List Str) :=
  [goFuncCommand1, goFuncCommandWithExpression1, goFuncChoice1, goFuncChoiceItems1, goFuncChoiceItem1,
   goFuncChoiceItemChars1, goFuncCalc1, goFuncDRollExprCommand1, goFuncDRollCompCommand1,
   goFuncBRollList1, goFuncBRollComp1, goFuncRRollList1, goFuncRRollComp1, goFuncURollComp1,
   goFuncURollExpr1, goFuncURollList1, goFuncIntExprAdditive1, goFuncIntExprMultitive1,
   goFuncParenthesizedIntExpr1, goFuncIntExprUnaryPlus1, goFuncIntExprUnaryMinus1, goFuncDRollComp1,
   goFuncDRollExprAdditive1, goFuncDRollExprMultitive1, goFuncParenthesizedDRollExpr1,
   goFuncDRollExprUnaryPlus1, goFuncDRollExprUnaryMinus1, goFuncIntRandExprAdditive1,
   goFuncIntRandExprMultitive1, goFuncParenthesizedIntRandExpr1, goFuncIntRandExprUnaryPlus1,
   goFuncIntRandExprUnaryMinus1, goFuncDRoll1, goFuncBRoll1, goFuncRRoll1, goFuncURoll1,
   goFuncRandomNumber1, goFuncResetRandCount1, goFuncIncRandCount1, goFuncInteger1]

end GoBCDice
