import Verif.Pigeon

/-!
# The grammar table of the generated parser (generated by tools/gen_pigeon_grammar.py)

`var g = &grammar{...}` (pkg/core/parser/parser.go), translated entry by entry; positions in the
grammar file are dropped (they serve debugging and statistics only).
-/

namespace GoBCDice.Pigeon

/-- Rule `Command` (pkg/core/parser/parser.go:83). -/
def ruleCommand : PExpr :=
  .action .onCommand1
    (.seq [
      .ruleRef chars!"ResetRandCount",
      .labeled chars!"n"
        (.choice [
          .ruleRef chars!"Choice",
          .ruleRef chars!"Calc",
          .ruleRef chars!"CommandWithExpression"])])

/-- Rule `CommandWithExpression` (pkg/core/parser/parser.go:121). -/
def ruleCommandWithExpression : PExpr :=
  .action .onCommandWithExpression1
    (.seq [
      .labeled chars!"n"
        (.choice [
          .ruleRef chars!"BRollComp",
          .ruleRef chars!"BRollList",
          .ruleRef chars!"RRollComp",
          .ruleRef chars!"RRollList",
          .ruleRef chars!"URollComp",
          .ruleRef chars!"URollExpr",
          .ruleRef chars!"DRollCompCommand",
          .ruleRef chars!"DRollExprCommand"]),
      .ruleRef chars!"EOT"])

/-- Rule `Choice` (pkg/core/parser/parser.go:179). -/
def ruleChoice : PExpr :=
  .action .onChoice1
    (.seq [
      .lit chars!"choice[" true,
      .labeled chars!"items"
        (.ruleRef chars!"ChoiceItems"),
      .zeroOrOne
        (.seq [
          .lit chars!"," false,
          .zeroOrMore
            (.charClass chars!"[\\pZ]" [] [] [chars!"Z"] false false)]),
      .lit chars!"]" false])

/-- Rule `ChoiceItems` (pkg/core/parser/parser.go:233). -/
def ruleChoiceItems : PExpr :=
  .action .onChoiceItems1
    (.seq [
      .labeled chars!"first"
        (.ruleRef chars!"ChoiceItem"),
      .labeled chars!"rest"
        (.zeroOrMore
          (.seq [
            .lit chars!"," false,
            .ruleRef chars!"ChoiceItem"]))])

/-- Rule `ChoiceItem` (pkg/core/parser/parser.go:275). -/
def ruleChoiceItem : PExpr :=
  .action .onChoiceItem1
    (.seq [
      .zeroOrMore
        (.charClass chars!"[\\pZ]" [] [] [chars!"Z"] false false),
      .labeled chars!"s"
        (.ruleRef chars!"ChoiceItemChars")])

/-- Rule `ChoiceItemChars` (pkg/core/parser/parser.go:306). -/
def ruleChoiceItemChars : PExpr :=
  .action .onChoiceItemChars1
    (.oneOrMore
      (.charClass chars!"[^\\],]" [']', ','] [] [] false true))

/-- Rule `Calc` (pkg/core/parser/parser.go:324). -/
def ruleCalc : PExpr :=
  .action .onCalc1
    (.seq [
      .lit chars!"c" true,
      .lit chars!"(" false,
      .labeled chars!"expr"
        (.ruleRef chars!"IntExpr"),
      .lit chars!")" false])

/-- Rule `DRollExprCommand` (pkg/core/parser/parser.go:360). -/
def ruleDRollExprCommand : PExpr :=
  .action .onDRollExprCommand1
    (.labeled chars!"expr"
      (.ruleRef chars!"DRollExpr"))

/-- Rule `DRollCompCommand` (pkg/core/parser/parser.go:376). -/
def ruleDRollCompCommand : PExpr :=
  .action .onDRollCompCommand1
    (.labeled chars!"expr"
      (.ruleRef chars!"DRollComp"))

/-- Rule `BRollList` (pkg/core/parser/parser.go:392). -/
def ruleBRollList : PExpr :=
  .action .onBRollList1
    (.seq [
      .labeled chars!"first"
        (.ruleRef chars!"BRoll"),
      .labeled chars!"rest"
        (.zeroOrMore
          (.seq [
            .lit chars!"+" false,
            .ruleRef chars!"BRoll"]))])

/-- Rule `BRollComp` (pkg/core/parser/parser.go:434). -/
def ruleBRollComp : PExpr :=
  .action .onBRollComp1
    (.seq [
      .labeled chars!"left"
        (.ruleRef chars!"BRollList"),
      .labeled chars!"op"
        (.ruleRef chars!"CompareOp"),
      .labeled chars!"right"
        (.ruleRef chars!"IntExpr")])

/-- Rule `RRollList` (pkg/core/parser/parser.go:471). -/
def ruleRRollList : PExpr :=
  .action .onRRollList1
    (.seq [
      .labeled chars!"first"
        (.ruleRef chars!"RRoll"),
      .labeled chars!"rest"
        (.zeroOrMore
          (.seq [
            .lit chars!"+" false,
            .ruleRef chars!"RRoll"])),
      .labeled chars!"th"
        (.zeroOrOne
          (.seq [
            .lit chars!"[" false,
            .ruleRef chars!"IntExpr",
            .lit chars!"]" false]))])

/-- Rule `RRollComp` (pkg/core/parser/parser.go:539). -/
def ruleRRollComp : PExpr :=
  .action .onRRollComp1
    (.seq [
      .labeled chars!"left"
        (.ruleRef chars!"RRollList"),
      .labeled chars!"op"
        (.ruleRef chars!"CompareOp"),
      .labeled chars!"right"
        (.ruleRef chars!"IntExpr")])

/-- Rule `URollComp` (pkg/core/parser/parser.go:576). -/
def ruleURollComp : PExpr :=
  .action .onURollComp1
    (.seq [
      .labeled chars!"left"
        (.ruleRef chars!"URollExpr"),
      .labeled chars!"op"
        (.ruleRef chars!"CompareOp"),
      .labeled chars!"right"
        (.ruleRef chars!"IntExpr")])

/-- Rule `URollExpr` (pkg/core/parser/parser.go:613). -/
def ruleURollExpr : PExpr :=
  .action .onURollExpr1
    (.seq [
      .labeled chars!"uRollList"
        (.ruleRef chars!"URollList"),
      .labeled chars!"bonus"
        (.zeroOrOne
          (.seq [
            .choice [
              .lit chars!"+" false,
              .lit chars!"-" false],
            .ruleRef chars!"IntExprAdditive"]))])

/-- Rule `URollList` (pkg/core/parser/parser.go:665). -/
def ruleURollList : PExpr :=
  .action .onURollList1
    (.seq [
      .labeled chars!"first"
        (.ruleRef chars!"URoll"),
      .labeled chars!"rest"
        (.zeroOrMore
          (.seq [
            .lit chars!"+" false,
            .ruleRef chars!"URoll"])),
      .labeled chars!"th"
        (.zeroOrOne
          (.seq [
            .lit chars!"[" false,
            .ruleRef chars!"IntExpr",
            .lit chars!"]" false]))])

/-- Rule `IntExpr` (pkg/core/parser/parser.go:733). -/
def ruleIntExpr : PExpr :=
  .ruleRef chars!"IntExprAdditive"

/-- Rule `IntExprAdditive` (pkg/core/parser/parser.go:741). -/
def ruleIntExprAdditive : PExpr :=
  .action .onIntExprAdditive1
    (.seq [
      .labeled chars!"first"
        (.ruleRef chars!"IntExprMultitive"),
      .labeled chars!"rest"
        (.zeroOrMore
          (.seq [
            .choice [
              .lit chars!"+" false,
              .lit chars!"-" false],
            .ruleRef chars!"IntExprMultitive"]))])

/-- Rule `IntExprMultitive` (pkg/core/parser/parser.go:793). -/
def ruleIntExprMultitive : PExpr :=
  .action .onIntExprMultitive1
    (.seq [
      .labeled chars!"first"
        (.ruleRef chars!"IntExprPrimary"),
      .labeled chars!"rest"
        (.zeroOrMore
          (.choice [
            .seq [
              .lit chars!"/" false,
              .ruleRef chars!"IntExprPrimary",
              .charClass chars!"[ur]i" ['u', 'r'] [] [] true false],
            .seq [
              .choice [
                .lit chars!"*" false,
                .lit chars!"/" false],
              .ruleRef chars!"IntExprPrimary"]]))])

/-- Rule `IntExprPrimary` (pkg/core/parser/parser.go:871). -/
def ruleIntExprPrimary : PExpr :=
  .choice [
    .ruleRef chars!"Integer",
    .ruleRef chars!"IntExprUnaryPlus",
    .ruleRef chars!"IntExprUnaryMinus",
    .ruleRef chars!"ParenthesizedIntExpr"]

/-- Rule `ParenthesizedIntExpr` (pkg/core/parser/parser.go:896). -/
def ruleParenthesizedIntExpr : PExpr :=
  .action .onParenthesizedIntExpr1
    (.seq [
      .lit chars!"(" false,
      .labeled chars!"e"
        (.ruleRef chars!"IntExpr"),
      .lit chars!")" false])

/-- Rule `IntExprUnaryPlus` (pkg/core/parser/parser.go:927). -/
def ruleIntExprUnaryPlus : PExpr :=
  .action .onIntExprUnaryPlus1
    (.seq [
      .lit chars!"+" false,
      .labeled chars!"e"
        (.ruleRef chars!"IntExprPrimary")])

/-- Rule `IntExprUnaryMinus` (pkg/core/parser/parser.go:953). -/
def ruleIntExprUnaryMinus : PExpr :=
  .action .onIntExprUnaryMinus1
    (.seq [
      .lit chars!"-" false,
      .labeled chars!"e"
        (.ruleRef chars!"IntExprPrimary")])

/-- Rule `DRollComp` (pkg/core/parser/parser.go:979). -/
def ruleDRollComp : PExpr :=
  .action .onDRollComp1
    (.seq [
      .labeled chars!"left"
        (.ruleRef chars!"DRollExprAdditive"),
      .labeled chars!"op"
        (.ruleRef chars!"CompareOp"),
      .labeled chars!"right"
        (.ruleRef chars!"IntExpr")])

/-- Rule `DRollExpr` (pkg/core/parser/parser.go:1016). -/
def ruleDRollExpr : PExpr :=
  .ruleRef chars!"DRollExprAdditive"

/-- Rule `DRollExprAdditive` (pkg/core/parser/parser.go:1024). -/
def ruleDRollExprAdditive : PExpr :=
  .action .onDRollExprAdditive1
    (.seq [
      .labeled chars!"first"
        (.ruleRef chars!"DRollExprMultitive"),
      .labeled chars!"rest"
        (.zeroOrMore
          (.seq [
            .choice [
              .lit chars!"+" false,
              .lit chars!"-" false],
            .ruleRef chars!"DRollExprMultitive"]))])

/-- Rule `DRollExprMultitive` (pkg/core/parser/parser.go:1076). -/
def ruleDRollExprMultitive : PExpr :=
  .action .onDRollExprMultitive1
    (.seq [
      .labeled chars!"first"
        (.ruleRef chars!"DRollExprPrimary"),
      .labeled chars!"rest"
        (.zeroOrMore
          (.choice [
            .seq [
              .lit chars!"/" false,
              .ruleRef chars!"DRollExprPrimary",
              .charClass chars!"[ur]i" ['u', 'r'] [] [] true false],
            .seq [
              .choice [
                .lit chars!"*" false,
                .lit chars!"/" false],
              .ruleRef chars!"DRollExprPrimary"]]))])

/-- Rule `DRollExprPrimary` (pkg/core/parser/parser.go:1154). -/
def ruleDRollExprPrimary : PExpr :=
  .choice [
    .ruleRef chars!"DRoll",
    .ruleRef chars!"RandomNumber",
    .ruleRef chars!"Integer",
    .ruleRef chars!"DRollExprUnaryPlus",
    .ruleRef chars!"DRollExprUnaryMinus",
    .ruleRef chars!"ParenthesizedDRollExpr"]

/-- Rule `ParenthesizedDRollExpr` (pkg/core/parser/parser.go:1187). -/
def ruleParenthesizedDRollExpr : PExpr :=
  .action .onParenthesizedDRollExpr1
    (.seq [
      .lit chars!"(" false,
      .labeled chars!"e"
        (.ruleRef chars!"DRollExpr"),
      .lit chars!")" false])

/-- Rule `DRollExprUnaryPlus` (pkg/core/parser/parser.go:1218). -/
def ruleDRollExprUnaryPlus : PExpr :=
  .action .onDRollExprUnaryPlus1
    (.seq [
      .lit chars!"+" false,
      .labeled chars!"e"
        (.ruleRef chars!"DRollExprPrimary")])

/-- Rule `DRollExprUnaryMinus` (pkg/core/parser/parser.go:1244). -/
def ruleDRollExprUnaryMinus : PExpr :=
  .action .onDRollExprUnaryMinus1
    (.seq [
      .lit chars!"-" false,
      .labeled chars!"e"
        (.ruleRef chars!"DRollExprPrimary")])

/-- Rule `IntRandExpr` (pkg/core/parser/parser.go:1270). -/
def ruleIntRandExpr : PExpr :=
  .ruleRef chars!"IntRandExprAdditive"

/-- Rule `IntRandExprAdditive` (pkg/core/parser/parser.go:1278). -/
def ruleIntRandExprAdditive : PExpr :=
  .action .onIntRandExprAdditive1
    (.seq [
      .labeled chars!"first"
        (.ruleRef chars!"IntRandExprMultitive"),
      .labeled chars!"rest"
        (.zeroOrMore
          (.seq [
            .choice [
              .lit chars!"+" false,
              .lit chars!"-" false],
            .ruleRef chars!"IntRandExprMultitive"]))])

/-- Rule `IntRandExprMultitive` (pkg/core/parser/parser.go:1330). -/
def ruleIntRandExprMultitive : PExpr :=
  .action .onIntRandExprMultitive1
    (.seq [
      .labeled chars!"first"
        (.ruleRef chars!"IntRandExprPrimary"),
      .labeled chars!"rest"
        (.zeroOrMore
          (.choice [
            .seq [
              .lit chars!"/" false,
              .ruleRef chars!"IntRandExprPrimary",
              .charClass chars!"[ur]i" ['u', 'r'] [] [] true false],
            .seq [
              .choice [
                .lit chars!"*" false,
                .lit chars!"/" false],
              .ruleRef chars!"IntRandExprPrimary"]]))])

/-- Rule `IntRandExprPrimary` (pkg/core/parser/parser.go:1408). -/
def ruleIntRandExprPrimary : PExpr :=
  .choice [
    .ruleRef chars!"Integer",
    .ruleRef chars!"RandomNumber",
    .ruleRef chars!"IntRandExprUnaryPlus",
    .ruleRef chars!"IntRandExprUnaryMinus",
    .ruleRef chars!"ParenthesizedIntRandExpr"]

/-- Rule `ParenthesizedIntRandExpr` (pkg/core/parser/parser.go:1437). -/
def ruleParenthesizedIntRandExpr : PExpr :=
  .action .onParenthesizedIntRandExpr1
    (.seq [
      .lit chars!"(" false,
      .labeled chars!"e"
        (.ruleRef chars!"IntRandExpr"),
      .lit chars!")" false])

/-- Rule `IntRandExprUnaryPlus` (pkg/core/parser/parser.go:1468). -/
def ruleIntRandExprUnaryPlus : PExpr :=
  .action .onIntRandExprUnaryPlus1
    (.seq [
      .lit chars!"+" false,
      .labeled chars!"e"
        (.ruleRef chars!"IntRandExprPrimary")])

/-- Rule `IntRandExprUnaryMinus` (pkg/core/parser/parser.go:1494). -/
def ruleIntRandExprUnaryMinus : PExpr :=
  .action .onIntRandExprUnaryMinus1
    (.seq [
      .lit chars!"-" false,
      .labeled chars!"e"
        (.ruleRef chars!"IntRandExprPrimary")])

/-- Rule `DRoll` (pkg/core/parser/parser.go:1520). -/
def ruleDRoll : PExpr :=
  .action .onDRoll1
    (.seq [
      .labeled chars!"num"
        (.ruleRef chars!"RollOperand"),
      .lit chars!"d" true,
      .labeled chars!"sides"
        (.ruleRef chars!"RollOperand"),
      .ruleRef chars!"IncRandCount"])

/-- Rule `BRoll` (pkg/core/parser/parser.go:1558). -/
def ruleBRoll : PExpr :=
  .action .onBRoll1
    (.seq [
      .labeled chars!"num"
        (.ruleRef chars!"RollOperand"),
      .lit chars!"b" true,
      .labeled chars!"sides"
        (.ruleRef chars!"RollOperand"),
      .ruleRef chars!"IncRandCount"])

/-- Rule `RRoll` (pkg/core/parser/parser.go:1596). -/
def ruleRRoll : PExpr :=
  .action .onRRoll1
    (.seq [
      .labeled chars!"num"
        (.ruleRef chars!"RollOperand"),
      .lit chars!"r" true,
      .labeled chars!"sides"
        (.ruleRef chars!"RollOperand"),
      .ruleRef chars!"IncRandCount"])

/-- Rule `URoll` (pkg/core/parser/parser.go:1634). -/
def ruleURoll : PExpr :=
  .action .onURoll1
    (.seq [
      .labeled chars!"num"
        (.ruleRef chars!"RollOperand"),
      .lit chars!"u" true,
      .labeled chars!"sides"
        (.ruleRef chars!"RollOperand"),
      .ruleRef chars!"IncRandCount"])

/-- Rule `RollOperand` (pkg/core/parser/parser.go:1672). -/
def ruleRollOperand : PExpr :=
  .choice [
    .ruleRef chars!"Integer",
    .ruleRef chars!"RandomNumber",
    .ruleRef chars!"ParenthesizedIntRandExpr"]

/-- Rule `RandomNumber` (pkg/core/parser/parser.go:1693). -/
def ruleRandomNumber : PExpr :=
  .action .onRandomNumber1
    (.seq [
      .lit chars!"[" false,
      .labeled chars!"min"
        (.ruleRef chars!"RandomNumberOperand"),
      .lit chars!"..." false,
      .labeled chars!"max"
        (.ruleRef chars!"RandomNumberOperand"),
      .lit chars!"]" false,
      .ruleRef chars!"IncRandCount"])

/-- Rule `RandomNumberOperand` (pkg/core/parser/parser.go:1741). -/
def ruleRandomNumberOperand : PExpr :=
  .choice [
    .ruleRef chars!"Integer",
    .ruleRef chars!"ParenthesizedIntExpr"]

/-- Rule `ResetRandCount` (pkg/core/parser/parser.go:1758). -/
def ruleResetRandCount : PExpr :=
  .stateCode .onResetRandCount1

/-- Rule `IncRandCount` (pkg/core/parser/parser.go:1766). -/
def ruleIncRandCount : PExpr :=
  .stateCode .onIncRandCount1

/-- Rule `Integer` (pkg/core/parser/parser.go:1774). -/
def ruleInteger : PExpr :=
  .action .onInteger1
    (.oneOrMore
      (.charClass chars!"[0-9]" [] [('0', '9')] [] false false))

/-- Rule `CompareOp` (pkg/core/parser/parser.go:1792). -/
def ruleCompareOp : PExpr :=
  .choice [
    .lit chars!"=" false,
    .lit chars!"<>" false,
    .lit chars!"<=" false,
    .lit chars!"<" false,
    .lit chars!">=" false,
    .lit chars!">" false]

/-- Rule `EOT` (pkg/core/parser/parser.go:1831). -/
def ruleEOT : PExpr :=
  .not
    (.any)

/-- The rules of the grammar (pkg/core/parser/parser.go:81), in order. -/
def goGrammar : List (Str × PExpr) :=
  [(chars!"Command", ruleCommand),
   (chars!"CommandWithExpression", ruleCommandWithExpression),
   (chars!"Choice", ruleChoice),
   (chars!"ChoiceItems", ruleChoiceItems),
   (chars!"ChoiceItem", ruleChoiceItem),
   (chars!"ChoiceItemChars", ruleChoiceItemChars),
   (chars!"Calc", ruleCalc),
   (chars!"DRollExprCommand", ruleDRollExprCommand),
   (chars!"DRollCompCommand", ruleDRollCompCommand),
   (chars!"BRollList", ruleBRollList),
   (chars!"BRollComp", ruleBRollComp),
   (chars!"RRollList", ruleRRollList),
   (chars!"RRollComp", ruleRRollComp),
   (chars!"URollComp", ruleURollComp),
   (chars!"URollExpr", ruleURollExpr),
   (chars!"URollList", ruleURollList),
   (chars!"IntExpr", ruleIntExpr),
   (chars!"IntExprAdditive", ruleIntExprAdditive),
   (chars!"IntExprMultitive", ruleIntExprMultitive),
   (chars!"IntExprPrimary", ruleIntExprPrimary),
   (chars!"ParenthesizedIntExpr", ruleParenthesizedIntExpr),
   (chars!"IntExprUnaryPlus", ruleIntExprUnaryPlus),
   (chars!"IntExprUnaryMinus", ruleIntExprUnaryMinus),
   (chars!"DRollComp", ruleDRollComp),
   (chars!"DRollExpr", ruleDRollExpr),
   (chars!"DRollExprAdditive", ruleDRollExprAdditive),
   (chars!"DRollExprMultitive", ruleDRollExprMultitive),
   (chars!"DRollExprPrimary", ruleDRollExprPrimary),
   (chars!"ParenthesizedDRollExpr", ruleParenthesizedDRollExpr),
   (chars!"DRollExprUnaryPlus", ruleDRollExprUnaryPlus),
   (chars!"DRollExprUnaryMinus", ruleDRollExprUnaryMinus),
   (chars!"IntRandExpr", ruleIntRandExpr),
   (chars!"IntRandExprAdditive", ruleIntRandExprAdditive),
   (chars!"IntRandExprMultitive", ruleIntRandExprMultitive),
   (chars!"IntRandExprPrimary", ruleIntRandExprPrimary),
   (chars!"ParenthesizedIntRandExpr", ruleParenthesizedIntRandExpr),
   (chars!"IntRandExprUnaryPlus", ruleIntRandExprUnaryPlus),
   (chars!"IntRandExprUnaryMinus", ruleIntRandExprUnaryMinus),
   (chars!"DRoll", ruleDRoll),
   (chars!"BRoll", ruleBRoll),
   (chars!"RRoll", ruleRRoll),
   (chars!"URoll", ruleURoll),
   (chars!"RollOperand", ruleRollOperand),
   (chars!"RandomNumber", ruleRandomNumber),
   (chars!"RandomNumberOperand", ruleRandomNumberOperand),
   (chars!"ResetRandCount", ruleResetRandCount),
   (chars!"IncRandCount", ruleIncRandCount),
   (chars!"Integer", ruleInteger),
   (chars!"CompareOp", ruleCompareOp),
   (chars!"EOT", ruleEOT)]

end GoBCDice.Pigeon
