import Verif.Basic
import Verif.Float
import Verif.Dice
import Verif.Ast
import Verif.Eval
import Verif.Notation
import Verif.Parser
import Verif.Command
import Verif.BCDice
import Verif.Conformance
import Verif.Spec.Dice
import Verif.Spec.Eval
import Verif.Spec.Command
import Verif.Spec.Grammar
import Verif.Lemmas.Dice
import Verif.Lemmas.Str
import Verif.Lemmas.Realize
import Verif.Lemmas.EvalRealize
import Verif.Lemmas.CommandRealize
import Verif.Lemmas.Outcome
import Verif.Lemmas.Float
import Verif.Props.Dice
import Verif.Props.Commands
import Verif.Props.Rolls
import Verif.Props.Arith
import Verif.Lemmas.ParserBase
import Verif.Lemmas.ParserSound
import Verif.Lemmas.ParserComplete
import Verif.Lemmas.ParserCommand
import Verif.Lemmas.ParserChoice
import Verif.Lemmas.ParserTop
import Verif.Props.Parser
import Verif.Props.Top
import Verif.Lemmas.BehaveExecute
import Verif.Props.Traces
import Verif.Props.Display
import Verif.Props.Bonus
import Verif.Props.Testcase
import Verif.Props.TestcaseFile
import Verif.ParserConformance
import Verif.UnitConformance
import Verif.Props.SExp
import Verif.Props.Games
import Verif.Props.Api
import Verif.Props.Heap
import Verif.Props.Repl
import Verif.Props.Message
import Verif.Props.NodeNotation
import Verif.Spec.Sim
import Verif.Lemmas.Sim
import Verif.Props.Sim
import Verif.Pigeon
import Verif.PigeonGrammar
import Verif.Spec.Pigeon
import Verif.Lemmas.Pigeon
import Verif.Lemmas.PigeonRules
import Verif.Lemmas.PigeonCommand
import Verif.Lemmas.PigeonTop
import Verif.Lemmas.PigeonInv
import Verif.Props.Pigeon
import Verif.Props.ReplOutput
import Verif.PigeonParse
import Verif.Lemmas.PigeonTerm
import Verif.Lemmas.PigeonCost
import Verif.Props.PigeonCost
import Verif.Spec.Peg
import Verif.Lemmas.Peg
import Verif.Props.Peg
import Verif.RawAst
import Verif.RawEval
import Verif.RawNotation
import Verif.RawCommand
import Verif.Spec.Raw
import Verif.Lemmas.Raw
import Verif.Lemmas.RawEval
import Verif.Lemmas.RawVarArgs
import Verif.Lemmas.RawDetermine
import Verif.Lemmas.RawNotation
import Verif.Lemmas.RawLists
import Verif.Lemmas.RawFormat
import Verif.Lemmas.RawExecute
import Verif.Lemmas.RawExecute2
import Verif.Lemmas.Twice
import Verif.Lemmas.RawBuild
import Verif.Lemmas.RawAppend
import Verif.Lemmas.RawShape
import Verif.Props.Raw
import Verif.TestRun
import Verif.Props.TestRun
import Verif.MemParse
import Verif.Lemmas.MemParse
import Verif.Lemmas.MemParseActions
import Verif.Lemmas.MemParseRun
import Verif.Lemmas.MemParseSim
import Verif.Props.MemParse
import Verif.ObjMem
import Verif.Spec.Object
import Verif.Lemmas.Inspect
import Verif.Lemmas.ObjMem
import Verif.Lemmas.ObjInspect
import Verif.Lemmas.ObjWorld
import Verif.Lemmas.ObjCache
import Verif.Props.Object
import Verif.Props.CaseRead
import Verif.Spec.Stop
import Verif.Lemmas.Stop
import Verif.Lemmas.StopCommand
import Verif.Spec.Answer
import Verif.Lemmas.Known
import Verif.Lemmas.Ordinary
import Verif.Props.Outcome
import Verif.Bytes
import Verif.Spec.Bytes
import Verif.Lemmas.Bytes
import Verif.Lemmas.PigeonFence
import Verif.Lemmas.PigeonClosed
import Verif.Props.Bytes
import Verif.Conc
import Verif.Spec.Conc
import Verif.Lemmas.Conc
import Verif.Lemmas.ConcParser
import Verif.Props.Conc
import Verif.Spec.Float
import Verif.Lemmas.IEEE
import Verif.Props.Division
import Verif.Share
import Verif.Spec.Share
import Verif.Lemmas.SimUnless
import Verif.Lemmas.Share
import Verif.Props.Share
import Verif.Spec.Chance
import Verif.Lemmas.Chance
import Verif.Lemmas.ChanceCount
import Verif.Lemmas.ChanceDice
import Verif.Lemmas.ChanceSession
import Verif.Props.Chance
import Verif.PigeonOpt
import Verif.Spec.PigeonOpt
import Verif.Lemmas.PigeonOpt
import Verif.Props.PigeonOpt
import Verif.Complete
import Verif.Spec.Complete
import Verif.Props.Complete
import Verif.Server
import Verif.Spec.Server
import Verif.Props.Server
import Verif.Regex
import Verif.Spec.Regex
import Verif.Lemmas.Regex
import Verif.Lemmas.RegexGroups
import Verif.Props.Regex
import Verif.Rand
import Verif.Spec.Rand
import Verif.Lemmas.Rand
import Verif.Lemmas.RandDice
import Verif.Lemmas.RandSession
import Verif.Props.Rand
import Verif.Spec.Average
import Verif.Lemmas.Average
import Verif.Props.Average
import Verif.Lemmas.Reroll
import Verif.Props.Reroll
import Verif.Spec.Text
import Verif.Lemmas.Text
import Verif.Props.Text
import Verif.Props.Transcript
import Verif.Spec.Typed
import Verif.Lemmas.Typed
import Verif.Lemmas.TypedOnly
import Verif.Lemmas.TypedRep
import Verif.Lemmas.TypedWrite
import Verif.Lemmas.TypedText
import Verif.Lemmas.TypedExec
import Verif.Spec.NodeCalls
import Verif.Props.Typed
import Verif.Props.TypedExec
import Verif.Lemmas.ObjFit
import Verif.Spec.Kinds
import Verif.Props.Kinds
import Verif.GrammarText
import Verif.Spec.GrammarFile
import Verif.Lemmas.GrammarEq
import Verif.Props.GrammarFile
import Verif.Spec.Writing
import Verif.Props.Writing
import Verif.Spec.Easier
import Verif.Props.Easier
import Verif.Spec.Rearrange
import Verif.Lemmas.Rearrange
import Verif.Props.Rearrange
import Verif.Props.Calculus
import Verif.Spec.Better
import Verif.Props.Better
import Verif.EnvMem
import Verif.BotMem
import Verif.Spec.EnvMem
import Verif.Spec.BotMem
import Verif.Spec.Chat
import Verif.Spec.Session
import Verif.Props.EnvMem
import Verif.Props.BotMem
import Verif.Props.Chat
import Verif.Props.Session
import Verif.Props.AsTyped
import Verif.Lemmas.PigeonAnalysis
import Verif.Lemmas.PigeonBound
import Verif.Spec.Nesting
import Verif.Props.PigeonBound
import Verif.PigeonStats
import Verif.Spec.PigeonStats
import Verif.Props.PigeonStats
import Verif.Props.DivideOrder
import Verif.Props.Length
import Verif.Props.Parens
import Verif.Props.ByHand
import Verif.Props.TypedAlike
import Verif.Props.Steps
import Verif.Props.Signs
import Verif.Props.InTurn
import Verif.Props.Agree
import Verif.Props.Divided
import Verif.Props.Compared
import Verif.Props.BonusSteps
