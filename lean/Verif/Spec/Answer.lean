import Verif.Spec.Stop
import Verif.Spec.Grammar
import Verif.Spec.Pigeon

/-!
# Specification of the answer to a text typed by a user

`Succeeds`, `Fails` and `Panics` say what becomes of one attempt to read a text as a command and to
execute it; `Marked` and `FirstWord` say which texts are attempted.
-/

namespace GoBCDice

/-- `Marked input body secret`: the text `body` is `input` without a leading `S` or `s`, and
`secret` tells whether there is one. -/
inductive Marked : Str → Str → Bool → Prop where
  | secret {c : Char} {body : Str} : c = 'S' ∨ c = 's' → Marked (c :: body) body true
  | plain {body : Str} : (∀ c ∈ body.head?, c ≠ 'S' ∧ c ≠ 's') → Marked body body false

/-- The characters that end the first word. -/
def EndsWord (c : Char) : Prop := c = '\t' ∨ c = '\n' ∨ c = '\x0c' ∨ c = '\r' ∨ c = ' '

/-- `FirstWord s w`: the word `w` is what stands before the first blank of `s`. -/
inductive FirstWord : Str → Str → Prop where
  | whole {s : Str} : (∀ c ∈ s, ¬ EndsWord c) → FirstWord s s
  | cut {w rest : Str} {x : Char} : (∀ c ∈ w, ¬ EndsWord c) → EndsWord x → FirstWord (w ++ x :: rest) w

/-- The text `t` is a command whose execution, with the dice of the feeder in state `f`, gives the
result `r` and leaves the feeder in state `f'`. -/
def Succeeds {σ : Type} (F : DieFeeder σ) (gameID t : Str) (f : σ) (r : Result) (f' : σ) : Prop :=
  ∃ node ds, CommandText t node ∧ Outcome 10000 gameID node ds r ∧ Draws F f ds f'

/-- The text `t` is a command whose execution ends with `e`. -/
def EndsWith {σ : Type} (F : DieFeeder σ) (t : Str) (f : σ) (e : Ending) (f' : σ) : Prop :=
  ∃ node ds f1 c, CommandText t node ∧ CommandStops 10000 node ds c ∧ Draws F f ds f1 ∧
    Ends F f1 c f' e

/-- The text `t` is no command and `msg` is the syntax error, or it is a command whose execution
ends with the error `msg`. -/
def Fails {σ : Type} (F : DieFeeder σ) (t : Str) (f : σ) (msg : Str) (f' : σ) : Prop :=
  (Parses chars!"input" (utf8 t) (.error msg) ∧ f' = f) ∨ EndsWith F t f (.error msg) f'

/-- The causes of the program's own. -/
def Cause.Own : Cause → Prop
  | .refusal _ => True
  | .crash => True
  | _ => False

/-- What the program calls computed operands. -/
def computedNames : List Str :=
  [chars!"UnaryMinus", chars!"Add", chars!"Subtract", chars!"Multiply", chars!"DivideWithRoundingUp",
    chars!"DivideWithRounding", chars!"DivideWithRoundingDown"]

/-- The errors a command itself can end with, whatever the dice. -/
inductive RefusalText : Str → Prop where
  | rollSides {x y : Int64} : y < 1 →
      RefusalText (chars!"RollDice(num: " ++ intStr x ++ chars!", sides: " ++ intStr y ++
        chars!"): ダイスの面数が少なすぎます")
  | rollNum {x y : Int64} : 1 ≤ y → x < 1 →
      RefusalText (chars!"RollDice(num: " ++ intStr x ++ chars!", sides: " ++ intStr y ++
        chars!"): 振るダイス数が少なすぎます")
  | uRollSides {x y : Int64} : y < 1 →
      RefusalText (chars!"evalCompoundingRoll(num: " ++ intStr x ++ chars!", sides: " ++ intStr y ++
        chars!"): ダイスの面数が少なすぎます")
  | uRollNum {x y : Int64} : 1 ≤ y → x < 1 →
      RefusalText (chars!"evalCompoundingRoll(num: " ++ intStr x ++ chars!", sides: " ++ intStr y ++
        chars!"): 振るダイス数が少なすぎます")
  | divided {a : Int64} : RefusalText (intStr a ++ chars!" divided by zero")
  | randomOrder {lo hi : Int64} : hi ≤ lo →
      RefusalText (chars!"evalRandomNumber: min (" ++ intStr lo ++
        chars!") must be less than max (" ++ intStr hi ++ chars!")")
  /-- finding 3 -/
  | randomArgs : RefusalText chars!"evalVarArgsOfVariableExpr not implemented: RandomNumber"
  | randomValue : RefusalText chars!"determineValueOfVariableExpr not implemented: RandomNumber"
  /-- finding 2 -/
  | computedNum {t : Str} : t ∈ computedNames → RefusalText (chars!"num is not Int: " ++ t)
  | computedSides {t : Str} : t ∈ computedNames → RefusalText (chars!"sides is not Int: " ++ t)

/-- A feeder that, asked for a die with at least one side, always delivers a die with these sides
showing one of its faces. -/
def DieFeeder.Generous {σ : Type} (F : DieFeeder σ) : Prop :=
  ∀ s sides, 1 ≤ sides → ∃ d s', F.next s sides = (.ok d, s') ∧ d.sides = sides ∧ d.Fair

/-- Expressions that cannot fail on their own: every roll has a literal number of dice between 1 and
2^44 and a literal positive number of sides, every divisor is a literal other than zero, and there
is no random number. -/
inductive Ordinary : Expr → Prop where
  | int {v : Int64} : Ordinary (.int v)
  | neg {r : Expr} : Ordinary r → Ordinary (.neg r)
  | bin {op : BinOp} {l r : Expr} : Ordinary l → Ordinary r → Ordinary (.bin op l r)
  | div {m : Rounding} {l : Expr} {v : Int64} : Ordinary l → v ≠ 0 → Ordinary (.div m l (.int v))
  | roll {x y : Int64} : 1 ≤ x → x.toInt ≤ 2 ^ 44 → 1 ≤ y → Ordinary (.var .d (.int x) (.int y))

/-- Rolls with literal operands that can be made. -/
inductive OrdinaryRoll : Roll → Prop where
  | mk {x y : Int64} : 1 ≤ x → x.toInt ≤ 2 ^ 44 → 1 ≤ y → OrdinaryRoll ⟨.int x, .int y⟩

/-- Commands made of such expressions and rolls. -/
inductive OrdinaryCommand : Node → Prop where
  | choice {items : List Str} : items ≠ [] → items.length < 2 ^ 63 → OrdinaryCommand (.choice items)
  | calc {e : Expr} : Ordinary e → OrdinaryCommand (.calc e)
  | dRollExpr {e : Expr} : Ordinary e → OrdinaryCommand (.dRollExpr e)
  | dRollComp {l r : Expr} {op : CmpOp} : Ordinary l → 1 ≤ l.rands → Ordinary r →
      OrdinaryCommand (.dRollComp l op r)
  | bRollList {rolls : List Roll} : (∀ r ∈ rolls, OrdinaryRoll r) →
      OrdinaryCommand (.bRollList rolls)
  | bRollComp {rolls : List Roll} {op : CmpOp} {r : Expr} : (∀ r ∈ rolls, OrdinaryRoll r) →
      Ordinary r → OrdinaryCommand (.bRollComp rolls op r)
  | rRollList {rl : RRollList} : (∀ r ∈ rl.rolls, OrdinaryRoll r) →
      (∀ e ∈ rl.threshold, Ordinary e) → OrdinaryCommand (.rRollList rl)
  | rRollComp {rl : RRollList} {op : CmpOp} {r : Expr} : (∀ r ∈ rl.rolls, OrdinaryRoll r) →
      (∀ e ∈ rl.threshold, Ordinary e) → Ordinary r → OrdinaryCommand (.rRollComp rl op r)
  | uRollExpr {u : URollExpr} : (∀ r ∈ u.list.rolls, OrdinaryRoll r) →
      (∀ e ∈ u.list.threshold, Ordinary e) → (∀ b ∈ u.bonus, Ordinary b.2) →
      OrdinaryCommand (.uRollExpr u)
  | uRollComp {u : URollExpr} {op : CmpOp} {r : Expr} : (∀ r ∈ u.list.rolls, OrdinaryRoll r) →
      (∀ e ∈ u.list.threshold, Ordinary e) → (∀ b ∈ u.bonus, Ordinary b.2) → Ordinary r →
      OrdinaryCommand (.uRollComp u op r)

end GoBCDice
