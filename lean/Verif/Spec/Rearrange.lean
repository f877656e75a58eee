import Verif.Spec.Average

/-!
# Rearranging commands

Two ways of writing a sum of rolls that a player takes for the same: school algebra, as long as no roll is
written twice or left out.
-/

namespace GoBCDice

/-- The value of an operator, modulo 2^64. -/
def BinOp.value : BinOp → Int64 → Int64 → Int64
  | .add, a, b => a + b
  | .sub, a, b => a - b
  | .mul, a, b => a * b

/-- One expression is a rearrangement of the other. -/
inductive Rearranged : Expr → Expr → Prop where
  | refl (a : Expr) : Rearranged a a
  | symm {a b : Expr} : Rearranged a b → Rearranged b a
  | trans {a b c : Expr} : Rearranged a b → Rearranged b c → Rearranged a c
  /-- within an expression -/
  | neg {a b : Expr} : Rearranged a b → Rearranged (.neg a) (.neg b)
  | bin {op : BinOp} {a b c d : Expr} : Rearranged a b → Rearranged c d → Rearranged (.bin op a c) (.bin op b d)
  | div {m : Rounding} {a b c : Expr} : Rearranged a b → Rearranged (.div m a c) (.div m b c)
  /-- the laws of addition -/
  | add_comm (a b : Expr) : Rearranged (.bin .add a b) (.bin .add b a)
  | add_assoc (a b c : Expr) : Rearranged (.bin .add (.bin .add a b) c) (.bin .add a (.bin .add b c))
  | add_zero (a : Expr) : Rearranged (.bin .add a (.int 0)) a
  | sub (a b : Expr) : Rearranged (.bin .sub a b) (.bin .add a (.neg b))
  | neg_neg (a : Expr) : Rearranged (.neg (.neg a)) a
  | neg_add (a b : Expr) : Rearranged (.neg (.bin .add a b)) (.bin .add (.neg a) (.neg b))
  /-- the laws of multiplication -/
  | mul_comm (a b : Expr) : Rearranged (.bin .mul a b) (.bin .mul b a)
  | mul_assoc (a b c : Expr) : Rearranged (.bin .mul (.bin .mul a b) c) (.bin .mul a (.bin .mul b c))
  | mul_one (a : Expr) : Rearranged (.bin .mul a (.int 1)) a
  | neg_mul (a b : Expr) : Rearranged (.neg (.bin .mul a b)) (.bin .mul (.neg a) b)
  /-- a number may be multiplied into parentheses -/
  | mul_add (n : Int64) (a b : Expr) :
      Rearranged (.bin .mul (.int n) (.bin .add a b)) (.bin .add (.bin .mul (.int n) a) (.bin .mul (.int n) b))
  /-- numbers may be added and multiplied in one's head (modulo 2^64) -/
  | num_add (m n : Int64) : Rearranged (.bin .add (.int m) (.int n)) (.int (m + n))
  | num_mul (m n : Int64) : Rearranged (.bin .mul (.int m) (.int n)) (.int (m * n))
  | num_neg (n : Int64) : Rearranged (.neg (.int n)) (.int (-n))
  /-- dice of one kind may be rolled in two portions -/
  | split {x x' y : Int64} : 1 ≤ x → 1 ≤ x' → x.toInt + x'.toInt ≤ 2 ^ 44 →
      Rearranged (.var .d (.int (x + x')) (.int y))
        (.bin .add (.var .d (.int x) (.int y)) (.var .d (.int x') (.int y)))
  /-- dice may be read upside down -/
  | turn {x y : Int64} : 1 ≤ x → x.toInt ≤ 2 ^ 44 → 1 ≤ y →
      Rearranged (.var .d (.int x) (.int y)) (.bin .sub (.int (x * (y + 1))) (.var .d (.int x) (.int y)))

/-- The event that the answer to `input` shows the total `t`. -/
def Totals (usage input : Str) (i : ℕ) (t : Int64) : Set Fate :=
  Answered usage input i fun r => r.parts[2]? = some (intStr t)

/-- The event that the answer to `input` shows the total `t` and the verdict `s`. -/
def ShowsVerdict (usage input : Str) (i : ℕ) (t : Int64) (s : SuccessCheck) : Set Fate :=
  Answered usage input i fun r => r.parts[2]? = some (intStr t) ∧ r.success = s

end GoBCDice
