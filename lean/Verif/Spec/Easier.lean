import Verif.Spec.Command

/-!
# Easier targets
-/

namespace GoBCDice

/-- Whatever satisfies the comparison with `t` satisfies the other one with `t'`: for example `>=7` and
`>=6`, `=3` and `<=3`. -/
def Easier (op : CmpOp) (t : Int64) (op' : CmpOp) (t' : Int64) : Prop :=
  ∀ v : Int, op.Rel v t.toInt → op'.Rel v t'.toInt

/-- The result ends with the part 成功数`k`. -/
def CountShown (r : Result) (k : Nat) : Prop :=
  r.parts.getLast? = some (chars!"成功数" ++ intStr (Int64.ofNat k))

/-- The result refuses to roll: its second and last part is one of the two complaints. -/
def RefusalShown (r : Result) : Prop :=
  r.parts.length = 2 ∧ (r.parts[1]? = some smallThreshold ∨ r.parts[1]? = some missingThresholdU)

end GoBCDice
