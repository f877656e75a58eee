import Verif.Spec.ByHand
import Verif.Spec.Command

/-!
# What one comparison answers for each of the six signs
-/

namespace GoBCDice

/-- A family of answers, one for each sign of comparison, that fit together: the same error or panic; or results that show the same
(but for the sign), with the same dice, whose verdicts or numbers of successes are those of the same values and the same target. -/
inductive FitTogether (gameID : Str) (secret : Bool) : (CmpOp → Out Result) → Prop where
  | err (msg : Str) : FitTogether gameID secret fun _ => .err msg
  | panic (msg : Str) : FitTogether gameID secret fun _ => .panic msg
  | refused (before after msg : Str) : FitTogether gameID secret fun op => .ok
      { gameID := gameID, parts := [chars!"(" ++ (before ++ op.str ++ after) ++ chars!")", msg], rolledDice := [],
        success := .unspecified, isSecret := secret }
  | verdict (before after shown : Str) (value target : Int64) (dice : List Die) : FitTogether gameID secret fun op => .ok
      { gameID := gameID,
        parts := [chars!"(" ++ (before ++ op.str ++ after) ++ chars!")", shown, intStr value,
          if op.Rel value.toInt target.toInt then chars!"成功" else chars!"失敗"],
        rolledDice := dice, success := if op.Rel value.toInt target.toInt then .success else .failure, isSecret := secret }
  | count (before after shown : Str) (values : List Int64) (target : Int64) (dice : List Die) : FitTogether gameID secret fun op => .ok
      { gameID := gameID,
        parts := [chars!"(" ++ (before ++ op.str ++ after) ++ chars!")", shown,
          chars!"成功数" ++ intStr (Int64.ofNat (values.countP fun v => op.Rel v.toInt target.toInt))],
        rolledDice := dice, success := .unspecified, isSecret := secret }

/-- Two signs of which exactly one holds. -/
def CmpOp.Opposite (op op' : CmpOp) : Prop :=
  (op, op') ∈ [(CmpOp.eq, CmpOp.ne), (.ne, .eq), (.lt, .ge), (.ge, .lt), (.gt, .le), (.le, .gt)]

end GoBCDice
