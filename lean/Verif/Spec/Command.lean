import Verif.Spec.Eval
import Verif.Command

/-!
# Specification of command outcomes

`Outcome limit gameID node ds r`: executing the command `node` consumes exactly the dice `ds` and
reports `r`.  Feeders, logs, evaluation stages and mutation do not appear.  `limit` is the reroll
limit (`MaxRerolls`).  Only the
rendering of numbers (`intStr`, `join`) and of arithmetic (`infixNotation`, see C26 and C55) is
borrowed from the model.
-/

namespace GoBCDice

/-- The relation a comparison operator denotes, on mathematical integers. -/
def CmpOp.Rel : CmpOp → Int → Int → Prop
  | .eq, a, b => a = b
  | .ne, a, b => a ≠ b
  | .lt, a, b => a < b
  | .gt, a, b => a > b
  | .le, a, b => a ≤ b
  | .ge, a, b => a ≥ b

instance (op : CmpOp) (a b : Int) : Decidable (op.Rel a b) := by
  cases op <;> unfold CmpOp.Rel <;> infer_instance

/-- How many of the values stand in the given relation to the target. -/
def successes (op : CmpOp) (target : Int64) (vs : List Int64) : Nat :=
  (vs.filter (fun v => op.Rel v.toInt target.toInt)).length

/-- Stage 1 of a D command: the operands of every roll are replaced by their values, which
consumes `as`.  There is no rule for a random number used as a term. -/
inductive DArgs : Expr → List Die → Expr → Prop where
  | int (v : Int64) : DArgs (.int v) [] (.int v)
  | sumRoll (ds : List Die) : DArgs (.sumRoll ds) [] (.sumRoll ds)
  | neg {r r' : Expr} {as : List Die} : DArgs r as r' → DArgs (.neg r) as (.neg r')
  | bin {op : BinOp} {l r l' r' : Expr} {as bs : List Die} :
      DArgs l as l' → DArgs r bs r' → DArgs (.bin op l r) (as ++ bs) (.bin op l' r')
  | div {m : Rounding} {l r l' r' : Expr} {as bs : List Die} :
      DArgs l as l' → DArgs r bs r' → DArgs (.div m l r) (as ++ bs) (.div m l' r')
  | roll {l r : Expr} {as bs : List Die} {x y : Int64} :
      Ev l as x → Ev r bs y → DArgs (.var .d l r) (as ++ bs) (.var .d (.int x) (.int y))

/-- Stage 2 of a D command: every literal roll is replaced by its dice, from left to right. -/
inductive DDice : Expr → List Die → Expr → Prop where
  | int (v : Int64) : DDice (.int v) [] (.int v)
  | sumRoll (ds : List Die) : DDice (.sumRoll ds) [] (.sumRoll ds)
  | neg {r r' : Expr} {as : List Die} : DDice r as r' → DDice (.neg r) as (.neg r')
  | bin {op : BinOp} {l r l' r' : Expr} {as bs : List Die} :
      DDice l as l' → DDice r bs r' → DDice (.bin op l r) (as ++ bs) (.bin op l' r')
  | div {m : Rounding} {l r l' r' : Expr} {as bs : List Die} :
      DDice l as l' → DDice r bs r' → DDice (.div m l r) (as ++ bs) (.div m l' r')
  | roll {x y : Int64} {rs : List Die} :
      Rolled x y rs → DDice (.var .d (.int x) (.int y)) rs (.sumRoll rs)

/-- Value of a D expression: `DVal e as rs v` when the roll operands consume the dice `as`, then the
rolls themselves, from left to right, consume `rs`, and `v` is the result of the arithmetic in
which each roll is worth the sum of its own dice. -/
inductive DVal : Expr → List Die → List Die → Int64 → Prop where
  | int (v : Int64) : DVal (.int v) [] [] v
  | sumRoll (ds : List Die) : DVal (.sumRoll ds) [] [] (ds.map Die.value).sum
  | neg {r : Expr} {as rs : List Die} {v : Int64} : DVal r as rs v → DVal (.neg r) as rs (-v)
  | add {l r : Expr} {as rs bs ss : List Die} {a b : Int64} :
      DVal l as rs a → DVal r bs ss b → DVal (.bin .add l r) (as ++ bs) (rs ++ ss) (a + b)
  | sub {l r : Expr} {as rs bs ss : List Die} {a b : Int64} :
      DVal l as rs a → DVal r bs ss b → DVal (.bin .sub l r) (as ++ bs) (rs ++ ss) (a - b)
  | mul {l r : Expr} {as rs bs ss : List Die} {a b : Int64} :
      DVal l as rs a → DVal r bs ss b → DVal (.bin .mul l r) (as ++ bs) (rs ++ ss) (a * b)
  | div {m : Rounding} {l r : Expr} {as rs bs ss : List Die} {a b : Int64} :
      DVal l as rs a → DVal r bs ss b → b ≠ 0 →
      DVal (.div m l r) (as ++ bs) (rs ++ ss) (divValue m a b)
  | roll {l r : Expr} {as bs rs : List Die} {x y : Int64} :
      Ev l as x → Ev r bs y → Rolled x y rs →
      DVal (.var .d l r) (as ++ bs) rs (rs.map Die.value).sum

/-- The left sides of D comparisons that the program can execute (finding 2): a compound
expression, or a single roll with literal operands. -/
def DCompLeft : Expr → Prop
  | .int _ => False
  | .sumRoll _ => False
  | .var .d (.int _) (.int _) => True
  | .var _ _ _ => False
  | _ => True

/-- A threshold expression is worth `th` (`none`: there is none) and consumes `ds`. -/
inductive Threshold : Option Expr → List Die → Option Int64 → Prop where
  | absent : Threshold none [] none
  | given {t : Expr} {ds : List Die} {v : Int64} : Ev t ds v → Threshold (some t) ds (some v)

/-- The bonus of a U roll consumes `ds` and is worth `v`. -/
inductive Bonus : Option (Sign × Expr) → List Die → Int64 → Prop where
  | absent : Bonus none [] 0
  | plus {e : Expr} {ds : List Die} {v : Int64} : Ev e ds v → Bonus (some (.plus, e)) ds v
  | minus {e : Expr} {ds : List Die} {v : Int64} : Ev e ds v → Bonus (some (.minus, e)) ds (-v)

/-- Text of the rolls `ps` with the given letter. -/
def rollsText (letter : Str) (ps : List (Int64 × Int64)) : Str :=
  join chars!"+" (ps.map (fun p => intStr p.1 ++ letter ++ intStr p.2))

/-- Text of a threshold. -/
def thresholdText : Option Int64 → Str
  | none => []
  | some th => chars!"[" ++ intStr th ++ chars!"]"

/-- Text of the bonus of a U roll once its value is known; nothing when it is zero. -/
def bonusText (m : Int64) : Str :=
  if m = 0 then [] else if m > 0 then chars!"+" ++ intStr m else chars!"-" ++ intStr (-m)

/-- Values separated by commas. -/
def valuesText (vs : List Int64) : Str := join chars!"," (vs.map intStr)

/-- Text of the groups of an R roll. -/
def rGroupsText (gs : List (List Die)) : Str :=
  join chars!" + " (gs.map (fun g => valuesText (g.map Die.value)))

/-- A modifier with its sign; nothing when it is zero. -/
def modifierText (m : Int64) : Str :=
  if m = 0 then [] else if m > 0 then chars!"+" ++ intStr m else intStr m

/-- A text in parentheses. -/
def inParens (s : Str) : Str := chars!"(" ++ s ++ chars!")"

/-- What an R roll without threshold is answered. -/
def missingThresholdR : Str := chars!"2R6>=5 あるいは 2R6[5] のように振り足し目標値を指定してください"

/-- What a U roll without threshold is answered. -/
def missingThresholdU : Str := chars!"2U6[5] のように振り足し目標値を指定してください"

/-- What a roll with a threshold below 2 is answered. -/
def smallThreshold : Str := chars!"振り足し目標値として2以上の整数を指定してください"

/-- Why a reroll threshold is refused. -/
inductive Refused (nilMsg : Str) : Option Int64 → Str → Prop where
  | absent : Refused nilMsg none nilMsg
  | small {th : Int64} : th < 2 → Refused nilMsg (some th) smallThreshold

/-- Sums of the groups of a U roll. -/
def groupSums (gs : List (List Die)) : List Int64 := gs.map (fun g => (g.map Die.value).sum)

/-- Text of the groups of a U roll: the sum and, for rerolled groups, the values; then the
modifier. -/
def groupsText (gs : List (List Die)) (m : Int64) : Str :=
  join chars!"," (gs.map (fun g => intStr (g.map Die.value).sum ++
    (if 1 < g.length then chars!"[" ++ valuesText (g.map Die.value) ++ chars!"]" else []))) ++
    modifierText m

/-- `v` is the largest element of the list. -/
def IsMax (v : Int64) (vs : List Int64) : Prop := v ∈ vs ∧ ∀ w ∈ vs, w ≤ v

/-- The default reroll threshold of an R comparison is its target. -/
def orTarget (th : Option Int64) (target : Int64) : Option Int64 := some (th.getD target)

/-- Outcomes of commands. -/
inductive Outcome (limit : Nat) (gameID : Str) : Node → List Die → Result → Prop where
  | choice {items : List Str} {d : Die} {item : Str} :
      Rolled 1 (Int64.ofNat items.length) [d] → 0 ≤ d.value - 1 →
      items[(d.value - 1).toInt.toNat]? = some item →
      Outcome limit gameID (.choice items) [d]
        { gameID := gameID, parts := [inParens (chars!"CHOICE[" ++ join chars!"," items ++ chars!"]"), item],
          rolledDice := [d], success := .unspecified, isSecret := false }
  | calc {e : Expr} {ds : List Die} {v : Int64} :
      Ev e ds v →
      Outcome limit gameID (.calc e) ds
        { gameID := gameID, parts := [chars!"C(" ++ infixNotation true e ++ chars!")", chars!"計算結果", intStr v],
          rolledDice := [], success := .unspecified, isSecret := false }
  | dRollExpr {e e1 e2 : Expr} {as rs : List Die} {v : Int64} :
      DArgs e as e1 → DDice e1 rs e2 → Ev e2 [] v →
      Outcome limit gameID (.dRollExpr e) (as ++ rs)
        { gameID := gameID,
          parts := [inParens (infixNotation true e1), infixNotation true e2, intStr v],
          rolledDice := as ++ rs, success := .unspecified, isSecret := false }
  | dRollComp {l l1 l2 r : Expr} {op : CmpOp} {as bs rs : List Die} {v target : Int64} :
      DCompLeft l → DArgs l as l1 → Ev r bs target → DDice l1 rs l2 → Ev l2 [] v →
      Outcome limit gameID (.dRollComp l op r) (as ++ bs ++ rs)
        { gameID := gameID,
          parts := [inParens (infixNotation true l1 ++ op.str ++ intStr target),
            infixNotation true l2, intStr v,
            if op.Rel v.toInt target.toInt then chars!"成功" else chars!"失敗"],
          rolledDice := as ++ bs ++ rs,
          success := if op.Rel v.toInt target.toInt then .success else .failure,
          isSecret := false }
  | bRollList {rolls : List Roll} {as : List Die} {ps : List (Int64 × Int64)}
      {gs : List (List Die)} :
      Args rolls as ps → GroupsFor ps gs →
      Outcome limit gameID (.bRollList rolls) (as ++ gs.flatten)
        { gameID := gameID,
          parts := [inParens (rollsText chars!"B" ps),
            valuesText (gs.flatten.map Die.value)],
          rolledDice := as ++ gs.flatten, success := .unspecified, isSecret := false }
  | bRollComp {rolls : List Roll} {op : CmpOp} {r : Expr} {as bs : List Die}
      {ps : List (Int64 × Int64)} {gs : List (List Die)} {target : Int64} :
      Args rolls as ps → Ev r bs target → GroupsFor ps gs →
      Outcome limit gameID (.bRollComp rolls op r) (as ++ bs ++ gs.flatten)
        { gameID := gameID,
          parts := [inParens (rollsText chars!"B" ps ++ op.str ++ intStr target),
            valuesText (gs.flatten.map Die.value),
            chars!"成功数" ++
              intStr (Int64.ofNat (successes op target (gs.flatten.map Die.value)))],
          rolledDice := as ++ bs ++ gs.flatten, success := .unspecified, isSecret := false }
  | rRollRefused {rl : RRollList} {ts as : List Die} {th : Option Int64}
      {ps : List (Int64 × Int64)} {msg : Str} :
      Threshold rl.threshold ts th → Args rl.rolls as ps →
      Refused missingThresholdR th msg →
      Outcome limit gameID (.rRollList rl) (ts ++ as)
        { gameID := gameID,
          parts := [inParens (rollsText chars!"R" ps ++ thresholdText th), msg],
          rolledDice := [], success := .unspecified, isSecret := false }
  | rRollList {rl : RRollList} {ts as : List Die} {th : Int64} {ps : List (Int64 × Int64)}
      {gs : List (List Die)} :
      Threshold rl.threshold ts (some th) → Args rl.rolls as ps → 2 ≤ th →
      RGroups th limit ps gs →
      Outcome limit gameID (.rRollList rl) (ts ++ as ++ gs.flatten)
        { gameID := gameID,
          parts := [inParens (rollsText chars!"R" ps ++ thresholdText (some th)),
            rGroupsText gs],
          rolledDice := ts ++ as ++ gs.flatten, success := .unspecified, isSecret := false }
  | rRollCompRefused {rl : RRollList} {op : CmpOp} {r : Expr} {ts as bs : List Die}
      {th : Option Int64} {ps : List (Int64 × Int64)} {target : Int64} {msg : Str} :
      Threshold rl.threshold ts th → Args rl.rolls as ps → Ev r bs target →
      Refused missingThresholdR (orTarget th target) msg →
      Outcome limit gameID (.rRollComp rl op r) (ts ++ as ++ bs)
        { gameID := gameID,
          parts := [inParens (rollsText chars!"R" ps ++ thresholdText (orTarget th target) ++
            op.str ++ intStr target), msg],
          rolledDice := [], success := .unspecified, isSecret := false }
  | rRollComp {rl : RRollList} {op : CmpOp} {r : Expr} {ts as bs : List Die}
      {th : Option Int64} {th' : Int64} {ps : List (Int64 × Int64)} {gs : List (List Die)}
      {target : Int64} :
      Threshold rl.threshold ts th → Args rl.rolls as ps → Ev r bs target →
      orTarget th target = some th' → 2 ≤ th' → RGroups th' limit ps gs →
      Outcome limit gameID (.rRollComp rl op r) (ts ++ as ++ bs ++ gs.flatten)
        { gameID := gameID,
          parts := [inParens (rollsText chars!"R" ps ++ thresholdText (some th') ++
              op.str ++ intStr target),
            rGroupsText gs,
            chars!"成功数" ++
              intStr (Int64.ofNat (successes op target (gs.flatten.map Die.value)))],
          rolledDice := ts ++ as ++ bs ++ gs.flatten, success := .unspecified, isSecret := false }
  | uRollRefused {u : URollExpr} {ts as ms : List Die} {th : Option Int64}
      {ps : List (Int64 × Int64)} {m : Int64} {msg : Str} :
      Threshold u.list.threshold ts th → Args u.list.rolls as ps → Bonus u.bonus ms m →
      Refused missingThresholdU th msg →
      Outcome limit gameID (.uRollExpr u) (ts ++ as ++ ms)
        { gameID := gameID,
          parts := [inParens (rollsText chars!"U" ps ++ thresholdText th ++ bonusText m), msg],
          rolledDice := [], success := .unspecified, isSecret := false }
  | uRollExpr {u : URollExpr} {ts as ms : List Die} {th : Int64}
      {ps : List (Int64 × Int64)} {m maxSum : Int64} {gs : List (List Die)} :
      Threshold u.list.threshold ts (some th) → Args u.list.rolls as ps → Bonus u.bonus ms m →
      2 ≤ th → UGroups limit th ps gs →
      (gs = [] ∧ maxSum = 0 ∨ IsMax maxSum (groupSums gs)) →
      Outcome limit gameID (.uRollExpr u) (ts ++ as ++ ms ++ gs.flatten)
        { gameID := gameID,
          parts := [inParens (rollsText chars!"U" ps ++ thresholdText (some th) ++ bonusText m),
            groupsText gs m,
            intStr (maxSum + m) ++ chars!"/" ++ intStr ((gs.flatten.map Die.value).sum + m) ++
              chars!" (最大/合計)"],
          rolledDice := ts ++ as ++ ms ++ gs.flatten, success := .unspecified, isSecret := false }
  | uRollCompRefused {u : URollExpr} {op : CmpOp} {r : Expr} {ts as ms bs : List Die}
      {th : Option Int64} {ps : List (Int64 × Int64)} {m target : Int64} {msg : Str} :
      Threshold u.list.threshold ts th → Args u.list.rolls as ps → Bonus u.bonus ms m →
      Ev r bs target → Refused missingThresholdU th msg →
      Outcome limit gameID (.uRollComp u op r) (ts ++ as ++ ms ++ bs)
        { gameID := gameID,
          parts := [inParens (rollsText chars!"U" ps ++ thresholdText th ++ bonusText m ++
            op.str ++ intStr target), msg],
          rolledDice := [], success := .unspecified, isSecret := false }
  | uRollComp {u : URollExpr} {op : CmpOp} {r : Expr} {ts as ms bs : List Die} {th : Int64}
      {ps : List (Int64 × Int64)} {m target : Int64} {gs : List (List Die)} :
      Threshold u.list.threshold ts (some th) → Args u.list.rolls as ps → Bonus u.bonus ms m →
      Ev r bs target → 2 ≤ th → UGroups limit th ps gs →
      Outcome limit gameID (.uRollComp u op r) (ts ++ as ++ ms ++ bs ++ gs.flatten)
        { gameID := gameID,
          parts := [inParens (rollsText chars!"U" ps ++ thresholdText (some th) ++
              bonusText m ++ op.str ++ intStr target),
            groupsText gs m,
            chars!"成功数" ++ intStr (Int64.ofNat (successes op target
              ((groupSums gs).map (fun x => x + m))))],
          rolledDice := ts ++ as ++ ms ++ bs ++ gs.flatten, success := .unspecified,
          isSecret := false }

end GoBCDice
