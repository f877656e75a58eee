import Verif.Spec.Command

/-!
# Specification of the executions that end without a result

`CommandStops limit node ds c`: after consuming exactly the dice `ds`, the execution of the command `node`
ends for the reason `c`.  Together with `Outcome` it describes every execution.
-/

namespace GoBCDice

/-- Why an execution ends without a result. -/
inductive Cause where
  /-- the program itself returns this error -/
  | refusal (msg : Str)
  /-- a run-time panic of the program itself -/
  | crash
  /-- the feeder, asked for a die with these sides, gives none -/
  | noDie (sides : Int64)
  /-- the feeder, asked for one of `num` dice with these sides, gives a die with other sides -/
  | otherDie (num sides : Int64) (d : Die)
deriving DecidableEq, Repr

/-- What the caller gets instead of a result. -/
inductive Ending where
  | error (msg : Str)
  | panic
deriving DecidableEq, Repr

/-- Text of the calls of `RollDice` in error messages. -/
def rollCallText (num sides : Int64) : Str :=
  chars!"RollDice(num: " ++ intStr num ++ chars!", sides: " ++ intStr sides ++ chars!")"

/-- `Ends F f c f' e`: with the feeder in state `f`, the cause `c` leads to the ending `e` and
leaves the feeder in state `f'`. -/
inductive Ends {σ : Type} (F : DieFeeder σ) (f : σ) : Cause → σ → Ending → Prop where
  | refusal {msg : Str} : Ends F f (.refusal msg) f (.error msg)
  | crash : Ends F f .crash f .panic
  | noDie {sides : Int64} {f' : σ} {msg : Str} :
      F.next f sides = (.err msg, f') → Ends F f (.noDie sides) f' (.error msg)
  | noDiePanic {sides : Int64} {f' : σ} {msg : Str} :
      F.next f sides = (.panic msg, f') → Ends F f (.noDie sides) f' .panic
  | otherDie {num sides : Int64} {d : Die} {f' : σ} :
      F.next f sides = (.ok d, f') → d.sides ≠ sides →
      Ends F f (.otherDie num sides d) f'
        (.error (rollCallText num sides ++ chars!" -> " ++ intStr d.value ++ chars!"/" ++
          intStr d.sides ++ chars!": ダイスの面数が指定と一致しません"))

/-- Rolling `x` dice with `y` sides ends after the dice `ds`. -/
inductive RollStops (x y : Int64) : List Die → Cause → Prop where
  | sides : y < 1 →
      RollStops x y [] (.refusal (rollCallText x y ++ chars!": ダイスの面数が少なすぎます"))
  | num : 1 ≤ y → x < 1 →
      RollStops x y [] (.refusal (rollCallText x y ++ chars!": 振るダイス数が少なすぎます"))
  | memory : 1 ≤ y → 2 ^ 44 < x.toInt → RollStops x y [] .crash
  | noDie {ds : List Die} : 1 ≤ y → x.toInt ≤ 2 ^ 44 → (ds.length : Int) < x.toInt →
      (∀ d ∈ ds, d.sides = y) → RollStops x y ds (.noDie y)
  | otherDie {ds : List Die} {d : Die} : 1 ≤ y → x.toInt ≤ 2 ^ 44 → (ds.length : Int) < x.toInt →
      (∀ d ∈ ds, d.sides = y) → d.sides ≠ y → RollStops x y ds (.otherDie x y d)

/-- Evaluating an expression ends after the dice `ds`: operands are evaluated from left to
right. -/
inductive EvStops : Expr → List Die → Cause → Prop where
  | neg {r : Expr} {ds : List Die} {c : Cause} : EvStops r ds c → EvStops (.neg r) ds c
  | binLeft {op : BinOp} {l r : Expr} {ds : List Die} {c : Cause} :
      EvStops l ds c → EvStops (.bin op l r) ds c
  | binRight {op : BinOp} {l r : Expr} {ds es : List Die} {a : Int64} {c : Cause} :
      Ev l ds a → EvStops r es c → EvStops (.bin op l r) (ds ++ es) c
  | divLeft {m : Rounding} {l r : Expr} {ds : List Die} {c : Cause} :
      EvStops l ds c → EvStops (.div m l r) ds c
  | divRight {m : Rounding} {l r : Expr} {ds es : List Die} {a : Int64} {c : Cause} :
      Ev l ds a → EvStops r es c → EvStops (.div m l r) (ds ++ es) c
  /-- division by zero -/
  | divZero {m : Rounding} {l r : Expr} {ds es : List Die} {a : Int64} :
      Ev l ds a → Ev r es 0 →
      EvStops (.div m l r) (ds ++ es) (.refusal (intStr a ++ chars!" divided by zero"))
  | varLeft {k : VarKind} {l r : Expr} {ds : List Die} {c : Cause} :
      EvStops l ds c → EvStops (.var k l r) ds c
  | varRight {k : VarKind} {l r : Expr} {ds es : List Die} {a : Int64} {c : Cause} :
      Ev l ds a → EvStops r es c → EvStops (.var k l r) (ds ++ es) c
  /-- the roll itself -/
  | d {l r : Expr} {ds es rs : List Die} {x y : Int64} {c : Cause} :
      Ev l ds x → Ev r es y → RollStops x y rs c → EvStops (.var .d l r) (ds ++ es ++ rs) c
  /-- an empty interval of random numbers -/
  | randOrder {l r : Expr} {ds es : List Die} {lo hi : Int64} :
      Ev l ds lo → Ev r es hi → hi ≤ lo →
      EvStops (.var .rand l r) (ds ++ es)
        (.refusal (chars!"evalRandomNumber: min (" ++ intStr lo ++
          chars!") must be less than max (" ++ intStr hi ++ chars!")"))
  | rand {l r : Expr} {ds es rs : List Die} {lo hi : Int64} {c : Cause} :
      Ev l ds lo → Ev r es hi → lo < hi → RollStops 1 (hi - lo + 1) rs c →
      EvStops (.var .rand l r) (ds ++ es ++ rs) c

/-- Evaluating the operands of the rolls of a list ends. -/
inductive ArgsStop : List Roll → List Die → Cause → Prop where
  | num {r : Roll} {rest : List Roll} {ds : List Die} {c : Cause} :
      EvStops r.num ds c → ArgsStop (r :: rest) ds c
  | sides {r : Roll} {rest : List Roll} {ds es : List Die} {x : Int64} {c : Cause} :
      Ev r.num ds x → EvStops r.sides es c → ArgsStop (r :: rest) (ds ++ es) c
  | later {r : Roll} {rest : List Roll} {ds es as : List Die} {x y : Int64} {c : Cause} :
      Ev r.num ds x → Ev r.sides es y → ArgsStop rest as c →
      ArgsStop (r :: rest) (ds ++ es ++ as) c

/-- Rolling a list of (number, sides) pairs ends. -/
inductive GroupsStop : List (Int64 × Int64) → List Die → Cause → Prop where
  | first {x y : Int64} {ps : List (Int64 × Int64)} {ds : List Die} {c : Cause} :
      RollStops x y ds c → GroupsStop ((x, y) :: ps) ds c
  | later {x y : Int64} {ps : List (Int64 × Int64)} {g ds : List Die} {c : Cause} :
      Rolled x y g → GroupsStop ps ds c → GroupsStop ((x, y) :: ps) (g ++ ds) c

/-- The rolls and rerolls of an R roll end; compare `RGroups`. -/
inductive RGroupsStop (th : Int64) : Nat → List (Int64 × Int64) → List Die → Cause → Prop where
  | first {n : Nat} {x y : Int64} {pending : List (Int64 × Int64)} {ds : List Die} {c : Cause} :
      RollStops x y ds c → RGroupsStop th (n + 1) ((x, y) :: pending) ds c
  | later {n : Nat} {x y : Int64} {pending : List (Int64 × Int64)} {g ds : List Die} {c : Cause} :
      Rolled x y g →
      RGroupsStop th n
        (pending ++
          (if (g.filter (fun d => th ≤ d.value)).length = 0 then []
           else [(Int64.ofNat (g.filter (fun d => th ≤ d.value)).length, y)])) ds c →
      RGroupsStop th (n + 1) ((x, y) :: pending) (g ++ ds) c

/-- Text of the calls that roll `xUy` in error messages. -/
def uRollCallText (num sides : Int64) : Str :=
  chars!"evalCompoundingRoll(num: " ++ intStr num ++ chars!", sides: " ++ intStr sides ++ chars!")"

/-- The chains of one U roll `xUy` end; compare `UGroupsOne`. -/
inductive UOneStops (limit : Nat) (th x y : Int64) : List Die → Cause → Prop where
  | sides : y < 1 →
      UOneStops limit th x y [] (.refusal (uRollCallText x y ++ chars!": ダイスの面数が少なすぎます"))
  | num : 1 ≤ y → x < 1 →
      UOneStops limit th x y [] (.refusal (uRollCallText x y ++ chars!": 振るダイス数が少なすぎます"))
  | memory : 1 ≤ y → 2 ^ 44 < x.toInt → UOneStops limit th x y [] .crash
  /-- after the complete chains `gs` and the dice `g` of the next one, all of which reach the
  threshold -/
  | chain {gs : List (List Die)} {g rs : List Die} {c : Cause} :
      1 ≤ y → x.toInt ≤ 2 ^ 44 → (gs.length : Int) < x.toInt → (∀ g ∈ gs, UChain y th limit g) →
      g.length < limit → (∀ d ∈ g, d.sides = y ∧ th ≤ d.value) → RollStops 1 y rs c →
      UOneStops limit th x y (gs.flatten ++ g ++ rs) c

/-- The chains of a list of U rolls end. -/
inductive UGroupsStop (limit : Nat) (th : Int64) :
    List (Int64 × Int64) → List Die → Cause → Prop where
  | first {x y : Int64} {ps : List (Int64 × Int64)} {ds : List Die} {c : Cause} :
      UOneStops limit th x y ds c → UGroupsStop limit th ((x, y) :: ps) ds c
  | later {p : Int64 × Int64} {ps : List (Int64 × Int64)} {gs : List (List Die)} {ds : List Die}
      {c : Cause} :
      UGroupsOne limit th p gs → UGroupsStop limit th ps ds c →
      UGroupsStop limit th (p :: ps) (gs.flatten ++ ds) c

/-- Stage 1 of a D command ends; compare `DArgs`. -/
inductive DArgsStop : Expr → List Die → Cause → Prop where
  | neg {r : Expr} {ds : List Die} {c : Cause} : DArgsStop r ds c → DArgsStop (.neg r) ds c
  | binLeft {op : BinOp} {l r : Expr} {ds : List Die} {c : Cause} :
      DArgsStop l ds c → DArgsStop (.bin op l r) ds c
  | binRight {op : BinOp} {l r l' : Expr} {ds es : List Die} {c : Cause} :
      DArgs l ds l' → DArgsStop r es c → DArgsStop (.bin op l r) (ds ++ es) c
  | divLeft {m : Rounding} {l r : Expr} {ds : List Die} {c : Cause} :
      DArgsStop l ds c → DArgsStop (.div m l r) ds c
  | divRight {m : Rounding} {l r l' : Expr} {ds es : List Die} {c : Cause} :
      DArgs l ds l' → DArgsStop r es c → DArgsStop (.div m l r) (ds ++ es) c
  | num {l r : Expr} {ds : List Die} {c : Cause} :
      EvStops l ds c → DArgsStop (.var .d l r) ds c
  | sides {l r : Expr} {ds es : List Die} {x : Int64} {c : Cause} :
      Ev l ds x → EvStops r es c → DArgsStop (.var .d l r) (ds ++ es) c
  /-- a random number as a term (finding 3) -/
  | rand {l r : Expr} :
      DArgsStop (.var .rand l r) []
        (.refusal chars!"evalVarArgsOfVariableExpr not implemented: RandomNumber")

/-- Stage 2 of a D command ends; compare `DDice`. -/
inductive DDiceStop : Expr → List Die → Cause → Prop where
  | neg {r : Expr} {ds : List Die} {c : Cause} : DDiceStop r ds c → DDiceStop (.neg r) ds c
  | binLeft {op : BinOp} {l r : Expr} {ds : List Die} {c : Cause} :
      DDiceStop l ds c → DDiceStop (.bin op l r) ds c
  | binRight {op : BinOp} {l r l' : Expr} {ds es : List Die} {c : Cause} :
      DDice l ds l' → DDiceStop r es c → DDiceStop (.bin op l r) (ds ++ es) c
  | divLeft {m : Rounding} {l r : Expr} {ds : List Die} {c : Cause} :
      DDiceStop l ds c → DDiceStop (.div m l r) ds c
  | divRight {m : Rounding} {l r l' : Expr} {ds es : List Die} {c : Cause} :
      DDice l ds l' → DDiceStop r es c → DDiceStop (.div m l r) (ds ++ es) c
  | roll {x y : Int64} {ds : List Die} {c : Cause} :
      RollStops x y ds c → DDiceStop (.var .d (.int x) (.int y)) ds c
  /-- a computed number of dice on the left of a comparison (finding 2) -/
  | num {l r : Expr} : (∀ x, l ≠ .int x) →
      DDiceStop (.var .d l r) [] (.refusal (chars!"num is not Int: " ++ l.typeName))
  | sides {x : Int64} {r : Expr} : (∀ y, r ≠ .int y) →
      DDiceStop (.var .d (.int x) r) [] (.refusal (chars!"sides is not Int: " ++ r.typeName))
  | rand {l r : Expr} :
      DDiceStop (.var .rand l r) []
        (.refusal chars!"determineValueOfVariableExpr not implemented: RandomNumber")

/-- Stage 1 on the left side of a D comparison: unlike elsewhere the operands of a roll that is the
whole left side are not evaluated, only prepared (finding 2). -/
inductive DLeftArgs : Expr → List Die → Expr → Prop where
  | var {k : VarKind} {l r l' r' : Expr} {as bs : List Die} :
      DArgs l as l' → DArgs r bs r' → DLeftArgs (.var k l r) (as ++ bs) (.var k l' r')
  | neg {r e' : Expr} {as : List Die} : DArgs (.neg r) as e' → DLeftArgs (.neg r) as e'
  | bin {op : BinOp} {l r e' : Expr} {as : List Die} :
      DArgs (.bin op l r) as e' → DLeftArgs (.bin op l r) as e'
  | div {m : Rounding} {l r e' : Expr} {as : List Die} :
      DArgs (.div m l r) as e' → DLeftArgs (.div m l r) as e'

/-- Stage 1 on the left side of a D comparison ends. -/
inductive DLeftStop : Expr → List Die → Cause → Prop where
  | int {v : Int64} : DLeftStop (.int v) [] (.refusal chars!"EvalVarArgs not implemented: Int")
  | sumRoll {ds : List Die} :
      DLeftStop (.sumRoll ds) [] (.refusal chars!"EvalVarArgs not implemented: SumRollResult")
  | varLeft {k : VarKind} {l r : Expr} {as : List Die} {c : Cause} :
      DArgsStop l as c → DLeftStop (.var k l r) as c
  | varRight {k : VarKind} {l r l' : Expr} {as bs : List Die} {c : Cause} :
      DArgs l as l' → DArgsStop r bs c → DLeftStop (.var k l r) (as ++ bs) c
  | neg {r : Expr} {as : List Die} {c : Cause} : DArgsStop (.neg r) as c → DLeftStop (.neg r) as c
  | bin {op : BinOp} {l r : Expr} {as : List Die} {c : Cause} :
      DArgsStop (.bin op l r) as c → DLeftStop (.bin op l r) as c
  | div {m : Rounding} {l r : Expr} {as : List Die} {c : Cause} :
      DArgsStop (.div m l r) as c → DLeftStop (.div m l r) as c

/-- The value of an optional threshold, or of the bonus, ends. -/
inductive OptStops : Option Expr → List Die → Cause → Prop where
  | some {e : Expr} {ds : List Die} {c : Cause} : EvStops e ds c → OptStops (some e) ds c

/-- The threshold and the operands of a roll list, in this order, end. -/
inductive ListStops (rl : RRollList) : List Die → Cause → Prop where
  | threshold {ds : List Die} {c : Cause} : OptStops rl.threshold ds c → ListStops rl ds c
  | args {ts ds : List Die} {th : Option Int64} {c : Cause} :
      Threshold rl.threshold ts th → ArgsStop rl.rolls ds c → ListStops rl (ts ++ ds) c

/-- The same with the bonus of a U roll, which comes last. -/
inductive URollStops (u : URollExpr) : List Die → Cause → Prop where
  | list {ds : List Die} {c : Cause} : ListStops u.list ds c → URollStops u ds c
  | bonus {ts as ds : List Die} {th : Option Int64} {ps : List (Int64 × Int64)} {c : Cause} :
      Threshold u.list.threshold ts th → Args u.list.rolls as ps →
      OptStops (u.bonus.map Prod.snd) ds c → URollStops u (ts ++ as ++ ds) c

/-- Commands that end without a result. -/
inductive CommandStops (limit : Nat) : Node → List Die → Cause → Prop where
  | choice {items : List Str} {ds : List Die} {c : Cause} :
      RollStops 1 (Int64.ofNat items.length) ds c → CommandStops limit (.choice items) ds c
  /-- the die shows no item -/
  | choiceItem {items : List Str} {d : Die} :
      Rolled 1 (Int64.ofNat items.length) [d] →
      (d.value - 1 < 0 ∨ items[(d.value - 1).toInt.toNat]? = none) →
      CommandStops limit (.choice items) [d] .crash
  | calc {e : Expr} {ds : List Die} {c : Cause} : EvStops e ds c → CommandStops limit (.calc e) ds c
  | dArgs {e : Expr} {as : List Die} {c : Cause} :
      DArgsStop e as c → CommandStops limit (.dRollExpr e) as c
  | dDice {e e1 : Expr} {as rs : List Die} {c : Cause} :
      DArgs e as e1 → DDiceStop e1 rs c → CommandStops limit (.dRollExpr e) (as ++ rs) c
  | dValue {e e1 e2 : Expr} {as rs : List Die} {c : Cause} :
      DArgs e as e1 → DDice e1 rs e2 → EvStops e2 [] c → CommandStops limit (.dRollExpr e) (as ++ rs) c
  | dcArgs {l r : Expr} {op : CmpOp} {as : List Die} {c : Cause} :
      DLeftStop l as c → CommandStops limit (.dRollComp l op r) as c
  | dcTarget {l l1 r : Expr} {op : CmpOp} {as bs : List Die} {c : Cause} :
      DLeftArgs l as l1 → EvStops r bs c → CommandStops limit (.dRollComp l op r) (as ++ bs) c
  | dcDice {l l1 r : Expr} {op : CmpOp} {as bs rs : List Die} {t : Int64} {c : Cause} :
      DLeftArgs l as l1 → Ev r bs t → DDiceStop l1 rs c →
      CommandStops limit (.dRollComp l op r) (as ++ bs ++ rs) c
  | dcValue {l l1 l2 r : Expr} {op : CmpOp} {as bs rs : List Die} {t : Int64} {c : Cause} :
      DLeftArgs l as l1 → Ev r bs t → DDice l1 rs l2 → EvStops l2 [] c →
      CommandStops limit (.dRollComp l op r) (as ++ bs ++ rs) c
  | bArgs {rolls : List Roll} {as : List Die} {c : Cause} :
      ArgsStop rolls as c → CommandStops limit (.bRollList rolls) as c
  | bDice {rolls : List Roll} {as ds : List Die} {ps : List (Int64 × Int64)} {c : Cause} :
      Args rolls as ps → GroupsStop ps ds c → CommandStops limit (.bRollList rolls) (as ++ ds) c
  | bcArgs {rolls : List Roll} {op : CmpOp} {r : Expr} {as : List Die} {c : Cause} :
      ArgsStop rolls as c → CommandStops limit (.bRollComp rolls op r) as c
  | bcTarget {rolls : List Roll} {op : CmpOp} {r : Expr} {as bs : List Die}
      {ps : List (Int64 × Int64)} {c : Cause} :
      Args rolls as ps → EvStops r bs c → CommandStops limit (.bRollComp rolls op r) (as ++ bs) c
  | bcDice {rolls : List Roll} {op : CmpOp} {r : Expr} {as bs ds : List Die}
      {ps : List (Int64 × Int64)} {t : Int64} {c : Cause} :
      Args rolls as ps → Ev r bs t → GroupsStop ps ds c →
      CommandStops limit (.bRollComp rolls op r) (as ++ bs ++ ds) c
  | rArgs {rl : RRollList} {ds : List Die} {c : Cause} :
      ListStops rl ds c → CommandStops limit (.rRollList rl) ds c
  | rDice {rl : RRollList} {ts as ds : List Die} {th : Int64} {ps : List (Int64 × Int64)}
      {c : Cause} :
      Threshold rl.threshold ts (some th) → Args rl.rolls as ps → 2 ≤ th →
      RGroupsStop th limit ps ds c → CommandStops limit (.rRollList rl) (ts ++ as ++ ds) c
  | rcArgs {rl : RRollList} {op : CmpOp} {r : Expr} {ds : List Die} {c : Cause} :
      ListStops rl ds c → CommandStops limit (.rRollComp rl op r) ds c
  | rcTarget {rl : RRollList} {op : CmpOp} {r : Expr} {ts as ds : List Die} {th : Option Int64}
      {ps : List (Int64 × Int64)} {c : Cause} :
      Threshold rl.threshold ts th → Args rl.rolls as ps → EvStops r ds c →
      CommandStops limit (.rRollComp rl op r) (ts ++ as ++ ds) c
  | rcDice {rl : RRollList} {op : CmpOp} {r : Expr} {ts as bs ds : List Die} {th : Option Int64}
      {th' target : Int64} {ps : List (Int64 × Int64)} {c : Cause} :
      Threshold rl.threshold ts th → Args rl.rolls as ps → Ev r bs target →
      orTarget th target = some th' → 2 ≤ th' → RGroupsStop th' limit ps ds c →
      CommandStops limit (.rRollComp rl op r) (ts ++ as ++ bs ++ ds) c
  | uArgs {u : URollExpr} {ds : List Die} {c : Cause} :
      URollStops u ds c → CommandStops limit (.uRollExpr u) ds c
  | uDice {u : URollExpr} {ts as ms ds : List Die} {th m : Int64} {ps : List (Int64 × Int64)}
      {c : Cause} :
      Threshold u.list.threshold ts (some th) → Args u.list.rolls as ps → Bonus u.bonus ms m →
      2 ≤ th → UGroupsStop limit th ps ds c → CommandStops limit (.uRollExpr u) (ts ++ as ++ ms ++ ds) c
  | ucArgs {u : URollExpr} {op : CmpOp} {r : Expr} {ds : List Die} {c : Cause} :
      URollStops u ds c → CommandStops limit (.uRollComp u op r) ds c
  | ucTarget {u : URollExpr} {op : CmpOp} {r : Expr} {ts as ms ds : List Die} {th : Option Int64}
      {ps : List (Int64 × Int64)} {m : Int64} {c : Cause} :
      Threshold u.list.threshold ts th → Args u.list.rolls as ps → Bonus u.bonus ms m →
      EvStops r ds c → CommandStops limit (.uRollComp u op r) (ts ++ as ++ ms ++ ds) c
  | ucDice {u : URollExpr} {op : CmpOp} {r : Expr} {ts as ms bs ds : List Die} {th m t : Int64}
      {ps : List (Int64 × Int64)} {c : Cause} :
      Threshold u.list.threshold ts (some th) → Args u.list.rolls as ps → Bonus u.bonus ms m →
      Ev r bs t → 2 ≤ th → UGroupsStop limit th ps ds c →
      CommandStops limit (.uRollComp u op r) (ts ++ as ++ ms ++ bs ++ ds) c

end GoBCDice
