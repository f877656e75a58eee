import Verif.Lemmas.PigeonInv
import Verif.Lemmas.PigeonCost

/-!
# An upper bound on the work of the generated parser: the analysis

`analyse` estimates, from the table of the grammar, how often `parseExpr` is called by an expression. Estimates have the
form `a·Nᵏ·Y + b·P·(N-1)ᵖ·Y`, where `N` exceeds the number of runes left, `Y = (Q·N³)ᵈ` for text in which parentheses are
nested `d` deep, and the second summand stands for calls of a primary expression after a sign. `Verif.Lemmas.PigeonBound`
proves the estimates right.
-/

namespace GoBCDice.Pigeon

/-- What is known of the nesting in the text left, on text nested at most `d` deep at first: at most `d - 1` deep, at most
`d` deep, nothing. -/
inductive Lv where
  | inner | base | lost
deriving DecidableEq, Repr

/-- What both say. -/
def Lv.join : Lv → Lv → Lv
  | .inner, b => b
  | a, .inner => a
  | .base, .base => .base
  | _, _ => .lost

/-- What is known of the next rune. -/
inductive Kind where
  | plus | minus | other | any
deriving DecidableEq, Repr

/-- An estimate: the two summands, what is known of the nesting after success, whether success takes a rune, whether
there can be success. -/
structure Info where
  a : Nat
  k : Nat
  b : Nat
  lv : Lv
  ne : Bool
  ok : Bool
deriving DecidableEq, Repr

/-- The constants of primary expressions, `P·Nᵖ`, and of a level of nesting, `Q·N³`. -/
def primA : Nat := 201
def primK : Nat := 2
def levelA : Nat := 1300
def levelK : Nat := 3

/-- What is claimed of a rule. `inline`: nothing, look at its body. -/
structure Entry where
  a : Nat
  k : Nat
  keeps : Bool
  flat : Bool
  prim : Bool
  inline : Bool

/-- Without the second summand. -/
def Info.absorb (x : Info) : Info :=
  if x.b = 0 then x else { x with a := x.a + x.b * primA, k := max x.k primK, b := 0 }

/-- One call more. -/
def Info.tick (x : Info) : Info := { x with a := x.a + 1 }

/-- The nesting after a literal. -/
def litLv (val : Str) (ic : Bool) (lv : Lv) : Lv :=
  if val = ['('] ∧ ic = false then
    match lv with
    | .base => .inner
    | lv => lv
  else if val = [')'] ∧ ic = false then
    match lv with
    | .inner => .base
    | _ => .lost
  else if '(' ∉ val ∧ ')' ∉ val then lv
  else .lost

/-- Can the literal match? -/
def litOk (val : Str) (ic : Bool) (kd : Kind) : Bool :=
  match kd with
  | .any => true
  | .plus => !(decide (val = ['-']) && !ic)
  | .minus => !(decide (val = ['+']) && !ic)
  | .other => !((decide (val = ['-']) || decide (val = ['+'])) && !ic)

/-- Of two alternatives. -/
def Info.alt (x y : Info) : Info :=
  ⟨x.a + y.a, max x.k y.k, x.b + y.b, if x.ok then if y.ok then x.lv.join y.lv else x.lv else y.lv,
    (!x.ok || x.ne) && (!y.ok || y.ne), x.ok || y.ok⟩

/-- One after the other. -/
def Info.followedBy (x y : Info) : Info :=
  ⟨x.a + y.a, max x.k y.k, x.b + y.b, y.lv, x.ne || y.ne, y.ok⟩

/-- The estimate of a choice, given those of expressions. -/
def anAlts (an : PExpr → Option Info) : List PExpr → Option Info
  | [] => some ⟨0, 0, 0, .inner, true, false⟩
  | e :: es =>
    match an e, anAlts an es with
    | some i, some j => some (i.alt j)
    | _, _ => none

/-- The estimate of a sequence. -/
def anSeq (an : Lv → Kind → Bool → PExpr → Option Info) : Lv → Kind → Bool → List PExpr → Option Info
  | lv, _, _, [] => some ⟨0, 0, 0, lv, false, true⟩
  | lv, kd, adv, e :: es =>
    match an lv kd adv e with
    | none => none
    | some i =>
      if i.ok then (anSeq an i.lv .any (adv || i.ne) es).map i.followedBy else some i

/-- The estimate of a repetition. -/
def anLoop (an : Lv → Kind → Bool → PExpr → Option Info) (lv : Lv) (e : PExpr) : Option Info :=
  match an lv .any false e with
  | none => none
  | some i =>
    if i.ne && decide (lv.join i.lv = lv) then
      some { i.absorb with k := i.absorb.k + 1, lv := lv, ne := false, ok := true }
    else
      match an .lost .any false e with
      | none => none
      | some i =>
        if i.ne then some { i.absorb with k := i.absorb.k + 1, lv := .lost, ne := false, ok := true } else none

/-- The estimate of an expression: `lv`, `kd` and `adv` (a rune has been taken since `N` was fixed) say where. The first
numeral bounds the recursion. -/
def analyse (rules : List (Str × PExpr)) (tab : Str → Entry) : Nat → Lv → Kind → Bool → PExpr → Option Info
  | 0, _, _, _, _ => none
  | f + 1, lv, kd, adv, e =>
    match e with
    | .action _ e => (analyse rules tab f lv kd adv e).map Info.tick
    | .any => some ⟨1, 0, 0, .lost, true, true⟩
    | .charClass _ chars ranges classes ic inv =>
      some ⟨1, 0, 0, if classHas chars ranges classes (if ic then toLowerRune ')' else ')') = inv then lv else .lost, true, true⟩
    | .choice es => (anAlts (analyse rules tab f lv kd adv) es).map Info.tick
    | .labeled _ e => (analyse rules tab f lv kd adv e).map Info.tick
    | .lit val ic => some ⟨1, 0, 0, litLv val ic lv, decide (val ≠ []), litOk val ic kd⟩
    | .not e => (analyse rules tab f lv kd adv e).map fun i => { i.tick with lv := lv, ne := false, ok := true }
    | .oneOrMore e => (anLoop (analyse rules tab f) lv e).map Info.tick
    | .zeroOrMore e => (anLoop (analyse rules tab f) lv e).map Info.tick
    | .ruleRef name =>
      match rules.lookup name with
      | none => none
      | some body =>
        let t := tab name
        let lv' := if t.keeps then lv else .lost
        if t.inline then (analyse rules tab f lv kd adv body).map Info.tick
        else if t.flat then some ⟨t.a + 1, t.k, 0, lv', false, true⟩
        else
          match lv with
          | .lost => none
          | .base =>
            if t.prim && adv then some ⟨1, 0, 1, lv', false, true⟩
            else some ⟨t.a + 1, t.k, 0, lv', false, true⟩
          | .inner => some ⟨t.a / levelA + 2, t.k - levelK, 0, lv', false, true⟩
    | .seq es => (anSeq (analyse rules tab f) lv kd adv es).map Info.tick
    | .stateCode _ => some ⟨1, 0, 0, lv, false, true⟩
    | .zeroOrOne e =>
      (analyse rules tab f lv kd adv e).map fun i => { i.tick with lv := lv.join i.lv, ne := false, ok := true }

/-- Is the claim made for a rule consistent with its body? -/
def Entry.right (rules : List (Str × PExpr)) (tab : Str → Entry) (t : Entry) (body : PExpr) : Bool :=
  t.inline ||
  (if t.prim then
    decide (t.a = primA ∧ t.k = primK) && !t.flat &&
    [Kind.plus, .minus, .other].all fun kd =>
      match analyse rules tab 20 .base kd false body with
      | none => false
      | some i => decide (i.b ≤ 1 ∧ i.a ≤ primA ∧ i.k + 1 ≤ primK ∧ (t.keeps = true → Lv.base.join i.lv = .base))
  else
    match analyse rules tab 20 (if t.flat then .lost else .base) .any false body with
    | none => false
    | some i => decide (i.absorb.a ≤ t.a ∧ i.absorb.k ≤ t.k)) &&
  (!t.keeps ||
    match analyse rules tab 20 .base .any false body with
    | none => false
    | some i => decide (Lv.base.join i.lv = .base))

/-- The claims for the rules of the code. -/
def ruleTable : List (Str × Entry) := [
  (chars!"IntExprUnaryPlus", ⟨0, 0, true, false, false, true⟩),
  (chars!"IntExprUnaryMinus", ⟨0, 0, true, false, false, true⟩),
  (chars!"DRollExprUnaryPlus", ⟨0, 0, true, false, false, true⟩),
  (chars!"DRollExprUnaryMinus", ⟨0, 0, true, false, false, true⟩),
  (chars!"IntRandExprUnaryPlus", ⟨0, 0, true, false, false, true⟩),
  (chars!"IntRandExprUnaryMinus", ⟨0, 0, true, false, false, true⟩),
  (chars!"IntExprPrimary", ⟨primA, primK, true, false, true, false⟩),
  (chars!"DRollExprPrimary", ⟨primA, primK, true, false, true, false⟩),
  (chars!"IntRandExprPrimary", ⟨primA, primK, true, false, true, false⟩),
  (chars!"Choice", ⟨50, 2, false, true, false, false⟩),
  (chars!"ChoiceItems", ⟨30, 2, false, true, false, false⟩),
  (chars!"ChoiceItem", ⟨9, 1, false, true, false, false⟩),
  (chars!"ChoiceItemChars", ⟨3, 1, false, true, false, false⟩),
  (chars!"EOT", ⟨2, 0, true, true, false, false⟩),
  (chars!"Integer", ⟨3, 1, true, true, false, false⟩),
  (chars!"CompareOp", ⟨7, 0, true, true, false, false⟩),
  (chars!"ResetRandCount", ⟨1, 0, true, true, false, false⟩),
  (chars!"IncRandCount", ⟨1, 0, true, true, false, false⟩),
  (chars!"ParenthesizedIntExpr", ⟨7, 1, true, false, false, false⟩),
  (chars!"ParenthesizedDRollExpr", ⟨7, 1, true, false, false, false⟩),
  (chars!"ParenthesizedIntRandExpr", ⟨7, 1, true, false, false, false⟩),
  (chars!"RandomNumberOperand", ⟨13, 1, true, false, false, false⟩),
  (chars!"RandomNumber", ⟨44, 1, true, false, false, false⟩),
  (chars!"RollOperand", ⟨58, 1, true, false, false, false⟩),
  (chars!"DRoll", ⟨132, 1, true, false, false, false⟩),
  (chars!"BRoll", ⟨132, 1, true, false, false, false⟩),
  (chars!"RRoll", ⟨132, 1, true, false, false, false⟩),
  (chars!"URoll", ⟨132, 1, true, false, false, false⟩),
  (chars!"IntExprMultitive", ⟨620, 3, true, false, false, false⟩),
  (chars!"DRollExprMultitive", ⟨620, 3, true, false, false, false⟩),
  (chars!"IntRandExprMultitive", ⟨620, 3, true, false, false, false⟩),
  (chars!"IntExprAdditive", ⟨1252, 4, true, false, false, false⟩),
  (chars!"DRollExprAdditive", ⟨1252, 4, true, false, false, false⟩),
  (chars!"IntRandExprAdditive", ⟨1252, 4, true, false, false, false⟩),
  (chars!"IntExpr", ⟨1253, 4, true, false, false, false⟩),
  (chars!"DRollExpr", ⟨1253, 4, true, false, false, false⟩),
  (chars!"IntRandExpr", ⟨1253, 4, true, false, false, false⟩),
  (chars!"Calc", ⟨10, 1, true, false, false, false⟩),
  (chars!"BRollList", ⟨275, 2, true, false, false, false⟩),
  (chars!"BRollComp", ⟨1550, 4, true, false, false, false⟩),
  (chars!"RRollList", ⟨1540, 4, true, false, false, false⟩),
  (chars!"URollList", ⟨1540, 4, true, false, false, false⟩),
  (chars!"URollExpr", ⟨2810, 4, true, false, false, false⟩),
  (chars!"RRollComp", ⟨2830, 4, true, false, false, false⟩),
  (chars!"DRollComp", ⟨2830, 4, true, false, false, false⟩),
  (chars!"URollComp", ⟨4100, 4, true, false, false, false⟩),
  (chars!"DRollCompCommand", ⟨2850, 4, true, false, false, false⟩),
  (chars!"DRollExprCommand", ⟨1260, 4, true, false, false, false⟩),
  (chars!"CommandWithExpression", ⟨17250, 4, true, false, false, false⟩),
  (chars!"Command", ⟨17350, 4, false, false, false, false⟩)]

/-- The claim for a rule. -/
def ruleEntry (name : Str) : Entry := (ruleTable.lookup name).getD ⟨0, 0, false, false, false, false⟩

/-- The claims are consistent. -/
theorem ruleTable_right : ∀ r ∈ goGrammar, (ruleEntry r.1).right goGrammar ruleEntry r.2 = true := by decide +kernel

end GoBCDice.Pigeon
