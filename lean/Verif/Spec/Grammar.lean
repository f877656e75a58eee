import Verif.Ast

/-!
# Specification of the command language

A context-free description of the accepted texts and of the trees they denote, independent of the
parser (no ordered choice, no greediness, no fuel, no counters).  `Der nt s e`: the text `s`, read as
the nonterminal `nt`, denotes `e`.
-/

namespace GoBCDice

/-- Which atoms an arithmetic expression may contain: only integers, also random numbers
`[a...b]`, or also dice `xDy`. -/
inductive Kind where
  | int
  | rand
  | dice
deriving DecidableEq, Repr

/-- Nonterminals. -/
inductive NT where
  | number
  | randOperand
  | randNum
  | rollOperand
  | dRoll
  | prim (k : Kind)
  | mul (k : Kind)
  | add (k : Kind)
deriving DecidableEq, Repr

/-- Arithmetic: `+ -` bind weaker than `* /`, both associate to the left; signs bind strongest; a
division may carry a rounding letter `U` or `R`. -/
inductive Der : NT → Str → Expr → Prop where
  | number {ds : Str} : ds ≠ [] → (∀ c ∈ ds, isDigit c = true) → Der .number ds (.int (atoiSat ds))
  | randOperandNum {s : Str} {e : Expr} : Der .number s e → Der .randOperand s e
  | randOperandParen {s : Str} {e : Expr} :
      Der (.add .int) s e → Der .randOperand (chars!"(" ++ s ++ chars!")") e
  | randNum {a b : Str} {x y : Expr} : Der .randOperand a x → Der .randOperand b y →
      Der .randNum (chars!"[" ++ a ++ chars!"..." ++ b ++ chars!"]") (.var .rand x y)
  | rollOperandNum {s : Str} {e : Expr} : Der .number s e → Der .rollOperand s e
  | rollOperandRand {s : Str} {e : Expr} : Der .randNum s e → Der .rollOperand s e
  | rollOperandParen {s : Str} {e : Expr} :
      Der (.add .rand) s e → Der .rollOperand (chars!"(" ++ s ++ chars!")") e
  | dRoll {a b : Str} {x y : Expr} {d : Char} : d = 'D' ∨ d = 'd' →
      Der .rollOperand a x → Der .rollOperand b y → Der .dRoll (a ++ [d] ++ b) (.var .d x y)
  | primNum {k : Kind} {s : Str} {e : Expr} : Der .number s e → Der (.prim k) s e
  | primRand {k : Kind} {s : Str} {e : Expr} : k ≠ .int → Der .randNum s e → Der (.prim k) s e
  | primDice {s : Str} {e : Expr} : Der .dRoll s e → Der (.prim .dice) s e
  | plus {k : Kind} {s : Str} {e : Expr} : Der (.prim k) s e → Der (.prim k) (chars!"+" ++ s) e
  | minus {k : Kind} {s : Str} {e : Expr} :
      Der (.prim k) s e → Der (.prim k) (chars!"-" ++ s) (.neg e)
  | paren {k : Kind} {s : Str} {e : Expr} :
      Der (.add k) s e → Der (.prim k) (chars!"(" ++ s ++ chars!")") e
  | mulPrim {k : Kind} {s : Str} {e : Expr} : Der (.prim k) s e → Der (.mul k) s e
  | mulMul {k : Kind} {s t : Str} {l r : Expr} : Der (.mul k) s l → Der (.prim k) t r →
      Der (.mul k) (s ++ chars!"*" ++ t) (.bin .mul l r)
  | mulDiv {k : Kind} {s t : Str} {l r : Expr} : Der (.mul k) s l → Der (.prim k) t r →
      Der (.mul k) (s ++ chars!"/" ++ t) (.div .down l r)
  | mulDivUp {k : Kind} {s t : Str} {l r : Expr} {u : Char} : u = 'U' ∨ u = 'u' →
      Der (.mul k) s l → Der (.prim k) t r →
      Der (.mul k) (s ++ chars!"/" ++ t ++ [u]) (.div .up l r)
  | mulDivRound {k : Kind} {s t : Str} {l r : Expr} {u : Char} : u = 'R' ∨ u = 'r' →
      Der (.mul k) s l → Der (.prim k) t r →
      Der (.mul k) (s ++ chars!"/" ++ t ++ [u]) (.div .round l r)
  | addMul {k : Kind} {s : Str} {e : Expr} : Der (.mul k) s e → Der (.add k) s e
  | addAdd {k : Kind} {s t : Str} {l r : Expr} : Der (.add k) s l → Der (.mul k) t r →
      Der (.add k) (s ++ chars!"+" ++ t) (.bin .add l r)
  | addSub {k : Kind} {s t : Str} {l r : Expr} : Der (.add k) s l → Der (.mul k) t r →
      Der (.add k) (s ++ chars!"-" ++ t) (.bin .sub l r)

/-- Number of random elements (dice rolls and random numbers) in an expression. -/
def Expr.rands : Expr → Nat
  | .int _ => 0
  | .sumRoll _ => 0
  | .neg r => r.rands
  | .bin _ l r => l.rands + r.rands
  | .div _ l r => l.rands + r.rands
  | .var _ l r => l.rands + r.rands + 1

/-- A roll `xLy` whose letter `L` is given in both cases. -/
def RollText (letters : Char × Char) (s : Str) (r : Roll) : Prop :=
  ∃ a b l, s = a ++ [l] ++ b ∧ (l = letters.1 ∨ l = letters.2) ∧
    Der .rollOperand a r.num ∧ Der .rollOperand b r.sides

/-- One or more rolls joined by `+`. -/
inductive RollsText (letters : Char × Char) : Str → List Roll → Prop where
  | one {s : Str} {r : Roll} : RollText letters s r → RollsText letters s [r]
  | cons {s t : Str} {r : Roll} {rs : List Roll} : RollText letters s r →
      RollsText letters t rs → RollsText letters (s ++ chars!"+" ++ t) (r :: rs)

/-- An optional reroll threshold `[e]`. -/
inductive ThresholdText : Str → Option Expr → Prop where
  | absent : ThresholdText [] none
  | given {s : Str} {e : Expr} : Der (.add .int) s e →
      ThresholdText (chars!"[" ++ s ++ chars!"]") (some e)

/-- Rolls with an optional reroll threshold. -/
def RRollsText (letters : Char × Char) (s : Str) (rl : RRollList) : Prop :=
  ∃ a b, s = a ++ b ∧ RollsText letters a rl.rolls ∧ ThresholdText b rl.threshold

/-- The optional bonus of a U roll: a sign followed by a whole integer expression. -/
inductive BonusText : Str → Option (Sign × Expr) → Prop where
  | absent : BonusText [] none
  | plus {s : Str} {e : Expr} : Der (.add .int) s e → BonusText (chars!"+" ++ s) (some (.plus, e))
  | minus {s : Str} {e : Expr} : Der (.add .int) s e → BonusText (chars!"-" ++ s) (some (.minus, e))

/-- A U roll with optional threshold and bonus. -/
def URollText (s : Str) (u : URollExpr) : Prop :=
  ∃ a b, s = a ++ b ∧ RRollsText ('U', 'u') a u.list ∧ BonusText b u.bonus

/-- A comparison `op e` at the end of a command. -/
inductive CompareText : Str → CmpOp → Expr → Prop where
  | mk {s : Str} {op : CmpOp} {e : Expr} : Der (.add .int) s e → CompareText (op.str ++ s) op e

/-- One character, compared without regard to case (`U+0130` counts as `i`, as in Go's
`unicode.ToLower`). -/
def SameLetter (lower : Char) (x : Char) : Prop :=
  x = lower ∨ (x.toNat + 32 = lower.toNat ∧ 'A' ≤ x ∧ x ≤ 'Z') ∨ (lower = 'i' ∧ x = '\u0130')

/-- A word, compared letter by letter without regard to case. -/
def SameWord : Str → Str → Prop
  | [], [] => True
  | l :: ls, x :: xs => SameLetter l x ∧ SameWord ls xs
  | _, _ => False

/-- A separator: Unicode category Z. -/
def Separator (c : Char) : Prop :=
  c ∈ [' ', '\u00a0', '\u1680', '\u2000', '\u2001', '\u2002', '\u2003', '\u2004', '\u2005',
    '\u2006', '\u2007', '\u2008', '\u2009', '\u200a', '\u2028', '\u2029', '\u202f', '\u205f',
    '\u3000']

/-- White space in the sense of Go's `unicode.IsSpace`. -/
def WhiteSpace (c : Char) : Prop :=
  c ∈ ['\t', '\n', '\x0b', '\x0c', '\r', '\u0085'] ∨ Separator c

/-- `t` is `s` without its leading and trailing white space. -/
def Trimmed (s t : Str) : Prop :=
  ∃ a b, s = a ++ t ++ b ∧ (∀ c ∈ a, WhiteSpace c) ∧ (∀ c ∈ b, WhiteSpace c) ∧
    (∀ c ∈ t.head?, ¬ WhiteSpace c) ∧ (∀ c ∈ t.getLast?, ¬ WhiteSpace c)

/-- An item of a choice: any text without `,` and `]` that does not consist of separators only;
it denotes the trimmed text. -/
def ItemText (raw item : Str) : Prop :=
  (∀ c ∈ raw, c ≠ ',' ∧ c ≠ ']') ∧ (∃ c ∈ raw, ¬ Separator c) ∧ Trimmed raw item

/-- Items joined by commas. -/
inductive ItemsText : Str → List Str → Prop where
  | one {raw item : Str} : ItemText raw item → ItemsText raw [item]
  | cons {raw item s : Str} {items : List Str} : ItemText raw item → ItemsText s items →
      ItemsText (raw ++ chars!"," ++ s) (item :: items)

/-- The commands.  Roll commands must span the whole text; after the closing bracket of a choice and
the closing parenthesis of a calculation anything may follow. -/
inductive CommandText : Str → Node → Prop where
  | choice {kw body seps rest : Str} {items : List Str} :
      SameWord chars!"choice" kw → ItemsText body items →
      (seps = [] ∨ ∃ t, seps = chars!"," ++ t ∧ ∀ c ∈ t, Separator c) →
      CommandText (kw ++ chars!"[" ++ body ++ seps ++ chars!"]" ++ rest) (.choice items)
  | calc {s rest : Str} {e : Expr} {c : Char} : c = 'C' ∨ c = 'c' → Der (.add .int) s e →
      CommandText ([c] ++ chars!"(" ++ s ++ chars!")" ++ rest) (.calc e)
  | bRollList {s : Str} {rs : List Roll} : RollsText ('B', 'b') s rs →
      CommandText s (.bRollList rs)
  | bRollComp {s t : Str} {rs : List Roll} {op : CmpOp} {e : Expr} :
      RollsText ('B', 'b') s rs → CompareText t op e → CommandText (s ++ t) (.bRollComp rs op e)
  | rRollList {s : Str} {rl : RRollList} : RRollsText ('R', 'r') s rl →
      CommandText s (.rRollList rl)
  | rRollComp {s t : Str} {rl : RRollList} {op : CmpOp} {e : Expr} :
      RRollsText ('R', 'r') s rl → CompareText t op e → CommandText (s ++ t) (.rRollComp rl op e)
  | uRollExpr {s : Str} {u : URollExpr} : URollText s u → CommandText s (.uRollExpr u)
  | uRollComp {s t : Str} {u : URollExpr} {op : CmpOp} {e : Expr} :
      URollText s u → CompareText t op e → CommandText (s ++ t) (.uRollComp u op e)
  | dRollExpr {s : Str} {e : Expr} : Der (.add .dice) s e → 1 ≤ e.rands →
      CommandText s (.dRollExpr e)
  | dRollComp {s t : Str} {l : Expr} {op : CmpOp} {e : Expr} :
      Der (.add .dice) s l → 1 ≤ l.rands → CompareText t op e →
      CommandText (s ++ t) (.dRollComp l op e)

end GoBCDice
