import Verif.RawEval
import Verif.Spec.Dice
import Verif.Spec.Raw

/-!
# Specification: which graphs of nodes make sense

The constructors of package `ast` accept any node as an operand.  `HasType h n p τ` says that the
node at `p` of the memory `h` makes sense, and what evaluating it gives.  The rules mention one node
at a time; `n` bounds the nesting, so a node that contains itself has no type, but nodes may be
shared at will.  Nothing here depends on how the evaluator is written.
-/

namespace GoBCDice.Raw

/-- Kinds of nodes, after what evaluating them gives. -/
inductive Ty where
  /-- a number -/
  | integer
  /-- a truth value -/
  | boolean
  /-- the chosen item -/
  | text
  /-- one B or R roll: its values -/
  | roll
  /-- one U roll; it has no value by itself -/
  | uRoll
  /-- B rolls: their values -/
  | values
  /-- R rolls: groups of values -/
  | groups
  /-- U rolls without their modifier; they have no value by themselves -/
  | uList
  /-- U rolls: groups of values and the modifier -/
  | uResult
  /-- a comparison of the results of rolls with a number; it has no value by itself -/
  | compared (τ : Ty)
  /-- B rolls compared with a number -/
  | bSuccesses
  /-- R rolls compared with a number -/
  | rSuccesses
  /-- U rolls compared with a number -/
  | uSuccesses
deriving DecidableEq, Repr

/-- The nodes that have a value by themselves. -/
def Ty.HasValue (τ : Ty) : Prop := τ ≠ .uRoll ∧ τ ≠ .uList ∧ ∀ ρ, τ ≠ .compared ρ

/-- Texts of the operators that make a number of two numbers.  (The evaluator looks at the text of an
operator only, so `NewCompare("+", ...)` adds.) -/
def numberOperators : List Str := [chars!"+", chars!"-", chars!"*", chars!"D", chars!"..."]

/-- Texts of the comparison operators. -/
def comparisonOperators : List Str := [chars!"=", chars!"<>", chars!"<", chars!">", chars!"<=", chars!">="]

/-- The node at `p` is the absent threshold. -/
def IsAbsent (h : Heap) (p : Ptr) : Prop := ∃ r, p = some r ∧ h[r]? = some .nilNode

/-- The node at `p` is a string. -/
def IsString (h : Heap) (p : Ptr) : Prop := ∃ r s, p = some r ∧ h[r]? = some (.string s)

/-- The node at `p` is an addition, subtraction or multiplication (or made by `NewCompare`). -/
def IsBasicInfix (h : Heap) (p : Ptr) : Prop :=
  ∃ r k x y, p = some r ∧ h[r]? = some (.binary k x y) ∧ k.isBasicInfix = true

/-- The node at `p` is a list of rolls or a U roll. -/
def IsRolls (h : Heap) (p : Ptr) : Prop :=
  ∃ r o, p = some r ∧ h[r]? = some o ∧
    match o with
    | .bRollList _ => True
    | .rRollList _ _ => True
    | .uRollExpr _ _ => True
    | _ => False

/-- The node at `p` makes sense, with at most `n` nested nodes. -/
inductive HasType (h : Heap) : Nat → Ptr → Ty → Prop where
  | int {n r v} : h[r]? = some (.int v) → HasType h (n + 1) (some r) .integer
  | sumRoll {n r ds} : h[r]? = some (.sumRoll ds) → HasType h (n + 1) (some r) .integer
  | minus {n r x} : h[r]? = some (.unary x) → HasType h n x .integer →
      HasType h (n + 1) (some r) .integer
  | number {n r k x y} : h[r]? = some (.binary k x y) → k.operator ∈ numberOperators →
      HasType h n x .integer → HasType h n y .integer → HasType h (n + 1) (some r) .integer
  | division {n r m x y} : h[r]? = some (.binary (.div m) x y) →
      HasType h n x .integer → HasType h n y .integer → HasType h (n + 1) (some r) .integer
  | comparison {n r k x y} : h[r]? = some (.binary k x y) → k.operator ∈ comparisonOperators →
      HasType h n x .integer → HasType h n y .integer → HasType h (n + 1) (some r) .boolean
  | roll {n r k x y} : h[r]? = some (.binary k x y) → k = .bRoll ∨ k = .rRoll →
      HasType h n x .integer → HasType h n y .integer → HasType h (n + 1) (some r) .roll
  | uRoll {n r x y} : h[r]? = some (.binary .uRoll x y) →
      HasType h n x .integer → HasType h n y .integer → HasType h (n + 1) (some r) .uRoll
  | bRolls {n r ps} : h[r]? = some (.bRollList ps) → (∀ p ∈ ps, HasType h n p .roll) →
      HasType h (n + 1) (some r) .values
  | rRolls {n r ps t} : h[r]? = some (.rRollList ps t) → (∀ p ∈ ps, HasType h n p .roll) →
      (¬ IsAbsent h t → HasType h n t .integer) → 0 < n → HasType h (n + 1) (some r) .groups
  | uRolls {n r ps t} : h[r]? = some (.rRollList ps t) → (∀ p ∈ ps, HasType h n p .uRoll) →
      (¬ IsAbsent h t → HasType h n t .integer) → 0 < n → HasType h (n + 1) (some r) .uList
  | uExpr {n r list bonus} : h[r]? = some (.uRollExpr list bonus) → HasType h n list .uList →
      (bonus ≠ none → IsBasicInfix h bonus) → (bonus ≠ none → HasType h n bonus .integer) →
      HasType h (n + 1) (some r) .uResult
  | choice {n r items} : h[r]? = some (.choice items) → (∀ p ∈ items, IsString h p) →
      items.length < 2 ^ 63 → -- always true of a slice
      HasType h (n + 1) (some r) .text
  | command {n r ty e τ} : h[r]? = some (.command ty e) →
      ty = .calc ∨ ty = .dRollExpr ∨ ty = .dRollComp → τ.HasValue → τ ≠ .roll → HasType h n e τ →
      HasType h (n + 1) (some r) τ
  | compared {n r op x y τ} : h[r]? = some (.binary (.compare op) x y) → op ∈ comparisonOperators →
      τ = .values ∨ τ = .groups ∨ τ = .uResult → IsRolls h x → HasType h n x τ → HasType h n y .integer →
      HasType h (n + 1) (some r) (.compared τ)
  | bSuccesses {n r e} : h[r]? = some (.command .bRollComp e) → HasType h n e (.compared .values) →
      HasType h (n + 1) (some r) .bSuccesses
  | rSuccesses {n r e} : h[r]? = some (.command .rRollComp e) → HasType h n e (.compared .groups) →
      HasType h (n + 1) (some r) .rSuccesses
  | uSuccesses {n r e} : h[r]? = some (.command .uRollComp e) → HasType h n e (.compared .uResult) →
      HasType h (n + 1) (some r) .uSuccesses

/-- All values are numbers. -/
def Numbers (vs : List Value) : Prop := ∃ ns : List Int64, vs = ns.map .integer

/-- All values are arrays of numbers. -/
def Groups (gs : List Value) : Prop := ∃ ns : List (List Int64), gs = ns.map (fun g => .array (g.map .integer))

/-- The value of a node of the type. -/
def Ty.Fits : Ty → Value → Prop
  | .integer, v => ∃ x, v = .integer x
  | .boolean, v => ∃ b, v = .boolean b
  | .text, v => ∃ s, v = .string s
  | .roll, v => ∃ vs, v = .array vs ∧ Numbers vs
  | .values, v => ∃ vs, v = .array vs ∧ Numbers vs
  | .groups, v => ∃ gs, v = .array gs ∧ Groups gs
  | .uResult, v => ∃ gs m, v = .uRollExpr gs m ∧ Groups gs
  | .bSuccesses, v => ∃ vs k, v = .bRollComp vs k ∧ Numbers vs
  | .rSuccesses, v => ∃ gs k, v = .rRollComp gs k ∧ Groups gs
  | .uSuccesses, v => ∃ gs m k, v = .uRollComp gs m k ∧ Groups gs
  | .uRoll, _ => False
  | .uList, _ => False
  | .compared _, _ => False

/-- The errors that evaluating a node that makes sense can end in: a division by zero, a roll
that is refused or gets no dice, an empty interval, an absent threshold. -/
inductive SensibleError {σ : Type} (F : DieFeeder σ) : Str → Prop where
  | division (a : Int64) : SensibleError F (intStr a ++ chars!" divided by zero")
  | roll {num sides : Int64} {s s' : σ} {e : Str} : rollDice F num sides s = (.err e, s') →
      SensibleError F e
  | interval {a b : Int64} : b ≤ a → SensibleError F (chars!"evalRandomNumber: min (" ++ intStr a ++
      chars!") must be less than max (" ++ intStr b ++ chars!")")
  | compounding (num sides : Int64) (what : Str) :
      sides < 1 ∧ what = chars!"ダイスの面数が少なすぎます" ∨ num < 1 ∧ what = chars!"振るダイス数が少なすぎます" →
      SensibleError F (chars!"evalCompoundingRoll(num: " ++ intStr num ++ chars!", sides: " ++
        intStr sides ++ chars!"): " ++ what)
  | thresholdR : SensibleError F chars!"evalRRollList: threshold is nil"
  | thresholdU : SensibleError F chars!"evalURollList: threshold is nil"

/-- No node refers to a node that does not exist (in Go there are no dangling references). -/
def NoDangling (h : Heap) : Prop :=
  ∀ (r : Ref) (o : Obj), h[r]? = some o → match o with
    | .unary x => ∀ q, x = some q → q < h.length
    | .binary _ x y => (∀ q, x = some q → q < h.length) ∧ ∀ q, y = some q → q < h.length
    | .command _ e => ∀ q, e = some q → q < h.length
    | .bRollList ps => ∀ q, some q ∈ ps → q < h.length
    | .rRollList ps t => (∀ q, some q ∈ ps → q < h.length) ∧ ∀ q, t = some q → q < h.length
    | .uRollExpr l b => (∀ q, l = some q → q < h.length) ∧ ∀ q, b = some q → q < h.length
    | .choice ps => ∀ q, some q ∈ ps → q < h.length
    | _ => True

/-- What a command of the parser evaluates to. -/
def nodeType : Node → Ty
  | .choice _ => .text
  | .calc _ => .integer
  | .dRollExpr _ => .integer
  | .dRollComp _ _ _ => .boolean
  | .bRollList _ => .values
  | .bRollComp _ _ _ => .bSuccesses
  | .rRollList _ => .groups
  | .rRollComp _ _ _ => .rSuccesses
  | .uRollExpr _ => .uResult
  | .uRollComp _ _ _ => .uSuccesses

end GoBCDice.Raw
