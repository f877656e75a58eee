import Verif.Spec.Pigeon

/-!
# Parsing expression grammars and what a parse misses

The meaning of a table of parsing expressions on a text, without values, stacks, saved positions or
counters: an expression started at a position of the text matches up to another position, or does
not match, and on the way some terminals are missed.  A terminal is missed where it does not match,
and, within a negation, where it does.
-/

namespace GoBCDice

open Pigeon (PExpr)

/-- The expressions that look at the text itself. -/
def isTerminal : PExpr → Bool
  | .any => true
  | .lit .. => true
  | .charClass .. => true
  | _ => false

/-- Does the terminal match the beginning of the text?  If so, how many characters? -/
def termMatch : PExpr → Str → Option Nat
  | .any, _ :: _ => some 1
  | .lit val ignoreCase, s =>
    if (s.take val.length).map (fun c => if ignoreCase then toLowerRune c else c) = val
    then some val.length else none
  | .charClass _ chars ranges classes ignoreCase inverted, c :: _ =>
    let x := if ignoreCase then toLowerRune c else c
    if Pigeon.classHas chars ranges classes x then (if inverted then none else some 1)
    else (if inverted then some 1 else none)
  | _, _ => none

/-- How a terminal is written in a message. -/
def termShown : PExpr → Str
  | .any => chars!"."
  | .lit val ignoreCase => chars!"\"" ++ val ++ chars!"\"" ++ (if ignoreCase then chars!"i" else [])
  | .charClass val .. => val
  | _ => []

/-- `Peg rules text neg e k r misses`: with the rules, on the text, the expression started at position
`k` matches up to `k'` (`r = some k'`) or does not match (`r = none`), and misses the terminals
listed at the positions listed; `neg` says whether it is within an odd number of negations. -/
inductive Peg (rules : List (Str × PExpr)) (text : Str) :
    Bool → PExpr → Nat → Option Nat → List (Nat × Str) → Prop where
  | hit {neg : Bool} {t : PExpr} {k n : Nat} : termMatch t (text.drop k) = some n →
      Peg rules text neg t k (some (k + n)) (if neg then [(k, chars!"!" ++ termShown t)] else [])
  | miss {neg : Bool} {t : PExpr} {k : Nat} : isTerminal t = true → termMatch t (text.drop k) = none →
      Peg rules text neg t k none (if neg then [] else [(k, termShown t)])
  | action {neg : Bool} {a : Pigeon.Action} {e : PExpr} {k : Nat} {r : Option Nat} {m : List (Nat × Str)} :
      Peg rules text neg e k r m → Peg rules text neg (.action a e) k r m
  | labeled {neg : Bool} {l : Str} {e : PExpr} {k : Nat} {r : Option Nat} {m : List (Nat × Str)} :
      Peg rules text neg e k r m → Peg rules text neg (.labeled l e) k r m
  | rule {neg : Bool} {name : Str} {e : PExpr} {k : Nat} {r : Option Nat} {m : List (Nat × Str)} :
      rules.lookup name = some e → Peg rules text neg e k r m → Peg rules text neg (.ruleRef name) k r m
  | noRule {neg : Bool} {name : Str} {k : Nat} : rules.lookup name = none →
      Peg rules text neg (.ruleRef name) k none []
  | stateCode {neg : Bool} {a : Pigeon.StateAction} {k : Nat} :
      Peg rules text neg (.stateCode a) k (some k) []
  | choiceNil {neg : Bool} {k : Nat} : Peg rules text neg (.choice []) k none []
  | choiceHit {neg : Bool} {e : PExpr} {es : List PExpr} {k k' : Nat} {m : List (Nat × Str)} :
      Peg rules text neg e k (some k') m → Peg rules text neg (.choice (e :: es)) k (some k') m
  | choiceNext {neg : Bool} {e : PExpr} {es : List PExpr} {k : Nat} {r : Option Nat}
      {m m' : List (Nat × Str)} :
      Peg rules text neg e k none m → Peg rules text neg (.choice es) k r m' →
      Peg rules text neg (.choice (e :: es)) k r (m ++ m')
  | seqNil {neg : Bool} {k : Nat} : Peg rules text neg (.seq []) k (some k) []
  | seqMiss {neg : Bool} {e : PExpr} {es : List PExpr} {k : Nat} {m : List (Nat × Str)} :
      Peg rules text neg e k none m → Peg rules text neg (.seq (e :: es)) k none m
  | seqNext {neg : Bool} {e : PExpr} {es : List PExpr} {k k' : Nat} {r : Option Nat}
      {m m' : List (Nat × Str)} :
      Peg rules text neg e k (some k') m → Peg rules text neg (.seq es) k' r m' →
      Peg rules text neg (.seq (e :: es)) k r (m ++ m')
  | starEnd {neg : Bool} {e : PExpr} {k : Nat} {m : List (Nat × Str)} :
      Peg rules text neg e k none m → Peg rules text neg (.zeroOrMore e) k (some k) m
  | starNext {neg : Bool} {e : PExpr} {k k' : Nat} {r : Option Nat} {m m' : List (Nat × Str)} :
      Peg rules text neg e k (some k') m → Peg rules text neg (.zeroOrMore e) k' r m' →
      Peg rules text neg (.zeroOrMore e) k r (m ++ m')
  | plusMiss {neg : Bool} {e : PExpr} {k : Nat} {m : List (Nat × Str)} :
      Peg rules text neg e k none m → Peg rules text neg (.oneOrMore e) k none m
  | plusNext {neg : Bool} {e : PExpr} {k k' : Nat} {r : Option Nat} {m m' : List (Nat × Str)} :
      Peg rules text neg e k (some k') m → Peg rules text neg (.zeroOrMore e) k' r m' →
      Peg rules text neg (.oneOrMore e) k r (m ++ m')
  | optHit {neg : Bool} {e : PExpr} {k k' : Nat} {m : List (Nat × Str)} :
      Peg rules text neg e k (some k') m → Peg rules text neg (.zeroOrOne e) k (some k') m
  | optMiss {neg : Bool} {e : PExpr} {k : Nat} {m : List (Nat × Str)} :
      Peg rules text neg e k none m → Peg rules text neg (.zeroOrOne e) k (some k) m
  | notHit {neg : Bool} {e : PExpr} {k k' : Nat} {m : List (Nat × Str)} :
      Peg rules text (!neg) e k (some k') m → Peg rules text neg (.not e) k none m
  | notMiss {neg : Bool} {e : PExpr} {k : Nat} {m : List (Nat × Str)} :
      Peg rules text (!neg) e k none m → Peg rules text neg (.not e) k (some k) m

/-- `k` is the farthest position at which something was missed (0 if nothing was). -/
def Farthest (misses : List (Nat × Str)) (k : Nat) : Prop :=
  (∀ m ∈ misses, m.1 ≤ k) ∧ (k = 0 ∨ ∃ m ∈ misses, m.1 = k)

/-- `a`, `a or b`, `a, b or c`, ... -/
def orList : List Str → Str
  | [] => []
  | [x] => x
  | [x, y] => x ++ chars!" or " ++ y
  | x :: xs => x ++ chars!", " ++ orList xs

/-- The list of what was expected at `k`: each terminal missed there once, in alphabetical order, but
the end of the text (`!.`) is called EOF and comes last. -/
structure ExpectedAt (misses : List (Nat × Str)) (k : Nat) (items : List Str) : Prop where
  split : ∃ front, items = front ++ (if (k, chars!"!.") ∈ misses then [chars!"EOF"] else []) ∧
    front.Pairwise (· < ·) ∧ ∀ w, w ∈ front ↔ (k, w) ∈ misses ∧ w ≠ chars!"!."

/-- Where a farthest failure is reported: at the position itself, except that the beginning is
always called line 1, column 1. -/
def farPos (data : List Pigeon.Sym) (k : Nat) : Pigeon.Pos := if k = 0 then ⟨1, 1, 0⟩ else posAt data k

end GoBCDice
