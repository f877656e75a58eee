import Verif.Spec.Dice
import Verif.Ast

/-!
# Specification of expression values: a big-step semantics

`Ev e ds v` says: evaluating `e` consumes exactly the dice `ds`, in that order, and yields `v`.
It mentions neither feeders, nor logs, nor the order in which the program is organised; it is
the reading of the notation a user has in mind.
-/

namespace GoBCDice

/-- `ds` is an admissible outcome of rolling `num` dice with `sides` sides. -/
def Rolled (num sides : Int64) (ds : List Die) : Prop :=
  1 ≤ sides ∧ 1 ≤ num ∧ num ≤ maxMakeCap ∧
  (ds.length : Int) = num.toInt ∧ ∀ d ∈ ds, d.sides = sides

instance (num sides : Int64) (ds : List Die) : Decidable (Rolled num sides ds) :=
  inferInstanceAs (Decidable (_ ∧ _))

/-- Values of arithmetic expressions with rolls. -/
inductive Ev : Expr → List Die → Int64 → Prop where
  /-- a literal is its own value and costs nothing -/
  | int (v : Int64) : Ev (.int v) [] v
  /-- a roll already made is worth the sum of its dice -/
  | sumRoll (ds : List Die) : Ev (.sumRoll ds) [] (ds.map Die.value).sum
  | neg {r : Expr} {ds : List Die} {v : Int64} : Ev r ds v → Ev (.neg r) ds (-v)
  | add {l r : Expr} {ds es : List Die} {a b : Int64} :
      Ev l ds a → Ev r es b → Ev (.bin .add l r) (ds ++ es) (a + b)
  | sub {l r : Expr} {ds es : List Die} {a b : Int64} :
      Ev l ds a → Ev r es b → Ev (.bin .sub l r) (ds ++ es) (a - b)
  | mul {l r : Expr} {ds es : List Die} {a b : Int64} :
      Ev l ds a → Ev r es b → Ev (.bin .mul l r) (ds ++ es) (a * b)
  | div {m : Rounding} {l r : Expr} {ds es : List Die} {a b : Int64} :
      Ev l ds a → Ev r es b → b ≠ 0 → Ev (.div m l r) (ds ++ es) (divValue m a b)
  /-- `xDy`: the dice of the operands, then `x` dice with `y` sides; worth their sum -/
  | d {l r : Expr} {ds es rs : List Die} {x y : Int64} :
      Ev l ds x → Ev r es y → Rolled x y rs →
      Ev (.var .d l r) (ds ++ es ++ rs) (rs.map Die.value).sum
  /-- `[lo...hi]`: one die with `hi - lo + 1` sides, 1 standing for `lo` -/
  | rand {l r : Expr} {ds es : List Die} {lo hi : Int64} {d : Die} :
      Ev l ds lo → Ev r es hi → lo < hi → Rolled 1 (hi - lo + 1) [d] →
      Ev (.var .rand l r) (ds ++ es ++ [d]) (lo - 1 + d.value)

/-- Evaluating the operands of the rolls of a list, from left to right, consumes the dice `as`
and gives the numbers of dice and sides `ps`. -/
inductive Args : List Roll → List Die → List (Int64 × Int64) → Prop where
  | nil : Args [] [] []
  | cons {r : Roll} {rest : List Roll} {ds es as : List Die} {x y : Int64}
      {ps : List (Int64 × Int64)} :
      Ev r.num ds x → Ev r.sides es y → Args rest as ps →
      Args (r :: rest) (ds ++ es ++ as) ((x, y) :: ps)

/-- One admissible group of dice per (number, sides) pair, in order. -/
inductive GroupsFor : List (Int64 × Int64) → List (List Die) → Prop where
  | nil : GroupsFor [] []
  | cons {x y : Int64} {ps : List (Int64 × Int64)} {g : List Die} {gs : List (List Die)} :
      Rolled x y g → GroupsFor ps gs → GroupsFor ((x, y) :: ps) (g :: gs)

/-- Values of groups of dice. -/
def valuesOf (gs : List (List Die)) : List (List Int64) := gs.map (fun g => g.map Die.value)

/-- The reroll rule of R rolls.  `RGroups th n pending gs`: with at most `n` groups allowed and the
rolls `pending` waiting, the groups rolled are `gs`.  The first pending roll is made; if `k > 0`
of its dice reach the threshold, a roll of `k` dice of the same kind joins the end of the line;
it ends when nothing is pending or `n` groups have been rolled. -/
inductive RGroups (th : Int64) : Nat → List (Int64 × Int64) → List (List Die) → Prop where
  | done (n : Nat) : RGroups th n [] []
  | limit (pending : List (Int64 × Int64)) : RGroups th 0 pending []
  | roll {n : Nat} {x y : Int64} {pending : List (Int64 × Int64)} {g : List Die}
      {gs : List (List Die)} :
      Rolled x y g →
      RGroups th n
        (pending ++
          (if (g.filter (fun d => th ≤ d.value)).length = 0 then []
           else [(Int64.ofNat (g.filter (fun d => th ≤ d.value)).length, y)])) gs →
      RGroups th (n + 1) ((x, y) :: pending) (g :: gs)

/-- The chain rule of U rolls.  A group is a run of dice with `sides` sides in which every die but
the last reaches the threshold; the last one does not, unless the run has the maximal length
`limit`. -/
structure UChain (sides th : Int64) (limit : Nat) (g : List Die) : Prop where
  sides_ok : 1 ≤ sides
  sides_eq : ∀ d ∈ g, d.sides = sides
  length_le : g.length ≤ limit
  init_ge : ∀ d ∈ g.dropLast, th ≤ d.value
  last : g.length = limit ∨ ∃ d, g.getLast? = some d ∧ d.value < th

/-- Groups of one U roll `xUy`: one chain per die. -/
def UGroupsOne (limit : Nat) (th : Int64) (p : Int64 × Int64) (gs : List (List Die)) : Prop :=
  1 ≤ p.2 ∧ 1 ≤ p.1 ∧ p.1 ≤ maxMakeCap ∧ (gs.length : Int) = p.1.toInt ∧
  ∀ g ∈ gs, UChain p.2 th limit g

/-- Groups of a list of U rolls: those of the first roll, then those of the others. -/
inductive UGroups (limit : Nat) (th : Int64) :
    List (Int64 × Int64) → List (List Die) → Prop where
  | nil : UGroups limit th [] []
  | cons {p : Int64 × Int64} {ps : List (Int64 × Int64)} {gs hs : List (List Die)} :
      UGroupsOne limit th p gs → UGroups limit th ps hs → UGroups limit th (p :: ps) (gs ++ hs)

end GoBCDice
