import Verif.Regex

/-!
# What it means that a regular expression matches

Without groups and without an order of preference: `RxMatch rn total r s t` says that the expression
`r` can take from the front of `s` what stands there before `t`.  The text as a whole has length
`total`, which is what `\A` looks at.
-/

namespace GoBCDice

/-- `r` matches the part of `s` in front of `t`. -/
inductive RxMatch {α : Type} (rn : α → Char) (total : Nat) : Rx → List α → List α → Prop where
  | rune {c : RuneClass} {x : α} {s : List α} : c.has (rn x) = true → RxMatch rn total (.rune c) (x :: s) s
  | bot {s : List α} : s.length = total → RxMatch rn total .bot s s
  | eot : RxMatch rn total .eot [] []
  | empty {s : List α} : RxMatch rn total .empty s s
  | seq {a b : Rx} {s t u : List α} : RxMatch rn total a s t → RxMatch rn total b t u → RxMatch rn total (.seq a b) s u
  | starNil {r : Rx} {s : List α} : RxMatch rn total (.star r) s s
  | starMore {r : Rx} {s t u : List α} : RxMatch rn total r s t → RxMatch rn total (.star r) t u →
      RxMatch rn total (.star r) s u
  | plus {r : Rx} {s t u : List α} : RxMatch rn total r s t → RxMatch rn total (.star r) t u →
      RxMatch rn total (.plus r) s u
  | optNone {r : Rx} {s : List α} : RxMatch rn total (.opt r) s s
  | optSome {r : Rx} {s t : List α} : RxMatch rn total r s t → RxMatch rn total (.opt r) s t
  | cap {i : Nat} {r : Rx} {s t : List α} : RxMatch rn total r s t → RxMatch rn total (.cap i r) s t

end GoBCDice
