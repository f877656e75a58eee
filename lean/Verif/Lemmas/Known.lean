import Verif.Lemmas.StopCommand
import Verif.Spec.Answer

/-!
# Which causes occur
-/

namespace GoBCDice

/-- What is known of the causes that occur; `extra`: further texts of errors. -/
def Cause.Known (extra : Prop) : Cause → Prop
  | .refusal msg => RefusalText msg ∨ extra
  | .crash => True
  | .noDie y => 1 ≤ y
  | .otherDie _ y d => 1 ≤ y ∧ d.sides ≠ y

theorem Cause.Known.weaken {extra : Prop} {c : Cause} (h : c.Known False) : c.Known extra := by
  cases c <;> simp_all [Cause.Known]

theorem RollStops.known {x y : Int64} {ds : List Die} {c : Cause} (h : RollStops x y ds c) :
    c.Known False := by
  cases h with
  | sides h => exact .inl (by simpa [rollCallText] using RefusalText.rollSides (x := x) h)
  | num h1 h2 => exact .inl (by simpa [rollCallText] using RefusalText.rollNum h1 h2)
  | memory => trivial
  | noDie h => exact h
  | otherDie h1 _ _ _ h2 => exact ⟨h1, h2⟩

theorem EvStops.known {e : Expr} {ds : List Die} {c : Cause} (h : EvStops e ds c) :
    c.Known False := by
  induction h with
  | divZero => exact .inl .divided
  | randOrder _ _ h => exact .inl (.randomOrder h)
  | d _ _ h => exact h.known
  | rand _ _ _ h => exact h.known
  | _ => assumption

theorem ArgsStop.known {rs : List Roll} {ds : List Die} {c : Cause} (h : ArgsStop rs ds c) :
    c.Known False := by
  induction h with
  | num h => exact h.known
  | sides _ h => exact h.known
  | later _ _ _ ih => exact ih

theorem GroupsStop.known {ps : List (Int64 × Int64)} {ds : List Die} {c : Cause}
    (h : GroupsStop ps ds c) : c.Known False := by
  induction h with
  | first h => exact h.known
  | later _ _ ih => exact ih

theorem RGroupsStop.known {th : Int64} {n : Nat} {ps : List (Int64 × Int64)} {ds : List Die} {c : Cause}
    (h : RGroupsStop th n ps ds c) : c.Known False := by
  induction h with
  | first h => exact h.known
  | later _ _ ih => exact ih

theorem UOneStops.known {limit : Nat} {th x y : Int64} {ds : List Die} {c : Cause}
    (h : UOneStops limit th x y ds c) : c.Known False := by
  cases h with
  | sides h => exact .inl (by simpa [uRollCallText] using RefusalText.uRollSides (x := x) h)
  | num h1 h2 => exact .inl (by simpa [uRollCallText] using RefusalText.uRollNum h1 h2)
  | memory => trivial
  | chain _ _ _ _ _ _ h => exact h.known

theorem UGroupsStop.known {limit : Nat} {th : Int64} {ps : List (Int64 × Int64)} {ds : List Die}
    {c : Cause} (h : UGroupsStop limit th ps ds c) : c.Known False := by
  induction h with
  | first h => exact h.known
  | later _ _ ih => exact ih

theorem DArgsStop.known {e : Expr} {ds : List Die} {c : Cause} (h : DArgsStop e ds c) :
    c.Known False := by
  induction h with
  | num h => exact h.known
  | sides _ h => exact h.known
  | rand => exact .inl .randomArgs
  | _ => assumption

theorem DDiceStop.known {e : Expr} {ds : List Die} {c : Cause} (h : DDiceStop e ds c) :
    c.Known True := by
  induction h with
  | roll h => exact h.known.weaken
  | num => exact .inr trivial
  | sides => exact .inr trivial
  | rand => exact .inr trivial
  | _ => assumption

theorem DDiceStop.known_of_args {e e' : Expr} {as : List Die} (ha : DArgs e as e') :
    ∀ {ds : List Die} {c : Cause}, DDiceStop e' ds c → c.Known False := by
  induction ha with
  | int => intro ds c h; cases h
  | sumRoll => intro ds c h; cases h
  | neg _ ih => intro ds c h; cases h with | neg h => exact ih h
  | bin _ _ ih1 ih2 =>
    intro ds c h
    cases h with
    | binLeft h => exact ih1 h
    | binRight _ h => exact ih2 h
  | div _ _ ih1 ih2 =>
    intro ds c h
    cases h with
    | divLeft h => exact ih1 h
    | divRight _ h => exact ih2 h
  | roll _ _ =>
    intro ds c h
    cases h with
    | roll h => exact h.known
    | num h => exact absurd rfl (h _)
    | sides h => exact absurd rfl (h _)

/-- Operands of rolls, as they can be written, are neither dice nor results. -/
theorem operand_shape {s : Str} {e : Expr} (h : Der .rollOperand s e ∨ Der .randOperand s e) :
    (∀ l r, e ≠ .var .d l r) ∧ ∀ ds, e ≠ .sumRoll ds := by
  have key : ∀ {nt : NT} {s : Str} {e : Expr}, Der nt s e → nt ≠ .dRoll → nt ≠ .prim .dice →
      nt ≠ .mul .dice → nt ≠ .add .dice → (∀ l r, e ≠ .var .d l r) ∧ ∀ ds, e ≠ .sumRoll ds := by
    intro nt s e h
    induction h <;> intro h1 h2 h3 h4 <;> simp_all
  rcases h with h | h
  · exact key h (by simp) (by simp) (by simp) (by simp)
  · exact key h (by simp) (by simp) (by simp) (by simp)

theorem der_not_sumRoll {nt : NT} {s : Str} {e : Expr} (h : Der nt s e) : ∀ ds, e ≠ .sumRoll ds := by
  induction h <;> simp_all

/-- The operands of a roll that is written. -/
theorem der_var {nt : NT} {s : Str} {e : Expr} (h : Der nt s e) : ∀ {k : VarKind} {l r : Expr},
    e = .var k l r → (∃ a, Der .rollOperand a l ∨ Der .randOperand a l) ∧
      ∃ b, Der .rollOperand b r ∨ Der .randOperand b r := by
  induction h with
  | randNum h1 h2 => rintro k l r ⟨⟩; exact ⟨⟨_, .inr h1⟩, ⟨_, .inr h2⟩⟩
  | dRoll _ h1 h2 => rintro k l r ⟨⟩; exact ⟨⟨_, .inl h1⟩, ⟨_, .inl h2⟩⟩
  | number | minus | mulMul | mulDiv | mulDivUp | mulDivRound | addAdd | addSub => intro k l r h; cases h
  | _ => intro k l r h; simp_all

/-- A prepared operand is a number or has one of the names. -/
theorem prepared_name {s : Str} {e e' : Expr} {as : List Die}
    (h : Der .rollOperand s e ∨ Der .randOperand s e) (ha : DArgs e as e') :
    (∃ x, e' = .int x) ∨ e'.typeName ∈ computedNames := by
  obtain ⟨h1, h2⟩ := operand_shape h
  cases ha with
  | int x => exact .inl ⟨x, rfl⟩
  | sumRoll ds => exact absurd rfl (h2 ds)
  | neg => exact .inr (by simp [Expr.typeName, computedNames])
  | @bin op l r l' r' => cases op <;> exact .inr (by simp [Expr.typeName, computedNames])
  | @div m l r l' r' => cases m <;> exact .inr (by simp [Expr.typeName, computedNames])
  | @roll l r => exact absurd rfl (h1 l r)

theorem DLeftStop.known {e : Expr} {ds : List Die} {c : Cause} (h : DLeftStop e ds c) :
    c.Known True := by
  cases h with
  | int => exact .inr trivial
  | sumRoll => exact .inr trivial
  | varLeft h => exact h.known.weaken
  | varRight _ h => exact h.known.weaken
  | neg h => exact h.known.weaken
  | bin h => exact h.known.weaken
  | div h => exact h.known.weaken

theorem DLeftStop.known_text {s : Str} {e : Expr} {ds : List Die} {c : Cause} (h : DLeftStop e ds c)
    (hd : Der (.add .dice) s e) (hr : 1 ≤ e.rands) : c.Known False := by
  cases h with
  | int => simp [Expr.rands] at hr
  | sumRoll => simp [Expr.rands] at hr
  | varLeft h => exact h.known
  | varRight _ h => exact h.known
  | neg h => exact h.known
  | bin h => exact h.known
  | div h => exact h.known

theorem DDiceStop.known_text {s : Str} {e e' : Expr} {as ds : List Die} {c : Cause}
    (hd : Der (.add .dice) s e) (ha : DLeftArgs e as e') (h : DDiceStop e' ds c) : c.Known False := by
  cases ha with
  | var h1 h2 =>
    obtain ⟨⟨a, hl⟩, ⟨b, hr⟩⟩ := der_var hd rfl
    cases h with
    | roll h => exact h.known
    | rand => exact .inl .randomValue
    | num hn =>
      rcases prepared_name hl h1 with ⟨x, rfl⟩ | hm
      · exact absurd rfl (hn x)
      · exact .inl (.computedNum hm)
    | sides hn =>
      rcases prepared_name hr h2 with ⟨x, rfl⟩ | hm
      · exact absurd rfl (hn x)
      · exact .inl (.computedSides hm)
  | neg h1 => exact h.known_of_args h1
  | bin h1 => exact h.known_of_args h1
  | div h1 => exact h.known_of_args h1

theorem OptStops.known {e : Option Expr} {ds : List Die} {c : Cause} (h : OptStops e ds c) :
    c.Known False := by
  cases h with
  | some h => exact h.known

theorem ListStops.known {rl : RRollList} {ds : List Die} {c : Cause} (h : ListStops rl ds c) :
    c.Known False := by
  cases h with
  | threshold h => exact h.known
  | args _ h => exact h.known

theorem URollStops.known {u : URollExpr} {ds : List Die} {c : Cause} (h : URollStops u ds c) :
    c.Known False := by
  cases h with
  | list h => exact h.known
  | bonus _ _ h => exact h.known

theorem CommandStops.known {limit : Nat} {node : Node} {ds : List Die} {c : Cause}
    (h : CommandStops limit node ds c) : c.Known True := by
  cases h with
  | choice h => exact h.known.weaken
  | choiceItem => trivial
  | «calc» h => exact h.known.weaken
  | dArgs h => exact h.known.weaken
  | dDice _ h => exact h.known
  | dValue _ _ h => exact h.known.weaken
  | dcArgs h => exact h.known
  | dcTarget _ h => exact h.known.weaken
  | dcDice _ _ h => exact h.known
  | dcValue _ _ _ h => exact h.known.weaken
  | bArgs h => exact h.known.weaken
  | bDice _ h => exact h.known.weaken
  | bcArgs h => exact h.known.weaken
  | bcTarget _ h => exact h.known.weaken
  | bcDice _ _ h => exact h.known.weaken
  | rArgs h => exact h.known.weaken
  | rDice _ _ _ h => exact h.known.weaken
  | rcArgs h => exact h.known.weaken
  | rcTarget _ _ h => exact h.known.weaken
  | rcDice _ _ _ _ _ h => exact h.known.weaken
  | uArgs h => exact h.known.weaken
  | uDice _ _ _ _ h => exact h.known.weaken
  | ucArgs h => exact h.known.weaken
  | ucTarget _ _ _ h => exact h.known.weaken
  | ucDice _ _ _ _ _ h => exact h.known.weaken

theorem CommandStops.known_text {limit : Nat} {t : Str} {node : Node} {ds : List Die} {c : Cause}
    (h : CommandStops limit node ds c) (ht : CommandText t node) : c.Known False := by
  cases h with
  | choice h => exact h.known
  | choiceItem => trivial
  | «calc» h => exact h.known
  | dArgs h => exact h.known
  | dDice h1 h => exact h.known_of_args h1
  | dValue _ _ h => exact h.known
  | dcArgs h => cases ht with | dRollComp h1 h2 => exact h.known_text h1 h2
  | dcTarget _ h => exact h.known
  | dcDice h1 _ h => cases ht with | dRollComp h2 => exact h.known_text h2 h1
  | dcValue _ _ _ h => exact h.known
  | bArgs h => exact h.known
  | bDice _ h => exact h.known
  | bcArgs h => exact h.known
  | bcTarget _ h => exact h.known
  | bcDice _ _ h => exact h.known
  | rArgs h => exact h.known
  | rDice _ _ _ h => exact h.known
  | rcArgs h => exact h.known
  | rcTarget _ _ h => exact h.known
  | rcDice _ _ _ _ _ h => exact h.known
  | uArgs h => exact h.known
  | uDice _ _ _ _ h => exact h.known
  | ucArgs h => exact h.known
  | ucTarget _ _ _ h => exact h.known
  | ucDice _ _ _ _ _ h => exact h.known

end GoBCDice
