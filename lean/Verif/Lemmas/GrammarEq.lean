import Verif.Pigeon

/-! # Equality of expressions of a grammar table is decidable -/

namespace GoBCDice.Pigeon

mutual

/-- Equality of expressions, computed. -/
def PExpr.same : PExpr → PExpr → Bool
  | .action a e, .action a' e' => decide (a = a') && e.same e'
  | .any, .any => true
  | .charClass v c r k i n, .charClass v' c' r' k' i' n' =>
    decide (v = v') && decide (c = c') && decide (r = r') && decide (k = k') && decide (i = i') && decide (n = n')
  | .choice es, .choice es' => PExpr.sameList es es'
  | .labeled l e, .labeled l' e' => decide (l = l') && e.same e'
  | .lit s i, .lit s' i' => decide (s = s') && decide (i = i')
  | .not e, .not e' => e.same e'
  | .oneOrMore e, .oneOrMore e' => e.same e'
  | .ruleRef n, .ruleRef n' => decide (n = n')
  | .seq es, .seq es' => PExpr.sameList es es'
  | .stateCode a, .stateCode a' => decide (a = a')
  | .zeroOrMore e, .zeroOrMore e' => e.same e'
  | .zeroOrOne e, .zeroOrOne e' => e.same e'
  | _, _ => false

/-- Equality of lists of expressions, computed. -/
def PExpr.sameList : List PExpr → List PExpr → Bool
  | [], [] => true
  | e :: es, e' :: es' => e.same e' && PExpr.sameList es es'
  | _, _ => false

end

mutual

theorem PExpr.same_eq : ∀ (a b : PExpr), a.same b = true → a = b
  | a, b, h => by
    cases a <;> cases b <;> simp_all [PExpr.same]
    case action.action e _ e' => exact PExpr.same_eq e e' h.2
    case choice.choice es es' => exact PExpr.sameList_eq es es' h
    case labeled.labeled e _ e' => exact PExpr.same_eq e e' h.2
    case not.not e e' => exact PExpr.same_eq e e' h
    case oneOrMore.oneOrMore e e' => exact PExpr.same_eq e e' h
    case seq.seq es es' => exact PExpr.sameList_eq es es' h
    case zeroOrMore.zeroOrMore e e' => exact PExpr.same_eq e e' h
    case zeroOrOne.zeroOrOne e e' => exact PExpr.same_eq e e' h

theorem PExpr.sameList_eq : ∀ (a b : List PExpr), PExpr.sameList a b = true → a = b
  | [], [], _ => rfl
  | [], _ :: _, h => by simp [PExpr.sameList] at h
  | _ :: _, [], h => by simp [PExpr.sameList] at h
  | e :: es, e' :: es', h => by
    simp only [PExpr.sameList, Bool.and_eq_true] at h
    rw [PExpr.same_eq e e' h.1, PExpr.sameList_eq es es' h.2]

end

/-- Equality of tables, computed. -/
def sameTable : List (Str × PExpr) → List (Str × PExpr) → Bool
  | [], [] => true
  | (n, e) :: t, (n', e') :: t' => decide (n = n') && e.same e' && sameTable t t'
  | _, _ => false

theorem sameTable_eq : ∀ (a b : List (Str × PExpr)), sameTable a b = true → a = b
  | [], [], _ => rfl
  | [], _ :: _, h => by simp [sameTable] at h
  | _ :: _, [], h => by simp [sameTable] at h
  | (n, e) :: t, (n', e') :: t', h => by
    simp only [sameTable, Bool.and_eq_true, decide_eq_true_eq] at h
    rw [h.1.1, PExpr.same_eq e e' h.1.2, sameTable_eq t t' h.2]

end GoBCDice.Pigeon
