import Verif.Spec.Sim

/-! # Evaluation with feeders that answer alike -/

namespace GoBCDice

variable {σ τ : Type} {R : σ → τ → Prop} {α β : Type}

/-- Two evaluator functions do the same, up to the feeder state. -/
def Sim (R : σ → τ → Prop) (x : M σ α) (y : M τ α) : Prop :=
  ∀ s t log, R s t → (x ⟨s, log⟩).1 = (y ⟨t, log⟩).1 ∧
    R (x ⟨s, log⟩).2.feeder (y ⟨t, log⟩).2.feeder ∧ (x ⟨s, log⟩).2.log = (y ⟨t, log⟩).2.log

theorem Sim.pure (a : α) : Sim R (Pure.pure a : M σ α) (Pure.pure a : M τ α) :=
  fun _ _ _ h => ⟨rfl, h, rfl⟩

theorem Sim.fail (e : Str) : Sim R (M.fail e : M σ α) (M.fail e : M τ α) :=
  fun _ _ _ h => ⟨rfl, h, rfl⟩

theorem Sim.crash (e : Str) : Sim R (M.crash e : M σ α) (M.crash e : M τ α) :=
  fun _ _ _ h => ⟨rfl, h, rfl⟩

theorem Sim.bind {x : M σ α} {y : M τ α} {f : α → M σ β} {g : α → M τ β} (h : Sim R x y)
    (hf : ∀ a, Sim R (f a) (g a)) : Sim R (x >>= f) (y >>= g) := by
  intro s t log hr
  obtain ⟨h1, h2, h3⟩ := h s t log hr
  show (M.bnd x f ⟨s, log⟩).1 = (M.bnd y g ⟨t, log⟩).1 ∧ _
  change _ ∧ R (M.bnd x f ⟨s, log⟩).2.feeder (M.bnd y g ⟨t, log⟩).2.feeder ∧
    (M.bnd x f ⟨s, log⟩).2.log = (M.bnd y g ⟨t, log⟩).2.log
  unfold M.bnd
  cases hx : x ⟨s, log⟩ with
  | mk o s' =>
    cases hy : y ⟨t, log⟩ with
    | mk o' t' =>
      obtain ⟨fs, ls⟩ := s'
      obtain ⟨ft, lt⟩ := t'
      rw [hx, hy] at h1 h2 h3
      dsimp only at h1 h2 h3
      subst h1 h3
      cases o with
      | ok a => exact hf a fs ft ls h2
      | err e => exact ⟨rfl, h2, rfl⟩
      | panic m => exact ⟨rfl, h2, rfl⟩

theorem Sim.rolledDice : Sim R (Evaluator.rolledDice (σ := σ)) (Evaluator.rolledDice (σ := τ)) :=
  fun _ _ _ h => ⟨rfl, h, rfl⟩

theorem Sim.firstDie (ds : List Die) :
    Sim R (Evaluator.firstDie ds : M σ Die) (Evaluator.firstDie ds : M τ Die) := by
  cases ds with
  | nil => exact .crash _
  | cons d ds => exact .pure d

theorem rollLoop_alike {F : DieFeeder σ} {G : DieFeeder τ} (h : AnswerAlike F G R) (n k : Int64) :
    ∀ m acc s t, R s t → (rollLoop F n k m acc s).1 = (rollLoop G n k m acc t).1 ∧
      R (rollLoop F n k m acc s).2 (rollLoop G n k m acc t).2 := by
  intro m
  induction m with
  | zero => intro acc s t hr; exact ⟨rfl, hr⟩
  | succ m ih =>
    intro acc s t hr
    obtain ⟨h1, h2⟩ := h s t k hr
    simp only [rollLoop]
    cases hx : F.next s k with
    | mk o s' =>
      cases hy : G.next t k with
      | mk o' t' =>
        rw [hx, hy] at h1 h2
        dsimp only at h1 h2
        subst h1
        cases o with
        | err e => exact ⟨rfl, h2⟩
        | panic e => exact ⟨rfl, h2⟩
        | ok d =>
          dsimp only
          split
          · exact ⟨rfl, h2⟩
          · exact ih _ _ _ h2

theorem rollDice_alike {F : DieFeeder σ} {G : DieFeeder τ} (h : AnswerAlike F G R) (n k : Int64)
    {s : σ} {t : τ} (hr : R s t) : (rollDice F n k s).1 = (rollDice G n k t).1 ∧
      R (rollDice F n k s).2 (rollDice G n k t).2 := by
  unfold rollDice
  split
  · exact ⟨rfl, hr⟩
  · split
    · exact ⟨rfl, hr⟩
    · split
      · exact ⟨rfl, hr⟩
      · exact rollLoop_alike h n k _ _ s t hr

/-- Evaluators whose feeders answer alike, with the same limit. -/
structure EvalAlike (E : Evaluator σ) (E' : Evaluator τ) (R : σ → τ → Prop) : Prop where
  alike : AnswerAlike E.F E'.F R
  limit : E.maxRerolls = E'.maxRerolls

namespace EvalAlike
variable {E : Evaluator σ} {E' : Evaluator τ} (H : EvalAlike E E' R)
include H

theorem rollDice (n k : Int64) : Sim R (E.rollDice n k) (E'.rollDice n k) := by
  intro s t log hr
  obtain ⟨h1, h2⟩ := rollDice_alike H.alike n k hr
  unfold Evaluator.rollDice
  dsimp only
  cases hx : GoBCDice.rollDice E.F n k s with
  | mk o s' =>
    cases hy : GoBCDice.rollDice E'.F n k t with
    | mk o' t' =>
      rw [hx, hy] at h1 h2
      dsimp only at h1 h2
      subst h1
      cases o <;> exact ⟨rfl, h2, rfl⟩

omit H in
theorem divide (m : Rounding) (a b : Int64) :
    Sim R (Evaluator.evalIntegerDivide m a b : M σ Int64) (Evaluator.evalIntegerDivide m a b) := by
  unfold Evaluator.evalIntegerDivide
  split
  · exact .fail _
  · exact .pure _

theorem sumRoll (n k : Int64) : Sim R (E.evalSumRoll n k) (E'.evalSumRoll n k) :=
  .bind (H.rollDice n k) fun _ => .pure _

theorem randomNumber (n k : Int64) : Sim R (E.evalRandomNumber n k) (E'.evalRandomNumber n k) := by
  unfold Evaluator.evalRandomNumber
  split
  · exact .fail _
  · exact .bind (H.rollDice _ _) fun _ => .bind (.firstDie _) fun _ => .pure _

theorem eval (e : Expr) : Sim R (E.eval e) (E'.eval e) := by
  induction e with
  | int v => exact .pure v
  | sumRoll ds => exact .pure _
  | neg r ih => exact .bind ih fun _ => .pure _
  | bin op l r ihl ihr => exact .bind ihl fun _ => .bind ihr fun _ => .pure _
  | div m l r ihl ihr => exact .bind ihl fun _ => .bind ihr fun _ => divide _ _ _
  | var k l r ihl ihr =>
    cases k with
    | d => exact .bind ihl fun _ => .bind ihr fun _ => H.sumRoll _ _
    | rand => exact .bind ihl fun _ => .bind ihr fun _ => H.randomNumber _ _

theorem basicRoll (r : Roll) : Sim R (E.evalBasicRoll r) (E'.evalBasicRoll r) :=
  .bind (H.eval _) fun _ => .bind (H.eval _) fun _ => .bind (H.rollDice _ _) fun _ => .pure _

theorem bRollList (rs : List Roll) : Sim R (E.evalBRollList rs) (E'.evalBRollList rs) := by
  induction rs with
  | nil => exact .pure _
  | cons r rs ih => exact .bind (H.basicRoll r) fun _ => .bind ih fun _ => .pure _

theorem bRollComp (rs : List Roll) (op : CmpOp) (e : Expr) :
    Sim R (E.evalBRollComp rs op e) (E'.evalBRollComp rs op e) :=
  .bind (H.bRollList rs) fun _ => .bind (H.eval e) fun _ => .pure _

theorem rRollLoop (th : Int64) : ∀ n q acc, Sim R (E.rRollLoop th n q acc) (E'.rRollLoop th n q acc) := by
  intro n
  induction n with
  | zero => intro q acc; exact .pure _
  | succ n ih =>
    intro q acc
    cases q with
    | nil => exact .pure _
    | cons r q => exact .bind (H.basicRoll r) fun _ => ih _ _

theorem rRollList (rl : RRollList) : Sim R (E.evalRRollList rl) (E'.evalRRollList rl) := by
  unfold Evaluator.evalRRollList
  split
  · exact .fail _
  · exact .bind (H.eval _) fun _ => H.limit ▸ H.rRollLoop _ _ _ _

theorem rRollComp (rl : RRollList) (op : CmpOp) (e : Expr) :
    Sim R (E.evalRRollComp rl op e) (E'.evalRRollComp rl op e) :=
  .bind (H.rRollList rl) fun _ => .bind (H.eval e) fun _ => .pure _

theorem uGroup (k th : Int64) : ∀ n acc, Sim R (E.uGroup k th n acc) (E'.uGroup k th n acc) := by
  intro n
  induction n with
  | zero => intro acc; exact .pure _
  | succ n ih =>
    intro acc
    refine .bind (H.rollDice _ _) fun _ => .bind (.firstDie _) fun d => ?_
    split
    · exact .pure _
    · exact ih _

theorem uGroups (k th : Int64) : ∀ n acc, Sim R (E.uGroups k th n acc) (E'.uGroups k th n acc) := by
  intro n
  induction n with
  | zero => intro acc; exact .pure _
  | succ n ih =>
    intro acc
    exact .bind (H.limit ▸ H.uGroup _ _ _ _) fun _ => ih _

theorem compoundingRoll (r : Roll) (th : Int64) :
    Sim R (E.evalCompoundingRoll r th) (E'.evalCompoundingRoll r th) := by
  refine .bind (H.eval _) fun n => .bind (H.eval _) fun k => ?_
  split
  · exact .fail _
  · split
    · exact .fail _
    · split
      · exact .crash _
      · exact H.uGroups _ _ _ _

theorem compoundingRolls (th : Int64) (rs : List Roll) :
    Sim R (E.evalCompoundingRolls th rs) (E'.evalCompoundingRolls th rs) := by
  induction rs with
  | nil => exact .pure _
  | cons r rs ih => exact .bind (H.compoundingRoll r th) fun _ => .bind ih fun _ => .pure _

theorem uRollList (rl : RRollList) : Sim R (E.evalURollList rl) (E'.evalURollList rl) := by
  unfold Evaluator.evalURollList
  split
  · exact .fail _
  · exact .bind (H.eval _) fun _ => H.compoundingRolls _ _

theorem bonus (b : Option (Sign × Expr)) : Sim R (E.evalBonus b) (E'.evalBonus b) := by
  cases b with
  | none => exact .pure _
  | some b => exact H.eval _

theorem uRollExpr (u : URollExpr) : Sim R (E.evalURollExpr u) (E'.evalURollExpr u) :=
  .bind (H.bonus _) fun _ => .bind (H.uRollList _) fun _ => .pure _

theorem uRollComp (u : URollExpr) (op : CmpOp) (e : Expr) :
    Sim R (E.evalURollComp u op e) (E'.evalURollComp u op e) :=
  .bind (H.uRollExpr u) fun _ => .bind (H.eval e) fun _ => .pure _

theorem choice (items : List Str) : Sim R (E.evalChoice items) (E'.evalChoice items) := by
  refine .bind (H.rollDice _ _) fun _ => .bind (.firstDie _) fun d => ?_
  dsimp only
  split
  · exact .crash _
  · split
    · exact .pure _
    · exact .crash _

theorem varArgsOfRoll (r : Roll) : Sim R (E.evalVarArgsOfRoll r) (E'.evalVarArgsOfRoll r) :=
  .bind (H.eval _) fun _ => .bind (H.eval _) fun _ => .pure _

theorem varArgsPrimary (e : Expr) : Sim R (E.evalVarArgsPrimary e) (E'.evalVarArgsPrimary e) := by
  unfold Evaluator.evalVarArgsPrimary
  split
  · unfold Evaluator.evalVarArgsOfVariableExpr
    split
    · exact .bind (H.eval _) fun _ => .bind (H.eval _) fun _ => .pure _
    · exact .fail _
  · exact .pure _

omit H in
theorem ite {c : Prop} [Decidable c] {x x' : M σ α} {y y' : M τ α} (h : Sim R x y) (h' : Sim R x' y') :
    Sim R (if c then x else x') (if c then y else y') := by
  split
  · exact h
  · exact h'

theorem varArgs (e : Expr) : Sim R (E.evalVarArgs e) (E'.evalVarArgs e) := by
  induction e with
  | int v => exact .fail _
  | sumRoll ds => exact .fail _
  | neg r ih =>
    simp only [Evaluator.evalVarArgs]
    split
    · exact .bind (H.varArgsPrimary r) fun _ => .pure _
    · exact .bind ih fun _ => .pure _
  | bin op l r ihl ihr =>
    simp only [Evaluator.evalVarArgs]
    split <;> split
    · exact .bind (H.varArgsPrimary l) fun _ => .bind (H.varArgsPrimary r) fun _ => .pure _
    · exact .bind (H.varArgsPrimary l) fun _ => .bind ihr fun _ => .pure _
    · exact .bind ihl fun _ => .bind (H.varArgsPrimary r) fun _ => .pure _
    · exact .bind ihl fun _ => .bind ihr fun _ => .pure _
  | div op l r ihl ihr =>
    simp only [Evaluator.evalVarArgs]
    split <;> split
    · exact .bind (H.varArgsPrimary l) fun _ => .bind (H.varArgsPrimary r) fun _ => .pure _
    · exact .bind (H.varArgsPrimary l) fun _ => .bind ihr fun _ => .pure _
    · exact .bind ihl fun _ => .bind (H.varArgsPrimary r) fun _ => .pure _
    · exact .bind ihl fun _ => .bind ihr fun _ => .pure _
  | var op l r ihl ihr =>
    simp only [Evaluator.evalVarArgs]
    split <;> split
    · exact .bind (H.varArgsPrimary l) fun _ => .bind (H.varArgsPrimary r) fun _ => .pure _
    · exact .bind (H.varArgsPrimary l) fun _ => .bind ihr fun _ => .pure _
    · exact .bind ihl fun _ => .bind (H.varArgsPrimary r) fun _ => .pure _
    · exact .bind ihl fun _ => .bind ihr fun _ => .pure _

theorem varArgsInCommand (e : Expr) :
    Sim R (E.evalVarArgsInCommand e) (E'.evalVarArgsInCommand e) :=
  ite (H.varArgsPrimary e) (H.varArgs e)

theorem varArgsInRolls (rs : List Roll) :
    Sim R (E.evalVarArgsInRolls rs) (E'.evalVarArgsInRolls rs) := by
  induction rs with
  | nil => exact .pure _
  | cons r rs ih => exact .bind (H.varArgsOfRoll r) fun _ => .bind ih fun _ => .pure _

theorem varArgsOfThreshold (t : Option Expr) :
    Sim R (E.evalVarArgsOfThreshold t) (E'.evalVarArgsOfThreshold t) := by
  cases t with
  | none => exact .pure _
  | some e => exact .bind (H.eval e) fun _ => .pure _

theorem varArgsInRRollList (rl : RRollList) :
    Sim R (E.evalVarArgsInRRollList rl) (E'.evalVarArgsInRRollList rl) :=
  .bind (H.varArgsOfThreshold _) fun _ => .bind (H.varArgsInRolls _) fun _ => .pure _

theorem varArgsInURollExpr (u : URollExpr) :
    Sim R (E.evalVarArgsInURollExpr u) (E'.evalVarArgsInURollExpr u) := by
  refine .bind (H.varArgsInRRollList _) fun _ => ?_
  split
  · exact .pure _
  · exact .bind (H.eval _) fun _ => .pure _

theorem replacePrimary (e : Expr) :
    Sim R (E.replaceVariablePrimaryExpr e) (E'.replaceVariablePrimaryExpr e) := by
  unfold Evaluator.replaceVariablePrimaryExpr
  split
  · unfold Evaluator.determineValueOfVariableExpr
    split
    · split
      · split
        · exact .bind (H.rollDice _ _) fun _ => .pure _
        · exact .fail _
      · exact .fail _
    · exact .fail _
  · exact .pure _

theorem determineValues (e : Expr) : Sim R (E.determineValues e) (E'.determineValues e) := by
  induction e with
  | int v => exact .fail _
  | sumRoll ds => exact .fail _
  | neg r ih =>
    simp only [Evaluator.determineValues]
    split
    · exact .bind (H.replacePrimary r) fun _ => .pure _
    · exact .bind ih fun _ => .pure _
  | bin op l r ihl ihr =>
    simp only [Evaluator.determineValues]
    split <;> split
    · exact .bind (H.replacePrimary l) fun _ => .bind (H.replacePrimary r) fun _ => .pure _
    · exact .bind (H.replacePrimary l) fun _ => .bind ihr fun _ => .pure _
    · exact .bind ihl fun _ => .bind (H.replacePrimary r) fun _ => .pure _
    · exact .bind ihl fun _ => .bind ihr fun _ => .pure _
  | div op l r ihl ihr =>
    simp only [Evaluator.determineValues]
    split <;> split
    · exact .bind (H.replacePrimary l) fun _ => .bind (H.replacePrimary r) fun _ => .pure _
    · exact .bind (H.replacePrimary l) fun _ => .bind ihr fun _ => .pure _
    · exact .bind ihl fun _ => .bind (H.replacePrimary r) fun _ => .pure _
    · exact .bind ihl fun _ => .bind ihr fun _ => .pure _
  | var op l r ihl ihr =>
    simp only [Evaluator.determineValues]
    split <;> split
    · exact .bind (H.replacePrimary l) fun _ => .bind (H.replacePrimary r) fun _ => .pure _
    · exact .bind (H.replacePrimary l) fun _ => .bind ihr fun _ => .pure _
    · exact .bind ihl fun _ => .bind (H.replacePrimary r) fun _ => .pure _
    · exact .bind ihl fun _ => .bind ihr fun _ => .pure _

theorem determineValuesOperand (e : Expr) :
    Sim R (E.determineValuesOperand e) (E'.determineValuesOperand e) :=
  ite (H.replacePrimary e) (H.determineValues e)

theorem setRerollThreshold (rl : RRollList) (e : Expr) :
    Sim R (E.setRerollThreshold rl e) (E'.setRerollThreshold rl e) := by
  unfold Evaluator.setRerollThreshold
  split
  · exact .pure _
  · exact .bind (H.eval e) fun _ => .pure _

theorem checkThreshold (m : Str) (t : Option Expr) :
    Sim R (E.checkThreshold m t) (E'.checkThreshold m t) := by
  cases t with
  | none => exact .pure _
  | some e =>
    intro s u log hr
    obtain ⟨h1, h2, h3⟩ := H.eval e s u log hr
    simp only [Evaluator.checkThreshold]
    cases hx : E.eval e ⟨s, log⟩ with
    | mk o s' =>
      cases hy : E'.eval e ⟨u, log⟩ with
      | mk o' t' =>
        rw [hx, hy] at h1 h2 h3
        dsimp only at h1 h2 h3
        subst h1
        cases o <;> exact ⟨rfl, h2, h3⟩

theorem execute (g : Str) (node : Node) : Sim R (E.execute g node) (E'.execute g node) := by
  cases node with
  | choice items => exact .bind (H.choice _) fun _ => .bind .rolledDice fun _ => .pure _
  | «calc» e => exact .bind (H.eval _) fun _ => .pure _
  | dRollExpr e =>
    exact .bind (H.varArgsInCommand _) fun _ => .bind (H.determineValuesOperand _) fun _ =>
      .bind (H.eval _) fun _ => .bind .rolledDice fun _ => .pure _
  | dRollComp l op r =>
    refine .bind (.bind (H.varArgs _) fun _ => .bind (H.eval _) fun _ => .pure _) fun p => ?_
    obtain ⟨l1, r1⟩ := p
    refine .bind (.bind (H.determineValuesOperand _) fun _ => .bind (H.determineValuesOperand _) fun _ => .pure _) fun p => ?_
    obtain ⟨l2, r2⟩ := p
    exact .bind (H.eval _) fun _ => .bind (H.eval _) fun _ => .bind (H.eval _) fun _ =>
      .bind .rolledDice fun _ => .pure _
  | bRollList rs =>
    exact .bind (H.varArgsInRolls _) fun _ => .bind (H.bRollList _) fun _ =>
      .bind .rolledDice fun _ => .pure _
  | bRollComp rs op e =>
    exact .bind (H.varArgsInRolls _) fun _ => .bind (H.eval _) fun _ => .bind (H.bRollComp _ _ _) fun _ =>
      .bind .rolledDice fun _ => .pure _
  | rRollList rl =>
    refine .bind (H.varArgsInRRollList _) fun _ => .bind (H.checkThreshold _ _) fun c => ?_
    cases c with
    | some m => exact .pure _
    | none => exact .bind (H.rRollList _) fun _ => .bind .rolledDice fun _ => .pure _
  | rRollComp rl op e =>
    refine .bind (H.varArgsInRRollList _) fun _ => .bind (H.eval _) fun _ =>
      .bind (H.setRerollThreshold _ _) fun _ => .bind (H.checkThreshold _ _) fun c => ?_
    cases c with
    | some m => exact .pure _
    | none => exact .bind (H.rRollComp _ _ _) fun _ => .bind .rolledDice fun _ => .pure _
  | uRollExpr u =>
    refine .bind (H.varArgsInURollExpr _) fun _ => .bind (H.checkThreshold _ _) fun c => ?_
    cases c with
    | some m => exact .pure _
    | none => exact .bind (H.uRollExpr _) fun _ => .bind .rolledDice fun _ => .pure _
  | uRollComp u op e =>
    refine .bind (H.varArgsInURollExpr _) fun _ => .bind (H.eval _) fun _ =>
      .bind (H.checkThreshold _ _) fun c => ?_
    cases c with
    | some m => exact .pure _
    | none => exact .bind (H.uRollComp _ _ _) fun _ => .bind .rolledDice fun _ => .pure _

end EvalAlike

theorem executeBasicCommand_alike {F : DieFeeder σ} {G : DieFeeder τ} (h : AnswerAlike F G R)
    (g c : Str) {s : σ} {t : τ} (hr : R s t) :
    (executeBasicCommand F g c s).1 = (executeBasicCommand G g c t).1 ∧
      R (executeBasicCommand F g c s).2 (executeBasicCommand G g c t).2 := by
  unfold executeBasicCommand
  split
  · exact ⟨rfl, hr⟩
  · obtain ⟨h1, h2, -⟩ := (EvalAlike.mk (E := newEvaluator F) (E' := newEvaluator G) h rfl).execute g
      ‹Node› s t [] hr
    exact ⟨h1, h2⟩

theorem executeCommand_alike {F : DieFeeder σ} {G : DieFeeder τ} (h : AnswerAlike F G R)
    {b : DiceBot σ} {b' : DiceBot τ} (hb : BotsAlike b b' R) (input : Str) {s : σ} {t : τ}
    (hr : R s t) : (executeCommand F b input s).1 = (executeCommand G b' input t).1 ∧
      R (executeCommand F b input s).2 (executeCommand G b' input t).2 := by
  unfold executeCommand
  dsimp only
  have h0 := hb.2 (firstPart (checkSecret input).1) (newEvaluator F) (newEvaluator G) h rfl s t [] hr
  have h0 : (executeDiceBotCommand F b (firstPart (checkSecret input).1) s).1 =
      (executeDiceBotCommand G b' (firstPart (checkSecret input).1) t).1 ∧
      R (executeDiceBotCommand F b (firstPart (checkSecret input).1) s).2
      (executeDiceBotCommand G b' (firstPart (checkSecret input).1) t).2 := h0
  rw [hb.1]
  generalize executeDiceBotCommand F b (firstPart (checkSecret input).1) s = x at h0
  generalize executeDiceBotCommand G b' (firstPart (checkSecret input).1) t = y at h0
  obtain ⟨o, s1⟩ := x
  obtain ⟨o', t1⟩ := y
  obtain ⟨h1, hr1⟩ := h0
  dsimp only at h1 hr1
  subst h1
  cases o with
  | ok r => exact ⟨rfl, hr1⟩
  | panic m => exact ⟨rfl, hr1⟩
  | err e =>
    dsimp only
    have h0 := executeBasicCommand_alike h b'.info.gameID (checkSecret input).1 hr1
    generalize executeBasicCommand F b'.info.gameID (checkSecret input).1 s1 = x at h0
    generalize executeBasicCommand G b'.info.gameID (checkSecret input).1 t1 = y at h0
    obtain ⟨o, s2⟩ := x
    obtain ⟨o', t2⟩ := y
    obtain ⟨h1, hr2⟩ := h0
    dsimp only at h1 hr2
    subst h1
    cases o with
    | ok r => exact ⟨rfl, hr2⟩
    | panic m => exact ⟨rfl, hr2⟩
    | err e =>
      dsimp only
      have h0 := executeBasicCommand_alike h b'.info.gameID (firstPart (checkSecret input).1) hr2
      generalize executeBasicCommand F b'.info.gameID (firstPart (checkSecret input).1) s2 = x at h0
      generalize executeBasicCommand G b'.info.gameID (firstPart (checkSecret input).1) t2 = y at h0
      obtain ⟨o, s3⟩ := x
      obtain ⟨o', t3⟩ := y
      obtain ⟨h1, hr3⟩ := h0
      dsimp only at h1 hr3
      subst h1
      cases o <;> exact ⟨rfl, hr3⟩

theorem basicBot_alike (usage : Str) : BotsAlike (basicBot usage : DiceBot σ) (basicBot usage : DiceBot τ) R :=
  ⟨rfl, fun _ _ _ _ _ _ _ _ hr => ⟨rfl, hr⟩⟩

end GoBCDice
