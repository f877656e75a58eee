import Verif.Spec.Share

/-! # Evaluation with feeders that answer alike until the first of them gives up -/

namespace GoBCDice

variable {σ τ : Type} {R : σ → τ → Prop} {J : σ → τ → Prop} {α β : Type}

/-- Asked for a die with at least one side (the program asks for no other) in states related by `R` the
feeders answer alike, or the first panics and they reach states
related by `J`, which remain related whatever the second is asked. -/
def AlikeUnless (F : DieFeeder σ) (G : DieFeeder τ) (R : σ → τ → Prop) (J : σ → τ → Prop) : Prop :=
  (∀ s t k, 1 ≤ k → R s t →
    ((∃ m, (F.next s k).1 = .panic m) ∧ J (F.next s k).2 (G.next t k).2) ∨
    ((F.next s k).1 = (G.next t k).1 ∧ R (F.next s k).2 (G.next t k).2)) ∧
  ∀ s t k, 1 ≤ k → J s t → J s (G.next t k).2

/-- The same of functions on feeder states. -/
def SimF (R : σ → τ → Prop) (J : σ → τ → Prop) (x : σ → Out α × σ) (y : τ → Out α × τ) : Prop :=
  (∀ s t, R s t →
    ((∃ m, (x s).1 = .panic m) ∧ J (x s).2 (y t).2) ∨ ((x s).1 = (y t).1 ∧ R (x s).2 (y t).2)) ∧
  ∀ s t, J s t → J s (y t).2

/-- The same of evaluator functions. -/
def SimU (R : σ → τ → Prop) (J : σ → τ → Prop) (x : M σ α) (y : M τ α) : Prop :=
  (∀ s t log, R s t →
    ((∃ m, (x ⟨s, log⟩).1 = .panic m) ∧ J (x ⟨s, log⟩).2.feeder (y ⟨t, log⟩).2.feeder) ∨
    ((x ⟨s, log⟩).1 = (y ⟨t, log⟩).1 ∧
    R (x ⟨s, log⟩).2.feeder (y ⟨t, log⟩).2.feeder ∧ (x ⟨s, log⟩).2.log = (y ⟨t, log⟩).2.log)) ∧
  ∀ s t log, J s t → J s (y ⟨t, log⟩).2.feeder

theorem SimU.pure (a : α) : SimU R J (Pure.pure a : M σ α) (Pure.pure a : M τ α) :=
  ⟨fun _ _ _ h => .inr ⟨rfl, h, rfl⟩, fun _ _ _ h => h⟩

theorem SimU.fail (e : Str) : SimU R J (M.fail e : M σ α) (M.fail e : M τ α) :=
  ⟨fun _ _ _ h => .inr ⟨rfl, h, rfl⟩, fun _ _ _ h => h⟩

theorem SimU.crash (e : Str) : SimU R J (M.crash e : M σ α) (M.crash e : M τ α) :=
  ⟨fun _ _ _ h => .inr ⟨rfl, h, rfl⟩, fun _ _ _ h => h⟩

theorem SimU.bind {x : M σ α} {y : M τ α} {f : α → M σ β} {g : α → M τ β} (h : SimU R J x y)
    (hf : ∀ a, SimU R J (f a) (g a)) : SimU R J (x >>= f) (y >>= g) := by
  have hP : ∀ s t log, J s t → J s (M.bnd y g ⟨t, log⟩).2.feeder := by
    intro s t log hp
    have := h.2 _ t log hp
    unfold M.bnd
    cases hy : y ⟨t, log⟩ with
    | mk o' t' =>
      obtain ⟨ft, lt⟩ := t'
      rw [hy] at this
      cases o' with
      | ok a => exact (hf a).2 _ ft lt this
      | err e => exact this
      | panic m => exact this
  refine ⟨?_, hP⟩
  intro s t log hr
  change ((∃ m, (M.bnd x f ⟨s, log⟩).1 = .panic m) ∧ J (M.bnd x f ⟨s, log⟩).2.feeder (M.bnd y g ⟨t, log⟩).2.feeder) ∨
    ((M.bnd x f ⟨s, log⟩).1 = (M.bnd y g ⟨t, log⟩).1 ∧ R (M.bnd x f ⟨s, log⟩).2.feeder (M.bnd y g ⟨t, log⟩).2.feeder ∧
    (M.bnd x f ⟨s, log⟩).2.log = (M.bnd y g ⟨t, log⟩).2.log)
  have h0 := h.1 s t log hr
  unfold M.bnd
  cases hx : x ⟨s, log⟩ with
  | mk o s' =>
    cases hy : y ⟨t, log⟩ with
    | mk o' t' =>
      obtain ⟨fs, ls⟩ := s'
      obtain ⟨ft, lt⟩ := t'
      rw [hx, hy] at h0
      dsimp only at h0
      rcases h0 with ⟨⟨m, rfl⟩, h3⟩ | ⟨h1, h2, h3⟩
      · refine .inl ⟨⟨m, rfl⟩, ?_⟩
        cases o' with
        | ok a => exact (hf a).2 _ ft lt h3
        | err e => exact h3
        | panic m => exact h3
      · subst h1 h3
        cases o with
        | ok a => exact (hf a).1 fs ft ls h2
        | err e => exact .inr ⟨rfl, h2, rfl⟩
        | panic m => exact .inr ⟨rfl, h2, rfl⟩

theorem SimU.rolledDice : SimU R J (Evaluator.rolledDice (σ := σ)) (Evaluator.rolledDice (σ := τ)) :=
  ⟨fun _ _ _ h => .inr ⟨rfl, h, rfl⟩, fun _ _ _ h => h⟩

theorem SimU.firstDie (ds : List Die) :
    SimU R J (Evaluator.firstDie ds : M σ Die) (Evaluator.firstDie ds : M τ Die) := by
  cases ds with
  | nil => exact .crash _
  | cons d ds => exact .pure d

theorem rollLoop_alikeU {F : DieFeeder σ} {G : DieFeeder τ} (h : AlikeUnless F G R J) (n k : Int64) (hk : 1 ≤ k) :
    ∀ m acc, SimF R J (rollLoop F n k m acc) (rollLoop G n k m acc) := by
  intro m
  induction m with
  | zero => intro acc; exact ⟨fun s t hr => .inr ⟨rfl, hr⟩, fun _ _ h => h⟩
  | succ m ih =>
    intro acc
    have hP : ∀ s t, J s t → J s (rollLoop G n k (m + 1) acc t).2 := by
      intro s t hp
      have := h.2 _ t k hk hp
      simp only [rollLoop]
      cases hy : G.next t k with
      | mk o' t' =>
        rw [hy] at this
        cases o' with
        | err e => exact this
        | panic e => exact this
        | ok d =>
          dsimp only
          split
          · exact this
          · exact (ih _).2 _ _ this
    refine ⟨?_, hP⟩
    intro s t hr
    have h0 := h.1 s t k hk hr
    simp only [rollLoop]
    cases hx : F.next s k with
    | mk o s' =>
      cases hy : G.next t k with
      | mk o' t' =>
        rw [hx, hy] at h0
        dsimp only at h0
        rcases h0 with ⟨⟨e, rfl⟩, h3⟩ | ⟨h1, h2⟩
        · refine .inl ⟨⟨e, rfl⟩, ?_⟩
          cases o' with
          | err e => exact h3
          | panic e => exact h3
          | ok d =>
            dsimp only
            split
            · exact h3
            · exact (ih _).2 _ _ h3
        · subst h1
          cases o with
          | err e => exact .inr ⟨rfl, h2⟩
          | panic e => exact .inr ⟨rfl, h2⟩
          | ok d =>
            dsimp only
            split
            · exact .inr ⟨rfl, h2⟩
            · exact (ih _).1 _ _ h2

theorem rollDice_alikeU {F : DieFeeder σ} {G : DieFeeder τ} (h : AlikeUnless F G R J) (n k : Int64) :
    SimF R J (rollDice F n k) (rollDice G n k) := by
  unfold rollDice
  split
  · exact ⟨fun s t hr => .inr ⟨rfl, hr⟩, fun _ _ h => h⟩
  · split
    · exact ⟨fun s t hr => .inr ⟨rfl, hr⟩, fun _ _ h => h⟩
    · split
      · exact ⟨fun s t hr => .inr ⟨rfl, hr⟩, fun _ _ h => h⟩
      · exact rollLoop_alikeU h n k (by grind) _ _

/-- Evaluators with such feeders, with the same limit. -/
structure EvalUnless (E : Evaluator σ) (E' : Evaluator τ) (R : σ → τ → Prop) (J : σ → τ → Prop) : Prop where
  alike : AlikeUnless E.F E'.F R J
  limit : E.maxRerolls = E'.maxRerolls

namespace EvalUnless
variable {E : Evaluator σ} {E' : Evaluator τ} (H : EvalUnless E E' R J)
include H

theorem rollDice (n k : Int64) : SimU R J (E.rollDice n k) (E'.rollDice n k) := by
  have hs := rollDice_alikeU H.alike n k
  have hP : ∀ s t log, J s t → J s (E'.rollDice n k ⟨t, log⟩).2.feeder := by
    intro s t log hp
    have := hs.2 _ t hp
    unfold Evaluator.rollDice
    dsimp only
    cases hy : GoBCDice.rollDice E'.F n k t with
    | mk o' t' =>
      rw [hy] at this
      cases o' <;> exact this
  refine ⟨?_, hP⟩
  intro s t log hr
  have h0 := hs.1 s t hr
  unfold Evaluator.rollDice
  dsimp only
  cases hx : GoBCDice.rollDice E.F n k s with
  | mk o s' =>
    cases hy : GoBCDice.rollDice E'.F n k t with
    | mk o' t' =>
      rw [hx, hy] at h0
      dsimp only at h0
      rcases h0 with ⟨⟨e, rfl⟩, h3⟩ | ⟨h1, h2⟩
      · refine .inl ⟨⟨e, rfl⟩, ?_⟩
        cases o' <;> exact h3
      · subst h1
        cases o <;> exact .inr ⟨rfl, h2, rfl⟩

omit H in
theorem divide (m : Rounding) (a b : Int64) :
    SimU R J (Evaluator.evalIntegerDivide m a b : M σ Int64) (Evaluator.evalIntegerDivide m a b) := by
  unfold Evaluator.evalIntegerDivide
  split
  · exact .fail _
  · exact .pure _

theorem sumRoll (n k : Int64) : SimU R J (E.evalSumRoll n k) (E'.evalSumRoll n k) :=
  .bind (H.rollDice n k) fun _ => .pure _

theorem randomNumber (n k : Int64) : SimU R J (E.evalRandomNumber n k) (E'.evalRandomNumber n k) := by
  unfold Evaluator.evalRandomNumber
  split
  · exact .fail _
  · exact .bind (H.rollDice _ _) fun _ => .bind (.firstDie _) fun _ => .pure _

theorem eval (e : Expr) : SimU R J (E.eval e) (E'.eval e) := by
  induction e with
  | int v => exact .pure v
  | sumRoll ds => exact .pure _
  | neg r ih => exact .bind ih fun _ => .pure _
  | bin op l r ihl ihr => exact .bind ihl fun _ => .bind ihr fun _ => .pure _
  | div m l r ihl ihr => exact .bind ihl fun _ => .bind ihr fun _ => divide _ _ _
  | var k l r ihl ihr =>
    cases k with
    | d => exact .bind ihl fun _ => .bind ihr fun _ => H.sumRoll _ _
    | rand => exact .bind ihl fun _ => .bind ihr fun _ => H.randomNumber _ _

theorem basicRoll (r : Roll) : SimU R J (E.evalBasicRoll r) (E'.evalBasicRoll r) :=
  .bind (H.eval _) fun _ => .bind (H.eval _) fun _ => .bind (H.rollDice _ _) fun _ => .pure _

theorem bRollList (rs : List Roll) : SimU R J (E.evalBRollList rs) (E'.evalBRollList rs) := by
  induction rs with
  | nil => exact .pure _
  | cons r rs ih => exact .bind (H.basicRoll r) fun _ => .bind ih fun _ => .pure _

theorem bRollComp (rs : List Roll) (op : CmpOp) (e : Expr) :
    SimU R J (E.evalBRollComp rs op e) (E'.evalBRollComp rs op e) :=
  .bind (H.bRollList rs) fun _ => .bind (H.eval e) fun _ => .pure _

theorem rRollLoop (th : Int64) : ∀ n q acc, SimU R J (E.rRollLoop th n q acc) (E'.rRollLoop th n q acc) := by
  intro n
  induction n with
  | zero => intro q acc; exact .pure _
  | succ n ih =>
    intro q acc
    cases q with
    | nil => exact .pure _
    | cons r q => exact .bind (H.basicRoll r) fun _ => ih _ _

theorem rRollList (rl : RRollList) : SimU R J (E.evalRRollList rl) (E'.evalRRollList rl) := by
  unfold Evaluator.evalRRollList
  split
  · exact .fail _
  · exact .bind (H.eval _) fun _ => H.limit ▸ H.rRollLoop _ _ _ _

theorem rRollComp (rl : RRollList) (op : CmpOp) (e : Expr) :
    SimU R J (E.evalRRollComp rl op e) (E'.evalRRollComp rl op e) :=
  .bind (H.rRollList rl) fun _ => .bind (H.eval e) fun _ => .pure _

theorem uGroup (k th : Int64) : ∀ n acc, SimU R J (E.uGroup k th n acc) (E'.uGroup k th n acc) := by
  intro n
  induction n with
  | zero => intro acc; exact .pure _
  | succ n ih =>
    intro acc
    refine .bind (H.rollDice _ _) fun _ => .bind (.firstDie _) fun d => ?_
    split
    · exact .pure _
    · exact ih _

theorem uGroups (k th : Int64) : ∀ n acc, SimU R J (E.uGroups k th n acc) (E'.uGroups k th n acc) := by
  intro n
  induction n with
  | zero => intro acc; exact .pure _
  | succ n ih =>
    intro acc
    exact .bind (H.limit ▸ H.uGroup _ _ _ _) fun _ => ih _

theorem compoundingRoll (r : Roll) (th : Int64) :
    SimU R J (E.evalCompoundingRoll r th) (E'.evalCompoundingRoll r th) := by
  refine .bind (H.eval _) fun n => .bind (H.eval _) fun k => ?_
  split
  · exact .fail _
  · split
    · exact .fail _
    · split
      · exact .crash _
      · exact H.uGroups _ _ _ _

theorem compoundingRolls (th : Int64) (rs : List Roll) :
    SimU R J (E.evalCompoundingRolls th rs) (E'.evalCompoundingRolls th rs) := by
  induction rs with
  | nil => exact .pure _
  | cons r rs ih => exact .bind (H.compoundingRoll r th) fun _ => .bind ih fun _ => .pure _

theorem uRollList (rl : RRollList) : SimU R J (E.evalURollList rl) (E'.evalURollList rl) := by
  unfold Evaluator.evalURollList
  split
  · exact .fail _
  · exact .bind (H.eval _) fun _ => H.compoundingRolls _ _

theorem bonus (b : Option (Sign × Expr)) : SimU R J (E.evalBonus b) (E'.evalBonus b) := by
  cases b with
  | none => exact .pure _
  | some b => exact H.eval _

theorem uRollExpr (u : URollExpr) : SimU R J (E.evalURollExpr u) (E'.evalURollExpr u) :=
  .bind (H.bonus _) fun _ => .bind (H.uRollList _) fun _ => .pure _

theorem uRollComp (u : URollExpr) (op : CmpOp) (e : Expr) :
    SimU R J (E.evalURollComp u op e) (E'.evalURollComp u op e) :=
  .bind (H.uRollExpr u) fun _ => .bind (H.eval e) fun _ => .pure _

theorem choice (items : List Str) : SimU R J (E.evalChoice items) (E'.evalChoice items) := by
  refine .bind (H.rollDice _ _) fun _ => .bind (.firstDie _) fun d => ?_
  dsimp only
  split
  · exact .crash _
  · split
    · exact .pure _
    · exact .crash _

theorem varArgsOfRoll (r : Roll) : SimU R J (E.evalVarArgsOfRoll r) (E'.evalVarArgsOfRoll r) :=
  .bind (H.eval _) fun _ => .bind (H.eval _) fun _ => .pure _

theorem varArgsPrimary (e : Expr) : SimU R J (E.evalVarArgsPrimary e) (E'.evalVarArgsPrimary e) := by
  unfold Evaluator.evalVarArgsPrimary
  split
  · unfold Evaluator.evalVarArgsOfVariableExpr
    split
    · exact .bind (H.eval _) fun _ => .bind (H.eval _) fun _ => .pure _
    · exact .fail _
  · exact .pure _

omit H in
theorem ite {c : Prop} [Decidable c] {x x' : M σ α} {y y' : M τ α} (h : SimU R J x y) (h' : SimU R J x' y') :
    SimU R J (if c then x else x') (if c then y else y') := by
  split
  · exact h
  · exact h'

theorem varArgs (e : Expr) : SimU R J (E.evalVarArgs e) (E'.evalVarArgs e) := by
  induction e with
  | int v => exact .fail _
  | sumRoll ds => exact .fail _
  | neg r ih =>
    simp only [Evaluator.evalVarArgs]
    split
    · exact .bind (H.varArgsPrimary r) fun _ => .pure _
    · exact .bind ih fun _ => .pure _
  | bin op l r ihl ihr =>
    simp only [Evaluator.evalVarArgs]
    split <;> split
    · exact .bind (H.varArgsPrimary l) fun _ => .bind (H.varArgsPrimary r) fun _ => .pure _
    · exact .bind (H.varArgsPrimary l) fun _ => .bind ihr fun _ => .pure _
    · exact .bind ihl fun _ => .bind (H.varArgsPrimary r) fun _ => .pure _
    · exact .bind ihl fun _ => .bind ihr fun _ => .pure _
  | div op l r ihl ihr =>
    simp only [Evaluator.evalVarArgs]
    split <;> split
    · exact .bind (H.varArgsPrimary l) fun _ => .bind (H.varArgsPrimary r) fun _ => .pure _
    · exact .bind (H.varArgsPrimary l) fun _ => .bind ihr fun _ => .pure _
    · exact .bind ihl fun _ => .bind (H.varArgsPrimary r) fun _ => .pure _
    · exact .bind ihl fun _ => .bind ihr fun _ => .pure _
  | var op l r ihl ihr =>
    simp only [Evaluator.evalVarArgs]
    split <;> split
    · exact .bind (H.varArgsPrimary l) fun _ => .bind (H.varArgsPrimary r) fun _ => .pure _
    · exact .bind (H.varArgsPrimary l) fun _ => .bind ihr fun _ => .pure _
    · exact .bind ihl fun _ => .bind (H.varArgsPrimary r) fun _ => .pure _
    · exact .bind ihl fun _ => .bind ihr fun _ => .pure _

theorem varArgsInCommand (e : Expr) :
    SimU R J (E.evalVarArgsInCommand e) (E'.evalVarArgsInCommand e) :=
  ite (H.varArgsPrimary e) (H.varArgs e)

theorem varArgsInRolls (rs : List Roll) :
    SimU R J (E.evalVarArgsInRolls rs) (E'.evalVarArgsInRolls rs) := by
  induction rs with
  | nil => exact .pure _
  | cons r rs ih => exact .bind (H.varArgsOfRoll r) fun _ => .bind ih fun _ => .pure _

theorem varArgsOfThreshold (t : Option Expr) :
    SimU R J (E.evalVarArgsOfThreshold t) (E'.evalVarArgsOfThreshold t) := by
  cases t with
  | none => exact .pure _
  | some e => exact .bind (H.eval e) fun _ => .pure _

theorem varArgsInRRollList (rl : RRollList) :
    SimU R J (E.evalVarArgsInRRollList rl) (E'.evalVarArgsInRRollList rl) :=
  .bind (H.varArgsOfThreshold _) fun _ => .bind (H.varArgsInRolls _) fun _ => .pure _

theorem varArgsInURollExpr (u : URollExpr) :
    SimU R J (E.evalVarArgsInURollExpr u) (E'.evalVarArgsInURollExpr u) := by
  refine .bind (H.varArgsInRRollList _) fun _ => ?_
  split
  · exact .pure _
  · exact .bind (H.eval _) fun _ => .pure _

theorem replacePrimary (e : Expr) :
    SimU R J (E.replaceVariablePrimaryExpr e) (E'.replaceVariablePrimaryExpr e) := by
  unfold Evaluator.replaceVariablePrimaryExpr
  split
  · unfold Evaluator.determineValueOfVariableExpr
    split
    · split
      · split
        · exact .bind (H.rollDice _ _) fun _ => .pure _
        · exact .fail _
      · exact .fail _
    · exact .fail _
  · exact .pure _

theorem determineValues (e : Expr) : SimU R J (E.determineValues e) (E'.determineValues e) := by
  induction e with
  | int v => exact .fail _
  | sumRoll ds => exact .fail _
  | neg r ih =>
    simp only [Evaluator.determineValues]
    split
    · exact .bind (H.replacePrimary r) fun _ => .pure _
    · exact .bind ih fun _ => .pure _
  | bin op l r ihl ihr =>
    simp only [Evaluator.determineValues]
    split <;> split
    · exact .bind (H.replacePrimary l) fun _ => .bind (H.replacePrimary r) fun _ => .pure _
    · exact .bind (H.replacePrimary l) fun _ => .bind ihr fun _ => .pure _
    · exact .bind ihl fun _ => .bind (H.replacePrimary r) fun _ => .pure _
    · exact .bind ihl fun _ => .bind ihr fun _ => .pure _
  | div op l r ihl ihr =>
    simp only [Evaluator.determineValues]
    split <;> split
    · exact .bind (H.replacePrimary l) fun _ => .bind (H.replacePrimary r) fun _ => .pure _
    · exact .bind (H.replacePrimary l) fun _ => .bind ihr fun _ => .pure _
    · exact .bind ihl fun _ => .bind (H.replacePrimary r) fun _ => .pure _
    · exact .bind ihl fun _ => .bind ihr fun _ => .pure _
  | var op l r ihl ihr =>
    simp only [Evaluator.determineValues]
    split <;> split
    · exact .bind (H.replacePrimary l) fun _ => .bind (H.replacePrimary r) fun _ => .pure _
    · exact .bind (H.replacePrimary l) fun _ => .bind ihr fun _ => .pure _
    · exact .bind ihl fun _ => .bind (H.replacePrimary r) fun _ => .pure _
    · exact .bind ihl fun _ => .bind ihr fun _ => .pure _

theorem determineValuesOperand (e : Expr) :
    SimU R J (E.determineValuesOperand e) (E'.determineValuesOperand e) :=
  ite (H.replacePrimary e) (H.determineValues e)

theorem setRerollThreshold (rl : RRollList) (e : Expr) :
    SimU R J (E.setRerollThreshold rl e) (E'.setRerollThreshold rl e) := by
  unfold Evaluator.setRerollThreshold
  split
  · exact .pure _
  · exact .bind (H.eval e) fun _ => .pure _

theorem checkThreshold (m : Str) (t : Option Expr) :
    SimU R J (E.checkThreshold m t) (E'.checkThreshold m t) := by
  cases t with
  | none => exact .pure _
  | some e =>
    have hs := H.eval e
    have hP : ∀ s u log, J s u → J s (E'.checkThreshold m (some e) ⟨u, log⟩).2.feeder := by
      intro s u log hp
      have := hs.2 _ u log hp
      simp only [Evaluator.checkThreshold]
      cases hy : E'.eval e ⟨u, log⟩ with
      | mk o' t' =>
        rw [hy] at this
        cases o' <;> exact this
    refine ⟨?_, hP⟩
    intro s u log hr
    have h0 := hs.1 s u log hr
    simp only [Evaluator.checkThreshold]
    cases hx : E.eval e ⟨s, log⟩ with
    | mk o s' =>
      cases hy : E'.eval e ⟨u, log⟩ with
      | mk o' t' =>
        rw [hx, hy] at h0
        dsimp only at h0
        rcases h0 with ⟨⟨e, rfl⟩, h3⟩ | ⟨h1, h2, h3⟩
        · refine .inl ⟨⟨e, rfl⟩, ?_⟩
          cases o' <;> exact h3
        · subst h1
          cases o <;> exact .inr ⟨rfl, h2, h3⟩

theorem execute (g : Str) (node : Node) : SimU R J (E.execute g node) (E'.execute g node) := by
  cases node with
  | choice items => exact .bind (H.choice _) fun _ => .bind .rolledDice fun _ => .pure _
  | «calc» e => exact .bind (H.eval _) fun _ => .pure _
  | dRollExpr e =>
    exact .bind (H.varArgsInCommand _) fun _ => .bind (H.determineValuesOperand _) fun _ =>
      .bind (H.eval _) fun _ => .bind .rolledDice fun _ => .pure _
  | dRollComp l op r =>
    refine .bind (.bind (H.varArgs _) fun _ => .bind (H.eval _) fun _ => .pure _) fun p => ?_
    obtain ⟨l1, r1⟩ := p
    refine .bind (.bind (H.determineValuesOperand _) fun _ => .bind (H.determineValuesOperand _) fun _ => .pure _) fun p => ?_
    obtain ⟨l2, r2⟩ := p
    exact .bind (H.eval _) fun _ => .bind (H.eval _) fun _ => .bind (H.eval _) fun _ =>
      .bind .rolledDice fun _ => .pure _
  | bRollList rs =>
    exact .bind (H.varArgsInRolls _) fun _ => .bind (H.bRollList _) fun _ =>
      .bind .rolledDice fun _ => .pure _
  | bRollComp rs op e =>
    exact .bind (H.varArgsInRolls _) fun _ => .bind (H.eval _) fun _ => .bind (H.bRollComp _ _ _) fun _ =>
      .bind .rolledDice fun _ => .pure _
  | rRollList rl =>
    refine .bind (H.varArgsInRRollList _) fun _ => .bind (H.checkThreshold _ _) fun c => ?_
    cases c with
    | some m => exact .pure _
    | none => exact .bind (H.rRollList _) fun _ => .bind .rolledDice fun _ => .pure _
  | rRollComp rl op e =>
    refine .bind (H.varArgsInRRollList _) fun _ => .bind (H.eval _) fun _ =>
      .bind (H.setRerollThreshold _ _) fun _ => .bind (H.checkThreshold _ _) fun c => ?_
    cases c with
    | some m => exact .pure _
    | none => exact .bind (H.rRollComp _ _ _) fun _ => .bind .rolledDice fun _ => .pure _
  | uRollExpr u =>
    refine .bind (H.varArgsInURollExpr _) fun _ => .bind (H.checkThreshold _ _) fun c => ?_
    cases c with
    | some m => exact .pure _
    | none => exact .bind (H.uRollExpr _) fun _ => .bind .rolledDice fun _ => .pure _
  | uRollComp u op e =>
    refine .bind (H.varArgsInURollExpr _) fun _ => .bind (H.eval _) fun _ =>
      .bind (H.checkThreshold _ _) fun c => ?_
    cases c with
    | some m => exact .pure _
    | none => exact .bind (H.uRollComp _ _ _) fun _ => .bind .rolledDice fun _ => .pure _

end EvalUnless

theorem runFresh_alikeU {x : M σ α} {y : M τ α} (h : SimU R J x y) : SimF R J (runFresh x) (runFresh y) := by
  refine ⟨?_, fun s t hp => h.2 s t [] hp⟩
  intro s t hr
  rcases h.1 s t [] hr with ⟨h1, h2⟩ | ⟨h1, h2, -⟩
  · exact .inl ⟨h1, h2⟩
  · exact .inr ⟨h1, h2⟩

theorem executeBasicBytes_alikeU {F : DieFeeder σ} {G : DieFeeder τ} (h : AlikeUnless F G R J) (g : Str) (c : Bytes) :
    SimF R J (executeBasicBytes F g c) (executeBasicBytes G g c) := by
  unfold executeBasicBytes
  cases goParse chars!"input" (decode c) with
  | error m => exact ⟨fun s t hr => .inr ⟨rfl, hr⟩, fun _ _ h => h⟩
  | ok v =>
    dsimp only
    cases v.toNode with
    | none => exact ⟨fun s t hr => .inr ⟨rfl, hr⟩, fun _ _ h => h⟩
    | some node =>
      exact runFresh_alikeU ((EvalUnless.mk (E := newEvaluator F) (E' := newEvaluator G) h rfl).execute g node)

/-- How `ExecuteCommand` goes on after an attempt. -/
def retry (x : σ → Out Result × σ) (sec : Bool) (next : Str → σ → Out Result × σ) (s : σ) : Out Result × σ :=
  match x s with
  | (.ok r, s') => (.ok (r.withSecret sec), s')
  | (.panic m, s') => (.panic m, s')
  | (.err e, s') => next e s'

theorem retry_alikeU {x : σ → Out Result × σ} {y : τ → Out Result × τ} {next : Str → σ → Out Result × σ}
    {next' : Str → τ → Out Result × τ} (sec : Bool) (h : SimF R J x y)
    (h' : ∀ e, SimF R J (next e) (next' e)) : SimF R J (retry x sec next) (retry y sec next') := by
  have hP : ∀ s t, J s t → J s (retry y sec next' t).2 := by
    intro s t hp
    have := h.2 _ t hp
    unfold retry
    cases hy : y t with
    | mk o t' =>
      rw [hy] at this
      cases o with
      | ok r => exact this
      | panic m => exact this
      | err e => exact (h' e).2 _ _ this
  refine ⟨?_, hP⟩
  intro s t hr
  have h0 := h.1 s t hr
  unfold retry
  cases hx : x s with
  | mk o s' =>
    cases hy : y t with
    | mk o' t' =>
      rw [hx, hy] at h0
      dsimp only at h0
      rcases h0 with ⟨⟨e, rfl⟩, h3⟩ | ⟨h1, h2⟩
      · refine .inl ⟨⟨e, rfl⟩, ?_⟩
        cases o' with
        | ok r => exact h3
        | panic m => exact h3
        | err e => exact (h' e).2 _ _ h3
      · subst h1
        cases o with
        | ok r => exact .inr ⟨rfl, h2⟩
        | panic m => exact .inr ⟨rfl, h2⟩
        | err e => exact (h' e).1 _ _ h2

theorem executeBytes_retry (F : DieFeeder σ) (usage : Str) (input : Bytes) (s : σ) :
    executeBytes F (basicByteBot usage) input s =
      retry (executeBasicBytes F (basicInfo usage).gameID (checkSecretBytes input).1) (checkSecretBytes input).2
        (fun _ => retry (executeBasicBytes F (basicInfo usage).gameID (firstPartBytes (checkSecretBytes input).1))
          (checkSecretBytes input).2 (fun e s => (.err e, s))) s := by
  unfold executeBytes
  generalize checkSecretBytes input = x
  obtain ⟨cmd, sec⟩ := x
  simp only [basicByteBot, runFresh, M.fail, retry]
  generalize executeBasicBytes F (basicInfo usage).gameID cmd s = r1
  obtain ⟨r1, s1⟩ := r1
  cases r1 with
  | ok r => rfl
  | panic m => rfl
  | err e =>
    dsimp only
    generalize executeBasicBytes F (basicInfo usage).gameID (firstPartBytes cmd) s1 = r2
    obtain ⟨r2, s2⟩ := r2
    cases r2 <;> rfl

theorem executeBytes_alikeU {F : DieFeeder σ} {G : DieFeeder τ} (h : AlikeUnless F G R J) (usage : Str) (input : Bytes) :
    SimF R J (executeBytes F (basicByteBot usage) input) (executeBytes G (basicByteBot usage) input) := by
  have := retry_alikeU (checkSecretBytes input).2
    (executeBasicBytes_alikeU h (basicInfo usage).gameID (checkSecretBytes input).1)
    (fun _ => retry_alikeU (checkSecretBytes input).2
      (executeBasicBytes_alikeU h (basicInfo usage).gameID (firstPartBytes (checkSecretBytes input).1))
      (fun e => ⟨fun s t hr => .inr ⟨rfl, hr⟩, fun _ _ h => h⟩ : ∀ e, SimF R J (fun s => (.err e, s)) (fun s => (.err e, s))))
  refine ⟨?_, ?_⟩
  · intro s t hr
    rw [executeBytes_retry, executeBytes_retry]
    exact this.1 s t hr
  · intro s t hp
    rw [executeBytes_retry]
    exact this.2 s t hp

end GoBCDice
