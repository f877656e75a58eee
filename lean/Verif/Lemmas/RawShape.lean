import Verif.Lemmas.RawAppend
import Verif.Spec.Raw

/-!
# Execution on arbitrary graphs of nodes replaces links and nothing else
-/

namespace GoBCDice.Raw

variable {σ : Type} {α β : Type}

/-- All nodes are what they were, up to replaceable links; there may be new ones. -/
def SameKinds (S T : HSt σ) : Prop :=
  ∃ new, T.heap.map Obj.skeleton = S.heap.map Obj.skeleton ++ new

theorem kinds_pre : Preorder (SameKinds (σ := σ)) :=
  ⟨fun S => ⟨[], by simp⟩, by
    rintro S T U ⟨a, ha⟩ ⟨b, hb⟩
    exact ⟨a ++ b, by rw [hb, ha, List.append_assoc]⟩⟩

theorem Grows.kinds {S T : HSt σ} (h : Grows S T) : SameKinds S T := by
  obtain ⟨new, h⟩ := h
  exact ⟨new.map Obj.skeleton, by rw [h, List.map_append]⟩

theorem Keeps.kinds {x : H σ α} (hx : Keeps Grows x) : Keeps SameKinds x :=
  hx.mono fun _ _ => Grows.kinds

theorem Keeps.kindsP {x : H σ α} (hx : Keeps GrowsPurely x) : Keeps SameKinds x :=
  hx.mono fun _ _ h => h.grows.kinds

/-! ## Computations from states in which a node is known -/

/-- There is such a node at `p`. -/
def IsAt (p : Ptr) (sk : Obj) (S : HSt σ) : Prop :=
  ∃ r o, p = some r ∧ S.heap[r]? = some o ∧ o.skeleton = sk

theorem IsAt.kept {p : Ptr} {sk : Obj} {S T : HSt σ} (h : IsAt p sk S) (hk : SameKinds S T) :
    IsAt p sk T := by
  obtain ⟨r, o, rfl, ho, hs⟩ := h
  obtain ⟨new, hk⟩ := hk
  have hr := (List.getElem?_eq_some_iff.mp ho).1
  have h1 : (T.heap.map Obj.skeleton)[r]? = some sk := by
    rw [hk, List.getElem?_append_left (by simpa using hr), List.getElem?_map, ho]
    simp [hs]
  rw [List.getElem?_map, Option.map_eq_some_iff] at h1
  obtain ⟨o', h2, h3⟩ := h1
  exact ⟨r, o', rfl, h2, h3⟩

/-- As `Keeps`, from states where the node is there. -/
def KeepsAt (p : Ptr) (sk : Obj) (x : H σ α) : Prop := ∀ S, IsAt p sk S → SameKinds S (x S).2

theorem Keeps.at {x : H σ α} (hx : Keeps SameKinds x) (p : Ptr) (sk : Obj) : KeepsAt p sk x :=
  fun S _ => hx S

theorem KeepsAt.bind {p : Ptr} {sk : Obj} {x : H σ α} {f : α → H σ β} (hx : Keeps SameKinds x)
    (hf : ∀ a, KeepsAt p sk (f a)) : KeepsAt p sk (x >>= f) := by
  intro S hS
  show SameKinds S (H.bnd x f S).2
  unfold H.bnd
  have h := hx S
  rcases hy : x S with ⟨o, T⟩
  rw [hy] at h
  cases o with
  | ok a => exact kinds_pre.trans h (hf a T (hS.kept h))
  | err e => exact h
  | panic e => exact h

theorem KeepsAt.bind' {p : Ptr} {sk : Obj} {x : H σ α} {f : α → H σ β} (hx : KeepsAt p sk x)
    (hf : ∀ a, Keeps SameKinds (f a)) : KeepsAt p sk (x >>= f) := by
  intro S hS
  show SameKinds S (H.bnd x f S).2
  unfold H.bnd
  have h := hx S hS
  rcases hy : x S with ⟨o, T⟩
  rw [hy] at h
  cases o with
  | ok a => exact kinds_pre.trans h (hf a T)
  | err e => exact h
  | panic e => exact h

theorem KeepsAt.ite {p : Ptr} {sk : Obj} {c : Prop} [Decidable c] {x y : H σ α}
    (hx : KeepsAt p sk x) (hy : KeepsAt p sk y) : KeepsAt p sk (if c then x else y) := by
  by_cases h : c
  · rw [if_pos h]; exact hx
  · rw [if_neg h]; exact hy

/-- After reading a node it is known. -/
theorem keeps_deref {p : Ptr} {f : Obj → H σ α} (hf : ∀ o, KeepsAt p o.skeleton (f o)) :
    Keeps SameKinds (deref p >>= f) := by
  intro S
  show SameKinds S (H.bnd (deref p) f S).2
  unfold H.bnd deref
  cases p with
  | none => exact kinds_pre.refl S
  | some r =>
    cases h : S.heap[r]? with
    | none => simp only [h]; exact kinds_pre.refl S
    | some o => simp only [h]; exact hf o S ⟨r, o, rfl, h, rfl⟩

theorem write_keeps {p : Ptr} {sk o : Obj} (h : o.skeleton = sk) :
    KeepsAt p sk (write p o : H σ Unit) := by
  rintro S ⟨r, o', rfl, ho, hs⟩
  refine ⟨[], ?_⟩
  simp only [write, List.append_nil]
  apply List.ext_getElem?
  intro i
  rw [List.getElem?_map, List.getElem?_map, List.getElem?_set]
  split
  · rename_i hi
    subst hi
    have hr := (List.getElem?_eq_some_iff.mp ho).1
    rw [if_pos hr, ho]
    simp [h, hs]
  · rfl

theorem setLeft_keeps (p new : Ptr) : Keeps SameKinds (setLeft p new : H σ Unit) := by
  unfold setLeft
  refine keeps_deref fun o => ?_
  split
  · exact write_keeps rfl
  · exact (Keeps.crash kinds_pre _).at _ _

theorem setRight_keeps (p new : Ptr) : Keeps SameKinds (setRight p new : H σ Unit) := by
  unfold setRight
  refine keeps_deref fun o => ?_
  split
  · exact write_keeps rfl
  · exact write_keeps rfl
  · exact (Keeps.crash kinds_pre _).at _ _

theorem setExpression_keeps (p new : Ptr) : Keeps SameKinds (setExpression p new : H σ Unit) := by
  unfold setExpression
  refine keeps_deref fun o => ?_
  split
  · exact write_keeps rfl
  · exact (Keeps.crash kinds_pre _).at _ _

theorem isVariable_keeps {R : HSt σ → HSt σ → Prop} (hR : Preorder R) (d : Nat) :
    ∀ p, Keeps R (isVariable d p : H σ Bool) := by
  induction d with
  | zero => intro p; exact Keeps.crash hR _
  | succ d ih =>
    intro p
    unfold isVariable
    refine Keeps.bind hR (Keeps.deref hR _) fun o => ?_
    split
    · exact Keeps.pure hR _
    · exact Keeps.pure hR _
    · exact Keeps.pure hR _
    · exact Keeps.pure hR _
    · exact ih _
    · refine Keeps.ite (Keeps.pure hR _) ?_
      exact Keeps.bind hR (ih _) fun b => Keeps.ite (Keeps.pure hR _) (ih _)
    · exact ih _
    all_goals exact Keeps.pure hR _

/-! ## Stage 1 -/

section
variable (E : Evaluator σ) (d : Nat)

theorem eval_kinds (p : Ptr) : Keeps SameKinds (eval E d p) := (eval_keeps E d p).kinds

theorem intNode_kinds (v : Value) : Keeps SameKinds (objectToIntNode v : H σ Ptr) :=
  (objectToIntNode_keeps v).kinds

theorem evalVarArgsOfRoll_kinds (p l r : Ptr) : Keeps SameKinds (evalVarArgsOfRoll E d p l r) := by
  unfold evalVarArgsOfRoll
  refine Keeps.bind kinds_pre (eval_kinds E d _) fun a => ?_
  refine Keeps.bind kinds_pre (eval_kinds E d _) fun b => ?_
  refine Keeps.bind kinds_pre (intNode_kinds _) fun l' => ?_
  refine Keeps.bind kinds_pre (setLeft_keeps _ _) fun _ => ?_
  exact Keeps.bind kinds_pre (intNode_kinds _) fun r' => setRight_keeps _ _

theorem evalVarArgsOfVariableExpr_kinds (p : Ptr) :
    Keeps SameKinds (evalVarArgsOfVariableExpr E d p) := by
  unfold evalVarArgsOfVariableExpr
  refine Keeps.bind kinds_pre (Keeps.deref kinds_pre _) fun o => ?_
  split <;> first | exact evalVarArgsOfRoll_kinds E d _ _ _ | exact Keeps.fail kinds_pre _

theorem evalVarArgsInRolls_kinds (ps : List Ptr) : Keeps SameKinds (evalVarArgsInRolls E d ps) := by
  induction ps with
  | nil => exact Keeps.pure kinds_pre _
  | cons p rest ih =>
    exact Keeps.bind kinds_pre (evalVarArgsOfVariableExpr_kinds E d p) fun _ => ih

theorem evalVarArgsInRRollList_kinds (p : Ptr) :
    Keeps SameKinds (evalVarArgsInRRollList E d p) := by
  unfold evalVarArgsInRRollList
  refine keeps_deref fun o => ?_
  split
  · refine KeepsAt.bind (Keeps.deref kinds_pre _) fun t => ?_
    refine KeepsAt.ite ((evalVarArgsInRolls_kinds E d _).at _ _) ?_
    refine KeepsAt.bind (eval_kinds E d _) fun v => ?_
    refine KeepsAt.bind (intNode_kinds _) fun t' => ?_
    exact KeepsAt.bind' (write_keeps rfl) fun _ => evalVarArgsInRolls_kinds E d _
  · exact (Keeps.crash kinds_pre _).at _ _

theorem newBonus_keeps (v : Int64) : Keeps Grows (newBonus v : H σ Ptr) := by
  unfold newBonus
  keeps grows_pre

theorem evalVarArgsInURollExpr_kinds (p l b : Ptr) :
    KeepsAt p (.uRollExpr l none) (evalVarArgsInURollExpr E d p l b) := by
  unfold evalVarArgsInURollExpr
  refine KeepsAt.bind (evalVarArgsInRRollList_kinds E d _) fun _ => ?_
  refine KeepsAt.ite ((Keeps.pure kinds_pre _).at _ _) ?_
  refine KeepsAt.bind (Keeps.deref kinds_pre _) fun o => ?_
  split
  · refine KeepsAt.bind (evalInfix_keeps E (eval_keeps E d) _ _ _).kinds fun v => ?_
    refine KeepsAt.bind (asInteger_keeps kinds_pre _) fun n => ?_
    exact KeepsAt.bind (newBonus_keeps _).kinds fun b => write_keeps rfl
  · exact (Keeps.crash kinds_pre _).at _ _

variable {go : Ptr → H σ Unit} (hgo : ∀ p, Keeps SameKinds (go p))
include hgo

theorem evalVarArgsOperand_kinds (p : Ptr) : Keeps SameKinds (evalVarArgsOperand E d go p) := by
  unfold evalVarArgsOperand
  refine Keeps.bind kinds_pre (Keeps.deref kinds_pre _) fun o => ?_
  refine Keeps.ite ?_ (hgo p)
  refine Keeps.bind kinds_pre (isVariable_keeps kinds_pre d p) fun v => ?_
  exact Keeps.ite (evalVarArgsOfVariableExpr_kinds E d p) (Keeps.pure kinds_pre _)

theorem evalVarArgsInCompare_kinds (p l r : Ptr) :
    Keeps SameKinds (evalVarArgsInCompare E d go p l r) := by
  unfold evalVarArgsInCompare
  refine Keeps.bind kinds_pre (hgo l) fun _ => ?_
  refine Keeps.bind kinds_pre (eval_kinds E d _) fun b => ?_
  exact Keeps.bind kinds_pre (intNode_kinds _) fun r' => setRight_keeps _ _

theorem evalVarArgsStep_kinds (p : Ptr) : Keeps SameKinds (evalVarArgsStep E d go p) := by
  unfold evalVarArgsStep
  refine keeps_deref fun o => ?_
  have hop := evalVarArgsOperand_kinds E d hgo
  split
  · exact (evalVarArgsInRolls_kinds E d _).at _ _
  · exact (evalVarArgsInRRollList_kinds E d _).at _ _
  · exact evalVarArgsInURollExpr_kinds E d _ _ _
  · exact (hop _).at _ _
  · exact (hop _).at _ _
  · exact (evalVarArgsInCompare_kinds E d hgo _ _ _).at _ _
  · exact (Keeps.bind kinds_pre (hop _) fun _ => hop _).at _ _
  · exact (Keeps.fail kinds_pre _).at _ _

end

theorem evalVarArgs_kinds (E : Evaluator σ) (d : Nat) :
    ∀ p, Keeps SameKinds (evalVarArgs E d p) := by
  induction d with
  | zero => intro p; exact Keeps.crash kinds_pre _
  | succ d ih => intro p; exact evalVarArgsStep_kinds E d ih p

/-! ## Stage 2 -/

section
variable (E : Evaluator σ) (d : Nat)

theorem determineValueOfVariableExpr_keeps (p : Ptr) :
    Keeps Grows (determineValueOfVariableExpr E p) := by
  unfold determineValueOfVariableExpr
  refine Keeps.bind grows_pre (Keeps.deref grows_pre _) fun o => ?_
  keeps grows_pre

variable {go : Ptr → H σ Unit} (hgo : ∀ p, Keeps SameKinds (go p))
include hgo

theorem determineValuesOperand_kinds (p : Ptr) {setter : Ptr → H σ Unit}
    (hs : ∀ q, Keeps SameKinds (setter q)) :
    Keeps SameKinds (determineValuesOperand E d go p setter) := by
  unfold determineValuesOperand replaceVariablePrimaryExpr
  refine Keeps.bind kinds_pre (Keeps.deref kinds_pre _) fun o => ?_
  refine Keeps.ite ?_ (hgo p)
  refine Keeps.bind kinds_pre (isVariable_keeps kinds_pre d p) fun v => ?_
  refine Keeps.ite ?_ (Keeps.pure kinds_pre _)
  exact Keeps.bind kinds_pre (determineValueOfVariableExpr_keeps E p).kinds hs

theorem determineValuesStep_kinds (p : Ptr) : Keeps SameKinds (determineValuesStep E d go p) := by
  unfold determineValuesStep
  refine Keeps.bind kinds_pre (Keeps.deref kinds_pre _) fun o => ?_
  have hop := fun p {setter : Ptr → H σ Unit} (hs : ∀ q, Keeps SameKinds (setter q)) =>
    determineValuesOperand_kinds E d hgo p hs
  split
  · exact hop _ (setExpression_keeps _)
  · exact hop _ (setRight_keeps _)
  · refine Keeps.bind kinds_pre (hop _ (setLeft_keeps _)) fun _ => ?_
    refine Keeps.bind kinds_pre ?_ fun r => hop _ (setRight_keeps _)
    unfold infixRight
    keeps kinds_pre
  · exact Keeps.fail kinds_pre _

end

theorem determineValues_kinds (E : Evaluator σ) (d : Nat) :
    ∀ p, Keeps SameKinds (determineValues E d p) := by
  induction d with
  | zero => intro p; exact Keeps.crash kinds_pre _
  | succ d ih => intro p; exact determineValuesStep_kinds E d ih p

/-! ## Commands -/

section
variable (isPrint : Char → Bool) (E : Evaluator σ) (d : Nat)

theorem notation_kinds (wl : Bool) (p : Ptr) : Keeps SameKinds (infixNotation d wl p : H σ Str) :=
  (infixNotation_keeps d wl p).kindsP

theorem rolledDice_kinds : Keeps SameKinds (rolledDice : H σ (List Die)) := (lift_grows _).kinds

theorem evalVarArgsAndShow_kinds (p : Ptr) : Keeps SameKinds (evalVarArgsAndShow E d p) :=
  Keeps.bind kinds_pre (evalVarArgs_kinds E d p) fun _ => notation_kinds d _ _

theorem evalCompareLeft_kinds (p : Ptr) : Keeps SameKinds (evalCompareLeft E d p) := by
  unfold evalCompareLeft
  refine Keeps.bind kinds_pre (Keeps.deref kinds_pre _) fun o => ?_
  split
  · refine Keeps.bind kinds_pre (eval_kinds E d _) fun v => ?_
    refine Keeps.bind kinds_pre (intNode_kinds _) fun l => ?_
    exact Keeps.bind kinds_pre (setLeft_keeps _ _) fun _ => Keeps.pure kinds_pre _
  · exact Keeps.crash kinds_pre _

theorem asRRollList_keeps {R : HSt σ → HSt σ → Prop} (hR : Preorder R) (p : Ptr) :
    Keeps R (asRRollList p : H σ _) := by
  unfold asRRollList
  keeps hR

theorem setRerollThreshold_kinds (e : Ptr) : Keeps SameKinds (setRerollThreshold E d e) := by
  unfold setRerollThreshold
  refine Keeps.bind kinds_pre (asBasicInfix_keeps kinds_pre _) fun klr => ?_
  obtain ⟨k, l, r⟩ := klr
  unfold asRRollList
  cases l with
  | none => exact Keeps.crash kinds_pre _
  | some l =>
    have key : ∀ (rolls : List Ptr) (th : Ptr), KeepsAt (some l) (.rRollList rolls none) (do
        let t ← deref th
        if !t.isNil then pure ()
        else do
          let v ← eval E d r
          let t' ← objectToIntNode v
          write (some l) (.rRollList rolls t') : H σ Unit) := by
      intro rolls th
      refine KeepsAt.bind (Keeps.deref kinds_pre _) fun t => ?_
      refine KeepsAt.ite ((Keeps.pure kinds_pre _).at _ _) ?_
      refine KeepsAt.bind (eval_kinds E d _) fun v => ?_
      exact KeepsAt.bind (intNode_kinds _) fun t' => write_keeps rfl
    intro S
    show SameKinds S (H.bnd (H.bnd (deref (some l)) _) _ S).2
    unfold H.bnd deref
    cases h : S.heap[l]? with
    | none => simp only [h]; exact kinds_pre.refl S
    | some o =>
      simp only [h]
      cases o with
      | rRollList rolls th => exact key rolls th S ⟨l, _, rfl, h, rfl⟩
      | _ => exact kinds_pre.refl S

theorem checkThreshold_kinds (msg : Str) (p : Ptr) :
    Keeps SameKinds (checkThreshold E d msg p) := by
  unfold checkThreshold
  refine Keeps.bind kinds_pre (asRRollList_keeps kinds_pre _) fun x => ?_
  obtain ⟨rolls, th⟩ := x
  refine Keeps.bind kinds_pre (Keeps.deref kinds_pre _) fun t => ?_
  refine Keeps.ite (Keeps.pure kinds_pre _) ?_
  intro S
  have h := eval_kinds E d th S
  rcases he : eval E d th S with ⟨o, T⟩
  rw [he] at h
  simp only [he]
  cases o with
  | ok v =>
    have h2 : Keeps SameKinds (do
        let n ← asInteger v
        pure (if n < 2 then some Evaluator.thresholdTooSmallMsg else none) : H σ (Option Str)) :=
      Keeps.bind kinds_pre (asInteger_keeps kinds_pre _) fun _ => Keeps.pure kinds_pre _
    exact kinds_pre.trans h (h2 T)
  | err m => exact h
  | panic m => exact h

theorem infixLeft_keeps {R : HSt σ → HSt σ → Prop} (hR : Preorder R) (p : Ptr) :
    Keeps R (infixLeft p : H σ Ptr) := by
  unfold infixLeft
  keeps hR

theorem uRollListOf_keeps {R : HSt σ → HSt σ → Prop} (hR : Preorder R) (p : Ptr) :
    Keeps R (uRollListOf p : H σ Ptr) := by
  unfold uRollListOf
  keeps hR

theorem formatRRollValues_keeps {R : HSt σ → HSt σ → Prop} (hR : Preorder R) (vs : List Value) :
    Keeps R (formatRRollValues isPrint vs : H σ _) := by
  induction vs with
  | nil => exact Keeps.pure hR _
  | cons v rest ih =>
    unfold formatRRollValues
    have := asArray_keeps hR v
    keeps hR

theorem formatUGroups_keeps {R : HSt σ → HSt σ → Prop} (hR : Preorder R) (vs : List Value) :
    ∀ sums, Keeps R (formatUGroups isPrint vs sums : H σ _) := by
  induction vs with
  | nil => intro sums; exact Keeps.pure hR _
  | cons v rest ih =>
    intro sums
    unfold formatUGroups
    refine Keeps.bind hR (asArray_keeps hR v) fun ws => ?_
    cases sums with
    | nil => exact Keeps.crash hR _
    | cons s sums => exact Keeps.bind hR (ih _) fun _ => Keeps.pure hR _

theorem formatURollExpr_keeps {R : HSt σ → HSt σ → Prop} (hR : Preorder R) (vs : List Value)
    (m : Int64) : Keeps R (formatURollExpr isPrint vs m : H σ _) :=
  Keeps.bind hR (sumOfGroups_keeps hR _) fun _ =>
    Keeps.bind hR (formatUGroups_keeps isPrint hR _ _) fun _ => Keeps.pure hR _

theorem formatMaxAndSum_keeps {R : HSt σ → HSt σ → Prop} (hR : Preorder R) (vs : List Value)
    (m : Int64) : Keeps R (formatMaxAndSum vs m : H σ _) := by
  unfold formatMaxAndSum
  refine Keeps.bind hR (sumOfGroups_keeps hR _) fun _ => ?_
  split
  · exact Keeps.pure hR _
  · exact Keeps.crash hR _

/-- Goes through the execution of a command. -/
macro "kinds" : tactic => `(tactic|
  repeat' first
    | assumption
    | with_reducible exact Keeps.pure kinds_pre _
    | with_reducible exact Keeps.fail kinds_pre _
    | with_reducible exact Keeps.crash kinds_pre _
    | with_reducible exact Keeps.deref kinds_pre _
    | with_reducible exact rolledDice_kinds
    | with_reducible exact evalVarArgsAndShow_kinds _ _ _
    | with_reducible exact evalVarArgs_kinds _ _ _
    | with_reducible exact determineValues_kinds _ _ _
    | with_reducible exact notation_kinds _ _ _
    | with_reducible exact eval_kinds _ _ _
    | with_reducible exact evalCompareLeft_kinds _ _ _
    | with_reducible exact setRerollThreshold_kinds _ _ _
    | with_reducible exact checkThreshold_kinds _ _ _ _
    | with_reducible exact asArray_keeps kinds_pre _
    | with_reducible exact asBasicInfix_keeps kinds_pre _
    | with_reducible exact infixLeft_keeps kinds_pre _
    | with_reducible exact uRollListOf_keeps kinds_pre _
    | with_reducible exact formatRRollValues_keeps _ kinds_pre _
    | with_reducible exact formatURollExpr_keeps _ kinds_pre _ _
    | with_reducible exact formatMaxAndSum_keeps kinds_pre _ _
    | (with_reducible apply Keeps.bind kinds_pre <;> intros)
    | with_reducible apply Keeps.ite
    | split)

theorem execute_kinds (g : Str) (p : Ptr) : Keeps SameKinds (execute isPrint E d g p) := by
  unfold execute
  refine Keeps.bind kinds_pre (Keeps.deref kinds_pre _) fun o => ?_
  split
  · unfold executeDRollExpr determineValuesAndShow; kinds
  · unfold executeDRollComp; kinds
  · unfold executeBRollComp; kinds
  · unfold executeRRollComp; kinds
  · unfold executeURollComp; kinds
  · unfold executeCalc; kinds
  · unfold executeBRollList; kinds
  · unfold executeRRollList; kinds
  · unfold executeURollExpr; kinds
  · unfold executeChoice; kinds
  · kinds

end

/-- Reading off single nodes. -/
theorem SameKinds.node {S T : HSt σ} (h : SameKinds S T) {r : Ref} {o : Obj}
    (ho : S.heap[r]? = some o) : ∃ o', T.heap[r]? = some o' ∧ o'.skeleton = o.skeleton := by
  have h1 : IsAt (some r) o.skeleton S := ⟨r, o, rfl, ho, rfl⟩
  obtain ⟨r', o', hr, h2, h3⟩ := h1.kept h
  cases hr
  exact ⟨o', h2, h3⟩

end GoBCDice.Raw
