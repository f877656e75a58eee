import Verif.RawCommand

/-!
# What happens to memory on arbitrary graphs of nodes

Nothing is assumed here about the nodes: they may be shared, cyclic, of the wrong type or missing.
-/

namespace GoBCDice.Raw

variable {σ : Type} {α β : Type}

/-! ## Computations that respect a relation between states -/

/-- Whatever the state, it is related to the state left behind. -/
def Keeps (R : HSt σ → HSt σ → Prop) (x : H σ α) : Prop := ∀ S, R S (x S).2

/-- A relation that can be followed through a computation. -/
structure Preorder (R : HSt σ → HSt σ → Prop) : Prop where
  refl : ∀ S, R S S
  trans : ∀ {S T U}, R S T → R T U → R S U

theorem Keeps.pure {R : HSt σ → HSt σ → Prop} (hR : Preorder R) (a : α) :
    Keeps R (pure a : H σ α) := fun S => hR.refl S

theorem Keeps.fail {R : HSt σ → HSt σ → Prop} (hR : Preorder R) (e : Str) :
    Keeps R (H.fail e : H σ α) := fun S => hR.refl S

theorem Keeps.crash {R : HSt σ → HSt σ → Prop} (hR : Preorder R) (e : Str) :
    Keeps R (H.crash e : H σ α) := fun S => hR.refl S

theorem Keeps.deref {R : HSt σ → HSt σ → Prop} (hR : Preorder R) (p : Ptr) :
    Keeps R (deref p : H σ Obj) := by
  intro S
  unfold Raw.deref
  cases p with
  | none => exact hR.refl S
  | some r =>
    cases h : S.heap[r]? with
    | none => simp only [h]; exact hR.refl S
    | some o => simp only [h]; exact hR.refl S

theorem Keeps.bind {R : HSt σ → HSt σ → Prop} (hR : Preorder R) {x : H σ α} {f : α → H σ β}
    (hx : Keeps R x) (hf : ∀ a, Keeps R (f a)) : Keeps R (x >>= f) := by
  intro S
  show R S (H.bnd x f S).2
  unfold H.bnd
  have h := hx S
  rcases hy : x S with ⟨o, T⟩
  rw [hy] at h
  cases o with
  | ok a => exact hR.trans h (hf a T)
  | err e => exact h
  | panic e => exact h

theorem Keeps.ite {R : HSt σ → HSt σ → Prop} {c : Prop} [Decidable c] {x y : H σ α}
    (hx : Keeps R x) (hy : Keeps R y) : Keeps R (if c then x else y) := by
  by_cases h : c
  · rw [if_pos h]; exact hx
  · rw [if_neg h]; exact hy

/-! ## Memory only grows -/

/-- All nodes are as before; there may be new ones after them. -/
def Grows (S T : HSt σ) : Prop := ∃ new, T.heap = S.heap ++ new

theorem grows_pre : Preorder (Grows (σ := σ)) :=
  ⟨fun S => ⟨[], by simp⟩, by
    rintro S T U ⟨a, ha⟩ ⟨b, hb⟩
    exact ⟨a ++ b, by rw [hb, ha, List.append_assoc]⟩⟩

/-- The same, and nothing happens to the feeder and the log. -/
def GrowsPurely (S T : HSt σ) : Prop := T.st = S.st ∧ ∃ new, T.heap = S.heap ++ new

theorem growsPurely_pre : Preorder (GrowsPurely (σ := σ)) :=
  ⟨fun S => ⟨rfl, [], by simp⟩, by
    rintro S T U ⟨hs, a, ha⟩ ⟨ht, b, hb⟩
    exact ⟨ht.trans hs, a ++ b, by rw [hb, ha, List.append_assoc]⟩⟩

theorem GrowsPurely.grows {S T : HSt σ} (h : GrowsPurely S T) : Grows S T := h.2

theorem Keeps.mono {R R' : HSt σ → HSt σ → Prop} (h : ∀ S T, R S T → R' S T) {x : H σ α}
    (hx : Keeps R x) : Keeps R' x := fun S => h _ _ (hx S)

theorem alloc_purely (o : Obj) : Keeps GrowsPurely (alloc o : H σ Ptr) := fun _ => ⟨rfl, [o], rfl⟩

theorem alloc_grows (o : Obj) : Keeps Grows (alloc o : H σ Ptr) := fun _ => ⟨[o], rfl⟩

theorem lift_grows (x : M σ α) : Keeps Grows (H.lift x : H σ α) := fun S => ⟨[], by
  unfold H.lift
  rcases x S.st with ⟨o, st⟩
  simp⟩

/-- A new node whose left operand is replaced at once. -/
theorem copy_purely (k : InfixKind) (l r new : Ptr) {f : Ptr → H σ α}
    (hf : ∀ p, Keeps GrowsPurely (f p)) :
    Keeps GrowsPurely (do let c ← alloc (.binary k l r); setLeft c new; f c) := by
  intro S
  have : (do let c ← alloc (.binary k l r); setLeft c new; f c : H σ α) S
      = f (some S.heap.length) { S with heap := S.heap ++ [.binary k new r] } := by
    show H.bnd _ _ S = _
    simp only [H.bnd, alloc]
    show H.bnd (setLeft (some S.heap.length) new) _ _ = _
    have h1 : (setLeft (some S.heap.length) new : H σ Unit)
        { S with heap := S.heap ++ [.binary k l r] } =
        (.ok (), { S with heap := S.heap ++ [.binary k new r] }) := by
      show H.bnd (deref _) _ _ = _
      simp only [H.bnd, deref]
      simp [write]
    simp only [H.bnd, h1]
  rw [this]
  have h1 : GrowsPurely S { S with heap := S.heap ++ [.binary k new r] } :=
    ⟨rfl, [.binary k new r], rfl⟩
  exact growsPurely_pre.trans h1 (hf _ _)

/-- Goes through a computation. -/
macro "keeps" R:term : tactic => `(tactic|
  repeat' first
    | assumption
    | exact Keeps.pure $R _
    | exact Keeps.fail $R _
    | exact Keeps.crash $R _
    | exact Keeps.deref $R _
    | exact alloc_purely _
    | exact alloc_grows _
    | exact lift_grows _
    | (apply Keeps.bind $R <;> intros)
    | split)

/-! ## Notation -/

section
variable {go : Bool → Ptr → H σ Str} (hgo : ∀ b p, Keeps GrowsPurely (go b p))
include hgo

theorem notations_keeps (ps : List Ptr) : Keeps GrowsPurely (notations go ps) := by
  induction ps with
  | nil => exact Keeps.pure growsPurely_pre _
  | cons p rest ih =>
    unfold notations
    have := hgo true p
    keeps growsPurely_pre

theorem prefixNotation_keeps (wl : Bool) (p : Ptr) : Keeps GrowsPurely (prefixNotation go wl p) := by
  unfold prefixNotation
  have := hgo wl p
  have := hgo true p
  keeps growsPurely_pre

theorem childNotation_keeps (k : InfixKind) (p : Ptr) (assoc wl : Bool) :
    Keeps GrowsPurely (childNotation go k p assoc wl) := by
  unfold childNotation
  have := hgo wl p
  have := hgo true p
  keeps growsPurely_pre

theorem childrenNotations_keeps (k : InfixKind) (l r : Ptr) (wl : Bool) :
    Keeps GrowsPurely (childrenNotations go k l r wl) := by
  unfold childrenNotations
  have h1 := childNotation_keeps hgo k r k.rightAssoc false
  have h2 := childNotation_keeps hgo k l k.leftAssoc wl
  have h3 := prefixNotation_keeps hgo wl
  refine Keeps.bind growsPurely_pre (Keeps.deref growsPurely_pre _) fun o => ?_
  have hl : Keeps GrowsPurely (match o with
    | .unary right =>
      if wl && k.leftAssoc then prefixNotation go wl right
      else childNotation go k l k.leftAssoc wl
    | _ => childNotation go k l k.leftAssoc wl) := by
    split
    · split
      · exact h3 _
      · exact h2
    · exact h2
  split
  · split
    · exact Keeps.bind growsPurely_pre (h3 _) fun _ => Keeps.bind growsPurely_pre h1 fun _ =>
        Keeps.pure growsPurely_pre _
    · exact Keeps.bind growsPurely_pre h2 fun _ => Keeps.bind growsPurely_pre h1 fun _ =>
        Keeps.pure growsPurely_pre _
  · exact Keeps.bind growsPurely_pre h2 fun _ => Keeps.bind growsPurely_pre h1 fun _ =>
        Keeps.pure growsPurely_pre _

theorem rRollListNotation_keeps (ps : List Ptr) (t : Ptr) :
    Keeps GrowsPurely (rRollListNotation go ps t) := by
  unfold rRollListNotation
  have := notations_keeps hgo ps
  have := hgo true t
  keeps growsPurely_pre

theorem uRollExprNotation_keeps (list bonus : Ptr) :
    Keeps GrowsPurely (uRollExprNotation go list bonus) := by
  unfold uRollExprNotation
  have := hgo true list
  split
  · assumption
  refine Keeps.bind growsPurely_pre (Keeps.deref growsPurely_pre _) fun o => ?_
  split
  · split
    · exact copy_purely _ _ _ _ (hgo true)
    · exact Keeps.crash growsPurely_pre _
  · exact Keeps.crash growsPurely_pre _

omit hgo in
theorem itemValues_keeps (ps : List Ptr) : Keeps GrowsPurely (itemValues ps : H σ _) := by
  induction ps with
  | nil => exact Keeps.pure growsPurely_pre _
  | cons p rest ih =>
    unfold itemValues
    keeps growsPurely_pre

theorem notationStep_keeps (wl : Bool) (p : Ptr) : Keeps GrowsPurely (notationStep go wl p) := by
  unfold notationStep
  refine Keeps.bind growsPurely_pre (Keeps.deref growsPurely_pre _) fun o => ?_
  split
  · rename_i rolls
    have := notations_keeps hgo rolls
    keeps growsPurely_pre
  · exact rRollListNotation_keeps hgo _ _
  · exact uRollExprNotation_keeps hgo _ _
  · rename_i items
    have := itemValues_keeps items (σ := σ)
    keeps growsPurely_pre
  · rename_i e
    have := hgo true e
    keeps growsPurely_pre
  · exact hgo _ _
  · exact prefixNotation_keeps hgo _ _
  · rename_i m l r
    have := childrenNotations_keeps hgo (.div m) l r wl
    keeps growsPurely_pre
  · rename_i op l r
    have := hgo true l
    have := hgo true r
    keeps growsPurely_pre
  · rename_i l r
    have := childrenNotations_keeps hgo .random l r true
    keeps growsPurely_pre
  · rename_i k l r _ _ _
    have := childrenNotations_keeps hgo k l r wl
    keeps growsPurely_pre
  all_goals keeps growsPurely_pre

end

theorem infixNotation_keeps (d : Nat) : ∀ (wl : Bool) (p : Ptr),
    Keeps GrowsPurely (infixNotation d wl p : H σ Str) := by
  induction d with
  | zero => intro wl p; exact Keeps.crash growsPurely_pre _
  | succ d ih => intro wl p; exact notationStep_keeps ih wl p

/-! ## S-expressions -/

section
variable (isPrint : Char → Bool) {go : Ptr → H σ Str} (hgo : ∀ p, Keeps GrowsPurely (go p))
include hgo

theorem sexps_keeps (ps : List Ptr) : Keeps GrowsPurely (sexps go ps) := by
  induction ps with
  | nil => exact Keeps.pure growsPurely_pre _
  | cons p rest ih =>
    unfold sexps
    have := hgo p
    keeps growsPurely_pre

theorem operandSExp_keeps (p : Ptr) : Keeps GrowsPurely (operandSExp go p) := by
  unfold operandSExp
  have := hgo p
  keeps growsPurely_pre

theorem uRollExprSExp_keeps (list bonus : Ptr) :
    Keeps GrowsPurely (uRollExprSExp go list bonus) := by
  unfold uRollExprSExp
  have := hgo list
  split
  · keeps growsPurely_pre
  refine Keeps.bind growsPurely_pre (Keeps.deref growsPurely_pre _) fun o => ?_
  split
  · split
    · refine copy_purely _ _ _ _ fun p => ?_
      have := hgo p
      keeps growsPurely_pre
    · exact Keeps.crash growsPurely_pre _
  · exact Keeps.crash growsPurely_pre _

theorem sexpStep_keeps (p : Ptr) : Keeps GrowsPurely (sexpStep isPrint go p) := by
  unfold sexpStep
  refine Keeps.bind growsPurely_pre (Keeps.deref growsPurely_pre _) fun o => ?_
  have h1 := operandSExp_keeps hgo
  have h2 := sexps_keeps hgo
  split
  · keeps growsPurely_pre
  · keeps growsPurely_pre
  · keeps growsPurely_pre
  · keeps growsPurely_pre
  · rename_i r
    have := h1 r
    keeps growsPurely_pre
  · rename_i k l r
    have := h1 l
    have := h1 r
    keeps growsPurely_pre
  · rename_i ty e
    have := hgo e
    keeps growsPurely_pre
  · rename_i rolls
    have := h2 rolls
    keeps growsPurely_pre
  · rename_i rolls t
    have := h2 rolls
    have := hgo t
    keeps growsPurely_pre
  · exact uRollExprSExp_keeps hgo _ _
  · rename_i items
    have := h2 items
    keeps growsPurely_pre

end

theorem sexp_keeps (isPrint : Char → Bool) (d : Nat) : ∀ (p : Ptr),
    Keeps GrowsPurely (sexp isPrint d p : H σ Str) := by
  induction d with
  | zero => intro p; exact Keeps.crash growsPurely_pre _
  | succ d ih => intro p; exact sexpStep_keeps isPrint ih p

/-! ## Evaluation -/

theorem asInteger_keeps {R : HSt σ → HSt σ → Prop} (hR : Preorder R) (v : Value) :
    Keeps R (asInteger v : H σ Int64) := by
  unfold asInteger
  keeps hR

theorem asArray_keeps {R : HSt σ → HSt σ → Prop} (hR : Preorder R) (v : Value) :
    Keeps R (asArray v : H σ (List Value)) := by
  unfold asArray
  keeps hR

theorem asBasicInfix_keeps {R : HSt σ → HSt σ → Prop} (hR : Preorder R) (p : Ptr) :
    Keeps R (asBasicInfix p : H σ _) := by
  unfold asBasicInfix
  keeps hR

theorem rightOf_keeps {R : HSt σ → HSt σ → Prop} (hR : Preorder R) (p : Ptr) :
    Keeps R (rightOf p : H σ _) := by
  unfold rightOf
  keeps hR

theorem sumOfGroups_keeps {R : HSt σ → HSt σ → Prop} (hR : Preorder R) (vs : List Value) :
    Keeps R (sumOfGroups vs : H σ _) := by
  induction vs with
  | nil => exact Keeps.pure hR _
  | cons v rest ih =>
    unfold sumOfGroups
    have := asArray_keeps hR v
    keeps hR

theorem addModifier_keeps {R : HSt σ → HSt σ → Prop} (hR : Preorder R) (m : Int64)
    (vs : List Value) : Keeps R (addModifier m vs : H σ _) := by
  induction vs with
  | nil => exact Keeps.pure hR _
  | cons v rest ih =>
    unfold addModifier
    have := asInteger_keeps hR v
    keeps hR

theorem countReaching_keeps {R : HSt σ → HSt σ → Prop} (hR : Preorder R) (t : Int64)
    (vs : List Value) : ∀ n, Keeps R (countReaching t vs n : H σ _) := by
  induction vs with
  | nil => intro n; exact Keeps.pure hR _
  | cons v rest ih =>
    intro n
    unfold countReaching
    exact Keeps.bind hR (asInteger_keeps hR v) fun x => ih _

theorem objectToIntNode_keeps (v : Value) : Keeps Grows (objectToIntNode v : H σ Ptr) := by
  unfold objectToIntNode
  have := asInteger_keeps grows_pre v (σ := σ)
  keeps grows_pre

section
variable (E : Evaluator σ) {ev : Ptr → H σ Value} (hev : ∀ p, Keeps Grows (ev p))

theorem evalIntegerInfix_keeps (op : Str) (a b : Int64) :
    Keeps Grows (evalIntegerInfix E op a b) := by
  unfold evalIntegerInfix
  repeat' first
    | exact Keeps.pure grows_pre _
    | exact Keeps.fail grows_pre _
    | exact lift_grows _
    | (apply Keeps.bind grows_pre <;> intros)
    | apply Keeps.ite

include hev

theorem evalOperands_keeps (op : Str) (l r : Ptr) : Keeps Grows (evalOperands ev op l r) := by
  unfold evalOperands
  have := hev l
  have := hev r
  keeps grows_pre

theorem evalInfix_keeps (k : InfixKind) (l r : Ptr) : Keeps Grows (evalInfix E ev k l r) := by
  unfold evalInfix
  refine Keeps.bind grows_pre (evalOperands_keeps hev _ _ _) fun ab => ?_
  split
  split
  · split
    · unfold evalIntegerDivide
      keeps grows_pre
    · exact evalIntegerInfix_keeps E _ _ _
  · exact Keeps.fail grows_pre _

theorem evalPrefix_keeps (r : Ptr) : Keeps Grows (evalPrefix ev r) := by
  unfold evalPrefix
  have := hev r
  keeps grows_pre

theorem countSuccesses_keeps (op : Str) (t : Int64) (vs : List Value) :
    ∀ n, Keeps Grows (countSuccesses ev op t vs n) := by
  induction vs with
  | nil => intro n; exact Keeps.pure grows_pre _
  | cons v rest ih =>
    intro n
    unfold countSuccesses
    refine Keeps.bind grows_pre (objectToIntNode_keeps _) fun l => ?_
    refine Keeps.bind grows_pre (objectToIntNode_keeps _) fun r => ?_
    refine Keeps.bind grows_pre (alloc_grows _) fun c => ?_
    refine Keeps.bind grows_pre (hev c) fun b => ?_
    split
    · exact ih _
    · exact ih _
    · exact Keeps.crash grows_pre _

theorem evalBRollList_keeps (ps : List Ptr) : Keeps Grows (evalBRollList ev ps) := by
  induction ps with
  | nil => exact Keeps.pure grows_pre _
  | cons p rest ih =>
    unfold evalBRollList
    refine Keeps.bind grows_pre (hev p) fun o => ?_
    have := asArray_keeps grows_pre o (σ := σ)
    keeps grows_pre

theorem evalBRollComp_keeps (e : Ptr) : Keeps Grows (evalBRollComp ev e) := by
  unfold evalBRollComp
  refine Keeps.bind grows_pre (asBasicInfix_keeps grows_pre e) fun x => ?_
  refine Keeps.bind grows_pre (evalOperands_keeps hev _ _ _) fun y => ?_
  refine Keeps.bind grows_pre (asArray_keeps grows_pre _) fun vs => ?_
  refine Keeps.bind grows_pre (asInteger_keeps grows_pre _) fun t => ?_
  exact Keeps.bind grows_pre (countSuccesses_keeps hev _ _ _ _) fun n => Keeps.pure grows_pre _

theorem rRollLoop_keeps (t : Int64) (n : Nat) : ∀ ps acc,
    Keeps Grows (rRollLoop ev t n ps acc) := by
  induction n with
  | zero => intro ps acc; exact Keeps.pure grows_pre _
  | succ n ih =>
    intro ps acc
    cases ps with
    | nil => exact Keeps.pure grows_pre _
    | cons p queue =>
      unfold rRollLoop
      refine Keeps.bind grows_pre (hev p) fun o => ?_
      refine Keeps.bind grows_pre (asArray_keeps grows_pre _) fun vs => ?_
      refine Keeps.bind grows_pre (countReaching_keeps grows_pre _ _ _) fun k => ?_
      split
      · refine Keeps.bind grows_pre (alloc_grows _) fun num => ?_
        refine Keeps.bind grows_pre (rightOf_keeps grows_pre _) fun sides => ?_
        exact Keeps.bind grows_pre (alloc_grows _) fun new => ih _ _
      · exact ih _ _

theorem evalRRollList_keeps (ps : List Ptr) (t : Ptr) : Keeps Grows (evalRRollList E ev ps t) := by
  unfold evalRRollList
  refine Keeps.bind grows_pre (Keeps.deref grows_pre _) fun o => ?_
  split
  · exact Keeps.fail grows_pre _
  · refine Keeps.bind grows_pre (hev t) fun v => ?_
    exact Keeps.bind grows_pre (asInteger_keeps grows_pre _) fun n => rRollLoop_keeps hev _ _ _ _

theorem countInGroups_keeps (op : Str) (t : Int64) (vs : List Value) :
    ∀ n, Keeps Grows (countInGroups ev op t vs n) := by
  induction vs with
  | nil => intro n; exact Keeps.pure grows_pre _
  | cons v rest ih =>
    intro n
    unfold countInGroups
    refine Keeps.bind grows_pre (asArray_keeps grows_pre _) fun g => ?_
    exact Keeps.bind grows_pre (countSuccesses_keeps hev _ _ _ _) fun k => ih _

theorem evalRRollComp_keeps (e : Ptr) : Keeps Grows (evalRRollComp ev e) := by
  unfold evalRRollComp
  refine Keeps.bind grows_pre (asBasicInfix_keeps grows_pre e) fun x => ?_
  refine Keeps.bind grows_pre (evalOperands_keeps hev _ _ _) fun y => ?_
  refine Keeps.bind grows_pre (asArray_keeps grows_pre _) fun vs => ?_
  refine Keeps.bind grows_pre (asInteger_keeps grows_pre _) fun t => ?_
  exact Keeps.bind grows_pre (countInGroups_keeps hev _ _ _ _) fun n => Keeps.pure grows_pre _

omit hev in
theorem uGroup_keeps (sides t : Int64) (n : Nat) : ∀ acc, Keeps Grows (uGroup E sides t n acc) := by
  induction n with
  | zero => intro acc; exact Keeps.pure grows_pre _
  | succ n ih =>
    intro acc
    unfold uGroup
    refine Keeps.bind grows_pre (lift_grows _) fun ds => ?_
    refine Keeps.bind grows_pre (lift_grows _) fun d => ?_
    split
    · exact Keeps.pure grows_pre _
    · exact ih _

omit hev in
theorem uGroups_keeps (sides t : Int64) (n : Nat) :
    ∀ acc, Keeps Grows (uGroups E sides t n acc) := by
  induction n with
  | zero => intro acc; exact Keeps.pure grows_pre _
  | succ n ih =>
    intro acc
    unfold uGroups
    exact Keeps.bind grows_pre (uGroup_keeps E _ _ _ _) fun g => ih _

theorem evalCompoundingRoll_keeps (p : Ptr) (t : Int64) :
    Keeps Grows (evalCompoundingRoll E ev p t) := by
  unfold evalCompoundingRoll
  refine Keeps.bind grows_pre (Keeps.deref grows_pre _) fun o => ?_
  split
  · refine Keeps.bind grows_pre (evalOperands_keeps hev _ _ _) fun y => ?_
    have := fun sides t n acc => uGroups_keeps E sides t n acc
    repeat' first
      | exact Keeps.fail grows_pre _
      | exact Keeps.crash grows_pre _
      | exact uGroups_keeps E _ _ _ _
      | split
  · exact Keeps.crash grows_pre _

theorem evalCompoundingRolls_keeps (t : Int64) (ps : List Ptr) :
    Keeps Grows (evalCompoundingRolls E ev t ps) := by
  induction ps with
  | nil => exact Keeps.pure grows_pre _
  | cons p rest ih =>
    unfold evalCompoundingRolls
    have := evalCompoundingRoll_keeps E hev p t
    keeps grows_pre

theorem evalURollList_keeps (p : Ptr) : Keeps Grows (evalURollList E ev p) := by
  unfold evalURollList
  refine Keeps.bind grows_pre (Keeps.deref grows_pre _) fun o => ?_
  split
  · refine Keeps.bind grows_pre (Keeps.deref grows_pre _) fun t => ?_
    split
    · exact Keeps.fail grows_pre _
    · refine Keeps.bind grows_pre (hev _) fun v => ?_
      exact Keeps.bind grows_pre (asInteger_keeps grows_pre _) fun n =>
        evalCompoundingRolls_keeps E hev _ _
  · exact Keeps.crash grows_pre _

theorem evalURollExpr_keeps (l b : Ptr) : Keeps Grows (evalURollExpr E ev l b) := by
  unfold evalURollExpr
  have hm : Keeps Grows (evalModifier ev b) := by
    unfold evalModifier
    split
    · exact Keeps.pure grows_pre _
    · exact Keeps.bind grows_pre (hev _) fun v => asInteger_keeps grows_pre _
  have := evalURollList_keeps E hev l
  keeps grows_pre

theorem evalURollComp_keeps (e : Ptr) : Keeps Grows (evalURollComp ev e) := by
  unfold evalURollComp
  refine Keeps.bind grows_pre (asBasicInfix_keeps grows_pre e) fun x => ?_
  refine Keeps.bind grows_pre (evalOperands_keeps hev _ _ _) fun y => ?_
  obtain ⟨a, b⟩ := y
  show Keeps Grows (match a with | .uRollExpr groups m => _ | _ => _)
  split
  · refine Keeps.bind grows_pre (sumOfGroups_keeps grows_pre _) fun s => ?_
    refine Keeps.bind grows_pre (addModifier_keeps grows_pre _ _) fun m => ?_
    refine Keeps.bind grows_pre (asInteger_keeps grows_pre _) fun t => ?_
    exact Keeps.bind grows_pre (countSuccesses_keeps hev _ _ _ _) fun n => Keeps.pure grows_pre _
  · exact Keeps.crash grows_pre _

omit hev in
theorem evalChoice_keeps (items : List Ptr) : Keeps Grows (evalChoice E items) := by
  unfold evalChoice
  refine Keeps.bind grows_pre (lift_grows _) fun ds => ?_
  refine Keeps.bind grows_pre (lift_grows _) fun d => ?_
  refine Keeps.ite (Keeps.crash grows_pre _) ?_
  keeps grows_pre

theorem evalStep_keeps (p : Ptr) : Keeps Grows (evalStep E ev p) := by
  unfold evalStep
  refine Keeps.bind grows_pre (Keeps.deref grows_pre _) fun o => ?_
  split
  · exact Keeps.bind grows_pre (evalBRollList_keeps hev _) fun _ => Keeps.pure grows_pre _
  · exact Keeps.bind grows_pre (evalRRollList_keeps E hev _ _) fun _ => Keeps.pure grows_pre _
  · exact evalURollExpr_keeps E hev _ _
  · exact evalChoice_keeps E _
  · split
    · exact evalBRollComp_keeps hev _
    · exact evalRRollComp_keeps hev _
    · exact evalURollComp_keeps hev _
    · exact hev _
  · exact evalPrefix_keeps hev _
  · exact evalInfix_keeps E hev _ _ _
  all_goals keeps grows_pre

end

theorem eval_keeps (E : Evaluator σ) (d : Nat) : ∀ p, Keeps Grows (eval E d p) := by
  induction d with
  | zero => intro p; exact Keeps.crash grows_pre _
  | succ d ih => intro p; exact evalStep_keeps E ih p

end GoBCDice.Raw
