import Verif.Lemmas.TypedOnly
import Verif.Lemmas.TypedRep
import Verif.Lemmas.RawBuild
import Verif.Props.Rolls

/-!
# C94: `Eval` on any graph of nodes

The constructors of package `ast` accept any node, or nil, as an operand, and nodes can be shared.
`Raw.HasType h n p τ` (`Verif.Spec.Typed`) says which nodes make sense.  `Raw.eval E d p ⟨s, h⟩` is
`evaluator.Eval` on the node at `p` of the memory `h`, with room for `d` nested calls.
-/

namespace GoBCDice

open Raw

variable {σ : Type}

/-! ## Nodes that make sense -/

/-- C94.  Evaluating a node that makes sense gives a value of its type, or one of the errors that
only the numbers and the dice can cause, or asks for more memory than there can be: there is no
failed type assertion, no nil dereference, no index out of range, no endless recursion.  It holds
for shared nodes, and for any feeder of fair dice. -/
theorem C94_sound (E : Evaluator σ) (I : σ → Prop) (hF : E.F.FairOn I) {h : Heap} {n : Nat} {p : Ptr} {τ : Ty}
    (hp : HasType h n p τ) (hτ : τ.HasValue) {d : Nat} (hd : n ≤ d) (s : St σ) (hs : I s.feeder) :
    match (eval E d p ⟨s, h⟩).1 with
    | .ok v => τ.Fits v
    | .err e => SensibleError E.F e
    | .panic m => m = makePanicMsg := by
  have := evalAt (I := I) (Err := SensibleError E.F) (E := E) hF (fun _ h => h) d n hd hp hτ s hs
  rcases hx : eval E d p ⟨s, h⟩ with ⟨o, S⟩
  rw [hx] at this
  cases o <;> exact this.2.2

/-- What made sense before makes sense afterwards, and the feeder goes on giving fair dice. -/
theorem C94_again (E : Evaluator σ) (I : σ → Prop) (hF : E.F.FairOn I) {h : Heap} {n : Nat} {p : Ptr} {τ : Ty}
    (hp : HasType h n p τ) (hτ : τ.HasValue) {d : Nat} (hd : n ≤ d) (s : St σ) (hs : I s.feeder) :
    let after := (eval E d p ⟨s, h⟩).2
    I after.st.feeder ∧ ∀ m q ρ, HasType h m q ρ → HasType after.heap m q ρ := by
  have := evalAt (I := I) (Err := SensibleError E.F) (E := E) hF (fun _ h => h) d n hd hp hτ s hs
  exact ⟨this.2.1, this.1.1⟩

/-- Every command that the parser can make makes sense. -/
theorem C94_commands {h : Heap} {p : Ptr} {n : Node} {fp : List Ref} (hr : RepNode h p n fp)
    (hl : ∀ items, n = .choice items → items.length < 2 ^ 63) : HasType h n.height p (nodeType n) :=
  hr.typed hl

/-- `x*x+x` with `x` one and the same node `1D6` makes sense. -/
example : HasType [.int 1, .int 6, .binary .dRoll (some 0) (some 1), .binary .mul (some 2) (some 2),
    .binary .add (some 3) (some 2)] 4 (some 4) .integer :=
  have x : HasType [.int 1, .int 6, .binary .dRoll (some 0) (some 1), .binary .mul (some 2) (some 2),
      .binary .add (some 3) (some 2)] 2 (some 2) .integer :=
    .number (k := .dRoll) rfl (by decide) (.int rfl) (.int rfl)
  .number (k := .add) rfl (by decide) (.number (k := .mul) rfl (by decide) x x) (x.deeper (by omega))

/-- Its three dice are rolled in order: 2*3+4. -/
example : (eval (newEvaluator queueFeeder) 4 (some 4) ⟨⟨[⟨2, 6⟩, ⟨3, 6⟩, ⟨4, 6⟩], []⟩,
    [.int 1, .int 6, .binary .dRoll (some 0) (some 1), .binary .mul (some 2) (some 2),
     .binary .add (some 3) (some 2)]⟩).1 = .ok (.integer 10) := rfl

/-- A node that contains itself has no type. -/
example (n : Nat) (τ : Ty) : ¬ HasType [.unary (some 0)] n (some 0) τ := by
  intro hp
  have key : ∀ n p τ, HasType [.unary (some 0)] n p τ → p = some 0 → False := by
    intro n p τ hp
    induction hp with
    | minus hr _ ih => rintro h; cases h; simp only [List.getElem?_cons_zero, Option.some.injEq,
        Obj.unary.injEq] at hr; exact ih hr.symm
    | _ => rintro h; cases h; simp at *
  exact key n _ τ hp rfl

/-! ## Only they have numbers and truth values -/

/-- C94.  A node whose evaluation gave a number was of the type of numbers, and one that gave a
truth value was a comparison of numbers (or a command around one).  So a node that does not make
sense never evaluates to a number or a truth value. -/
theorem C94_only (E : Evaluator σ) {h : Heap} (hh : NoDangling h) {p : Ptr} (hp : ∀ r, p = some r → r < h.length)
    (d : Nat) (s : St σ) :
    (∀ x, (eval E d p ⟨s, h⟩).1 = .ok (.integer x) → HasType h d p .integer) ∧
    (∀ b, (eval E d p ⟨s, h⟩).1 = .ok (.boolean b) → HasType h d p .boolean) := by
  have hc : ClosedBelow h h.length := ⟨Nat.le_refl _, by rw [List.take_length]; exact hh⟩
  constructor
  · intro x hx
    have := eval_scalar E d h h.length p s (.integer x) (eval E d p ⟨s, h⟩).2 hc hp (Prod.ext hx rfl) rfl
    rwa [List.take_length] at this
  · intro x hx
    have := eval_scalar E d h h.length p s (.boolean x) (eval E d p ⟨s, h⟩).2 hc hp (Prod.ext hx rfl) rfl
    rwa [List.take_length] at this

/-- `NewCompare("+", 2, 3)` evaluates to 5: only the text of an operator counts. -/
example : (eval (newEvaluator queueFeeder) 2 (some 2) ⟨⟨[], []⟩,
    [.int 2, .int 3, .binary (.compare chars!"+") (some 0) (some 1)]⟩).1 = .ok (.integer 5) := rfl

example : NoDangling [.int 2, .int 3, .binary (.compare chars!"+") (some 0) (some 1)] := by
  intro r o hr
  match r with
  | 0 => cases hr; trivial
  | 1 => cases hr; trivial
  | 2 => cases hr; exact ⟨fun q h => (by cases h; decide), fun q h => (by cases h; decide)⟩
  | r + 3 => simp at hr

/-! ## The others: which error -/

/-- A missing left operand is an error that names the operator; nothing is evaluated, no die is
rolled. -/
theorem C94_missing_left (E : Evaluator σ) {h : Heap} {r : Ref} {k : InfixKind} {y : Ptr}
    (hr : h[r]? = some (.binary k none y)) (d : Nat) (s : St σ) :
    eval E (d + 1) (some r) ⟨s, h⟩ = (.err (chars!"operator " ++ k.operator ++ chars!": left is nil"), ⟨s, h⟩) := by
  show H.bnd _ _ _ = _
  simp only [H.bnd, deref, hr]
  rfl

/-- A missing right operand is an error that names the operator, before the left operand is
evaluated. -/
theorem C94_missing_right (E : Evaluator σ) {h : Heap} {r q : Ref} {k : InfixKind}
    (hr : h[r]? = some (.binary k (some q) none)) (d : Nat) (s : St σ) :
    eval E (d + 1) (some r) ⟨s, h⟩ = (.err (chars!"operator " ++ k.operator ++ chars!": right is nil"), ⟨s, h⟩) := by
  show H.bnd _ _ _ = _
  simp only [H.bnd, deref, hr]
  rfl

/-- A missing operand of unary minus. -/
theorem C94_missing_minus (E : Evaluator σ) {h : Heap} {r : Ref} (hr : h[r]? = some (.unary none)) (d : Nat)
    (s : St σ) : eval E (d + 1) (some r) ⟨s, h⟩ = (.err chars!"operator -: right is nil", ⟨s, h⟩) := by
  show H.bnd _ _ _ = _
  simp only [H.bnd, deref, hr]
  rfl

/-- Operands that are not both numbers: both are evaluated, left first, and the error names their
types. -/
theorem C94_mismatch (E : Evaluator σ) {h : Heap} {r x y : Ref} {k : InfixKind}
    (hr : h[r]? = some (.binary k (some x) (some y))) {d : Nat} {s : St σ} {a b : Value} {S T : HSt σ}
    (ha : eval E d (some x) ⟨s, h⟩ = (.ok a, S)) (hb : eval E d (some y) S = (.ok b, T))
    (hab : ¬ ((∃ i, a = .integer i) ∧ ∃ j, b = .integer j)) :
    eval E (d + 1) (some r) ⟨s, h⟩ = (.err (chars!"operator not implemented: " ++ a.typeName ++ chars!" " ++
      k.operator ++ chars!" " ++ b.typeName), T) := by
  show H.bnd _ _ _ = _
  simp only [H.bnd, deref, hr]
  show H.bnd (evalOperands (eval E d) k.operator (some x) (some y)) _ _ = _
  have hops : evalOperands (eval E d) k.operator (some x) (some y) ⟨s, h⟩ = (.ok (a, b), T) := by
    unfold evalOperands
    rw [if_neg (by simp), if_neg (by simp)]
    show H.bnd _ _ _ = _
    simp only [H.bnd, ha]
    show H.bnd _ _ _ = _
    simp only [H.bnd, hb]
    rfl
  simp only [H.bnd, hops]
  cases a <;> cases b <;> first | rfl | exact absurd ⟨⟨_, rfl⟩, ⟨_, rfl⟩⟩ hab

/-- Two numbers with an operator that is none of the known ones (a comparison made with another
text, or a U roll, which has no value by itself). -/
theorem C94_unknown_operator (E : Evaluator σ) {h : Heap} {r x y : Ref} {k : InfixKind}
    (hr : h[r]? = some (.binary k (some x) (some y))) {d : Nat} {s : St σ} {a b : Int64} {S T : HSt σ}
    (ha : eval E d (some x) ⟨s, h⟩ = (.ok (.integer a), S)) (hb : eval E d (some y) S = (.ok (.integer b), T))
    (hk : k.operator ∉ numberOperators ∧ k.operator ∉ comparisonOperators ∧
      k.operator ∉ [chars!"B", chars!"R"] ∧ ∀ m, k ≠ .div m) :
    eval E (d + 1) (some r) ⟨s, h⟩ =
      (.err (chars!"operator not implemented: INTEGER " ++ k.operator ++ chars!" INTEGER"), T) := by
  show H.bnd _ _ _ = _
  simp only [H.bnd, deref, hr]
  show H.bnd (evalOperands (eval E d) k.operator (some x) (some y)) _ _ = _
  have hops : evalOperands (eval E d) k.operator (some x) (some y) ⟨s, h⟩ = (.ok (.integer a, .integer b), T) := by
    unfold evalOperands
    rw [if_neg (by simp), if_neg (by simp)]
    show H.bnd _ _ _ = _
    simp only [H.bnd, ha]
    show H.bnd _ _ _ = _
    simp only [H.bnd, hb]
    rfl
  obtain ⟨h1, h2, h3, h4⟩ := hk
  simp only [numberOperators, comparisonOperators, List.mem_cons, List.not_mem_nil, or_false, not_or] at h1 h2 h3
  have key : evalIntegerInfix E k.operator a b T =
      (.err (chars!"operator not implemented: INTEGER " ++ k.operator ++ chars!" INTEGER"), T) := by
    unfold evalIntegerInfix
    rw [if_neg h1.1, if_neg h1.2.1, if_neg h1.2.2.1, if_neg h1.2.2.2.1,
      if_neg (not_or.mpr ⟨h3.1, h3.2⟩), if_neg h1.2.2.2.2, if_neg h2.1, if_neg h2.2.1, if_neg h2.2.2.1,
      if_neg h2.2.2.2.1, if_neg h2.2.2.2.2.1, if_neg h2.2.2.2.2.2]
    rfl
  simp only [H.bnd, hops]
  cases k with
  | div m => exact absurd rfl (h4 m)
  | _ => exact key

/-- `1 + (2=3)`. -/
example : (eval (newEvaluator queueFeeder) 3 (some 4) ⟨⟨[], []⟩,
    [.int 1, .int 2, .int 3, .binary (.compare chars!"=") (some 1) (some 2), .binary .add (some 0) (some 3)]⟩).1 =
    .err chars!"operator not implemented: INTEGER + BOOLEAN" := rfl

/-- A U roll by itself. -/
example : (eval (newEvaluator queueFeeder) 3 (some 2) ⟨⟨[], []⟩,
    [.int 2, .int 6, .binary .uRoll (some 0) (some 1)]⟩).1 =
    .err chars!"operator not implemented: INTEGER U INTEGER" := rfl

/-- A division without a divisor. -/
example : (eval (newEvaluator queueFeeder) 3 (some 1) ⟨⟨[], []⟩, [.int 2, .binary (.div .up) (some 0) none]⟩).1 =
    .err chars!"operator /U: right is nil" := rfl

end GoBCDice
