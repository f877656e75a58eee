import Verif.Spec.Kinds
import Verif.Props.Rolls

/-!
# C96: the entry points refuse the kinds of nodes that they are not made for, by name
-/

namespace GoBCDice

open Raw

variable {σ : Type}

set_option linter.unusedSimpArgs false

/-- C96.  Every node has exactly one kind, and it is in the table. -/
theorem C96_kind (o : Obj) : ∃ k, NodeKind o k ∧ k ∈ kindNames ∧ ∀ k', NodeKind o k' → k' = k := by
  cases o with
  | int v => exact ⟨_, .int v, by decide, fun k' h => by cases h; rfl⟩
  | string s => exact ⟨_, .string s, by decide, fun k' h => by cases h; rfl⟩
  | nilNode => exact ⟨_, .nil, by decide, fun k' h => by cases h; rfl⟩
  | sumRoll ds => exact ⟨_, .sumRoll ds, by decide, fun k' h => by cases h; rfl⟩
  | unary r => exact ⟨_, .minus r, by decide, fun k' h => by cases h; rfl⟩
  | binary k l r =>
    cases k with
    | add => exact ⟨_, .add l r, by decide, fun k' h => by cases h; rfl⟩
    | sub => exact ⟨_, .sub l r, by decide, fun k' h => by cases h; rfl⟩
    | mul => exact ⟨_, .mul l r, by decide, fun k' h => by cases h; rfl⟩
    | compare op => exact ⟨_, .compare op l r, by decide, fun k' h => by cases h; rfl⟩
    | div m =>
      cases m with
      | up => exact ⟨_, .divUp l r, by decide, fun k' h => by cases h; rfl⟩
      | round => exact ⟨_, .divRound l r, by decide, fun k' h => by cases h; rfl⟩
      | down => exact ⟨_, .divDown l r, by decide, fun k' h => by cases h; rfl⟩
    | dRoll => exact ⟨_, .dRoll l r, by decide, fun k' h => by cases h; rfl⟩
    | bRoll => exact ⟨_, .bRoll l r, by decide, fun k' h => by cases h; rfl⟩
    | rRoll => exact ⟨_, .rRoll l r, by decide, fun k' h => by cases h; rfl⟩
    | uRoll => exact ⟨_, .uRoll l r, by decide, fun k' h => by cases h; rfl⟩
    | random => exact ⟨_, .random l r, by decide, fun k' h => by cases h; rfl⟩
  | command ty e =>
    cases ty with
    | «calc» => exact ⟨_, .calc e, by decide, fun k' h => by cases h; rfl⟩
    | dRollExpr => exact ⟨_, .dRollExpr e, by decide, fun k' h => by cases h; rfl⟩
    | dRollComp => exact ⟨_, .dRollComp e, by decide, fun k' h => by cases h; rfl⟩
    | bRollComp => exact ⟨_, .bRollComp e, by decide, fun k' h => by cases h; rfl⟩
    | rRollComp => exact ⟨_, .rRollComp e, by decide, fun k' h => by cases h; rfl⟩
    | uRollComp => exact ⟨_, .uRollComp e, by decide, fun k' h => by cases h; rfl⟩
  | bRollList ps => exact ⟨_, .bRollList ps, by decide, fun k' h => by cases h; rfl⟩
  | rRollList ps t => exact ⟨_, .rRollList ps t, by decide, fun k' h => by cases h; rfl⟩
  | uRollExpr l b => exact ⟨_, .uRollExpr l b, by decide, fun k' h => by cases h; rfl⟩
  | choice ps => exact ⟨_, .choice ps, by decide, fun k' h => by cases h; rfl⟩

/-- C96.  The names tell the kinds apart. -/
theorem C96_names : kindNames.Nodup := by decide

/-- The name found by the program. -/
theorem NodeKind.typeName {o : Obj} {k : Str} (h : NodeKind o k) : o.typeName = k := by
  cases h <;> rfl

theorem deref_some {h : Heap} {r : Ref} {o : Obj} (hr : h[r]? = some o) (s : St σ) :
    (deref (some r) : H σ Obj) ⟨s, h⟩ = (.ok o, ⟨s, h⟩) := by
  simp [deref, hr]

/-- C96.  A call on a node of a kind that it refuses returns the error that names the call and the
kind; memory, the dice and the log are untouched, whatever the node points to. -/
theorem C96_refused (isPrint : Char → Bool) (E : Evaluator σ) (c : NodeCall) {h : Heap} {r : Ref} {o : Obj} {k : Str}
    (hc : c.node = some r) (hr : h[r]? = some o) (hk : NodeKind o k) (hx : k ∈ c.refused) (d : Nat) (s : St σ) :
    c.run isPrint E (d + 1) ⟨s, h⟩ = (.err (c.complaint ++ k), ⟨s, h⟩) := by
  have hd := deref_some (σ := σ) hr s
  cases c with
  | eval p =>
    obtain rfl : p = some r := hc
    cases hk <;> first
      | (exfalso; revert hx; simp [NodeCall.refused, atomNames, operatorNames, listNames]; done)
      | (show H.bnd (Raw.eval E (d + 1) (some r)) _ ⟨s, h⟩ = _
         simp only [H.bnd, Raw.eval, Raw.evalStep, Bind.bind, hd]; rfl)
  | evalVarArgs p =>
    obtain rfl : p = some r := hc
    cases hk <;> first
      | (exfalso; revert hx; simp [NodeCall.refused, atomNames, operatorNames, listNames]; done)
      | (show Raw.evalVarArgs E (d + 1) (some r) ⟨s, h⟩ = _
         simp only [H.bnd, Raw.evalVarArgs, Raw.evalVarArgsStep, Bind.bind, hd]; rfl)
  | determineValues p =>
    obtain rfl : p = some r := hc
    cases hk <;> first
      | (exfalso; revert hx; simp [NodeCall.refused, atomNames, operatorNames, listNames]; done)
      | (show Raw.determineValues E (d + 1) (some r) ⟨s, h⟩ = _
         simp only [H.bnd, Raw.determineValues, Raw.determineValuesStep, Bind.bind, hd]; rfl)
  | execute g p =>
    obtain rfl : p = some r := hc
    cases hk <;> first
      | (exfalso; revert hx; simp [NodeCall.refused, atomNames, operatorNames, listNames]; done)
      | (show H.bnd (Raw.execute isPrint E (d + 1) g (some r)) _ ⟨s, h⟩ = _
         simp only [H.bnd, Raw.execute, Bind.bind, hd]; rfl)
  | infixNotation wl p =>
    obtain rfl : p = some r := hc
    cases hk <;> first
      | (exfalso; revert hx; simp [NodeCall.refused, atomNames, operatorNames, listNames]; done)
      | (show H.bnd (Raw.infixNotation (d + 1) wl (some r)) _ ⟨s, h⟩ = _
         simp only [H.bnd, Raw.infixNotation, Raw.notationStep, Bind.bind, hd]; rfl)
  | sexp p => exact absurd hx (by simp [NodeCall.refused])

/-! ## Nothing else is refused -/

/-- One node of each kind, with operands that suit it. -/
def exhibits : Heap :=
  [.int 2, .string chars!"a", .nilNode, .sumRoll [⟨3, 6⟩], .unary (some 0),
   .binary .add (some 0) (some 0), .binary .sub (some 0) (some 0), .binary .mul (some 0) (some 0),
   .binary (.compare chars!">=") (some 5) (some 0),
   .binary (.div .up) (some 0) (some 0), .binary (.div .round) (some 0) (some 0), .binary (.div .down) (some 0) (some 0),
   .binary .dRoll (some 0) (some 28), .binary .bRoll (some 0) (some 28), .binary .rRoll (some 0) (some 28),
   .binary .uRoll (some 0) (some 28), .binary .random (some 0) (some 28),
   .command .dRollExpr (some 29), .command .dRollComp (some 8), .command .bRollComp (some 30),
   .command .rRollComp (some 31), .command .uRollComp (some 32), .command .calc (some 5),
   .bRollList [some 13], .rRollList [some 14] (some 28), .uRollExpr (some 33) none, .choice [some 1],
   .choice [],
   .int 6, .binary .add (some 12) (some 0),
   .binary (.compare chars!">=") (some 23) (some 0), .binary (.compare chars!">=") (some 24) (some 0),
   .binary (.compare chars!">=") (some 25) (some 0), .rRollList [some 15] (some 28),
   .command .bRollComp (some 8), .command .rRollComp (some 8), .command .uRollComp (some 8)]

/-- Where the kinds are exhibited. -/
def exhibitOf : List (Str × Ref) :=
  [(chars!"Int", 0), (chars!"String", 1), (chars!"Nil", 2), (chars!"SumRollResult", 3), (chars!"UnaryMinus", 4),
   (chars!"Add", 5), (chars!"Subtract", 6), (chars!"Multiply", 7), (chars!"Compare", 8),
   (chars!"DivideWithRoundingUp", 9), (chars!"DivideWithRounding", 10), (chars!"DivideWithRoundingDown", 11),
   (chars!"DRoll", 12), (chars!"BRoll", 13), (chars!"RRoll", 14), (chars!"URoll", 15), (chars!"RandomNumber", 16),
   (chars!"DRollExpr", 17), (chars!"DRollComp", 18), (chars!"BRollComp", 19), (chars!"RRollComp", 20),
   (chars!"URollComp", 21), (chars!"Calc", 22), (chars!"BRollList", 23), (chars!"RRollList", 24),
   (chars!"URollExpr", 25), (chars!"Choice", 26), (chars!"BRollComp", 34), (chars!"RRollComp", 35),
   (chars!"URollComp", 36)]

/-- Dice for them. -/
def exhibitDice : Str → List Die
  | k => if k = chars!"Choice" then [⟨1, 1⟩] else if k = chars!"RandomNumber" then [⟨3, 5⟩] else [⟨1, 6⟩, ⟨2, 6⟩]

/-- The calls. -/
def exhibitCalls : List NodeCall :=
  [.eval none, .evalVarArgs none, .determineValues none, .execute chars!"X" none, .infixNotation true none, .sexp none]

/-- Does it work? -/
def exhibitOK (c : NodeCall) (k : Str) (r : Ref) : Bool :=
  match ((c.at (some r)).run (fun _ => true) (newEvaluator queueFeeder) 9 ⟨⟨exhibitDice k, []⟩, exhibits⟩).1 with
  | .ok _ => true
  | _ => false

theorem exhibits_work : exhibitCalls.all (fun c => kindNames.all fun k =>
    c.refused.contains k || (c = .eval none && k = chars!"URoll") ||
      exhibitOf.any fun (k', r) => k' = k && (exhibits[r]?.map Obj.typeName = some k) && exhibitOK c k r) = true := by
  decide +kernel

theorem NodeKind.of_typeName (o : Obj) : NodeKind o o.typeName := by
  obtain ⟨k, hk, _⟩ := C96_kind o
  rw [hk.typeName]; exact hk

/-- C96.  No other kind is refused: of every kind that is not in the list of the call there are nodes
on which it succeeds.  `Eval` on single U rolls is the exception (`C96_u_roll`). -/
theorem C96_accepted (c : NodeCall) (hc : c ∈ exhibitCalls) (k : Str) (hk : k ∈ kindNames) (hx : k ∉ c.refused)
    (hu : c = .eval none → k ≠ chars!"URoll") :
    ∃ (h : Heap) (r : Ref) (o : Obj) (dice : List Die), h[r]? = some o ∧ NodeKind o k ∧
      ((c.at (some r)).run (fun _ => true) (newEvaluator queueFeeder) 9 ⟨⟨dice, []⟩, h⟩).1 = .ok () := by
  have h1 := List.all_eq_true.mp (List.all_eq_true.mp exhibits_work c hc) k hk
  simp only [Bool.or_eq_true, Bool.and_eq_true, decide_eq_true_eq, List.any_eq_true, List.contains_iff_mem] at h1
  rcases h1 with (h1 | h1) | ⟨⟨k', r⟩, _, ⟨h2, h3⟩, h4⟩
  · exact absurd h1 hx
  · exact absurd h1.2 (hu h1.1)
  · subst h2
    obtain ⟨o, ho, hn⟩ := Option.map_eq_some_iff.mp h3
    refine ⟨exhibits, r, o, exhibitDice k', ho, hn ▸ NodeKind.of_typeName o, ?_⟩
    unfold exhibitOK at h4
    split at h4
    · assumption
    · cases h4

/-- C96.  The value of a single U roll is never found: U rolls have values in lists only. -/
theorem C96_u_roll (E : Evaluator σ) {h : Heap} {r : Ref} {l p : Ptr} (hr : h[r]? = some (.binary .uRoll l p)) (d : Nat)
    (s : St σ) (v : Value) : (Raw.eval E d (some r) ⟨s, h⟩).1 ≠ .ok v := by
  cases d with
  | zero => intro h; cases h
  | succ d =>
    simp only [Raw.eval, Raw.evalStep, Bind.bind, H.bnd, deref_some hr, evalInfix]
    cases evalOperands (Raw.eval E d) InfixKind.uRoll.operator l p ⟨s, h⟩ with
    | mk o S =>
      cases o with
      | err e => intro h; cases h
      | panic m => intro h; cases h
      | ok ab =>
        obtain ⟨a, b⟩ := ab
        cases a with
        | integer x =>
          cases b with
          | integer y =>
            intro h
            simp [evalIntegerInfix, InfixKind.operator, H.fail] at h
          | _ => intro h; cases h
        | _ => intro h; cases h

/-! ## D rolls that are not ready -/

/-- C96.  `DetermineValues` before `EvalVarArgs`: a D roll below a command, at least one of whose
operands is not a number, is reported by the kind of the first such operand; nothing is rolled and
nothing changes. -/
theorem C96_unready (E : Evaluator σ) {h : Heap} {c r x y : Ref} {ty : CommandType} {a b : Obj} {k m : Str}
    (hc : h[c]? = some (.command ty (some r))) (hr : h[r]? = some (.binary .dRoll (some x) (some y)))
    (ha : h[x]? = some a) (hb : h[y]? = some b)
    (hm : (¬ NodeKind a chars!"Int" ∧ NodeKind a k ∧ m = chars!"num is not Int: " ++ k) ∨
      (NodeKind a chars!"Int" ∧ ¬ NodeKind b chars!"Int" ∧ NodeKind b k ∧ m = chars!"sides is not Int: " ++ k)) (d : Nat) (s : St σ) :
    Raw.determineValues E (d + 2) (some c) ⟨s, h⟩ = (.err m, ⟨s, h⟩) := by
  have h1 : determineValueOfVariableExpr E (some r) ⟨s, h⟩ = (.err m, ⟨s, h⟩) := by
    show H.bnd (deref (some r)) _ ⟨s, h⟩ = _
    simp only [H.bnd, deref_some hr]
    show H.bnd (deref (some x)) _ ⟨s, h⟩ = _
    simp only [H.bnd, deref_some ha]
    rcases hm with ⟨hn, hk, rfl⟩ | ⟨hk, hn, hk', rfl⟩
    · cases a with
      | int v => exact absurd (.int v) hn
      | _ => rw [← hk.typeName]; rfl
    · cases hk
      show H.bnd (deref (some y)) _ ⟨s, h⟩ = _
      simp only [H.bnd, deref_some hb]
      cases b with
      | int v => exact absurd (.int v) hn
      | _ => rw [← hk'.typeName]; rfl
  have h2 : isVariable (d + 1) (some r) ⟨s, h⟩ = (.ok true, ⟨s, h⟩) := by
    show H.bnd (deref (some r)) _ ⟨s, h⟩ = _
    simp only [H.bnd, deref_some hr]
    rfl
  show H.bnd (deref (some c)) _ ⟨s, h⟩ = _
  simp only [H.bnd, deref_some hc]
  show H.bnd (deref (some r)) _ ⟨s, h⟩ = _
  simp only [H.bnd, deref_some hr]
  show H.bnd (isVariable (d + 1) (some r)) _ ⟨s, h⟩ = _
  simp only [H.bnd, h2]
  show H.bnd (determineValueOfVariableExpr E (some r)) _ ⟨s, h⟩ = _
  simp only [H.bnd, h1]

/-- C96.  A random number as the operand of a command has no place for `EvalVarArgs`: it says so and
changes nothing. -/
theorem C96_random (E : Evaluator σ) {h : Heap} {c r : Ref} {ty : CommandType} {a b : Ptr}
    (hc : h[c]? = some (.command ty (some r))) (hr : h[r]? = some (.binary .random a b)) (d : Nat) (s : St σ) :
    Raw.evalVarArgs E (d + 2) (some c) ⟨s, h⟩ =
      (.err chars!"evalVarArgsOfVariableExpr not implemented: RandomNumber", ⟨s, h⟩) := by
  have h2 : isVariable (d + 1) (some r) ⟨s, h⟩ = (.ok true, ⟨s, h⟩) := by
    show H.bnd (deref (some r)) _ ⟨s, h⟩ = _
    simp only [H.bnd, deref_some hr]
    rfl
  show H.bnd (deref (some c)) _ ⟨s, h⟩ = _
  simp only [H.bnd, deref_some hc]
  show H.bnd (deref (some r)) _ ⟨s, h⟩ = _
  simp only [H.bnd, deref_some hr]
  show H.bnd (isVariable (d + 1) (some r)) _ ⟨s, h⟩ = _
  simp only [H.bnd, h2]
  show H.bnd (deref (some r)) _ ⟨s, h⟩ = _
  simp only [H.bnd, deref_some hr]
  rfl

/-- C96.  Of the rolls only D rolls can be settled by `DetermineValues`: any other as the operand of a
command is reported by its kind, and nothing changes. -/
theorem C96_unsettled (E : Evaluator σ) {h : Heap} {c r : Ref} {ty : CommandType} {o : Obj} {k : Str}
    (hc : h[c]? = some (.command ty (some r))) (hr : h[r]? = some o) (hk : NodeKind o k)
    (hx : k ∈ [chars!"BRoll", chars!"RRoll", chars!"URoll", chars!"RandomNumber"]) (d : Nat) (s : St σ) :
    Raw.determineValues E (d + 2) (some c) ⟨s, h⟩ =
      (.err (chars!"determineValueOfVariableExpr not implemented: " ++ k), ⟨s, h⟩) := by
  have key : ∀ (i : InfixKind) (a b : Ptr), o = .binary i a b → i.isVariableInfix = true → i ≠ .dRoll →
      Raw.determineValues E (d + 2) (some c) ⟨s, h⟩ =
      (.err (chars!"determineValueOfVariableExpr not implemented: " ++ i.typeName), ⟨s, h⟩) := by
    rintro i a b rfl hi hd
    have h2 : isVariable (d + 1) (some r) ⟨s, h⟩ = (.ok true, ⟨s, h⟩) := by
      show H.bnd (deref (some r)) _ ⟨s, h⟩ = _
      simp only [H.bnd, deref_some hr, hi, if_true]
      rfl
    show H.bnd (deref (some c)) _ ⟨s, h⟩ = _
    simp only [H.bnd, deref_some hc]
    show H.bnd (deref (some r)) _ ⟨s, h⟩ = _
    simp only [H.bnd, deref_some hr, Obj.isPrimary, hi, if_true]
    show H.bnd (isVariable (d + 1) (some r)) _ ⟨s, h⟩ = _
    simp only [H.bnd, h2]
    show H.bnd (H.bnd (deref (some r)) _) _ ⟨s, h⟩ = _
    simp only [H.bnd, deref_some hr]
    cases i <;> first | rfl | exact absurd rfl hd | cases hi
  cases hk <;> first
    | exact key _ _ _ rfl rfl (by decide)
    | (exfalso; revert hx; decide)

/-! ## Comparisons of something else -/

/-- C96.  A D comparison is executed on a comparison only: on anything else `Execute` reports an error (that names the
command, not what was found) and changes nothing. -/
theorem C96_no_comparison (isPrint : Char → Bool) (E : Evaluator σ) {h : Heap} {c r : Ref} {o : Obj} {k : Str}
    (hc : h[c]? = some (.command .dRollComp (some r))) (hr : h[r]? = some o) (hk : NodeKind o k)
    (hx : k ≠ chars!"Compare") (gameID : Str) (d : Nat) (s : St σ) :
    Raw.execute isPrint E d gameID (some c) ⟨s, h⟩ =
      (.err chars!"DRollComp: expression is not a Compare node: DRollComp", ⟨s, h⟩) := by
  show H.bnd (deref (some c)) _ ⟨s, h⟩ = _
  simp only [H.bnd, deref_some hc]
  show H.bnd (deref (some r)) _ ⟨s, h⟩ = _
  simp only [H.bnd, deref_some hr]
  have : isCompare o = false := by
    cases hk <;> first | rfl | exact absurd rfl hx
  rw [this]
  rfl

/-- C96.  B, R and U comparisons whose operand is no comparison, addition, subtraction or multiplication make `Execute` panic; nothing changes. -/
theorem C96_no_infix (isPrint : Char → Bool) (E : Evaluator σ) {h : Heap} {c r : Ref} {ty : CommandType} {o : Obj}
    {k : Str} (hc : h[c]? = some (.command ty (some r))) (hty : ty = .bRollComp ∨ ty = .rRollComp ∨ ty = .uRollComp)
    (hr : h[r]? = some o) (hk : NodeKind o k)
    (hx : k ∉ [chars!"Compare", chars!"Add", chars!"Subtract", chars!"Multiply"])
    (gameID : Str) (d : Nat) (s : St σ) :
    Raw.execute isPrint E d gameID (some c) ⟨s, h⟩ = (.panic interfaceConversion, ⟨s, h⟩) := by
  have key : asBasicInfix (some r) (⟨s, h⟩ : HSt σ) = (.panic interfaceConversion, ⟨s, h⟩) := by
    show H.bnd (deref (some r)) _ ⟨s, h⟩ = _
    simp only [H.bnd, deref_some hr]
    cases hk <;> first | rfl | (exfalso; revert hx; decide)
  show H.bnd (deref (some c)) _ ⟨s, h⟩ = _
  simp only [H.bnd, deref_some hc]
  rcases hty with rfl | rfl | rfl
  all_goals
    show H.bnd (asBasicInfix (some r)) _ ⟨s, h⟩ = _
    simp only [H.bnd, key]

/-! ## Cases -/

/-- A choice is no command with variable arguments, an addition is no command. -/
example (s : St (List Die)) :
    NodeCall.run (fun _ => true) (newEvaluator queueFeeder) 3 (.evalVarArgs (some 26)) ⟨s, exhibits⟩ =
      (.err chars!"EvalVarArgs not implemented: Choice", ⟨s, exhibits⟩) ∧
    NodeCall.run (fun _ => true) (newEvaluator queueFeeder) 3 (.execute chars!"X" (some 5)) ⟨s, exhibits⟩ =
      (.err chars!"command execution not implemented: Add", ⟨s, exhibits⟩) :=
  ⟨C96_refused _ _ _ rfl rfl (.choice _) (by decide) 2 s, C96_refused _ _ _ rfl rfl (.add _ _) (by decide) 2 s⟩

/-- `(1+1)D6` without `EvalVarArgs`. -/
example (s : St (List Die)) :
    Raw.determineValues (newEvaluator queueFeeder) 4 (some 4)
      ⟨s, [.int 1, .binary .add (some 0) (some 0), .int 6, .binary .dRoll (some 1) (some 2), .command .dRollExpr (some 3)]⟩ =
      (.err chars!"num is not Int: Add",
        ⟨s, [.int 1, .binary .add (some 0) (some 0), .int 6, .binary .dRoll (some 1) (some 2),
             .command .dRollExpr (some 3)]⟩) :=
  C96_unready _ (hc := rfl) (hr := rfl) (ha := rfl) (hb := rfl)
    (.inl ⟨fun h => (by cases h), .add _ _, rfl⟩) 2 s

/-- A D comparison and a U comparison of a bare roll. -/
example (s : St (List Die)) :
    Raw.execute (fun _ => true) (newEvaluator queueFeeder) 3 [] (some 2)
      ⟨s, [.int 1, .binary .dRoll (some 0) (some 0), .command .dRollComp (some 1)]⟩ =
      (.err chars!"DRollComp: expression is not a Compare node: DRollComp",
        ⟨s, [.int 1, .binary .dRoll (some 0) (some 0), .command .dRollComp (some 1)]⟩) ∧
    Raw.execute (fun _ => true) (newEvaluator queueFeeder) 3 [] (some 2)
      ⟨s, [.int 1, .binary .uRoll (some 0) (some 0), .command .uRollComp (some 1)]⟩ =
      (.panic interfaceConversion,
        ⟨s, [.int 1, .binary .uRoll (some 0) (some 0), .command .uRollComp (some 1)]⟩) :=
  ⟨C96_no_comparison _ _ rfl rfl (.dRoll _ _) (by decide) _ _ _,
    C96_no_infix _ _ rfl (.inr (.inr rfl)) rfl (.uRoll _ _) (by decide) _ _ _⟩

end GoBCDice
