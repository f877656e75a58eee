import Verif.Lemmas.RawExecute2
import Verif.Lemmas.RawBuild
import Verif.Lemmas.RawShape
import Verif.Lemmas.Twice

/-!
# C68, C69, C70: nodes in memory

`Raw.execute isPrint E d g p ⟨s, h⟩` is `command.Execute` on the node at address `p` of the memory
`h`, with an evaluator in state `s` (feeder and log) and room for `d` nested calls; its result is
the outcome, and the state and the memory afterwards.  `Raw.RepNode h p n fp` says that memory
holds the command `n` at `p`, its nodes being those listed in `fp`; `fp.Nodup` says that no node is
shared.  `Raw.build n h` makes the command by constructor calls.
-/

namespace GoBCDice

open Raw

variable {σ : Type}

/-! ## C68 -/

/-- `executeT` is `execute`, with the tree left behind. -/
theorem executeT_ok (E : Evaluator σ) (g : Str) (n : Node) (s : St σ) :
    E.execute g n s = match E.executeT g n s with
      | (.ok rn, s') => (.ok rn.1, s')
      | (.err m, s') => (.err m, s')
      | (.panic m, s') => (.panic m, s') := by
  rw [← E.executeT_fst g n s]
  show M.bnd _ _ s = _
  unfold M.bnd
  rcases E.executeT g n s with ⟨o, s'⟩
  cases o <;> rfl

/-- C68.  `Execute` on a command in memory: the outcome, feeder and log are those of execution on
immutable trees; no node outside the command is touched; and when it returns a result, memory
holds at the same address another command of the same kind of tree, again without sharing, all
nodes of which belonged to the command or are new. -/
theorem C68_execute (isPrint : Char → Bool) (E : Evaluator σ) (g : Str) {h : Heap} {p : Ptr}
    {n : Node} {fp : List Ref} (hr : RepNode h p n fp) (hn : fp.Nodup) {d : Nat}
    (hd : n.height ≤ d) (s : St σ) :
    let run := Raw.execute isPrint E d g p ⟨s, h⟩
    (run.1, run.2.st) = E.execute g n s ∧
    (∀ q, q < h.length → q ∉ fp → run.2.heap[q]? = h[q]?) ∧
    ∀ res, run.1 = .ok res → ∃ n' fp', RepNode run.2.heap p n' fp' ∧ fp'.Nodup ∧
      (∀ q ∈ fp', q ∈ fp ∨ h.length ≤ q) ∧ n'.height ≤ n.height ∧
      E.executeT g n s = (.ok (res, n'), run.2.st) := by
  have hs := execute_sim isPrint E (g := g) (s := s) hr hn hd
  have hx := executeT_ok E g n s
  simp only
  rcases hrun : Raw.execute isPrint E d g p ⟨s, h⟩ with ⟨o, S⟩
  rcases ht : E.executeT g n s with ⟨o', s'⟩
  rw [hrun, ht] at hs
  rw [ht] at hx
  obtain ⟨h1, h2, h3⟩ := hs
  simp only at h1 h2 h3
  subst h1
  cases o with
  | ok a =>
    cases o' with
    | ok b =>
      obtain ⟨rfl, fp', q1, q2, q3, q4⟩ := h3
      refine ⟨by rw [hx], h2.2, ?_⟩
      intro res hres
      cases hres
      exact ⟨b.2, fp', q1, q2, q3, q4, rfl⟩
    | err m => exact h3.elim
    | panic m => exact h3.elim
  | err m =>
    cases o' with
    | ok b => exact h3.elim
    | err m' => cases h3; exact ⟨by rw [hx], h2.2, fun _ h => by cases h⟩
    | panic m' => exact h3.elim
  | panic m =>
    cases o' with
    | ok b => exact h3.elim
    | err m' => exact h3.elim
    | panic m' => cases h3; exact ⟨by rw [hx], h2.2, fun _ h => by cases h⟩

/-- C68, for any command made by constructor calls, whatever else is in memory. -/
theorem C68_built (isPrint : Char → Bool) (E : Evaluator σ) (g : Str) (n : Node) (h : Heap)
    (s : St σ) {d : Nat} (hd : n.height ≤ d) :
    let made := Raw.build n h
    let run := Raw.execute isPrint E d g made.1 ⟨s, made.2⟩
    (run.1, run.2.st) = E.execute g n s ∧ ∀ q, q < h.length → run.2.heap[q]? = h[q]? := by
  obtain ⟨fp, hr, hf⟩ := build_ok n h
  obtain ⟨h1, h2, _⟩ := C68_execute isPrint E g hr hf.1 hd s
  refine ⟨h1, ?_⟩
  intro q hq
  have hne : q ∉ fp := fun hm => Nat.not_lt.mpr (hf.2.1 q hm) hq
  rw [h2 q (Nat.lt_of_lt_of_le hq hf.2.2.1) hne]
  exact hf.2.2.2 q hq (by simp)

/-- Command `(2D6+1)>=7` (nodes 1 to 7) next to another tree (node 0). -/
example : (Raw.build (.dRollComp (.bin .add (.var .d (.int 2) (.int 6)) (.int 1)) .ge (.int 7))
    [.int 5]).2 = [.int 5, .int 2, .int 6, .binary .dRoll (some 1) (some 2), .int 1,
      .binary .add (some 3) (some 4), .int 7, .binary (.compare chars!">=") (some 5) (some 6),
      .command .dRollComp (some 7)] := by decide

/-- It is executed, and leaves `8>=7`. -/
example : (fun run : Out Result × HSt (List Die) =>
      (run.1, run.2.st.feeder, run.2.heap.take 9, run.2.heap[15]?))
    (Raw.execute (fun _ => true) (newEvaluator queueFeeder) 5 chars!"DiceBot" (some 8)
      ⟨⟨[⟨3, 6⟩, ⟨4, 6⟩, ⟨1, 6⟩], []⟩,
       [.int 5, .int 2, .int 6, .binary .dRoll (some 1) (some 2), .int 1,
        .binary .add (some 3) (some 4), .int 7, .binary (.compare chars!">=") (some 5) (some 6),
        .command .dRollComp (some 7)]⟩) =
    (.ok (mkResult chars!"DiceBot" [chars!"(2D6+1>=7)", chars!"7[3,4]+1", chars!"8", chars!"成功"]
      [⟨3, 6⟩, ⟨4, 6⟩] .success), [⟨1, 6⟩],
     [.int 5, .int 2, .int 6, .binary .dRoll (some 9) (some 10), .int 1,
      .binary .add (some 12) (some 4), .int 7, .binary (.compare chars!">=") (some 13) (some 11),
      .command .dRollComp (some 7)], none) := by
  decide

/-- The hypothesis on sharing is needed: in `x+x`, with both operands the same node `x = 1D6*1`,
the die is rolled once, while the tree `1D6*1+1D6*1` takes two dice. -/
theorem C68_sharing_matters :
    ∃ (h : Heap) (p : Ptr) (n : Node) (fp : List Ref) (s : St (List Die)),
      RepNode h p n fp ∧ ¬ fp.Nodup ∧ n.height ≤ 5 ∧
      ((Raw.execute (fun _ => true) (newEvaluator queueFeeder) 5 chars!"DiceBot" p ⟨s, h⟩).2.st.log)
        ≠ ((newEvaluator queueFeeder).execute chars!"DiceBot" n s).2.log := by
  let x : Expr := .bin .mul (.var .d (.int 1) (.int 6)) (.int 1)
  let h : Heap := [.int 1, .int 6, .binary .dRoll (some 0) (some 1), .int 1,
    .binary .mul (some 2) (some 3), .binary .add (some 4) (some 4), .command .dRollExpr (some 5)]
  have hx : Rep h (some 4) x [4, 2, 0, 1, 3] :=
    .binary (fl := [2, 0, 1]) (fr := [3]) rfl rfl
      (.binary (fl := [0]) (fr := [1]) rfl rfl (.int rfl) (.int rfl)) (.int rfl)
  refine ⟨h, some 6, .dRollExpr (.bin .add x x), [6, 5, 4, 2, 0, 1, 3, 4, 2, 0, 1, 3],
    ⟨[⟨3, 6⟩, ⟨4, 6⟩], []⟩, ?_, by decide, by decide, ?_⟩
  · exact .dRollExpr rfl (.binary (fl := [4, 2, 0, 1, 3]) (fr := [4, 2, 0, 1, 3]) rfl rfl hx hx)
  · decide

/-! ## C69 -/

/-- C69.  `Eval`, on any node of any graph of nodes (shared, cyclic, ill-typed or incomplete),
modifies no existing node, whether it returns, fails or panics. -/
theorem C69_eval (E : Evaluator σ) (d : Nat) (p : Ptr) (S : HSt σ) :
    ∃ new, (Raw.eval E d p S).2.heap = S.heap ++ new := eval_keeps E d p S

/-- C69.  `InfixNotation` likewise; it does not touch feeder and log either. -/
theorem C69_notation (d : Nat) (wl : Bool) (p : Ptr) (S : HSt σ) :
    (Raw.infixNotation d wl p S).2.st = S.st ∧
    ∃ new, (Raw.infixNotation d wl p S).2.heap = S.heap ++ new := infixNotation_keeps d wl p S

/-- C69.  `SExp` likewise. -/
theorem C69_sexp (isPrint : Char → Bool) (d : Nat) (p : Ptr) (S : HSt σ) :
    (Raw.sexp isPrint d p S).2.st = S.st ∧
    ∃ new, (Raw.sexp isPrint d p S).2.heap = S.heap ++ new := sexp_keeps isPrint d p S

/-- C69.  On a command in memory they give the texts of the immutable tree. -/
theorem C69_texts (isPrint : Char → Bool) {h : Heap} {p : Ptr} {n : Node} {fp : List Ref}
    (hr : RepNode h p n fp) {d : Nat} (hd : n.height ≤ d) (s : St σ) :
    (Raw.infixNotation d true p ⟨s, h⟩).1 = .ok (nodeNotation n) ∧
    (Raw.sexp isPrint d p ⟨s, h⟩).1 = .ok (n.sexp isPrint) := by
  obtain ⟨_, h1, _⟩ := nodeNotation_ok (s := s) hr hd
  obtain ⟨_, h2, _⟩ := nodeSExp_ok isPrint (s := s) hr hd
  rw [h1, h2]
  exact ⟨rfl, rfl⟩

/-- C69.  `Execute`, on any node of any graph, removes no node and changes of no node anything but
the links named in `Obj.skeleton`: operands of operators, the expression of a command, the reroll
threshold of a roll list, the bonus of a U roll.  Numbers, strings, dice, operators and the lists
of rolls and items stay. -/
theorem C69_execute (isPrint : Char → Bool) (E : Evaluator σ) (d : Nat) (g : Str) (p : Ptr)
    (S : HSt σ) (r : Ref) (o : Obj) (ho : S.heap[r]? = some o) :
    ∃ o', (Raw.execute isPrint E d g p S).2.heap[r]? = some o' ∧ o'.skeleton = o.skeleton :=
  (execute_kinds isPrint E d g p S).node ho

/-- A cycle: the node `-(itself)`.  Nothing is written, and the stack overflows. -/
example : (fun run : Out Value × HSt (List Die) => (match run.1 with | .panic m => m | _ => [],
      run.2.heap))
    (Raw.eval (newEvaluator queueFeeder) 9 (some 0) ⟨⟨[], []⟩, [.unary (some 0)]⟩) =
    (stackOverflow, [.unary (some 0)]) := rfl

/-- Displaying `2U6[6]+1` makes a new node (9), with the roll list as left operand. -/
example : (fun run : Out Str × HSt (List Die) => (run.1, run.2.heap.drop 8))
    (Raw.infixNotation 6 true (some 8) ⟨⟨[], []⟩, [.int 2, .int 6, .binary .uRoll (some 0) (some 1),
      .int 6, .rRollList [some 2] (some 3), .int 0, .int 1, .binary .add (some 5) (some 6),
      .uRollExpr (some 4) (some 7)]⟩) =
    (.ok chars!"2U6[6]+1", [.uRollExpr (some 4) (some 7), .binary .add (some 4) (some 6)]) := by
  decide

/-! ## C70 -/

/-- What a first successful `Execute` leaves can be executed as its tree says. -/
theorem second_run (isPrint : Char → Bool) (E : Evaluator σ) {g g' : Str} {h : Heap} {p : Ptr}
    {n : Node} {fp : List Ref} (hr : RepNode h p n fp) (hn : fp.Nodup) {d : Nat}
    (hd : n.height ≤ d) {s : St σ} {res : Result} {S : HSt σ}
    (h1 : Raw.execute isPrint E d g p ⟨s, h⟩ = (.ok res, S)) :
    ∃ n', E.executeT g n s = (.ok (res, n'), S.st) ∧ ∀ t,
      ((Raw.execute isPrint E d g' p ⟨t, S.heap⟩).1,
        (Raw.execute isPrint E d g' p ⟨t, S.heap⟩).2.st) = E.execute g' n' t := by
  obtain ⟨_, _, h4⟩ := C68_execute isPrint E g hr hn hd s
  simp only [h1] at h4
  obtain ⟨n', fp', q1, q2, _, q4, q5⟩ := h4 res rfl
  exact ⟨n', q5, fun t => (C68_execute isPrint E g' q1 q2 (Nat.le_trans q4 hd) t).1⟩

/-- C70.  After a first successful `Execute` of a D roll, any later `Execute` of the same node
takes no die and repeats the outcome: the middle and last part of the message are those of the
first run, and the first is the middle one in parentheses. -/
theorem C70_d_roll_frozen (isPrint : Char → Bool) (E : Evaluator σ) {g g' : Str} {h : Heap} {p : Ptr}
    {e : Expr} {fp : List Ref} (hr : RepNode h p (.dRollExpr e) fp) (hn : fp.Nodup) {d : Nat}
    (hd : (Node.dRollExpr e).height ≤ d) {s : St σ} {res : Result} {S : HSt σ}
    (h1 : Raw.execute isPrint E d g p ⟨s, h⟩ = (.ok res, S)) (t : St σ) :
    ∃ res', (Raw.execute isPrint E d g' p ⟨t, S.heap⟩).1 = .ok res' ∧
      (Raw.execute isPrint E d g' p ⟨t, S.heap⟩).2.st = t ∧
      res'.parts.tail = res.parts.tail ∧
      res'.parts.head? = res.parts[1]?.map parenthesize ∧ res'.rolledDice = t.log := by
  obtain ⟨n', h2, h3⟩ := second_run isPrint E (g' := g') hr hn hd h1
  obtain ⟨shown, v, h4, h5⟩ := E.dExpr_again (g' := g') h2
  have h6 := h3 t
  rw [executeT_ok, h5 t] at h6
  obtain ⟨h7, h8⟩ := Prod.mk.inj h6
  refine ⟨_, h7, h8, ?_, ?_, rfl⟩
  · rw [h4]; rfl
  · have : res.parts[1]? = some shown := by
      rw [← List.getElem?_tail, h4]; rfl
    rw [this]
    simp only [mkResult, List.head?_cons, Option.map_some]

/-- C70.  After a first successful `Execute` of a D roll with a comparison, every later `Execute`
of the same node fails, and takes no die. -/
theorem C70_d_comparison_once (isPrint : Char → Bool) (E : Evaluator σ) {g g' : Str} {h : Heap}
    {p : Ptr} {l r : Expr} {op : CmpOp} {fp : List Ref} (hr : RepNode h p (.dRollComp l op r) fp)
    (hn : fp.Nodup) {d : Nat} (hd : (Node.dRollComp l op r).height ≤ d) {s : St σ} {res : Result}
    {S : HSt σ} (h1 : Raw.execute isPrint E d g p ⟨s, h⟩ = (.ok res, S)) (t : St σ) :
    (Raw.execute isPrint E d g' p ⟨t, S.heap⟩).1 = .err chars!"EvalVarArgs not implemented: Int" ∧
    (Raw.execute isPrint E d g' p ⟨t, S.heap⟩).2.st = t := by
  obtain ⟨n', h2, h3⟩ := second_run isPrint E (g' := g') hr hn hd h1
  have h6 := h3 t
  rw [executeT_ok, E.dComp_again (g' := g') h2 t] at h6
  exact Prod.mk.inj h6

/-- C70.  All other commands can be executed again: a second result shows the same command, and
executing does not change the command any more. -/
theorem C70_others_again (isPrint : Char → Bool) (E : Evaluator σ) {g g' : Str} {h : Heap}
    {p : Ptr} {n : Node} {fp : List Ref} (hr : RepNode h p n fp) (hn : fp.Nodup)
    (hother : (∀ e, n ≠ .dRollExpr e) ∧ ∀ l op r, n ≠ .dRollComp l op r) {d : Nat}
    (hd : n.height ≤ d) {s t : St σ} {res res' : Result} {S T : HSt σ}
    (h1 : Raw.execute isPrint E d g p ⟨s, h⟩ = (.ok res, S))
    (h2 : Raw.execute isPrint E d g' p ⟨t, S.heap⟩ = (.ok res', T)) :
    res'.parts.head? = res.parts.head? ∧
    ∃ n' fp' fp'', RepNode S.heap p n' fp' ∧ RepNode T.heap p n' fp'' := by
  obtain ⟨_, _, h4⟩ := C68_execute isPrint E g hr hn hd s
  simp only [h1] at h4
  obtain ⟨n1, f1, q1, q2, _, q4, q5⟩ := h4 res rfl
  obtain ⟨_, _, h5⟩ := C68_execute isPrint E g' q1 q2 (Nat.le_trans q4 hd) t
  simp only [h2] at h5
  obtain ⟨n2, f2, r1, r2, _, r4, r5⟩ := h5 res' rfl
  obtain ⟨rfl, hh⟩ := E.other_again hother q5 r5
  exact ⟨hh, _, f1, f2, q1, r1⟩

/-- A D roll executed twice, with more dice waiting: both times 7. -/
example : (fun h : Heap => (fun run : Out Result × HSt (List Die) =>
      (fun run2 : Out Result × HSt (List Die) => (run.1, run2.1, run2.2.st.feeder))
        (Raw.execute (fun _ => true) (newEvaluator queueFeeder) 5 chars!"DiceBot" (some 3)
          ⟨⟨run.2.st.feeder, []⟩, run.2.heap⟩))
    (Raw.execute (fun _ => true) (newEvaluator queueFeeder) 5 chars!"DiceBot" (some 3)
      ⟨⟨[⟨3, 6⟩, ⟨4, 6⟩, ⟨1, 6⟩, ⟨1, 6⟩], []⟩, h⟩))
    [.int 2, .int 6, .binary .dRoll (some 0) (some 1), .command .dRollExpr (some 2)] =
    (.ok (mkResult chars!"DiceBot" [chars!"(2D6)", chars!"7[3,4]", chars!"7"] [⟨3, 6⟩, ⟨4, 6⟩]),
     .ok (mkResult chars!"DiceBot" [chars!"(7[3,4])", chars!"7[3,4]", chars!"7"] []),
     [⟨1, 6⟩, ⟨1, 6⟩]) := by
  decide

/-- Barabara rolls are rolled again: the second run takes the next two dice. -/
example : (fun h : Heap => (fun run : Out Result × HSt (List Die) =>
      (fun run2 : Out Result × HSt (List Die) => (run.1, run2.1, run2.2.st.feeder))
        (Raw.execute (fun _ => true) (newEvaluator queueFeeder) 5 chars!"DiceBot" (some 3)
          ⟨⟨run.2.st.feeder, []⟩, run.2.heap⟩))
    (Raw.execute (fun _ => true) (newEvaluator queueFeeder) 5 chars!"DiceBot" (some 3)
      ⟨⟨[⟨3, 6⟩, ⟨4, 6⟩, ⟨1, 6⟩, ⟨1, 6⟩], []⟩, h⟩))
    [.int 2, .int 6, .binary .bRoll (some 0) (some 1), .bRollList [some 2]] =
    (.ok (mkResult chars!"DiceBot" [chars!"(2B6)", chars!"3,4"] [⟨3, 6⟩, ⟨4, 6⟩]),
     .ok (mkResult chars!"DiceBot" [chars!"(2B6)", chars!"1,1"] [⟨1, 6⟩, ⟨1, 6⟩]), []) := by
  decide

end GoBCDice
