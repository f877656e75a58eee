import Verif.Lemmas.TypedExec
import Verif.Props.Rolls
import Verif.Spec.NodeCalls

/-!
# C95: `Execute`, `InfixNotation` and `SExp` on any graph of nodes that makes sense

The constructors of package `ast` accept any node as an operand, and one node may be an operand of
many.  `Execute` overwrites the links of nodes as it works, so what it does to one command can be
seen in another one that shares nodes with it.
-/

namespace GoBCDice

open Raw

variable {σ : Type}

/-- C95.  Executing a node that makes sense and has a value gives a result or an error.  The only
panic left is the one of Go's `make`, for a number of dice beyond all memory: there is no failed
type assertion, no nil dereference, no index out of range, no endless recursion.  Everything that
made sense before makes sense afterwards, whatever the outcome; nodes may be shared. -/
theorem C95_execute (isPrint : Char → Bool) (E : Evaluator σ) (I : σ → Prop) (hF : E.F.FairOn I) {h : Heap} {n : Nat}
    {p : Ptr} {τ : Ty} (hp : HasType h n p τ) (hτ : τ.HasValue) {d : Nat} (hd : n < d) (gameID : Str) (s : St σ)
    (hs : I s.feeder) :
    let r := execute isPrint E d gameID p ⟨s, h⟩
    (∀ m, r.1 = .panic m → m = makePanicMsg) ∧ I r.2.st.feeder ∧
      ∀ m q ρ, HasType h m q ρ → HasType r.2.heap m q ρ := by
  have := NP.execute hF isPrint gameID hp hτ hd s hs
  refine ⟨?_, this.2.1, this.1.1⟩
  intro m hm
  have h3 := this.2.2
  rw [hm] at h3
  exact h3

/-- C95.  A node that makes sense has a text, and `InfixNotation` always finds it: no error, no panic.
It makes new nodes at most, and rolls no dice. -/
theorem C95_infix {h : Heap} {n : Nat} {p : Ptr} {τ : Ty} (hp : HasType h n p τ) {d : Nat} (hd : n < d) (wl : Bool)
    (s : St σ) : ∃ text new, Raw.infixNotation d wl p ⟨s, h⟩ = (.ok text, ⟨s, h ++ new⟩) := by
  have h1 := TX.infixNotation (I := fun s' : σ => s' = s.feeder) d wl hp (by have := τ.extra_le; omega) s rfl
  have h2 := Tame.infixNotation d wl p ⟨s, h⟩
  obtain ⟨h3, new, h4⟩ := infixNotation_keeps d wl p ⟨s, h⟩
  rcases hx : (Raw.infixNotation d wl p : H σ Str) ⟨s, h⟩ with ⟨o, st, heap⟩
  rw [hx] at h1 h2 h3 h4
  cases o with
  | ok t => exact ⟨t, new, by rw [← show st = s from h3, ← show heap = h ++ new from h4]⟩
  | err e => exact h1.2.2.elim
  | panic x => exact absurd (congrArg Out.panic h1.2.2) h2

/-- C95.  A node that makes sense has an S-expression, and `SExp` always finds it. -/
theorem C95_sexp (isPrint : Char → Bool) {h : Heap} {n : Nat} {p : Ptr} {τ : Ty} (hp : HasType h n p τ) {d : Nat}
    (hd : n < d) (s : St σ) : ∃ text new, Raw.sexp isPrint d p ⟨s, h⟩ = (.ok text, ⟨s, h ++ new⟩) := by
  have h1 := TX.sexp (I := fun s' : σ => s' = s.feeder) (isPrint := isPrint) d hp (by have := τ.extra_le; omega) s rfl
  have h2 := Tame.sexp isPrint d p ⟨s, h⟩
  obtain ⟨h3, new, h4⟩ := sexp_keeps isPrint d p ⟨s, h⟩
  rcases hx : (Raw.sexp isPrint d p : H σ Str) ⟨s, h⟩ with ⟨o, st, heap⟩
  rw [hx] at h1 h2 h3 h4
  cases o with
  | ok t => exact ⟨t, new, by rw [← show st = s from h3, ← show heap = h ++ new from h4]⟩
  | err e => exact h1.2.2.elim
  | panic x => exact absurd (congrArg Out.panic h1.2.2) h2

/-! ## Histories -/

/-- C95.  Whatever is done, in whatever order, with the nodes of a memory that made sense at the
start and had values — evaluating, executing, displaying, again and again, with all the
overwriting of links that this causes —, nothing ever panics but for `make`, and at the end they
still make sense. -/
theorem C95_history (isPrint : Char → Bool) (E : Evaluator σ) (I : σ → Prop) (hF : E.F.FairOn I) {h : Heap} {n d : Nat}
    (hd : n < d) (calls : List NodeCall) (hc : ∀ c ∈ calls, ∃ τ, HasType h n c.node τ ∧ τ.HasValue) (s : St σ)
    (hs : I s.feeder) :
    let r := runCalls isPrint E d calls ⟨s, h⟩
    (∀ m, .panic m ∈ r.1 → m = makePanicMsg) ∧ ∀ m q ρ, HasType h m q ρ → HasType r.2.heap m q ρ := by
  induction calls generalizing h s with
  | nil => exact ⟨fun m hm => (by cases hm), fun _ _ _ h => h⟩
  | cons c cs ih =>
    obtain ⟨τ, hp, hτ⟩ := hc c (by simp)
    have key : NP I h (c.run isPrint E d) (fun _ _ => True) := by
      have hx := τ.extra_le
      cases c with
      | eval p => exact NP.bind (NP.eval hF hp hτ (by omega)) (fun _ _ _ => At.pure trivial)
      | evalVarArgs p => exact NP.evalVarArgs hF d hp (by omega)
      | determineValues p => exact NP.determineValues hF d hp (by omega)
      | execute g p => exact NP.bind (NP.execute hF isPrint g hp hτ hd) (fun _ _ _ => At.pure trivial)
      | infixNotation wl p => exact NP.bind (NP.infixNotation d wl hp (by omega)) (fun _ _ _ => At.pure trivial)
      | sexp p =>
        exact NP.bind (TX.sexp (isPrint := isPrint) d hp (by omega)).np (fun _ _ _ => At.pure trivial)
    have h1 := key s hs
    unfold runCalls
    rcases hx : c.run isPrint E d ⟨s, h⟩ with ⟨o, st, heap⟩
    rw [hx] at h1
    have h2 := ih (h := heap) (fun c' hc' => by
      obtain ⟨τ, hp, hτ⟩ := hc c' (by simp [hc'])
      exact ⟨τ, hp.up h1.1, hτ⟩) st h1.2.1
    refine ⟨?_, fun m q ρ hq => h2.2 m q ρ (h1.1.1 m q ρ hq)⟩
    intro m hm
    rcases List.mem_cons.mp hm with rfl | hm
    · exact h1.2.2
    · exact h2.1 m hm

/-! ## Cases -/

/-- `x+x` with `x` one node `2D6`, and as another command `x*3>=20`, sharing `x`; and a U roll whose
threshold is also its bonus. -/
def sharedHeap : Heap :=
  [.int 2, .int 6, .binary .dRoll (some 0) (some 1), .binary .add (some 2) (some 2), .command .dRollExpr (some 3),
   .int 3, .binary .mul (some 2) (some 5), .int 20, .binary (.compare chars!">=") (some 6) (some 7),
   .command .dRollComp (some 8),
   .binary .add (some 5) (some 0), .binary .uRoll (some 0) (some 1), .rRollList [some 11, some 11] (some 10),
   .uRollExpr (some 12) (some 10), .binary (.compare chars!">") (some 13) (some 2), .command .uRollComp (some 14)]

theorem sharedHeap_d : HasType sharedHeap 2 (some 2) .integer :=
  .number (k := .dRoll) rfl (by decide) (.int rfl) (.int rfl)

/-- It makes sense. -/
theorem sharedHeap_sum : HasType sharedHeap 4 (some 4) .integer :=
  .command rfl (by simp) hasValue_integer (by simp)
    (.number (k := .add) rfl (by decide) sharedHeap_d sharedHeap_d)

theorem sharedHeap_comparison : HasType sharedHeap 5 (some 9) .boolean :=
  .command rfl (by simp) ⟨by simp, by simp, by simp⟩ (by simp)
    (.comparison (k := .compare chars!">=") rfl (by decide)
      (.number (k := .mul) rfl (by decide) sharedHeap_d (.int rfl)) (.int rfl))

theorem sharedHeap_u : HasType sharedHeap 6 (some 15) .uSuccesses := by
  have b : HasType sharedHeap 2 (some 10) .integer := .number (k := .add) rfl (by decide) (.int rfl) (.int rfl)
  have u : HasType sharedHeap 2 (some 11) .uRoll := .uRoll rfl (.int rfl) (.int rfl)
  refine .uSuccesses rfl (.compared rfl (by decide) (by simp) ⟨_, _, rfl, rfl, trivial⟩ ?_
    (sharedHeap_d.deeper (by omega)))
  exact .uExpr rfl (.uRolls rfl (fun p hp => by simp at hp; subst hp; exact u) (fun _ => b) (by omega))
    (fun _ => ⟨_, _, _, _, rfl, rfl, rfl⟩) (fun _ => b.deeper (by omega))

/-- The sum is executed: each occurrence of `x` is rolled by itself. -/
theorem sharedHeap_run :
    (match (Raw.execute (fun _ => true) (newEvaluator queueFeeder) 7 chars!"X" (some 4)
      ⟨⟨[⟨1, 6⟩, ⟨2, 6⟩, ⟨3, 6⟩, ⟨4, 6⟩], []⟩, sharedHeap⟩).1 with
    | .ok r => r.parts
    | _ => []) = [chars!"(2D6+2D6)", chars!"3[1,2]+7[3,4]", chars!"10"] := by
  decide +kernel

/-- A history with all of them. -/
example (s : List Die) (hs : ∀ x ∈ s, x.Fair) :
    let calls : List NodeCall := [.execute chars!"X" (some 4), .execute chars!"X" (some 9), .infixNotation true (some 4),
      .execute chars!"X" (some 15), .eval (some 9), .sexp (some 15), .execute chars!"X" (some 4)]
    ∀ m, .panic m ∈ (runCalls (fun _ => true) (newEvaluator queueFeeder) 7 calls ⟨⟨s, []⟩, sharedHeap⟩).1 →
      m = makePanicMsg := by
  intro calls
  refine (C95_history (fun _ => true) (newEvaluator queueFeeder) (fun q => ∀ x ∈ q, x.Fair) queue_fairOn (h := sharedHeap)
    (n := 6) (by omega) calls ?_ ⟨s, []⟩ hs).1
  have h4 : ∃ τ, HasType sharedHeap 6 (some 4) τ ∧ τ.HasValue :=
    ⟨_, sharedHeap_sum.deeper (by omega), hasValue_integer⟩
  have h9 : ∃ τ, HasType sharedHeap 6 (some 9) τ ∧ τ.HasValue :=
    ⟨_, sharedHeap_comparison.deeper (by omega), ⟨by simp, by simp, by simp⟩⟩
  have h15 : ∃ τ, HasType sharedHeap 6 (some 15) τ ∧ τ.HasValue := ⟨_, sharedHeap_u, ⟨by simp, by simp, by simp⟩⟩
  intro c hc
  simp only [calls, List.mem_cons, List.not_mem_nil, or_false] at hc
  rcases hc with rfl | rfl | rfl | rfl | rfl | rfl | rfl
  · exact h4
  · exact h9
  · exact h4
  · exact h15
  · exact h9
  · exact h15
  · exact h4

end GoBCDice
