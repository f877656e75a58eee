import Verif.Props.Commands
import Verif.Props.PigeonCost
import Verif.Lemmas.Ordinary

/-!
# The answer to every text (C78-C80)
-/

namespace GoBCDice
variable {σ : Type}

/-! ### C78: results -/

/-- **C78.** `Execute` returns the result `r` exactly when the feeder delivers dice for which the
specification of commands gives `r`. -/
theorem C78_execute (E : Evaluator σ) (g : Str) (node : Node) (f f' : σ) (r : Result) :
    (∃ log, E.execute g node ⟨f, []⟩ = (.ok r, ⟨f', log⟩)) ↔
      ∃ ds, Outcome (loopCount E.maxRerolls) g node ds r ∧ Draws E.F f ds f' := by
  constructor
  · rintro ⟨log, h⟩
    obtain ⟨ds, ho, hd, -⟩ := (execute_ok_iff E g node f _ r).mp h
    exact ⟨ds, ho, hd⟩
  · rintro ⟨ds, ho, hd⟩
    exact ⟨ds, (execute_ok_iff E g node f ⟨f', ds⟩ r).mpr ⟨ds, ho, hd, rfl⟩⟩

theorem execute_ended (E : Evaluator σ) (g : Str) (node : Node) (f f' : σ) (e : Ending) :
    ended (E.execute g node ⟨f, []⟩) = some (e, f') ↔
      ∃ ds f1 c, CommandStops (loopCount E.maxRerolls) node ds c ∧ Draws E.F f ds f1 ∧
        Ends E.F f1 c f' e :=
  execute_halts E g node ⟨f, []⟩ f' e

/-- **C79.** `Execute` returns the error `msg` exactly when the feeder delivers dice after which the
execution of the command ends for a cause that gives `msg`. -/
theorem C79_execute_error (E : Evaluator σ) (g : Str) (node : Node) (f f' : σ) (msg : Str) :
    (∃ log, E.execute g node ⟨f, []⟩ = (.err msg, ⟨f', log⟩)) ↔
      ∃ ds f1 c, CommandStops (loopCount E.maxRerolls) node ds c ∧ Draws E.F f ds f1 ∧
        Ends E.F f1 c f' (.error msg) := by
  rw [← execute_ended E g]
  generalize E.execute g node ⟨f, []⟩ = x
  obtain ⟨o, ⟨f2, log⟩⟩ := x
  cases o <;> simp [ended]

/-- **C79.** `Execute` panics exactly when it ends for a cause that gives a panic. -/
theorem C79_execute_panic (E : Evaluator σ) (g : Str) (node : Node) (f f' : σ) :
    (∃ m log, E.execute g node ⟨f, []⟩ = (.panic m, ⟨f', log⟩)) ↔
      ∃ ds f1 c, CommandStops (loopCount E.maxRerolls) node ds c ∧ Draws E.F f ds f1 ∧
        Ends E.F f1 c f' .panic := by
  rw [← execute_ended E g]
  generalize E.execute g node ⟨f, []⟩ = x
  obtain ⟨o, ⟨f2, log⟩⟩ := x
  cases o <;> simp [ended]

/-! ### Determinacy and completeness of the specification -/

/-- The evaluator with the queue feeder and a given limit on rerolls. -/
def queueEvaluator (limit : Nat) : Evaluator (List Die) := { F := queueFeeder, maxRerolls := Int64.ofNat limit }

theorem queueEvaluator_limit {limit : Nat} (h : limit < 2 ^ 63) :
    loopCount (queueEvaluator limit).maxRerolls = limit := by
  show (Int64.ofNat limit).toInt.toNat = limit
  rw [Int64.toInt_ofNat_of_lt h]
  rfl

/-- **C78.** The dice decide: the outcome of a command is determined by the dice it consumes, and no
command has an outcome both on a list of dice and on a longer one. -/
theorem C78_unique (limit : Nat) (hl : limit < 2 ^ 63) (g : Str) (node : Node) (ds es : List Die)
    (r r' : Result) (h : Outcome limit g node ds r) (h' : Outcome limit g node (ds ++ es) r') :
    es = [] ∧ r = r' := by
  have e1 := (execute_ok_iff (queueEvaluator limit) g node (ds ++ es) ⟨es, ds⟩ r).mpr
    ⟨ds, by rw [queueEvaluator_limit hl]; exact h, draws_queue.mpr rfl, rfl⟩
  have e2 := (execute_ok_iff (queueEvaluator limit) g node (ds ++ es) ⟨[], ds ++ es⟩ r').mpr
    ⟨ds ++ es, by rw [queueEvaluator_limit hl]; exact h', draws_queue.mpr (by simp), rfl⟩
  rw [e1] at e2
  simp only [Prod.mk.injEq, Out.ok.injEq, St.mk.injEq] at e2
  exact ⟨e2.2.1, e2.1⟩

/-- A continuation of the dice with which the cause `c` takes effect. -/
def Cause.tail : Cause → List Die
  | .otherDie _ _ d => [d]
  | _ => []

theorem ends_tail {c : Cause} {p : Prop} (h : c.Known p) : ∃ f' e, Ends queueFeeder c.tail c f' e := by
  cases c with
  | refusal msg => exact ⟨_, _, .refusal⟩
  | crash => exact ⟨_, _, .crash⟩
  | noDie y => exact ⟨_, _, .noDie (F := queueFeeder) (f := []) rfl⟩
  | otherDie x y d => exact ⟨_, _, .otherDie (F := queueFeeder) (f := [d]) rfl h.2⟩

theorem ends_own {F : DieFeeder σ} {c : Cause} (h : c.Own) (f : σ) : ∃ e, Ends F f c f e := by
  cases c with
  | refusal msg => exact ⟨_, .refusal⟩
  | crash => exact ⟨_, .crash⟩
  | noDie y => exact h.elim
  | otherDie x y d => exact h.elim

theorem ended_ok {α : Type} {a : α} {s : St σ} : ended (Out.ok a, s) = none := rfl

/-- **C79.** Success and failure exclude each other: once the dice give a result nothing is left to
fail, however many dice follow; and an execution that ends with an error or a crash of its own has
no result, however many dice follow. -/
theorem C79_exclusive (limit : Nat) (hl : limit < 2 ^ 63) (g : Str) (node : Node) (ds es : List Die)
    (r : Result) (c : Cause) :
    (Outcome limit g node ds r → ¬ CommandStops limit node (ds ++ es) c) ∧
    (CommandStops limit node ds c → c.Own → ¬ Outcome limit g node (ds ++ es) r) := by
  constructor
  · intro h hs
    obtain ⟨f', e, he⟩ := ends_tail hs.known
    have e1 := (execute_ok_iff (queueEvaluator limit) g node (ds ++ (es ++ c.tail)) ⟨es ++ c.tail, ds⟩ r).mpr
      ⟨ds, by rw [queueEvaluator_limit hl]; exact h, draws_queue.mpr rfl, rfl⟩
    have e2 := (execute_ended (queueEvaluator limit) g node (ds ++ (es ++ c.tail)) f' e).mpr
      ⟨ds ++ es, c.tail, c, by rw [queueEvaluator_limit hl]; exact hs, draws_queue.mpr (by simp), he⟩
    rw [e1, ended_ok] at e2
    cases e2
  · intro hs ho h
    obtain ⟨e, he⟩ := ends_own (F := queueFeeder) ho es
    have e1 := (execute_ok_iff (queueEvaluator limit) g node (ds ++ es) ⟨[], ds ++ es⟩ r).mpr
      ⟨ds ++ es, by rw [queueEvaluator_limit hl]; exact h, draws_queue.mpr (by simp), rfl⟩
    have e2 := (execute_ended (queueEvaluator limit) g node (ds ++ es) es e).mpr
      ⟨ds, es, c, by rw [queueEvaluator_limit hl]; exact hs, draws_queue.mpr rfl, he⟩
    rw [e1, ended_ok] at e2
    cases e2

/-- A queue that notes the sides asked for once it is empty, and then panics. -/
def noteFeeder : DieFeeder (List Die × Option Int64) where
  next s sides :=
    match s.1 with
    | [] => (.panic [], ([], some sides))
    | d :: q => (.ok d, (q, s.2))

theorem draws_note {ds q : List Die} {o : Option Int64} : Draws noteFeeder (ds ++ q, o) ds (q, o) := by
  induction ds with
  | nil => exact .nil _
  | cons d ds ih => exact .cons (s₁ := (ds ++ q, o)) rfl ih

/-- **C79.** An execution that ends with an error or a crash of its own ends so whatever dice
follow. -/
theorem C79_determined (limit : Nat) (hl : limit < 2 ^ 63) (node : Node) (ds es : List Die)
    (c c' : Cause) (h : CommandStops limit node ds c) (ho : c.Own)
    (h' : CommandStops limit node (ds ++ es) c') : es = [] ∧ c' = c := by
  have hE : loopCount (Evaluator.mk noteFeeder (Int64.ofNat limit)).maxRerolls = limit :=
    queueEvaluator_limit hl
  obtain ⟨e, he⟩ := ends_own (F := noteFeeder) ho (es ++ c'.tail, none)
  have e1 := (execute_ended (Evaluator.mk noteFeeder (Int64.ofNat limit)) [] node
    (ds ++ (es ++ c'.tail), none) _ e).mpr ⟨ds, _, c, by rw [hE]; exact h, draws_note, he⟩
  have key : ∀ f' e', Ends noteFeeder (c'.tail, none) c' f' e' → (e, (es ++ c'.tail, none)) = (e', f') := by
    intro f' e' he'
    have e2 := (execute_ended (Evaluator.mk noteFeeder (Int64.ofNat limit)) [] node
      (ds ++ (es ++ c'.tail), none) f' e').mpr
        ⟨ds ++ es, _, c', by rw [hE]; exact h', by rw [← List.append_assoc]; exact draws_note, he'⟩
    exact Option.some.inj (e1.symm.trans e2)
  cases c' with
  | refusal m =>
    have := key _ _ .refusal
    simp only [Cause.tail, List.append_nil, Prod.mk.injEq, and_true] at this
    obtain ⟨rfl, rfl⟩ := this
    cases he with
    | refusal => exact ⟨rfl, rfl⟩
    | noDie => exact ho.elim
    | otherDie => exact ho.elim
  | crash =>
    have := key _ _ .crash
    simp only [Cause.tail, List.append_nil, Prod.mk.injEq, and_true] at this
    obtain ⟨rfl, rfl⟩ := this
    cases he with
    | crash => exact ⟨rfl, rfl⟩
    | noDiePanic => exact ho.elim
  | noDie y =>
    have := key _ _ (.noDiePanic (F := noteFeeder) (f := ([], none)) rfl)
    simp at this
  | otherDie x y d =>
    have := key _ _ (.otherDie (F := noteFeeder) (f := ([d], none)) rfl h'.known.2)
    simp [Cause.tail] at this

/-- **C79.** Every list of dice decides: a command, on any dice, gives a result after some of them, or
ends with an error or a crash of its own after some of them, or uses all of them up and asks for
another die, or meets a die whose sides are not the ones it asked for. -/
theorem C79_complete (limit : Nat) (hl : limit < 2 ^ 63) (g : Str) (node : Node) (q : List Die) :
    (∃ ds rest r, q = ds ++ rest ∧ Outcome limit g node ds r) ∨
    (∃ ds rest c, q = ds ++ rest ∧ CommandStops limit node ds c ∧ c.Own) ∨
    (∃ sides, CommandStops limit node q (.noDie sides)) ∨
    (∃ ds d rest num sides, q = ds ++ d :: rest ∧ d.sides ≠ sides ∧
      CommandStops limit node ds (.otherDie num sides d)) := by
  have key : ∀ e f', ended ((queueEvaluator limit).execute g node ⟨q, []⟩) = some (e, f') →
      (∃ ds rest c, q = ds ++ rest ∧ CommandStops limit node ds c ∧ c.Own) ∨
      (∃ sides, CommandStops limit node q (.noDie sides)) ∨
      (∃ ds d rest num sides, q = ds ++ d :: rest ∧ d.sides ≠ sides ∧
        CommandStops limit node ds (.otherDie num sides d)) := by
    intro e f' he
    obtain ⟨ds, f1, c, hs, hd, hend⟩ := (execute_ended (queueEvaluator limit) g node q f' e).mp he
    rw [queueEvaluator_limit hl] at hs
    have hq : q = ds ++ f1 := draws_queue.mp hd
    have hq' : (queueEvaluator limit).F = queueFeeder := rfl
    rw [hq'] at hend
    cases hend with
    | refusal => exact .inl ⟨ds, f', _, hq, hs, trivial⟩
    | crash => exact .inl ⟨ds, f', _, hq, hs, trivial⟩
    | noDie h =>
      cases f1 with
      | nil => rw [List.append_nil] at hq; subst hq; exact .inr (.inl ⟨_, hs⟩)
      | cons x xs => simp [queueFeeder, queueNext] at h
    | noDiePanic h =>
      cases f1 <;> simp [queueFeeder, queueNext] at h
    | otherDie h hne =>
      cases f1 with
      | nil => simp [queueFeeder, queueNext] at h
      | cons x xs =>
        simp only [queueFeeder, queueNext, Prod.mk.injEq, Out.ok.injEq] at h
        obtain ⟨rfl, rfl⟩ := h
        exact .inr (.inr ⟨ds, _, _, _, _, hq, hne, hs⟩)
  cases hx : (queueEvaluator limit).execute g node ⟨q, []⟩ with
  | mk o s =>
    cases o with
    | ok r =>
      obtain ⟨ds, ho, hd, -⟩ := (execute_ok_iff _ g node q s r).mp hx
      rw [queueEvaluator_limit hl] at ho
      exact .inl ⟨ds, s.feeder, r, draws_queue.mp hd, ho⟩
    | err m => exact .inr (key (.error m) s.feeder (by rw [hx]; rfl))
    | panic m => exact .inr (key .panic s.feeder (by rw [hx]; rfl))

/-- **C79.** The texts of all errors with which a command that can be written ends on its own. -/
theorem C79_texts (limit : Nat) (t : Str) (node : Node) (ds : List Die) (msg : Str)
    (ht : CommandText t node) (h : CommandStops limit node ds (.refusal msg)) : RefusalText msg := by
  have := h.known_text ht
  simpa [Cause.Known] using this

-- non-vacuity: a division by zero, a missing die, a die with other sides, on the dice of `1D6/0`
example : CommandStops 10000 (.dRollExpr (.div .down (.var .d (.int 1) (.int 6)) (.int 0))) [⟨3, 6⟩]
    (.refusal chars!"3 divided by zero") := by
  have h1 : DArgs (.div .down (.var .d (.int 1) (.int 6)) (.int 0)) []
      (.div .down (.var .d (.int 1) (.int 6)) (.int 0)) :=
    .div (as := []) (bs := []) (.roll (as := []) (bs := []) (.int 1) (.int 6)) (.int 0)
  have h2 : DDice (.div .down (.var .d (.int 1) (.int 6)) (.int 0)) [⟨3, 6⟩]
      (.div .down (.sumRoll [⟨3, 6⟩]) (.int 0)) :=
    .div (as := [⟨3, 6⟩]) (bs := []) (.roll (by decide)) (.int 0)
  exact .dValue (as := []) h1 h2 (.divZero (ds := []) (es := []) (a := 3) (.sumRoll [⟨3, 6⟩]) (.int 0))
example : CommandStops 10000 (.bRollList [⟨.int 2, .int 6⟩]) [⟨3, 6⟩] (.noDie 6) :=
  .bDice (as := []) (.cons (ds := []) (es := []) (as := []) (.int 2) (.int 6) .nil)
    (.first (.noDie (by decide) (by decide) (by decide) (by decide)))
example : CommandStops 10000 (.bRollList [⟨.int 2, .int 6⟩]) [⟨3, 6⟩] (.otherDie 2 6 ⟨1, 8⟩) :=
  .bDice (as := []) (.cons (ds := []) (es := []) (as := []) (.int 2) (.int 6) .nil)
    (.first (.otherDie (by decide) (by decide) (by decide) (by decide) (by decide)))
-- the operands of a comparison are prepared before the target, the target before the dice
example : CommandStops 10000 (.dRollComp (.bin .add (.var .d (.int 1) (.int 6)) (.int 1)) .ge
    (.div .down (.int 1) (.int 0))) [] (.refusal chars!"1 divided by zero") :=
  .dcTarget (as := []) (bs := [])
    (.bin (.bin (as := []) (bs := []) (.roll (as := []) (bs := []) (.int 1) (.int 6)) (.int 1)))
    (.divZero (ds := []) (es := []) (a := 1) (.int 1) (.int 0))

/-! ### Random dice -/

theorem limit_eq (F : DieFeeder σ) : loopCount (newEvaluator F).maxRerolls = 10000 := by
  show loopCount 10000 = 10000
  decide

theorem mt_generous {ρ : Type} (r : Rng ρ) (hr : r.Lawful) : (mtFeeder r).Generous := by
  intro s sides hs
  have h1 : ¬ sides ≤ 0 := by grind
  have h0 : 0 < sides := by grind
  obtain ⟨a, b⟩ := hr s sides h0
  refine ⟨⟨1 + (r.intn s sides).1, sides⟩, (r.intn s sides).2, by simp [mtFeeder, h1], rfl, ?_⟩
  generalize (r.intn s sides).1 = v at a b
  rw [Int64.le_iff_toInt_le] at a
  rw [Int64.lt_iff_toInt_lt] at b
  have a' : (0 : Int) ≤ v.toInt := a
  have h63 : sides.toInt < 2 ^ 63 := Int64.toInt_lt sides
  have e : (1 + v).toInt = 1 + v.toInt := by
    rw [Int64.toInt_add]
    show ((1 + v.toInt).bmod (2 ^ 64)) = _
    rw [Int.bmod_eq_of_le (by omega) (by omega)]
  constructor
  · rw [Int64.le_iff_toInt_le]; show (1 : Int) ≤ (1 + v).toInt; omega
  · rw [Int64.le_iff_toInt_le]; show (1 + v).toInt ≤ sides.toInt; omega

theorem ends_generous {F : DieFeeder σ} (hF : F.Generous) {f f' : σ} {c : Cause} {e : Ending} {p : Prop}
    (hk : c.Known p) (h : Ends F f c f' e) :
    f' = f ∧ ((∃ msg, c = .refusal msg ∧ e = .error msg) ∨ (c = .crash ∧ e = .panic)) := by
  cases h with
  | refusal => exact ⟨rfl, .inl ⟨_, rfl, rfl⟩⟩
  | crash => exact ⟨rfl, .inr ⟨rfl, rfl⟩⟩
  | @noDie sides _ msg h =>
    obtain ⟨d, s', h', -⟩ := hF f sides hk
    rw [h] at h'; cases h'
  | @noDiePanic sides _ msg h =>
    obtain ⟨d, s', h', -⟩ := hF f sides hk
    rw [h] at h'; cases h'
  | @otherDie num sides d _ h hne =>
    obtain ⟨d', s', h', hs, -⟩ := hF f sides hk.1
    rw [h] at h'
    cases h'
    exact absurd hs hne

/-- **C79.** With random dice every error is one of the program's own, and so is every panic. -/
theorem C79_random (F : DieFeeder σ) (hF : F.Generous) (g : Str) (node : Node) (f f' : σ) :
    (∀ msg, (∃ log, (newEvaluator F).execute g node ⟨f, []⟩ = (.err msg, ⟨f', log⟩)) ↔
      ∃ ds, CommandStops 10000 node ds (.refusal msg) ∧ Draws F f ds f') ∧
    ((∃ m log, (newEvaluator F).execute g node ⟨f, []⟩ = (.panic m, ⟨f', log⟩)) ↔
      ∃ ds, CommandStops 10000 node ds .crash ∧ Draws F f ds f') := by
  have hl : loopCount (newEvaluator F).maxRerolls = 10000 := limit_eq F
  have hF' : (newEvaluator F).F = F := rfl
  constructor
  · intro msg
    rw [C79_execute_error, hl, hF']
    constructor
    · rintro ⟨ds, f1, c, hs, hd, he⟩
      obtain ⟨rfl, ⟨m, rfl, hm⟩ | ⟨-, hm⟩⟩ := ends_generous hF hs.known he
      · cases hm; exact ⟨ds, hs, hd⟩
      · cases hm
    · rintro ⟨ds, hs, hd⟩
      exact ⟨ds, f', _, hs, hd, .refusal⟩
  · rw [C79_execute_panic, hl, hF']
    constructor
    · rintro ⟨ds, f1, c, hs, hd, he⟩
      obtain ⟨rfl, ⟨m, rfl, hm⟩ | ⟨rfl, hm⟩⟩ := ends_generous hF hs.known he
      · cases hm
      · exact ⟨ds, hs, hd⟩
    · rintro ⟨ds, hs, hd⟩
      exact ⟨ds, f', _, hs, hd, .crash⟩

/-! ### Texts -/

theorem marked_iff {input body : Str} {secret : Bool} :
    Marked input body secret ↔ checkSecret input = (body, secret) := by
  constructor
  · intro h
    cases h with
    | secret hc => exact checkSecret_cons hc _
    | plain h =>
      refine checkSecret_plain ?_
      rintro ⟨c, rest, rfl, hc⟩
      obtain ⟨h1, h2⟩ := h c (by simp)
      rcases hc with rfl | rfl
      · exact h1 rfl
      · exact h2 rfl
  · intro h
    cases input with
    | nil =>
      simp only [checkSecret, Prod.mk.injEq] at h
      obtain ⟨rfl, rfl⟩ := h
      exact .plain (by simp)
    | cons c rest =>
      simp only [checkSecret] at h
      by_cases hc : c = 'S' ∨ c = 's'
      · rw [if_pos hc] at h
        cases h
        exact .secret hc
      · rw [if_neg hc] at h
        cases h
        refine .plain ?_
        simp only [List.head?_cons, Option.mem_def, Option.some.injEq]
        rintro _ rfl
        exact ⟨fun e => hc (.inl e), fun e => hc (.inr e)⟩

theorem endsWord_iff {c : Char} : EndsWord c ↔ isReSpace c = true := by
  simp [EndsWord, isReSpace, or_assoc]

theorem firstWord_iff {s w : Str} : FirstWord s w ↔ firstPart s = w := by
  constructor
  · intro h
    cases h with
    | whole h =>
      refine firstPart_no_space ?_
      intro c hc
      have := h c hc
      rw [endsWord_iff] at this
      simpa using this
    | @cut _ rest x h hx =>
      simp only [firstPart]
      rw [List.takeWhile_append_of_pos]
      · rw [endsWord_iff] at hx
        simp [hx]
      · intro c hc
        have := h c hc
        rw [endsWord_iff] at this
        simpa using this
  · rintro rfl
    have hw : ∀ c ∈ firstPart s, ¬ EndsWord c := by
      intro c hc
      have := List.all_eq_true.mp (List.all_takeWhile (p := fun c => !isReSpace c) (l := s)) c hc
      rw [endsWord_iff]
      simpa using this
    have hs := List.takeWhile_append_dropWhile (p := fun c => !isReSpace c) (l := s)
    cases hd : s.dropWhile (fun c => !isReSpace c) with
    | nil =>
      rw [hd, List.append_nil] at hs
      have : firstPart s = s := hs
      rw [this] at hw ⊢
      exact .whole hw
    | cons x rest =>
      rw [hd] at hs
      have hx : EndsWord x := by
        have := List.head_dropWhile_not (p := fun c => !isReSpace c) (l := s) (by rw [hd]; simp)
        simp only [hd, List.head_cons] at this
        rw [endsWord_iff]
        simpa using this
      have h2 : FirstWord (firstPart s ++ x :: rest) (firstPart s) := .cut hw hx
      have h3 : firstPart s ++ x :: rest = s := hs
      rwa [h3] at h2

theorem runFresh_ended {m : M σ Result} {f f' : σ} {e : Ending} :
    ended (m ⟨f, []⟩) = some (e, f') ↔
      (∃ msg, e = .error msg ∧ runFresh m f = (.err msg, f')) ∨
      (∃ msg, e = .panic ∧ runFresh m f = (.panic msg, f')) := by
  unfold runFresh
  generalize m ⟨f, []⟩ = x
  obtain ⟨o, ⟨f2, log⟩⟩ := x
  cases o with
  | ok r => simp [ended]
  | err m =>
    simp only [ended, Option.some.injEq, Prod.mk.injEq, Out.err.injEq]
    constructor
    · rintro ⟨rfl, rfl⟩; exact .inl ⟨m, rfl, rfl, rfl⟩
    · rintro (⟨_, rfl, rfl, rfl⟩ | ⟨_, _, h, _⟩)
      · exact ⟨rfl, rfl⟩
      · cases h
  | panic m =>
    simp only [ended, Option.some.injEq, Prod.mk.injEq, Out.panic.injEq]
    constructor
    · rintro ⟨rfl, rfl⟩; exact .inr ⟨m, rfl, rfl, rfl⟩
    · rintro (⟨_, _, h, _⟩ | ⟨_, rfl, rfl, rfl⟩)
      · cases h
      · exact ⟨rfl, rfl⟩

theorem basic_succeeds (F : DieFeeder σ) (g t : Str) (f f' : σ) (r : Result) :
    executeBasicCommand F g t f = (.ok r, f') ↔ Succeeds F g t f r f' := by
  unfold executeBasicCommand
  constructor
  · intro h
    cases hp : parse t with
    | none => rw [hp] at h; cases h
    | some node =>
      rw [hp] at h
      have h' : runFresh ((newEvaluator F).execute g node) f = (.ok r, f') := h
      unfold runFresh at h'
      generalize hx : (newEvaluator F).execute g node ⟨f, []⟩ = x at h'
      obtain ⟨o, ⟨f2, log⟩⟩ := x
      simp only [Prod.mk.injEq] at h'
      obtain ⟨rfl, rfl⟩ := h'
      obtain ⟨ds, ho, hd⟩ := (C78_execute (newEvaluator F) g node f _ r).mp ⟨log, hx⟩
      rw [limit_eq] at ho
      exact ⟨node, ds, (parse_iff _ _).mp hp, ho, hd⟩
  · rintro ⟨node, ds, ht, ho, hd⟩
    rw [(parse_iff _ _).mpr ht]
    obtain ⟨log, hx⟩ := (C78_execute (newEvaluator F) g node f f' r).mpr ⟨ds, by rw [limit_eq]; exact ho, hd⟩
    show runFresh ((newEvaluator F).execute g node) f = _
    unfold runFresh
    rw [hx]

theorem basic_endsWith (F : DieFeeder σ) (g t : Str) (f f' : σ) (e : Ending) :
    EndsWith F t f e f' ↔ ∃ node, parse t = some node ∧
      ((∃ msg, e = .error msg ∧ executeBasicCommand F g t f = (.err msg, f')) ∨
       (∃ msg, e = .panic ∧ executeBasicCommand F g t f = (.panic msg, f'))) := by
  constructor
  · rintro ⟨node, ds, f1, c, ht, hs, hd, he⟩
    have hp := (parse_iff _ _).mpr ht
    refine ⟨node, hp, ?_⟩
    have hx := (execute_ended (newEvaluator F) g node f f' e).mpr ⟨ds, f1, c, by rw [limit_eq]; exact hs, hd, he⟩
    rw [runFresh_ended] at hx
    simpa only [executeBasicCommand, hp] using hx
  · rintro ⟨node, hp, h⟩
    simp only [executeBasicCommand, hp] at h
    obtain ⟨ds, f1, c, hs, hd, he⟩ := (execute_ended (newEvaluator F) g node f f' e).mp (runFresh_ended.mpr h)
    rw [limit_eq] at hs
    exact ⟨node, ds, f1, c, (parse_iff _ _).mp hp, hs, hd, he⟩

theorem basic_fails (F : DieFeeder σ) (g t : Str) (f f' : σ) (msg : Str) :
    executeBasicCommand F g t f = (.err msg, f') ↔ Fails F t f msg f' := by
  cases hp : parse t with
  | none =>
    have hpe := parses_error chars!"input" t hp
    have hex : executeBasicCommand F g t f = (.err (parseErrorText chars!"input" t), f) := by
      simp [executeBasicCommand, hp]
    rw [hex]
    constructor
    · intro h
      simp only [Prod.mk.injEq, Out.err.injEq] at h
      obtain ⟨rfl, rfl⟩ := h
      exact .inl ⟨hpe, rfl⟩
    · rintro (⟨h, rfl⟩ | h)
      · cases h.unique hpe; rfl
      · obtain ⟨node, hn, -⟩ := (basic_endsWith F g t f f' _).mp h
        rw [hp] at hn; cases hn
  | some node =>
    constructor
    · intro h
      exact .inr ((basic_endsWith F g t f f' _).mpr ⟨node, hp, .inl ⟨msg, rfl, h⟩⟩)
    · rintro (⟨h, -⟩ | h)
      · obtain ⟨v, hv, -⟩ := (C64_rule_functions chars!"input" t node).2 hp
        cases h.unique hv
      · obtain ⟨_, _, ⟨m, hm, hx⟩ | ⟨m, hm, -⟩⟩ := (basic_endsWith F g t f f' _).mp h
        · cases hm; exact hx
        · cases hm

theorem basic_panics (F : DieFeeder σ) (g t : Str) (f f' : σ) :
    (∃ m, executeBasicCommand F g t f = (.panic m, f')) ↔ EndsWith F t f .panic f' := by
  rw [basic_endsWith F g]
  constructor
  · rintro ⟨m, h⟩
    cases hp : parse t with
    | none => simp [executeBasicCommand, hp] at h
    | some node => exact ⟨node, rfl, .inr ⟨m, rfl, h⟩⟩
  · rintro ⟨_, _, ⟨m, hm, -⟩ | ⟨m, -, h⟩⟩
    · cases hm
    · exact ⟨m, h⟩

/-- **C78.** The answer to every text: `ExecuteCommand` returns the result `r` exactly when, without
its secret marker, the whole text is a command that gives `r` with the dice of the feeder, or the
whole text fails and its first word is a command that gives `r` with the dice that are left; `r` is
marked as secret exactly if the text was. -/
theorem C78_answer (F : DieFeeder σ) (usage input : Str) (f f' : σ) (r : Result) :
    executeCommand F (basicBot usage) input f = (.ok r, f') ↔
      ∃ body secret word r0, Marked input body secret ∧ FirstWord body word ∧
        r = { r0 with isSecret := secret } ∧
        (Succeeds F chars!"DiceBot" body f r0 f' ∨
          ∃ msg f1, Fails F body f msg f1 ∧ Succeeds F chars!"DiceBot" word f1 r0 f') := by
  rw [executeCommand_basic]
  constructor
  · intro h
    refine ⟨(checkSecret input).1, (checkSecret input).2, firstPart (checkSecret input).1, ?_⟩
    cases hx : executeBasicCommand F chars!"DiceBot" (checkSecret input).1 f with
    | mk o f2 =>
      rw [hx] at h
      cases o with
      | ok r0 =>
        simp only [Prod.mk.injEq, Out.ok.injEq] at h
        obtain ⟨rfl, rfl⟩ := h
        exact ⟨r0, marked_iff.mpr rfl, firstWord_iff.mpr rfl, rfl, .inl ((basic_succeeds ..).mp hx)⟩
      | panic m => cases h
      | err m =>
        dsimp only at h
        cases hy : executeBasicCommand F chars!"DiceBot" (firstPart (checkSecret input).1) f2 with
        | mk o3 f3 =>
          rw [hy] at h
          cases o3 with
          | ok r0 =>
            simp only [Out.map, Prod.mk.injEq, Out.ok.injEq] at h
            obtain ⟨rfl, rfl⟩ := h
            exact ⟨r0, marked_iff.mpr rfl, firstWord_iff.mpr rfl, rfl,
              .inr ⟨m, f2, (basic_fails F chars!"DiceBot" ..).mp hx, (basic_succeeds ..).mp hy⟩⟩
          | err m => cases h
          | panic m => cases h
  · rintro ⟨body, secret, word, r0, hm, hw, rfl, h⟩
    rw [marked_iff] at hm
    rw [firstWord_iff] at hw
    rw [hm]
    subst hw
    rcases h with h | ⟨msg, f1, h1, h2⟩
    · rw [(basic_succeeds ..).mpr h]; rfl
    · rw [(basic_fails F chars!"DiceBot" ..).mpr h1]
      dsimp only
      rw [(basic_succeeds ..).mpr h2]
      rfl

/-- **C79.** `ExecuteCommand` returns the error `msg` exactly when the whole text fails and then its
first word fails with `msg`, with the dice that are left. -/
theorem C79_answer (F : DieFeeder σ) (usage input : Str) (f f' : σ) (msg : Str) :
    executeCommand F (basicBot usage) input f = (.err msg, f') ↔
      ∃ body secret word msg1 f1, Marked input body secret ∧ FirstWord body word ∧
        Fails F body f msg1 f1 ∧ Fails F word f1 msg f' := by
  rw [executeCommand_basic]
  constructor
  · intro h
    refine ⟨(checkSecret input).1, (checkSecret input).2, firstPart (checkSecret input).1, ?_⟩
    cases hx : executeBasicCommand F chars!"DiceBot" (checkSecret input).1 f with
    | mk o f2 =>
      rw [hx] at h
      cases o with
      | ok r0 => cases h
      | panic m => cases h
      | err m =>
        dsimp only at h
        cases hy : executeBasicCommand F chars!"DiceBot" (firstPart (checkSecret input).1) f2 with
        | mk o3 f3 =>
          rw [hy] at h
          cases o3 with
          | ok r0 => cases h
          | err m3 =>
            simp only [Out.map, Prod.mk.injEq, Out.err.injEq] at h
            obtain ⟨rfl, rfl⟩ := h
            exact ⟨m, f2, marked_iff.mpr rfl, firstWord_iff.mpr rfl,
              (basic_fails F chars!"DiceBot" ..).mp hx, (basic_fails F chars!"DiceBot" ..).mp hy⟩
          | panic m => cases h
  · rintro ⟨body, secret, word, msg1, f1, hm, hw, h1, h2⟩
    rw [marked_iff] at hm
    rw [firstWord_iff] at hw
    rw [hm]
    subst hw
    rw [(basic_fails F chars!"DiceBot" ..).mpr h1]
    dsimp only
    rw [(basic_fails F chars!"DiceBot" ..).mpr h2]
    rfl

/-- **C79.** `ExecuteCommand` panics exactly when the whole text does, or fails and its first word
does. -/
theorem C79_answer_panic (F : DieFeeder σ) (usage input : Str) (f f' : σ) :
    (∃ m, executeCommand F (basicBot usage) input f = (.panic m, f')) ↔
      ∃ body secret word, Marked input body secret ∧ FirstWord body word ∧
        (EndsWith F body f .panic f' ∨ ∃ msg f1, Fails F body f msg f1 ∧ EndsWith F word f1 .panic f') := by
  simp only [executeCommand_basic]
  constructor
  · rintro ⟨m0, h⟩
    refine ⟨(checkSecret input).1, (checkSecret input).2, firstPart (checkSecret input).1,
      marked_iff.mpr rfl, firstWord_iff.mpr rfl, ?_⟩
    cases hx : executeBasicCommand F chars!"DiceBot" (checkSecret input).1 f with
    | mk o f2 =>
      rw [hx] at h
      cases o with
      | ok r0 => cases h
      | panic m =>
        cases h
        exact .inl ((basic_panics F chars!"DiceBot" ..).mp ⟨m0, hx⟩)
      | err m =>
        dsimp only at h
        cases hy : executeBasicCommand F chars!"DiceBot" (firstPart (checkSecret input).1) f2 with
        | mk o3 f3 =>
          rw [hy] at h
          cases o3 with
          | ok r0 => cases h
          | err m3 => cases h
          | panic m3 =>
            cases h
            exact .inr ⟨m, f2, (basic_fails F chars!"DiceBot" ..).mp hx,
              (basic_panics F chars!"DiceBot" ..).mp ⟨_, hy⟩⟩
  · rintro ⟨body, secret, word, hm, hw, h⟩
    rw [marked_iff] at hm
    rw [firstWord_iff] at hw
    rw [hm]
    subst hw
    rcases h with h | ⟨msg, f1, h1, h2⟩
    · obtain ⟨m, hm⟩ := (basic_panics F chars!"DiceBot" ..).mpr h
      exact ⟨m, by rw [hm]⟩
    · obtain ⟨m, hm⟩ := (basic_panics F chars!"DiceBot" ..).mpr h2
      refine ⟨m, ?_⟩
      rw [(basic_fails F chars!"DiceBot" ..).mpr h1]
      dsimp only
      rw [hm]
      rfl

/-! ### C80: ordinary commands -/

theorem draws_fair {F : DieFeeder σ} (hF : F.Generous) {f f' : σ} {ds : List Die} (h : Draws F f ds f') :
    ∀ d ∈ ds, 1 ≤ d.sides → d.Fair := by
  induction h with
  | nil => simp
  | @cons s s1 s2 d ds hn _ ih =>
    intro x hx
    rcases List.mem_cons.mp hx with rfl | hx
    · intro hs
      obtain ⟨d', s', h', -, hf⟩ := hF s x.sides hs
      rw [hn] at h'
      cases h'
      exact hf
    · exact ih x hx

/-- **C80.** With random dice, an ordinary command always gives a result. -/
theorem C80_execute (F : DieFeeder σ) (hF : F.Generous) (g : Str) (node : Node)
    (ho : OrdinaryCommand node) (f : σ) :
    ∃ r s', (newEvaluator F).execute g node ⟨f, []⟩ = (.ok r, s') := by
  have key : ∀ e f', ended ((newEvaluator F).execute g node ⟨f, []⟩) ≠ some (e, f') := by
    intro e f' he
    obtain ⟨ds, f1, c, hs, hd, hend⟩ := (execute_ended (newEvaluator F) g node f f' e).mp he
    have hown := commandStops_ordinary hs ho (draws_fair hF hd)
    obtain ⟨-, ⟨m, rfl, -⟩ | ⟨rfl, -⟩⟩ := ends_generous hF hs.known hend
    · exact hown trivial
    · exact hown trivial
  cases hx : (newEvaluator F).execute g node ⟨f, []⟩ with
  | mk o s =>
    cases o with
    | ok r => exact ⟨r, s, rfl⟩
    | err m => exact absurd (by rw [hx]; rfl) (key (.error m) s.feeder)
    | panic m => exact absurd (by rw [hx]; rfl) (key .panic s.feeder)

/-- **C80.** With random dice, a text that is an ordinary command, with or without the secret marker,
is always answered with a result, which is secret exactly if the text is. -/
theorem C80_answer (F : DieFeeder σ) (hF : F.Generous) (usage input body : Str) (secret : Bool)
    (node : Node) (hm : Marked input body secret) (ht : CommandText body node)
    (ho : OrdinaryCommand node) (f : σ) :
    ∃ r f', executeCommand F (basicBot usage) input f = (.ok r, f') ∧ r.isSecret = secret := by
  obtain ⟨r0, s', h⟩ := C80_execute F hF chars!"DiceBot" node ho f
  obtain ⟨ds, hO, hd, -⟩ := (execute_ok_iff _ _ _ _ _ _).mp h
  rw [limit_eq] at hO
  refine ⟨{ r0 with isSecret := secret }, s'.feeder, ?_, rfl⟩
  exact (C78_answer F usage input f _ _).mpr ⟨body, secret, firstPart body, r0, hm, firstWord_iff.mpr rfl,
    rfl, .inl ⟨node, ds, ht, hO, hd⟩⟩

/-- **C80.** The same for a first word followed by a comment, if the whole is not itself a command. -/
theorem C80_comment (F : DieFeeder σ) (hF : F.Generous) (usage input body word : Str) (secret : Bool)
    (node : Node) (hm : Marked input body secret) (hw : FirstWord body word)
    (hb : ∀ n, ¬ CommandText body n) (ht : CommandText word node)
    (ho : OrdinaryCommand node) (f : σ) :
    ∃ r f', executeCommand F (basicBot usage) input f = (.ok r, f') ∧ r.isSecret = secret := by
  obtain ⟨r0, s', h⟩ := C80_execute F hF chars!"DiceBot" node ho f
  obtain ⟨ds, hO, hd, -⟩ := (execute_ok_iff _ _ _ _ _ _).mp h
  rw [limit_eq] at hO
  have hp : parse body = none := by
    cases hp : parse body with
    | none => rfl
    | some n => exact absurd ((parse_iff _ _).mp hp) (hb n)
  refine ⟨{ r0 with isSecret := secret }, s'.feeder, ?_, rfl⟩
  exact (C78_answer F usage input f _ _).mpr ⟨body, secret, word, r0, hm, hw, rfl,
    .inr ⟨_, f, .inl ⟨parses_error chars!"input" body hp, rfl⟩, ⟨node, ds, ht, hO, hd⟩⟩⟩

/-- **C80.** The random dice of the program. -/
theorem C80_random_dice {ρ : Type} (r : Rng ρ) (hr : r.Lawful) : (mtFeeder r).Generous :=
  mt_generous r hr

-- non-vacuity
example : OrdinaryCommand (.uRollComp ⟨⟨[⟨.int 3, .int 6⟩, ⟨.int 1, .int 10⟩], some (.int 6)⟩,
    some (.plus, .bin .add (.int 1) (.int 2))⟩ .ge (.int 7)) :=
  .uRollComp
    (fun r hr => by
      rcases List.mem_cons.mp hr with rfl | hr
      · exact .mk (by decide) (by decide) (by decide)
      · rcases List.mem_cons.mp hr with rfl | hr
        · exact .mk (by decide) (by decide) (by decide)
        · simp at hr)
    (fun e he => by cases he; exact .int) (fun b hb => by cases hb; exact .bin .int .int) .int
example : Marked chars!"s2D6+1 attack" chars!"2D6+1 attack" true ∧
    FirstWord chars!"2D6+1 attack" chars!"2D6+1" :=
  ⟨.secret (by decide),
    .cut (w := chars!"2D6+1") (rest := chars!"attack") (x := ' ') (by unfold EndsWord; decide)
      (by unfold EndsWord; decide)⟩
set_option maxRecDepth 20000 in
example : parse chars!"2D6+1 attack" = none ∧ parse chars!"2D6+1" =
    some (.dRollExpr (.bin .add (.var .d (.int 2) (.int 6)) (.int 1))) := by decide
example : OrdinaryCommand (.dRollExpr (.bin .add (.var .d (.int 2) (.int 6)) (.int 1))) :=
  .dRollExpr (.bin (.roll (by decide) (by decide) (by decide)) .int)
-- and an actual answer with random dice
set_option maxRecDepth 20000 in
example : (executeCommand (mtFeeder demoRng) (basicBot []) chars!"s2D6+1 attack" 4).1 =
    .ok { gameID := chars!"DiceBot", parts := [chars!"(2D6+1)", chars!"11[5,6]+1", chars!"12"],
          rolledDice := [⟨5, 6⟩, ⟨6, 6⟩], success := .unspecified, isSecret := true } := by decide

end GoBCDice
