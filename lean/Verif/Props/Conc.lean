import Verif.Spec.Conc
import Verif.Lemmas.ConcParser
import Verif.Props.Bytes

/-!
# Goroutines with bots of their own do not disturb each other (C82)
-/

namespace GoBCDice

open Conc
open Pigeon (Sym Val)

namespace Conc

theorem parse_wp (filename : Str) (data : List Sym) (L : Own) :
    WP (parse filename data) (fun r _ => r = goParse filename data) L := by
  intro cur hc
  refine WP.bind (WP.mono ?_ (run_wp ⟨filename, Pigeon.goGrammar, false⟩ (parseDepth data) (.expr (.ruleRef chars!"Command"))
    (.expr (.ruleRef chars!"Command")) ⟨Pigeon.initState ⟨filename, Pigeon.goGrammar, false⟩ data, [], cur⟩ none _ (Own.upd_same ..) rfl))
  have hrc : withRC (Pigeon.initState ⟨filename, Pigeon.goGrammar, false⟩ data) none = Pigeon.initState ⟨filename, Pigeon.goGrammar, false⟩ data := by
    unfold Pigeon.initState Pigeon.PState.enter
    simp only
    split <;> split <;> rfl
  have hgo : goParse filename data = ((Pigeon.run ⟨filename, Pigeon.goGrammar, false⟩ (parseDepth data) (.expr (.ruleRef chars!"Command"))
      (Pigeon.initState ⟨filename, Pigeon.goGrammar, false⟩ data)).map (Pigeon.finish ⟨filename, Pigeon.goGrammar, false⟩)).getD (.error []) := rfl
  show ∀ a L', Post _ _ (Pigeon.run _ _ _ (withRC (Pigeon.initState ⟨filename, Pigeon.goGrammar, false⟩ data) none)) a L' → _
  rw [hrc, hgo]
  generalize Pigeon.run ⟨filename, Pigeon.goGrammar, false⟩ (parseDepth data) (.expr (.ruleRef chars!"Command"))
      (Pigeon.initState ⟨filename, Pigeon.goGrammar, false⟩ data) = pr
  have hf : ∀ (st p : Pigeon.PState) v ok, withRC st p.randCount = p →
      Pigeon.finish ⟨filename, Pigeon.goGrammar, false⟩ (.ret v ok st) = Pigeon.finish ⟨filename, Pigeon.goGrammar, false⟩ (.ret v ok p) := by
    intro st p v ok h
    rw [← h]
    cases ok
    · unfold Pigeon.finish
      simp only
      split <;> rfl
    · rfl
  have hp : ∀ (st p : Pigeon.PState) m, withRC st p.randCount = p →
      Pigeon.finish ⟨filename, Pigeon.goGrammar, false⟩ (.panic m st) = Pigeon.finish ⟨filename, Pigeon.goGrammar, false⟩ (.panic m p) := by
    intro st p m h
    rw [← h]
    rfl
  intro r L' h
  match r, pr, h with
  | none, none, _ => exact rfl
  | some (.panic m st), some (.panic m' p), ⟨h1, h2⟩ => subst h1; exact hp _ _ _ h2
  | some (.ret v ok st), some (.ret v' ok' p), ⟨h1, h2, h3, _, _⟩ => subst h1 h2; exact hf _ _ _ _ h3

theorem executeBasic_wp {σ} (F : DieFeeder σ) (gameID : Str) (c : Bytes) (f : σ) (L : Own) :
    WP (executeBasic F gameID c f) (fun r _ => r = executeBasicBytes F gameID c f) L := by
  refine WP.bind (WP.mono ?_ (parse_wp chars!"input" (decode c) L))
  rintro r L' rfl
  unfold executeBasicBytes
  cases goParse chars!"input" (decode c) with
  | error m => exact rfl
  | ok v =>
    dsimp only
    cases v.toNode <;> exact rfl

theorem execute_wp {σ} (F : DieFeeder σ) (bot : ByteBot σ) (input : Bytes) (f : σ) (L : Own) :
    WP (execute F bot input f) (fun r _ => r = executeBytes F bot input f) L := by
  unfold execute executeBytes
  generalize checkSecretBytes input = x
  obtain ⟨cmd, isSecret⟩ := x
  dsimp only
  generalize runFresh (bot.executeCommand (firstPartBytes cmd) (newEvaluator F)) f = r1
  obtain ⟨r1, f1⟩ := r1
  cases r1 with
  | ok r => exact rfl
  | panic m => exact rfl
  | err e =>
    dsimp only
    refine WP.bind (WP.mono ?_ (executeBasic_wp F _ cmd f1 L))
    rintro r L' rfl
    generalize executeBasicBytes F bot.info.gameID cmd f1 = r2
    obtain ⟨r2, f2⟩ := r2
    cases r2 with
    | ok r => exact rfl
    | panic m => exact rfl
    | err e =>
      dsimp only
      refine WP.bind (WP.mono ?_ (executeBasic_wp F _ (firstPartBytes cmd) f2 L'))
      rintro r L'' rfl
      generalize executeBasicBytes F bot.info.gameID (firstPartBytes cmd) f2 = r3
      obtain ⟨r3, f3⟩ := r3
      cases r3 <;> exact rfl

theorem session_wp {σ} (F : DieFeeder σ) (bot : ByteBot σ) : ∀ (inputs : List Bytes) (f : σ) (L : Own),
    WP (session F bot inputs f) (fun r _ => r = answersAlone F bot inputs f) L := by
  intro inputs
  induction inputs with
  | nil => intro f L; exact rfl
  | cons input inputs ih =>
    intro f L
    refine WP.bind (WP.mono ?_ (execute_wp F bot input f L))
    rintro r L' rfl
    unfold answersAlone
    generalize executeBytes F bot input f = one
    obtain ⟨r, f1⟩ := one
    refine WP.bind (WP.mono ?_ (ih f1 L'))
    rintro rs L'' rfl
    exact rfl

section
variable {ι : Type} [DecidableEq ι] {α : ι → Type}

theorem CStep.other {c c' : Config α} {o : Option ι} {i : ι} (h : CStep o c c') (ho : o ≠ some i) :
    c'.threads i = c.threads i := by
  cases h with
  | thread j _ hj => exact hj i (fun e => ho (e ▸ rfl))
  | collect r => rfl

theorem CStep.own {c c' : Config α} {i : ι} (h : CStep (some i) c c') :
    Step (c.threads i) c.shared (c'.threads i) c'.shared := by
  cases h with
  | thread _ h _ => exact h

/-- A property of programs that is inherited against the steps holds of all programs. -/
theorem Prog.induct {β : Type} {P : Prog β → Prop} (hret : ∀ a, P (.ret a))
    (hstep : ∀ p, (∀ p' s s', Step p s p' s' → P p') → (∀ a, p ≠ .ret a) → P p) (p : Prog β) : P p := by
  induction p with
  | ret a => exact hret a
  | make k ih => exact hstep _ (fun p' s s' h => by cases h; exact ih _) (fun _ h => by cases h)
  | get k ih => exact hstep _ (fun p' s s' h => by cases h <;> exact ih _) (fun _ h => by cases h)
  | put r k ih => exact hstep _ (fun p' s s' h => by cases h; exact ih) (fun _ h => by cases h)
  | load r k ih => exact hstep _ (fun p' s s' h => by cases h; exact ih _) (fun _ h => by cases h)
  | store r d k ih => exact hstep _ (fun p' s s' h => by cases h; exact ih) (fun _ h => by cases h)

theorem least {P : Nat → Prop} {n : Nat} (h : P n) : ∃ m, P m ∧ ∀ k, k < m → ¬ P k := by
  induction n using Nat.strongRecOn with
  | _ n ih =>
    by_cases hk : ∃ k, k < n ∧ P k
    · obtain ⟨k, h1, h2⟩ := hk
      exact ih k h1 h2
    · exact ⟨n, h, fun k h1 h2 => hk ⟨k, h1, h2⟩⟩

theorem Execution.finishes {start : Config α} (e : Execution start) (i : ι) (hs : ∀ n, ∃ m, n ≤ m ∧ e.who m = some i) :
    ∃ n a, (e.at' n).threads i = .ret a := by
  suffices ∀ (p : Prog (α i)) n, (e.at' n).threads i = p → ∃ n a, (e.at' n).threads i = .ret a from this _ 0 rfl
  intro p
  refine Prog.induct (P := fun p => ∀ n, (e.at' n).threads i = p → ∃ n a, (e.at' n).threads i = .ret a) ?_ ?_ p
  · exact fun a n h => ⟨n, a, h⟩
  · intro p ih _ n hn
    obtain ⟨m, hm1, hm2⟩ := hs n
    obtain ⟨m, ⟨hm1, hm2⟩, hmin⟩ := least (P := fun m => n ≤ m ∧ e.who m = some i) ⟨hm1, hm2⟩
    have hstay : ∀ k, n + k ≤ m → (e.at' (n + k)).threads i = p := by
      intro k
      induction k with
      | zero => exact fun _ => hn
      | succ k ihk =>
        intro hk
        have := ihk (by omega)
        rw [← this]
        exact (e.steps (n + k)).other (fun h => hmin (n + k) (by omega) ⟨by omega, h⟩)
    have hp := hstay (m - n) (by omega)
    rw [show n + (m - n) = m by omega] at hp
    have hst := e.steps m
    rw [hm2] at hst
    have := hst.own
    rw [hp] at this
    exact ih _ _ _ this (m + 1) rfl

theorem Reaches.of_execution {start : Config α} (e : Execution start) (n : Nat) : Reaches start (e.at' n) := by
  induction n with
  | zero => rw [e.begins]; exact .refl
  | succ n ih => exact .step ih (e.steps n)

theorem Reaches.trans {c c' c'' : Config α} (h : Reaches c c') (h' : Reaches c' c'') : Reaches c c'' := by
  induction h' with
  | refl => exact h
  | step _ hs ih => exact .step ih hs

theorem Execution.reaches_from {start : Config α} (e : Execution start) {n m : Nat} (h : n ≤ m) :
    Reaches (e.at' n) (e.at' m) := by
  obtain ⟨k, rfl⟩ := Nat.exists_eq_add_of_le h
  clear h
  induction k with
  | zero => exact .refl
  | succ k ih => exact .step ih (e.steps (n + k))

/-- What has finished stays as it is. -/
theorem Reaches.stays {c c' : Config α} (h : Reaches c c') {i : ι} {a : α i} (hi : c.threads i = .ret a) :
    c'.threads i = .ret a := by
  induction h with
  | refl => exact hi
  | @step c' c'' o _ hs ih =>
    by_cases ho : o = some i
    · subst ho
      have := hs.own
      rw [ih] at this
      cases this
    · rw [hs.other ho]
      exact ih

/-- An execution can be continued for ever by the garbage collector. -/
def Execution.idle (c : Config α) : Execution { c with shared := { c.shared with pool := [] } } where
  at' _ := { c with shared := { c.shared with pool := [] } }
  who _ := none
  begins := rfl
  steps _ := .collect 0

/-- A first step in front of an execution. -/
def Execution.cons {c c' : Config α} {o : Option ι} (h : CStep o c c') (e : Execution c') : Execution c where
  at' n := match n with | 0 => c | n + 1 => e.at' n
  who n := match n with | 0 => o | n + 1 => e.who n
  begins := rfl
  steps n := match n with
    | 0 => by show CStep o c (e.at' 0); rw [e.begins]; exact h
    | n + 1 => e.steps n

theorem Reaches.clear_pool (c : Config α) : Reaches c { c with shared := { c.shared with pool := [] } } := by
  suffices ∀ (l : List Ref) (c : Config α), c.shared.pool = l → Reaches c { c with shared := { c.shared with pool := [] } } from
    this _ c rfl
  intro l
  induction l with
  | nil =>
    intro c h
    obtain ⟨t, d, p⟩ := c
    dsimp only at h ⊢
    subst h
    exact .refl
  | cons r l ih =>
    intro c h
    refine Reaches.trans (.step .refl (.collect r)) ?_
    exact ih _ (by simp [h])

theorem Execution.prepend {c c' : Config α} (h : Reaches c c') (e : Execution c') :
    ∃ e' : Execution c, ∀ i, e.Fair i → e'.Fair i := by
  induction h with
  | refl => exact ⟨e, fun _ h => h⟩
  | step _ hs ih =>
    obtain ⟨e', h'⟩ := ih (Execution.cons hs e)
    refine ⟨e', fun i hf => h' i ?_⟩
    intro n hn
    obtain ⟨m, hm, hw⟩ := hf n (fun m hm => hn (m + 1) (by omega))
    exact ⟨m + 1, by omega, hw⟩

/-- From where some goroutines have finished there is an endless execution that is fair to them. -/
theorem Execution.exists_fair {c c' : Config α} (h : Reaches c c') :
    ∃ e : Execution c, ∀ i, (∃ a, c'.threads i = .ret a) → e.Fair i := by
  obtain ⟨e, he⟩ := Execution.prepend (h.trans (Reaches.clear_pool c')) (Execution.idle c')
  refine ⟨e, fun i hi => he i ?_⟩
  obtain ⟨a, ha⟩ := hi
  intro n hn
  obtain ⟨c'', hc⟩ := hn n (Nat.le_refl n)
  have := hc.own
  rw [show ((Execution.idle c').at' n).threads i = .ret a from ha] at this
  cases this

theorem Inv.can_finish {Q : (i : ι) → α i → Prop} {c : Config α} {L : ι → Own} (h : Inv Q c L) (i : ι) :
    ∃ c' a, Reaches c c' ∧ c'.threads i = .ret a := by
  suffices ∀ (p : Prog (α i)) (c : Config α) (L : ι → Own), Inv Q c L → c.threads i = p →
      ∃ c' a, Reaches c c' ∧ c'.threads i = .ret a from this _ c L h rfl
  intro p
  refine Prog.induct (P := fun p => ∀ (c : Config α) (L : ι → Own), Inv Q c L → c.threads i = p →
      ∃ c' a, Reaches c c' ∧ c'.threads i = .ret a) ?_ ?_ p
  · exact fun a c L _ h => ⟨c, a, .refl, h⟩
  · intro p ih hne c L hi hp
    rcases hi.progress i with ⟨a, h⟩ | ⟨c', hc⟩
    · exact ⟨c, a, .refl, h⟩
    · obtain ⟨L', hi'⟩ := hi.step hc
      have := hc.own
      rw [hp] at this
      obtain ⟨c'', a, h1, h2⟩ := ih _ _ _ this c' L' hi' rfl
      exact ⟨c'', a, (Reaches.step .refl hc).trans h1, h2⟩

end

end Conc

/-! ### C82 -/

section
variable {ι : Type} [DecidableEq ι]

theorem startAll_inv (w : ι → Worker) :
    Inv (fun i a => a = answersAlone (w i).F (w i).bot (w i).inputs (w i).feeder) (startAll w) (fun _ => Own.none) :=
  Inv.start (fun i => session_wp (w i).F (w i).bot (w i).inputs (w i).feeder Own.none)

/-- **C82.** Whatever the schedule, and whatever dictionaries the pool hands out, a goroutine that
has finished has the answers its bot gives when nothing else runs. -/
theorem C82_answers (w : ι → Worker) {c : Config (fun i => (w i).Answer)} (h : Reaches (startAll w) c) {i : ι}
    {a : (w i).Answer} (hi : c.threads i = .ret a) :
    a = answersAlone (w i).F (w i).bot (w i).inputs (w i).feeder := by
  obtain ⟨L, hL⟩ := (startAll_inv w).reaches h
  have := hL.wp i
  rw [hi] at this
  exact this

/-- **C82.** No data race: a dictionary that a goroutine is about to read, change or give to the pool
is in the pool no longer, and no other goroutine is about to do that. -/
theorem C82_race_free (w : ι → Worker) {c : Config (fun i => (w i).Answer)} (h : Reaches (startAll w) c) {i : ι}
    {r : Ref} (hi : (c.threads i).touches = some r) :
    r ∉ c.shared.pool ∧ ∀ j, j ≠ i → (c.threads j).touches ≠ some r := by
  obtain ⟨L, hL⟩ := (startAll_inv w).reaches h
  have h1 := hL.touches hi
  refine ⟨fun hr => h1 (hL.free r hr i), ?_⟩
  intro j hj h2
  exact hL.touches h2 (hL.sep i j r (Ne.symm hj) h1)

/-- **C82.** The pool never holds a dictionary twice, and only empty ones. -/
theorem C82_pool (w : ι → Worker) {c : Config (fun i => (w i).Answer)} (h : Reaches (startAll w) c) :
    c.shared.pool.Nodup ∧ ∀ r ∈ c.shared.pool, c.shared.dicts[r]? = some none := by
  obtain ⟨L, hL⟩ := (startAll_inv w).reaches h
  exact ⟨hL.nodup, hL.pool⟩

/-- **C82.** No deadlock and no crash: a goroutine that has not finished can make a step. -/
theorem C82_progress (w : ι → Worker) {c : Config (fun i => (w i).Answer)} (h : Reaches (startAll w) c) (i : ι) :
    (∃ a, c.threads i = .ret a) ∨ ∃ c', CStep (some i) c c' := by
  obtain ⟨L, hL⟩ := (startAll_inv w).reaches h
  exact hL.progress i

/-- **C82.** In no execution does a goroutine make steps for ever. -/
theorem C82_finitely_many_steps (w : ι → Worker) (e : Execution (startAll w)) (i : ι) :
    ∃ n, ∀ m, n ≤ m → e.who m ≠ some i := by
  by_cases h : ∃ n, ∀ m, n ≤ m → e.who m ≠ some i
  · exact h
  · exfalso
    have hs : ∀ n, ∃ m, n ≤ m ∧ e.who m = some i := by
      intro n
      by_cases hn : ∃ m, n ≤ m ∧ e.who m = some i
      · exact hn
      · exact absurd ⟨n, fun m hm he => hn ⟨m, hm, he⟩⟩ h
    obtain ⟨n, a, hn⟩ := Conc.Execution.finishes e i hs
    obtain ⟨m, hm, hw⟩ := hs n
    have hm' := (Reaches.stays (Conc.Execution.reaches_from e hm)) hn
    have := e.steps m
    rw [hw] at this
    have := this.own
    rw [hm'] at this
    cases this

/-- **C82.** In every endless execution whose schedule does not forget it, a goroutine finishes, with
the answers of its bot alone, and they stay. -/
theorem C82_finishes (w : ι → Worker) (e : Execution (startAll w)) (i : ι) (hf : e.Fair i) :
    ∃ n, ∀ m, n ≤ m →
      (e.at' m).threads i = .ret (answersAlone (w i).F (w i).bot (w i).inputs (w i).feeder) := by
  have hfin : ∃ n a, (e.at' n).threads i = .ret a := by
    by_cases h : ∃ n a, (e.at' n).threads i = .ret a
    · exact h
    · refine Conc.Execution.finishes e i (fun n => hf n (fun m _ => ?_))
      rcases C82_progress w (Reaches.of_execution e m) i with ⟨a, ha⟩ | h'
      · exact absurd ⟨m, a, ha⟩ h
      · exact h'
  obtain ⟨n, a, h⟩ := hfin
  have := C82_answers w (Reaches.of_execution e n) h
  rw [this] at h
  exact ⟨n, fun m hm => Reaches.stays (Conc.Execution.reaches_from e hm) h⟩

/-- At any time, every goroutine can still finish: the hypotheses of the theorems above are met. -/
theorem C82_can_finish (w : ι → Worker) {c : Config (fun i => (w i).Answer)} (h : Reaches (startAll w) c) (i : ι) :
    ∃ c', Reaches c c' ∧ c'.threads i = .ret (answersAlone (w i).F (w i).bot (w i).inputs (w i).feeder) := by
  obtain ⟨L, hL⟩ := (startAll_inv w).reaches h
  obtain ⟨c', a, h1, h2⟩ := hL.can_finish i
  have := C82_answers w (h.trans h1) h2
  rw [this] at h2
  exact ⟨c', h1, h2⟩

/-- For every goroutine there is an execution that does not forget it. -/
theorem C82_fair_execution (w : ι → Worker) (i : ι) : ∃ e : Execution (startAll w), e.Fair i := by
  obtain ⟨c, h1, h2⟩ := C82_can_finish w .refl i
  obtain ⟨e, he⟩ := Conc.Execution.exists_fair h1
  exact ⟨e, he i ⟨_, h2⟩⟩

/-- **C82.** The same for goroutines that only parse, any data each. -/
theorem C82_parse (filename : ι → Str) (data : ι → List Sym) {c : Config (fun _ : ι => Except Str Val)}
    (h : Reaches ⟨fun i => Conc.parse (filename i) (data i), Shared.empty⟩ c) {i : ι} {r : Except Str Val}
    (hi : c.threads i = .ret r) : r = goParse (filename i) (data i) := by
  obtain ⟨L, hL⟩ := (Inv.start (Q := fun i r => r = goParse (filename i) (data i))
    (fun i => parse_wp (filename i) (data i) Own.none)).reaches h
  have := hL.wp i
  rw [hi] at this
  exact this

end

/-! ### Examples: two goroutines, one with a dice queue and several inputs, one that chooses -/

/-- Two goroutines with bots of their own. -/
def exampleWorkers : Bool → Worker
  | true => ⟨queueFeeder, basicByteBot [], [⟨3, 6⟩, ⟨4, 6⟩], [encode chars!"2D6>=7", encode chars!"C(1+2)"]⟩
  | false => ⟨queueFeeder, basicByteBot [], [⟨2, 2⟩], [encode chars!"choice[a,b]"]⟩

/-- What the first one answers when it is alone, and so in every schedule. -/
example : ((answersAlone queueFeeder (basicByteBot []) [encode chars!"2D6>=7", encode chars!"C(1+2)"]
      [⟨3, 6⟩, ⟨4, 6⟩]).1.map fun r => match r with | .ok r => r.message | _ => []) =
    [chars!"DiceBot : (2D6>=7) ＞ 7[3,4] ＞ 7 ＞ 成功", chars!"DiceBot : C(1+2) ＞ 計算結果 ＞ 3"] := by
  decide +kernel

example : ((answersAlone queueFeeder (basicByteBot []) [encode chars!"choice[a,b]"] [⟨2, 2⟩]).1.map
      fun r => match r with | .ok r => r.message | _ => []) = [chars!"DiceBot : (CHOICE[a,b]) ＞ b"] := by
  decide +kernel

/-- Both can finish, in one execution, after the first has finished the second. -/
example : ∃ c, Reaches (startAll exampleWorkers) c ∧
    c.threads true = .ret (answersAlone queueFeeder (basicByteBot []) [encode chars!"2D6>=7", encode chars!"C(1+2)"]
      [⟨3, 6⟩, ⟨4, 6⟩]) :=
  let ⟨c, h1, h2⟩ := C82_can_finish exampleWorkers .refl true
  ⟨c, h1, h2⟩

/-- There is an endless execution that forgets neither. -/
example : ∃ e : Execution (startAll exampleWorkers), e.Fair true ∧ e.Fair false := by
  obtain ⟨c, h1, h2⟩ := C82_can_finish exampleWorkers .refl true
  obtain ⟨c', h3, h4⟩ := C82_can_finish exampleWorkers h1 false
  obtain ⟨e, he⟩ := Conc.Execution.exists_fair (h1.trans h3)
  exact ⟨e, he true ⟨_, h3.stays h2⟩, he false ⟨_, h4⟩⟩

/-- The steps of the second one at the beginning, given that it gets new dictionaries. -/
def exampleGo {α : Type} : Prog α → Prog α
  | .make k => k 0
  | .get k => k 1
  | p => p

/-- The second one is somewhere, the first one has not begun. -/
def exampleAt (p : Prog (exampleWorkers false).Answer) : (b : Bool) → Prog (exampleWorkers b).Answer
  | true => (startAll exampleWorkers).threads true
  | false => p

/-- A goroutine in the middle of its work does touch a dictionary: after `make` and `Get` it reads the
dictionary it copies, while the other one has not begun. -/
example : ∃ c, Reaches (startAll exampleWorkers) c ∧ (c.threads false).touches = some 0 ∧
    c.threads true = (startAll exampleWorkers).threads true := by
  generalize hp : (startAll exampleWorkers).threads false = p
  have hs : startAll exampleWorkers = ⟨exampleAt p, Shared.empty⟩ := by
    unfold startAll
    congr 1
    funext b
    cases b
    · exact hp
    · rfl
  have h1 : ∃ k, p = .make k := by subst hp; exact ⟨_, rfl⟩
  have h2 : ∃ k, exampleGo p = .get k := by subst hp; exact ⟨_, rfl⟩
  have h3 : (exampleGo (exampleGo p)).touches = some 0 := by subst hp; rfl
  obtain ⟨k1, rfl⟩ := h1
  obtain ⟨k2, h2⟩ := h2
  rw [hs]
  refine ⟨⟨exampleAt (exampleGo (exampleGo (.make k1))), ⟨[none, none], []⟩⟩, ?_, h3, rfl⟩
  refine Reaches.step (Reaches.step (c'' := ⟨exampleAt (exampleGo (.make k1)), ⟨[none], []⟩⟩) .refl
    (.thread false Step.make ?_)) (.thread false ?_ ?_)
  · intro j hj; cases j
    · exact absurd rfl hj
    · rfl
  · show Step (exampleGo (.make k1)) _ (exampleGo (exampleGo (.make k1))) _
    rw [h2]
    exact Step.getNew
  · intro j hj; cases j
    · exact absurd rfl hj
    · rfl

end GoBCDice
