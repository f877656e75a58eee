import Verif.Lemmas.ReplEffect
import Verif.Props.Games

/-!
# C45, C46, C47, C59, C60: the interactive tool

`env` is any environment (random generator, registry of game systems, …) whose bots roll only
through the evaluator they are given; for the code's own, empty registry this holds
(`repoEnv_rollsOnly`).  `startRepl env seed evs` is the tool after the reads `evs`, from its start.
-/

namespace GoBCDice

variable {ρ : Type}

/-- The registry of the code contains no bot at all. -/
theorem repoEnv_rollsOnly (env : ReplEnv ρ) (h : env.reg = repoRegistry) : env.RollsOnly := by
  intro k b hb
  rw [h] at hb
  simp [repoRegistry] at hb

theorem loop_cons (env : ReplEnv ρ) {r r' : ReplState ρ} {ev : ReadEvent ρ} (ht : r.terminated = false)
    (hs : replStep env r ev = (.running, r')) (evs : List (ReadEvent ρ)) :
    replLoop env r (ev :: evs) = replLoop env r' evs := by
  rw [replLoop]; simp only [ht, hs]; simp

theorem loop_nil (env : ReplEnv ρ) {r : ReplState ρ} (ht : r.terminated = false) :
    replLoop env r [] = (.running, r) := by
  rw [replLoop]; rw [if_neg (by simp [ht])]

theorem loop_append (env : ReplEnv ρ) (r : ReplState ρ) (evs evs' : List (ReadEvent ρ))
    (h : (replLoop env r evs).1 = .running) :
    replLoop env r (evs ++ evs') = replLoop env (replLoop env r evs).2 evs' := by
  induction evs generalizing r with
  | nil =>
    simp only [replLoop] at h ⊢
    split at h
    · simp at h
    · rename_i ht; simp [ht]
  | cons ev evs ih =>
    simp only [replLoop, List.cons_append] at h ⊢
    split at h
    · simp at h
    · rename_i ht
      simp only [ht]
      cases hs : replStep env r ev with
      | mk st r' =>
        rw [hs] at h
        cases st with
        | running => exact ih r' h
        | exited => simp at h
        | crashed m => simp at h

theorem loop_invariant (env : ReplEnv ρ) {P : ReplState ρ → Prop} (evs : List (ReadEvent ρ))
    (hstep : ∀ r ev, ev ∈ evs → P r → P (replStep env r ev).2) (r : ReplState ρ) (hr : P r) :
    P (replLoop env r evs).2 := by
  induction evs generalizing r with
  | nil => simp only [replLoop]; split <;> exact hr
  | cons ev evs ih =>
    simp only [replLoop]
    split
    · exact hr
    · have h1 := hstep r ev (by simp) hr
      cases hs : replStep env r ev with
      | mk st r' =>
        rw [hs] at h1
        cases st with
        | running => exact ih (fun r ev h => hstep r ev (by simp [h])) r' h1
        | exited => exact h1
        | crashed m => exact h1

theorem repl_step_inv (env : ReplEnv ρ) (henv : env.RollsOnly) (r : ReplState ρ) (ev : ReadEvent ρ)
    (hev : ev.Ok) (hr : r.Inv) :
    (replStep env r ev).2.Inv ∧
    ∃ req, Asks ev req ∧ QueueStep env.isPrint (queueContents r.heap r.dieFeeder) req
      (queueContents (replStep env r ev).2.heap (replStep env r ev).2.dieFeeder) := by
  obtain ⟨req, ha⟩ := asks_total ev hev.1
  rw [step_perform env r ev hev.1 ha]
  obtain ⟨h1, h2⟩ := perform_inv env henv hr ev.seed req (Nat.lt_of_le_of_lt ha.text_length hev.2)
  exact ⟨h1, req, ha, h2⟩

theorem repl_start_inv (env : ReplEnv ρ) (henv : env.RollsOnly) (seed : ρ) (evs : List (ReadEvent ρ))
    (hev : ∀ ev ∈ evs, ev.Ok) : (startRepl env seed evs).2.Inv :=
  loop_invariant env (P := fun r => r.Inv) evs
    (fun r ev hm hr => (repl_step_inv env henv r ev (hev ev hm) hr).1) _
    ⟨(newRepl_inv env seed).one, (newRepl_inv env seed).rolls⟩

/-- C46: after any history, the feeder shown, the feeder of `.roll` and both feeders of the
evaluator are one and the same object. -/
theorem C46_one_feeder (env : ReplEnv ρ) (henv : env.RollsOnly) (seed : ρ)
    (evs : List (ReadEvent ρ)) (hev : ∀ ev ∈ evs, ev.Ok) :
    (startRepl env seed evs).2.OneFeeder := (repl_start_inv env henv seed evs hev).one

theorem queue_history (env : ReplEnv ρ) (henv : env.RollsOnly) (evs : List (ReadEvent ρ))
    (hev : ∀ ev ∈ evs, ev.Ok) (r : ReplState ρ) (hr : r.Inv)
    (h : (replLoop env r evs).1 = .running) :
    QueueAfter env.isPrint (queueContents r.heap r.dieFeeder) evs
      (queueContents (replLoop env r evs).2.heap (replLoop env r evs).2.dieFeeder) := by
  induction evs generalizing r with
  | nil =>
    simp only [replLoop] at h ⊢
    split at h
    · simp at h
    · rename_i ht; simp only [ht]; exact .nil _
  | cons ev evs ih =>
    obtain ⟨h1, req, ha, hq⟩ := repl_step_inv env henv r ev (hev ev (by simp)) hr
    simp only [replLoop] at h ⊢
    split at h
    · simp at h
    · rename_i ht
      simp only [ht]
      cases hs : replStep env r ev with
      | mk st r' =>
        rw [hs] at h h1 hq
        cases st with
        | running => exact .cons ha hq (ih (fun e he => hev e (by simp [he])) r' h1 h)
        | exited => simp at h
        | crashed m => simp at h

/-- C45, histories: whatever was evaluated, rolled or printed in between, the manual queue is the
one last set (`none`: dice are random). -/
theorem C45_history (env : ReplEnv ρ) (henv : env.RollsOnly) (seed : ρ) (evs : List (ReadEvent ρ))
    (hev : ∀ ev ∈ evs, ev.Ok) (r : ReplState ρ) (h : startRepl env seed evs = (.running, r)) :
    ∃ q, QueueAfter env.isPrint none evs q ∧
      ((∃ ds, q = some ds ∧ r.feeder = some (.queue ds)) ∨
       (∃ s, q = none ∧ r.feeder = some (.mt s))) := by
  have hi := repl_start_inv env henv seed evs hev
  have hq := queue_history env henv evs hev ((newRepl env seed).print welcomeMessage)
    ⟨(newRepl_inv env seed).one, (newRepl_inv env seed).rolls⟩
    (show (startRepl env seed evs).1 = .running by rw [h])
  have hq : QueueAfter env.isPrint none evs
      (queueContents (startRepl env seed evs).2.heap (startRepl env seed evs).2.dieFeeder) := hq
  rw [h] at hq hi
  exact ⟨_, hq, (queueContents_eq r _ hi.one.1).1 rfl⟩

theorem QueueStep.unique {isPrint : Char → Bool} {q q' q'' : Option (List Die)} {req : ReplRequest}
    (h : QueueStep isPrint q req q') (h' : QueueStep isPrint q req q'') : q' = q'' := by
  cases h <;> cases h' <;> simp_all

/-- C45: the history determines that queue. -/
theorem C45_determined {isPrint : Char → Bool} {evs : List (ReadEvent ρ)}
    (hev : ∀ ev ∈ evs, ev.Ok) {q q' q'' : Option (List Die)}
    (h : QueueAfter isPrint q evs q') (h' : QueueAfter isPrint q evs q'') : q' = q'' := by
  induction h with
  | nil q => cases h'; rfl
  | cons ha hs _ ih =>
    cases h' with
    | cons ha' hs' hr' =>
      have := asks_unique (hev _ (by simp)).1 ha ha'
      subst this
      have := hs.unique hs'
      subst this
      exact ih (fun e he => hev e (by simp [he])) hr'

/-- C45, one line: with a manual queue, a line that evaluates, rolls, shows or lists something leaves
everything as it was, except that some text is printed, and that text does not depend on what was
printed before. -/
theorem C45_restored (env : ReplEnv ρ) (henv : env.RollsOnly) (seed : ρ) (evs : List (ReadEvent ρ))
    (hev : ∀ ev ∈ evs, ev.Ok) (r : ReplState ρ) (h : (startRepl env seed evs).2 = r)
    (ds : List Die) (hq : r.feeder = some (.queue ds)) (ev : ReadEvent ρ) (hok : ev.Ok)
    (req : ReplRequest) (ha : Asks ev req) (hreads : req.Reads) :
    ∃ st text, ∀ o, replStep env { r with out := o } ev = (st, { r with out := o ++ text }) := by
  have hi := repl_start_inv env henv seed evs hev
  rw [h] at hi
  obtain ⟨st, hp, text, h1, h2, -⟩ := reads_effect env hi.one hi.rolls ev.seed req hreads
    (Nat.lt_of_le_of_lt ha.text_length hok.2)
  refine ⟨st, text, fun o => ?_⟩
  rw [step_perform env _ ev hok.1 ha, h1, h2 ds hq]

/-- C45: the same line entered `n` times prints the same text `n` times and changes nothing else. -/
theorem C45_same_again (env : ReplEnv ρ) (henv : env.RollsOnly) (seed : ρ)
    (evs : List (ReadEvent ρ)) (hev : ∀ ev ∈ evs, ev.Ok) (r : ReplState ρ)
    (h : startRepl env seed evs = (.running, r))
    (ds : List Die) (hq : r.feeder = some (.queue ds)) (ev : ReadEvent ρ) (hok : ev.Ok)
    (req : ReplRequest) (ha : Asks ev req) (hreads : req.Reads)
    (hrun : (replStep env r ev).1 = .running) :
    ∃ text, ∀ n, replLoop env r (List.replicate n ev) =
      (.running, { r with out := r.out ++ (List.replicate n text).flatten }) := by
  obtain ⟨st, text, hs⟩ := C45_restored env henv seed evs hev r (by rw [h]) ds hq ev hok req ha hreads
  have hst : st = .running := by
    have := hs r.out
    rw [show ({ r with out := r.out } : ReplState ρ) = r from rfl] at this
    rw [this] at hrun
    exact hrun
  subst hst
  have hterm : r.terminated = false := by
    have h0 := loop_append env ((newRepl env seed).print welcomeMessage) evs []
      (show (startRepl env seed evs).1 = .running by rw [h])
    have h0 : startRepl env seed (evs ++ []) = replLoop env (startRepl env seed evs).2 [] := h0
    rw [List.append_nil, h] at h0
    simp only [replLoop] at h0
    cases ht : r.terminated with
    | false => rfl
    | true => simp [ht] at h0
  have loop : ∀ n o, replLoop env { r with out := o } (List.replicate n ev) =
      (.running, { r with out := o ++ (List.replicate n text).flatten }) := by
    intro n
    induction n with
    | zero => intro o; rw [List.replicate_zero, loop_nil env (by exact hterm)]; simp
    | succ n ih =>
      intro o
      rw [List.replicate_succ, loop_cons env (by exact hterm) (hs o), ih]
      simp [List.replicate_succ]
  exact ⟨text, fun n => loop n r.out⟩

/-- C59: every line asks for exactly one thing: nothing (interrupted), leaving, one of the nine
commands with an argument text, or the evaluation of the line; ^C does nothing, `.q` leaves at once,
`.quit` before the next read. -/
theorem C59_dispatch (env : ReplEnv ρ) (r : ReplState ρ) (ev : ReadEvent ρ) (hn : '\n' ∉ ev.line) :
    ∃ req, Asks ev req ∧ (∀ req', Asks ev req' → req' = req) ∧
      (req = .nothing → replStep env r ev = (.running, r)) ∧
      (req = .leave → replStep env r ev = (.exited, r)) ∧
      (∀ args, req = .command .quit args →
        replStep env r ev = (.running, { r with terminated := true })) := by
  obtain ⟨req, ha⟩ := asks_total ev hn
  refine ⟨req, ha, fun req' h' => asks_unique hn h' ha, ?_, ?_, ?_⟩
  · rintro rfl; rw [step_perform env r ev hn ha]; rfl
  · rintro rfl; rw [step_perform env r ev hn ha]; rfl
  · rintro args rfl
    rw [step_perform env r ev hn ha]
    simp only [perform, runHandler, cmd_handler, statusOf]

/-- Non-vacuity of C59: how some lines are understood. -/
example : Asks (ρ := Unit) ⟨chars!"  2D6+1 ", none, ()⟩ (.evaluate chars!"2D6+1") ∧
    Asks (ρ := Unit) ⟨chars!".set-game  Cthulhu ", none, ()⟩ (.command .setGame chars!"Cthulhu") ∧
    Asks (ρ := Unit) ⟨chars!".quit!", none, ()⟩ (.command .quit []) ∧
    Asks (ρ := Unit) ⟨chars!".q", some .eof, ()⟩ .leave ∧
    Asks (ρ := Unit) ⟨chars!"2D6", some .interrupt, ()⟩ .nothing := by
  refine ⟨?_, ?_, ?_, ?_, ?_⟩
  · have := Asks.evaluate (ev := (⟨chars!"  2D6+1 ", none, ()⟩ : ReadEvent Unit)) (by simp) (by decide)
      (fun h args hc => by
        rw [show trimSpace chars!"  2D6+1 " = chars!"2D6+1" by decide] at hc
        rcases hc with ⟨_, ht, _, _⟩ | ⟨_, ht, _, _, _⟩ <;> simp at ht)
    exact this
  · refine .command .setGame _ (by simp) (.blanks chars!"  " (by decide) (by simp) ?_ ?_)
    · intro c hc; simp at hc; subst hc; simp [Blank]
    · intro c hc; simp at hc; subst hc; simp [Blank]
  · refine .command .quit _ (by simp) (.bare chars!"!" (by decide) rfl ?_)
    intro c hc; simp at hc; subst hc; simp [NameChar, Blank]
  · exact .leave (by simp) (by decide)
  · exact .nothing rfl

/-! ## Leaving the loop -/

theorem statusOf_ne_exited (o : Out Unit) : statusOf o ≠ .exited := by cases o <;> simp [statusOf]

/-- The read asks for the end: `.q`, or the command `quit`. -/
def AsksToEnd (ev : ReadEvent ρ) : Prop := Asks ev .leave ∨ ∃ args, Asks ev (.command .quit args)

theorem perform_terminated (env : ReplEnv ρ) (r : ReplState ρ) (seed : ρ) (req : ReplRequest)
    (hn : ∀ args, req ≠ .command .quit args) :
    (perform env r seed req).2.terminated = r.terminated := by
  have hrest : ∀ (r : ReplState ρ) s, (r.restore s).terminated = r.terminated := by
    intro r s; cases s <;> rfl
  have heval : ∀ c t, (replEval env r c t).2.terminated = r.terminated := by
    intro c t
    unfold replEval
    split
    · rfl
    · dsimp only
      split
      · exact hrest _ _
      · exact hrest _ _
      · dsimp only; rw [hrest]; split <;> rfl
  cases req with
  | nothing => rfl
  | leave => rfl
  | evaluate t => exact heval _ _
  | command h args =>
    simp only [perform, runHandler, cmd_handler]
    cases h with
    | ast => obtain ⟨t, ht⟩ := ast_prints env Handler.ast.cmd args; exact (congrArg ReplState.terminated (ht r)).trans rfl
    | eval => exact heval _ _
    | roll =>
      dsimp only
      unfold replRoll
      split
      · rfl
      · dsimp only
        split <;> exact hrest _ _
    | setGame => obtain ⟨b, t, ht, -⟩ := setGame_effect env r args; dsimp only; rw [ht]
    | listGames => obtain ⟨t, ht⟩ := list_prints env; exact (congrArg ReplState.terminated (ht r)).trans rfl
    | setDieFeeder =>
      dsimp only
      unfold replSetDieFeeder
      dsimp only
      split
      · rfl
      · split <;> rfl
    | setDiceQueue =>
      dsimp only
      unfold replSetDiceQueue
      split
      · rfl
      · split <;> rfl
    | help => obtain ⟨t, ht⟩ := help_prints (ρ := ρ); dsimp only; rw [ht]
    | quit => exact absurd rfl (hn args)

theorem step_terminated (env : ReplEnv ρ) (r : ReplState ρ) (ev : ReadEvent ρ) (hn : '\n' ∉ ev.line)
    (ht : r.terminated = false) :
    ((replStep env r ev).1 = .exited ∨
      ((replStep env r ev).1 = .running ∧ (replStep env r ev).2.terminated = true)) ↔ AsksToEnd ev := by
  obtain ⟨req, ha⟩ := asks_total ev hn
  rw [step_perform env r ev hn ha]
  constructor
  · rintro (h | ⟨-, h⟩)
    · cases req with
      | nothing => simp [perform] at h
      | leave => exact .inl ha
      | evaluate t => exact absurd h (statusOf_ne_exited _)
      | command hd args => exact absurd h (statusOf_ne_exited _)
    · by_cases hq : ∃ args, req = .command .quit args
      · obtain ⟨args, rfl⟩ := hq; exact .inr ⟨args, ha⟩
      · rw [perform_terminated env r ev.seed req (fun args he => hq ⟨args, he⟩), ht] at h
        cases h
  · rintro (h | ⟨args, h⟩)
    · rw [asks_unique hn ha h]; exact .inl rfl
    · rw [asks_unique hn ha h]
      exact .inr ⟨by simp only [perform, runHandler, cmd_handler, statusOf],
        by simp only [perform, runHandler, cmd_handler]⟩

theorem running_not_terminated (env : ReplEnv ρ) (r : ReplState ρ) (evs : List (ReadEvent ρ))
    (h : (replLoop env r evs).1 = .running) : (replLoop env r evs).2.terminated = false := by
  induction evs generalizing r with
  | nil =>
    simp only [replLoop] at h ⊢
    split at h
    · simp at h
    · rename_i ht; simp [ht]
  | cons ev evs ih =>
    simp only [replLoop] at h ⊢
    split at h
    · simp at h
    · rename_i ht
      simp only [ht]
      cases hs : replStep env r ev with
      | mk st r' =>
        rw [hs] at h
        cases st with
        | running => exact ih r' h
        | exited => simp at h
        | crashed m => simp at h

theorem loop_exits_iff (env : ReplEnv ρ) (r : ReplState ρ) (ht : r.terminated = false)
    (evs : List (ReadEvent ρ)) (hev : ∀ ev ∈ evs, '\n' ∉ ev.line) :
    (replLoop env r evs).1 = .exited ↔
      ∃ pre ev post, evs = pre ++ ev :: post ∧ (replLoop env r pre).1 = .running ∧ AsksToEnd ev := by
  induction evs generalizing r with
  | nil => simp [replLoop, ht]
  | cons ev evs ih =>
    have hst := step_terminated env r ev (hev ev (by simp)) ht
    by_cases hend : AsksToEnd ev
    · constructor
      · intro _; exact ⟨[], ev, evs, rfl, by simp [replLoop, ht], hend⟩
      · intro _
        simp only [replLoop, ht]
        cases hs : replStep env r ev with
        | mk st r' =>
          rw [hs] at hst
          rcases hst.2 hend with h | ⟨h, h'⟩
          · simp only at h; subst h; rfl
          · simp only at h h'; subst h
            cases evs <;> simp [replLoop, h']
    · cases hs : replStep env r ev with
      | mk st r' =>
        rw [hs] at hst
        have hne : ¬ (st = .exited ∨ (st = .running ∧ r'.terminated = true)) := fun h => hend (hst.1 h)
        have first : ∀ {pre e post}, ev :: evs = pre ++ e :: post → AsksToEnd e →
            ∃ pre', pre = ev :: pre' ∧ evs = pre' ++ e :: post := by
          intro pre e post he hae
          cases pre with
          | nil => simp at he; exact absurd (he.1 ▸ hae) hend
          | cons p pre => simp at he; exact ⟨pre, by rw [he.1], he.2⟩
        cases st with
        | exited => exact absurd (.inl rfl) hne
        | crashed m =>
          simp only [replLoop, ht, hs]
          constructor
          · intro h; simp at h
          · rintro ⟨pre, e, post, he, hr, hae⟩
            obtain ⟨pre', rfl, -⟩ := first he hae
            simp [replLoop, ht, hs] at hr
        | running =>
          have ht' : r'.terminated = false := by
            cases h : r'.terminated with
            | false => rfl
            | true => exact absurd (.inr ⟨rfl, h⟩) hne
          have hi := ih r' ht' (fun e he => hev e (by simp [he]))
          simp only [replLoop, ht, hs]
          simp only [Bool.false_eq_true, if_false]
          rw [hi]
          constructor
          · rintro ⟨pre, e, post, he, hr, hae⟩
            exact ⟨ev :: pre, e, post, by simp [he], by simpa [replLoop, ht, hs] using hr, hae⟩
          · rintro ⟨pre, e, post, he, hr, hae⟩
            obtain ⟨pre', rfl, he'⟩ := first he hae
            exact ⟨pre', e, post, he', by simpa [replLoop, ht, hs] using hr, hae⟩

/-- C47: `Start` returns exactly when, the loop still running, a line asks for the end (`.q` or the
command `quit`).  Nothing else ends it — not even the end of input. -/
theorem C47_ends_iff (env : ReplEnv ρ) (seed : ρ) (evs : List (ReadEvent ρ))
    (hev : ∀ ev ∈ evs, '\n' ∉ ev.line) :
    (startRepl env seed evs).1 = .exited ↔
      ∃ pre ev post, evs = pre ++ ev :: post ∧ (startRepl env seed pre).1 = .running ∧
        AsksToEnd ev := loop_exits_iff env _ rfl evs hev

/-- C47: a crash can only come from evaluating or rolling. -/
theorem C47_crash_origin (env : ReplEnv ρ) (seed : ρ) (evs : List (ReadEvent ρ))
    (hev : ∀ ev ∈ evs, '\n' ∉ ev.line) (m : Str) (h : (startRepl env seed evs).1 = .crashed m) :
    ∃ pre ev post, evs = pre ++ ev :: post ∧ (startRepl env seed pre).1 = .running ∧
      ((∃ t, Asks ev (.evaluate t)) ∨ (∃ t, Asks ev (.command .eval t)) ∨
        ∃ t, Asks ev (.command .roll t)) := by
  have key : ∀ (evs : List (ReadEvent ρ)) (r : ReplState ρ), (∀ ev ∈ evs, '\n' ∉ ev.line) →
      (replLoop env r evs).1 = .crashed m →
      ∃ pre ev post, evs = pre ++ ev :: post ∧ (replLoop env r pre).1 = .running ∧
      ((∃ t, Asks ev (.evaluate t)) ∨ (∃ t, Asks ev (.command .eval t)) ∨
        ∃ t, Asks ev (.command .roll t)) := by
    intro evs
    induction evs with
    | nil => intro r _ h; simp only [replLoop] at h; split at h <;> simp at h
    | cons ev evs ih =>
      intro r hev h
      simp only [replLoop] at h
      split at h
      · simp at h
      · rename_i ht
        have hn := hev ev (by simp)
        obtain ⟨req, ha⟩ := asks_total ev hn
        cases hs : replStep env r ev with
        | mk st r' =>
          rw [hs] at h
          cases st with
          | exited => simp at h
          | running =>
            obtain ⟨pre, e, post, he, hr, ho⟩ := ih r' (fun e he => hev e (by simp [he])) h
            exact ⟨ev :: pre, e, post, by simp [he], by simpa [replLoop, ht, hs] using hr, ho⟩
          | crashed m' =>
            refine ⟨[], ev, evs, rfl, by simp [replLoop, ht], ?_⟩
            rw [step_perform env r ev hn ha] at hs
            cases req with
            | nothing => simp [perform] at hs
            | leave => simp [perform] at hs
            | evaluate t => exact .inl ⟨t, ha⟩
            | command hd args =>
              have hs := congrArg Prod.fst hs
              simp only [perform, runHandler, cmd_handler] at hs
              cases hd with
              | eval => exact .inr (.inl ⟨args, ha⟩)
              | roll => exact .inr (.inr ⟨args, ha⟩)
              | setDiceQueue =>
                simp only [replSetDiceQueue] at hs
                split at hs
                · simp [statusOf] at hs
                · split at hs
                  · rename_i hp
                    exfalso
                    unfold parseDice at hp
                    split at hp
                    · simp at hp
                    · revert hp
                      generalize splitChar ',' args = xs
                      generalize (1 : Nat) = i
                      generalize ([] : List Die) = acc
                      induction xs generalizing i acc with
                      | nil => simp [parseDiceItems]
                      | cons x xs ih =>
                        simp only [parseDiceItems]
                        split
                        · simp
                        · exact ih _ _
                  · simp [statusOf] at hs
                  · simp [statusOf] at hs
              | _ => simp [statusOf] at hs
  exact key evs _ hev h

/-- The usage text of `.eval`. -/
def evalUsageText : Str := chars!"使用法: .eval BCDiceコマンド\n"

theorem step_eof (env : ReplEnv ρ) (r : ReplState ρ) (seed : ρ) :
    replStep env r (.eof seed) = (.running, { r with out := r.out ++ evalUsageText }) := by
  rfl

theorem loop_eofs (env : ReplEnv ρ) (r : ReplState ρ) (ht : r.terminated = false) (seeds : List ρ) :
    replLoop env r (seeds.map .eof) =
      (.running, { r with out := r.out ++ (seeds.map fun _ => evalUsageText).flatten }) := by
  induction seeds generalizing r with
  | nil => rw [List.map_nil, loop_nil env ht]; simp
  | cons s seeds ih =>
    rw [List.map_cons, loop_cons env ht (step_eof env r s), ih _ (by exact ht)]
    simp

/-- C47, end of input: after any history during which it was not left, the tool answers every
further end of input with the usage of `.eval` and goes on. -/
theorem C47_end_of_input (env : ReplEnv ρ) (seed : ρ) (evs : List (ReadEvent ρ)) (r : ReplState ρ)
    (h : startRepl env seed evs = (.running, r)) (seeds : List ρ) :
    startRepl env seed (evs ++ seeds.map .eof) =
      (.running, { r with out := r.out ++ (seeds.map fun _ => evalUsageText).flatten }) := by
  have h1 : (startRepl env seed evs).1 = .running := by rw [h]
  have h2 := running_not_terminated env _ evs h1
  have h3 := loop_append env ((newRepl env seed).print welcomeMessage) evs (seeds.map .eof) h1
  have h3 : startRepl env seed (evs ++ seeds.map .eof) =
      replLoop env (startRepl env seed evs).2 (seeds.map .eof) := h3
  rw [h3]
  have h2 : (startRepl env seed evs).2.terminated = false := h2
  rw [h] at h2 ⊢
  exact loop_eofs env r h2 seeds

/-- C47, the expectation stated in the code ("^D ends the tool") is false: no number of ends of
input ends it. -/
theorem C47_eof_ends_refuted (env : ReplEnv ρ) (seed : ρ) :
    ¬ ∃ n, (startRepl env seed (List.replicate n (.eof seed))).1 = .exited := by
  rintro ⟨n, h⟩
  have h0 : startRepl env seed [] = (.running, (newRepl env seed).print welcomeMessage) := rfl
  have := C47_end_of_input env seed [] _ h0 (List.replicate n seed)
  rw [List.map_replicate] at this
  rw [List.nil_append] at this
  rw [this] at h
  simp at h

/-! ## The game system -/

/-- The game ids asked for with `.set-game`, in order. -/
inductive GamesAsked : List (ReadEvent ρ) → List Str → Prop where
  | nil : GamesAsked [] []
  | game {ev evs id ids} : Asks ev (.command .setGame id) → id ≠ [] → GamesAsked evs ids →
      GamesAsked (ev :: evs) (id :: ids)
  | other {ev evs req ids} : Asks ev req → (∀ id, req = .command .setGame id → id = []) →
      GamesAsked evs ids → GamesAsked (ev :: evs) ids

theorem setGame_bot (env : ReplEnv ρ) (r : ReplState ρ) (id : Str) (hne : id ≠ []) :
    (replSetGame env r id).bcDice.bot =
      (setDiceBotByGameID env.usage env.reg r.bcDice.bot id).2 := by
  unfold replSetGame
  rw [if_neg hne]
  cases hs : setDiceBotByGameID env.usage env.reg r.bcDice.bot id with
  | mk e b => cases e <;> rfl

theorem perform_bot (env : ReplEnv ρ) {r : ReplState ρ} (hr : r.Inv)
    (seed : ρ) (req : ReplRequest) (hi : req.text.length < 2 ^ 63)
    (hn : ∀ id, req = .command .setGame id → id = []) :
    (perform env r seed req).2.bcDice.bot = r.bcDice.bot := by
  by_cases hq : req.Reads
  · obtain ⟨st, h, text, hp, -, -⟩ := reads_effect env hr.one hr.rolls seed req hq hi
    have hp := hp r.out
    rw [show ({ r with out := r.out } : ReplState ρ) = r from rfl] at hp
    rw [hp]
  · cases req with
    | nothing => exact absurd trivial hq
    | leave => exact absurd trivial hq
    | evaluate => exact absurd trivial hq
    | command h args =>
      simp only [perform, runHandler, cmd_handler]
      cases h with
      | ast | eval | roll | listGames | help => simp [ReplRequest.Reads] at hq
      | quit => rfl
      | setGame => have := hn args rfl; subst this; simp [ReplRequest.Reads] at hq
      | setDieFeeder =>
        dsimp only
        unfold replSetDieFeeder
        dsimp only
        split
        · rfl
        · split <;> rfl
      | setDiceQueue =>
        dsimp only
        unfold replSetDiceQueue
        split
        · rfl
        · split <;> rfl

/-- C60: after any history the game in use is the one reached by the accepted `.set-game` lines;
no other line — in particular not a change of feeder — changes it. -/
theorem C60_game (env : ReplEnv ρ) (henv : env.RollsOnly) (seed : ρ) (evs : List (ReadEvent ρ))
    (hev : ∀ ev ∈ evs, ev.Ok) (r : ReplState ρ) (h : startRepl env seed evs = (.running, r))
    (ids : List Str) (hids : GamesAsked evs ids) :
    r.bcDice.bot = selectAll env.usage env.reg (basicBot env.usage) ids := by
  have key : ∀ (evs : List (ReadEvent ρ)) (ids : List Str), GamesAsked evs ids →
      (∀ ev ∈ evs, ev.Ok) → ∀ r0 : ReplState ρ, r0.Inv → (replLoop env r0 evs).1 = .running →
      (replLoop env r0 evs).2.bcDice.bot = selectAll env.usage env.reg r0.bcDice.bot ids := by
    intro evs ids hids
    induction hids with
    | nil => intro _ r0 _ _; simp only [replLoop]; split <;> rfl
    | @game ev evs id ids ha hne _ ih =>
      intro hev r0 hr0 hrun
      have hok := hev ev (by simp)
      simp only [replLoop] at hrun ⊢
      split at hrun
      · simp at hrun
      · rename_i ht
        simp only [ht]
        obtain ⟨hinv, -⟩ := repl_step_inv env henv r0 ev hok hr0
        have hs := step_perform env r0 ev hok.1 ha
        simp only [perform, runHandler, cmd_handler, statusOf] at hs
        rw [hs] at hinv hrun ⊢
        have := ih (fun e he => hev e (by simp [he])) _ hinv hrun
        simp only [Bool.false_eq_true, if_false]
        rw [this, setGame_bot env r0 id hne]
        rfl
    | @other ev evs req ids ha hn _ ih =>
      intro hev r0 hr0 hrun
      have hok := hev ev (by simp)
      simp only [replLoop] at hrun ⊢
      split at hrun
      · simp at hrun
      · rename_i ht
        simp only [ht]
        obtain ⟨hinv, -⟩ := repl_step_inv env henv r0 ev hok hr0
        have hb := perform_bot env hr0 ev.seed req (Nat.lt_of_le_of_lt ha.text_length hok.2) hn
        rw [← step_perform env r0 ev hok.1 ha] at hb
        cases hs : replStep env r0 ev with
        | mk st r' =>
          rw [hs] at hrun hinv hb
          cases st with
          | running =>
            simp only [Bool.false_eq_true, if_false]
            rw [ih (fun e he => hev e (by simp [he])) _ hinv hrun, ← hb]
          | exited => simp at hrun
          | crashed m => simp at hrun
  have := key evs ids hids hev ((newRepl env seed).print welcomeMessage)
    ⟨(newRepl_inv env seed).one, (newRepl_inv env seed).rolls⟩
    (show (startRepl env seed evs).1 = .running by rw [h])
  have this : (startRepl env seed evs).2.bcDice.bot = _ := this
  rw [h] at this
  exact this

/-- C60: every history asks for some list of games. -/
theorem C60_games_total (evs : List (ReadEvent ρ)) (hev : ∀ ev ∈ evs, ev.Ok) :
    ∃ ids, GamesAsked evs ids := by
  induction evs with
  | nil => exact ⟨[], .nil⟩
  | cons ev evs ih =>
    obtain ⟨ids, h⟩ := ih (fun e he => hev e (by simp [he]))
    obtain ⟨req, ha⟩ := asks_total ev (hev ev (by simp)).1
    by_cases hg : ∃ id, req = .command .setGame id ∧ id ≠ []
    · obtain ⟨id, rfl, hne⟩ := hg
      exact ⟨_, .game ha hne h⟩
    · refine ⟨ids, .other ha ?_ h⟩
      intro id he
      cases id with
      | nil => rfl
      | cons c id => exact absurd ⟨_, he, by simp⟩ hg

/-- A tool with a constant generator and the registry of the code, used for the examples. -/
def sampleEnv : ReplEnv Unit :=
  { rng := ⟨fun _ _ => (0, ())⟩, reg := repoRegistry, gameIDs := [chars!"DiceBot"], usage := [],
    isPrint := fun _ => true }

/-- A line without error. -/
def sampleLine (s : Str) : ReadEvent Unit := ⟨s, none, ()⟩

/-- A history for the examples: a manual queue is set, then a roll is evaluated. -/
def sampleHistory : List (ReadEvent Unit) :=
  [sampleLine chars!".set-die-feeder Queue", sampleLine chars!".set-dice-queue 3/6, 4/6",
   sampleLine chars!"s2d6+1"]

set_option maxRecDepth 20000 in
/-- Non-vacuity of C45, C46, C47, C60: the sample history runs, prints a secret result and leaves the
queue as it was set. -/
example : sampleEnv.RollsOnly ∧ (∀ ev ∈ sampleHistory, ev.Ok) ∧
    (startRepl sampleEnv () sampleHistory).1 = .running ∧
    (startRepl sampleEnv () sampleHistory).2.feeder = some (.queue [⟨3, 6⟩, ⟨4, 6⟩]) ∧
    (startRepl sampleEnv () sampleHistory).2.dieFeeder = 1 ∧
    (startRepl sampleEnv () sampleHistory).2.out = welcomeMessage ++
      chars!"\x1b[36mOK\x1b[0m\n\x1b[36mOK\x1b[0m\n" ++
      chars!"\x1b[36m=>\x1b[0m \x1b[33m[secret]\x1b[0m DiceBot : (2D6+1) ＞ 7[3,4]+1 ＞ 8\n" ∧
    (startRepl sampleEnv () (sampleHistory ++ [sampleLine chars!".quit", .eof ()])).1 = .exited := by
  refine ⟨repoEnv_rollsOnly _ rfl, ?_, by decide, by decide, by decide, by decide, by decide⟩
  intro ev hev
  simp only [sampleHistory, List.mem_cons, List.not_mem_nil, or_false] at hev
  rcases hev with rfl | rfl | rfl <;> exact ⟨by decide, by decide⟩

end GoBCDice
