import Verif.TestRun
import Verif.Props.TestcaseFile
import Verif.Lemmas.Message

/-!
# C71: what it means that the recorded tests pass

`runTests isPrint gameID files` is `testing.Run`.
-/

namespace GoBCDice

/-! ## Specification -/

/-- What a recorded test case claims about its first input line `line`: with the recorded dice in
the queue, `ExecuteCommand` fails (when no output is recorded), or gives the recorded message, with
the mark `###secret dice###` after it if the result is secret, and uses up all recorded dice. -/
def Recorded (output : Str) (ds : List Die) (line : Str) : Prop :=
  (output = [] ∧ ∃ e q, executeCommand queueFeeder (basicBot []) line ds = (.err e, q)) ∨
  (output ≠ [] ∧ ∃ r, executeCommand queueFeeder (basicBot []) line ds = (.ok r, []) ∧
    output = r.message ++ (if r.isSecret then chars!"###secret dice###" else []))

/-- The messages of the subtests, without their names. -/
def RunOutcome.messages : RunOutcome → Option (List (List Str))
  | .finished ts => some (ts.map SubTest.messages)
  | _ => none

/-! ## One subtest -/

theorem shownMessage_eq (r : Result) :
    shownMessage r = r.message ++ (if r.isSecret then chars!"###secret dice###" else []) := by
  unfold shownMessage
  cases r.isSecret <;> simp

theorem shownMessage_ne (r : Result) : shownMessage r ≠ [] := by
  rw [shownMessage_eq]
  simp [Result.message]

theorem runCase_passes (isPrint : Char → Bool) (c : TestCase) (line : Str) :
    runCase isPrint c line = .ok [] ↔ Recorded c.output c.dice line := by
  unfold runCase Recorded
  rcases h : executeCommand queueFeeder (basicBot []) line c.dice with ⟨o, q⟩
  cases o with
  | panic m => simp
  | err e =>
    by_cases ho : c.output = []
    · simp [ho]
    · simp [ho]
  | ok r =>
    by_cases ho : c.output = []
    · simp [ho]
    · simp only [ho, ↓reduceIte, Out.ok.injEq, List.append_eq_nil_iff, false_and, false_or,
        ne_eq, not_false_eq_true, true_and]
      constructor
      · rintro ⟨h1, h2⟩
        by_cases hm : shownMessage r = c.output
        · by_cases hq : q = []
          · exact ⟨r, by rw [hq], by rw [← shownMessage_eq]; exact hm.symm⟩
          · rw [if_neg hq] at h2; cases h2
        · rw [if_neg hm] at h1; cases h1
      · rintro ⟨r', h1, h2⟩
        obtain ⟨h3, h4⟩ := Prod.mk.inj h1
        cases h3
        rw [← shownMessage_eq] at h2
        rw [if_pos h2.symm, if_pos h4]
        exact ⟨rfl, rfl⟩

/-! ## The loop -/

theorem runCases_finished (isPrint : Char → Bool) (cs : List TestCase) : ∀ done ts,
    runCases isPrint cs done = .finished ts → ∃ new, ts = done ++ new ∧ new.length = cs.length ∧
      ∀ k (h1 : k < new.length) (h2 : k < cs.length), ∃ line rest, cs[k].input = line :: rest ∧
        new[k].name = subTestName isPrint cs[k] line ∧
        runCase isPrint cs[k] line = .ok new[k].messages := by
  induction cs with
  | nil =>
    intro done ts h
    cases h
    exact ⟨[], by simp, rfl, fun k h1 => absurd h1 (by simp)⟩
  | cons c cs ih =>
    intro done ts h
    unfold runCases at h
    split at h
    · cases h
    rename_i line rest hin
    split at h
    · rename_i ms hms
      obtain ⟨new, h1, h2, h3⟩ := ih _ _ h
      refine ⟨⟨subTestName isPrint c line, ms⟩ :: new, by simp [h1], by simp [h2], ?_⟩
      intro k k1 k2
      cases k with
      | zero => exact ⟨line, rest, hin, rfl, hms⟩
      | succ k =>
        simp only [List.getElem_cons_succ]
        exact h3 k (by simpa using k1) (by simpa using k2)
    · cases h
    · cases h

theorem runCases_panicked (isPrint : Char → Bool) (cs : List TestCase)
    (hin : ∀ c ∈ cs, c.input ≠ []) : ∀ done ts m,
    runCases isPrint cs done = .panicked ts m → ∃ c ∈ cs, ∃ line rest q, c.input = line :: rest ∧
      executeCommand queueFeeder (basicBot []) line c.dice = (.panic m, q) := by
  induction cs with
  | nil => intro done ts m h; cases h
  | cons c cs ih =>
    intro done ts m h
    unfold runCases at h
    split at h
    · rename_i h0; exact absurd h0 (hin c (by simp))
    rename_i line rest hi
    split at h
    · obtain ⟨c', hc, rest⟩ := ih (fun c hc => hin c (by simp [hc])) _ _ _ h
      exact ⟨c', by simp [hc], rest⟩
    all_goals
      rename_i m' hm
      cases h
      refine ⟨c, by simp, line, rest, ?_⟩
      unfold runCase at hm
      rcases hx : executeCommand queueFeeder (basicBot []) line c.dice with ⟨o, q⟩
      rw [hx] at hm
      cases o with
      | panic m'' => first | (cases hm; exact ⟨q, hi, rfl⟩) | cases hm
      | err e => simp only at hm; split at hm <;> cases hm
      | ok r => simp only at hm; split at hm <;> cases hm

theorem splitChar_ne (c : Char) (s : Str) : splitChar c s ≠ [] := by
  induction s with
  | nil => simp [splitChar]
  | cons x xs ih =>
    unfold splitChar
    split
    · simp
    · split <;> simp

theorem parseCase_input {isPrint : Char → Bool} {source gameID : Str} {i : Int64} {c : TestCase}
    (h : parseCase isPrint source gameID i = .ok c) : c.input ≠ [] := by
  unfold parseCase at h
  split at h
  · cases h
  split at h
  · cases h
  · cases h
  cases h
  exact splitChar_ne _ _

theorem parseCases_input {isPrint : Char → Bool} {gameID : Str} (ss : List Str) : ∀ {i cs},
    parseCases isPrint gameID i ss = .ok cs → ∀ c ∈ cs, c.input ≠ [] := by
  induction ss with
  | nil => intro i cs h; cases h; simp
  | cons s ss ih =>
    intro i cs h
    unfold parseCases at h
    split at h
    · cases h
    · cases h
    rename_i c hc
    split at h
    · cases h
    · cases h
    rename_i cs' hcs
    cases h
    intro x hx
    rcases List.mem_cons.mp hx with rfl | hx
    · exact parseCase_input hc
    · exact ih hcs x hx

theorem parseFiles_input {isPrint : Char → Bool} {gameID : Str} {files : List (Str × Str)}
    {cs : List TestCase} (h : parseFiles isPrint files gameID = .ok cs) :
    ∀ c ∈ cs, c.input ≠ [] := by
  have main : ∀ (files : List (Str × Str)) (acc cs : List TestCase),
      (∀ c ∈ acc, c.input ≠ []) → parseFilesLoop isPrint gameID files acc = .ok cs →
      ∀ c ∈ cs, c.input ≠ [] := by
    intro files
    induction files with
    | nil => intro acc cs ha h; cases h; exact ha
    | cons f files ih =>
      intro acc cs ha h
      obtain ⟨name, content⟩ := f
      simp only [parseFilesLoop] at h
      split at h <;> try exact absurd h (by simp)
      rename_i new hnew
      refine ih _ _ ?_ h
      intro c hc
      rcases List.mem_append.mp hc with hc | hc
      · exact ha c hc
      · obtain ⟨c', hc', rfl⟩ := List.mem_map.mp hc
        exact parseCases_input _ hnew c' hc'
  exact main files [] cs (by simp) h

theorem parseCases_no_panic {isPrint : Char → Bool} {gameID : Str} (ss : List Str) : ∀ {i m},
    parseCases isPrint gameID i ss ≠ .panic m := by
  induction ss with
  | nil => intro i m h; cases h
  | cons s ss ih =>
    intro i m h
    unfold parseCases at h
    split at h
    · cases h
    · rename_i hc
      unfold parseCase at hc
      split at hc
      · cases hc
      split at hc
      · cases hc
      · rename_i hd
        unfold parseDice at hd
        split at hd
        · cases hd
        · exact parseDiceItems_no_panic isPrint _ _ _ _ hd
      · cases hc
    · split at h
      · cases h
      · rename_i hcs; exact ih hcs
      · cases h

theorem parseFiles_no_panic {isPrint : Char → Bool} {gameID : Str} {files : List (Str × Str)}
    {m : Str} : parseFiles isPrint files gameID ≠ .panic m := by
  have main : ∀ (files : List (Str × Str)) (acc : List TestCase),
      parseFilesLoop isPrint gameID files acc ≠ .panic m := by
    intro files
    induction files with
    | nil => intro acc h; cases h
    | cons f files ih =>
      intro acc h
      obtain ⟨name, content⟩ := f
      simp only [parseFilesLoop] at h
      split at h
      · cases h
      · rename_i hp; exact parseCases_no_panic _ hp
      · exact ih _ h
  exact main files []

/-! ## C71 -/

/-- **C71, verdict.** When `Run` finishes there is one subtest for each test case of the files, in
order, named after its first input line, and it passes exactly when what is recorded is true of
that line. -/
theorem C71_verdict (isPrint : Char → Bool) (gameID : Str) (files : List (Str × Str))
    {ts : List SubTest} (h : runTests isPrint gameID files = .finished ts) :
    ∃ cs, parseFiles isPrint files gameID = .ok cs ∧ ts.length = cs.length ∧
      ∀ k (h1 : k < ts.length) (h2 : k < cs.length), ∃ line rest, cs[k].input = line :: rest ∧
        ts[k].name = gameID ++ chars!"-" ++ intStr (Int64.ofNat (k + 1)) ++ chars!":" ++
          quote isPrint line ++ chars!"[" ++ formatDiceWithoutSpaces cs[k].dice ++ chars!"]" ∧
        (ts[k].messages = [] ↔ Recorded cs[k].output cs[k].dice line) := by
  unfold runTests at h
  split at h
  · cases h
  · cases h
  rename_i cs hcs
  obtain ⟨new, h1, h2, h3⟩ := runCases_finished isPrint cs _ _ h
  rw [List.nil_append] at h1
  subst h1
  refine ⟨cs, hcs, h2, ?_⟩
  intro k k1 k2
  obtain ⟨line, rest, e1, e2, e3⟩ := h3 k k1 k2
  obtain ⟨e4, e5⟩ := C56_files_numbered isPrint files gameID cs hcs k k2
  refine ⟨line, rest, e1, ?_, ?_⟩
  · rw [e2, subTestName, e4, e5]
  · rw [← runCase_passes isPrint, e3]
    simp

/-- **C71, panics.** If running the tests dies of a panic, it is the panic of a command under test;
in particular no test case lacks an input line. -/
theorem C71_panics (isPrint : Char → Bool) (gameID : Str) (files : List (Str × Str))
    {ts : List SubTest} {m : Str} (h : runTests isPrint gameID files = .panicked ts m) :
    ∃ cs c line rest q, parseFiles isPrint files gameID = .ok cs ∧ c ∈ cs ∧
      c.input = line :: rest ∧
      executeCommand queueFeeder (basicBot []) line c.dice = (.panic m, q) := by
  unfold runTests at h
  split at h
  · cases h
  · rename_i hp; exact absurd hp parseFiles_no_panic
  rename_i cs hcs
  obtain ⟨c, hc, line, rest, q, h1, h2⟩ :=
    runCases_panicked isPrint cs (parseFiles_input hcs) _ _ _ h
  exact ⟨cs, c, line, rest, q, hcs, hc, h1, h2⟩

/-! ### Names -/

theorem colon_split {a b x y : Str} (ha : ':' ∉ a) (hb : ':' ∉ b)
    (h : a ++ ':' :: x = b ++ ':' :: y) : a = b := by
  induction a generalizing b with
  | nil =>
    cases b with
    | nil => rfl
    | cons c b =>
      simp only [List.nil_append, List.cons_append, List.cons.injEq] at h
      exact absurd h.1 (fun e => hb (by rw [← e]; exact List.mem_cons_self))
  | cons c a ih =>
    cases b with
    | nil =>
      simp only [List.nil_append, List.cons_append, List.cons.injEq] at h
      exact absurd h.1.symm (fun e => ha (by rw [← e]; exact List.mem_cons_self))
    | cons c' b =>
      simp only [List.cons_append, List.cons.injEq] at h
      obtain ⟨rfl, h⟩ := h
      rw [ih (fun hm => ha (by simp [hm])) (fun hm => hb (by simp [hm])) h]

theorem index_str {k : Nat} (h : k + 1 < 2 ^ 63) : ':' ∉ intStr (Int64.ofNat (k + 1)) := by
  have h1 : (Int64.ofNat (k + 1)).toInt = (k + 1 : Nat) := Int64.toInt_ofNat_of_lt (by omega)
  have h2 : (1 : Int64) ≤ Int64.ofNat (k + 1) := by
    rw [Int64.le_iff_toInt_le, h1]
    have : (1 : Int64).toInt = 1 := by decide
    rw [this]; omega
  intro hm
  exact absurd (intStr_digits h2 _ hm) (by decide)

/-- **C71, names.** No two subtests have the same name. -/
theorem C71_names (isPrint : Char → Bool) (gameID : Str) (files : List (Str × Str))
    {ts : List SubTest} (h : runTests isPrint gameID files = .finished ts)
    (hlen : ts.length < 2 ^ 63) (i j : Nat) (hi : i < ts.length) (hj : j < ts.length)
    (hn : ts[i].name = ts[j].name) : i = j := by
  obtain ⟨cs, _, h2, h3⟩ := C71_verdict isPrint gameID files h
  obtain ⟨_, _, _, ei, _⟩ := h3 i hi (by omega)
  obtain ⟨_, _, _, ej, _⟩ := h3 j hj (by omega)
  rw [ei, ej] at hn
  simp only [List.append_assoc] at hn
  have h4 := List.append_cancel_left (List.append_cancel_left hn)
  have h5 := colon_split (index_str (by omega)) (index_str (by omega)) h4
  have h6 := intStr_inj h5
  have h7 : (Int64.ofNat (i + 1)).toInt = (Int64.ofNat (j + 1)).toInt := by rw [h6]
  rw [Int64.toInt_ofNat_of_lt (by omega), Int64.toInt_ofNat_of_lt (by omega)] at h7
  omega

/-! ### What the tests do not look at -/

theorem runCases_messages (isPrint : Char → Bool) (cs : List TestCase) : ∀ (ds : List TestCase)
    (done done' : List SubTest), cs.length = ds.length →
    (∀ k (h1 : k < cs.length) (h2 : k < ds.length), cs[k].input.head? = ds[k].input.head? ∧
      cs[k].output = ds[k].output ∧ cs[k].dice = ds[k].dice) →
    done.map SubTest.messages = done'.map SubTest.messages →
    (runCases isPrint cs done).messages = (runCases isPrint ds done').messages := by
  induction cs with
  | nil =>
    intro ds done done' hl _ hd
    cases ds with
    | nil => simp [runCases, RunOutcome.messages, hd]
    | cons => cases hl
  | cons c cs ih =>
    intro ds done done' hl hk hd
    cases ds with
    | nil => cases hl
    | cons c' ds =>
      obtain ⟨h1, h2, h3⟩ := hk 0 (by simp) (by simp)
      simp only [List.getElem_cons_zero] at h1 h2 h3
      unfold runCases
      cases hc : c.input with
      | nil =>
        rw [hc] at h1
        have : c'.input = [] := by
          cases hc' : c'.input with
          | nil => rfl
          | cons => rw [hc'] at h1; cases h1
        rw [this]
        rfl
      | cons line rest =>
        rw [hc] at h1
        obtain ⟨rest', hc'⟩ : ∃ rest', c'.input = line :: rest' := by
          cases hc' : c'.input with
          | nil => rw [hc'] at h1; cases h1
          | cons l r => rw [hc'] at h1; cases h1; exact ⟨r, rfl⟩
        rw [hc']
        simp only
        have e : runCase isPrint c line = runCase isPrint c' line := by
          unfold runCase; rw [h2, h3]
        rw [e]
        cases runCase isPrint c' line with
        | ok ms =>
          refine ih ds _ _ (by simpa using hl) ?_ (by simp [hd])
          intro k k1 k2
          exact hk (k + 1) (by simpa using k1) (by simpa using k2)
        | err m => rfl
        | panic m => rfl

/-- **C71, blind spots.** Outcomes depend only on the first input line, the output and the dice of
the test cases: not on further input lines, nor on the game for which `Run` is called. -/
theorem C71_blind (isPrint : Char → Bool) {g g' : Str} {files files' : List (Str × Str)}
    {cs cs' : List TestCase} (h : parseFiles isPrint files g = .ok cs)
    (h' : parseFiles isPrint files' g' = .ok cs') (hl : cs.length = cs'.length)
    (hk : ∀ k (h1 : k < cs.length) (h2 : k < cs'.length), cs[k].input.head? = cs'[k].input.head? ∧
      cs[k].output = cs'[k].output ∧ cs[k].dice = cs'[k].dice) :
    (runTests isPrint g files).messages = (runTests isPrint g' files').messages := by
  unfold runTests
  rw [h, h']
  exact runCases_messages isPrint cs cs' [] [] hl hk rfl

/-! ### Recording and replaying -/

theorem runCases_total (isPrint : Char → Bool) (cs : List TestCase) : ∀ done,
    (∀ c ∈ cs, ∃ line rest, c.input = line :: rest ∧ Recorded c.output c.dice line) →
    ∃ ts, runCases isPrint cs done = .finished ts := by
  induction cs with
  | nil => intro done _; exact ⟨done, rfl⟩
  | cons c cs ih =>
    intro done h
    obtain ⟨line, rest, h1, h2⟩ := h c (by simp)
    unfold runCases
    rw [h1]
    simp only
    rw [(runCase_passes isPrint c line).mpr h2]
    exact ih _ (fun c hc => h c (by simp [hc]))

/-- **C71, golden files.** A file of test cases written down as in C56 passes, all of it, exactly
when every test case records the truth about its first line. -/
theorem C71_golden (isPrint : Char → Bool) (gameID name : Str) (cs : List CaseSpec) (hne : cs ≠ [])
    (hok : ∀ c ∈ cs, c.Ok) (trailing : Nat) :
    (∃ ts, runTests isPrint gameID [(name, join (chars!"\n" ++ caseBar ++ chars!"\n")
        (cs.map CaseSpec.text) ++ List.replicate trailing '\n')] = .finished ts ∧
      ∀ t ∈ ts, t.messages = []) ↔
    ∀ c ∈ cs, ∃ line rest, c.input = line :: rest ∧ Recorded c.output c.dice line := by
  have hp : parseFiles isPrint [(name, join (chars!"\n" ++ caseBar ++ chars!"\n")
      (cs.map CaseSpec.text) ++ List.replicate trailing '\n')] gameID =
      .ok (cs.mapIdx (fun k c => c.result gameID (Int64.ofNat (k + 1)))) := by
    unfold parseFiles parseFilesLoop
    rw [C56_file isPrint gameID cs hne hok trailing]
    simp only [parseFilesLoop, List.nil_append, List.length_nil, Out.ok.injEq]
    rw [List.map_congr_left (g := id)]
    · simp
    · intro c _
      show { c with index := c.index + Int64.ofNat 0 } = c
      have : c.index + Int64.ofNat 0 = c.index := Int64.add_zero _
      rw [this]
  constructor
  · rintro ⟨ts, h1, h2⟩ c hc
    obtain ⟨cs', h3, h4, h5⟩ := C71_verdict isPrint gameID _ h1
    rw [hp] at h3
    cases h3
    obtain ⟨k, hk, rfl⟩ := List.getElem_of_mem hc
    have hk' : k < ts.length := by rw [h4]; simpa using hk
    obtain ⟨line, rest, h6, _, h7⟩ := h5 k hk' (by simpa using hk)
    refine ⟨line, rest, ?_, ?_⟩
    · simpa [CaseSpec.result] using h6
    · have := h7.mp (h2 _ (List.getElem_mem _))
      simpa [CaseSpec.result] using this
  · intro h
    have hall : ∀ c ∈ cs.mapIdx (fun k c => c.result gameID (Int64.ofNat (k + 1))),
        ∃ line rest, c.input = line :: rest ∧ Recorded c.output c.dice line := by
      intro c hc
      obtain ⟨k, hk, rfl⟩ := List.getElem_of_mem hc
      rw [List.length_mapIdx] at hk
      obtain ⟨line, rest, h6, h7⟩ := h cs[k] (List.getElem_mem _)
      exact ⟨line, rest, by simpa [CaseSpec.result] using h6, by simpa [CaseSpec.result] using h7⟩
    obtain ⟨ts, hts⟩ := runCases_total isPrint _ [] hall
    have hrun : runTests isPrint gameID [(name, join (chars!"\n" ++ caseBar ++ chars!"\n")
        (cs.map CaseSpec.text) ++ List.replicate trailing '\n')] = .finished ts := by
      unfold runTests
      rw [hp]
      exact hts
    refine ⟨ts, hrun, ?_⟩
    intro t ht
    obtain ⟨cs', h3, h4, h5⟩ := C71_verdict isPrint gameID _ hrun
    rw [hp] at h3
    cases h3
    obtain ⟨k, hk, rfl⟩ := List.getElem_of_mem ht
    obtain ⟨line, rest, h6, _, h7⟩ := h5 k hk (by omega)
    refine h7.mpr ?_
    obtain ⟨line', rest', h8, h9⟩ := hall _ (List.getElem_mem (by omega : k < _))
    rw [h6] at h8
    cases h8
    exact h9

/-- **C71, replay.** In particular a test case made from an actual run passes: the message as
output, the dice used as dice. -/
theorem C71_replay (line : Str) (ds : List Die) (r : Result)
    (h : executeCommand queueFeeder (basicBot []) line ds = (.ok r, [])) :
    Recorded (r.message ++ (if r.isSecret then chars!"###secret dice###" else [])) ds line :=
  .inr ⟨by rw [← shownMessage_eq]; exact shownMessage_ne r, r, h, rfl⟩

/-- A file of two cases, the second with a nonsensical second line: both pass. -/
example : runTests (fun _ => true) chars!"Cthulhu" [(chars!"a.txt",
    chars!"input:\nS2D6\noutput:\nDiceBot : (2D6) ＞ 7[3,4] ＞ 7###secret dice###\nrand:3/6,4/6\n============================\ninput:\n1D\nxyz\noutput:\nrand:1/6\n")] =
    .finished [⟨chars!"Cthulhu-1:\"S2D6\"[3/6,4/6]", []⟩, ⟨chars!"Cthulhu-2:\"1D\"[1/6]", []⟩] := by
  decide +kernel

/-- A wrong die is noticed twice. -/
example : runTests (fun _ => true) chars!"DiceBot" [(chars!"a.txt",
    chars!"input:\n1D6\noutput:\nDiceBot : (1D6) ＞ 2[2] ＞ 2\nrand:3/6,4/6")] =
    .finished [⟨chars!"DiceBot-1:\"1D6\"[3/6,4/6]",
      [chars!"got: \"DiceBot : (1D6) ＞ 3[3] ＞ 3\", want: \"DiceBot : (1D6) ＞ 2[2] ＞ 2\"",
       chars!"ダイス残り: 4/6"]⟩] := by
  decide +kernel

end GoBCDice
