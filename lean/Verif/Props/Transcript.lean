import Verif.Spec.Transcript
import Verif.Props.Session
import Verif.Props.TestRun
import Verif.Props.Text

/-!
# The transcript of a session is a test file that passes (C109)
-/

namespace GoBCDice

variable {σ : Type}

/-! ## Without dice -/

/-- With an empty queue a text fails, or it does what it does with every feeder. -/
theorem basic_empty (F : DieFeeder σ) (g t : Str) (f : σ) :
    (∃ e, executeBasicCommand queueFeeder g t [] = (.err e, [])) ∨
    (∃ r, executeBasicCommand F g t f = (.ok r, f)) ∨
    ∃ m f', executeBasicCommand F g t f = (.panic m, f') := by
  rcases hx : executeBasicCommand queueFeeder g t [] with ⟨o, q⟩
  cases o with
  | ok r =>
    obtain ⟨node, ds, ht, ho, hd⟩ := (basic_succeeds ..).mp hx
    have e := draws_queue.mp hd
    obtain ⟨rfl, rfl⟩ := List.append_eq_nil_iff.mp e.symm
    exact .inr (.inl ⟨r, (basic_succeeds ..).mpr ⟨node, [], ht, ho, .nil _⟩⟩)
  | err m =>
    refine .inl ⟨m, ?_⟩
    rcases (basic_fails ..).mp hx with ⟨_, rfl⟩ | ⟨node, ds, f1, c, ht, hs, hd, he⟩
    · rfl
    · have e := draws_queue.mp hd
      obtain ⟨rfl, rfl⟩ := List.append_eq_nil_iff.mp e.symm
      cases he with
      | refusal => rfl
      | noDie h => cases h; rfl
      | otherDie h _ => cases h
  | panic m =>
    obtain ⟨node, ds, f1, c, ht, hs, hd, he⟩ := (basic_panics ..).mp ⟨m, hx⟩
    have e := draws_queue.mp hd
    obtain ⟨rfl, rfl⟩ := List.append_eq_nil_iff.mp e.symm
    cases he with
    | crash =>
      obtain ⟨m', h⟩ := (basic_panics F g t f f).mpr ⟨node, [], f, .crash, ht, hs, .nil _, .crash⟩
      exact .inr (.inr ⟨m', f, h⟩)
    | noDiePanic h => cases h

/-- **C109.** What fails fails without dice, too. -/
theorem C109_failure (F : DieFeeder σ) (usage usage' input : Str) (f f' : σ) (m : Str)
    (h : executeCommand F (basicBot usage) input f = (.err m, f')) :
    ∃ m', executeCommand queueFeeder (basicBot usage') input [] = (.err m', []) := by
  rw [executeCommand_basic] at h ⊢
  rcases basic_empty F chars!"DiceBot" (checkSecret input).1 f with ⟨e, h1⟩ | ⟨r, h1⟩ | ⟨e, f1, h1⟩
  · rw [h1]
    dsimp only
    rcases hx : executeBasicCommand F chars!"DiceBot" (checkSecret input).1 f with ⟨o, f1⟩
    rw [hx] at h
    cases o with
    | ok r => cases h
    | panic r => cases h
    | err m1 =>
      dsimp only at h
      rcases basic_empty F chars!"DiceBot" (firstPart (checkSecret input).1) f1 with ⟨e', h2⟩ | ⟨r, h2⟩ | ⟨e', f2, h2⟩
      · rw [h2]
        exact ⟨e', rfl⟩
      · rw [h2] at h; cases h
      · rw [h2] at h; cases h
  · rw [h1] at h; cases h
  · rw [h1] at h; cases h

/-! ## Transcripts -/

theorem executeCommand_usage (F : DieFeeder σ) (usage usage' input : Str) (f : σ) :
    executeCommand F (basicBot usage) input f = executeCommand F (basicBot usage') input f := by
  rw [executeCommand_basic, executeCommand_basic]

theorem newline_not_mem_intStr (v : Int64) : '\n' ∉ intStr v := by
  have hn : ∀ n, '\n' ∉ natStr n := fun n h => absurd (natStr_isDigit n '\n' h) (by decide)
  unfold intStr
  split
  · simp [hn]
  · exact hn _

/-- A transcript as test cases. -/
def transcriptSpec (input : Str) (a : Out Result) : CaseSpec :=
  ⟨[input], 1, answerLine a, diceLine a, shownDice a⟩

theorem transcriptSpec_text (input : Str) (a : Out Result) : (transcriptSpec input a).text = transcriptCase input a := by
  simp [transcriptSpec, CaseSpec.text, caseText, transcriptCase, join]

theorem diceLine_eq (a : Out Result) : diceLine a = formatDiceWithoutSpaces (shownDice a) := rfl

theorem session_get (F : DieFeeder σ) (usage : Str) : ∀ (inputs : List Str) (f : σ) (k : Nat) (input : Str),
    inputs[k]? = some input →
    ∃ fk a fk', executeCommand F (basicBot usage) input fk = (a, fk') ∧ (session F usage inputs f).1[k]? = some a
  | [], _, _, _, h => by simp at h
  | t :: ts, f, 0, input, h => by
    cases h
    exact ⟨f, _, _, rfl, rfl⟩
  | t :: ts, f, k + 1, input, h => session_get F usage ts (executeCommand F (basicBot usage) t f).2 k input h

theorem session_length (F : DieFeeder σ) (usage : Str) : ∀ (inputs : List Str) (f : σ),
    (session F usage inputs f).1.length = inputs.length
  | [], _ => rfl
  | t :: ts, f => by simp [session, session_length F usage ts]

theorem gameID_basic {F : DieFeeder σ} {usage input : Str} {f f' : σ} {r : Result}
    (h : executeCommand F (basicBot usage) input f = (.ok r, f')) : r.gameID = chars!"DiceBot" := by
  obtain ⟨t, node, ds, r0, secret, -, -, ho, rfl⟩ := answer_outcome h
  cases ho <;> rfl

theorem transcriptSpec_ok {F : DieFeeder σ} {usage input : Str} {f f' : σ} {a : Out Result}
    (h : executeCommand F (basicBot usage) input f = (a, f')) (h0 : input ≠ []) (h1 : '\n' ∉ input) (h2 : input ≠ caseBar)
    (hv : ∀ d ∈ shownDice a, 0 ≤ d.value ∧ 0 ≤ d.sides) : (transcriptSpec input a).Ok := by
  have hout : '\n' ∉ answerLine a ∧ (answerLine a = [] ∨ chars!"DiceBot" <+: answerLine a) := by
    cases a with
    | ok r =>
      refine ⟨?_, .inr ?_⟩
      · simp only [answerLine, List.mem_append, not_or]
        refine ⟨C93_one_line F usage input f f' r h h1, ?_⟩
        split <;> decide
      · simp only [answerLine, Result.message, gameID_basic h, List.append_assoc]
        exact List.prefix_append _ _
    | err m => exact ⟨by simp [answerLine], .inl rfl⟩
    | panic m => exact ⟨by simp [answerLine], .inl rfl⟩
  refine ⟨⟨by simp [transcriptSpec], by simpa [transcriptSpec] using h0⟩, ?_, ?_, ?_, ?_, ?_⟩
  · intro l hl
    simp only [transcriptSpec, List.mem_singleton] at hl
    subst hl
    exact ⟨h1, h2⟩
  · intro hc
    exact hout.1 (List.mem_of_mem_head? hc)
  · refine ⟨[answerLine a], ⟨by simp, by simpa using hout.1, by simp [transcriptSpec, join]⟩, ?_⟩
    intro l hl
    simp only [List.mem_singleton] at hl
    subst hl
    rcases hout.2 with e | ⟨t, e⟩
    · rw [e]; decide
    · rw [← e]
      constructor
      · rintro ⟨u, hu⟩
        simp at hu
      · intro hu
        have := congrArg List.head? hu
        revert this
        simp [caseBar]
  · exact (C48_language (fun _ => true) _ _).mp (C48_round_trip (fun _ => true) _ hv).2
  · intro hc
    have hc : '\n' ∈ diceLine a := hc
    rcases mem_join hc with hc | ⟨p, hp, hc⟩
    · revert hc; decide
    · obtain ⟨d, hd, rfl⟩ := List.mem_map.mp hp
      simp only [List.mem_append] at hc
      rcases hc with (hc | hc) | hc
      · exact newline_not_mem_intStr _ hc
      · revert hc; decide
      · exact newline_not_mem_intStr _ hc

/-- **C109.** Written down as a test file, a session passes: all texts of one line each, commands, failing commands and
chat; the dice may come from anywhere. -/
theorem C109_passes (isPrint : Char → Bool) (gameID name : Str) (F : DieFeeder σ) (usage : Str) (inputs : List Str) (f : σ)
    (hne : inputs ≠ []) (hi : ∀ t ∈ inputs, t ≠ [] ∧ '\n' ∉ t ∧ t ≠ caseBar)
    (ha : ∀ (k : Nat) (input : Str) (a : Out Result), inputs[k]? = some input →
      (session F usage inputs f).1[k]? = some a →
      (∃ r, a = .ok r ∧ (RefusesThreshold r → ¬ HasDots input)) ∨ ∃ m, a = .err m)
    (hd : ∀ d ∈ sessionLog (session F usage inputs f).1, 0 ≤ d.value ∧ 0 ≤ d.sides) (trailing : Nat) :
    ∃ ts, runTests isPrint gameID
        [(name, transcript inputs (session F usage inputs f).1 ++ List.replicate trailing '\n')] = .finished ts ∧
      ts.length = inputs.length ∧ ∀ t ∈ ts, t.messages = [] := by
  have hlen := session_length F usage inputs f
  have hz : transcript inputs (session F usage inputs f).1 =
      join (chars!"\n" ++ caseBar ++ chars!"\n")
        ((List.zipWith transcriptSpec inputs (session F usage inputs f).1).map CaseSpec.text) := by
    unfold transcript
    congr 1
    rw [List.map_zipWith]
    simp only [transcriptSpec_text]
  have hget : ∀ c ∈ List.zipWith transcriptSpec inputs (session F usage inputs f).1,
      ∃ (k : Nat) (input : Str) (a : Out Result) (fk fk' : σ), inputs[k]? = some input ∧
        (session F usage inputs f).1[k]? = some a ∧
        executeCommand F (basicBot usage) input fk = (a, fk') ∧ c = transcriptSpec input a := by
    intro c hc
    obtain ⟨k, hk, rfl⟩ := List.getElem_of_mem hc
    simp only [List.length_zipWith] at hk
    have hk1 : inputs[k]? = some inputs[k] := List.getElem?_eq_getElem (by omega)
    obtain ⟨fk, a, fk', h1, h2⟩ := session_get F usage inputs f k _ hk1
    refine ⟨k, inputs[k], a, fk, fk', hk1, h2, h1, ?_⟩
    rw [List.getElem_zipWith]
    have : (session F usage inputs f).1[k] = a := by
      rw [List.getElem?_eq_getElem (by omega)] at h2
      exact Option.some.inj h2
    rw [this]
  have hlog : ∀ (k : Nat) (a : Out Result), (session F usage inputs f).1[k]? = some a →
      ∀ d ∈ shownDice a, 0 ≤ d.value ∧ 0 ≤ d.sides := by
    intro k a h d hda
    refine hd d (List.mem_flatten.mpr ⟨shownDice a, List.mem_map.mpr ⟨a, List.mem_of_getElem? h, rfl⟩, hda⟩)
  have hgold := (C71_golden isPrint gameID name (List.zipWith transcriptSpec inputs (session F usage inputs f).1)
    (by
      intro e
      have := congrArg List.length e
      simp only [List.length_zipWith, hlen, List.length_nil, Nat.min_self] at this
      exact hne (List.length_eq_zero_iff.mp this))
    (by
      intro c hc
      obtain ⟨k, input, a, fk, fk', h1, h2, h3, rfl⟩ := hget c hc
      obtain ⟨i1, i2, i3⟩ := hi input (List.mem_of_getElem? h1)
      exact transcriptSpec_ok h3 i1 i2 i3 (hlog k a h2)) trailing).mpr (by
      intro c hc
      obtain ⟨k, input, a, fk, fk', h1, h2, h3, rfl⟩ := hget c hc
      refine ⟨input, [], rfl, ?_⟩
      show Recorded (answerLine a) (shownDice a) input
      rcases ha k input a h1 h2 with ⟨r, rfl, hr⟩ | ⟨m, rfl⟩
      · have := C106_again F usage input fk fk' r h3 hr []
        rw [List.append_nil, executeCommand_usage _ usage []] at this
        exact C71_replay input _ r this
      · obtain ⟨m', h⟩ := C109_failure F usage [] input fk fk' m h3
        exact .inl ⟨rfl, m', [], h⟩)
  obtain ⟨ts, h1, h2⟩ := hgold
  rw [hz]
  refine ⟨ts, h1, ?_, h2⟩
  obtain ⟨cs, h3, h4, -⟩ := C71_verdict isPrint gameID _ h1
  rw [h4]
  have hp : parseFiles isPrint [(name, join (chars!"\n" ++ caseBar ++ chars!"\n")
      ((List.zipWith transcriptSpec inputs (session F usage inputs f).1).map CaseSpec.text) ++
        List.replicate trailing '\n')] gameID = .ok cs := h3
  unfold parseFiles parseFilesLoop at hp
  rw [C56_file isPrint gameID _ (by
      intro e
      have := congrArg List.length e
      simp only [List.length_zipWith, hlen, List.length_nil, Nat.min_self] at this
      exact hne (List.length_eq_zero_iff.mp this)) (by
      intro c hc
      obtain ⟨k, input, a, fk, fk', h1, h2, h3, rfl⟩ := hget c hc
      obtain ⟨i1, i2, i3⟩ := hi input (List.mem_of_getElem? h1)
      exact transcriptSpec_ok h3 i1 i2 i3 (hlog k a h2)) trailing] at hp
  simp only [parseFilesLoop, List.nil_append, Out.ok.injEq] at hp
  rw [← hp]
  simp [hlen]

/-- A session with a secret roll, chat, a command that fails, and a choice meets the hypotheses; its transcript. -/
example :
    let inputs := [chars!"S2D6>=7 attack", chars!"hello", chars!"1D6/(1-1)", chars!"choice[a,b]"]
    let dice : List Die := [⟨3, 6⟩, ⟨4, 6⟩, ⟨2, 6⟩, ⟨5, 6⟩, ⟨2, 2⟩]
    (session queueFeeder chars!"" inputs dice).2 = [] ∧
    transcript inputs (session queueFeeder chars!"" inputs dice).1 = chars!"input:\nS2D6>=7 attack\noutput:\nDiceBot : (2D6>=7) ＞ 7[3,4] ＞ 7 ＞ 成功###secret dice###\nrand:3/6,4/6\n============================\ninput:\nhello\noutput:\n\nrand:\n============================\ninput:\n1D6/(1-1)\noutput:\n\nrand:\n============================\ninput:\nchoice[a,b]\noutput:\nDiceBot : (CHOICE[a,b]) ＞ b\nrand:2/2" := by
  decide +kernel

/-- A text of two lines does not survive: the file has only its first line tested, and the answer to the choice with a line break is
not that to the first line. -/
theorem C109_line_needed :
    let inputs := [chars!"choice[a\nb,c]"]
    let a := (session queueFeeder chars!"" inputs [⟨1, 2⟩]).1
    (∃ r, a = [.ok r]) ∧
    ¬ ∃ ts, runTests (fun _ => true) chars!"DiceBot" [(chars!"a.txt", transcript inputs a)] = .finished ts ∧
      ∀ t ∈ ts, t.messages = [] := by
  refine ⟨⟨⟨chars!"DiceBot", [chars!"(CHOICE[a\nb,c])", chars!"a\nb"], [⟨1, 2⟩], .unspecified, false⟩, by decide +kernel⟩, ?_⟩
  rintro ⟨ts, h, ht⟩
  have e : runTests (fun _ => true) chars!"DiceBot" [(chars!"a.txt", transcript [chars!"choice[a\nb,c]"]
      (session queueFeeder chars!"" [chars!"choice[a\nb,c]"] [⟨1, 2⟩]).1)] ≠ .finished (ts.map fun t => ⟨t.name, []⟩) := by
    intro e
    have : (match runTests (fun _ => true) chars!"DiceBot" [(chars!"a.txt", transcript [chars!"choice[a\nb,c]"]
      (session queueFeeder chars!"" [chars!"choice[a\nb,c]"] [⟨1, 2⟩]).1)] with
      | .finished ts => ts.all (·.messages = [])
      | _ => true) = false := by decide +kernel
    rw [e] at this
    simp at this
  apply e
  rw [h]
  congr 1
  rw [List.map_congr_left (g := id)]
  · simp
  · intro t h'
    have := ht t h'
    obtain ⟨n, m⟩ := t
    simp only at this
    subst this
    rfl

end GoBCDice
