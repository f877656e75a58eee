import Verif.Lemmas.TestcaseFile
import Verif.Props.Testcase

/-!
# Test case files are read back as written (C56)
-/

namespace GoBCDice

/-- **C56, one case.** Parsing the text of a test case gives its input lines, its output and its
dice. -/
theorem C56_case (isPrint : Char → Bool) (c : CaseSpec) (h : c.Ok) (gameID : Str) (index : Int64) :
    parseCase isPrint c.text gameID index = .ok (c.result gameID index) := by
  obtain ⟨h1, h2, h3, ⟨ols, h4, h5⟩, h6, h7⟩ := h
  have hin : LinesOf (join chars!"\n" c.input) c.input := ⟨h1.1, fun l hl => (h2 l hl).1, rfl⟩
  unfold parseCase CaseSpec.text
  rw [matchSource_caseText hin h1.2 h4 (fun l hl => (h5 l hl).1) h7]
  simp only
  rw [(C48_language isPrint _ _).mpr h6]
  simp only [CaseSpec.result, Out.ok.injEq]
  have e1 : splitChar '\n' (join chars!"\n" c.input) = c.input := hin.split
  have e2 : (List.replicate c.newlines '\n' ++ c.output).dropWhile (· = '\n') = c.output := by
    rw [dropWhile_all (by simp [List.mem_replicate])]
    cases ho : c.output with
    | nil => rfl
    | cons x xs =>
      rw [ho] at h3
      rw [List.dropWhile_cons, if_neg]
      intro hx
      apply h3
      simpa using hx
  rw [e1, e2]

theorem parseCases_texts (isPrint : Char → Bool) (gameID : Str) (cs : List CaseSpec)
    (h : ∀ c ∈ cs, c.Ok) : ∀ i : Nat,
    parseCases isPrint gameID (Int64.ofNat (i + 1)) (cs.map CaseSpec.text) =
      .ok (cs.mapIdx (fun k c => c.result gameID (Int64.ofNat (i + k + 1)))) := by
  induction cs with
  | nil => intro i; rfl
  | cons c cs ih =>
    intro i
    simp only [List.map_cons, parseCases]
    rw [C56_case isPrint c (h c (by simp))]
    simp only
    have e : Int64.ofNat (i + 1) + 1 = Int64.ofNat (i + 1 + 1) := by
      rw [Int64.ofNat_add (i + 1) 1]; rfl
    rw [e, ih (fun x hx => h x (by simp [hx]))]
    simp only [List.mapIdx_cons, Out.ok.injEq, List.cons.injEq]
    refine ⟨by first | rfl | trivial, ?_⟩
    apply List.mapIdx_eq_mapIdx_iff.mpr
    intro k hk
    have : i + 1 + k + 1 = i + (k + 1) + 1 := by omega
    rw [this]

theorem trimRightNewlines_append {s : Str} (h : s.getLast? ≠ some '\n') (k : Nat) :
    trimRightNewlines (s ++ List.replicate k '\n') = s := by
  unfold trimRightNewlines
  rw [List.reverse_append, List.reverse_replicate, dropWhile_all (by simp [List.mem_replicate])]
  have : (s.reverse.dropWhile (· = '\n')) = s.reverse := by
    cases hr : s.reverse with
    | nil => rfl
    | cons x xs =>
      rw [List.dropWhile_cons, if_neg]
      intro hx
      apply h
      rw [List.getLast?_eq_head?_reverse, hr]
      simpa using hx
  rw [this, List.reverse_reverse]

theorem CaseSpec.Ok.last {c : CaseSpec} (h : c.Ok) (pre : Str) :
    (pre ++ c.text).getLast? ≠ some '\n' := by
  intro hl
  have e : pre ++ c.text = pre ++ (chars!"input:\n" ++ join chars!"\n" c.input ++ chars!"\noutput:" ++
    List.replicate c.newlines '\n' ++ c.output ++ ['\n']) ++ (chars!"rand:" ++ c.diceText) := by
    simp [CaseSpec.text, caseText]
  rw [e, List.getLast?_append] at hl
  cases hx : (chars!"rand:" ++ c.diceText).getLast? with
  | none => simp at hx
  | some x =>
    rw [hx] at hl
    simp only [Option.some_or, Option.some.injEq] at hl
    subst hl
    have := List.mem_of_getLast? hx
    rw [List.mem_append] at this
    rcases this with h' | h'
    · exact absurd h' (by decide)
    · exact h.dice_line h'

theorem join_last {sep : Str} {cs : List CaseSpec} (hne : cs ≠ []) (h : ∀ c ∈ cs, c.Ok) :
    (join sep (cs.map CaseSpec.text)).getLast? ≠ some '\n' := by
  have : ∃ c ∈ cs, ∃ pre, join sep (cs.map CaseSpec.text) = pre ++ c.text := by
    clear h
    induction cs with
    | nil => exact absurd rfl hne
    | cons c cs ih =>
      cases cs with
      | nil => exact ⟨c, by simp, [], by simp [join]⟩
      | cons c' cs =>
        obtain ⟨x, hx, pre, hp⟩ := ih (by simp)
        refine ⟨x, List.mem_cons_of_mem _ hx, c.text ++ sep ++ pre, ?_⟩
        simp only [List.map_cons, join] at hp ⊢
        rw [hp]; simp
  obtain ⟨c, hc, pre, e⟩ := this
  rw [e]
  exact (h c hc).last pre

/-- **C56, a file.** A file of one or more such test cases, separated by lines of 28 equals signs
and followed by any number of newlines, is read back as those test cases in order, numbered from
1. -/
theorem C56_file (isPrint : Char → Bool) (gameID : Str) (cs : List CaseSpec) (hne : cs ≠ [])
    (h : ∀ c ∈ cs, c.Ok) (trailing : Nat) :
    parseFile isPrint (join (chars!"\n" ++ caseBar ++ chars!"\n") (cs.map CaseSpec.text) ++
        List.replicate trailing '\n') gameID =
      .ok (cs.mapIdx (fun k c => c.result gameID (Int64.ofNat (k + 1)))) := by
  unfold parseFile
  have e : chars!"\n" ++ caseBar ++ chars!"\n" = caseSeparator := caseSeparator_eq.symm
  rw [e, trimRightNewlines_append (join_last hne h), splitSeq_cases hne h]
  have := parseCases_texts isPrint gameID cs h 0
  simpa using this

theorem parseCases_numbered (isPrint : Char → Bool) (gameID : Str) (ss : List Str) :
    ∀ (i : Nat) (cs : List TestCase), parseCases isPrint gameID (Int64.ofNat (i + 1)) ss = .ok cs →
      cs.length = ss.length ∧
      ∀ k (hk : k < cs.length), cs[k].index = Int64.ofNat (i + k + 1) ∧ cs[k].gameID = gameID := by
  induction ss with
  | nil =>
    intro i cs h
    simp only [parseCases, Out.ok.injEq] at h
    subst h
    exact ⟨rfl, fun k hk => absurd hk (by simp)⟩
  | cons s ss ih =>
    intro i cs h
    simp only [parseCases] at h
    split at h
    · cases h
    · cases h
    rename_i c hc
    have e : Int64.ofNat (i + 1) + 1 = Int64.ofNat (i + 1 + 1) := by
      rw [Int64.ofNat_add (i + 1) 1]; rfl
    rw [e] at h
    split at h
    · cases h
    · cases h
    rename_i cs' hcs
    obtain ⟨ih1, ih2⟩ := ih _ _ hcs
    have := Out.ok.inj h
    subst this
    refine ⟨by simp [ih1], ?_⟩
    intro k hk
    cases k with
    | zero =>
      unfold parseCase at hc
      split at hc
      · cases hc
      split at hc
      · cases hc
      · cases hc
      have := Out.ok.inj hc
      subst this
      exact ⟨rfl, rfl⟩
    | succ k =>
      have := ih2 k (by simpa using hk)
      rw [List.getElem_cons_succ]
      refine ⟨?_, this.2⟩
      rw [this.1]; congr 1; omega

/-- **C56, several files.** When several files are read, the test cases are numbered 1, 2, 3, … in
order across the files and carry the given game id. -/
theorem C56_files_numbered (isPrint : Char → Bool) (files : List (Str × Str)) (gameID : Str)
    (cs : List TestCase) (h : parseFiles isPrint files gameID = .ok cs) :
    ∀ k (hk : k < cs.length), cs[k].index = Int64.ofNat (k + 1) ∧ cs[k].gameID = gameID := by
  have main : ∀ (files : List (Str × Str)) (acc cs : List TestCase),
      (∀ k (hk : k < acc.length), acc[k].index = Int64.ofNat (k + 1) ∧ acc[k].gameID = gameID) →
      parseFilesLoop isPrint gameID files acc = .ok cs →
      ∀ k (hk : k < cs.length), cs[k].index = Int64.ofNat (k + 1) ∧ cs[k].gameID = gameID := by
    intro files
    induction files with
    | nil =>
      intro acc cs ha h
      simp only [parseFilesLoop, Out.ok.injEq] at h
      subst h; exact ha
    | cons f files ih =>
      intro acc cs ha h
      obtain ⟨name, content⟩ := f
      simp only [parseFilesLoop] at h
      split at h <;> try exact absurd h (by simp)
      rename_i new hnew
      refine ih _ _ ?_ h
      obtain ⟨-, hn⟩ := parseCases_numbered isPrint gameID _ 0 new hnew
      intro k hk
      by_cases hka : k < acc.length
      · rw [List.getElem_append_left hka]; exact ha k hka
      · rw [List.getElem_append_right (by omega)]
        simp only [List.getElem_map]
        have hk' : k - acc.length < new.length := by
          rw [List.length_append, List.length_map] at hk; omega
        obtain ⟨h1, h2⟩ := hn (k - acc.length) hk'
        refine ⟨?_, h2⟩
        rw [h1, ← Int64.ofNat_add]
        congr 1; omega
  exact main files [] cs (fun k hk => absurd hk (by simp)) h

-- non-vacuity: two cases, the second with an input line that looks like a keyword
example : parseFile (fun _ => true)
    chars!"input:\n2D6\noutput:\nDiceBot : x\nrand:1/6,2/6\n============================\ninput:\nS1D6\noutput:\noutput:rand:\nrand:\n\n"
    chars!"G" = .ok [⟨chars!"G", 1, [chars!"2D6"], chars!"DiceBot : x", [⟨1, 6⟩, ⟨2, 6⟩]⟩,
      ⟨chars!"G", 2, [chars!"S1D6", chars!"output:"], chars!"rand:", []⟩] := by decide
example : (CaseSpec.mk [chars!"2D6", chars!"output:"] 1 chars!"a\nrand:" chars!"1/6, 2/6"
    [⟨1, 6⟩, ⟨2, 6⟩]).Ok where
  input_ne := by decide
  input_lines := by decide
  output_head := by decide
  output_lines := ⟨[chars!"a", chars!"rand:"], ⟨by simp, by decide, by decide⟩, by decide⟩
  dice := (C48_language (fun _ => true) _ _).mp (by decide)
  dice_line := by decide

end GoBCDice
