import Verif.Spec.Repl
import Verif.Lemmas.ParserChoice
import Verif.Props.Traces

/-!
# Lemmas about the interactive tool
-/

namespace GoBCDice

variable {ρ : Type}

/-! ## Reading a line -/

theorem isNameChar_iff (c : Char) : isNameChar c = true ↔ NameChar c := by
  simp [isNameChar, NameChar]

theorem isReSpace_blank (c : Char) : isReSpace c = true ↔ Blank c := by
  simp [isReSpace, Blank, or_assoc]

theorem Blank.not_nameChar {c : Char} (h : Blank c) : ¬ NameChar c := by
  rcases h with rfl | rfl | rfl | rfl | rfl <;> simp [NameChar] <;> decide

theorem takeWhile_append_of {p : Char → Bool} {a b : Str} (ha : ∀ c ∈ a, p c = true)
    (hb : ∀ c ∈ b.head?, p c = false) : (a ++ b).takeWhile p = a ∧ (a ++ b).dropWhile p = b := by
  induction a with
  | nil =>
    cases b with
    | nil => simp
    | cons x b => have := hb x (by simp); simp [this]
  | cons x a ih =>
    have hx := ha x (by simp)
    obtain ⟨h1, h2⟩ := ih (fun c hc => ha c (by simp [hc]))
    simp [hx, h1, h2]

theorem takeWhile_sat {p : Char → Bool} (s : Str) : ∀ c ∈ s.takeWhile p, p c = true := by
  intro c hc
  induction s with
  | nil => simp at hc
  | cons x s ih =>
    rw [List.takeWhile_cons] at hc
    split at hc
    · rename_i hx
      rcases List.mem_cons.1 hc with rfl | hc
      · exact hx
      · exact ih hc
    · simp at hc

theorem lastLine_eq {s : Str} (h : '\n' ∉ s) : lastLine s = s := by
  unfold lastLine
  have := (takeWhile_append_of (p := (· ≠ '\n')) (a := s.reverse) (b := []) (fun c hc => by
    have hc : c ∈ s := by simpa using hc
    have hne : c ≠ '\n' := fun he => h (he ▸ hc)
    simpa using hne) (by simp)).1
  rw [List.append_nil] at this
  rw [this, List.reverse_reverse]

/-- The command pattern on a line without newline. -/
theorem matchCommand_iff {text : Str} (hn : '\n' ∉ text) (name args : Str)
    (hname : name ≠ []) (hchars : ∀ c ∈ name, NameChar c) :
    matchCommand text = some (name, args) ↔ CommandLine text name args := by
  constructor
  · intro h
    unfold matchCommand at h
    split at h
    · rename_i t
      dsimp only at h
      split at h
      · simp at h
      · have hsplit : t = t.takeWhile isNameChar ++ t.dropWhile isNameChar :=
          (List.takeWhile_append_dropWhile).symm
        have hhead := dropWhile_head isNameChar t
        split at h
        · rename_i hd
          simp only [Option.some.injEq, Prod.mk.injEq] at h
          refine .bare [] ?_ h.2.symm (by simp)
          rw [← h.1]; rw [hd] at hsplit; rw [← hsplit]
        · rename_i c rest hd
          split at h
          · rename_i hc
            simp only [Option.some.injEq, Prod.mk.injEq] at h
            have hnr : '\n' ∉ c :: rest := by
              intro hm; apply hn; rw [hsplit, hd]; exact List.mem_cons_of_mem _ (List.mem_append_right _ hm)
            rw [lastLine_eq hnr] at h
            have h3 : c :: rest = (c :: rest).takeWhile isReSpace ++ (c :: rest).dropWhile isReSpace :=
              (List.takeWhile_append_dropWhile).symm
            refine .blanks ((c :: rest).takeWhile isReSpace) ?_ ?_ ?_ ?_
            · rw [← h.1, ← h.2, List.append_assoc, ← h3, ← hd, ← hsplit]
            · simp [hc]
            · intro x hx; exact (isReSpace_blank x).1 (takeWhile_sat _ x hx)
            · rw [← h.2]; intro x hx
              have := dropWhile_head isReSpace (c :: rest) x hx
              rw [← isReSpace_blank]; simp [this]
          · rename_i hc
            simp only [Option.some.injEq, Prod.mk.injEq] at h
            refine .bare (c :: rest) ?_ h.2.symm ?_
            · rw [← h.1, ← hd, ← hsplit]
            · intro x hx
              simp at hx; subst hx
              have := hhead c (by simp [hd])
              rw [← isNameChar_iff, ← isReSpace_blank]
              exact ⟨by simp [this], by simpa using hc⟩
    · simp at h
  · intro h
    have hc' : ∀ c ∈ name, isNameChar c = true := fun c hc => (isNameChar_iff c).2 (hchars c hc)
    cases h with
    | bare rest ht ha hr =>
      subst ht; subst ha
      obtain ⟨h1, h2⟩ := takeWhile_append_of (b := rest) hc' (fun c hc => by
        have := (hr c hc).1; rw [← isNameChar_iff] at this; simpa using this)
      simp only [matchCommand, h1, h2, if_neg hname]
      cases rest with
      | nil => rfl
      | cons c rest =>
        have := (hr c (by simp)).2
        rw [← isReSpace_blank] at this
        simp [this]
    | blanks sp ht hs hb ha =>
      subst ht
      cases sp with
      | nil => exact absurd rfl hs
      | cons b sp =>
        have hb0 := hb b (by simp)
        obtain ⟨h1, h2⟩ := takeWhile_append_of (a := name) (b := (b :: sp) ++ args) hc' (fun c hc => by
          simp at hc; subst hc
          have := hb0.not_nameChar; rw [← isNameChar_iff] at this; simpa using this)
        obtain ⟨-, h4⟩ := takeWhile_append_of (p := isReSpace) (a := b :: sp) (b := args)
          (fun c hc => (isReSpace_blank c).2 (hb c hc)) (fun c hc => by
            have := ha c hc; rw [← isReSpace_blank] at this; simpa using this)
        have hnr : '\n' ∉ b :: (sp ++ args) := by
          intro hm; apply hn; simp at hm ⊢; grind
        rw [List.append_assoc]
        simp only [matchCommand, h1, h2, if_neg hname]
        rw [List.cons_append]
        simp only [(isReSpace_blank b).2 hb0, if_true, lastLine_eq hnr]
        rw [List.cons_append] at h4
        rw [h4]

theorem matchCommand_name {text name args : Str} (h : matchCommand text = some (name, args)) :
    name ≠ [] ∧ ∀ c ∈ name, NameChar c := by
  unfold matchCommand at h
  split at h
  · rename_i t
    dsimp only at h
    split at h
    · simp at h
    · rename_i hne
      have : name = t.takeWhile isNameChar := by
        split at h
        · simp at h; exact h.1.symm
        · split at h <;> (simp at h; exact h.1.symm)
      rw [this]
      exact ⟨hne, fun c hc => (isNameChar_iff c).1 (takeWhile_sat _ c hc)⟩
  · simp at h

/-- The entry of a handler in the table. -/
def Handler.cmd (h : Handler) : ReplCommand := (lookupCommand h.commandName).getD evalCmd

theorem lookup_commandName (h : Handler) : lookupCommand h.commandName = some h.cmd := by
  cases h <;> decide

theorem cmd_handler (h : Handler) : h.cmd.handler = h := by
  cases h <;> decide

theorem lookup_some {name : Str} {c : ReplCommand} (h : lookupCommand name = some c) :
    ∃ hd : Handler, name = hd.commandName := by
  unfold lookupCommand at h
  have h1 := List.find?_some h
  have h2 := List.mem_of_find?_eq_some h
  simp only [decide_eq_true_eq] at h1
  subst h1
  simp only [replCommands, List.mem_cons, List.not_mem_nil, or_false] at h2
  rcases h2 with rfl | rfl | rfl | rfl | rfl | rfl | rfl | rfl | rfl
  · exact ⟨.ast, rfl⟩
  · exact ⟨.eval, rfl⟩
  · exact ⟨.roll, rfl⟩
  · exact ⟨.setGame, rfl⟩
  · exact ⟨.listGames, rfl⟩
  · exact ⟨.setDieFeeder, rfl⟩
  · exact ⟨.setDiceQueue, rfl⟩
  · exact ⟨.help, rfl⟩
  · exact ⟨.quit, rfl⟩

theorem commandName_chars (h : Handler) :
    h.commandName ≠ [] ∧ ∀ c ∈ h.commandName, NameChar c := by
  have : ∀ h : Handler, h.commandName ≠ [] ∧ h.commandName.all isNameChar = true := by
    intro h; cases h <;> decide
  refine ⟨(this h).1, fun c hc => ?_⟩
  rw [← isNameChar_iff]
  exact List.all_eq_true.1 (this h).2 c hc

theorem trimSpace_sublist (s : Str) : (trimSpace s).Sublist s := by
  unfold trimSpace
  have h1 := ((s.dropWhile isSpace).reverse.dropWhile_sublist isSpace).reverse
  rw [List.reverse_reverse] at h1
  exact h1.trans (s.dropWhile_sublist isSpace)

theorem commandName_inj {h h' : Handler} (e : h.commandName = h'.commandName) : h = h' := by
  have := lookup_commandName h
  rw [e, lookup_commandName h'] at this
  have h2 := congrArg (Option.map ReplCommand.handler) this
  simp only [Option.map_some, cmd_handler, Option.some.injEq] at h2
  exact h2.symm

theorem isReSpace_isSpace {c : Char} (h : isReSpace c = true) : isSpace c = true := by
  rw [isReSpace_blank] at h
  rcases h with rfl | rfl | rfl | rfl | rfl <;> decide

theorem trimSpace_last (s : Str) : ∀ c ∈ (trimSpace s).getLast?, isSpace c = false := by
  intro c hc
  unfold trimSpace at hc
  rw [List.getLast?_reverse] at hc
  exact dropWhile_head _ _ c hc

theorem trimRightSpaces_eq {s : Str} (h : ∀ c ∈ s.getLast?, isReSpace c = false) :
    trimRightSpaces s = s := by
  unfold trimRightSpaces
  cases hr : s.reverse with
  | nil => simp at hr; simp [hr]
  | cons x t =>
    have : s.getLast? = some x := by
      rw [← List.reverse_reverse s, hr]; simp
    have hx := h x (by simp [this])
    rw [List.dropWhile_cons_of_neg (by simp [hx]), ← hr, List.reverse_reverse]

theorem CommandLine.args_last {text name args : Str} (h : CommandLine text name args)
    (hl : ∀ c ∈ text.getLast?, isSpace c = false) : ∀ c ∈ args.getLast?, isReSpace c = false := by
  cases h with
  | bare rest ht ha hr => subst ha; simp
  | blanks sp ht hs hb ha =>
    subst ht
    intro c hc
    cases hr : isReSpace c with
    | false => rfl
    | true =>
      have h1 := hl c (by
        cases args with
        | nil => simp at hc
        | cons a args => simpa [List.getLast?_cons, List.getLast?_append] using hc)
      rw [isReSpace_isSpace hr] at h1
      cases h1

/-- What the loop does with a request. -/
def perform (env : ReplEnv ρ) (r : ReplState ρ) (seed : ρ) : ReplRequest → LoopStatus × ReplState ρ
  | .nothing => (.running, r)
  | .leave => (.exited, r)
  | .command h args => (statusOf (runHandler env r h.cmd args seed).1, (runHandler env r h.cmd args seed).2)
  | .evaluate text => (statusOf (replEval env r evalCmd text).1, (replEval env r evalCmd text).2)

theorem asks_total (ev : ReadEvent ρ) (hn : '\n' ∉ ev.line) : ∃ req, Asks ev req := by
  by_cases hi : ev.err = some .interrupt
  · exact ⟨_, .nothing hi⟩
  by_cases hq : trimSpace ev.line = chars!".q"
  · exact ⟨_, .leave hi hq⟩
  by_cases hc : ∃ (h : Handler) (args : Str), CommandLine (trimSpace ev.line) h.commandName args
  · obtain ⟨h, args, hc⟩ := hc
    exact ⟨_, .command h args hi hc⟩
  · exact ⟨_, .evaluate hi hq (fun h args hh => hc ⟨h, args, hh⟩)⟩

theorem step_perform (env : ReplEnv ρ) (r : ReplState ρ) (ev : ReadEvent ρ) (hn : '\n' ∉ ev.line)
    {req : ReplRequest} (h : Asks ev req) : replStep env r ev = perform env r ev.seed req := by
  have hnt : '\n' ∉ trimSpace ev.line := fun hm => hn ((trimSpace_sublist _).subset hm)
  have hne : ev.err ≠ some .interrupt → replStep env r ev =
      (let line := trimSpace ev.line
      if line = chars!".q" then (.exited, r)
      else
        let (o, r') :=
          match matchCommand line with
          | none => replEval env r evalCmd line
          | some (name, args) =>
            match lookupCommand name with
            | none => replEval env r evalCmd line
            | some c => runHandler env r c (trimRightSpaces args) ev.seed
        (statusOf o, r')) := by
    intro hi
    unfold replStep
    split
    · rename_i h1; exact absurd h1 hi
    · rfl
  cases h with
  | nothing hi => unfold replStep; rw [hi]; rfl
  | leave hi hq => rw [hne hi]; simp [hq, perform]
  | command h args hi hc =>
    rw [hne hi]
    have hm := (matchCommand_iff hnt _ args (commandName_chars h).1 (commandName_chars h).2).2 hc
    have hq : trimSpace ev.line ≠ chars!".q" := by
      intro hq
      rw [hq] at hm
      have : matchCommand chars!".q" = some (chars!"q", []) := by decide
      rw [this] at hm
      simp only [Option.some.injEq, Prod.mk.injEq] at hm
      have h1 := hm.1
      cases h <;> simp [Handler.commandName] at h1
    simp only [hq, if_false, hm, lookup_commandName, perform]
    rw [trimRightSpaces_eq (hc.args_last (trimSpace_last _))]
  | evaluate hi hq hno =>
    rw [hne hi]
    simp only [hq, if_false, perform]
    split
    · rfl
    · rename_i name args hm
      split
      · rfl
      · rename_i c hl
        obtain ⟨hd, rfl⟩ := lookup_some hl
        exact absurd ((matchCommand_iff hnt _ args (commandName_chars hd).1 (commandName_chars hd).2).1 hm)
          (hno hd args)

theorem CommandLine.unique {text name name' args args' : Str} (hn : '\n' ∉ text)
    (hname : name ≠ []) (hchars : ∀ c ∈ name, NameChar c)
    (hname' : name' ≠ []) (hchars' : ∀ c ∈ name', NameChar c)
    (h : CommandLine text name args) (h' : CommandLine text name' args') :
    name = name' ∧ args = args' := by
  have h1 := (matchCommand_iff hn name args hname hchars).2 h
  rw [(matchCommand_iff hn name' args' hname' hchars').2 h'] at h1
  simp only [Option.some.injEq, Prod.mk.injEq] at h1
  exact ⟨h1.1.symm, h1.2.symm⟩

theorem asks_unique {ev : ReadEvent ρ} (hn : '\n' ∉ ev.line) {req req' : ReplRequest}
    (h : Asks ev req) (h' : Asks ev req') : req = req' := by
  have hnt : '\n' ∉ trimSpace ev.line := fun hm => hn ((trimSpace_sublist _).subset hm)
  have hq : ∀ (hd : Handler) (args : Str), CommandLine (trimSpace ev.line) hd.commandName args →
      trimSpace ev.line ≠ chars!".q" := by
    intro hd args hc hq
    have hm := (matchCommand_iff hnt _ args (commandName_chars hd).1 (commandName_chars hd).2).2 hc
    rw [hq, show matchCommand chars!".q" = some (chars!"q", []) by decide] at hm
    simp only [Option.some.injEq, Prod.mk.injEq] at hm
    have h1 := hm.1
    cases hd <;> simp [Handler.commandName] at h1
  cases h with
  | nothing hi => cases h' with
    | nothing => rfl
    | leave hi' | command _ _ hi' | evaluate hi' => exact absurd hi hi'
  | leave hi h1 => cases h' with
    | nothing hi' => exact absurd hi' hi
    | leave => rfl
    | command hd args _ hc => exact absurd h1 (hq hd args hc)
    | evaluate _ h2 => exact absurd h1 h2
  | command hd args hi hc => cases h' with
    | nothing hi' => exact absurd hi' hi
    | leave _ h1 => exact absurd h1 (hq hd args hc)
    | command hd' args' _ hc' =>
      obtain ⟨h1, h2⟩ := CommandLine.unique hnt (commandName_chars hd).1 (commandName_chars hd).2
        (commandName_chars hd').1 (commandName_chars hd').2 hc hc'
      rw [commandName_inj h1, h2]
    | evaluate _ _ hno => exact absurd hc (hno hd args)
  | evaluate hi h1 hno => cases h' with
    | nothing hi' => exact absurd hi' hi
    | leave _ h2 => exact absurd h2 h1
    | command hd' args' _ hc' => exact absurd hc' (hno hd' args')
    | evaluate => rfl

end GoBCDice
