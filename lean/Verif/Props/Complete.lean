import Verif.Spec.Complete
import Verif.Props.ReplOutput
import Verif.Props.Games

/-!
# C87: completion in the interactive tool
-/

namespace GoBCDice

variable {ρ : Type}

theorem path_leaves {items : List PcItem} (h : ∀ n cs, PcItem.mk n cs ∈ items → cs = []) {words : List Str} :
    PcItem.Path items words ↔ ∃ n, words = [n] ∧ PcItem.mk n [] ∈ items := by
  constructor
  · intro hp
    cases hp with
    | stop hm => rename_i name children; exact ⟨name, rfl, by rw [h _ _ hm] at hm; exact hm⟩
    | down hm hp =>
      rw [h _ _ hm] at hp
      cases hp with
      | stop hm => cases hm
      | down hm _ => cases hm
  · rintro ⟨n, rfl, hm⟩
    exact .stop hm

theorem path_iff {items : List PcItem} {words : List Str} : PcItem.Path items words ↔
    ∃ n cs, PcItem.mk n cs ∈ items ∧ (words = [n] ∨ ∃ ws, words = n :: ws ∧ PcItem.Path cs ws) := by
  constructor
  · intro h
    cases h with
    | stop hm => exact ⟨_, _, hm, .inl rfl⟩
    | down hm hp => exact ⟨_, _, hm, .inr ⟨_, rfl, hp⟩⟩
  · rintro ⟨n, cs, hm, rfl | ⟨ws, rfl, hp⟩⟩
    · exact .stop hm
    · exact .down hm hp

theorem blank_white {c : Char} (h : Blank c) : WhiteSpace c := by
  rw [← isSpace_iff]
  rcases h with rfl | rfl | rfl | rfl | rfl <;> rfl

/-- `.name` followed by a blank, and by an argument that can be typed and a blank. -/
theorem trim_completed (a : Str) (h1 : ∀ c ∈ a.head?, ¬ WhiteSpace c) (h2 : ∀ c ∈ a.getLast?, ¬ WhiteSpace c) :
    trimSpace (a ++ chars!" ") = a :=
  trimSpace_unique ⟨[], chars!" ", rfl, by simp, by
    intro c hc
    rw [List.mem_singleton] at hc
    subst hc
    exact blank_white (.inr (.inr (.inr (.inr rfl)))), h1, h2⟩

theorem dot_not_white : ¬ WhiteSpace '.' := by rw [← isSpace_iff]; decide

theorem name_last (h : Handler) : ∀ c ∈ (chars!"." ++ h.commandName).getLast?, ¬ WhiteSpace c := by
  intro c hc
  rw [← isSpace_iff]
  cases h <;> (simp [Handler.commandName] at hc; subst hc; decide)

/-- **C87.** What can be completed: the nine commands, the two kinds of feeder after
`.set-die-feeder`, and the game ids after `.set-game`; nothing else. -/
theorem C87_candidates (ids : List Str) (words : List Str) :
    PcItem.Path (replCompleter ids) words ↔
      (∃ h : Handler, words = [chars!"." ++ h.commandName]) ∨
      words = [chars!".set-die-feeder", chars!"mt"] ∨ words = [chars!".set-die-feeder", chars!"queue"] ∨
      ∃ id ∈ ids, words = [chars!".set-game", id] := by
  have hg : ∀ ws, PcItem.Path (ids.map fun id => .mk id []) ws ↔ ∃ id ∈ ids, ws = [id] := by
    intro ws
    rw [path_leaves (by
      intro n cs h
      obtain ⟨id, -, h⟩ := List.mem_map.1 h
      cases h; rfl)]
    constructor
    · rintro ⟨n, rfl, h⟩
      obtain ⟨id, h1, h⟩ := List.mem_map.1 h
      cases h
      exact ⟨_, h1, rfl⟩
    · rintro ⟨id, h1, rfl⟩
      exact ⟨id, rfl, List.mem_map.2 ⟨id, h1, rfl⟩⟩
  have hf : ∀ ws, PcItem.Path [.mk chars!"mt" [], .mk chars!"queue" []] ws ↔
      ws = [chars!"mt"] ∨ ws = [chars!"queue"] := by
    intro ws
    rw [path_leaves (by
      intro n cs h
      simp only [List.mem_cons, PcItem.mk.injEq, List.not_mem_nil, or_false] at h
      rcases h with h | h <;> exact h.2)]
    simp only [List.mem_cons, PcItem.mk.injEq, List.not_mem_nil, or_false, and_true]
    constructor
    · rintro ⟨n, rfl, rfl | rfl⟩
      · exact .inl rfl
      · exact .inr rfl
    · rintro (rfl | rfl)
      · exact ⟨_, rfl, .inl rfl⟩
      · exact ⟨_, rfl, .inr rfl⟩
  have hn : ∀ ws, ¬ PcItem.Path [] ws := by
    intro ws h
    cases h with
    | stop hm => cases hm
    | down hm _ => cases hm
  rw [path_iff]
  constructor
  · rintro ⟨n, cs, hm, hw⟩
    unfold replCompleter at hm
    obtain ⟨c, hc, heq⟩ := List.mem_map.1 hm
    injection heq with h1 h2
    subst h1 h2
    have hname : ∃ h : Handler, c = h.cmd := by
      have : ∀ c ∈ replCommands, ∃ h : Handler, c = h.cmd := by
        intro c hc
        simp only [replCommands, List.mem_cons, List.not_mem_nil, or_false] at hc
        rcases hc with rfl | rfl | rfl | rfl | rfl | rfl | rfl | rfl | rfl
        · exact ⟨.ast, rfl⟩
        · exact ⟨.eval, rfl⟩
        · exact ⟨.roll, rfl⟩
        · exact ⟨.setGame, rfl⟩
        · exact ⟨.listGames, rfl⟩
        · exact ⟨.setDieFeeder, rfl⟩
        · exact ⟨.setDiceQueue, rfl⟩
        · exact ⟨.help, rfl⟩
        · exact ⟨.quit, rfl⟩
      exact this c hc
    obtain ⟨h, rfl⟩ := hname
    have hnm : h.cmd.name = h.commandName := by cases h <;> rfl
    rcases hw with rfl | ⟨ws, rfl, hp⟩
    · exact .inl ⟨h, by rw [hnm]⟩
    · cases h with
      | setDieFeeder =>
        rcases (hf ws).1 hp with rfl | rfl
        · exact .inr (.inl rfl)
        · exact .inr (.inr (.inl rfl))
      | setGame =>
        obtain ⟨id, h1, rfl⟩ := (hg ws).1 hp
        exact .inr (.inr (.inr ⟨id, h1, rfl⟩))
      | _ => exact absurd hp (hn ws)
  · have hmem : ∀ h : Handler, PcItem.mk (chars!"." ++ h.commandName) (completersOf ids h.cmd) ∈ replCompleter ids := by
      intro h
      refine List.mem_map.2 ⟨h.cmd, ?_, ?_⟩
      · cases h <;> decide
      · cases h <;> rfl
    rintro (⟨h, rfl⟩ | rfl | rfl | ⟨id, h1, rfl⟩)
    · exact ⟨_, _, hmem h, .inl rfl⟩
    · exact ⟨_, _, hmem .setDieFeeder, .inr ⟨_, rfl, (hf _).2 (.inl rfl)⟩⟩
    · exact ⟨_, _, hmem .setDieFeeder, .inr ⟨_, rfl, (hf _).2 (.inr rfl)⟩⟩
    · exact ⟨_, _, hmem .setGame, .inr ⟨_, rfl, (hg _).2 ⟨id, h1, rfl⟩⟩⟩

/-- **C87.** The commands are offered in the order in which `.help` describes them. -/
theorem C87_order (ids : List Str) : (replCompleter ids).map PcItem.name =
    [chars!".ast", chars!".eval", chars!".roll", chars!".set-game", chars!".list-games",
      chars!".set-die-feeder", chars!".set-dice-queue", chars!".help", chars!".quit"] := rfl

/-- **C87.** A completed command name, entered, asks for that command without argument. -/
theorem C87_command (h : Handler) (ev : ReadEvent ρ) (he : ev.err ≠ some .interrupt)
    (hl : ev.line = completedLine [chars!"." ++ h.commandName]) : Asks ev (.command h []) := by
  have hline : trimSpace ev.line = chars!"." ++ h.commandName := by
    rw [hl]
    show trimSpace ((chars!"." ++ h.commandName ++ chars!" ") ++ []) = _
    rw [List.append_nil]
    exact trim_completed _ (by intro c hc; cases hc; exact dot_not_white) (name_last h)
  exact .command h [] he (.bare [] (by rw [hline]; simp) rfl (by simp))

/-- The argument of a completed line with two words. -/
theorem completed_argument (h : Handler) (arg : Str) (ha : Typeable arg) (ev : ReadEvent ρ)
    (he : ev.err ≠ some .interrupt) (hl : ev.line = completedLine [chars!"." ++ h.commandName, arg]) :
    Asks ev (.command h arg) := by
  obtain ⟨hne, h1, h2, -⟩ := ha
  have hline : trimSpace ev.line = '.' :: (h.commandName ++ chars!" " ++ arg) := by
    rw [hl]
    have : completedLine [chars!"." ++ h.commandName, arg] =
        ('.' :: (h.commandName ++ chars!" " ++ arg)) ++ chars!" " := by
      simp [completedLine]
    rw [this]
    refine trim_completed _ (by intro c hc; cases hc; exact dot_not_white) ?_
    intro c hc
    refine h2 c ?_
    cases hr : arg.getLast? with
    | none => exact absurd (List.getLast?_eq_none_iff.1 hr) hne
    | some d =>
      have : ('.' :: (h.commandName ++ chars!" " ++ arg)).getLast? = some d := by
        rw [show ('.' :: (h.commandName ++ chars!" " ++ arg)) = ('.' :: (h.commandName ++ chars!" ")) ++ arg by simp,
          List.getLast?_append, hr]
        rfl
      rw [this] at hc
      exact hc
  refine .command h arg he (.blanks chars!" " hline (by simp) ?_ ?_)
  · intro c hc
    rw [List.mem_singleton] at hc
    subst hc
    exact .inr (.inr (.inr (.inr rfl)))
  · exact fun c hc hb => h1 c hc (blank_white hb)

/-- **C87.** Both completions of `.set-die-feeder` are accepted: a fresh generator or an empty queue is
in use afterwards. -/
theorem C87_set_die_feeder (env : ReplEnv ρ) (r : ReplState ρ) (ev : ReadEvent ρ) (hok : ev.Ok)
    (he : ev.err ≠ some .interrupt) (kind : Str) (x : FeederObj ρ)
    (hx : kind = chars!"mt" ∧ x = .mt ev.seed ∨ kind = chars!"queue" ∧ x = .queue [])
    (hl : ev.line = completedLine [chars!".set-die-feeder", kind]) :
    ∃ r', replStep env r ev = (.running, r') ∧ r'.feeder = some x ∧ r'.OneFeeder ∧
      r'.out = r.out ++ chars!"\x1b[36mOK\x1b[0m\n" := by
  have ht : Typeable kind := by
    have : ∀ s : Str, s = chars!"mt" ∨ s = chars!"queue" → Typeable s := by
      rintro s (rfl | rfl) <;> refine ⟨by simp, ?_, ?_, by simp⟩ <;>
        (intro c hc; simp at hc; subst hc; rw [← isSpace_iff]; decide)
    exact this kind (hx.imp And.left And.left)
  have ha := completed_argument .setDieFeeder kind ht ev he hl
  have h := (C63_set_die_feeder env r ev hok kind ha).1 x (by
    rcases hx with ⟨rfl, rfl⟩ | ⟨rfl, rfl⟩
    · exact .inr ⟨by decide, rfl⟩
    · exact .inl ⟨by decide, rfl⟩)
  refine ⟨_, h, ?_, ?_, rfl⟩
  · show (r.heap ++ [x])[r.heap.length]? = some x
    simp
  · exact ⟨by simp, rfl, rfl, rfl⟩

/-- **C87.** Every completion of `.set-game` that can be typed is accepted, and puts the bot registered
under that id in use; and these are the ids `.list-games` prints. -/
theorem C87_set_game (env : ReplEnv ρ) (ids : List Str)
    (hids : AvailableGameIDs env.usage env.reg true ids) (r : ReplState ρ) (ev : ReadEvent ρ) (hok : ev.Ok)
    (he : ev.err ≠ some .interrupt) (id : Str) (hid : id ∈ ids) (ht : Typeable id)
    (hl : ev.line = completedLine [chars!".set-game", id]) :
    ∃ b, findBot env.usage env.reg id = .ok b ∧
      replStep env r ev = (.running, { r with bcDice := { r.bcDice with bot := b },
                                              out := r.out ++ chars!"\x1b[36mOK\x1b[0m\n" }) := by
  obtain ⟨b, hb⟩ := (C49_listed_iff_found env.usage env.reg ids hids id).1.1 hid
  exact ⟨b, hb, (C63_set_game env r ev hok id ht.1 (completed_argument .setGame id ht ev he hl)).1 b hb⟩

/-- **C87.** `.list-games` prints the completions of `.set-game`, in the same order. -/
theorem C87_list_games (env : ReplEnv ρ) (ids : List Str)
    (hids : AvailableGameIDs env.usage env.reg true ids)
    (hlist : AvailableGameIDs env.usage env.reg true env.gameIDs) (r : ReplState ρ) (ev : ReadEvent ρ)
    (hok : ev.Ok) (he : ev.err ≠ some .interrupt) (hl : ev.line = completedLine [chars!".list-games"]) :
    replStep env r ev = (.running, { r with out := r.out ++ (ids.map fun id => id ++ chars!"\n").flatten }) := by
  rw [C63_list_games env r ev hok [] (C87_command .listGames ev he hl),
    C49_deterministic env.usage env.reg true _ _ hlist hids]

/-- **C87.** An id that cannot be typed is of no use: with a registered bot whose id begins with a
blank, its completion is refused. -/
theorem C87_blank_id_refused (env : ReplEnv ρ) (r : ReplState ρ) (seed : ρ)
    (b : DiceBot (FeederHeap ρ)) (_hb : findBot env.usage env.reg chars!" x" = .ok b)
    (hx : ∀ b, findBot env.usage env.reg chars!"x" ≠ .ok b) :
    replStep env r ⟨completedLine [chars!".set-game", chars!" x"], none, seed⟩ =
      (.running, { r with out := r.out ++ chars!"\x1b[31munknown game system: " ++ chars!"x" ++ chars!"\x1b[0m\n" }) := by
  refine (C63_set_game env r _ ⟨?_, ?_⟩ chars!"x" (by simp) ?_).2 hx
  · show '\n' ∉ completedLine [chars!".set-game", chars!" x"]
    decide
  · show (completedLine [chars!".set-game", chars!" x"]).length < _
    decide
  · refine .command .setGame chars!"x" (by simp) (.blanks chars!"  " (show trimSpace (completedLine [chars!".set-game", chars!" x"]) = _ by decide) (by simp) ?_ ?_)
    · intro c hc
      simp at hc
      subst hc
      exact .inr (.inr (.inr (.inr rfl)))
    · intro c hc
      simp at hc
      subst hc
      simp [Blank]

/-- The completions of `.set-game` in the repository, and an id with a blank inside. -/
example : PcItem.Path (replCompleter [chars!"DiceBot"]) [chars!".set-game", chars!"DiceBot"] ∧
    Typeable chars!"DiceBot" ∧ Typeable chars!"Sword World" := by
  refine ⟨(C87_candidates _ _).2 (.inr (.inr (.inr ⟨_, List.mem_singleton.2 rfl, rfl⟩))), ?_, ?_⟩ <;>
    refine ⟨by simp, ?_, ?_, by simp⟩ <;> (intro c hc; simp at hc; subst hc; rw [← isSpace_iff]; decide)

end GoBCDice
