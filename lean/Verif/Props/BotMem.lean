import Verif.Spec.BotMem
import Verif.Props.Parser

/-!
# The information of game systems is shared (C104)
-/

namespace GoBCDice

variable {σ : Type}

/-! ## The name is only a name -/

/-- `m` is `m'` with results under the name `g`. -/
def Renames (g : Str) (m m' : M σ Result) : Prop := ∀ s, m s = underName g (m' s)

theorem Renames.bind {α : Type} {g : Str} {m : M σ α} {k k' : α → M σ Result} (h : ∀ a, Renames g (k a) (k' a)) :
    Renames g (m >>= k) (m >>= k') := by
  intro s
  show M.bnd m k s = underName g (M.bnd m k' s)
  unfold M.bnd
  rcases m s with ⟨o, s'⟩
  cases o with
  | ok a => exact h a s'
  | err e => rfl
  | panic e => rfl

theorem Renames.pure {g : Str} {r r' : Result} (h : r = { r' with gameID := g }) :
    Renames (σ := σ) g (Pure.pure r) (Pure.pure r') := by
  intro s
  show (Out.ok r, s) = _
  rw [h]; rfl

theorem execute_renames (E : Evaluator σ) (g g' : Str) (node : Node) :
    Renames g (E.execute g node) (E.execute g' node) := by
  cases node <;>
    simp only [Evaluator.execute, Evaluator.executeCalc, Evaluator.executeChoice, Evaluator.executeDRollExpr,
      Evaluator.executeDRollComp, Evaluator.executeBRollList, Evaluator.executeBRollComp, Evaluator.executeRRollList,
      Evaluator.executeRRollComp, Evaluator.executeURollExpr, Evaluator.executeURollComp] <;>
    repeat first
      | exact Renames.pure rfl
      | refine Renames.bind fun _ => ?_
      | split

theorem runFresh_renames {g g' : Str} (F : DieFeeder σ) (node : Node) (f : σ) :
    runFresh ((newEvaluator F).execute g node) f = underName g (runFresh ((newEvaluator F).execute g' node) f) := by
  unfold runFresh
  rw [execute_renames (newEvaluator F) g g' node ⟨f, []⟩]
  rfl

/-! ## Memory -/

/-- `ExecuteBasicCommand` with information in memory. -/
theorem executeBasic_some (F : DieFeeder σ) {w : BotMem σ} {p : Nat} {i : BotInfo} (h : w.infos[p]? = some i) (c : Str)
    (f : σ) : w.executeBasic F (some p) c f = executeBasicCommand F i.gameID c f := by
  unfold BotMem.executeBasic executeBasicCommand
  cases parse c with
  | none => rfl
  | some node => simp [h]

theorem executeBasicCommand_renames (F : DieFeeder σ) (g g' c : Str) (f : σ) :
    executeBasicCommand F g c f = underName g (executeBasicCommand F g' c f) := by
  unfold executeBasicCommand
  cases parse c with
  | none => rfl
  | some node => exact runFresh_renames F node f

/-- A dice bot whose information is there answers as the basic one, under the name found there. -/
theorem execute_named (F : DieFeeder σ) (usage : Str) {w : BotMem σ} {m p : Nat} {i : BotInfo}
    (hm : w.impls[m]? = some (some p)) (hp : w.infos[p]? = some i) (input : Str) (f : σ) :
    w.execute F (some m) input f = underName i.gameID (executeCommand F (basicBot usage) input f) := by
  unfold BotMem.execute executeCommand
  simp only [Option.bind_some, hm, executeBasic_some F hp, executeDiceBotCommand, basicBot, runFresh, M.fail]
  rw [executeBasicCommand_renames F i.gameID (basicInfo usage).gameID]
  rcases executeBasicCommand F (basicInfo usage).gameID (checkSecret input).1 f with ⟨o, f2⟩
  cases o with
  | ok r => rfl
  | panic e => rfl
  | err e =>
    dsimp only [underName, Out.map]
    rw [executeBasicCommand_renames F i.gameID (basicInfo usage).gameID]
    rcases executeBasicCommand F (basicInfo usage).gameID (firstPart (checkSecret input).1) f2 with ⟨o, f3⟩
    cases o <;> rfl

theorem execute_basic (F : DieFeeder σ) (usage : Str) {w : BotMem σ} {m p : Nat}
    (hm : w.impls[m]? = some (some p)) (hp : w.infos[p]? = some (basicInfo usage)) (input : Str) (f : σ) :
    w.execute F (some m) input f = executeCommand F (basicBot usage) input f := by
  unfold BotMem.execute executeCommand
  simp only [Option.bind_some, hm, executeBasic_some F hp, executeDiceBotCommand, basicBot, runFresh, M.fail]
  rfl

/-- Numbers in memory are numbers of something. -/
structure BotMem.WF (w : BotMem σ) : Prop where
  info : 0 < w.infos.length
  impls : ∀ p, some p ∈ w.impls → p < w.infos.length
  dice : ∀ o ∈ w.bots, ∀ m, o.diceBot = some m → m < w.impls.length
  feeders : ∀ o ∈ w.bots, o.feeder < w.feeders.length

theorem BotMem.WF.start (usage : Str) : (BotMem.start σ usage).WF :=
  ⟨by simp [BotMem.start], by simp [BotMem.start], by simp [BotMem.start], by simp [BotMem.start]⟩

theorem mem_modify {α : Type} {l : List α} {i : Nat} {g : α → α} {a : α} (h : a ∈ l.modify i g) :
    a ∈ l ∨ ∃ b ∈ l, a = g b := by
  obtain ⟨j, hj⟩ := List.mem_iff_getElem?.1 h
  rw [List.getElem?_modify] at hj
  cases hl : l[j]? with
  | none => simp [hl] at hj
  | some b =>
    rw [hl] at hj
    have hb := List.mem_of_getElem? hl
    by_cases e : i = j
    · simp [e] at hj; exact .inr ⟨b, hb, hj.symm⟩
    · simp [e] at hj; exact .inl (hj ▸ hb)

theorem BotMem.WF.select {w : BotMem σ} (h : w.WF) (b : Nat) (id : Str) : (w.select b id).1.WF := by
  unfold BotMem.select BotMem.find
  split
  · rename_i w' m he
    split at he
    · simp only [BotMem.basicNew, Prod.mk.injEq, Except.ok.injEq] at he
      obtain ⟨rfl, rfl⟩ := he
      refine ⟨h.info, ?_, ?_, ?_⟩
      · intro p hp
        rcases List.mem_append.1 hp with hp | hp
        · exact h.impls p hp
        · simp at hp; subst hp; exact h.info
      · intro o ho m hm
        rcases mem_modify ho with ho | ⟨o', ho', rfl⟩
        · have := h.dice o ho m hm; simp; omega
        · simp at hm; simp [← hm]
      · intro o ho
        rcases mem_modify ho with ho | ⟨o', ho', rfl⟩
        · exact h.feeders o ho
        · exact h.feeders o' ho'
    · simp at he
  · rename_i w' e he
    split at he
    · simp at he
    · simp only [Prod.mk.injEq] at he
      rw [← he.1]; exact h

theorem BotMem.WF.step {F : DieFeeder σ} {w : BotMem σ} (h : w.WF) (op : BotOp σ) : (w.step F op).WF := by
  cases op with
  | feeder f => exact ⟨h.info, h.impls, h.dice, fun o ho => by have := h.feeders o ho; simp [BotMem.step]; omega⟩
  | newBot f =>
    simp only [BotMem.step]
    split
    · rename_i hf
      refine BotMem.WF.select (w := { w with bots := w.bots ++ [⟨none, f⟩] }) ⟨h.info, h.impls, ?_, ?_⟩ _ _
      · intro o ho m hm
        rcases List.mem_append.1 ho with ho | ho
        · exact h.dice o ho m hm
        · simp at ho; subst ho; cases hm
      · intro o ho
        rcases List.mem_append.1 ho with ho | ho
        · exact h.feeders o ho
        · simp at ho; subst ho; exact hf
    · exact h
  | select b id => exact h.select b id
  | setFeeder b f =>
    simp only [BotMem.step]
    split
    · rename_i hf
      refine ⟨h.info, h.impls, ?_, ?_⟩
      · intro o ho m hm
        rcases mem_modify ho with ho | ⟨o', ho', rfl⟩
        · exact h.dice o ho m hm
        · exact h.dice o' ho' m hm
      · intro o ho
        rcases mem_modify ho with ho | ⟨o', ho', rfl⟩
        · exact h.feeders o ho
        · exact hf
    · exact h
  | execute b input =>
    simp only [BotMem.step]
    split
    · exact ⟨h.info, h.impls, h.dice, fun o ho => by simpa using h.feeders o ho⟩
    · exact h
  | basicNew =>
    refine ⟨h.info, ?_, ?_, h.feeders⟩
    · intro p hp
      rcases List.mem_append.1 hp with hp | hp
      · exact h.impls p hp
      · simp at hp; subst hp; exact h.info
    · intro o ho m hm
      have := h.dice o ho m hm; simp [BotMem.step, BotMem.basicNew]; omega
  | newInfo i =>
    exact ⟨by simp [BotMem.step], fun p hp => by have := h.impls p hp; simp [BotMem.step]; omega, h.dice, h.feeders⟩
  | newImpl p =>
    simp only [BotMem.step]
    split
    · rename_i hp
      refine ⟨h.info, ?_, ?_, h.feeders⟩
      · intro q hq
        rcases List.mem_append.1 hq with hq | hq
        · exact h.impls q hq
        · simp at hq; subst hq; simpa [existsOrNil] using hp
      · intro o ho m hm
        have := h.dice o ho m hm; simp; omega
    · exact h
  | writeInfo p i => exact ⟨by simpa [BotMem.step] using h.info, fun q hq => by simpa [BotMem.step] using h.impls q hq,
      h.dice, h.feeders⟩
  | pointTo m p =>
    simp only [BotMem.step]
    split
    · rename_i hp
      refine ⟨h.info, ?_, fun o ho m hm => by simpa using h.dice o ho m hm, h.feeders⟩
      intro q hq
      rcases List.mem_or_eq_of_mem_set hq with hq | hq
      · exact h.impls q hq
      · subst hq; simpa [existsOrNil] using hp
    · exact h
  | assign b m =>
    simp only [BotMem.step]
    split
    · rename_i hm
      refine ⟨h.info, h.impls, ?_, ?_⟩
      · intro o ho m' hm'
        rcases mem_modify ho with ho | ⟨o', ho', rfl⟩
        · exact h.dice o ho m' hm'
        · simp at hm'; subst hm'; simpa [existsOrNil] using hm
      · intro o ho
        rcases mem_modify ho with ho | ⟨o', ho', rfl⟩
        · exact h.feeders o ho
        · exact h.feeders o' ho'
    · exact h

theorem BotMem.WF.run {F : DieFeeder σ} {w : BotMem σ} (h : w.WF) (ops : List (BotOp σ)) : (w.run F ops).WF := by
  induction ops generalizing w with
  | nil => exact h
  | cons op ops ih => exact ih (h.step op)

/-! ## C104 -/

/-- **C104.** The answers of a `BCDice` after any history.  Without a dice bot it panics on every input.  If its dice
bot has information, it answers as the basic dice bot does, under the name now found there, wherever that is.  If its
dice bot has no information, it panics exactly on the texts that are commands or begin with one, before dice are rolled,
and reports the syntax error of the others. -/
theorem C104_answer (F : DieFeeder σ) (usage : Str) (history : List (BotOp σ)) (b : Nat) (o : BCObj) :
    let w := (BotMem.start σ usage).run F history
    w.bots[b]? = some o →
    ∃ f, w.feeders[o.feeder]? = some f ∧
      ((o.diceBot = none ∧ ∀ input, w.answer F b input = some (.panic Raw.nilDereference, f)) ∨
       (∃ p i, w.Uses b p ∧ w.infos[p]? = some i ∧ ∀ input,
          w.answer F b input = some (underName i.gameID (executeCommand F (basicBot usage) input f))) ∨
       (∃ m, o.diceBot = some m ∧ w.impls[m]? = some none ∧ ∀ input,
          ((∃ node, CommandText (checkSecret input).1 node ∨ CommandText (firstPart (checkSecret input).1) node) →
            w.answer F b input = some (.panic Raw.nilDereference, f)) ∧
          ((∀ node, ¬ CommandText (checkSecret input).1 node ∧ ¬ CommandText (firstPart (checkSecret input).1) node) →
            w.answer F b input = some (executeCommand F (basicBot usage) input f)))) := by
  intro w hb
  have hw : w.WF := (BotMem.WF.start usage).run history
  have hm := List.mem_of_getElem? hb
  refine ⟨w.feeders[o.feeder]'(hw.feeders o hm), by simp, ?_⟩
  have ha : ∀ input, w.answer F b input =
      some (w.execute F o.diceBot input (w.feeders[o.feeder]'(hw.feeders o hm))) := by
    intro input
    simp [BotMem.answer, hb, hw.feeders o hm]
  cases hd : o.diceBot with
  | none => left; exact ⟨rfl, fun input => by rw [ha, hd]; rfl⟩
  | some m =>
    right
    have hlt := hw.dice o hm m hd
    cases hi : w.impls[m]'hlt with
    | some p =>
      left
      have hi' : w.impls[m]? = some (some p) := by rw [List.getElem?_eq_getElem hlt, hi]
      have hp := hw.impls p (List.mem_of_getElem? hi')
      refine ⟨p, w.infos[p]'hp, ⟨o, m, hb, hd, hi'⟩, by simp, fun input => ?_⟩
      rw [ha, hd, execute_named F usage hi' (List.getElem?_eq_getElem hp)]
    | none =>
      right
      have hi' : w.impls[m]? = some none := by rw [List.getElem?_eq_getElem hlt, hi]
      refine ⟨m, rfl, hi', fun input => ⟨?_, ?_⟩⟩
      · rintro ⟨node, hn⟩
        rw [ha, hd]
        simp only [BotMem.execute, Option.bind_some, hi', BotMem.executeBasic]
        cases h1 : parse (checkSecret input).1 with
        | some n => rfl
        | none =>
          cases h2 : parse (firstPart (checkSecret input).1) with
          | some n => rfl
          | none =>
            rcases hn with hn | hn
            · rw [(C27_language _ _).mpr hn] at h1; cases h1
            · rw [(C27_language _ _).mpr hn] at h2; cases h2
      · intro hn
        have h1 : parse (checkSecret input).1 = none := by
          cases h : parse (checkSecret input).1 with
          | none => rfl
          | some n => exact absurd ((C27_language _ _).mp h) (hn n).1
        have h2 : parse (firstPart (checkSecret input).1) = none := by
          cases h : parse (firstPart (checkSecret input).1) with
          | none => rfl
          | some n => exact absurd ((C27_language _ _).mp h) (hn n).2
        rw [ha, hd]
        simp [BotMem.execute, hi', BotMem.executeBasic, h1, h2, executeCommand, executeBasicCommand,
          executeDiceBotCommand, basicBot, runFresh, M.fail]

theorem underName_underName (g g' : Str) (a : Out Result × σ) : underName g (underName g' a) = underName g a := by
  rcases a with ⟨o, f⟩
  cases o <;> rfl

/-- The answer of a `BCDice` depends on what its own dice bot points to only. -/
theorem answer_congr (F : DieFeeder σ) {w w' : BotMem σ} {b m p : Nat} {o : BCObj} (ho : w.bots[b]? = some o)
    (ho' : w'.bots[b]? = some o) (hm : o.diceBot = some m) (h : w.impls[m]? = some (some p))
    (h' : w'.impls[m]? = some (some p)) (hi : w'.infos[p]? = w.infos[p]?) (hf : w'.feeders = w.feeders) (input : Str) :
    w'.answer F b input = w.answer F b input := by
  simp only [BotMem.answer, ho, ho', hf, hm, BotMem.execute, Option.bind_some, h, h', BotMem.executeBasic, hi]

/-- **C104.** Writing to information that several dice bots point to shows in the answers of each of them, whenever they
were made: they are what they were, under the new name.  The answers of the others stay. -/
theorem C104_shared (F : DieFeeder σ) (usage : Str) (history : List (BotOp σ)) (q : Nat) (i : BotInfo) (b p : Nat) :
    let w := (BotMem.start σ usage).run F history
    w.Uses b p → ∀ input,
      (w.step F (.writeInfo q i)).answer F b input =
        if p = q then (w.answer F b input).map (underName i.gameID) else w.answer F b input := by
  intro w hu input
  have hw : w.WF := (BotMem.WF.start usage).run history
  obtain ⟨o, m, ho, hm, hi⟩ := hu
  have hp := hw.impls p (List.mem_of_getElem? hi)
  have hf := hw.feeders o (List.mem_of_getElem? ho)
  split
  · subst p
    have h' : (w.step F (.writeInfo q i)).infos[q]? = some i := by simp [BotMem.step, hp]
    have h1 := execute_named F usage (w := w.step F (.writeInfo q i)) (m := m) hi h' input (w.feeders[o.feeder]'hf)
    have h2 := execute_named F usage (w := w) hi (List.getElem?_eq_getElem hp) input (w.feeders[o.feeder]'hf)
    have e1 : (w.step F (.writeInfo q i)).answer F b input =
        some ((w.step F (.writeInfo q i)).execute F (some m) input (w.feeders[o.feeder]'hf)) := by
      simp only [BotMem.answer]
      rw [show (w.step F (.writeInfo q i)).bots = w.bots from rfl, ho]
      simp only [show (w.step F (.writeInfo q i)).feeders = w.feeders from rfl, List.getElem?_eq_getElem hf, hm]
    have e2 : w.answer F b input = some (w.execute F (some m) input (w.feeders[o.feeder]'hf)) := by
      simp only [BotMem.answer, ho, List.getElem?_eq_getElem hf, hm]
    rw [e1, e2, h1, h2]
    simp [underName_underName]
  · rename_i hne
    have h' : (w.step F (.writeInfo q i)).infos[p]? = w.infos[p]? := List.getElem?_set_ne (Ne.symm hne)
    exact answer_congr F (w' := w.step F (.writeInfo q i)) ho ho hm hi hi h' rfl input

/-- **C104.** After any history, `SetDiceBotByGameID` accepts exactly the name now found in the information of the basic
game system.  Then the `BCDice` uses this information, through a dice bot nobody else has; otherwise nothing is
changed. -/
theorem C104_select (F : DieFeeder σ) (usage : Str) (history : List (BotOp σ)) (b : Nat) (o : BCObj) (id : Str) :
    let w := (BotMem.start σ usage).run F history
    w.bots[b]? = some o →
    ∃ i, w.infos[0]? = some i ∧
      (id = i.gameID → (w.select b id).2 = none ∧ (w.select b id).1.Uses b 0 ∧
        (∃ o' m, (w.select b id).1.bots[b]? = some o' ∧ o'.diceBot = some m ∧ o'.feeder = o.feeder ∧
          ∀ c p, c ≠ b → (w.select b id).1.bots[c]? = some p → p.diceBot ≠ some m) ∧
        ∀ c, c ≠ b → ∀ input, (w.select b id).1.answer F c input = w.answer F c input) ∧
      (id ≠ i.gameID → w.select b id = (w, some (chars!"unknown game system: " ++ id))) := by
  intro w hb
  have hw : w.WF := (BotMem.WF.start usage).run history
  refine ⟨w.infos[0]'hw.info, by simp, ?_, ?_⟩
  · rintro rfl
    have e : w.select b (w.infos[0]'hw.info).gameID =
        ({ w with impls := w.impls ++ [some 0],
                  bots := w.bots.modify b fun o => { o with diceBot := some w.impls.length } }, none) := by
      simp [BotMem.select, BotMem.find, BotMem.basicNew, hw.info]
    rw [e]
    refine ⟨rfl, ⟨{ o with diceBot := some w.impls.length }, w.impls.length, by simp [hb], rfl,
      by simp⟩, ⟨{ o with diceBot := some w.impls.length }, w.impls.length, by simp [hb], rfl, rfl, ?_⟩, ?_⟩
    · intro c p hc hp hm
      simp [Ne.symm hc] at hp
      have := hw.dice p (List.mem_of_getElem? hp) _ hm
      omega
    · intro c hc input
      unfold BotMem.answer
      simp only [List.getElem?_modify, if_neg (Ne.symm hc)]
      cases ho : w.bots[c]? with
      | none => rfl
      | some o' =>
        simp only [Option.map_eq_map, Option.map_some]
        cases w.feeders[o'.feeder]? with
        | none => rfl
        | some f =>
          simp only [BotMem.execute]
          cases hd : o'.diceBot with
          | none => rfl
          | some m =>
            have hlt := hw.dice o' (List.mem_of_getElem? ho) m hd
            simp only [Option.bind_some, List.getElem?_append_left hlt]
            rfl
  · intro hne
    have : ¬ (w.infos[0]'hw.info).gameID = id := fun h => hne h.symm
    simp [BotMem.select, BotMem.find, hw.info, this]

/-- **C104.** `bcdice.New` tells nobody that it found no dice bot: while the information of the basic game system has
another name than `DiceBot`, the new `BCDice` panics on every input. -/
theorem C104_lost (F : DieFeeder σ) (usage : Str) (history : List (BotOp σ)) (f : Nat) (s : σ) (i : BotInfo) :
    let w := (BotMem.start σ usage).run F history
    w.infos[0]? = some i → i.gameID ≠ chars!"DiceBot" → w.feeders[f]? = some s → ∀ input,
      (w.step F (.newBot f)).answer F w.bots.length input = some (.panic Raw.nilDereference, s) := by
  intro w hi hne hf input
  have hlt := (List.getElem?_eq_some_iff.1 hf).1
  have e : w.step F (.newBot f) = { w with bots := w.bots ++ [⟨none, f⟩] } := by
    simp [BotMem.step, hlt, BotMem.newBot, BotMem.select, BotMem.find, hi, hne]
  rw [e]
  simp [BotMem.answer, hf, BotMem.execute]

/-! ### Functions and methods only -/

/-- What holds while no field is assigned. -/
structure BotMem.Basic (usage : Str) (w : BotMem σ) : Prop where
  info : w.infos[0]? = some (basicInfo usage)
  bots : ∀ o ∈ w.bots, ∃ m, o.diceBot = some m ∧ w.impls[m]? = some (some 0)

theorem BotMem.Basic.mono {usage : Str} {w : BotMem σ} (h : w.Basic usage) (l : List (Option Nat)) :
    ∀ o ∈ w.bots, ∃ m, o.diceBot = some m ∧ (w.impls ++ l)[m]? = some (some 0) := by
  intro o ho
  obtain ⟨m, hm, hi⟩ := h.bots o ho
  exact ⟨m, hm, by rw [List.getElem?_append_left (List.getElem?_eq_some_iff.1 hi).1, hi]⟩

theorem modify_last {α : Type} (l : List α) (a : α) (g : α → α) : (l ++ [a]).modify l.length g = l ++ [g a] := by
  induction l with
  | nil => rfl
  | cons b l ih => simp [ih]

theorem BotMem.Basic.step {F : DieFeeder σ} {usage : Str} {w : BotMem σ} (h : w.Basic usage) (op : BotOp σ)
    (hop : op.proper = true) : (w.step F op).Basic usage := by
  cases op with
  | feeder f => exact ⟨h.info, h.bots⟩
  | newBot f =>
    simp only [BotMem.step]
    split
    · have e : w.newBot f = { w with impls := w.impls ++ [some 0], bots := w.bots ++ [⟨some w.impls.length, f⟩] } := by
        have h' : (basicInfo usage).gameID = chars!"DiceBot" := rfl
        simp [BotMem.newBot, BotMem.select, BotMem.find, BotMem.basicNew, h.info, h', modify_last]
      rw [e]
      refine ⟨h.info, ?_⟩
      intro o ho
      rcases List.mem_append.1 ho with ho | ho
      · exact h.mono _ o ho
      · simp at ho; subst ho; exact ⟨_, rfl, by simp⟩
    · exact h
  | select b id =>
    simp only [BotMem.step, BotMem.select, BotMem.find, h.info]
    by_cases e : (basicInfo usage).gameID = id
    · simp only [Option.map_some, e, if_true, BotMem.basicNew]
      refine ⟨h.info, ?_⟩
      intro o ho
      rcases mem_modify ho with ho | ⟨o', ho', rfl⟩
      · exact h.mono _ o ho
      · exact ⟨_, rfl, by simp⟩
    · simp only [Option.map_some, Option.some.injEq, e, if_false]; exact h
  | setFeeder b f =>
    simp only [BotMem.step]
    split
    · refine ⟨h.info, ?_⟩
      intro o ho
      rcases mem_modify ho with ho | ⟨o', ho', rfl⟩
      · exact h.bots o ho
      · exact h.bots o' ho'
    · exact h
  | execute b input =>
    simp only [BotMem.step]
    split
    · exact ⟨h.info, h.bots⟩
    · exact h
  | basicNew => exact ⟨h.info, h.mono _⟩
  | newInfo i =>
    exact ⟨by
      have := (List.getElem?_eq_some_iff.1 h.info).1
      simp only [BotMem.step]; rw [List.getElem?_append_left this]; exact h.info, h.bots⟩
  | newImpl p =>
    simp only [BotMem.step]
    split
    · exact ⟨h.info, h.mono _⟩
    · exact h
  | writeInfo p i => cases hop
  | pointTo m p => cases hop
  | assign b m => cases hop

theorem BotMem.Basic.run {F : DieFeeder σ} {usage : Str} {w : BotMem σ} (h : w.Basic usage) (ops : List (BotOp σ))
    (hops : ∀ op ∈ ops, op.proper = true) : (w.run F ops).Basic usage := by
  induction ops generalizing w with
  | nil => exact h
  | cons op ops ih =>
    exact ih (h.step op (hops op (by simp))) fun o ho => hops o (by simp [ho])

/-- **C104.** While the client goes through functions and methods, every `BCDice` answers as the basic dice bot. -/
theorem C104_proper (F : DieFeeder σ) (usage : Str) (history : List (BotOp σ)) (b : Nat) (o : BCObj) :
    let w := (BotMem.start σ usage).run F history
    (∀ op ∈ history, op.proper = true) → w.bots[b]? = some o →
    ∃ f, w.feeders[o.feeder]? = some f ∧
      ∀ input, w.answer F b input = some (executeCommand F (basicBot usage) input f) := by
  intro w hp hb
  have hw : w.WF := (BotMem.WF.start usage).run history
  have hB : w.Basic usage := BotMem.Basic.run ⟨rfl, by simp [BotMem.start]⟩ history hp
  have hm := List.mem_of_getElem? hb
  refine ⟨w.feeders[o.feeder]'(hw.feeders o hm), by simp, fun input => ?_⟩
  obtain ⟨m, hd, hi⟩ := hB.bots o hm
  simp only [BotMem.answer, hb, List.getElem?_eq_getElem (hw.feeders o hm), hd]
  rw [execute_basic F usage hi hB.info]

/-! ### Dice bots of one's own -/

/-- No two `BCDice` have the same dice bot. -/
def BotMem.Separate (w : BotMem σ) : Prop :=
  ∀ (b c : Nat) (o o' : BCObj) (m : Nat), w.bots[b]? = some o → w.bots[c]? = some o' → o.diceBot = some m → o'.diceBot = some m → b = c

theorem BotMem.Separate.select {w : BotMem σ} (hw : w.WF) (h : w.Separate) (b : Nat) (id : Str) :
    (w.select b id).1.Separate := by
  unfold BotMem.select BotMem.find
  split
  · rename_i w' m he
    split at he
    · simp only [BotMem.basicNew, Prod.mk.injEq, Except.ok.injEq] at he
      obtain ⟨rfl, rfl⟩ := he
      intro x y o o' m ho ho' hm hm'
      simp only [List.getElem?_modify] at ho ho'
      cases hx : w.bots[x]? with
      | none => simp [hx] at ho
      | some ox =>
        cases hy : w.bots[y]? with
        | none => simp [hy] at ho'
        | some oy =>
          rw [hx] at ho; rw [hy] at ho'
          by_cases e : b = x <;> by_cases e' : b = y
          · omega
          · simp [e] at ho; simp [e'] at ho'; subst ho; subst ho'
            simp at hm
            have := hw.dice oy (List.mem_of_getElem? hy) m hm'
            omega
          · simp [e] at ho; simp [e'] at ho'; subst ho; subst ho'
            simp at hm'
            have := hw.dice ox (List.mem_of_getElem? hx) m hm
            omega
          · simp [e] at ho; simp [e'] at ho'; subst ho; subst ho'
            exact h x y _ _ m hx hy hm hm'
    · simp at he
  · rename_i w' e he
    split at he
    · simp at he
    · simp only [Prod.mk.injEq] at he
      rw [← he.1]; exact h

theorem BotMem.Separate.step {F : DieFeeder σ} {w : BotMem σ} (hw : w.WF) (h : w.Separate) (op : BotOp σ)
    (hop : op.keepsDiceBots = true) : (w.step F op).Separate := by
  cases op with
  | newBot f =>
    simp only [BotMem.step]
    split
    · rename_i hf
      refine BotMem.Separate.select (w := { w with bots := w.bots ++ [⟨none, f⟩] }) ⟨hw.info, hw.impls, ?_, ?_⟩ ?_ _ _
      · intro o ho m hm
        rcases List.mem_append.1 ho with ho | ho
        · exact hw.dice o ho m hm
        · simp at ho; subst ho; cases hm
      · intro o ho
        rcases List.mem_append.1 ho with ho | ho
        · exact hw.feeders o ho
        · simp at ho; subst ho; exact hf
      · intro x y o o' m ho ho' hm hm'
        have key : ∀ {z : Nat} {q : BCObj}, (w.bots ++ [⟨none, f⟩])[z]? = some q → q.diceBot = some m →
            w.bots[z]? = some q := by
          intro z q hz hq
          by_cases hlt : z < w.bots.length
          · rwa [List.getElem?_append_left hlt] at hz
          · rw [List.getElem?_append_right (by omega)] at hz
            have := List.mem_of_getElem? hz
            simp at this; subst this; cases hq
        exact h x y o o' m (key ho hm) (key ho' hm') hm hm'
    · exact h
  | select b id => exact BotMem.Separate.select hw h b id
  | setFeeder b f =>
    simp only [BotMem.step]
    split
    · intro x y o o' m ho ho' hm hm'
      have key : ∀ {z : Nat} {q : BCObj}, (w.bots.modify b fun o => { o with feeder := f })[z]? = some q →
          q.diceBot = some m → ∃ q', w.bots[z]? = some q' ∧ q'.diceBot = some m := by
        intro z q hz hq
        rw [List.getElem?_modify] at hz
        cases hc : w.bots[z]? with
        | none => simp [hc] at hz
        | some q' =>
          rw [hc] at hz
          refine ⟨q', rfl, ?_⟩
          by_cases e : b = z <;> simp [e] at hz <;> subst hz <;> exact hq
      obtain ⟨_, h1, h2⟩ := key ho hm
      obtain ⟨_, h3, h4⟩ := key ho' hm'
      exact h x y _ _ m h1 h3 h2 h4
    · exact h
  | execute b input =>
    simp only [BotMem.step]
    split <;> exact h
  | feeder f => exact h
  | basicNew => exact h
  | newInfo i => exact h
  | newImpl p =>
    simp only [BotMem.step]
    split <;> exact h
  | writeInfo p i => exact h
  | pointTo m p =>
    simp only [BotMem.step]
    split <;> exact h
  | assign b m => cases hop

theorem BotMem.Separate.run {F : DieFeeder σ} {w : BotMem σ} (hw : w.WF) (h : w.Separate) (ops : List (BotOp σ))
    (hops : ∀ op ∈ ops, op.keepsDiceBots = true) : (w.run F ops).Separate := by
  induction ops generalizing w with
  | nil => exact h
  | cons op ops ih =>
    exact ih (hw.step op) (BotMem.Separate.step hw h op (hops op (by simp))) fun o ho => hops o (by simp [ho])

/-- **C104.** As long as nobody assigns the field `DiceBot`, every `BCDice` has a dice bot of its own: making that of one
point to other information, or to none, changes no answer of another. -/
theorem C104_separate (F : DieFeeder σ) (usage : Str) (history : List (BotOp σ)) (b c m : Nat) (o : BCObj)
    (p : Option Nat) :
    let w := (BotMem.start σ usage).run F history
    (∀ op ∈ history, op.keepsDiceBots = true) → w.bots[b]? = some o → o.diceBot = some m → c ≠ b →
    ∀ input, (w.step F (.pointTo m p)).answer F c input = w.answer F c input := by
  intro w hops hb hm hc input
  have hS : w.Separate :=
    BotMem.Separate.run (BotMem.WF.start usage) (by intro x y o o' m h; simp [BotMem.start] at h) history hops
  simp only [BotMem.step]
  split
  · unfold BotMem.answer
    dsimp only
    cases ho : w.bots[c]? with
    | none => rfl
    | some o' =>
      dsimp only
      cases w.feeders[o'.feeder]? with
      | none => rfl
      | some f =>
        simp only [BotMem.execute]
        cases hd : o'.diceBot with
        | none => rfl
        | some m' =>
          have hne : m ≠ m' := by rintro rfl; exact hc (hS c b o' o m ho hb hd hm)
          simp only [Option.bind_some, List.getElem?_set_ne hne]
          rfl
  · rfl

/-! ### Dice -/

/-- **C104.** Dice: after `SetDieFeeder` a `BCDice` answers with the dice of the feeder it was given, and the answers of
the others stay. -/
theorem C104_feeder (F : DieFeeder σ) (usage : Str) (history : List (BotOp σ)) (b f p : Nat) (s : σ) (i : BotInfo) :
    let w := (BotMem.start σ usage).run F history
    w.Uses b p → w.infos[p]? = some i → w.feeders[f]? = some s → ∀ input,
      (w.step F (.setFeeder b f)).answer F b input =
        some (underName i.gameID (executeCommand F (basicBot usage) input s)) ∧
      ∀ c, c ≠ b → (w.step F (.setFeeder b f)).answer F c input = w.answer F c input := by
  intro w hu hp hf input
  obtain ⟨o, m, ho, hm, hi⟩ := hu
  have hlt := (List.getElem?_eq_some_iff.1 hf).1
  have e : w.step F (.setFeeder b f) = { w with bots := w.bots.modify b fun o => { o with feeder := f } } := by
    simp [BotMem.step, hlt]
  rw [e]
  constructor
  · rw [← execute_named F usage hi hp input s]
    simp only [BotMem.answer, List.getElem?_modify, ho, if_true, Option.map_eq_map, Option.map_some, hf, hm]
    rfl
  · intro c hc
    unfold BotMem.answer
    simp only [List.getElem?_modify, if_neg (Ne.symm hc)]
    cases ho : w.bots[c]? with
    | none => rfl
    | some o' =>
      simp only [Option.map_eq_map, Option.map_some]
      rfl

/-- **C104.** Dice: a command uses the dice of the feeder of its `BCDice`.  A `BCDice` that shares this feeder goes on
with the dice that are left, those with other feeders answer as before. -/
theorem C104_execute (F : DieFeeder σ) (usage : Str) (history : List (BotOp σ)) (b c : Nat) (o o' : BCObj)
    (input : Str) (a : Out Result) (s : σ) :
    let w := (BotMem.start σ usage).run F history
    w.bots[b]? = some o → w.answer F b input = some (a, s) → w.bots[c]? = some o' →
      (o'.feeder ≠ o.feeder → ∀ input', (w.step F (.execute b input)).answer F c input' = w.answer F c input') ∧
      (o'.feeder = o.feeder → ∀ p i, w.Uses c p → w.infos[p]? = some i → ∀ input',
        (w.step F (.execute b input)).answer F c input' =
          some (underName i.gameID (executeCommand F (basicBot usage) input' s))) := by
  intro w hb ha hc
  have hw : w.WF := (BotMem.WF.start usage).run history
  have e : w.step F (.execute b input) = { w with feeders := w.feeders.set o.feeder s } := by
    simp [BotMem.step, hb, ha]
  rw [e]
  constructor
  · intro hne input'
    simp only [BotMem.answer, hc, List.getElem?_set_ne (Ne.symm hne)]
    cases w.feeders[o'.feeder]? with
    | none => rfl
    | some f => rfl
  · rintro he p i ⟨o2, m, ho, hm, hi⟩ hp input'
    rw [hc] at ho
    obtain rfl := Option.some.inj ho
    rw [← execute_named F usage hi hp input' s]
    have hlt := hw.feeders o (List.mem_of_getElem? hb)
    simp only [BotMem.answer, hc, he, List.getElem?_set_self hlt, hm]
    rfl

/-- **C104.** While the shared information is called `DiceBot`, `bcdice.New` gives a `BCDice` that uses it, with the dice
of the feeder it was given; the answers of the others stay. -/
theorem C104_new (F : DieFeeder σ) (usage : Str) (history : List (BotOp σ)) (f : Nat) (s : σ) (i : BotInfo) :
    let w := (BotMem.start σ usage).run F history
    w.infos[0]? = some i → i.gameID = chars!"DiceBot" → w.feeders[f]? = some s →
      (w.step F (.newBot f)).bots.length = w.bots.length + 1 ∧ (w.step F (.newBot f)).Uses w.bots.length 0 ∧
      ∀ input, (w.step F (.newBot f)).answer F w.bots.length input =
          some (executeCommand F (basicBot usage) input s) ∧
        ∀ c, c ≠ w.bots.length → (w.step F (.newBot f)).answer F c input = w.answer F c input := by
  intro w hi hn hf
  have hw : w.WF := (BotMem.WF.start usage).run history
  have hlt := (List.getElem?_eq_some_iff.1 hf).1
  have e : w.step F (.newBot f) =
      { w with impls := w.impls ++ [some 0], bots := w.bots ++ [⟨some w.impls.length, f⟩] } := by
    simp [BotMem.step, hlt, BotMem.newBot, BotMem.select, BotMem.find, BotMem.basicNew, hi, hn, modify_last]
  rw [e]
  refine ⟨by simp, ⟨⟨some w.impls.length, f⟩, w.impls.length, by simp, rfl, by simp⟩, fun input => ⟨?_, ?_⟩⟩
  · have h1 : (w.impls ++ [some 0])[w.impls.length]? = some (some 0) := by simp
    have h2 := execute_named F usage
      (w := { w with impls := w.impls ++ [some 0], bots := w.bots ++ [⟨some w.impls.length, f⟩] }) h1 hi input s
    have h3 : underName i.gameID (executeCommand F (basicBot usage) input s) =
        executeCommand F (basicBot usage) input s := by
      have h4 := execute_named (σ := σ) F usage (w := ⟨[basicInfo usage], [some 0], [], []⟩) (m := 0) (p := 0) rfl rfl
        input s
      have h5 := execute_basic (σ := σ) F usage (w := ⟨[basicInfo usage], [some 0], [], []⟩) (m := 0) (p := 0) rfl rfl
        input s
      rw [h5] at h4
      rw [hn]; exact h4.symm
    rw [← h3, ← h2]
    simp [BotMem.answer, hf]
  · intro c hc
    unfold BotMem.answer
    dsimp only
    by_cases hcl : c < w.bots.length
    · rw [List.getElem?_append_left hcl]
      cases ho : w.bots[c]? with
      | none => rfl
      | some o' =>
        dsimp only
        cases w.feeders[o'.feeder]? with
        | none => rfl
        | some g =>
          simp only [BotMem.execute]
          cases hd : o'.diceBot with
          | none => rfl
          | some m =>
            have hlt := hw.dice o' (List.mem_of_getElem? ho) m hd
            simp only [Option.bind_some, List.getElem?_append_left hlt]
            rfl
    · have h1 : (w.bots ++ [(⟨some w.impls.length, f⟩ : BCObj)])[c]? = none := by
        rw [List.getElem?_eq_none_iff]; simp; omega
      have h2 : w.bots[c]? = none := by rw [List.getElem?_eq_none_iff]; omega
      rw [h1, h2]

/-! ### An example -/

/-- Two bots, then the information of the basic game system is renamed, then a third bot. -/
def renameHistory : List (BotOp (List Die)) :=
  [.feeder [⟨3, 6⟩], .feeder [⟨4, 6⟩], .newBot 0, .newBot 1, .newInfo ⟨chars!"Own", [], [], []⟩, .pointTo 1 (some 1),
    .writeInfo 0 ⟨chars!"Renamed", [], [], []⟩, .newBot 0]

example :
    let w := (BotMem.start (List Die) []).run queueFeeder renameHistory
    w.bots = [⟨some 0, 0⟩, ⟨some 1, 1⟩, ⟨none, 0⟩] ∧ w.impls = [some 0, some 1] ∧
    w.Uses 0 0 ∧ w.Uses 1 1 ∧ (∀ op ∈ renameHistory, op.keepsDiceBots = true) ∧
    (w.infos[0]?).map BotInfo.gameID = some chars!"Renamed" :=
  ⟨rfl, rfl, ⟨_, _, rfl, rfl, rfl⟩, ⟨_, _, rfl, rfl, rfl⟩, by decide, rfl⟩

example :
    let w := (BotMem.start (List Die) []).run queueFeeder renameHistory
    (∃ r, w.answer queueFeeder 0 chars!"1d6" = some (.ok r, []) ∧ r.gameID = chars!"Renamed") ∧
    (∃ r, w.answer queueFeeder 1 chars!"1d6" = some (.ok r, []) ∧ r.gameID = chars!"Own") ∧
    w.answer queueFeeder 2 chars!"1d6" = some (.panic Raw.nilDereference, [⟨3, 6⟩]) ∧
    (w.select 2 chars!"DiceBot").2 = some chars!"unknown game system: DiceBot" :=
  ⟨⟨_, rfl, rfl⟩, ⟨_, rfl, rfl⟩, rfl, rfl⟩

/-- A history through functions and methods. -/
example : ∀ op ∈ ([.feeder [⟨3, 6⟩], .newBot 0, .select 0 chars!"DiceBot", .execute 0 chars!"1d6"] :
    List (BotOp (List Die))), op.proper = true := by decide

/-- Two bots share a feeder, a third has another. -/
example :
    let w := (BotMem.start (List Die) []).run queueFeeder
      [.feeder [⟨3, 6⟩, ⟨4, 6⟩], .feeder [⟨5, 6⟩], .newBot 0, .newBot 0, .newBot 1]
    w.Uses 0 0 ∧ w.Uses 1 0 ∧ w.Uses 2 0 ∧ (∃ r, w.answer queueFeeder 0 chars!"1d6" = some (.ok r, [⟨4, 6⟩])) ∧
    (∃ r, (w.step queueFeeder (.execute 0 chars!"1d6")).answer queueFeeder 1 chars!"1d6" = some (.ok r, [])) ∧
    (∃ r, (w.step queueFeeder (.execute 0 chars!"1d6")).answer queueFeeder 2 chars!"1d6" = some (.ok r, [])) ∧
    (w.infos[0]?).map BotInfo.gameID = some chars!"DiceBot" :=
  ⟨⟨_, _, rfl, rfl, rfl⟩, ⟨_, _, rfl, rfl, rfl⟩, ⟨_, _, rfl, rfl, rfl⟩, ⟨_, rfl⟩, ⟨_, rfl⟩, ⟨_, rfl⟩, rfl⟩

end GoBCDice
