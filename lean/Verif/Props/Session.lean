import Verif.Spec.Session
import Verif.Props.Chat

/-!
# Sessions can be replayed from their logs (C106)
-/

namespace GoBCDice

variable {σ : Type}

/-! ## Dice that are not shown -/

theorem Ev.norands {e : Expr} {ds : List Die} {v : Int64} (h : Ev e ds v) : e.rands = 0 → ds = [] := by
  induction h with
  | int v => exact fun _ => rfl
  | sumRoll ds => exact fun _ => rfl
  | neg _ ih => exact ih
  | add _ _ ih1 ih2 => intro h; simp only [Expr.rands] at h; rw [ih1 (by omega), ih2 (by omega)]; rfl
  | sub _ _ ih1 ih2 => intro h; simp only [Expr.rands] at h; rw [ih1 (by omega), ih2 (by omega)]; rfl
  | mul _ _ ih1 ih2 => intro h; simp only [Expr.rands] at h; rw [ih1 (by omega), ih2 (by omega)]; rfl
  | div _ _ _ ih1 ih2 => intro h; simp only [Expr.rands] at h; rw [ih1 (by omega), ih2 (by omega)]; rfl
  | d _ _ _ _ _ => intro h; simp only [Expr.rands] at h; omega
  | rand _ _ _ _ _ _ => intro h; simp only [Expr.rands] at h; omega

/-- What is written without dice. -/
def NT.diceless : NT → Bool
  | .dRoll => false
  | .prim k => decide (k ≠ .dice)
  | .mul k => decide (k ≠ .dice)
  | .add k => decide (k ≠ .dice)
  | _ => true

theorem HasDots.left {s : Str} (h : HasDots s) (t : Str) : HasDots (s ++ t) := by
  obtain ⟨a, b, rfl⟩ := h
  exact ⟨a, b ++ t, by simp⟩

theorem HasDots.right {t : Str} (h : HasDots t) (s : Str) : HasDots (s ++ t) := by
  obtain ⟨a, b, rfl⟩ := h
  exact ⟨s ++ a, b, by simp⟩

theorem Der.dots {nt : NT} {s : Str} {e : Expr} (h : Der nt s e) :
    nt.diceless = true → 1 ≤ e.rands → HasDots s := by
  induction h with
  | number _ _ => intro _ h; simp [Expr.rands] at h
  | randOperandNum _ ih => exact ih
  | rollOperandNum _ ih => exact fun _ => ih rfl
  | rollOperandRand _ ih => exact fun _ => ih rfl
  | primNum _ ih => exact fun _ => ih rfl
  | primRand _ _ ih => exact fun _ => ih rfl
  | primDice _ _ => exact fun h => (by cases h)
  | mulPrim _ ih => exact ih
  | addMul _ ih => exact ih
  | randOperandParen _ ih => exact fun _ h => ((ih rfl h).right _).left _
  | rollOperandParen _ ih => exact fun _ h => ((ih rfl h).right _).left _
  | paren _ ih => exact fun k h => ((ih k h).right _).left _
  | @randNum a b _ _ _ _ _ _ => exact fun _ _ => ⟨chars!"[" ++ a, b ++ chars!"]", by simp⟩
  | plus _ ih => exact fun k h => (ih k h).right _
  | minus _ ih => exact fun k h => (ih k h).right _
  | dRoll _ _ _ _ _ => exact fun h => (by cases h)
  | mulMul _ _ ih1 ih2 =>
    intro k h
    simp only [Expr.rands] at h
    rcases Nat.lt_or_ge 0 (Expr.rands _) with h' | h'
    · exact ((ih1 k h').left _).left _
    · exact (ih2 k (by omega)).right _
  | mulDiv _ _ ih1 ih2 =>
    intro k h
    simp only [Expr.rands] at h
    rcases Nat.lt_or_ge 0 (Expr.rands _) with h' | h'
    · exact ((ih1 k h').left _).left _
    · exact (ih2 k (by omega)).right _
  | mulDivUp _ _ _ ih1 ih2 =>
    intro k h
    simp only [Expr.rands] at h
    rcases Nat.lt_or_ge 0 (Expr.rands _) with h' | h'
    · exact (((ih1 k h').left _).left _).left _
    · exact ((ih2 k (by omega)).right _).left _
  | mulDivRound _ _ _ ih1 ih2 =>
    intro k h
    simp only [Expr.rands] at h
    rcases Nat.lt_or_ge 0 (Expr.rands _) with h' | h'
    · exact (((ih1 k h').left _).left _).left _
    · exact ((ih2 k (by omega)).right _).left _
  | addAdd _ _ ih1 ih2 =>
    intro k h
    simp only [Expr.rands] at h
    rcases Nat.lt_or_ge 0 (Expr.rands _) with h' | h'
    · exact ((ih1 k h').left _).left _
    · exact (ih2 k (by omega)).right _
  | addSub _ _ ih1 ih2 =>
    intro k h
    simp only [Expr.rands] at h
    rcases Nat.lt_or_ge 0 (Expr.rands _) with h' | h'
    · exact ((ih1 k h').left _).left _
    · exact (ih2 k (by omega)).right _

theorem operand_nodice {s : Str} {e : Expr} {ds : List Die} {v : Int64} (h : Der .rollOperand s e) (hd : ¬ HasDots s)
    (hv : Ev e ds v) : ds = [] := by
  refine hv.norands ?_
  rcases Nat.lt_or_ge 0 e.rands with h' | h'
  · exact absurd (h.dots rfl h') hd
  · omega

theorem int_nodice {s : Str} {e : Expr} {ds : List Die} {v : Int64} (h : Der (.add .int) s e) (hv : Ev e ds v) :
    ds = [] := hv.norands (h.int_rands (by simp))

theorem rolls_nodice {letters : Char × Char} {s : Str} {rs : List Roll} (h : RollsText letters s rs) :
    ¬ HasDots s → ∀ {as : List Die} {ps : List (Int64 × Int64)}, Args rs as ps → as = [] := by
  have one : ∀ {s : Str} {r : Roll}, RollText letters s r → ¬ HasDots s → ∀ {ds es : List Die} {x y : Int64},
      Ev r.num ds x → Ev r.sides es y → ds = [] ∧ es = [] := by
    rintro s r ⟨a, b, l, rfl, _, ha, hb⟩ hd ds es x y h1 h2
    exact ⟨operand_nodice ha (fun h => hd ((h.left _).left _)) h1, operand_nodice hb (fun h => hd (h.right _)) h2⟩
  induction h with
  | one h =>
    intro hd as ps ha
    cases ha with
    | cons h1 h2 h3 =>
      cases h3
      obtain ⟨rfl, rfl⟩ := one h hd h1 h2
      rfl
  | cons h _ ih =>
    intro hd as ps ha
    cases ha with
    | cons h1 h2 h3 =>
      obtain ⟨rfl, rfl⟩ := one h (fun h => hd ((h.left _).left _)) h1 h2
      rw [ih (fun h => hd (h.right _)) h3]
      rfl

theorem threshold_nodice {s : Str} {t : Option Expr} (h : ThresholdText s t) {ds : List Die} {th : Option Int64}
    (ht : Threshold t ds th) : ds = [] := by
  cases h with
  | absent => cases ht; rfl
  | given h => cases ht with
    | given hv => exact int_nodice h hv

theorem bonus_nodice {s : Str} {b : Option (Sign × Expr)} (h : BonusText s b) {ds : List Die} {v : Int64}
    (hb : Bonus b ds v) : ds = [] := by
  cases h with
  | absent => cases hb; rfl
  | plus h => cases hb with
    | plus hv => exact int_nodice h hv
  | minus h => cases hb with
    | minus hv => exact int_nodice h hv

theorem compare_nodice {s : Str} {op : CmpOp} {e : Expr} (h : CompareText s op e) {ds : List Die} {v : Int64}
    (hv : Ev e ds v) : ds = [] := by
  cases h with
  | mk h => exact int_nodice h hv

/-- Every die a command rolls is shown, unless the command is refused for its threshold and its text contains random
numbers. -/
theorem shown_all {limit : Nat} {g t : Str} {node : Node} {ds : List Die} {r : Result} (ht : CommandText t node)
    (h : Outcome limit g node ds r) (hr : RefusesThreshold r → ¬ HasDots t) : r.rolledDice = ds := by
  have ref : ∀ {nilMsg msg : Str} {th : Option Int64} {p : Str},
      nilMsg = missingThresholdR ∨ nilMsg = missingThresholdU → Refused nilMsg th msg →
      r.parts = [p, msg] → RefusesThreshold r := by
    intro nilMsg msg th p hn hm hp
    cases hm with
    | absent =>
      rcases hn with rfl | rfl
      · exact ⟨p, .inl hp⟩
      · exact ⟨p, .inr (.inl hp)⟩
    | small _ => exact ⟨p, .inr (.inr hp)⟩
  cases h with
  | «calc» hv =>
    cases ht with
    | «calc» _ hd => rw [int_nodice hd hv]
  | rRollRefused h1 h2 h3 =>
    have hd := hr (ref (.inl rfl) h3 rfl)
    cases ht with
    | rRollList h =>
      obtain ⟨a, b, rfl, ha, hb⟩ := h
      rw [threshold_nodice hb h1, rolls_nodice ha (fun h => hd (h.left _)) h2]
      rfl
  | rRollCompRefused h1 h2 h3 h4 =>
    have hd := hr (ref (.inl rfl) h4 rfl)
    cases ht with
    | rRollComp h h' =>
      obtain ⟨a, b, rfl, ha, hb⟩ := h
      rw [threshold_nodice hb h1, rolls_nodice ha (fun h => hd ((h.left _).left _)) h2, compare_nodice h' h3]
      rfl
  | uRollRefused h1 h2 h3 h4 =>
    have hd := hr (ref (.inr rfl) h4 rfl)
    cases ht with
    | uRollExpr h =>
      obtain ⟨c, d, rfl, ⟨a, b, rfl, ha, hb⟩, hbon⟩ := h
      rw [threshold_nodice hb h1, rolls_nodice ha (fun h => hd ((h.left _).left _)) h2, bonus_nodice hbon h3]
      rfl
  | uRollCompRefused h1 h2 h3 h4 h5 =>
    have hd := hr (ref (.inr rfl) h5 rfl)
    cases ht with
    | uRollComp h h' =>
      obtain ⟨c, d, rfl, ⟨a, b, rfl, ha, hb⟩, hbon⟩ := h
      rw [threshold_nodice hb h1, rolls_nodice ha (fun h => hd (((h.left _).left _).left _)) h2, bonus_nodice hbon h3,
        compare_nodice h' h4]
      rfl
  | _ => rfl

/-! ## The whole text and its first word -/

theorem command_unique {t : Str} {n m : Node} (h : CommandText t n) (h' : CommandText t m) : n = m := by
  have e1 := (parse_iff t n).mpr h
  have e2 := (parse_iff t m).mpr h'
  rw [e1] at e2
  exact Option.some.inj e2

/-- If a text and its first word are both commands, they are the same command. -/
theorem first_word_same {body : Str} {n m : Node} (h : CommandText body n) (h' : CommandText (firstPart body) m) :
    n = m := by
  obtain ⟨more, hm⟩ : ∃ more, body = firstPart body ++ more :=
    ⟨body.dropWhile (fun c => !isReSpace c), (List.takeWhile_append_dropWhile).symm⟩
  cases hn : n.isRollCommand with
  | true =>
    have hc := C32_roll_chars body n hn ((parse_iff body n).mpr h)
    have h1 : ∀ x ∈ rollChars, x ∈ commandChars := by decide
    rw [firstPart_self fun c hx => h1 c (hc c hx)] at h'
    exact command_unique h h'
  | false =>
    cases hk : m.isRollCommand with
    | false =>
      have := C32_prefix (firstPart body) more m hk ((parse_iff _ m).mpr h')
      rw [← hm] at this
      exact command_unique h ((parse_iff _ _).mp this)
    | true =>
      exfalso
      have hc := C32_roll_chars _ m hk ((parse_iff _ m).mpr h')
      have hs : Starts (firstPart body) := by
        rcases C105_shape _ _ h' with ⟨kw, rest, h1, h2⟩ | ⟨c, b, rest, h1, _, _, h2⟩ | h1
        · cases kw with
          | nil => exact absurd h1 (by simp [SameWord])
          | cons x kw =>
            exfalso
            have hx := hc x (by rw [h2]; simp)
            rcases h1.1 with rfl | ⟨h3, h4, h5⟩ | ⟨h3, _⟩
            · revert hx; decide
            · have : x = 'C' := by
                have h6 : x.toNat = 67 := by
                  have : ('c' : Char).toNat = 99 := rfl
                  omega
                rw [← Char.ofNat_toNat x, h6]
              rw [this] at hx; revert hx; decide
            · revert h3; decide
        · exfalso
          have hx := hc c (by rw [h2]; simp)
          rcases h1 with rfl | rfl <;> (revert hx; decide)
        · exact h1.1
      obtain ⟨x, hx, hxs⟩ := hs
      have hb : x ∈ body.head? := by
        rw [hm]
        cases hf : firstPart body with
        | nil => rw [hf] at hx; simp at hx
        | cons y l => rw [hf] at hx; simpa using hx
      have hne : x ≠ 'C' ∧ x ≠ 'c' := by
        constructor <;> (rintro rfl; revert hxs; decide)
      cases h with
      | @choice kw _ _ _ _ h1 _ _ =>
        cases kw with
        | nil => exact h1
        | cons y kw =>
          have : y = x := by simpa using hb
          subst this
          rcases h1.1 with rfl | ⟨h3, h4, h5⟩ | ⟨h3, _⟩
          · exact hne.2 rfl
          · refine hne.1 ?_
            have h6 : y.toNat = 67 := by
              have : ('c' : Char).toNat = 99 := rfl
              omega
            rw [← Char.ofNat_toNat y, h6]
          · revert h3; decide
      | @«calc» _ _ _ c h1 _ =>
        have : c = x := by simpa using hb
        subst this
        rcases h1 with rfl | rfl
        · exact hne.1 rfl
        · exact hne.2 rfl
      | _ => simp [Node.isRollCommand] at hn

/-! ## C106 -/

theorem marked_dots {input body : Str} {secret : Bool} (h : Marked input body secret) (hd : HasDots body) :
    HasDots input := by
  cases h with
  | secret _ => exact hd.right [_]
  | plain _ => exact hd

theorem firstPart_dots {s : Str} (h : HasDots (firstPart s)) : HasDots s := by
  rw [show s = firstPart s ++ s.dropWhile (fun c => !isReSpace c) from (List.takeWhile_append_dropWhile).symm]
  exact h.left _

/-- **C106.** A result is given again by the dice shown with it, whatever dice follow. -/
theorem C106_again (F : DieFeeder σ) (usage input : Str) (f f' : σ) (r : Result)
    (h : executeCommand F (basicBot usage) input f = (.ok r, f')) (hd : RefusesThreshold r → ¬ HasDots input)
    (extra : List Die) :
    executeCommand queueFeeder (basicBot usage) input (r.rolledDice ++ extra) = (.ok r, extra) := by
  obtain ⟨body, secret, word, r0, hm, hw, rfl, hs⟩ := (C78_answer ..).mp h
  have hwf : firstPart body = word := firstWord_iff.mp hw
  refine (C78_answer ..).mpr ⟨body, secret, word, r0, hm, hw, rfl, ?_⟩
  have key : ∀ {t : Str} {node : Node} {ds : List Die}, CommandText t node → (HasDots t → HasDots input) →
      Outcome 10000 chars!"DiceBot" node ds r0 → r0.rolledDice = ds := by
    intro t node ds ht hi ho
    exact shown_all ht ho fun hr hx => hd (by obtain ⟨p, hp⟩ := hr; exact ⟨p, hp⟩) (hi hx)
  rcases hs with ⟨node, ds, ht, ho, _⟩ | ⟨msg, f1, hf, node, ds, ht, ho, _⟩
  · have := key ht (marked_dots hm) ho
    exact .inl ⟨node, ds, ht, ho, draws_queue.mpr (by rw [← this])⟩
  · have := key ht (fun hx => marked_dots hm (firstPart_dots (by rw [hwf]; exact hx))) ho
    rcases hf with ⟨hp, _⟩ | ⟨node', _, _, _, hb, _, _, _⟩
    · exact .inr ⟨msg, _, .inl ⟨hp, rfl⟩, node, ds, ht, ho, draws_queue.mpr (by rw [← this])⟩
    · have e := first_word_same hb (by rw [hwf]; exact ht)
      subst e
      exact .inl ⟨node', ds, hb, ho, draws_queue.mpr (by rw [← this])⟩

/-- The answer to what is no command does not depend on the feeder. -/
theorem no_command_answer {τ : Type} (F : DieFeeder σ) (G : DieFeeder τ) (usage input : Str) (f : σ) (g : τ)
    (h1 : ∀ node, ¬ CommandText (checkSecret input).1 node)
    (h2 : ∀ node, ¬ CommandText (firstPart (checkSecret input).1) node) :
    executeCommand G (basicBot usage) input g = ((executeCommand F (basicBot usage) input f).1, g) := by
  have e1 : parse (checkSecret input).1 = none := by
    cases h : parse (checkSecret input).1 with
    | none => rfl
    | some n => exact absurd ((parse_iff _ _).mp h) (h1 n)
  have e2 : parse (firstPart (checkSecret input).1) = none := by
    cases h : parse (firstPart (checkSecret input).1) with
    | none => rfl
    | some n => exact absurd ((parse_iff _ _).mp h) (h2 n)
  simp [executeCommand, executeBasicCommand, executeDiceBotCommand, basicBot, runFresh, M.fail, e1, e2]

/-- **C106.** A session in which every command succeeded can be replayed from the dice shown: a queue of these dice gives
all answers again, those to texts that are no commands included, and nothing is left, or exactly what is behind them.
Commands may fail at first and succeed on the second attempt (C34). -/
theorem C106_replay (F : DieFeeder σ) (usage : Str) (inputs : List Str) (f : σ) (extra : List Die)
    (h : ∀ (k : Nat) (input : Str) (a : Out Result), inputs[k]? = some input →
      (session F usage inputs f).1[k]? = some a →
      (∃ r, a = .ok r ∧ (RefusesThreshold r → ¬ HasDots input)) ∨
      ∀ body secret word, Marked input body secret → FirstWord body word →
        ∀ node, ¬ CommandText body node ∧ ¬ CommandText word node) :
    session queueFeeder usage inputs (sessionLog (session F usage inputs f).1 ++ extra) =
      ((session F usage inputs f).1, extra) := by
  induction inputs generalizing f with
  | nil => rfl
  | cons t ts ih =>
    have h0 := h 0 t _ rfl rfl
    have ih' := ih (executeCommand F (basicBot usage) t f).2 fun k input a h1 h2 => h (k + 1) input a h1 h2
    rcases hx : executeCommand F (basicBot usage) t f with ⟨a, f1⟩
    simp only [session, hx, sessionLog, List.map_cons, List.flatten_cons] at h0 ih' ⊢
    have first : executeCommand queueFeeder (basicBot usage) t
        (shownDice a ++ ((session F usage ts f1).1.map shownDice).flatten ++ extra) =
        (a, ((session F usage ts f1).1.map shownDice).flatten ++ extra) := by
      rcases h0 with ⟨r, rfl, hd⟩ | hn
      · rw [List.append_assoc]
        exact C106_again F usage t f f1 r hx hd _
      · have hn' := hn _ _ _ (marked_iff.mpr rfl) (firstWord_iff.mpr rfl)
        have e := no_command_answer F queueFeeder usage t f
          (shownDice a ++ ((session F usage ts f1).1.map shownDice).flatten ++ extra)
          (fun n => (hn' n).1) (fun n => (hn' n).2)
        rw [hx] at e
        obtain ⟨msg, he⟩ := C25_malformed F usage t f (fun n => (hn' n).1) (fun n => (hn' n).2)
        rw [hx] at he
        obtain ⟨rfl, rfl⟩ : a = .err msg ∧ f1 = f := by simpa using he
        rw [e]; rfl
    rw [first]
    dsimp only
    rw [ih']

/-- A random number typed for a reroll command without a threshold is rolled and then not shown, so such a session cannot
be replayed: here the second command runs into the die of the first. -/
theorem C106_dots_needed :
    let inputs := [chars!"[1...2]R6", chars!"1D6"]
    let dice : List Die := [⟨1, 2⟩, ⟨4, 6⟩]
    ∃ r₁ r₂, session queueFeeder chars!"" inputs dice = ([.ok r₁, .ok r₂], []) ∧ r₁.rolledDice = [] ∧
      r₂.rolledDice = [⟨4, 6⟩] ∧
      session queueFeeder chars!"" inputs [⟨4, 6⟩] ≠ ([.ok r₁, .ok r₂], []) :=
  ⟨⟨chars!"DiceBot", (match (session queueFeeder chars!"" [chars!"[1...2]R6", chars!"1D6"] [⟨1, 2⟩, ⟨4, 6⟩]).1 with
      | .ok r :: _ => r.parts
      | _ => []), [], .unspecified, false⟩,
    ⟨chars!"DiceBot", [chars!"(1D6)", chars!"4[4]", chars!"4"], [⟨4, 6⟩], .unspecified, false⟩,
    by decide +kernel, rfl, rfl, by decide +kernel⟩

/-- The dice of a command that failed are not shown either. Here the divisor is 0, which the bot notices when the die has
been rolled; and it tries twice (C34). -/
theorem C106_failure_needed :
    let inputs := [chars!"1D6/(1-1)", chars!"1D6"]
    let dice : List Die := [⟨3, 6⟩, ⟨5, 6⟩, ⟨4, 6⟩]
    ∃ msg r, session queueFeeder chars!"" inputs dice = ([.err msg, .ok r], []) ∧ r.rolledDice = [⟨4, 6⟩] ∧
      session queueFeeder chars!"" inputs [⟨4, 6⟩] ≠ ([.err msg, .ok r], []) :=
  ⟨(match (session queueFeeder chars!"" [chars!"1D6/(1-1)", chars!"1D6"] [⟨3, 6⟩, ⟨5, 6⟩, ⟨4, 6⟩]).1 with
      | .err m :: _ => m
      | _ => []),
    ⟨chars!"DiceBot", [chars!"(1D6)", chars!"4[4]", chars!"4"], [⟨4, 6⟩], .unspecified, false⟩,
    by decide +kernel, rfl, by decide +kernel⟩

/-- A session that meets the hypotheses, with text that is no command in between and dice behind. -/
example :
    let inputs := [chars!"S2D6>=7 attack", chars!"hello", chars!"1R6[6]", chars!"1R6"]
    let dice : List Die := [⟨3, 6⟩, ⟨4, 6⟩, ⟨6, 6⟩, ⟨2, 6⟩]
    (session queueFeeder chars!"" inputs dice).2 = [] ∧
    sessionLog (session queueFeeder chars!"" inputs dice).1 = dice ∧
    session queueFeeder chars!"" inputs (dice ++ [⟨1, 100⟩]) = ((session queueFeeder chars!"" inputs dice).1, [⟨1, 100⟩]) := by
  decide +kernel

end GoBCDice
