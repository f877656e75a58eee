import Verif.Lemmas.Outcome
import Verif.Spec.Stop

/-!
# The specification of executions that end without a result is met by the evaluator
-/

namespace GoBCDice

/-- How a computation ended, if not with a value. -/
def ended {σ α : Type} : Out α × St σ → Option (Ending × σ)
  | (.ok _, _) => none
  | (.err e, s) => some (.error e, s.feeder)
  | (.panic _, s) => some (.panic, s.feeder)

/-- `m` ends without a value exactly as `P` says. -/
def Halts {σ α : Type} (F : DieFeeder σ) (m : M σ α) (P : List Die → Cause → Prop) : Prop :=
  ∀ (s : St σ) (f' : σ) (e : Ending),
    ended (m s) = some (e, f') ↔
      ∃ ds f1 c, P ds c ∧ Draws F s.feeder ds f1 ∧ Ends F f1 c f' e

namespace Halts
variable {σ α β : Type} {F : DieFeeder σ}

theorem pure (a : α) : Halts F (Pure.pure a) (fun _ _ => False) := by
  intro s f' e
  rw [M.pure_eq]
  simp [ended]

theorem fail (msg : Str) :
    Halts F (M.fail msg : M σ α) (fun ds c => ds = [] ∧ c = .refusal msg) := by
  intro s f' e
  simp only [M.fail, ended, Option.some.injEq, Prod.mk.injEq]
  constructor
  · rintro ⟨rfl, rfl⟩
    exact ⟨[], _, _, ⟨rfl, rfl⟩, .nil _, .refusal⟩
  · rintro ⟨_, f1, _, ⟨rfl, rfl⟩, hd, he⟩
    cases hd
    cases he
    exact ⟨rfl, rfl⟩

theorem crash (msg : Str) :
    Halts F (M.crash msg : M σ α) (fun ds c => ds = [] ∧ c = .crash) := by
  intro s f' e
  simp only [M.crash, ended, Option.some.injEq, Prod.mk.injEq]
  constructor
  · rintro ⟨rfl, rfl⟩
    exact ⟨[], _, _, ⟨rfl, rfl⟩, .nil _, .crash⟩
  · rintro ⟨_, f1, _, ⟨rfl, rfl⟩, hd, he⟩
    cases hd
    cases he
    exact ⟨rfl, rfl⟩

theorem congr {m : M σ α} {P Q : List Die → Cause → Prop} (hm : Halts F m P)
    (h : ∀ ds c, P ds c ↔ Q ds c) : Halts F m Q := by
  intro s f' e
  rw [hm s f' e]
  simp only [h]

theorem bindW {W : Type} {v : W → α} {m : M σ α} {k : α → M σ β} {R : List Die → W → Prop}
    {P : List Die → Cause → Prop} {Q : W → List Die → Cause → Prop}
    (hm : Realizes F m (fun ds a => ∃ w, R ds w ∧ a = v w)) (hp : Halts F m P)
    (hk : ∀ w d1, R d1 w → Halts F (k (v w)) (Q w)) :
    Halts F (m >>= k)
      (fun ds c => P ds c ∨ ∃ d1 d2 w, ds = d1 ++ d2 ∧ R d1 w ∧ Q w d2 c) := by
  intro s f' e
  rw [M.bind_eq]
  constructor
  · intro h
    rcases hms : m s with ⟨a | msg | msg, s1⟩
    · rw [hms] at h
      obtain ⟨d1, ⟨w, hR, rfl⟩, hd1, -⟩ := (hm s s1 a).mp hms
      obtain ⟨d2, f1, c, hQ, hd2, he⟩ := (hk w d1 hR s1 f' e).mp h
      exact ⟨d1 ++ d2, f1, c, .inr ⟨d1, d2, w, rfl, hR, hQ⟩, hd1.append hd2, he⟩
    · rw [hms] at h
      obtain ⟨ds, f1, c, hP, hd, he⟩ := (hp s f' e).mp (by rw [hms]; exact h)
      exact ⟨ds, f1, c, .inl hP, hd, he⟩
    · rw [hms] at h
      obtain ⟨ds, f1, c, hP, hd, he⟩ := (hp s f' e).mp (by rw [hms]; exact h)
      exact ⟨ds, f1, c, .inl hP, hd, he⟩
  · rintro ⟨ds, f1, c, hP | ⟨d1, d2, w, rfl, hR, hQ⟩, hd, he⟩
    · have := (hp s f' e).mpr ⟨ds, f1, c, hP, hd, he⟩
      rcases hms : m s with ⟨a | msg | msg, s1⟩ <;> rw [hms] at this
      · simp [ended] at this
      · exact this
      · exact this
    · obtain ⟨f2, hd1, hd2⟩ := hd.split
      have h1 := (hm s ⟨f2, s.log ++ d1⟩ (v w)).mpr ⟨d1, ⟨w, hR, rfl⟩, hd1, rfl⟩
      rw [h1]
      exact (hk w d1 hR _ f' e).mpr ⟨d2, f1, c, hQ, hd2, he⟩

theorem bind {m : M σ α} {k : α → M σ β} {R : List Die → α → Prop}
    {P : List Die → Cause → Prop} {Q : α → List Die → Cause → Prop}
    (hm : Realizes F m R) (hp : Halts F m P)
    (hk : ∀ a, Halts F (k a) (Q a)) :
    Halts F (m >>= k)
      (fun ds c => P ds c ∨ ∃ d1 d2 a, ds = d1 ++ d2 ∧ R d1 a ∧ Q a d2 c) :=
  bindW (v := id) (hm.congr (fun ds a => ⟨fun h => ⟨a, h, rfl⟩, fun ⟨_, h, e⟩ => e ▸ h⟩)) hp
    (fun a _ _ => hk a)

/-- followed by something that always returns -/
theorem andThen {m : M σ α} {k : α → M σ β} {P : List Die → Cause → Prop}
    (hp : Halts F m P) (hk : ∀ a s, ended (k a s) = none) : Halts F (m >>= k) P := by
  intro s f' e
  rw [M.bind_eq, ← hp s f' e]
  rcases hms : m s with ⟨a | msg | msg, s1⟩
  · show ended (k a s1) = some (e, f') ↔ none = some (e, f')
    rw [hk a s1]
  · rfl
  · rfl

end Halts

variable {σ : Type}

theorem returns_logged {α : Type} (g : List Die → α) (s : St σ) :
    ended ((do let dice ← Evaluator.rolledDice; pure (g dice) : M σ α) s) = none := rfl

theorem returns_pure {α : Type} (a : α) (s : St σ) : ended ((pure a : M σ α) s) = none := rfl

/-! ## Rolling -/

theorem rollLoop_ended (F : DieFeeder σ) (x y : Int64) (n : Nat) (acc : List Die) (f f' : σ) (e : Ending)
    (log : List Die) :
    ended ((rollLoop F x y n acc f).1, (⟨(rollLoop F x y n acc f).2, log⟩ : St σ)) = some (e, f') ↔
      ∃ ds f1 c, (ds.length < n ∧ (∀ d ∈ ds, d.sides = y) ∧
          (c = .noDie y ∨ ∃ d, d.sides ≠ y ∧ c = .otherDie x y d)) ∧
        Draws F f ds f1 ∧ Ends F f1 c f' e := by
  induction n generalizing acc f with
  | zero => simp [rollLoop, ended]
  | succ n ih =>
    rcases hn : F.next f y with ⟨d | msg | msg, f1⟩
    · by_cases hs : d.sides = y
      · have step : rollLoop F x y (n + 1) acc f = rollLoop F x y n (acc ++ [d]) f1 := by
          simp [rollLoop, hn, hs]
        rw [step, ih]
        constructor
        · rintro ⟨ds, f2, c, ⟨h1, h2, h3⟩, h4, h5⟩
          refine ⟨d :: ds, f2, c, ⟨by simpa using h1, by simpa [hs] using h2, h3⟩, .cons (by rw [hs]; exact hn) h4, h5⟩
        · rintro ⟨ds, f2, c, ⟨h1, h2, h3⟩, h4, h5⟩
          cases h4 with
          | nil =>
            rcases h3 with rfl | ⟨d', hd', rfl⟩
            · cases h5 <;> simp_all
            · cases h5; simp_all
          | cons hn' h4 =>
            rw [h2 _ (by simp), hn] at hn'
            cases hn'
            exact ⟨_, f2, c, ⟨by simpa using h1, fun x hx => h2 x (by simp [hx]), h3⟩, h4, h5⟩
      · have step : rollLoop F x y (n + 1) acc f = (.err (sidesMismatchMsg x y d), f1) := by
          simp [rollLoop, hn, hs]
        rw [step]
        simp only [ended, Option.some.injEq, Prod.mk.injEq]
        constructor
        · rintro ⟨rfl, rfl⟩
          refine ⟨[], f, .otherDie x y d, ⟨by simp, by simp, .inr ⟨d, hs, rfl⟩⟩, .nil _, ?_⟩
          have := Ends.otherDie (num := x) hn hs
          simpa [sidesMismatchMsg, rollDicePrefix, rollCallText, Die.slash] using this
        · rintro ⟨ds, f2, c, ⟨h1, h2, h3⟩, h4, h5⟩
          cases h4 with
          | nil =>
            rcases h3 with rfl | ⟨d', hd', rfl⟩
            · cases h5 <;> simp_all
            · cases h5 with | otherDie h6 h7 =>
              rw [hn] at h6
              cases h6
              simp [sidesMismatchMsg, rollDicePrefix, rollCallText, Die.slash]
          | cons hn' h4 =>
            rw [h2 _ (by simp), hn] at hn'
            cases hn'
            exact absurd (h2 d (by simp)) hs
    · have step : rollLoop F x y (n + 1) acc f = (.err msg, f1) := by simp [rollLoop, hn]
      rw [step]
      simp only [ended, Option.some.injEq, Prod.mk.injEq]
      constructor
      · rintro ⟨rfl, rfl⟩
        exact ⟨[], f, .noDie y, ⟨by simp, by simp, .inl rfl⟩, .nil _, .noDie hn⟩
      · rintro ⟨ds, f2, c, ⟨h1, h2, h3⟩, h4, h5⟩
        cases h4 with
        | nil =>
          rcases h3 with rfl | ⟨d', hd', rfl⟩
          · cases h5 <;> simp_all
          · cases h5; simp_all
        | cons hn' h4 =>
          rw [h2 _ (by simp), hn] at hn'
          cases hn'
    · have step : rollLoop F x y (n + 1) acc f = (.panic msg, f1) := by simp [rollLoop, hn]
      rw [step]
      simp only [ended, Option.some.injEq, Prod.mk.injEq]
      constructor
      · rintro ⟨rfl, rfl⟩
        exact ⟨[], f, .noDie y, ⟨by simp, by simp, .inl rfl⟩, .nil _, .noDiePanic hn⟩
      · rintro ⟨ds, f2, c, ⟨h1, h2, h3⟩, h4, h5⟩
        cases h4 with
        | nil =>
          rcases h3 with rfl | ⟨d', hd', rfl⟩
          · cases h5 <;> simp_all
          · cases h5; simp_all
        | cons hn' h4 =>
          rw [h2 _ (by simp), hn] at hn'
          cases hn'

variable (E : Evaluator σ)

theorem cap_lt {x : Int64} : maxMakeCap < x ↔ 2 ^ 44 < x.toInt := by
  rw [Int64.lt_iff_toInt_lt, show maxMakeCap.toInt = 2 ^ 44 by decide]

theorem halts_rollDice (x y : Int64) : Halts E.F (E.rollDice x y) (RollStops x y) := by
  intro s f' e
  have e0 : ended (E.rollDice x y s) =
      ended ((GoBCDice.rollDice E.F x y s.feeder).1,
        (⟨(GoBCDice.rollDice E.F x y s.feeder).2, []⟩ : St σ)) := by
    unfold Evaluator.rollDice
    rcases GoBCDice.rollDice E.F x y s.feeder with ⟨_ | _ | _, _⟩ <;> rfl
  rw [e0]
  unfold GoBCDice.rollDice
  by_cases h1 : y < 1
  · rw [if_pos h1]
    simp only [ended, Option.some.injEq, Prod.mk.injEq]
    constructor
    · rintro ⟨rfl, rfl⟩
      exact ⟨[], _, _, .sides h1, .nil _, .refusal⟩
    · rintro ⟨ds, f1, c, hc, hd, he⟩
      cases hc with
      | sides => cases hd; cases he; exact ⟨rfl, rfl⟩
      | num h => exact absurd h1 (by grind)
      | memory h => exact absurd h1 (by grind)
      | noDie h => exact absurd h1 (by grind)
      | otherDie h => exact absurd h1 (by grind)
  · rw [if_neg h1]
    have h1' : 1 ≤ y := by grind
    by_cases h2 : x < 1
    · rw [if_pos h2]
      have h2' : x.toInt < 1 := by simpa [Int64.lt_iff_toInt_lt] using h2
      simp only [ended, Option.some.injEq, Prod.mk.injEq]
      constructor
      · rintro ⟨rfl, rfl⟩
        exact ⟨[], _, _, .num h1' h2, .nil _, .refusal⟩
      · rintro ⟨ds, f1, c, hc, hd, he⟩
        cases hc with
        | sides h => exact absurd h h1
        | num => cases hd; cases he; exact ⟨rfl, rfl⟩
        | memory _ h => omega
        | noDie _ _ h => omega
        | otherDie _ _ h => omega
    · rw [if_neg h2]
      have h2' : 1 ≤ x.toInt := by
        have : ¬ x.toInt < 1 := by simpa [Int64.lt_iff_toInt_lt] using h2
        omega
      by_cases h3 : maxMakeCap < x
      · rw [if_pos h3]
        have h3' := cap_lt.mp h3
        simp only [ended, Option.some.injEq, Prod.mk.injEq]
        constructor
        · rintro ⟨rfl, rfl⟩
          exact ⟨[], _, _, .memory h1' h3', .nil _, .crash⟩
        · rintro ⟨ds, f1, c, hc, hd, he⟩
          cases hc with
          | sides h => exact absurd h h1
          | num _ h => exact absurd h h2
          | memory => cases hd; cases he; exact ⟨rfl, rfl⟩
          | noDie _ h => omega
          | otherDie _ h => omega
      · rw [if_neg h3]
        have h3' : x.toInt ≤ 2 ^ 44 := by
          have : ¬ 2 ^ 44 < x.toInt := fun h => h3 (cap_lt.mpr h)
          omega
        rw [rollLoop_ended]
        constructor
        · rintro ⟨ds, f1, c, ⟨a1, a2, rfl | ⟨d, a3, rfl⟩⟩, hd, he⟩
          · exact ⟨ds, f1, _, .noDie h1' h3' (by omega) a2, hd, he⟩
          · exact ⟨ds, f1, _, .otherDie h1' h3' (by omega) a2 a3, hd, he⟩
        · rintro ⟨ds, f1, c, hc, hd, he⟩
          cases hc with
          | sides h => exact absurd h h1
          | num _ h => exact absurd h h2
          | memory _ h => omega
          | noDie _ _ a1 a2 => exact ⟨ds, f1, _, ⟨by omega, a2, .inl rfl⟩, hd, he⟩
          | otherDie _ _ a1 a2 a3 => exact ⟨ds, f1, _, ⟨by omega, a2, .inr ⟨_, a3, rfl⟩⟩, hd, he⟩

/-! ## Expressions -/

/-- One die, then a continuation. -/
theorem halts_firstOfOne {α : Type} (y : Int64) (k : Die → M σ α) {Q : Die → List Die → Cause → Prop}
    (hk : ∀ d, Halts E.F (k d) (Q d)) :
    Halts E.F (do
        let ds ← E.rollDice 1 y
        let d ← Evaluator.firstDie ds
        k d)
      (fun ds c => RollStops 1 y ds c ∨ ∃ d es, ds = d :: es ∧ Rolled 1 y [d] ∧ Q d es c) := by
  have h1 : Realizes E.F (E.rollDice 1 y)
      (fun ds a => ∃ w : Die, (ds = [w] ∧ Rolled 1 y [w]) ∧ a = [w]) := by
    refine (realizes_rollDice E 1 y).congr ?_
    intro ds a
    constructor
    · rintro ⟨rfl, h⟩
      have hl := h.2.2.2.1
      rw [show (1 : Int64).toInt = 1 by decide] at hl
      match a, hl with
      | [d], _ => exact ⟨d, ⟨rfl, h⟩, rfl⟩
      | [], hl => simp at hl
      | _ :: _ :: _, hl => simp at hl; omega
    · rintro ⟨d, ⟨rfl, h⟩, rfl⟩; exact ⟨rfl, h⟩
  refine (Halts.bindW (v := fun w : Die => [w]) (Q := Q) h1 (halts_rollDice E 1 y)
    (fun w _ _ => hk w)).congr ?_
  intro ds c
  constructor
  · rintro (h | ⟨_, d2, w, rfl, ⟨rfl, h⟩, h'⟩)
    · exact .inl h
    · exact .inr ⟨w, d2, rfl, h, h'⟩
  · rintro (h | ⟨d, es, rfl, h, h'⟩)
    · exact .inl h
    · exact .inr ⟨[d], es, d, rfl, ⟨rfl, h⟩, h'⟩

theorem halts_eval (e : Expr) : Halts E.F (E.eval e) (EvStops e) := by
  induction e with
  | int v => exact (Halts.pure v).congr (fun ds c => ⟨False.elim, fun h => nomatch h⟩)
  | sumRoll v =>
    exact (Halts.pure (sumDice v)).congr (fun ds c => ⟨False.elim, fun h => nomatch h⟩)
  | neg r ih =>
    refine (Halts.andThen (k := fun v => pure (-v)) ih (fun a s => rfl)).congr ?_
    intro ds c
    exact ⟨.neg, fun h => by cases h; assumption⟩
  | bin op l r ihl ihr =>
    refine (Halts.bind (realizes_eval E l) ihl (fun a =>
      Halts.andThen (k := fun b => pure (op.apply a b)) ihr (fun b s => rfl))).congr ?_
    intro ds c
    constructor
    · rintro (h | ⟨d1, d2, a, rfl, h1, h2⟩)
      · exact .binLeft h
      · exact .binRight h1 h2
    · intro h
      cases h with
      | binLeft h => exact .inl h
      | binRight h1 h2 => exact .inr ⟨_, _, _, rfl, h1, h2⟩
  | div m l r ihl ihr =>
    have hdiv : ∀ a b : Int64, Halts E.F (Evaluator.evalIntegerDivide m a b : M σ Int64)
        (fun ds c => b = 0 ∧ ds = [] ∧ c = .refusal (intStr a ++ chars!" divided by zero")) := by
      intro a b
      unfold Evaluator.evalIntegerDivide
      by_cases hb : b = 0
      · rw [if_pos hb]; exact (Halts.fail _).congr (by simp [hb])
      · rw [if_neg hb]; exact (Halts.pure _).congr (by simp [hb])
    refine (Halts.bind (realizes_eval E l) ihl (fun a =>
      Halts.bind (realizes_eval E r) ihr (fun b => hdiv a b))).congr ?_
    intro ds c
    constructor
    · rintro (h | ⟨d1, d2, a, rfl, h1, h2 | ⟨d3, _, b, rfl, h2, rfl, rfl, rfl⟩⟩)
      · exact .divLeft h
      · exact .divRight h1 h2
      · simpa using EvStops.divZero h1 h2
    · intro h
      cases h with
      | divLeft h => exact .inl h
      | divRight h1 h2 => exact .inr ⟨_, _, _, rfl, h1, .inl h2⟩
      | divZero h1 h2 =>
        exact .inr ⟨_, _, _, rfl, h1, .inr ⟨_, [], _, by simp, h2, rfl, rfl, rfl⟩⟩
  | var k l r ihl ihr =>
    cases k with
    | d =>
      refine (Halts.bind (realizes_eval E l) ihl (fun a => Halts.bind (realizes_eval E r) ihr (fun b =>
        Halts.andThen (k := fun ds => pure (sumDice ds)) (halts_rollDice E a b)
          (fun b s => rfl)))).congr ?_
      intro ds c
      constructor
      · rintro (h | ⟨d1, d2, a, rfl, h1, h2 | ⟨d3, d4, b, rfl, h2, h3⟩⟩)
        · exact .varLeft h
        · exact .varRight h1 h2
        · simpa using EvStops.d h1 h2 h3
      · intro h
        cases h with
        | varLeft h => exact .inl h
        | varRight h1 h2 => exact .inr ⟨_, _, _, rfl, h1, .inl h2⟩
        | d h1 h2 h3 => exact .inr ⟨_, _, _, List.append_assoc .., h1, .inr ⟨_, _, _, rfl, h2, h3⟩⟩
    | rand =>
      have hr : ∀ a b : Int64, Halts E.F (E.evalRandomNumber a b)
          (fun ds c => (b ≤ a ∧ ds = [] ∧ c = .refusal (chars!"evalRandomNumber: min (" ++ intStr a ++
            chars!") must be less than max (" ++ intStr b ++ chars!")")) ∨
            (a < b ∧ RollStops 1 (b - a + 1) ds c)) := by
        intro a b
        unfold Evaluator.evalRandomNumber
        by_cases hb : b ≤ a
        · rw [if_pos hb]
          have : ¬ a < b := by grind
          exact (Halts.fail _).congr (by simp [hb, this, Evaluator.randomNumberMsg])
        · rw [if_neg hb]
          have : a < b := by grind
          refine (halts_firstOfOne E (b - a + 1) _ (fun d => Halts.pure ((a - 1) + d.value))).congr ?_
          simp [hb, this]
      refine (Halts.bind (realizes_eval E l) ihl (fun a => Halts.bind (realizes_eval E r) ihr (fun b =>
        hr a b))).congr ?_
      intro ds c
      constructor
      · rintro (h | ⟨d1, d2, a, rfl, h1, h2 | ⟨d3, d4, b, rfl, h2, ⟨h3, rfl, rfl⟩ | ⟨h3, h4⟩⟩⟩)
        · exact .varLeft h
        · exact .varRight h1 h2
        · simpa using EvStops.randOrder h1 h2 h3
        · simpa using EvStops.rand h1 h2 h3 h4
      · intro h
        cases h with
        | varLeft h => exact .inl h
        | varRight h1 h2 => exact .inr ⟨_, _, _, rfl, h1, .inl h2⟩
        | randOrder h1 h2 h3 =>
          exact .inr ⟨_, _, _, rfl, h1, .inr ⟨_, [], _, by simp, h2, .inl ⟨h3, rfl, rfl⟩⟩⟩
        | rand h1 h2 h3 h4 =>
          exact .inr ⟨_, _, _, List.append_assoc .., h1, .inr ⟨_, _, _, rfl, h2, .inr ⟨h3, h4⟩⟩⟩

end GoBCDice
