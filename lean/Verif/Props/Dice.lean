import Verif.Lemmas.Dice

/-!
# C01-C04, C06: the dice roller and the feeders
-/

namespace GoBCDice
variable {σ : Type}

/-- **C01.** `RollDice(num, sides)` succeeds with `ds` exactly when the arguments are acceptable
and `ds` are the `num` next dice of the feeder, all with `sides` sides, in feed order; the feeder
is left just after them. -/
theorem C01_rollDice_ok_iff (F : DieFeeder σ) (num sides : Int64) (s s' : σ) (ds : List Die) :
    rollDice F num sides s = (.ok ds, s') ↔
      1 ≤ sides ∧ 1 ≤ num ∧ num ≤ maxMakeCap ∧
      (ds.length : Int) = num.toInt ∧ (∀ d ∈ ds, d.sides = sides) ∧ Draws F s ds s' := by
  unfold rollDice
  split
  · rename_i h
    constructor
    · intro h'; simp at h'
    · rintro ⟨h1, -⟩; grind
  · split
    · constructor
      · intro h'; simp at h'
      · rintro ⟨-, h1, -⟩; grind
    · split
      · constructor
        · intro h'; simp at h'
        · rintro ⟨-, -, h1, -⟩; grind
      · rename_i h1 h2 h3
        rw [rollLoop_ok]
        have hnum : 1 ≤ num.toInt := by
          have : (1 : Int64) ≤ num := by grind
          simpa [Int64.le_iff_toInt_le] using this
        constructor
        · rintro ⟨es, rfl, hl, hs, hd⟩
          refine ⟨by grind, by grind, by grind, ?_, by simpa using hs, by simpa using hd⟩
          omega
        · rintro ⟨-, -, -, hl, hs, hd⟩
          exact ⟨ds, by simp, by omega, hs, hd⟩

-- non-vacuity: two six-sided dice from a queue of three
example : rollDice queueFeeder 2 6 [⟨3, 6⟩, ⟨5, 6⟩, ⟨1, 4⟩] = (.ok [⟨3, 6⟩, ⟨5, 6⟩], [⟨1, 4⟩]) := by
  decide

/-- **C02.** Non-positive sides, then non-positive counts, are refused with the documented error
and the feeder is not touched. -/
theorem C02_rollDice_invalid (F : DieFeeder σ) (num sides : Int64) (s : σ) :
    (sides < 1 → rollDice F num sides s =
      (.err (chars!"RollDice(num: " ++ intStr num ++ chars!", sides: " ++ intStr sides ++
        chars!"): ダイスの面数が少なすぎます"), s)) ∧
    (1 ≤ sides → num < 1 → rollDice F num sides s =
      (.err (chars!"RollDice(num: " ++ intStr num ++ chars!", sides: " ++ intStr sides ++
        chars!"): 振るダイス数が少なすぎます"), s)) := by
  constructor
  · intro h; simp [rollDice, h, sidesTooSmallMsg, rollDicePrefix]
  · intro h1 h2
    have : ¬ sides < 1 := by grind
    simp [rollDice, this, h2, numTooSmallMsg, rollDicePrefix]

theorem rollLoop_err {F : DieFeeder σ} {num sides : Int64} {n : Nat} {acc : List Die} {s s' : σ}
    {e : Str} (h : rollLoop F num sides n acc s = (.err e, s')) :
    ∃ es s₁, es.length < n ∧ (∀ d ∈ es, d.sides = sides) ∧ Draws F s es s₁ ∧
      (F.next s₁ sides = (.err e, s') ∨
        ∃ d, F.next s₁ sides = (.ok d, s') ∧ d.sides ≠ sides ∧ e = sidesMismatchMsg num sides d) := by
  induction n generalizing acc s with
  | zero => simp [rollLoop] at h
  | succ n ih =>
    unfold rollLoop at h
    split at h
    · rename_i e' s₁ hn
      simp only [Prod.mk.injEq, Out.err.injEq] at h
      obtain ⟨rfl, rfl⟩ := h
      exact ⟨[], s, by simp, by simp, .nil _, .inl hn⟩
    · simp at h
    · rename_i d s₁ hn
      split at h
      · rename_i hne
        simp only [Prod.mk.injEq, Out.err.injEq] at h
        obtain ⟨rfl, rfl⟩ := h
        exact ⟨[], s, by simp, by simp, .nil _, .inr ⟨d, hn, hne, rfl⟩⟩
      · rename_i heq
        have heq : d.sides = sides := by simpa using heq
        obtain ⟨es, s₂, hl, hs, hd, hf⟩ := ih h
        refine ⟨d :: es, s₂, by simp; omega, ?_, .cons (by rw [heq]; exact hn) hd, hf⟩
        intro x hx
        rcases List.mem_cons.mp hx with rfl | hx
        · exact heq
        · exact hs x hx

/-- **C02, converse.** With positive arguments an error of `RollDice` comes from the feeder: some
number (less than `num`) of good dice was drawn and then the feeder reported that error, or
delivered a die with the wrong number of sides. -/
theorem C02_rollDice_err_cause (F : DieFeeder σ) (num sides : Int64) (s s' : σ) (e : Str)
    (hn : 1 ≤ num) (hs : 1 ≤ sides) (h : rollDice F num sides s = (.err e, s')) :
    ∃ ds s₁, (ds.length : Int) < num.toInt ∧ (∀ d ∈ ds, d.sides = sides) ∧ Draws F s ds s₁ ∧
      (F.next s₁ sides = (.err e, s') ∨
        ∃ d, F.next s₁ sides = (.ok d, s') ∧ d.sides ≠ sides ∧
          e = chars!"RollDice(num: " ++ intStr num ++ chars!", sides: " ++ intStr sides ++
            chars!") -> " ++ intStr d.value ++ chars!"/" ++ intStr d.sides ++
            chars!": ダイスの面数が指定と一致しません") := by
  unfold rollDice at h
  have h1 : ¬ sides < 1 := by grind
  have h2 : ¬ num < 1 := by grind
  simp only [h1, h2, if_false] at h
  split at h
  · simp at h
  · obtain ⟨es, s₁, hl, h3, h4, h5⟩ := rollLoop_err h
    refine ⟨es, s₁, by omega, h3, h4, ?_⟩
    rcases h5 with h5 | ⟨d, h6, h7, h8⟩
    · exact .inl h5
    · refine .inr ⟨d, h6, h7, ?_⟩
      rw [h8]
      simp [sidesMismatchMsg, rollDicePrefix, Die.slash]

example : rollDice queueFeeder 3 6 [⟨3, 6⟩, ⟨5, 8⟩, ⟨1, 6⟩] =
    (.err (sidesMismatchMsg 3 6 ⟨5, 8⟩), [⟨1, 6⟩]) := by decide

/-- **C03.** Rolling from a queue, with acceptable arguments: either the first `num` dice all
exist and have the right sides, and exactly they are taken; or the first wrong die (at position
`k`) stops the roll, dice up to and including it being lost; or the queue holds fewer than `num`
dice, all of the right sides, and is emptied. -/
theorem C03_rollDice_queue (num sides : Int64) (q : List Die)
    (hn : 1 ≤ num) (hm : num ≤ 2 ^ 44) (hs : 1 ≤ sides) :
    (∃ ds q', q = ds ++ q' ∧ (ds.length : Int) = num.toInt ∧ (∀ d ∈ ds, d.sides = sides) ∧
        rollDice queueFeeder num sides q = (.ok ds, q')) ∨
    (∃ good d q', q = good ++ d :: q' ∧ (good.length : Int) < num.toInt ∧
        (∀ x ∈ good, x.sides = sides) ∧ d.sides ≠ sides ∧
        rollDice queueFeeder num sides q = (.err (chars!"RollDice(num: " ++ intStr num ++
          chars!", sides: " ++ intStr sides ++ chars!") -> " ++ intStr d.value ++ chars!"/" ++
          intStr d.sides ++ chars!": ダイスの面数が指定と一致しません"), q')) ∨
    ((q.length : Int) < num.toInt ∧ (∀ d ∈ q, d.sides = sides) ∧
        rollDice queueFeeder num sides q = (.err chars!"取り出せるダイスがありません", [])) := by
  have key : ∀ (n : Nat) (acc q : List Die),
      (∃ ds q', q = ds ++ q' ∧ ds.length = n ∧ (∀ d ∈ ds, d.sides = sides) ∧
        rollLoop queueFeeder num sides n acc q = (.ok (acc ++ ds), q')) ∨
      (∃ good d q', q = good ++ d :: q' ∧ good.length < n ∧
        (∀ x ∈ good, x.sides = sides) ∧ d.sides ≠ sides ∧
        rollLoop queueFeeder num sides n acc q = (.err (sidesMismatchMsg num sides d), q')) ∨
      (q.length < n ∧ (∀ d ∈ q, d.sides = sides) ∧
        rollLoop queueFeeder num sides n acc q = (.err queueEmptyMsg, [])) := by
    intro n
    induction n with
    | zero => intro acc q; left; exact ⟨[], q, by simp, rfl, by simp, by simp [rollLoop]⟩
    | succ n ih =>
      intro acc q
      cases q with
      | nil => right; right; simp [rollLoop, queueFeeder, queueNext]
      | cons d q =>
        by_cases hd : d.sides = sides
        · have step : rollLoop queueFeeder num sides (n + 1) acc (d :: q) =
              rollLoop queueFeeder num sides n (acc ++ [d]) q := by
            simp [rollLoop, queueFeeder, queueNext, hd]
          rcases ih (acc ++ [d]) q with ⟨ds, q', rfl, hl, hs, hr⟩ | ⟨g, x, q', rfl, hl, hs, hx, hr⟩ |
              ⟨hl, hs, hr⟩
          · left
            exact ⟨d :: ds, q', by simp, by simp [hl],
              by simpa [hd] using hs, by rw [step, hr]; simp⟩
          · right; left
            exact ⟨d :: g, x, q', by simp, by simpa using hl, by simpa [hd] using hs, hx,
              by rw [step, hr]⟩
          · right; right
            exact ⟨by simpa using hl, by simpa [hd] using hs, by rw [step, hr]⟩
        · right; left
          exact ⟨[], d, q, by simp, by simp, by simp, hd,
            by simp [rollLoop, queueFeeder, queueNext, hd]⟩
  have h1 : ¬ sides < 1 := by grind
  have h2 : ¬ num < 1 := by grind
  have h3 : ¬ maxMakeCap < num := by have : maxMakeCap = 2 ^ 44 := rfl; grind
  have hpos : 1 ≤ num.toInt := by simpa [Int64.le_iff_toInt_le] using hn
  have e : ∀ q, rollDice queueFeeder num sides q =
      rollLoop queueFeeder num sides num.toInt.toNat [] q := by
    intro q; simp [rollDice, h1, h2, h3]
  rcases key num.toInt.toNat [] q with ⟨ds, q', rfl, hl, hs, hr⟩ | ⟨g, x, q', rfl, hl, hs, hx, hr⟩ |
      ⟨hl, hs, hr⟩
  · left; exact ⟨ds, q', rfl, by omega, hs, by rw [e, hr]; simp⟩
  · right; left; exact ⟨g, x, q', rfl, by omega, hs, hx, by rw [e, hr]; simp [sidesMismatchMsg, rollDicePrefix, Die.slash]⟩
  · right; right; exact ⟨by omega, hs, by rw [e, hr]; rfl⟩

/-! ### C04: the queue over all histories -/

/-- Operations of a `Queue` and what a caller sees of them. -/
inductive QueueOp where
  | next (sides : Int64)
  | push (d : Die)
  | append (ds : List Die)
  | clear
  | set (ds : List Die)
deriving Repr

/-- One call on the model of `Queue`: new contents and, for `Next`, the outcome. -/
def queueStep (q : List Die) : QueueOp → List Die × Option (Out Die)
  | .next sides => let r := queueNext q sides; (r.2, some r.1)
  | .push d => (queuePush q d, none)
  | .append ds => (queueAppend q ds, none)
  | .clear => (queueClear q, none)
  | .set ds => (queueSet q ds, none)

/-- Contents after a history starting from `NewQueue(init)`. -/
def queueRun (init : List Die) (ops : List QueueOp) : List Die :=
  ops.foldl (fun q op => (queueStep q op).1) (newQueue init)

/-- Specification: a FIFO described by the dice ever offered since the last `Clear`/`Set` and the
number already taken. -/
structure Fifo where
  offered : List Die
  taken : Nat

/-- One operation on the specification FIFO. -/
def Fifo.step (f : Fifo) : QueueOp → Fifo
  | .next _ => { f with taken := min (f.taken + 1) f.offered.length }
  | .push d => { f with offered := f.offered ++ [d] }
  | .append ds => { f with offered := f.offered ++ ds }
  | .clear => { offered := [], taken := 0 }
  | .set ds => { offered := ds, taken := 0 }

/-- The specification FIFO after a history. -/
def Fifo.run (init : List Die) (ops : List QueueOp) : Fifo :=
  ops.foldl Fifo.step { offered := init, taken := 0 }

theorem queueAppend_eq (q ds : List Die) : queueAppend q ds = q ++ ds := by
  induction ds generalizing q with
  | nil => simp [queueAppend]
  | cons d ds ih =>
    have : queueAppend q (d :: ds) = queueAppend (q ++ [d]) ds := rfl
    rw [this, ih]; simp

/-- **C04.** After any history of operations the observers of the queue agree with a FIFO: the
contents are the offered dice minus the `taken` oldest ones, `Remaining` counts them, `IsEmpty`
says whether there are none, and `Next` hands out the oldest one not yet taken whatever the
requested sides, or fails without effect when there is none. -/
theorem C04_queue_fifo (init : List Die) (ops : List QueueOp) :
    let q := queueRun init ops
    let f := Fifo.run init ops
    f.taken ≤ f.offered.length ∧
    queueDice q = f.offered.drop f.taken ∧
    queueRemaining q = f.offered.length - f.taken ∧
    (queueIsEmpty q = true ↔ f.taken = f.offered.length) ∧
    (∀ sides, queueNext q sides =
      match f.offered[f.taken]? with
      | some d => (.ok d, f.offered.drop (f.taken + 1))
      | none => (.err queueEmptyMsg, q)) := by
  have inv : ∀ (ops : List QueueOp) (q : List Die) (f : Fifo),
      f.taken ≤ f.offered.length → q = f.offered.drop f.taken →
      (ops.foldl Fifo.step f).taken ≤ (ops.foldl Fifo.step f).offered.length ∧
      ops.foldl (fun q op => (queueStep q op).1) q =
        (ops.foldl Fifo.step f).offered.drop (ops.foldl Fifo.step f).taken := by
    intro ops
    induction ops with
    | nil => intro q f h1 h2; exact ⟨h1, h2⟩
    | cons op ops ih =>
      intro q f h1 h2
      simp only [List.foldl_cons]
      apply ih
      · cases op <;> simp [Fifo.step] <;> omega
      · subst h2
        cases op with
        | next sides =>
          simp only [queueStep, Fifo.step, queueNext]
          by_cases hlt : f.taken < f.offered.length
          · rw [List.drop_eq_getElem_cons hlt]
            have : min (f.taken + 1) f.offered.length = f.taken + 1 := by omega
            simp [this]
          · have : f.taken = f.offered.length := by omega
            simp [this]
        | push d =>
          simp only [queueStep, Fifo.step, queuePush]
          rw [List.drop_append_of_le_length h1]
        | append ds =>
          simp only [queueStep, Fifo.step, queueAppend_eq]
          rw [List.drop_append_of_le_length h1]
        | clear => simp [queueStep, Fifo.step, queueClear]
        | set ds => simp [queueStep, Fifo.step, queueSet]
  have h0 : newQueue init = init := by simp [newQueue, queueAppend_eq]
  obtain ⟨h1, h2⟩ := inv ops (newQueue init) { offered := init, taken := 0 } (by simp) (by simp [h0])
  refine ⟨h1, h2, ?_, ?_, ?_⟩
  · show (queueRun init ops).length = _
    rw [show queueRun init ops = _ from h2]
    simp [Fifo.run]
  · show ((queueRun init ops).length == 0) = true ↔ _
    rw [show queueRun init ops = _ from h2]
    simp only [List.length_drop, beq_iff_eq, Fifo.run]
    omega
  · intro sides
    show queueNext (queueRun init ops) sides = _
    rw [show queueRun init ops = _ from h2]
    simp only [Fifo.run]
    by_cases hlt : (ops.foldl Fifo.step { offered := init, taken := 0 }).taken <
        (ops.foldl Fifo.step { offered := init, taken := 0 }).offered.length
    · rw [List.drop_eq_getElem_cons hlt, List.getElem?_eq_getElem hlt]
      simp [queueNext]
    · rw [List.getElem?_eq_none (by omega), List.drop_eq_nil_of_le (by omega)]
      simp [queueNext]

example : queueDice (queueRun [⟨1, 6⟩] [.push ⟨2, 6⟩, .next 8, .append [⟨3, 4⟩, ⟨4, 4⟩]]) =
    [⟨2, 6⟩, ⟨3, 4⟩, ⟨4, 4⟩] := by decide

/-! ### C06: random dice -/

theorem rollLoop_mt {ρ : Type} (r : Rng ρ) (hr : r.Lawful) (num sides : Int64) (hs : 1 ≤ sides)
    (n : Nat) (acc : List Die) (s : ρ) :
    ∃ ds s', rollLoop (mtFeeder r) num sides n acc s = (.ok (acc ++ ds), s') ∧ ds.length = n ∧
      ∀ d ∈ ds, d.sides = sides ∧ d.Fair := by
  induction n generalizing acc s with
  | zero => exact ⟨[], s, by simp [rollLoop], rfl, by simp⟩
  | succ n ih =>
    have hpos : ¬ sides ≤ 0 := by grind
    obtain ⟨h1, h2⟩ := hr s sides (by grind)
    obtain ⟨ds, s', hr', hl, hf⟩ := ih (acc ++ [{ value := 1 + (r.intn s sides).1, sides := sides }])
      (r.intn s sides).2
    refine ⟨{ value := 1 + (r.intn s sides).1, sides := sides } :: ds, s', ?_, by simp [hl], ?_⟩
    · rw [rollLoop]
      simp only [mtFeeder, hpos, if_false, ne_eq, not_true_eq_false]
      refine hr'.trans ?_
      simp
    · intro d hd
      rcases List.mem_cons.mp hd with rfl | hd
      · refine ⟨rfl, ?_⟩
        simp only [Die.Fair, Int64.le_iff_toInt_le, Int64.lt_iff_toInt_lt, Int64.toInt_add] at *
        have := Int64.toInt_lt sides
        have one : (1 : Int64).toInt = 1 := by decide
        have zero : (0 : Int64).toInt = 0 := by decide
        simp only [one, zero] at *
        rw [Int.bmod_eq_of_le (by omega) (by omega)]
        omega
      · exact hf d hd

/-- **C06.** With the MT19937 feeder and a generator satisfying the contract of `Intn`, a roll
with acceptable arguments never fails and never panics; it delivers `num` dice, each with the
requested sides and a value between 1 and `sides`. -/
theorem C06_mt_dice_fair {ρ : Type} (r : Rng ρ) (hr : r.Lawful) (num sides : Int64) (s : ρ)
    (hn : 1 ≤ num) (hm : num ≤ maxMakeCap) (hs : 1 ≤ sides) :
    ∃ ds s', rollDice (mtFeeder r) num sides s = (.ok ds, s') ∧ (ds.length : Int) = num.toInt ∧
      ∀ d ∈ ds, d.sides = sides ∧ 1 ≤ d.value ∧ d.value ≤ sides := by
  have h1 : ¬ sides < 1 := by grind
  have h2 : ¬ num < 1 := by grind
  have h3 : ¬ maxMakeCap < num := by grind
  have hpos : 1 ≤ num.toInt := by simpa [Int64.le_iff_toInt_le] using hn
  obtain ⟨ds, s', e, hl, hf⟩ := rollLoop_mt r hr num sides hs num.toInt.toNat [] s
  refine ⟨ds, s', ?_, by omega, ?_⟩
  · simp only [rollDice, h1, h2, h3, if_false, e, List.nil_append]
  · intro d hd
    obtain ⟨e1, e2, e3⟩ := hf d hd
    exact ⟨e1, e2, e1 ▸ e3⟩

/-- **C06.** Whatever the arguments, a roll with the MT19937 feeder reaches `Intn` only with
positive arguments, so it never panics there (the only possible panic is `make`). -/
theorem C06_mt_no_intn_panic {ρ : Type} (r : Rng ρ) (hr : r.Lawful) (num sides : Int64) (s : ρ)
    (hm : num ≤ maxMakeCap) (m : Str) : (rollDice (mtFeeder r) num sides s).1 ≠ .panic m := by
  by_cases hs : sides < 1
  · simp [rollDice, hs]
  · by_cases hn : num < 1
    · simp [rollDice, hs, hn]
    · obtain ⟨ds, s', e, -⟩ := C06_mt_dice_fair r hr num sides s (by grind) hm (by grind)
      simp [e]

/-- **C03, C06, beyond the bound.** A request for more than 2^44 dice panics in `make`, with any feeder, and
draws nothing. -/
theorem C03_too_many {σ : Type} (F : DieFeeder σ) (num sides : Int64) (s : σ) (hs : 1 ≤ sides)
    (hn : 2 ^ 44 < num.toInt) :
    rollDice F num sides s = (.panic chars!"runtime error: makeslice: cap out of range", s) := by
  have h1 : ¬ sides < 1 := by grind
  have h2 : ¬ num < 1 := by
    rw [Int64.lt_iff_toInt_lt, show (1 : Int64).toInt = 1 from rfl]; omega
  have h3 : maxMakeCap < num := by
    rw [Int64.lt_iff_toInt_lt, show maxMakeCap.toInt = 2 ^ 44 from rfl]; omega
  simp [rollDice, h1, h2, h3, makePanicMsg]

example : (2 : Int) ^ 44 < (17592186044417 : Int64).toInt := by decide

/-- a lawful generator exists: a counter reduced into range -/
def demoRng : Rng Int64 where
  intn s n := if n ≤ s then (0, 0) else if s < 0 then (0, 0) else (s, s + 1)

example : demoRng.Lawful := by
  intro s n hn
  simp only [demoRng]
  split
  · exact ⟨by grind, hn⟩
  · split <;> constructor <;> grind

example : rollDice (mtFeeder demoRng) 3 6 4 = (.ok [⟨5, 6⟩, ⟨6, 6⟩, ⟨1, 6⟩], 0) := by decide

end GoBCDice
