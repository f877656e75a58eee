import Verif.Lemmas.Chance
import Verif.Props.Share

/-!
# Probabilities of sessions
-/

namespace GoBCDice
open MeasureTheory Share

variable {σ : Type}

/-- A feeder that records what it is asked and what it answers. -/
def recording (F : DieFeeder σ) : DieFeeder (σ × List (Int64 × Out Die)) where
  next s k := ((F.next s.1 k).1, ((F.next s.1 k).2, s.2 ++ [(k, (F.next s.1 k).1)]))

theorem Deals.record {F : DieFeeder σ} {f f' : σ} {l : List (Int64 × Out Die)} (h : Deals F f l f')
    (acc : List (Int64 × Out Die)) : Deals (recording F) (f, acc) l (f', acc ++ l) := by
  induction h generalizing acc with
  | nil => simpa using Deals.nil
  | @cons f f1 f2 k a calls h1 _ ih =>
    refine .cons (f' := (f1, acc ++ [(k, a)])) (by simp [recording, h1]) ?_
    simpa using ih (acc ++ [(k, a)])

/-- The requests and answers of a session with a feeder. -/
theorem session_trace (F : DieFeeder σ) (usage : Str) (inputs : List Bytes) (f : σ) :
    ∃ l, Follows usage inputs l ∧ (expectRun usage inputs l).2.waits = none ∧
      Deals F f l (answersAlone F (basicByteBot usage) inputs f).2 ∧
      (expectRun usage inputs l).1 = (answersAlone F (basicByteBot usage) inputs f).1 := by
  obtain ⟨c, rs, hr, hd, -⟩ := C84_can_finish (F := F) (usage := usage) (inputs := fun _ : Unit => inputs) (start f) ()
  obtain ⟨history, hk⟩ := Known.of_reaches hr
  have hl : callsOf () history = history.map (·.2) := by
    unfold callsOf
    rw [List.filter_eq_self.mpr (fun x _ => by simp)]
  have hfol := hk.follows ()
  rw [hk.given] at hd
  have hd := (stand_done hfol).mp hd
  have hreal := real_of_expect hfol hd.1 (by rw [hl]; exact hk.deals)
  rw [hreal]
  refine ⟨callsOf () history, hfol, hd.1, by rw [hl]; exact hk.deals, rfl⟩

/-- Of two descriptions of the session only one is true. -/
theorem trace_unique {F : DieFeeder σ} {usage : Str} {inputs : List Bytes} {f f1 f2 : σ} {l l' : List (Int64 × Out Die)}
    (h : Follows usage inputs l) (hw : (expectRun usage inputs l).2.waits = none) (hd : Deals F f l f1)
    (h' : Follows usage inputs l') (hw' : (expectRun usage inputs l').2.waits = none) (hd' : Deals F f l' f2) :
    l = l' := by
  have e1 := real_of_expect h hw (hd.record [])
  have e2 := real_of_expect h' hw' (hd'.record [])
  rw [e1] at e2
  simpa using (congrArg (fun x => x.2.2) e2)

/-- The requests that these dice answer. -/
def asked (ds : List Die) : List (Int64 × Out Die) := ds.map fun d => (d.sides, .ok d)

theorem deals_asked {ω : Fate} {i : ℕ} {ds : List Die} (h : Dealt ω i ds) :
    Deals (mtFeeder (fated ω)) i (asked ds) (i + ds.length) := by
  induction ds generalizing i with
  | nil => exact .nil
  | cons d ds ih =>
    obtain ⟨⟨h1, h2⟩, h3⟩ := h
    refine .cons (f' := i + 1) (by rw [next_fated ω i h1, ← h2]) ?_
    rw [List.length_cons, show i + (ds.length + 1) = i + 1 + ds.length by omega]
    exact ih h3

theorem asked_of_deals {ω : Fate} {i j : ℕ} {l : List (Int64 × Out Die)} (h : Deals (mtFeeder (fated ω)) i l j)
    (hs : ∀ c ∈ l, 1 ≤ c.1) : ∃ ds, l = asked ds ∧ Dealt ω i ds ∧ j = i + ds.length := by
  induction h with
  | nil => exact ⟨[], rfl, trivial, rfl⟩
  | @cons f f1 f2 k a calls h1 _ ih =>
    have hk : 1 ≤ k := hs (k, a) (by simp)
    rw [next_fated ω f hk] at h1
    cases h1
    obtain ⟨ds, rfl, h2, rfl⟩ := ih (fun c hc => hs c (by simp [hc]))
    exact ⟨die ω f k :: ds, rfl, ⟨⟨hk, rfl⟩, h2⟩, by simp; omega⟩

/-- The lists of dice for which the answers are in `A`. -/
def diceFor (usage : Str) (inputs : List Bytes) (A : Set (List (Out Result))) : Set (List Die) :=
  {ds | Follows usage inputs (asked ds) ∧ (expectRun usage inputs (asked ds)).2.waits = none ∧
    (expectRun usage inputs (asked ds)).1 ∈ A}

theorem asked_inj {ds es : List Die} (h : asked ds = asked es) : ds = es := by
  have : (asked ds).map (fun c => c.2) = (asked es).map (fun c => c.2) := by rw [h]
  simp only [asked, List.map_map] at this
  have := List.map_inj_right (f := fun d : Die => (Out.ok d : Out Die)) (fun a b h => by cases h; rfl) |>.mp
    (by simpa [Function.comp_def] using this)
  exact this

theorem diceFor_separate (usage : Str) (inputs : List Bytes) (A : Set (List (Out Result))) :
    Separate (diceFor usage inputs A) := by
  intro ω i ds es h h' hd hd'
  exact asked_inj (trace_unique h.1 h.2.1 (deals_asked hd) h'.1 h'.2.1 (deals_asked hd'))

/-- The answers are in `A` exactly if the dice are among those lists. -/
theorem answers_iff (ω : Fate) (usage : Str) (inputs : List Bytes) (A : Set (List (Out Result))) (i : ℕ) :
    (answersAlone (mtFeeder (fated ω)) (basicByteBot usage) inputs i).1 ∈ A ↔
      ∃ ds ∈ diceFor usage inputs A, Dealt ω i ds ∧
        (answersAlone (mtFeeder (fated ω)) (basicByteBot usage) inputs i).2 = i + ds.length := by
  constructor
  · intro h
    obtain ⟨l, h1, h2, h3, h4⟩ := session_trace (mtFeeder (fated ω)) usage inputs i
    obtain ⟨ds, rfl, h5, h6⟩ := asked_of_deals h3 (follows_sides h1)
    exact ⟨ds, ⟨h1, h2, by rw [h4]; exact h⟩, h5, h6⟩
  · rintro ⟨ds, ⟨h1, h2, h3⟩, h4, -⟩
    rw [real_of_expect h1 h2 (deals_asked h4)]
    exact h3

theorem dealt_state {ω : Fate} {usage : Str} {inputs : List Bytes} {A : Set (List (Out Result))} {i : ℕ}
    {ds : List Die} (h : ds ∈ diceFor usage inputs A) (hd : Dealt ω i ds) :
    (answersAlone (mtFeeder (fated ω)) (basicByteBot usage) inputs i).1 ∈ A ∧
    (answersAlone (mtFeeder (fated ω)) (basicByteBot usage) inputs i).2 = i + ds.length := by
  rw [real_of_expect h.1 h.2.1 (deals_asked hd)]
  exact ⟨h.2.2, rfl⟩

theorem chance_answers (usage : Str) (inputs : List Bytes) (A : Set (List (Out Result))) (i : ℕ) :
    chance {ω | (answersAlone (mtFeeder (fated ω)) (basicByteBot usage) inputs i).1 ∈ A} =
      ∑' ds : diceFor usage inputs A, odds ds.1 := by
  rw [← chance_some (diceFor_separate usage inputs A) i]
  congr 1
  ext ω
  simp only [Set.mem_ofPred_eq]
  rw [answers_iff]
  constructor
  · rintro ⟨ds, h1, h2, -⟩; exact ⟨ds, h1, h2⟩
  · rintro ⟨ds, h1, h2⟩; exact ⟨ds, h1, h2, (dealt_state h1 h2).2⟩

theorem chance_answers_then (usage : Str) (first later : List Bytes) (A B : Set (List (Out Result))) (i : ℕ) :
    chance {ω | (answersAlone (mtFeeder (fated ω)) (basicByteBot usage) first i).1 ∈ A ∧
        (answersAlone (mtFeeder (fated ω)) (basicByteBot usage) later
          (answersAlone (mtFeeder (fated ω)) (basicByteBot usage) first i).2).1 ∈ B} =
      (∑' ds : diceFor usage first A, odds ds.1) * ∑' ds : diceFor usage later B, odds ds.1 := by
  rw [← chance_both (diceFor_separate usage first A) (diceFor_separate usage later B) i]
  congr 1
  ext ω
  simp only [Set.mem_ofPred_eq]
  constructor
  · rintro ⟨ha, hb⟩
    obtain ⟨ds, h1, h2, h3⟩ := (answers_iff ω usage first A i).mp ha
    obtain ⟨es, h4, h5, -⟩ := (answers_iff ω usage later B _).mp hb
    exact ⟨ds, h1, h2, es, h4, by rw [← h3]; exact h5⟩
  · rintro ⟨ds, h1, h2, es, h3, h4⟩
    obtain ⟨ha, hst⟩ := dealt_state h1 h2
    refine ⟨ha, ?_⟩
    rw [hst]
    exact (dealt_state h3 h4).1

end GoBCDice
