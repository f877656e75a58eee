import Verif.Lemmas.Share
import Verif.Props.Dice

/-!
# One bot shared by goroutines (C84)
-/

namespace GoBCDice

open Share

section
variable {ι σ : Type} [DecidableEq ι] {F : DieFeeder σ} {usage : Str} {inputs : ι → List Bytes} {f0 : σ}

/-- **C84.** However the calls of `Next` are interleaved, there is one sequence of calls that explains
everything: the feeder gave these answers in this order, and a goroutine that has finished has exactly the
results that a bot gives that is asked for nothing but the goroutine's own calls among them. -/
theorem C84_answers {c : Share.Config ι σ} (h : Share.Reaches F usage inputs (start f0) c) :
    ∃ history : List (ι × Int64 × Out Die), Deals F f0 (history.map (·.2)) c.feeder ∧
      ∀ i, c.given i = (callsOf i history).map (·.2) ∧
        ∀ rs, stand usage (inputs i) (c.given i) = .done rs →
          answersAlone expecting (basicByteBot usage) (inputs i) (some (callsOf i history)) = (rs, some []) := by
  obtain ⟨history, hk⟩ := Share.Known.of_reaches h
  refine ⟨history, hk.deals, fun i => ⟨hk.given i, ?_⟩⟩
  intro rs hd
  rw [hk.given i] at hd
  obtain ⟨h1, h2⟩ := (stand_done (hk.follows i)).mp hd
  rw [expecting_of_expect (hk.follows i) h1, h2]

/-- **C84.** A goroutine that was the only one to ask has what the bot gives when nothing else runs, and
the feeder is where it is then. -/
theorem C84_alone {c : Share.Config ι σ} (h : Share.Reaches F usage inputs (start f0) c) {i : ι}
    (hj : ∀ j, j ≠ i → c.given j = []) {rs : List (Out Result)} (hd : stand usage (inputs i) (c.given i) = .done rs) :
    answersAlone F (basicByteBot usage) (inputs i) f0 = (rs, c.feeder) := by
  obtain ⟨history, hk⟩ := Share.Known.of_reaches h
  have hown : ∀ x ∈ history, x.1 = i := by
    intro x hx
    by_cases hxi : x.1 = i
    · exact hxi
    · have := hk.given x.1
      rw [hj _ hxi] at this
      have hm : x.2.2 ∈ (callsOf x.1 history).map (·.2) :=
        List.mem_map.mpr ⟨x.2, List.mem_map.mpr ⟨x, List.mem_filter.mpr ⟨hx, by simp⟩, rfl⟩, rfl⟩
      rw [← this] at hm
      cases hm
  have hc : callsOf i history = history.map (·.2) := by
    unfold callsOf
    rw [List.filter_eq_self.mpr (fun x hx => by simp [hown x hx])]
  rw [hk.given i] at hd
  obtain ⟨h1, h2⟩ := (stand_done (hk.follows i)).mp hd
  rw [real_of_expect (hk.follows i) h1 (hc ▸ hk.deals), h2]

/-- **C84.** A goroutine that has not finished can always call `Next`. -/
theorem C84_progress (c : Share.Config ι σ) (i : ι) :
    (∃ rs, stand usage (inputs i) (c.given i) = .done rs) ∨ ∃ c', Share.Step F usage inputs i c c' := by
  cases hs : stand usage (inputs i) (c.given i) with
  | done rs => exact .inl ⟨rs, rfl⟩
  | asks k =>
    right
    exact ⟨⟨(F.next c.feeder k).2, fun j => if j = i then c.given i ++ [(F.next c.feeder k).1] else c.given j⟩,
      .next hs rfl (by simp) (fun j hj => by simp [hj])⟩

end

/-! ### Queues -/

/-- Answers as a queue gives them: dice, and errors when it is empty. -/
structure QueueAnswers (l : List (Out Die)) : Prop where
  each : ∀ a ∈ l, (∃ d, a = .ok d) ∨ a = .err queueEmptyMsg
  empty : l.Pairwise (fun a b => a = .err queueEmptyMsg → b = .err queueEmptyMsg)

theorem diceOf_errs {l : List (Out Die)} (h : ∀ a ∈ l, a = .err queueEmptyMsg) : diceOf l = [] := by
  unfold diceOf
  rw [List.filterMap_eq_nil_iff]
  intro a ha
  rw [h a ha]

theorem deals_queue {q q' : List Die} {calls : List (Int64 × Out Die)} (h : Deals queueFeeder q calls q') :
    q = diceOf (calls.map (·.2)) ++ q' ∧ QueueAnswers (calls.map (·.2)) ∧
      (q = [] → ∀ a ∈ calls.map (·.2), a = .err queueEmptyMsg) := by
  induction h with
  | nil => exact ⟨rfl, ⟨(fun a h => (by cases h)), .nil⟩, (fun _ a h => (by cases h))⟩
  | @cons f f' f'' k a calls e _ ih =>
    obtain ⟨h1, ⟨h2, h3⟩, h4⟩ := ih
    cases f with
    | nil =>
      obtain ⟨rfl, rfl⟩ : .err queueEmptyMsg = a ∧ [] = f' := by
        simpa [queueFeeder, queueNext] using e
      have h5 := h4 rfl
      refine ⟨?_, ⟨?_, ?_⟩, ?_⟩
      · rw [List.map_cons]
        show [] = diceOf (calls.map (·.2)) ++ f''
        exact h1
      · intro a ha
        rw [List.map_cons, List.mem_cons] at ha
        rcases ha with rfl | ha
        · exact .inr rfl
        · exact h2 a ha
      · rw [List.map_cons, List.pairwise_cons]
        exact ⟨fun b hb _ => h5 b hb, h3⟩
      · intro _ a ha
        rw [List.map_cons, List.mem_cons] at ha
        rcases ha with rfl | ha
        · rfl
        · exact h5 a ha
    | cons d q =>
      obtain ⟨rfl, rfl⟩ : .ok d = a ∧ q = f' := by
        simpa [queueFeeder, queueNext] using e
      refine ⟨?_, ⟨?_, ?_⟩, fun h => by cases h⟩
      · rw [List.map_cons]
        show d :: q = d :: diceOf (calls.map (·.2)) ++ f''
        rw [List.cons_append, ← h1]
      · intro a ha
        rw [List.map_cons, List.mem_cons] at ha
        rcases ha with rfl | ha
        · exact .inl ⟨d, rfl⟩
        · exact h2 a ha
      · rw [List.map_cons, List.pairwise_cons]
        exact ⟨(fun b _ hb => (by cases hb)), h3⟩

theorem queueAnswers_deals {l : List (Int64 × Out Die)} (h : QueueAnswers (l.map (·.2))) :
    Deals queueFeeder (diceOf (l.map (·.2))) l [] := by
  induction l with
  | nil => exact .nil
  | cons c l ih =>
    obtain ⟨k, a⟩ := c
    obtain ⟨h1, h2⟩ := h
    rw [List.map_cons] at h1 h2
    rw [List.pairwise_cons] at h2
    have h3 := ih ⟨fun a ha => h1 a (List.mem_cons_of_mem _ ha), h2.2⟩
    rcases h1 a List.mem_cons_self with ⟨d, rfl⟩ | rfl
    · exact .cons rfl h3
    · have h4 : diceOf (l.map (·.2)) = [] := diceOf_errs (fun b hb => h2.1 b hb rfl)
      rw [h4] at h3
      rw [List.map_cons]
      show Deals queueFeeder (diceOf (l.map (·.2))) _ []
      rw [h4]
      exact .cons rfl h3

section
variable {ι : Type} [DecidableEq ι] {usage : Str} {inputs : ι → List Bytes}

/-- **C84.** On a shared queue no die is dealt twice and none is lost: the queue was the dice dealt, in the
order of the calls, and what is still in it.  A goroutine that has finished has exactly the results, and
used exactly the dice, of a bot with a queue of its own in which there are the dice dealt to it. -/
theorem C84_queue {q : List Die} {c : Share.Config ι (List Die)}
    (h : Share.Reaches queueFeeder usage inputs (start q) c) :
    ∃ history : List (ι × Int64 × Out Die), q = diceOf (history.map (·.2.2)) ++ c.feeder ∧
      ∀ i, c.given i = (callsOf i history).map (·.2) ∧
        ∀ rs, stand usage (inputs i) (c.given i) = .done rs →
          answersAlone queueFeeder (basicByteBot usage) (inputs i) (diceOf (c.given i)) = (rs, []) := by
  obtain ⟨history, hk⟩ := Share.Known.of_reaches h
  have hq := deals_queue hk.deals
  rw [List.map_map] at hq
  refine ⟨history, hq.1, fun i => ⟨hk.given i, ?_⟩⟩
  intro rs hd
  rw [hk.given i] at hd ⊢
  obtain ⟨h1, h2⟩ := (stand_done (hk.follows i)).mp hd
  have hsub : ((callsOf i history).map (·.2)).Sublist (history.map (·.2.2)) := by
    have : ((history.filter (·.1 = i)).map (·.2.2)).Sublist (history.map (·.2.2)) :=
      List.filter_sublist.map _
    unfold callsOf
    rw [List.map_map]
    exact this
  have hqa : QueueAnswers ((callsOf i history).map (·.2)) :=
    ⟨fun a ha => hq.2.1.each a (hsub.subset ha), hq.2.1.empty.sublist hsub⟩
  rw [real_of_expect (hk.follows i) h1 (queueAnswers_deals hqa), h2]

end

/-! ### Finishing -/

section
variable {ι σ : Type} [DecidableEq ι] {F : DieFeeder σ} {usage : Str} {inputs : ι → List Bytes} {c0 : Share.Config ι σ}

theorem SharedExecution.given_step (e : SharedExecution F usage inputs c0) (i : ι) (n : Nat) :
    (e.who n = some i ∧ ∃ a, (e.at' (n + 1)).given i = (e.at' n).given i ++ [a]) ∨
    (e.who n ≠ some i ∧ (e.at' (n + 1)).given i = (e.at' n).given i) := by
  cases hw : e.who n with
  | none => exact .inr ⟨by simp, by rw [e.idles n hw]⟩
  | some j =>
    by_cases hj : j = i
    · subst hj
      obtain ⟨-, -, h, -⟩ := e.steps n j hw
      exact .inl ⟨rfl, _, h⟩
    · obtain ⟨-, -, -, h⟩ := e.steps n j hw
      exact .inr ⟨by simpa using hj, h i (Ne.symm hj)⟩

theorem SharedExecution.given_prefix (e : SharedExecution F usage inputs c0) (i : ι) (n k : Nat) :
    (e.at' n).given i <+: (e.at' (n + k)).given i := by
  induction k with
  | zero => exact List.prefix_refl _
  | succ k ih =>
    rcases e.given_step i (n + k) with ⟨-, a, h⟩ | ⟨-, h⟩
    · exact ih.trans ⟨[a], h.symm⟩
    · rw [show n + (k + 1) = n + k + 1 from rfl, h]; exact ih

theorem SharedExecution.reaches (e : SharedExecution F usage inputs c0) (n : Nat) :
    Share.Reaches F usage inputs c0 (e.at' n) := by
  induction n with
  | zero => rw [e.begins]; exact .refl
  | succ n ih =>
    cases hw : e.who n with
    | none => rw [e.idles n hw]; exact ih
    | some j => exact .step ih (e.steps n j hw)

/-- **C84.** In no execution does a goroutine call `Next` for ever. -/
theorem C84_finitely_many_calls (e : SharedExecution F usage inputs c0) (i : ι) :
    ∃ n, ∀ m, n ≤ m → e.who m ≠ some i := by
  by_cases hc : ∃ n, ∀ m, n ≤ m → e.who m ≠ some i
  · exact hc
  · exfalso
    have hs : ∀ n, ∃ m, n ≤ m ∧ e.who m = some i := by
      intro n
      by_cases hn : ∃ m, n ≤ m ∧ e.who m = some i
      · exact hn
      · exact absurd ⟨n, fun m hm he => hn ⟨m, hm, he⟩⟩ hc
    have hlong : ∀ k, ∃ n, k ≤ ((e.at' n).given i).length := by
      intro k
      induction k with
      | zero => exact ⟨0, Nat.zero_le _⟩
      | succ k ih =>
        obtain ⟨n, hn⟩ := ih
        obtain ⟨m, hm, hw⟩ := hs n
        refine ⟨m + 1, ?_⟩
        have hp := e.given_prefix i n (m - n)
        rw [show n + (m - n) = m by omega] at hp
        have hl := hp.length_le
        rcases e.given_step i m with ⟨-, a, h⟩ | ⟨h, -⟩
        · rw [h, List.length_append, List.length_singleton]; omega
        · exact absurd hw h
    -- the answers one after the other
    have ha : ∃ a : Nat → Out Die, ∀ n, (e.at' n).given i = (List.range ((e.at' n).given i).length).map a := by
      refine ⟨fun k => ((e.at' (Classical.choose (hlong (k + 1)))).given i)[k]?.getD (.err []), fun n => ?_⟩
      apply List.ext_getElem
      · simp
      · intro j h1 h2
        rw [List.getElem_map, List.getElem_range]
        have ht := Classical.choose_spec (hlong (j + 1))
        generalize Classical.choose (hlong (j + 1)) = t at ht ⊢
        rcases Nat.le_total n t with h | h
        · have hp := e.given_prefix i n (t - n)
          rw [show n + (t - n) = t by omega] at hp
          rw [List.getElem?_eq_getElem (by omega), Option.getD_some]
          exact hp.getElem h1
        · have hp := e.given_prefix i t (n - t)
          rw [show t + (n - t) = n by omega] at hp
          rw [List.getElem?_eq_getElem (by omega), Option.getD_some]
          exact (hp.getElem (by omega)).symm
    obtain ⟨a, ha⟩ := ha
    obtain ⟨N, hN⟩ := stream_done a usage (inputs i)
    obtain ⟨n, hn⟩ := hlong N
    obtain ⟨m, hm, hw⟩ := hs n
    have hp := e.given_prefix i n (m - n)
    rw [show n + (m - n) = m by omega] at hp
    obtain ⟨rs, hd⟩ := hN _ (Nat.le_trans hn hp.length_le)
    obtain ⟨hk, -, -, -⟩ := e.steps m i hw
    rw [ha m, hd] at hk
    cases hk

/-- **C84.** In every execution whose schedule does not forget it, a goroutine finishes; `C84_answers`
and `C84_queue` say with what. -/
theorem C84_finishes (e : SharedExecution F usage inputs c0) (i : ι) (hf : e.Fair i) :
    ∃ n rs, ∀ m, n ≤ m → stand usage (inputs i) ((e.at' m).given i) = .done rs := by
  obtain ⟨n, hn⟩ := C84_finitely_many_calls e i
  have hsame : ∀ k, (e.at' (n + k)).given i = (e.at' n).given i := by
    intro k
    induction k with
    | zero => rfl
    | succ k ih =>
      rcases e.given_step i (n + k) with ⟨h, -⟩ | ⟨-, h⟩
      · exact absurd h (hn _ (by omega))
      · rw [show n + (k + 1) = n + k + 1 from rfl, h, ih]
  have hsame : ∀ m, n ≤ m → (e.at' m).given i = (e.at' n).given i := by
    intro m hm
    rw [show m = n + (m - n) by omega]
    exact hsame _
  cases hs : stand usage (inputs i) ((e.at' n).given i) with
  | done rs => exact ⟨n, rs, fun m hm => by rw [hsame m hm, hs]⟩
  | asks k =>
    obtain ⟨m, hm, hw⟩ := hf n (fun m hm => by
      rcases C84_progress (F := F) (usage := usage) (inputs := inputs) (e.at' m) i with ⟨rs, h⟩ | h
      · rw [hsame m hm, hs] at h; cases h
      · exact h)
    exact absurd hw (hn m hm)

/-- The goroutine `i` calls `Next`, if it wants to. -/
def advance (F : DieFeeder σ) (usage : Str) (inputs : ι → List Bytes) (i : ι) (c : Share.Config ι σ) : Share.Config ι σ :=
  match stand usage (inputs i) (c.given i) with
  | .done _ => c
  | .asks k => ⟨(F.next c.feeder k).2, fun j => if j = i then c.given i ++ [(F.next c.feeder k).1] else c.given j⟩

/-- Only the goroutine `i` runs. -/
def onlyOne (F : DieFeeder σ) (usage : Str) (inputs : ι → List Bytes) (i : ι) (c0 : Share.Config ι σ) :
    SharedExecution F usage inputs c0 where
  at' n := n.repeat (advance F usage inputs i) c0
  who n := match stand usage (inputs i) ((n.repeat (advance F usage inputs i) c0).given i) with
    | .done _ => none
    | .asks _ => some i
  begins := rfl
  steps := by
    intro n j hj
    show Share.Step F usage inputs j (n.repeat _ c0) (advance F usage inputs i (n.repeat _ c0))
    generalize n.repeat (advance F usage inputs i) c0 = c at hj ⊢
    cases hs : stand usage (inputs i) (c.given i) with
    | done rs => rw [hs] at hj; cases hj
    | asks k =>
      rw [hs] at hj
      cases hj
      unfold advance
      rw [hs]
      exact .next hs rfl (by simp) (fun j hj => by simp [hj])
  idles := by
    intro n hj
    show advance F usage inputs i (n.repeat _ c0) = n.repeat _ c0
    generalize n.repeat (advance F usage inputs i) c0 = c at hj ⊢
    cases hs : stand usage (inputs i) (c.given i) with
    | done rs => unfold advance; rw [hs]
    | asks k => rw [hs] at hj; cases hj

theorem onlyOne_fair (i : ι) : (onlyOne F usage inputs i c0).Fair i := by
  intro n hn
  refine ⟨n, Nat.le_refl n, ?_⟩
  obtain ⟨c', h⟩ := hn n (Nat.le_refl n)
  obtain ⟨h, -, -, -⟩ := h
  show (match stand usage (inputs i) ((n.repeat (advance F usage inputs i) c0).given i) with
    | .done _ => none
    | .asks _ => some i) = some i
  rw [show stand usage (inputs i) ((n.repeat (advance F usage inputs i) c0).given i) = _ from h]

/-- At any time, every goroutine can still finish, even without the others. -/
theorem C84_can_finish (c : Share.Config ι σ) (i : ι) :
    ∃ c' rs, Share.Reaches F usage inputs c c' ∧ stand usage (inputs i) (c'.given i) = .done rs ∧
      ∀ j, j ≠ i → c'.given j = c.given j := by
  obtain ⟨n, rs, h⟩ := C84_finishes (onlyOne F usage inputs i c) i (onlyOne_fair i)
  refine ⟨_, rs, (onlyOne F usage inputs i c).reaches n, h n (Nat.le_refl n), ?_⟩
  intro j hj
  show (n.repeat (advance F usage inputs i) c).given j = _
  clear h
  induction n with
  | zero => rfl
  | succ n ih =>
    rw [← ih]
    show (advance F usage inputs i (n.repeat (advance F usage inputs i) c)).given j = _
    unfold advance
    split
    · rfl
    · simp [hj]

end

/-! ### `Queue.Next` is not one step -/

/-- The call of one goroutine that is not interrupted is `Next` as modelled above. -/
theorem C84_uninterrupted (q : List Die) (k : Int64) (b : NextAt) :
    twoCalls [true, true, true, true] .begin b q = (.returned (queueFeeder.next q k).1, b, (queueFeeder.next q k).2) := by
  cases q <;> rfl

/-- **C84.** Two interleaved calls of `Queue.Next` can return the same die, and then either it is the only
one taken out of the queue, or the one behind it is lost. -/
theorem C84_same_die_twice (d : Die) (q : List Die) :
    (∃ turns, twoCalls turns .begin .begin (d :: q) = (.returned (.ok d), .returned (.ok d), q)) ∧
    ∀ e q', q = e :: q' → ∃ turns, twoCalls turns .begin .begin (d :: q) = (.returned (.ok d), .returned (.ok d), q') :=
  ⟨⟨[true, true, true, false, false, false, true, false], rfl⟩,
    fun e q' h => ⟨[true, true, false, false, true, true, false, false], by subst h; rfl⟩⟩

/-- **C84.** Two interleaved calls of `Queue.Next` on a queue with one die can end with a panic instead of
an error. -/
theorem C84_panic (d : Die) :
    ∃ turns m, twoCalls turns .begin .begin [d] = (.returned (.ok d), .returned (.panic m), []) :=
  ⟨[true, false, true, true, true, false], _, rfl⟩

/-! ### Example: two goroutines, two dice each -/

/-- Both execute `2D6` once. -/
def exampleInputs : Bool → List Bytes := fun _ => [encode chars!"2D6"]

/-- They ask by turns. -/
def exampleTurns : List Bool := [true, false, true, false]

/-- The configuration after some turns. -/
def afterTurns (q : List Die) (turns : List Bool) : Share.Config Bool (List Die) :=
  turns.foldl (fun c i => advance queueFeeder [] exampleInputs i c) (start q)

theorem advance_reaches {ι σ : Type} [DecidableEq ι] {F : DieFeeder σ} {usage : Str} {inputs : ι → List Bytes}
    (i : ι) (c : Share.Config ι σ) : Share.Reaches F usage inputs c (advance F usage inputs i c) := by
  cases hs : stand usage (inputs i) (c.given i) with
  | done rs => unfold advance; rw [hs]; exact .refl
  | asks k =>
    unfold advance
    rw [hs]
    exact .step .refl (.next hs rfl (by simp) (fun j hj => by simp [hj]))

theorem Share.Reaches.trans {ι σ : Type} {F : DieFeeder σ} {usage : Str} {inputs : ι → List Bytes}
    {c c' c'' : Share.Config ι σ} (h : Share.Reaches F usage inputs c c') (h' : Share.Reaches F usage inputs c' c'') :
    Share.Reaches F usage inputs c c'' := by
  induction h' with
  | refl => exact h
  | step _ hs ih => exact .step ih hs

theorem afterTurns_reaches (q : List Die) (turns : List Bool) :
    Share.Reaches queueFeeder [] exampleInputs (start q) (afterTurns q turns) := by
  unfold afterTurns
  generalize start q = c
  induction turns generalizing c with
  | nil => exact .refl
  | cons i turns ih =>
    rw [List.foldl_cons]
    generalize hc : advance queueFeeder [] exampleInputs i c = c'
    have := advance_reaches (F := queueFeeder) (usage := []) (inputs := exampleInputs) i c
    rw [hc] at this
    exact this.trans (ih c')

/-- The messages of a goroutine that has finished. -/
def Share.Stand.messages : Stand → Option (List Str)
  | .asks _ => none
  | .done rs => some (rs.map fun r => match r with | .ok r => r.message | _ => [])

/-- What is observed after some turns. -/
def afterTurnsShown (q : List Die) (turns : List Bool) : Option (List Str) × Option (List Str) × List Die :=
  let c := afterTurns q turns
  ((stand [] (exampleInputs true) (c.given true)).messages, (stand [] (exampleInputs false) (c.given false)).messages,
    c.feeder)

theorem exampleTurns_shown : afterTurnsShown [⟨1, 6⟩, ⟨2, 6⟩, ⟨3, 6⟩, ⟨4, 6⟩] exampleTurns =
    (some [chars!"DiceBot : (2D6) ＞ 4[1,3] ＞ 4"], some [chars!"DiceBot : (2D6) ＞ 6[2,4] ＞ 6"], []) := by
  decide +kernel

theorem serialTurns_shown : afterTurnsShown [⟨1, 6⟩, ⟨2, 6⟩, ⟨3, 6⟩, ⟨4, 6⟩] [true, true, false, false] =
    (some [chars!"DiceBot : (2D6) ＞ 3[1,2] ＞ 3"], some [chars!"DiceBot : (2D6) ＞ 7[3,4] ＞ 7"], []) := by
  decide +kernel

/-- **C84.** Commands are not indivisible: two goroutines that roll two dice each can get the first and the
third, and the second and the fourth die of the queue; the one that goes first when they run one after the
other gets the first and the second. -/
theorem C84_not_serial :
    ∃ c, Share.Reaches queueFeeder [] exampleInputs (start [⟨1, 6⟩, ⟨2, 6⟩, ⟨3, 6⟩, ⟨4, 6⟩]) c ∧
      (stand [] (exampleInputs true) (c.given true)).messages = some [chars!"DiceBot : (2D6) ＞ 4[1,3] ＞ 4"] ∧
      (stand [] (exampleInputs false) (c.given false)).messages = some [chars!"DiceBot : (2D6) ＞ 6[2,4] ＞ 6"] ∧
      c.feeder = [] ∧
      (Stand.done (answersAlone queueFeeder (basicByteBot []) [encode chars!"2D6"]
        [⟨1, 6⟩, ⟨2, 6⟩, ⟨3, 6⟩, ⟨4, 6⟩]).1).messages = some [chars!"DiceBot : (2D6) ＞ 3[1,2] ＞ 3"] := by
  have hr := afterTurns_reaches [⟨1, 6⟩, ⟨2, 6⟩, ⟨3, 6⟩, ⟨4, 6⟩] exampleTurns
  have h := exampleTurns_shown
  unfold afterTurnsShown at h
  generalize afterTurns [⟨1, 6⟩, ⟨2, 6⟩, ⟨3, 6⟩, ⟨4, 6⟩] exampleTurns = c at h hr
  simp only [Prod.mk.injEq] at h
  exact ⟨c, hr, h.1, h.2.1, h.2.2, by decide +kernel⟩

/-- One after the other they get the first two and the last two. -/
example : ∃ c, Share.Reaches queueFeeder [] exampleInputs (start [⟨1, 6⟩, ⟨2, 6⟩, ⟨3, 6⟩, ⟨4, 6⟩]) c ∧
    (stand [] (exampleInputs true) (c.given true)).messages = some [chars!"DiceBot : (2D6) ＞ 3[1,2] ＞ 3"] ∧
    (stand [] (exampleInputs false) (c.given false)).messages = some [chars!"DiceBot : (2D6) ＞ 7[3,4] ＞ 7"] := by
  have hr := afterTurns_reaches [⟨1, 6⟩, ⟨2, 6⟩, ⟨3, 6⟩, ⟨4, 6⟩] [true, true, false, false]
  have h := serialTurns_shown
  unfold afterTurnsShown at h
  generalize afterTurns [⟨1, 6⟩, ⟨2, 6⟩, ⟨3, 6⟩, ⟨4, 6⟩] [true, true, false, false] = c at h hr
  simp only [Prod.mk.injEq] at h
  exact ⟨c, hr, h.1, h.2.1⟩

/-- The only one that has asked, and has finished (the hypotheses of `C84_alone`). -/
example : ∃ c rs, Share.Reaches queueFeeder [] exampleInputs (start [⟨1, 6⟩, ⟨2, 6⟩, ⟨3, 6⟩]) c ∧
    (∀ j, j ≠ true → c.given j = []) ∧ stand [] (exampleInputs true) (c.given true) = .done rs := by
  obtain ⟨c', rs, h1, h2, h3⟩ := C84_can_finish (F := queueFeeder) (usage := []) (inputs := exampleInputs)
    (start [⟨1, 6⟩, ⟨2, 6⟩, ⟨3, 6⟩]) true
  exact ⟨c', rs, h1, fun j hj => h3 j hj, h2⟩

end GoBCDice
