import Verif.Lemmas.Reroll

/-!
# How many rerolls (C92)
-/

namespace GoBCDice
open MeasureTheory

variable {usage input body : Str} {secret : Bool}

theorem ofNat_toNat {x : Int64} (h : 1 ≤ x) : Int64.ofNat x.toInt.toNat = x := by
  have h : (1 : Int) ≤ x.toInt := Int64.le_iff_toInt_le.mp h
  have := x.toInt_lt
  rw [← Int64.toInt_inj, Int64.toInt_ofNat_of_lt (by omega)]
  omega

theorem one_roll {x y : Int64} (h1 : 1 ≤ x) (h2 : x.toInt ≤ 2 ^ 44) (h3 : 1 ≤ y) :
    ∀ r ∈ [(⟨.int x, .int y⟩ : Roll)], OrdinaryRoll r := by
  intro r hr; rw [List.mem_singleton.mp hr]; exact .mk h1 h2 h3

theorem Refused.not_refused {f : Str} {th : Int64} {msg : Str} (h : Refused f (some th) msg) : ¬ 2 ≤ th := by
  cases h with | small h => rw [Int64.not_le]; exact h

/-- **C92.** `xRy[th]`: exactly `k` dice are rerolled. -/
theorem C92_R {x y th : Int64} (hm : Marked input body secret)
    (ht : CommandText body (.rRollList ⟨[⟨.int x, .int y⟩], some (.int th)⟩)) (h1 : 1 ≤ x) (h2 : x.toInt ≤ 2 ^ 44)
    (h3 : 1 ≤ y) (h4 : 2 ≤ th) (i k : ℕ) (hk : k + 1 < 10000) :
    chance (Answered usage input i fun r => r.rolledDice.length = x.toInt.toNat + k) =
      ((x.toInt.toNat + k - 1).choose k * winningFaces .ge th.toInt y.toInt.toNat ^ k *
        (y.toInt.toNat - winningFaces .ge th.toInt y.toInt.toNat) ^ x.toInt.toNat : ℕ) /
        (y.toInt.toNat ^ (x.toInt.toNat + k) : ℕ) := by
  have hx : (1 : Int) ≤ x.toInt := Int64.le_iff_toInt_le.mp h1
  rw [answered_iff hm ht (.rRollList (one_roll h1 h2 h3) (by intro e he; cases he; exact .int)),
    ← chance_ended x.toInt.toNat k y th (by omega) i]
  congr 1
  ext ω
  simp only [Set.mem_ofPred_eq]
  constructor
  · rintro ⟨ds, ⟨r, h, hr⟩, hd⟩
    refine ⟨ds, ?_, hd⟩
    cases h with
    | rRollRefused a1 a2 a3 =>
      cases a1 with | given a1 =>
      cases a1
      exact absurd h4 a3.not_refused
    | rRollList a1 a2 a3 a4 =>
      cases a1 with | given a1 =>
      cases a1
      cases a2 with | cons b1 b2 b3 =>
      cases b1; cases b2; cases b3
      obtain ⟨s1, s2, s3⟩ := rgroups_stream (n := 9999) a4
      simp only [List.append_nil, List.nil_append] at hr ⊢
      refine ⟨hr, s1, ?_⟩
      rcases s3 with s3 | s3
      · rwa [hr, Nat.add_sub_cancel_left] at s3
      · omega
  · rintro ⟨ds, ⟨hl, hs, he⟩, hd⟩
    obtain ⟨gs, g1, g2⟩ := rgroups_of_stream h3 10000 x.toInt.toNat k ds (by omega) (by omega) hl hs he (by omega)
    rw [ofNat_toNat h1] at g1
    have := Outcome.rRollList (limit := 10000) (gameID := chars!"DiceBot") (rl := ⟨[⟨.int x, .int y⟩], some (.int th)⟩)
      (.given (Ev.int th)) (Args.cons (r := ⟨.int x, .int y⟩) (Ev.int x) (Ev.int y) .nil) h4 g1
    rw [show ([] ++ ([] ++ [] ++ []) ++ gs.flatten) = ds by simp [g2]] at this
    exact ⟨ds, ⟨_, this, hl⟩, hd⟩

/-- **C92.** `xUy[th]`: exactly `k` dice are rerolled. -/
theorem C92_U {x y th : Int64} (hm : Marked input body secret)
    (ht : CommandText body (.uRollExpr ⟨⟨[⟨.int x, .int y⟩], some (.int th)⟩, none⟩)) (h1 : 1 ≤ x) (h2 : x.toInt ≤ 2 ^ 44)
    (h3 : 1 ≤ y) (h4 : 2 ≤ th) (i k : ℕ) (hk : k + 1 < 10000) :
    chance (Answered usage input i fun r => r.rolledDice.length = x.toInt.toNat + k) =
      ((x.toInt.toNat + k - 1).choose k * winningFaces .ge th.toInt y.toInt.toNat ^ k *
        (y.toInt.toNat - winningFaces .ge th.toInt y.toInt.toNat) ^ x.toInt.toNat : ℕ) /
        (y.toInt.toNat ^ (x.toInt.toNat + k) : ℕ) := by
  have hx : (1 : Int) ≤ x.toInt := Int64.le_iff_toInt_le.mp h1
  rw [answered_iff hm ht (.uRollExpr (one_roll h1 h2 h3) (by intro e he; cases he; exact .int) (by intro b hb; cases hb)),
    ← chance_ended x.toInt.toNat k y th (by omega) i]
  congr 1
  ext ω
  simp only [Set.mem_ofPred_eq]
  constructor
  · rintro ⟨ds, ⟨r, h, hr⟩, hd⟩
    refine ⟨ds, ?_, hd⟩
    cases h with
    | uRollRefused a1 a2 a3 a4 =>
      cases a1 with | given a1 =>
      cases a1
      exact absurd h4 a4.not_refused
    | @uRollExpr _ ts as ms th ps m maxSum gs a1 a2 a3 a4 a5 a6 =>
      cases a1 with | given a1 =>
      cases a1
      cases a3
      cases a2 with | cons b1 b2 b3 =>
      cases b1; cases b2; cases b3
      generalize hgs : gs = gs' at a5 hr
      cases a5 with | @cons _ _ gs1 _ c1 c2 =>
      cases c2
      obtain ⟨-, -, -, c3, c4⟩ := c1
      simp only [List.append_nil] at hgs hr
      subst hgs
      have c3 : (gs.length : Int) = x.toInt := c3
      have hne : gs ≠ [] := by rintro rfl; simp at c3; omega
      obtain ⟨s1, s2, s3⟩ := ugroups_stream (by decide) c4 hne
      simp only [List.nil_append, List.append_nil] at hr ⊢
      refine ⟨hr, s1, ?_⟩
      rcases s3 with s3 | s3
      · rwa [hr, show x.toInt.toNat + k - gs.length = k by omega] at s3
      · omega
  · rintro ⟨ds, ⟨hl, hs, he⟩, hd⟩
    obtain ⟨gs, g1, g2, g3⟩ := ugroups_of_stream (limit := 10000) h3 x.toInt.toNat k ds (by omega) hl hs he (by omega)
    have hcap : x ≤ maxMakeCap := by rw [Int64.le_iff_toInt_le, maxMakeCap_toInt, cap_eq]; omega
    have hne : groupSums gs ≠ [] := by
      intro h
      have : (groupSums gs).length = gs.length := by simp [groupSums]
      rw [h] at this
      simp at this
      omega
    obtain ⟨mx, hmx⟩ : ∃ mx, IsMax mx (groupSums gs) := ⟨_, (maxInteger_isMax (groupSums gs)).resolve_left (fun h => hne h.1)⟩
    have := Outcome.uRollExpr (limit := 10000) (gameID := chars!"DiceBot")
      (u := ⟨⟨[⟨.int x, .int y⟩], some (.int th)⟩, none⟩) (gs := gs ++ []) (maxSum := mx) (ms := [])
      (.given (Ev.int th)) (Args.cons (r := ⟨.int x, .int y⟩) (Ev.int x) (Ev.int y) .nil) .absent h4
      (.cons (gs := gs) ⟨h3, h1, hcap, by show (gs.length : Int) = x.toInt; omega, g2⟩ .nil)
      (.inr (by rw [List.append_nil]; exact hmx))
    simp only [List.nil_append, List.append_nil, g3] at this
    exact ⟨ds, ⟨_, this, hl⟩, hd⟩

/-- **C92.** `xRy>=t`: exactly `k` successes. -/
theorem C92_R_successes {x y t : Int64} (hm : Marked input body secret)
    (ht : CommandText body (.rRollComp ⟨[⟨.int x, .int y⟩], none⟩ .ge (.int t))) (h1 : 1 ≤ x) (h2 : x.toInt ≤ 2 ^ 44)
    (h3 : 1 ≤ y) (h4 : 2 ≤ t) (i k : ℕ) (hk : k < 10000) :
    chance (ShowsSuccesses usage input i k) =
      ((x.toInt.toNat + k - 1).choose k * winningFaces .ge t.toInt y.toInt.toNat ^ k *
        (y.toInt.toNat - winningFaces .ge t.toInt y.toInt.toNat) ^ x.toInt.toNat : ℕ) /
        (y.toInt.toNat ^ (x.toInt.toNat + k) : ℕ) := by
  have hx : (1 : Int) ≤ x.toInt := Int64.le_iff_toInt_le.mp h1
  have hsucc : ∀ ds : List Die, successes .ge t (ds.map Die.value) = hits t ds := by
    intro ds
    rw [successes, List.filter_map, List.length_map, hits]
    congr 2
    funext d
    simp only [Function.comp, CmpOp.Rel, Int64.le_iff_toInt_le]
  rw [ShowsSuccesses, answered_iff hm ht (.rRollComp (one_roll h1 h2 h3) (by intro e he; cases he) .int),
    ← chance_ended x.toInt.toNat k y t (by omega) i]
  congr 1
  ext ω
  simp only [Set.mem_ofPred_eq]
  constructor
  · rintro ⟨ds, ⟨r, h, hr⟩, hd⟩
    cases h with
    | rRollCompRefused a1 a2 a3 a4 =>
      cases a1
      cases a3
      exact absurd h4 a4.not_refused
    | @rRollComp _ _ _ ts as bs th th' ps gs target a1 a2 a3 a4 a5 a6 =>
      cases a1
      cases a3
      cases a4
      cases a2 with | cons b1 b2 b3 =>
      cases b1; cases b2; cases b3
      have a6 : RGroups t 10000 [(x, y)] gs := a6
      obtain ⟨s1, s2, s3⟩ := rgroups_stream (n := 9999) a6
      simp only [List.append_nil, List.nil_append] at hr hd ⊢
      have hr : intStr (Int64.ofNat (successes .ge t (gs.flatten.map Die.value))) = intStr (Int64.ofNat k) := by
        simpa using hr
      rw [hsucc] at hr
      have hr := intStr_inj hr
      refine ⟨gs.flatten, ?_, hd⟩
      have hlen : hits t gs.flatten < 2 ^ 63 := by
        have a := hits_le t gs.flatten
        have b := rgroups_length a6
        omega
      have hr := ofNat_inj_of_lt hlen (by omega) hr
      rcases s3 with s3 | s3
      · have := s3.1
        have hl : gs.flatten.length = x.toInt.toNat + k := by omega
        rw [hl, Nat.add_sub_cancel_left] at s3
        exact ⟨hl, s1, s3⟩
      · omega
  · rintro ⟨ds, ⟨hl, hs, he⟩, hd⟩
    obtain ⟨gs, g1, g2⟩ := rgroups_of_stream h3 10000 x.toInt.toNat k ds (by omega) (by omega) hl hs he (by omega)
    rw [ofNat_toNat h1] at g1
    have := Outcome.rRollComp (limit := 10000) (gameID := chars!"DiceBot") (rl := ⟨[⟨.int x, .int y⟩], none⟩) (op := .ge)
      (th := none) .absent (Args.cons (r := ⟨.int x, .int y⟩) (Ev.int x) (Ev.int y) .nil) (Ev.int t) rfl h4 g1
    rw [show ([] ++ ([] ++ [] ++ []) ++ [] ++ gs.flatten) = ds by simp [g2]] at this
    refine ⟨ds, ⟨_, this, ?_⟩, hd⟩
    simp only [g2, hsucc, he.1]
    rfl

/-! ### Examples -/

section Examples
set_option maxRecDepth 20000

/-- `3R6>=5`: two successes in 6 · 4 · 64 of 7776 cases. -/
example (usage : Str) (i : ℕ) : chance (ShowsSuccesses usage chars!"3R6>=5" i 2) = 1536 / 7776 := by
  have h := C92_R_successes (usage := usage) (x := 3) (y := 6) (t := 5) (Marked.plain (body := chars!"3R6>=5") (by decide))
    ((C27_language _ _).mp (by decide)) (by decide) (by decide) (by decide) (by decide) i 2 (by decide)
  have c : ((3 : Int64).toInt.toNat + 2 - 1).choose 2 * winningFaces .ge (5 : Int64).toInt (6 : Int64).toInt.toNat ^ 2 *
        ((6 : Int64).toInt.toNat - winningFaces .ge (5 : Int64).toInt (6 : Int64).toInt.toNat) ^
          (3 : Int64).toInt.toNat = 1536 := by decide
  have d : (6 : Int64).toInt.toNat ^ ((3 : Int64).toInt.toNat + 2) = 7776 := by decide
  rw [c, d] at h
  exact_mod_cast h

/-- `2R6[6]` rolls three dice, and so does `S2U6[6]`, with probability 2 · 1 · 25 / 216. -/
example (usage : Str) (i : ℕ) :
    chance (Answered usage chars!"2R6[6]" i fun r => r.rolledDice.length = 3) = 50 / 216 ∧
    chance (Answered usage chars!"S2U6[6]" i fun r => r.rolledDice.length = 3) = 50 / 216 := by
  have h := C92_R (usage := usage) (x := 2) (y := 6) (th := 6) (Marked.plain (body := chars!"2R6[6]") (by decide))
    ((C27_language _ _).mp (by decide)) (by decide) (by decide) (by decide) (by decide) i 1 (by decide)
  have h' := C92_U (usage := usage) (x := 2) (y := 6) (th := 6) (Marked.secret (c := 'S') (body := chars!"2U6[6]") (.inl rfl))
    ((C27_language _ _).mp (by decide)) (by decide) (by decide) (by decide) (by decide) i 1 (by decide)
  have c : ((2 : Int64).toInt.toNat + 1 - 1).choose 1 * winningFaces .ge (6 : Int64).toInt (6 : Int64).toInt.toNat ^ 1 *
        ((6 : Int64).toInt.toNat - winningFaces .ge (6 : Int64).toInt (6 : Int64).toInt.toNat) ^
          (2 : Int64).toInt.toNat = 50 := by decide
  have d : (6 : Int64).toInt.toNat ^ ((2 : Int64).toInt.toNat + 1) = 216 := by decide
  rw [c, d] at h h'
  exact ⟨by exact_mod_cast h, by exact_mod_cast h'⟩

end Examples

end GoBCDice
