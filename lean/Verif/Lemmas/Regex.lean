import Verif.Regex

/-!
# Matching with continuations

The first way that satisfies a continuation, computed without the list of all ways.
-/

namespace GoBCDice

variable {α β : Type} {rn : α → Char} {total : Nat}

theorem rx_findSome?_flatMap' (l : List α) (f : α → List β) {γ : Type} (k : β → Option γ) :
    (l.flatMap f).findSome? k = l.findSome? fun a => (f a).findSome? k := by
  induction l with
  | nil => rfl
  | cons a l ih =>
    rw [List.flatMap_cons, List.findSome?_append, ih, List.findSome?_cons]
    cases (f a).findSome? k <;> rfl

theorem rx_head?_eq_findSome? (l : List α) : l.head? = l.findSome? some := by
  cases l <;> rfl

/-- The first way that satisfies `k`. -/
def Rx.first (rn : α → Char) (total : Nat) (r : Rx) (st : RxState α) (k : RxState α → Option β) : Option β :=
  (r.ways rn total st).findSome? k

theorem first_seq (a b : Rx) (st : RxState α) (k : RxState α → Option β) :
    (Rx.seq a b).first rn total st k = a.first rn total st fun st' => b.first rn total st' k :=
  rx_findSome?_flatMap' ..

theorem first_empty (st : RxState α) (k : RxState α → Option β) : Rx.empty.first rn total st k = k st := by
  show [st].findSome? k = _
  rw [List.findSome?_cons]
  cases k st <;> rfl

theorem first_bot (st : RxState α) (k : RxState α → Option β) :
    Rx.bot.first rn total st k = if st.rest.length = total then k st else none := by
  unfold Rx.first Rx.ways
  split
  · exact first_empty (rn := rn) (total := total) st k
  · rfl

theorem first_eot (st : RxState α) (k : RxState α → Option β) :
    Rx.eot.first rn total st k = if st.rest.length = 0 then k st else none := by
  unfold Rx.first Rx.ways
  split
  · exact first_empty (rn := rn) (total := total) st k
  · rfl

theorem first_opt (r : Rx) (st : RxState α) (k : RxState α → Option β) :
    (Rx.opt r).first rn total st k = (r.first rn total st k).or (k st) := by
  show (r.ways rn total st ++ [st]).findSome? k = _
  rw [List.findSome?_append]
  congr 1
  exact first_empty (rn := rn) (total := total) st k

theorem first_cap (i : Nat) (r : Rx) (st : RxState α) (k : RxState α → Option β) :
    (Rx.cap i r).first rn total st k = r.first rn total st fun st' =>
      k { st' with caps := (i, st.rest.take (st.rest.length - st'.rest.length)) :: st'.caps } := by
  show (List.map _ _).findSome? k = _
  rw [List.findSome?_map]
  rfl

theorem first_rune (c : RuneClass) (st : RxState α) (k : RxState α → Option β) :
    (Rx.rune c).first rn total st k = match st.rest with
      | [] => none
      | x :: rest => if c.has (rn x) then k ⟨rest, st.caps⟩ else none := by
  obtain ⟨s, caps⟩ := st
  unfold Rx.first Rx.ways
  cases s with
  | nil => rfl
  | cons x rest =>
    dsimp only
    split
    · exact first_empty (rn := rn) (total := total) _ k
    · rfl

/-- As many runes as possible, then fewer and fewer. -/
def greedy (p : α → Bool) (caps : List (Nat × List α)) (k : RxState α → Option β) : List α → Option β
  | [] => k ⟨[], caps⟩
  | x :: rest => if p x then (greedy p caps k rest).or (k ⟨x :: rest, caps⟩) else k ⟨x :: rest, caps⟩

theorem rounds_rune (c : RuneClass) (caps : List (Nat × List α)) (k : RxState α → Option β) : ∀ (s : List α) (n : Nat),
    s.length ≤ n → (rxRounds ((Rx.rune c).ways rn total) n ⟨s, caps⟩).findSome? k =
      greedy (fun x => c.has (rn x)) caps k s
  | [], 0, _ => first_empty (rn := rn) (total := total) _ k
  | [], n + 1, _ => first_empty (rn := rn) (total := total) _ k
  | x :: s, n + 1, h => by
    unfold rxRounds greedy
    rw [List.findSome?_append]
    have e : ∀ st : RxState α, [st].findSome? k = k st := first_empty (rn := rn) (total := total) (k := k)
    rw [e]
    unfold Rx.ways
    dsimp only
    by_cases hc : c.has (rn x) = true
    · rw [if_pos hc, if_pos hc]
      have : List.filter (fun st' : RxState α => decide (st'.rest.length < (x :: s).length)) [⟨s, caps⟩] =
          [⟨s, caps⟩] := by simp
      rw [this, List.flatMap_cons, List.flatMap_nil, List.append_nil]
      congr 1
      exact rounds_rune c caps k s n (Nat.le_of_succ_le_succ h)
    · rw [if_neg hc, if_neg hc]
      rfl

theorem first_star_rune (c : RuneClass) (st : RxState α) (k : RxState α → Option β) :
    (Rx.star (.rune c)).first rn total st k = greedy (fun x => c.has (rn x)) st.caps k st.rest :=
  rounds_rune c st.caps k st.rest _ (Nat.le_refl _)

/-- One rune at least, as many as possible. -/
def greedy1 (p : α → Bool) (caps : List (Nat × List α)) (k : RxState α → Option β) : List α → Option β
  | [] => none
  | x :: rest => if p x then greedy p caps k rest else none

theorem first_plus_rune (c : RuneClass) (st : RxState α) (k : RxState α → Option β) :
    (Rx.plus (.rune c)).first rn total st k = greedy1 (fun x => c.has (rn x)) st.caps k st.rest := by
  have : (Rx.plus (.rune c)).first rn total st k = (Rx.rune c).first rn total st
      fun st => (rxRounds ((Rx.rune c).ways rn total) st.rest.length st).findSome? k :=
    rx_findSome?_flatMap' ..
  rw [this, first_rune]
  obtain ⟨s, caps⟩ := st
  cases s with
  | nil => rfl
  | cons x rest => unfold greedy1; dsimp only; rw [rounds_rune c caps k rest _ (Nat.le_refl _)]

/-- If the longest way works, it is taken. -/
theorem greedy_longest {p : α → Bool} {caps : List (Nat × List α)} {k : RxState α → Option β} {v : β} : ∀ {s : List α},
    k ⟨s.dropWhile p, caps⟩ = some v → greedy p caps k s = some v
  | [], h => h
  | x :: s, h => by
    unfold greedy
    rw [List.dropWhile_cons] at h
    split at h
    · rename_i hp
      rw [if_pos hp, greedy_longest h]
      rfl
    · rename_i hp
      rw [if_neg hp]
      exact h

theorem greedy_total {p : α → Bool} {caps : List (Nat × List α)} (f : RxState α → β) (s : List α) :
    greedy p caps (fun st => some (f st)) s = some (f ⟨s.dropWhile p, caps⟩) := greedy_longest rfl

/-- If the rest cannot begin with a rune of the class, only the longest way counts. -/
theorem greedy_only {p : α → Bool} {caps : List (Nat × List α)} {k : RxState α → Option β}
    (hk : ∀ x rest, p x = true → k ⟨x :: rest, caps⟩ = none) : ∀ (s : List α),
    greedy p caps k s = k ⟨s.dropWhile p, caps⟩
  | [] => rfl
  | x :: s => by
    unfold greedy
    rw [List.dropWhile_cons]
    split
    · rename_i hp
      rw [greedy_only hk s, hk x s hp, Option.or_none]
    · rfl

theorem greedy1_only {p : α → Bool} {caps : List (Nat × List α)} {k : RxState α → Option β}
    (hk : ∀ x rest, p x = true → k ⟨x :: rest, caps⟩ = none) (s : List α) :
    greedy1 p caps k s = if s.takeWhile p = [] then none else k ⟨s.dropWhile p, caps⟩ := by
  cases s with
  | nil => rfl
  | cons x s =>
    unfold greedy1
    dsimp only
    rw [List.takeWhile_cons, List.dropWhile_cons]
    by_cases hp : p x = true
    · rw [if_pos hp, if_pos hp, if_pos hp, if_neg (by simp), greedy_only hk]
    · rw [if_neg hp, if_neg hp, if_neg hp, if_pos rfl]

theorem greedy1_longest {p : α → Bool} {caps : List (Nat × List α)} {k : RxState α → Option β} {v : β} {s : List α}
    (hne : s.takeWhile p ≠ []) (h : k ⟨s.dropWhile p, caps⟩ = some v) : greedy1 p caps k s = some v := by
  cases s with
  | nil => exact absurd rfl hne
  | cons x s =>
    unfold greedy1
    dsimp only
    rw [List.takeWhile_cons] at hne
    rw [List.dropWhile_cons] at h
    by_cases hp : p x = true
    · rw [if_pos hp] at h ⊢
      exact greedy_longest h
    · rw [if_neg hp] at hne
      exact absurd rfl hne

theorem length_dropWhile_le' (p : α → Bool) (s : List α) : (s.dropWhile p).length ≤ s.length :=
  (List.dropWhile_suffix p).length_le

/-- Taking nothing more than `s` from in front of what is left. -/
theorem rx_take_dropWhile (p : α → Bool) (s : List α) :
    s.take (s.length - (s.dropWhile p).length) = s.takeWhile p := by
  have h : s.takeWhile p ++ s.dropWhile p = s := List.takeWhile_append_dropWhile
  have hl : s.length - (s.dropWhile p).length = (s.takeWhile p).length := by
    have := congrArg List.length h
    rw [List.length_append] at this
    omega
  rw [hl]
  calc s.take (s.takeWhile p).length = (s.takeWhile p ++ s.dropWhile p).take (s.takeWhile p).length := by rw [h]
    _ = s.takeWhile p := List.take_left

/-- A search for an expression that begins with `\A`. -/
theorem search_bot (r : Rx) (s : List α) :
    (Rx.seq .bot r).search rn s.length s = (r.first rn s.length ⟨s, []⟩ some).map fun st => ([], st) := by
  have hd : ∀ t : List α, ((Rx.seq .bot r).ways rn s.length ⟨t, []⟩).head? =
      if t.length = s.length then r.first rn s.length ⟨t, []⟩ some else none := by
    intro t
    rw [rx_head?_eq_findSome?]
    exact (first_seq _ _ _ _).trans (first_bot _ _)
  have late : ∀ t : List α, t.length < s.length → (Rx.seq .bot r).search rn s.length t = none := by
    intro t
    induction t with
    | nil =>
      intro h
      unfold Rx.search
      rw [hd, if_neg (by omega)]
      rfl
    | cons x t ih =>
      intro h
      unfold Rx.search
      rw [hd, if_neg (by omega), ih (by rw [List.length_cons] at h; omega)]
      rfl
  cases s with
  | nil =>
    unfold Rx.search
    rw [hd, if_pos rfl]
  | cons x t =>
    unfold Rx.search
    rw [hd, if_pos rfl, late t (Nat.lt_succ_self _)]
    cases r.first rn (x :: t).length ⟨x :: t, []⟩ some <;> rfl

theorem has_spaces (x : Char) : (RuneClass.mk false spaceRanges).has x =
    (decide (x = '\t') || decide (x = '\n') || decide (x = '\x0c') || decide (x = '\r') || decide (x = ' ')) := by
  have key : ∀ a b : Char, (decide (a ≤ x) && decide (x ≤ b)) = decide (a.toNat ≤ x.toNat ∧ x.toNat ≤ b.toNat) := by
    intro a b
    rw [Bool.decide_and]
    rfl
  have eqv : ∀ a : Char, decide (x = a) = decide (x.toNat = a.toNat) := by
    intro a
    congr 1
    exact propext ⟨fun h => by rw [h], fun h => Char.ext (UInt32.toNat_inj.1 h)⟩
  unfold RuneClass.has spaceRanges
  simp only [List.any_cons, List.any_nil, Bool.or_false, Bool.bne_false, key, eqv]
  simp only [← Bool.decide_or]
  congr 1
  have e1 : '\t'.toNat = 9 := rfl
  have e2 : '\n'.toNat = 10 := rfl
  have e3 : '\x0c'.toNat = 12 := rfl
  have e4 : '\r'.toNat = 13 := rfl
  have e5 : ' '.toNat = 32 := rfl
  rw [e1, e2, e3, e4, e5]
  apply propext
  omega

end GoBCDice
