import Verif.Spec.Message
import Verif.Lemmas.Notation
import Verif.Lemmas.Redisplay

/-! # Lemmas on the text of D messages -/

namespace GoBCDice

theorem NoDigitFirst.append {a b : Str} (ha : NoDigitFirst a) (hb : NoDigitFirst b) :
    NoDigitFirst (a ++ b) := by
  cases a with
  | nil => simpa using hb
  | cons c a => intro d hd; exact ha d (by simpa using hd)

theorem NoDigitLast.append {a b : Str} (ha : NoDigitLast a) (hb : NoDigitLast b) :
    NoDigitLast (a ++ b) := by
  intro c hc
  rw [List.getLast?_append] at hc
  cases h : b.getLast? with
  | none => rw [h] at hc; exact ha c (by simpa using hc)
  | some d => rw [h] at hc; exact hb c (by rw [h]; simpa using hc)

theorem NoDigitFirst.of_ne {a : Str} (hne : a ≠ []) (ha : NoDigitFirst a) (b : Str) :
    NoDigitFirst (a ++ b) := by
  cases a with
  | nil => exact absurd rfl hne
  | cons c a => intro d hd; exact ha d (by simpa using hd)

theorem NoDigitLast.of_ne {b : Str} (hne : b ≠ []) (hb : NoDigitLast b) (a : Str) :
    NoDigitLast (a ++ b) := by
  intro c hc
  rw [List.getLast?_append] at hc
  cases h : b.getLast? with
  | none => rw [List.getLast?_eq_none_iff] at h; exact absurd h hne
  | some d => rw [h] at hc; exact hb c (by rw [h]; simpa using hc)

theorem RollsShown.prepend {t a b : Str} {rs : List Die} (h : RollsShown a rs b) (hD : 'D' ∉ t)
    (hl : NoDigitLast t) : RollsShown (t ++ a) rs (t ++ b) := by
  cases h with
  | text hu => exact .text (by simp [hD, hu])
  | roll h1 h2 h3 h4 h5 =>
    have := RollsShown.roll (t := t ++ _) (by simp only [List.mem_append]; exact not_or.mpr ⟨hD, h1⟩)
      (hl.append h2) h3 h4 h5
    simpa using this

theorem RollsShown.glue {a b g c d : Str} {rs ss : List Die} (h : RollsShown a rs b)
    (h' : RollsShown c ss d) (hD : 'D' ∉ g) (hne : g ≠ []) (hf : NoDigitFirst g)
    (hl : NoDigitLast g) : RollsShown (a ++ g ++ c) (rs ++ ss) (b ++ g ++ d) := by
  induction h with
  | text hu =>
    exact h'.prepend (by simp [hD, hu]) (hl.of_ne hne _)
  | @roll t a b x y gr rs h1 h2 h3 h4 _ ih =>
    have := RollsShown.roll h1 h2 h3 (a := a ++ g ++ c)
      (by rw [List.append_assoc]; exact h4.append (hf.of_ne hne _)) ih
    simpa using this

theorem RollsShown.suffix {a b g : Str} {rs : List Die} (h : RollsShown a rs b)
    (hD : 'D' ∉ g) (hf : NoDigitFirst g) : RollsShown (a ++ g) rs (b ++ g) := by
  induction h with
  | text hu => exact .text (by simp [hD, hu])
  | @roll t a b x y gr rs h1 h2 h3 h4 _ ih =>
    have := RollsShown.roll h1 h2 h3 (a := a ++ g) (h4.append hf) ih
    simpa using this

theorem RollsShown.paren {a b : Str} {rs : List Die} (h : RollsShown a rs b) :
    RollsShown (parenthesize a) rs (parenthesize b) :=
  ((h.prepend (t := chars!"(") (by decide) (by intro c hc; cases hc; decide)).suffix
    (g := chars!")") (by decide) (by intro c hc; cases hc; decide))

theorem D_not_mem_natStr (n : Nat) : 'D' ∉ natStr n := fun h =>
  absurd (natStr_isDigit n 'D' h) (by decide)

theorem D_not_mem_intStr (v : Int64) : 'D' ∉ intStr v := by
  unfold intStr
  split
  · simp [D_not_mem_natStr]
  · exact D_not_mem_natStr _

theorem D_not_mem_join (vs : List Int64) : 'D' ∉ join chars!"," (vs.map intStr) := by
  induction vs with
  | nil => simp [join]
  | cons v vs ih =>
    cases vs with
    | nil => simpa [join] using D_not_mem_intStr v
    | cons w vs =>
      have hv := D_not_mem_intStr v
      simp only [List.map, join, List.mem_append, not_or] at ih ⊢
      exact ⟨⟨hv, by decide⟩, ih⟩

theorem sumInts_eq_sum' (vs : List Int64) : sumInts vs = vs.sum := by
  unfold sumInts
  rw [List.sum_eq_foldl]

theorem sumRollNotation_eq (g : List Die) : sumRollNotation g = rollResultText g := by
  simp only [sumRollNotation, rollResultText, valuesText, List.map_map, sumDice, sumInts_eq_sum']
  rfl

theorem D_not_mem_sumRoll (g : List Die) : 'D' ∉ sumRollNotation g := by
  have := D_not_mem_join (g.map Die.value)
  have h2 := D_not_mem_intStr (sumDice g)
  simp only [List.map_map] at this
  simp only [sumRollNotation, List.mem_append, not_or]
  exact ⟨⟨⟨h2, by decide⟩, this⟩, by decide⟩

theorem DDice.isPrefix {e e' : Expr} {rs : List Die} (h : DDice e rs e') :
    e'.isPrefix = e.isPrefix := by cases h <;> rfl

theorem DDice.isPrimary {e e' : Expr} {rs : List Die} (h : DDice e rs e') :
    e'.isPrimary = e.isPrimary := by cases h <;> rfl

theorem DDice.needsParen {e e' : Expr} {rs : List Die} (h : DDice e rs e') (p : Prec) (b : Bool)
    (hp : p.rank ≤ 3) : e'.needsParen p b = e.needsParen p b := by
  cases h <;> try rfl
  simp only [Expr.needsParen, Expr.prec?, VarKind.prec]
  have : p.rank < Prec.roll.rank := by show p.rank < 4; omega
  have h2 : ¬ Prec.roll.rank < p.rank := by omega
  have h3 : ¬ Prec.roll.rank = p.rank := by omega
  simp [h2, h3]

theorem BinOp.rank_le (op : BinOp) : op.prec.rank ≤ 3 := by cases op <;> decide

theorem DDice.shown {e e' : Expr} {rs : List Die} (h : DDice e rs e') :
    ∀ wl, RollsShown (infixNotation wl e) rs (infixNotation wl e') := by
  induction h with
  | int v => intro wl; exact .text (by simpa [infixNotation] using D_not_mem_intStr v)
  | sumRoll ds => intro wl; exact .text (by simpa [infixNotation] using D_not_mem_sumRoll ds)
  | @neg r r' as h ih =>
    intro wl
    simp only [infixNotation, h.isPrimary]
    split
    · exact (ih wl).prepend (by decide) (by intro c hc; cases hc; decide)
    · exact (ih true).paren.prepend (by decide) (by intro c hc; cases hc; decide)
  | @bin op l r l' r' as bs hl hr ihl ihr =>
    intro wl
    simp only [infixNotation, hl.isPrefix, hr.isPrefix, hl.needsParen _ _ op.rank_le,
      hr.needsParen _ _ op.rank_le]
    refine RollsShown.glue (g := op.str) ?_ ?_ (by cases op <;> decide) (by cases op <;> decide)
      (by cases op <;> intro c hc <;> cases hc <;> decide)
      (by cases op <;> intro c hc <;> cases hc <;> decide)
    · split
      · exact ihl wl
      · split
        · exact (ihl wl).paren
        · split
          · exact (ihl true).paren
          · exact ihl wl
    · split
      · exact (ihr false).paren
      · split
        · exact (ihr true).paren
        · exact ihr false
  | @div m l r l' r' as bs hl hr ihl ihr =>
    intro wl
    simp only [infixNotation, hl.isPrefix, hr.isPrefix, hl.needsParen .multitive _ (by decide),
      hr.needsParen .multitive _ (by decide)]
    refine RollsShown.suffix (RollsShown.glue (g := chars!"/") ?_ ?_ (by decide) (by decide)
      (by intro c hc; cases hc; decide) (by intro c hc; cases hc; decide))
      (by cases m <;> decide) (by cases m <;> intro c hc <;> cases hc <;> decide)
    · split
      · exact ihl wl
      · split
        · exact (ihl wl).paren
        · split
          · exact (ihl true).paren
          · exact ihl wl
    · split
      · exact (ihr false).paren
      · split
        · exact (ihr true).paren
        · exact ihr false
  | @roll x y rs h =>
    intro wl
    have := RollsShown.roll (t := []) (a := []) (b := []) (rs := []) (by simp) (by intro c hc; cases hc) h
      (by intro c hc; cases hc) (.text (by simp))
    simpa [infixNotation, Expr.isPrefix, Expr.needsParen, Expr.prec?, sumRollNotation_eq] using this

/-! ### Uniqueness: the text and the dice determine what is shown -/

theorem intStr_digits {x : Int64} (h : 1 ≤ x) : ∀ c ∈ intStr x, isDigit c = true := by
  have := nonneg_of_one_le h
  rw [Int64.le_iff_toInt_le] at this
  unfold intStr
  rw [if_neg (by simpa using this)]
  exact natStr_isDigit _

theorem split_at_D {p q r s : Str} (hp : 'D' ∉ p) (hq : 'D' ∉ q)
    (h : p ++ 'D' :: r = q ++ 'D' :: s) : p = q ∧ r = s := by
  induction p generalizing q with
  | nil =>
    cases q with
    | nil => simpa using h
    | cons c q => simp at h; exact absurd h.1 (by simp at hq; exact hq.1)
  | cons a p ih =>
    cases q with
    | nil => simp at h; simp [h.1] at hp
    | cons c q =>
      simp only [List.cons_append, List.cons.injEq] at h
      simp only [List.mem_cons, not_or] at hp hq
      obtain ⟨h1, h2⟩ := ih hp.2 hq.2 h.2
      exact ⟨by rw [h.1, h1], h2⟩

theorem digits_prefix {p q r s : Str} (hp : ∀ c ∈ p, isDigit c = true)
    (hq : ∀ c ∈ q, isDigit c = true) (hr : NoDigitFirst r) (hs : NoDigitFirst s)
    (h : p ++ r = q ++ s) : p = q ∧ r = s := by
  induction p generalizing q with
  | nil =>
    cases q with
    | nil => simpa using h
    | cons c q =>
      have h1 := hr c (by simp at h; simp [h])
      rw [hq c (by simp)] at h1; cases h1
  | cons a p ih =>
    cases q with
    | nil =>
      have h1 := hs a (by simp at h; simp [← h])
      rw [hp a (by simp)] at h1; cases h1
    | cons c q =>
      simp only [List.cons_append, List.cons.injEq] at h
      obtain ⟨h1, h2⟩ := ih (fun c hc => hp c (by simp [hc])) (fun c hc => hq c (by simp [hc])) h.2
      exact ⟨by rw [h.1, h1], h2⟩

theorem digits_suffix {p q r s : Str} (hp : ∀ c ∈ p, isDigit c = true)
    (hq : ∀ c ∈ q, isDigit c = true) (hr : NoDigitLast r) (hs : NoDigitLast s)
    (h : r ++ p = s ++ q) : r = s ∧ p = q := by
  have := digits_prefix (p := p.reverse) (q := q.reverse) (r := r.reverse) (s := s.reverse)
    (by simpa using hp) (by simpa using hq)
    (by intro c hc; exact hr c (by simpa using hc)) (by intro c hc; exact hs c (by simpa using hc))
    (by rw [← List.reverse_append, ← List.reverse_append, h])
  simp only [List.reverse_inj] at this
  exact ⟨this.2, this.1⟩

theorem RollsShown.unique {a b b' : Str} {rs : List Die} (h : RollsShown a rs b)
    (h' : RollsShown a rs b') : b = b' := by
  induction h generalizing b' with
  | @text t ht =>
    generalize hr : ([] : List Die) = rs at h'
    cases h' with
    | text _ => rfl
    | @roll t a b x y g rs h1 h2 h3 h4 h5 => simp at ht
  | @roll t a b x y g rs h1 h2 h3 h4 h5 ih =>
    generalize ha : t ++ intStr x ++ chars!"D" ++ intStr y ++ a = s at h'
    generalize hr : g ++ rs = rs' at h'
    cases h' with
    | text ht => subst ha; simp at ht
    | @roll t' a' b' x' y' g' rs'' k1 k2 k3 k4 k5 =>
      have e1 : (t ++ intStr x) ++ 'D' :: (intStr y ++ a) = (t' ++ intStr x') ++ 'D' :: (intStr y' ++ a') := by
        simpa using ha
      obtain ⟨e2, e3⟩ := split_at_D (by simp [h1, D_not_mem_intStr]) (by simp [k1, D_not_mem_intStr]) e1
      obtain ⟨e4, e5⟩ := digits_suffix (intStr_digits h3.2.1) (intStr_digits k3.2.1) h2 k2 e2
      obtain ⟨e6, e7⟩ := digits_prefix (intStr_digits h3.1) (intStr_digits k3.1) h4 k4 e3
      have ex := intStr_inj e5
      have ey := intStr_inj e6
      subst ex ey e4 e7
      have hlen : g.length = g'.length := by
        have a1 := h3.2.2.2.1; have a2 := k3.2.2.2.1; omega
      obtain ⟨e8, e9⟩ := List.append_inj hr hlen
      subst e8 e9
      rw [ih k5]

end GoBCDice
