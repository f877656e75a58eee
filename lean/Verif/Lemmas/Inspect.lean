import Verif.RawEval
import Verif.Lemmas.Str
import Verif.Lemmas.SExp

/-!
# The texts of `Inspect` identify values
-/

set_option linter.unusedSimpArgs false

namespace GoBCDice

/-- The text does not start with a digit. -/
def NoDigit (s : Str) : Prop := ∀ c ∈ s.head?, isDigit c = false

theorem noDigit_cons {c : Char} {s : Str} (h : isDigit c = false) : NoDigit (c :: s) := by
  intro d hd; simp at hd; rw [← hd]; exact h

theorem digits_split {a b x y : Str} (ha : ∀ c ∈ a, isDigit c = true)
    (hb : ∀ c ∈ b, isDigit c = true) (hx : NoDigit x) (hy : NoDigit y) (h : a ++ x = b ++ y) :
    a = b ∧ x = y := by
  induction a generalizing b with
  | nil =>
    cases b with
    | nil => exact ⟨rfl, h⟩
    | cons c b =>
      simp only [List.nil_append, List.cons_append] at h
      have h1 := hx c (by simp [h])
      have h2 := hb c (by simp)
      rw [h1] at h2; cases h2
  | cons c a ih =>
    cases b with
    | nil =>
      simp only [List.nil_append, List.cons_append] at h
      have h1 := hy c (by simp [← h])
      have h2 := ha c (by simp)
      rw [h1] at h2; cases h2
    | cons d b =>
      simp only [List.cons_append, List.cons.injEq] at h
      obtain ⟨rfl, h⟩ := h
      obtain ⟨h1, h2⟩ := ih (fun c hc => ha c (by simp [hc])) (fun c hc => hb c (by simp [hc])) h
      exact ⟨by rw [h1], h2⟩

theorem intStr_head (v : Int64) : ∃ c s, intStr v = c :: s ∧ (c = '-' ∨ isDigit c = true) := by
  unfold intStr
  split
  · exact ⟨_, _, rfl, Or.inl rfl⟩
  · have h := natStr_ne_nil v.toInt.natAbs
    cases hs : natStr v.toInt.natAbs with
    | nil => exact absurd hs h
    | cons c s => exact ⟨c, s, rfl, Or.inr (natStr_isDigit _ c (by rw [hs]; simp))⟩

theorem intStr_split {a b : Int64} {x y : Str} (hx : NoDigit x) (hy : NoDigit y)
    (h : intStr a ++ x = intStr b ++ y) : a = b ∧ x = y := by
  have key : intStr a = intStr b ∧ x = y := by
    unfold intStr at h ⊢
    split at h <;> split at h
    · simp only [List.cons_append, List.cons.injEq, true_and] at h
      obtain ⟨h1, h2⟩ := digits_split (natStr_isDigit _) (natStr_isDigit _) hx hy h
      rw [if_pos ‹_›, if_pos ‹_›, h1]; exact ⟨rfl, h2⟩
    · exfalso
      cases hs : natStr b.toInt.natAbs with
      | nil => exact natStr_ne_nil _ hs
      | cons c s =>
        rw [hs] at h
        simp only [List.cons_append, List.cons.injEq] at h
        exact natStr_head_ne_minus b.toInt.natAbs s (by rw [hs, ← h.1])
    · exfalso
      cases hs : natStr a.toInt.natAbs with
      | nil => exact natStr_ne_nil _ hs
      | cons c s =>
        rw [hs] at h
        simp only [List.cons_append, List.cons.injEq] at h
        exact natStr_head_ne_minus a.toInt.natAbs s (by rw [hs, h.1])
    · obtain ⟨h1, h2⟩ := digits_split (natStr_isDigit _) (natStr_isDigit _) hx hy h
      rw [if_neg ‹_›, if_neg ‹_›, h1]; exact ⟨rfl, h2⟩
  exact ⟨intStr_inj key.1, key.2⟩

namespace Raw.Value

/-- Text of the elements of an array after the first, and of its closing bracket. -/
def tailText (isPrint : Char → Bool) : List Value → Str
  | [] => [']']
  | v :: vs => ',' :: ' ' :: (v.inspect isPrint ++ tailText isPrint vs)

/-- The same without spaces. -/
def tailTight (isPrint : Char → Bool) : List Value → Str
  | [] => [']']
  | v :: vs => ',' :: (v.inspectTight isPrint ++ tailTight isPrint vs)

theorem joined_cons (isPrint : Char → Bool) (v : Value) (vs : List Value) :
    joined isPrint chars!", " (v :: vs) ++ chars!"]" = v.inspect isPrint ++ tailText isPrint vs := by
  induction vs generalizing v with
  | nil => simp [joined, tailText]
  | cons w vs ih => simp only [joined, tailText, List.append_assoc, ih]; rfl

theorem joinedTight_cons (isPrint : Char → Bool) (v : Value) (vs : List Value) :
    joinedTight isPrint chars!"," (v :: vs) ++ chars!"]" =
      v.inspectTight isPrint ++ tailTight isPrint vs := by
  induction vs generalizing v with
  | nil => simp [joinedTight, tailTight]
  | cons w vs ih => simp only [joinedTight, tailTight, List.append_assoc, ih]; rfl

/-- Text of all elements of an array and of its closing bracket. -/
def bodyText (isPrint : Char → Bool) : List Value → Str
  | [] => [']']
  | v :: vs => v.inspect isPrint ++ tailText isPrint vs

/-- The same without spaces. -/
def bodyTight (isPrint : Char → Bool) : List Value → Str
  | [] => [']']
  | v :: vs => v.inspectTight isPrint ++ tailTight isPrint vs

theorem joined_body (isPrint : Char → Bool) (vs : List Value) (x : Str) :
    joined isPrint chars!", " vs ++ (']' :: x) = bodyText isPrint vs ++ x := by
  have : (']' :: x : Str) = chars!"]" ++ x := rfl
  rw [this, ← List.append_assoc]
  cases vs with
  | nil => rfl
  | cons v vs => rw [joined_cons]; rfl

theorem joinedTight_body (isPrint : Char → Bool) (vs : List Value) (x : Str) :
    joinedTight isPrint chars!"," vs ++ (']' :: x) = bodyTight isPrint vs ++ x := by
  have : (']' :: x : Str) = chars!"]" ++ x := rfl
  rw [this, ← List.append_assoc]
  cases vs with
  | nil => rfl
  | cons v vs => rw [joinedTight_cons]; rfl

theorem noDigit_tail (isPrint : Char → Bool) (vs : List Value) (x : Str) :
    NoDigit (tailText isPrint vs ++ x) := by
  cases vs <;> exact noDigit_cons (by decide)

theorem noDigit_tailTight (isPrint : Char → Bool) (vs : List Value) (x : Str) :
    NoDigit (tailTight isPrint vs ++ x) := by
  cases vs <;> exact noDigit_cons (by decide)

theorem int_ne {v : Int64} {c : Char} {x y : Str} (h1 : c ≠ '-') (h2 : isDigit c = false) :
    intStr v ++ x ≠ c :: y := by
  obtain ⟨d, s, hd, h⟩ := intStr_head v
  rw [hd]
  intro e
  simp only [List.cons_append, List.cons.injEq] at e
  rw [← e.1] at h1 h2
  rcases h with h | h
  · exact h1 h
  · rw [h2] at h; cases h

theorem inspect_ne_close (isPrint : Char → Bool) (v : Value) (x y : Str) :
    v.inspect isPrint ++ x ≠ ']' :: y := by
  cases v with
  | integer v => exact int_ne (by decide) (by decide)
  | boolean b => cases b <;> simp [inspect]
  | _ => simp [inspect, quote]

theorem inspectTight_ne_close (isPrint : Char → Bool) (v : Value) (x y : Str) :
    v.inspectTight isPrint ++ x ≠ ']' :: y := by
  cases v with
  | array els => simp [inspectTight]
  | _ => simp only [inspectTight]; exact inspect_ne_close _ _ _ _

mutual
theorem inspect_split (isPrint : Char → Bool) : (v w : Value) → (x y : Str) → NoDigit x →
    NoDigit y → v.inspect isPrint ++ x = w.inspect isPrint ++ y → v = w ∧ x = y
  | .integer a, w, x, y, hx, hy, h => by
    cases w with
    | integer b =>
      obtain ⟨rfl, h'⟩ := intStr_split hx hy (by simpa [inspect] using h)
      replace h := h'; clear h'
      exact ⟨rfl, h⟩
    | boolean b =>
      exfalso; cases b <;> (simp only [inspect, List.append_assoc, List.cons_append, List.nil_append, ↓reduceIte, Bool.false_eq_true] at h; refine int_ne ?_ ?_ h <;> decide)
    | _ => exfalso; (simp only [inspect, quote, List.append_assoc, List.cons_append, List.nil_append, ↓reduceIte, Bool.false_eq_true] at h; refine int_ne ?_ ?_ h <;> decide)
  | .boolean a, w, x, y, hx, hy, h => by
    cases w with
    | integer b =>
      exfalso; cases a <;> (have h := h.symm; simp only [inspect, List.append_assoc, List.cons_append, List.nil_append, ↓reduceIte, Bool.false_eq_true] at h; refine int_ne ?_ ?_ h <;> decide)
    | boolean b =>
      cases a <;> cases b <;> simp [inspect] at h <;> exact ⟨rfl, h⟩
    | _ => exfalso; cases a <;> simp [inspect, quote] at h
  | .string a, w, x, y, hx, hy, h => by
    cases w with
    | integer b =>
      exfalso; (have h := h.symm; simp only [inspect, quote, List.append_assoc, List.cons_append, List.nil_append, ↓reduceIte, Bool.false_eq_true] at h; refine int_ne ?_ ?_ h <;> decide)
    | boolean b => exfalso; cases b <;> simp [inspect, quote] at h
    | string b =>
      obtain ⟨rfl, h'⟩ := quote_split isPrint (by simpa [inspect] using h)
      replace h := h'; clear h'
      exact ⟨rfl, h⟩
    | _ => exfalso; simp [inspect, quote] at h
  | .array us, w, x, y, hx, hy, h => by
    cases w with
    | integer b =>
      exfalso; (have h := h.symm; simp only [inspect, quote, List.append_assoc, List.cons_append, List.nil_append, ↓reduceIte, Bool.false_eq_true] at h; refine int_ne ?_ ?_ h <;> decide)
    | boolean b => exfalso; cases b <;> simp [inspect, quote] at h
    | array ws =>
      simp only [inspect, List.append_assoc, List.cons_append, List.nil_append, List.cons.injEq,
        true_and, joined_body] at h
      obtain ⟨rfl, h'⟩ := body_split isPrint us ws x y h
      replace h := h'; clear h'
      exact ⟨rfl, h⟩
    | _ => exfalso; simp [inspect, quote] at h
  | .bRollComp us m, w, x, y, hx, hy, h => by
    cases w with
    | integer b =>
      exfalso; (have h := h.symm; simp only [inspect, quote, List.append_assoc, List.cons_append, List.nil_append, ↓reduceIte, Bool.false_eq_true] at h; refine int_ne ?_ ?_ h <;> decide)
    | boolean b => exfalso; cases b <;> simp [inspect, quote] at h
    | bRollComp ws n =>
      simp only [inspect, List.append_assoc, List.cons_append, List.nil_append, List.cons.injEq,
        true_and, joined_body] at h
      obtain ⟨rfl, h'⟩ := body_split isPrint us ws _ _ h
      replace h := h'; clear h'
      simp only [List.cons.injEq, true_and] at h
      obtain ⟨rfl, h'⟩ := intStr_split (noDigit_cons (by decide)) (noDigit_cons (by decide)) h
      replace h := h'; clear h'
      simp only [List.cons.injEq, true_and] at h
      exact ⟨rfl, h⟩
    | _ => exfalso; simp [inspect, quote] at h
  | .rRollComp us m, w, x, y, hx, hy, h => by
    cases w with
    | integer b =>
      exfalso; (have h := h.symm; simp only [inspect, quote, List.append_assoc, List.cons_append, List.nil_append, ↓reduceIte, Bool.false_eq_true] at h; refine int_ne ?_ ?_ h <;> decide)
    | boolean b => exfalso; cases b <;> simp [inspect, quote] at h
    | rRollComp ws n =>
      simp only [inspect, List.append_assoc, List.cons_append, List.nil_append, List.cons.injEq,
        true_and, joined_body] at h
      obtain ⟨rfl, h'⟩ := body_split isPrint us ws _ _ h
      replace h := h'; clear h'
      simp only [List.cons.injEq, true_and] at h
      obtain ⟨rfl, h'⟩ := intStr_split (noDigit_cons (by decide)) (noDigit_cons (by decide)) h
      replace h := h'; clear h'
      simp only [List.cons.injEq, true_and] at h
      exact ⟨rfl, h⟩
    | _ => exfalso; simp [inspect, quote] at h
  | .uRollExpr us m, w, x, y, hx, hy, h => by
    cases w with
    | integer b =>
      exfalso; (have h := h.symm; simp only [inspect, quote, List.append_assoc, List.cons_append, List.nil_append, ↓reduceIte, Bool.false_eq_true] at h; refine int_ne ?_ ?_ h <;> decide)
    | boolean b => exfalso; cases b <;> simp [inspect, quote] at h
    | uRollExpr ws n =>
      simp only [inspect, List.append_assoc, List.cons_append, List.nil_append, List.cons.injEq,
        true_and, joined_body] at h
      obtain ⟨rfl, h'⟩ := body_split isPrint us ws _ _ h
      replace h := h'; clear h'
      simp only [List.cons.injEq, true_and] at h
      obtain ⟨rfl, h'⟩ := intStr_split (noDigit_cons (by decide)) (noDigit_cons (by decide)) h
      replace h := h'; clear h'
      simp only [List.cons.injEq, true_and] at h
      exact ⟨rfl, h⟩
    | _ => exfalso; simp [inspect, quote] at h
  | .uRollComp us m k, w, x, y, hx, hy, h => by
    cases w with
    | integer b =>
      exfalso; (have h := h.symm; simp only [inspect, quote, List.append_assoc, List.cons_append, List.nil_append, ↓reduceIte, Bool.false_eq_true] at h; refine int_ne ?_ ?_ h <;> decide)
    | boolean b => exfalso; cases b <;> simp [inspect, quote] at h
    | uRollComp ws n l =>
      simp only [inspect, List.append_assoc, List.cons_append, List.nil_append, List.cons.injEq,
        true_and, joined_body] at h
      obtain ⟨rfl, h'⟩ := body_split isPrint us ws _ _ h
      replace h := h'; clear h'
      simp only [List.cons.injEq, true_and] at h
      obtain ⟨rfl, h'⟩ := intStr_split (noDigit_cons (by decide)) (noDigit_cons (by decide)) h
      replace h := h'; clear h'
      simp only [List.cons.injEq, true_and] at h
      obtain ⟨rfl, h'⟩ := intStr_split (noDigit_cons (by decide)) (noDigit_cons (by decide)) h
      replace h := h'; clear h'
      simp only [List.cons.injEq, true_and] at h
      exact ⟨rfl, h⟩
    | _ => exfalso; simp [inspect, quote] at h
theorem body_split (isPrint : Char → Bool) : (us ws : List Value) → (x y : Str) →
    bodyText isPrint us ++ x = bodyText isPrint ws ++ y → us = ws ∧ x = y
  | [], [], x, y, h => by simpa [bodyText] using h
  | [], w :: ws, x, y, h => by
    exfalso
    simp only [bodyText, List.append_assoc] at h
    exact inspect_ne_close isPrint w _ _ h.symm
  | u :: us, [], x, y, h => by
    exfalso
    simp only [bodyText, List.append_assoc] at h
    exact inspect_ne_close isPrint u _ _ h
  | u :: us, w :: ws, x, y, h => by
    simp only [bodyText, List.append_assoc] at h
    obtain ⟨rfl, h'⟩ := inspect_split isPrint u w _ _ (noDigit_tail _ _ _) (noDigit_tail _ _ _) h
    replace h := h'; clear h'
    obtain ⟨rfl, h'⟩ := tail_split isPrint us ws x y h
    replace h := h'; clear h'
    exact ⟨rfl, h⟩
theorem tail_split (isPrint : Char → Bool) : (us ws : List Value) → (x y : Str) →
    tailText isPrint us ++ x = tailText isPrint ws ++ y → us = ws ∧ x = y
  | [], [], x, y, h => by simpa [tailText] using h
  | [], w :: ws, x, y, h => by simp [tailText] at h
  | u :: us, [], x, y, h => by simp [tailText] at h
  | u :: us, w :: ws, x, y, h => by
    simp only [tailText, List.cons_append, List.cons.injEq, true_and, List.append_assoc] at h
    obtain ⟨rfl, h'⟩ := inspect_split isPrint u w _ _ (noDigit_tail _ _ _) (noDigit_tail _ _ _) h
    replace h := h'; clear h'
    obtain ⟨rfl, h'⟩ := tail_split isPrint us ws x y h
    replace h := h'; clear h'
    exact ⟨rfl, h⟩
end

theorem tight_of_not_array (isPrint : Char → Bool) (v : Value) (h : ∀ els, v ≠ .array els) :
    v.inspectTight isPrint = v.inspect isPrint := by
  cases v with
  | array els => exact absurd rfl (h els)
  | _ => rfl

theorem not_bracket (isPrint : Char → Bool) (v : Value) (h : ∀ els, v ≠ .array els) (x y : Str) :
    v.inspect isPrint ++ x ≠ '[' :: y := by
  cases v with
  | array els => exact absurd rfl (h els)
  | integer v => exact int_ne (by decide) (by decide)
  | boolean b => cases b <;> simp [inspect]
  | _ => simp [inspect, quote]

mutual
theorem tight_split (isPrint : Char → Bool) : (v w : Value) → (x y : Str) → NoDigit x →
    NoDigit y → v.inspectTight isPrint ++ x = w.inspectTight isPrint ++ y → v = w ∧ x = y
  | .array us, w, x, y, hx, hy, h => by
    by_cases hw : ∃ ws, w = .array ws
    · obtain ⟨ws, rfl⟩ := hw
      simp only [inspectTight, List.append_assoc, List.cons_append, List.nil_append,
        List.cons.injEq, true_and, joinedTight_body] at h
      obtain ⟨rfl, h'⟩ := bodyTight_split isPrint us ws x y h
      replace h := h'; clear h'
      exact ⟨rfl, h⟩
    · exfalso
      rw [tight_of_not_array isPrint w (fun els e => hw ⟨els, e⟩)] at h
      refine not_bracket isPrint w (fun els e => hw ⟨els, e⟩) y _ h.symm
  | .integer a, w, x, y, hx, hy, h => tight_split_other isPrint _ w x y hx hy (by intro e; simp) h
  | .boolean a, w, x, y, hx, hy, h => tight_split_other isPrint _ w x y hx hy (by intro e; simp) h
  | .string a, w, x, y, hx, hy, h => tight_split_other isPrint _ w x y hx hy (by intro e; simp) h
  | .bRollComp a b, w, x, y, hx, hy, h =>
    tight_split_other isPrint _ w x y hx hy (by intro e; simp) h
  | .rRollComp a b, w, x, y, hx, hy, h =>
    tight_split_other isPrint _ w x y hx hy (by intro e; simp) h
  | .uRollExpr a b, w, x, y, hx, hy, h =>
    tight_split_other isPrint _ w x y hx hy (by intro e; simp) h
  | .uRollComp a b c, w, x, y, hx, hy, h =>
    tight_split_other isPrint _ w x y hx hy (by intro e; simp) h
theorem tight_split_other (isPrint : Char → Bool) (v w : Value) (x y : Str) (hx : NoDigit x)
    (hy : NoDigit y) (hv : ∀ els, v ≠ .array els)
    (h : v.inspectTight isPrint ++ x = w.inspectTight isPrint ++ y) : v = w ∧ x = y := by
  rw [tight_of_not_array isPrint v hv] at h
  by_cases hw : ∃ ws, w = .array ws
  · obtain ⟨ws, rfl⟩ := hw
    exfalso
    exact not_bracket isPrint v hv x _ h
  · rw [tight_of_not_array isPrint w (fun els e => hw ⟨els, e⟩)] at h
    exact inspect_split isPrint v w x y hx hy h
theorem bodyTight_split (isPrint : Char → Bool) : (us ws : List Value) → (x y : Str) →
    bodyTight isPrint us ++ x = bodyTight isPrint ws ++ y → us = ws ∧ x = y
  | [], [], x, y, h => by simpa [bodyTight] using h
  | [], w :: ws, x, y, h => by
    exfalso
    simp only [bodyTight, List.append_assoc] at h
    exact inspectTight_ne_close isPrint w _ _ h.symm
  | u :: us, [], x, y, h => by
    exfalso
    simp only [bodyTight, List.append_assoc] at h
    exact inspectTight_ne_close isPrint u _ _ h
  | u :: us, w :: ws, x, y, h => by
    simp only [bodyTight, List.append_assoc] at h
    obtain ⟨rfl, h'⟩ := tight_split isPrint u w _ _ (noDigit_tailTight _ _ _)
      (noDigit_tailTight _ _ _) h
    replace h := h'; clear h'
    obtain ⟨rfl, h'⟩ := tailTight_split isPrint us ws x y h
    replace h := h'; clear h'
    exact ⟨rfl, h⟩
theorem tailTight_split (isPrint : Char → Bool) : (us ws : List Value) → (x y : Str) →
    tailTight isPrint us ++ x = tailTight isPrint ws ++ y → us = ws ∧ x = y
  | [], [], x, y, h => by simpa [tailTight] using h
  | [], w :: ws, x, y, h => by simp [tailTight] at h
  | u :: us, [], x, y, h => by simp [tailTight] at h
  | u :: us, w :: ws, x, y, h => by
    simp only [tailTight, List.cons_append, List.cons.injEq, true_and, List.append_assoc] at h
    obtain ⟨rfl, h'⟩ := tight_split isPrint u w _ _ (noDigit_tailTight _ _ _)
      (noDigit_tailTight _ _ _) h
    replace h := h'; clear h'
    obtain ⟨rfl, h'⟩ := tailTight_split isPrint us ws x y h
    replace h := h'; clear h'
    exact ⟨rfl, h⟩
end

end Raw.Value

end GoBCDice
