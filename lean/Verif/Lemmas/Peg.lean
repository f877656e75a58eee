import Verif.Spec.Peg
import Verif.Lemmas.PigeonInv

/-!
# The interpreter against the meaning of parsing expressions
-/

namespace GoBCDice

open Pigeon

/-! ## Determinism -/

theorem termMatch_terminal {t : PExpr} {s : Str} {n : Nat} (h : termMatch t s = some n) :
    isTerminal t = true := by
  cases t <;> first | rfl | (simp [termMatch] at h)

theorem Peg.det {rules : List (Str × PExpr)} {text : Str} {neg : Bool} {e : PExpr} {k : Nat}
    {r r' : Option Nat} {m m' : List (Nat × Str)} (h : Peg rules text neg e k r m)
    (h' : Peg rules text neg e k r' m') : r = r' ∧ m = m' := by
  induction h generalizing r' m' with
  | @hit neg t k n ht =>
    have hterm := termMatch_terminal ht
    cases h' with
    | hit ht' => rw [ht] at ht'; cases ht'; exact ⟨rfl, rfl⟩
    | miss _ ht' => rw [ht] at ht'; cases ht'
    | _ => cases hterm
  | @miss neg t k hterm ht =>
    cases h' with
    | hit ht' => rw [ht] at ht'; cases ht'
    | miss _ ht' => exact ⟨rfl, rfl⟩
    | _ => cases hterm
  | action _ ih =>
    cases h' with
    | hit ht' => cases termMatch_terminal ht'
    | miss ht' => cases ht'
    | action h => exact ih h
  | labeled _ ih =>
    cases h' with
    | hit ht' => cases termMatch_terminal ht'
    | miss ht' => cases ht'
    | labeled h => exact ih h
  | rule hl _ ih =>
    cases h' with
    | hit ht' => cases termMatch_terminal ht'
    | miss ht' => cases ht'
    | rule hl' h => rw [hl] at hl'; cases hl'; exact ih h
    | noRule hl' => rw [hl] at hl'; cases hl'
  | noRule hl =>
    cases h' with
    | hit ht' => cases termMatch_terminal ht'
    | miss ht' => cases ht'
    | rule hl' h => rw [hl] at hl'; cases hl'
    | noRule hl' => exact ⟨rfl, rfl⟩
  | stateCode =>
    cases h' with
    | hit ht' => cases termMatch_terminal ht'
    | miss ht' => cases ht'
    | stateCode => exact ⟨rfl, rfl⟩
  | choiceNil =>
    cases h' with
    | hit ht' => cases termMatch_terminal ht'
    | miss ht' => cases ht'
    | choiceNil => exact ⟨rfl, rfl⟩
  | choiceHit _ ih =>
    cases h' with
    | hit ht' => cases termMatch_terminal ht'
    | miss ht' => cases ht'
    | choiceHit h => exact ih h
    | choiceNext h _ => cases (ih h).1
  | choiceNext _ _ ih1 ih2 =>
    cases h' with
    | hit ht' => cases termMatch_terminal ht'
    | miss ht' => cases ht'
    | choiceHit h => cases (ih1 h).1
    | choiceNext h h2 =>
      obtain ⟨h3, h4⟩ := ih2 h2
      exact ⟨h3, by rw [(ih1 h).2, h4]⟩
  | seqNil =>
    cases h' with
    | hit ht' => cases termMatch_terminal ht'
    | miss ht' => cases ht'
    | seqNil => exact ⟨rfl, rfl⟩
  | seqMiss _ ih =>
    cases h' with
    | hit ht' => cases termMatch_terminal ht'
    | miss ht' => cases ht'
    | seqMiss h => exact ih h
    | seqNext h _ => cases (ih h).1
  | seqNext _ _ ih1 ih2 =>
    cases h' with
    | hit ht' => cases termMatch_terminal ht'
    | miss ht' => cases ht'
    | seqMiss h => cases (ih1 h).1
    | seqNext h h2 =>
      obtain ⟨hk, hm⟩ := ih1 h
      cases hk
      obtain ⟨h3, h4⟩ := ih2 h2
      exact ⟨h3, by rw [hm, h4]⟩
  | starEnd _ ih =>
    cases h' with
    | hit ht' => cases termMatch_terminal ht'
    | miss ht' => cases ht'
    | starEnd h => exact ⟨rfl, (ih h).2⟩
    | starNext h _ => cases (ih h).1
  | starNext _ _ ih1 ih2 =>
    cases h' with
    | hit ht' => cases termMatch_terminal ht'
    | miss ht' => cases ht'
    | starEnd h => cases (ih1 h).1
    | starNext h h2 =>
      obtain ⟨hk, hm⟩ := ih1 h
      cases hk
      obtain ⟨h3, h4⟩ := ih2 h2
      exact ⟨h3, by rw [hm, h4]⟩
  | plusMiss _ ih =>
    cases h' with
    | hit ht' => cases termMatch_terminal ht'
    | miss ht' => cases ht'
    | plusMiss h => exact ih h
    | plusNext h _ => cases (ih h).1
  | plusNext _ _ ih1 ih2 =>
    cases h' with
    | hit ht' => cases termMatch_terminal ht'
    | miss ht' => cases ht'
    | plusMiss h => cases (ih1 h).1
    | plusNext h h2 =>
      obtain ⟨hk, hm⟩ := ih1 h
      cases hk
      obtain ⟨h3, h4⟩ := ih2 h2
      exact ⟨h3, by rw [hm, h4]⟩
  | optHit _ ih =>
    cases h' with
    | hit ht' => cases termMatch_terminal ht'
    | miss ht' => cases ht'
    | optHit h => exact ih h
    | optMiss h => cases (ih h).1
  | optMiss _ ih =>
    cases h' with
    | hit ht' => cases termMatch_terminal ht'
    | miss ht' => cases ht'
    | optHit h => cases (ih h).1
    | optMiss h => exact ⟨rfl, (ih h).2⟩
  | notHit _ ih =>
    cases h' with
    | hit ht' => cases termMatch_terminal ht'
    | miss ht' => cases ht'
    | notHit h => exact ⟨rfl, (ih h).2⟩
    | notMiss h => cases (ih h).1
  | notMiss _ ih =>
    cases h' with
    | hit ht' => cases termMatch_terminal ht'
    | miss ht' => cases ht'
    | notHit h => cases (ih h).1
    | notMiss h => exact ⟨rfl, (ih h).2⟩

/-! ## Misses are true -/

/-- What is said to be missed at `k` is a terminal that does not match there, or the negation of one
that does. -/
def TrueMiss (text : Str) (m : Nat × Str) : Prop :=
  (∃ t, isTerminal t = true ∧ m.2 = termShown t ∧ termMatch t (text.drop m.1) = none) ∨
  (∃ t n, m.2 = chars!"!" ++ termShown t ∧ termMatch t (text.drop m.1) = some n)

theorem Peg.true {rules : List (Str × PExpr)} {text : Str} {neg : Bool} {e : PExpr} {k : Nat}
    {r : Option Nat} {ms : List (Nat × Str)} (h : Peg rules text neg e k r ms) :
    ∀ m ∈ ms, TrueMiss text m := by
  have app : ∀ {a b : List (Nat × Str)}, (∀ m ∈ a, TrueMiss text m) → (∀ m ∈ b, TrueMiss text m) →
      ∀ m ∈ a ++ b, TrueMiss text m := by
    intro a b ha hb m hm
    rcases List.mem_append.1 hm with h | h
    · exact ha m h
    · exact hb m h
  induction h with
  | @hit neg t k n ht =>
    intro m hm
    cases neg with
    | false => cases hm
    | true =>
      rw [if_pos rfl, List.mem_singleton] at hm
      subst hm
      exact .inr ⟨t, n, rfl, ht⟩
  | @miss neg t k hterm ht =>
    intro m hm
    cases neg with
    | true => cases hm
    | false =>
      rw [if_neg (by simp), List.mem_singleton] at hm
      subst hm
      exact .inl ⟨t, hterm, rfl, ht⟩
  | action _ ih => exact ih
  | labeled _ ih => exact ih
  | rule _ _ ih => exact ih
  | noRule => intro m hm; cases hm
  | stateCode => intro m hm; cases hm
  | choiceNil => intro m hm; cases hm
  | choiceHit _ ih => exact ih
  | choiceNext _ _ ih1 ih2 => exact app ih1 ih2
  | seqNil => intro m hm; cases hm
  | seqMiss _ ih => exact ih
  | seqNext _ _ ih1 ih2 => exact app ih1 ih2
  | starEnd _ ih => exact ih
  | starNext _ _ ih1 ih2 => exact app ih1 ih2
  | plusMiss _ ih => exact ih
  | plusNext _ _ ih1 ih2 => exact app ih1 ih2
  | optHit _ ih => exact ih
  | optMiss _ ih => exact ih
  | notHit _ ih => exact ih
  | notMiss _ ih => exact ih

namespace Pigeon

/-! ## Tables with plain literals -/

/-- A character that is quoted as itself. -/
def plainChar (c : Char) : Bool := decide (32 ≤ c.toNat) && decide (c.toNat < 127) && c != '"' && c != '\\'

mutual
/-- Literals are plain. -/
def plain : PExpr → Bool
  | .action _ e => plain e
  | .any => true
  | .charClass .. => true
  | .choice es => plainAll es
  | .labeled _ e => plain e
  | .lit val _ => val.all plainChar
  | .not e => plain e
  | .oneOrMore e => plain e
  | .ruleRef _ => true
  | .seq es => plainAll es
  | .stateCode _ => true
  | .zeroOrMore e => plain e
  | .zeroOrOne e => plain e
/-- `plain` for each. -/
def plainAll : List PExpr → Bool
  | [] => true
  | e :: es => plain e && plainAll es
end

theorem litWant_plain {val : Str} (h : val.all plainChar = true) (ic : Bool) :
    litWant val ic = termShown (.lit val ic) := by
  unfold litWant quote termShown
  have : val.flatMap (quoteRune fun c => decide (32 ≤ c.toNat ∧ c.toNat < 127)) = val := by
    induction val with
    | nil => rfl
    | cons c val ih =>
      rw [List.all_cons, Bool.and_eq_true] at h
      rw [List.flatMap_cons, ih h.2]
      have hc := h.1
      simp only [plainChar, Bool.and_eq_true, decide_eq_true_eq, bne_iff_ne] at hc
      have h1 : ¬ (c = '"' ∨ c = '\\') := by
        rintro (h | h)
        · exact hc.1.2 h
        · exact hc.2 h
      unfold quoteRune
      rw [if_neg h1, if_pos (by simpa using hc.1.1)]
      rfl
  rw [this]

/-! ## The record of the farthest failure -/

variable {env : PEnv} {p0 : Pt}

/-- The record after the misses. -/
structure Far (p0 : Pt) (ms : List (Nat × Str)) (st : PState) : Prop where
  far : ∃ k, k ≤ p0.rest.length ∧ Farthest ms k ∧
    st.maxFailPos = (if k = 0 then ⟨1, 1, 0⟩ else (walk p0 k).pos) ∧
    st.maxFailExpected = (ms.filter (fun m => m.1 == k)).map (·.2)

theorem Far.of {ms : List (Nat × Str)} {st st' : PState} (h : Far p0 ms st)
    (h1 : st'.maxFailPos = st.maxFailPos) (h2 : st'.maxFailExpected = st.maxFailExpected) :
    Far p0 ms st' := by
  obtain ⟨k, h3, h4, h5, h6⟩ := h
  exact ⟨k, h3, h4, h1.trans h5, h2.trans h6⟩

/-- What `failAt` adds. -/
def missOf (b inv : Bool) (k : Nat) (w : Str) : List (Nat × Str) :=
  if b = inv then [(k, if inv then chars!"!" ++ w else w)] else []

theorem Far.failAt (hw : Wide p0.rest) (h0 : p0.pos.offset = 0) {ms : List (Nat × Str)} {st : PState}
    (h : Far p0 ms st) (b : Bool) (k : Nat) (hk : k ≤ p0.rest.length) (w : Str) :
    Far p0 (ms ++ missOf b st.invert k w) (st.failAt b (walk p0 k).pos w) := by
  unfold PState.failAt missOf
  by_cases hb : b = st.invert
  · rw [if_pos hb, if_pos hb]
    obtain ⟨j, hj, hf, hp, he⟩ := h
    have hoff : st.maxFailPos.offset = (walk p0 j).pos.offset := by
      rw [hp]
      by_cases hj0 : j = 0
      · rw [if_pos hj0, hj0]; exact h0.symm
      · rw [if_neg hj0]
    have hlt : ∀ a c, a ≤ p0.rest.length → c ≤ p0.rest.length →
        ((walk p0 a).pos.offset < (walk p0 c).pos.offset ↔ a < c) := by
      intro a c ha hc
      constructor
      · intro h
        rcases Nat.lt_trichotomy a c with h1 | h1 | h1
        · exact h1
        · rw [h1] at h; omega
        · have := walk_lt hw h1 ha; omega
      · exact fun h => walk_lt hw h hc
    rw [hoff]
    generalize hx : (if st.invert = true then chars!"!" ++ w else w) = x
    by_cases h1 : (walk p0 k).pos.offset < (walk p0 j).pos.offset
    · rw [if_pos h1]
      rw [hlt k j hk hj] at h1
      refine ⟨j, hj, ⟨?_, ?_⟩, hp, ?_⟩
      · intro m hm
        rcases List.mem_append.1 hm with hm | hm
        · exact hf.1 m hm
        · rw [List.mem_singleton] at hm; subst hm; exact Nat.le_of_lt h1
      · rcases hf.2 with h | ⟨m, hm, h⟩
        · exact .inl h
        · exact .inr ⟨m, List.mem_append_left _ hm, h⟩
      · rw [List.filter_append, he]
        have : ¬ k = j := by omega
        simp [this]
    · rw [if_neg h1]
      rw [hlt k j hk hj] at h1
      dsimp only
      by_cases h2 : (walk p0 k).pos.offset > (walk p0 j).pos.offset
      · rw [if_pos h2]
        have h2' := (hlt j k hj hk).1 h2
        refine ⟨k, hk, ⟨?_, .inr ⟨(k, x), by simp, rfl⟩⟩, ?_, ?_⟩
        · intro m hm
          rcases List.mem_append.1 hm with hm | hm
          · exact Nat.le_of_lt (Nat.lt_of_le_of_lt (hf.1 m hm) h2')
          · rw [List.mem_singleton] at hm; subst hm; exact Nat.le_refl _
        · show (walk p0 k).pos = _
          rw [if_neg (by omega)]
        · show [] ++ [if st.invert = true then chars!"!" ++ w else w] = _
          rw [hx, List.filter_append]
          have : ms.filter (fun m => m.1 == k) = [] := by
            rw [List.filter_eq_nil_iff]
            intro m hm
            have := hf.1 m hm
            simp only [beq_iff_eq]
            omega
          rw [this]
          simp
      · rw [if_neg h2]
        have h2' : ¬ j < k := fun hh => h2 ((hlt j k hj hk).2 hh)
        have : k = j := by omega
        subst this
        refine ⟨k, hk, ⟨?_, .inr ⟨(k, x), by simp, rfl⟩⟩, hp, ?_⟩
        · intro m hm
          rcases List.mem_append.1 hm with hm | hm
          · exact hf.1 m hm
          · rw [List.mem_singleton] at hm; subst hm; exact Nat.le_refl _
        · show st.maxFailExpected ++ [if st.invert = true then chars!"!" ++ w else w] = _
          rw [hx, List.filter_append, he]
          simp
  · rw [if_neg hb, if_neg hb, List.append_nil]
    exact h

theorem read_far (st : PState) : (st.read env).maxFailPos = st.maxFailPos ∧
    (st.read env).maxFailExpected = st.maxFailExpected := by
  unfold PState.read PState.enter
  dsimp only
  split <;> exact ⟨rfl, rfl⟩

/-! ## Terminals -/

/-- Outcome of an expression started at `k`, after the misses `ms`; on failure the parser is at
`back`. -/
structure Outcome (p0 : Pt) (ms : List (Nat × Str)) (st : PState) (back : Pt) (r : Option Nat)
    (m : List (Nat × Str)) (ok : Bool) (st' : PState) : Prop where
  invert : st'.invert = st.invert
  far : Far p0 (ms ++ m) st'
  ok : ok = r.isSome
  hit : ∀ k', r = some k' → k' ≤ p0.rest.length ∧ st'.pt = walk p0 k'
  miss : r = none → st'.pt = back

theorem rest_at {st : PState} {k : Nat} (hpt : st.pt = walk p0 k) : runes st.pt.rest = (runes p0.rest).drop k := by
  rw [hpt, walk_rest]
  exact (List.map_drop ..)

theorem at_lt {st : PState} {k : Nat} (hpt : st.pt = walk p0 k) (h : st.pt.rest ≠ []) : k + 1 ≤ p0.rest.length := by
  rw [hpt, walk_rest] at h
  have : ¬ p0.rest.length ≤ k := fun h' => h (List.drop_eq_nil_of_le h')
  omega

theorem plain_ne {w : Char} (h : plainChar w = true) : w ≠ runeError := by
  intro hc
  rw [hc] at h
  revert h
  decide

theorem termMatch_lit (val : Str) (ic : Bool) (s : Str) :
    termMatch (.lit val ic) s = if (s.take val.length).map (fun c => if ic then toLowerRune c else c) = val
      then some val.length else none := by
  cases s <;> rfl

theorem runes_cons' (x : Sym) (l : List Sym) : runes (x :: l) = x.rn :: runes l := rfl

theorem litLoop_peg (ic : Bool) : ∀ (val : Str), val.all plainChar = true → ∀ (st : PState) (k : Nat),
    k ≤ p0.rest.length → st.pt = walk p0 k →
    ∃ j, j ≤ p0.rest.length ∧ (litLoop env ic val st).2.pt = walk p0 j ∧
      (litLoop env ic val st).2.invert = st.invert ∧
      (litLoop env ic val st).2.maxFailPos = st.maxFailPos ∧
      (litLoop env ic val st).2.maxFailExpected = st.maxFailExpected ∧
      ((litLoop env ic val st).1 = true → termMatch (.lit val ic) ((runes p0.rest).drop k) = some val.length ∧
        j = k + val.length) ∧
      ((litLoop env ic val st).1 = false → termMatch (.lit val ic) ((runes p0.rest).drop k) = none)
  | [], _, st, k, hk, hpt => ⟨k, hk, hpt, rfl, rfl, rfl, fun _ => ⟨rfl, rfl⟩, fun h => by cases h⟩
  | w :: val, hc, st, k, hk, hpt => by
    rw [List.all_cons, Bool.and_eq_true] at hc
    have hr := rest_at hpt
    unfold litLoop
    dsimp only
    cases hrest : st.pt.rest with
    | nil =>
      rw [hrest] at hr
      have hrune : st.rune = runeError := by unfold PState.rune; rw [hrest]
      have hcur : (if ic = true then toLowerRune st.rune else st.rune) ≠ w := by
        rw [hrune]
        intro h
        apply plain_ne hc.1
        rw [← h]
        cases ic <;> decide
      rw [if_pos hcur]
      refine ⟨k, hk, hpt, rfl, rfl, rfl, fun h => (by cases h), fun _ => ?_⟩
      rw [← hr]
      simp [termMatch, runes]
    | cons x l =>
      rw [hrest] at hr
      have hrune : st.rune = x.rn := by unfold PState.rune; rw [hrest]
      rw [hrune]
      by_cases hcur : (if ic = true then toLowerRune x.rn else x.rn) ≠ w
      · rw [if_pos hcur]
        refine ⟨k, hk, hpt, rfl, rfl, rfl, fun h => (by cases h), fun _ => ?_⟩
        rw [← hr, termMatch_lit]
        simp only [runes, List.map_cons, List.length_cons, List.take_succ_cons]
        rw [if_neg]
        intro h
        exact hcur (List.cons.inj h).1
      · rw [if_neg hcur]
        have hcur' := Decidable.of_not_not hcur
        have hne : st.pt.rest ≠ [] := by rw [hrest]; simp
        have hk1 := at_lt hpt hne
        have hreach : Reach p0 st.pt := ⟨k, hk, hpt⟩
        have hf := read_fields (env := env) st hreach
        have hpt1 : (st.read env).pt = walk p0 (k + 1) := by rw [hf.1, hpt]; rfl
        obtain ⟨j, h1, h2, h3, h4, h5, h6, h7⟩ := litLoop_peg ic val hc.2 (st.read env) (k + 1) hk1 hpt1
        have hfar := read_far (env := env) st
        have hdrop : (runes p0.rest).drop (k + 1) = runes l := by
          rw [← List.tail_drop, ← hr]; rfl
        have hstep : ∀ n, termMatch (.lit val ic) ((runes p0.rest).drop (k + 1)) = some n →
            termMatch (.lit (w :: val) ic) ((runes p0.rest).drop k) = some (val.length + 1) := by
          intro n h
          rw [hdrop, termMatch_lit] at h
          rw [← hr, termMatch_lit]
          simp only [runes_cons', List.map_cons, List.length_cons, List.take_succ_cons]
          by_cases heq : ((runes l).take val.length).map (fun c => if ic = true then toLowerRune c else c) = val
          · rw [if_pos]
            rw [heq, hcur']
          · rw [if_neg heq] at h; cases h
        refine ⟨j, h1, h2, h3.trans hf.2.2.2.2.2, h4.trans hfar.1, h5.trans hfar.2, fun h => ?_, fun h => ?_⟩
        · obtain ⟨h8, h9⟩ := h6 h
          exact ⟨hstep _ h8, by rw [h9, List.length_cons]; omega⟩
        · have h8 := h7 h
          rw [hdrop, termMatch_lit] at h8
          rw [← hr, termMatch_lit]
          simp only [runes_cons', List.map_cons, List.length_cons, List.take_succ_cons]
          by_cases heq : ((runes l).take val.length).map (fun c => if ic = true then toLowerRune c else c) = val
          · rw [if_pos heq] at h8; cases h8
          · rw [if_neg]
            intro heq'
            exact heq (List.cons.inj heq').2

/-- The misses of a terminal. -/
theorem missOf_false (inv : Bool) (k : Nat) (w : Str) :
    missOf false inv k w = if inv then [] else [(k, w)] := by cases inv <;> rfl

theorem missOf_true (inv : Bool) (k : Nat) (w : Str) :
    missOf true inv k w = if inv then [(k, chars!"!" ++ w)] else [] := by cases inv <;> rfl

section
variable (hw : Wide p0.rest) (h0 : p0.pos.offset = 0) {rules : List (Str × PExpr)}
include hw h0

theorem peg_miss {t : PExpr} {w : Str} {st st1 st2 : PState} {k : Nat} {ms : List (Nat × Str)}
    (hk : k ≤ p0.rest.length) (hpt : st.pt = walk p0 k) (hfar : Far p0 ms st1)
    (hi : st1.invert = st.invert) (h1 : st2.invert = (st1.failAt false st.pt.pos w).invert)
    (h2 : st2.maxFailPos = (st1.failAt false st.pt.pos w).maxFailPos)
    (h3 : st2.maxFailExpected = (st1.failAt false st.pt.pos w).maxFailExpected) (h4 : st2.pt = st.pt)
    (ht : isTerminal t = true) (hwt : w = termShown t) (hm : termMatch t ((runes p0.rest).drop k) = none) :
    ∃ r m, Peg rules (runes p0.rest) st.invert t k r m ∧ Outcome p0 ms st st.pt r m false st2 := by
  have hff := failAt_fields st1 false st.pt.pos w
  have hfar' := hfar.failAt hw h0 false k hk w
  rw [missOf_false, hi, ← hpt] at hfar'
  refine ⟨none, _, .miss ht hm, ?_⟩
  rw [← hwt]
  exact ⟨h1.trans (hff.2.2.2.2.2.trans hi), hfar'.of h2 h3, rfl, fun _ h => (by cases h), fun _ => h4⟩

theorem peg_hit {t : PExpr} {w : Str} {st st1 : PState} {k n : Nat} {ms : List (Nat × Str)}
    (hk : k ≤ p0.rest.length) (hpt : st.pt = walk p0 k) (hfar : Far p0 ms st1)
    (hi : st1.invert = st.invert) (hn : k + n ≤ p0.rest.length) (hp : st1.pt = walk p0 (k + n))
    (hwt : w = termShown t) (hm : termMatch t ((runes p0.rest).drop k) = some n) :
    ∃ r m, Peg rules (runes p0.rest) st.invert t k r m ∧
      Outcome p0 ms st st.pt r m true (st1.failAt true st.pt.pos w) := by
  have hff := failAt_fields st1 true st.pt.pos w
  have hfar' := hfar.failAt hw h0 true k hk w
  rw [missOf_true, hi, ← hpt] at hfar'
  refine ⟨some (k + n), _, .hit hm, ?_⟩
  rw [← hwt]
  exact ⟨hff.2.2.2.2.2.trans hi, hfar', rfl, fun _ h => (by cases h; exact ⟨hn, hff.1.trans hp⟩), fun h => (by cases h)⟩

theorem peg_any {st : PState} {k : Nat} {ms : List (Nat × Str)} (hk : k ≤ p0.rest.length)
    (hpt : st.pt = walk p0 k) (hfar : Far p0 ms st) :
    ∃ v ok st', parseAny env st = .ret v ok st' ∧ ∃ r m, Peg rules (runes p0.rest) st.invert .any k r m ∧
      Outcome p0 ms st st.pt r m ok st' := by
  have hr := rest_at hpt
  unfold parseAny
  cases hrest : st.pt.rest with
  | nil =>
    rw [hrest] at hr
    exact ⟨_, _, _, rfl, peg_miss hw h0 hk hpt hfar rfl rfl rfl rfl (failAt_fields ..).1 rfl rfl
      (by rw [← hr]; rfl)⟩
  | cons x l =>
    rw [hrest] at hr
    have hne : st.pt.rest ≠ [] := by rw [hrest]; simp
    have hk1 := at_lt hpt hne
    have hf := read_fields (env := env) st ⟨k, hk, hpt⟩
    have hpt1 : (st.read env).pt = walk p0 (k + 1) := by rw [hf.1, hpt]; rfl
    have hfr := read_far (env := env) st
    exact ⟨_, _, _, rfl, peg_hit hw h0 hk hpt (hfar.of hfr.1 hfr.2) hf.2.2.2.2.2 hk1 hpt1 rfl
      (by rw [← hr]; rfl)⟩

theorem peg_cls (val : Str) (chars : List Char) (ranges : List (Char × Char)) (classes : List Str)
    (ic inv : Bool) {st : PState} {k : Nat} {ms : List (Nat × Str)} (hk : k ≤ p0.rest.length)
    (hpt : st.pt = walk p0 k) (hfar : Far p0 ms st) :
    ∃ v ok st', parseCharClass env val chars ranges classes ic inv st = .ret v ok st' ∧
      ∃ r m, Peg rules (runes p0.rest) st.invert (.charClass val chars ranges classes ic inv) k r m ∧
        Outcome p0 ms st st.pt r m ok st' := by
  have hr := rest_at hpt
  unfold parseCharClass
  cases hrest : st.pt.rest with
  | nil =>
    rw [hrest] at hr
    exact ⟨_, _, _, rfl, peg_miss hw h0 hk hpt hfar rfl rfl rfl rfl (failAt_fields ..).1 rfl rfl
      (by rw [← hr]; rfl)⟩
  | cons x l =>
    rw [hrest] at hr
    dsimp only
    by_cases hcl : classHas chars ranges classes (if ic = true then toLowerRune x.rn else x.rn) = inv
    · rw [if_pos hcl]
      refine ⟨_, _, _, rfl, peg_miss hw h0 hk hpt hfar rfl rfl rfl rfl (failAt_fields ..).1 rfl rfl ?_⟩
      rw [← hr]
      simp only [runes, List.map_cons, termMatch]
      rw [hcl]
      cases inv <;> rfl
    · rw [if_neg hcl]
      have hne : st.pt.rest ≠ [] := by rw [hrest]; simp
      have hk1 := at_lt hpt hne
      have hf := read_fields (env := env) st ⟨k, hk, hpt⟩
      have hpt1 : (st.read env).pt = walk p0 (k + 1) := by rw [hf.1, hpt]; rfl
      have hfr := read_far (env := env) st
      refine ⟨_, _, _, rfl, peg_hit hw h0 hk hpt (hfar.of hfr.1 hfr.2) hf.2.2.2.2.2 hk1 hpt1 rfl ?_⟩
      rw [← hr]
      simp only [runes, List.map_cons, termMatch]
      generalize classHas chars ranges classes (if ic = true then toLowerRune x.rn else x.rn) = b at hcl
      cases b <;> cases inv <;> simp at hcl ⊢

theorem peg_lit (val : Str) (ic : Bool) (hv : val.all plainChar = true) {st : PState} {k : Nat}
    {ms : List (Nat × Str)} (hk : k ≤ p0.rest.length) (hpt : st.pt = walk p0 k) (hfar : Far p0 ms st) :
    ∃ v ok st', parseLit env val ic st = .ret v ok st' ∧
      ∃ r m, Peg rules (runes p0.rest) st.invert (.lit val ic) k r m ∧ Outcome p0 ms st st.pt r m ok st' := by
  obtain ⟨j, h1, h2, h3, h4, h5, h6, h7⟩ := litLoop_peg (env := env) (p0 := p0) ic val hv st k hk hpt
  unfold parseLit
  cases hl : litLoop env ic val st with
  | mk b st1 =>
    rw [hl] at h2 h3 h4 h5 h6 h7
    dsimp only at h2 h3 h4 h5 h6 h7
    cases b with
    | false =>
      have hff := failAt_fields st1 false st.pt.pos (litWant val ic)
      have hrest := restore_fields hw (st1.failAt false st.pt.pos (litWant val ic)) st.pt
        (by rw [hff.1]; exact ⟨j, h1, h2⟩) ⟨k, hk, hpt⟩
      refine ⟨_, _, _, rfl, peg_miss hw h0 hk hpt (hfar.of h4 h5) h3 (w := litWant val ic) ?_ ?_ ?_ ?_ rfl
        (litWant_plain hv ic) (h7 rfl)⟩ <;> rw [hrest]
    | true =>
      obtain ⟨h8, h9⟩ := h6 rfl
      subst h9
      exact ⟨_, _, _, rfl, peg_hit hw h0 hk hpt (hfar.of h4 h5) h3 h1 h2 (litWant_plain hv ic) h8⟩

/-! ## The interpreter -/

/-- What the rest of a task is, as an expression. -/
def taskExpr : Task → PExpr
  | .expr e => e
  | .alts es => .choice es
  | .seq es _ _ _ => .seq es
  | .many e vals one => if one && vals.isEmpty then .oneOrMore e else .zeroOrMore e

/-- Where a task leaves the parser when it fails. -/
def taskBack (st : PState) : Task → Pt
  | .seq _ _ pt _ => pt
  | _ => st.pt

omit hw h0 in
theorem taskExpr_many (e : PExpr) (vals : List Val) (one : Bool) : taskExpr (.many e vals one) =
    if one && vals.isEmpty then .oneOrMore e else .zeroOrMore e := rfl

omit hw h0 in
theorem star_some {neg : Bool} {text : Str} {e : PExpr} {k : Nat} {r : Option Nat} {m : List (Nat × Str)}
    (h : Peg rules text neg (.zeroOrMore e) k r m) : ∃ k', r = some k' := by
  generalize hz : PExpr.zeroOrMore e = z at h
  induction h with
  | starEnd => exact ⟨_, rfl⟩
  | starNext _ _ _ ih2 => exact ih2 hz
  | hit ht => subst hz; simp [termMatch] at ht
  | miss ht => subst hz; cases ht
  | _ => cases hz

omit hw h0 in
/-- A task may run. -/
def PegTask (p0 : Pt) : Task → Prop
  | .expr e => plain e = true
  | .alts es => plainAll es = true
  | .seq es _ pt _ => plainAll es = true ∧ Reach p0 pt
  | .many e _ _ => plain e = true

omit hw h0 in
theorem Outcome.of {ms m : List (Nat × Str)} {st stB st' st'' : PState} {back : Pt} {r : Option Nat}
    {ok : Bool} (h : Outcome p0 ms st back r m ok st') (h1 : st''.pt = st'.pt)
    (h2 : st''.invert = st'.invert) (h3 : st''.maxFailPos = st'.maxFailPos)
    (h4 : st''.maxFailExpected = st'.maxFailExpected) (h5 : st.invert = stB.invert) :
    Outcome p0 ms stB back r m ok st'' :=
  ⟨h2.trans (h.invert.trans h5), h.far.of h3 h4, h.ok, fun k' hk => ⟨(h.hit k' hk).1, h1.trans (h.hit k' hk).2⟩,
    fun hr => h1.trans (h.miss hr)⟩

omit hw h0 in
theorem Outcome.cases {ms m : List (Nat × Str)} {st st' : PState} {back : Pt} {r : Option Nat}
    {ok : Bool} (h : Outcome p0 ms st back r m ok st') :
    (ok = false ∧ r = none ∧ st'.pt = back) ∨
    (ok = true ∧ ∃ k', r = some k' ∧ k' ≤ p0.rest.length ∧ st'.pt = walk p0 k') := by
  cases r with
  | none => exact .inl ⟨h.ok, rfl, h.miss rfl⟩
  | some k' => exact .inr ⟨h.ok, k', rfl, h.hit k' rfl⟩

theorem run_peg (hg : ∀ r ∈ env.rules, plain r.2 = true) (n : Nat) : ∀ (t : Task) (st : PState) (k : Nat)
    (ms : List (Nat × Str)) (v : Val) (ok : Bool) (st' : PState),
    k ≤ p0.rest.length → st.pt = walk p0 k → Far p0 ms st → PegTask p0 t →
    run env n t st = some (.ret v ok st') →
    ∃ r m, Peg env.rules (runes p0.rest) st.invert (taskExpr t) k r m ∧
      Outcome p0 ms st (taskBack st t) r m ok st' := by
  induction n with
  | zero => intro t st k ms v ok st' _ _ _ _ h; simp [run] at h
  | succ n ih =>
    intro t st k ms v ok st' hk hpt hfar ht h
    -- after a call
    have call : ∀ (t1 : Task) (st1 : PState) (K : Val → Bool → PState → Option PRes),
        st1.pt = st.pt → st1.maxFailPos = st.maxFailPos → st1.maxFailExpected = st.maxFailExpected →
        PegTask p0 t1 → PRes.andThen (run env n t1 st1) K = some (.ret v ok st') →
        ∃ v1 ok1 st2, K v1 ok1 st2 = some (.ret v ok st') ∧
          ∃ r m, Peg env.rules (runes p0.rest) st1.invert (taskExpr t1) k r m ∧
            Outcome p0 ms st1 (taskBack st1 t1) r m ok1 st2 := by
      intro t1 st1 K h1 h2 h3 h4 h5
      cases hrun : run env n t1 st1 with
      | none => rw [hrun] at h5; cases h5
      | some r1 =>
        rw [hrun] at h5
        cases r1 with
        | panic m st2 => cases h5
        | ret v1 ok1 st2 =>
          exact ⟨v1, ok1, st2, h5, ih t1 st1 k ms v1 ok1 st2 hk (h1.trans hpt) (hfar.of h2 h3) h4 hrun⟩
    have leaf : ∀ {res : PRes} {t1 : PExpr}, some res = some (.ret v ok st') →
        (∃ v ok st', res = .ret v ok st' ∧ ∃ r m, Peg env.rules (runes p0.rest) st.tick.invert t1 k r m ∧
          Outcome p0 ms st.tick st.tick.pt r m ok st') →
        ∃ r m, Peg env.rules (runes p0.rest) st.invert t1 k r m ∧ Outcome p0 ms st st.pt r m ok st' := by
      intro res t1 h1 h2
      obtain ⟨v1, ok1, st1, h3, r, m, h4, h5⟩ := h2
      rw [h3] at h1
      cases h1
      exact ⟨r, m, h4, h5.of rfl rfl rfl rfl rfl⟩
    rw [run.eq_def] at h
    dsimp only at h
    split at h
    · -- action
      rename_i a e
      obtain ⟨v1, ok1, st2, h1, r, m, h2, h3⟩ := call (.expr e) st.tick _ rfl rfl rfl ht h
      refine ⟨r, m, .action h2, ?_⟩
      try dsimp only at h1
      cases ok1 with
      | true =>
        rw [if_pos rfl] at h1
        split at h1
        · cases h1; exact h3.of rfl rfl rfl rfl rfl
        · cases h1; exact h3.of rfl rfl rfl rfl rfl
        · cases h1
      | false =>
        rw [if_neg (by simp)] at h1
        cases h1; exact h3.of rfl rfl rfl rfl rfl
    · exact leaf h (peg_any hw h0 hk hpt (hfar.of rfl rfl))
    · exact leaf h (peg_cls hw h0 _ _ _ _ _ _ hk hpt (hfar.of rfl rfl))
    · -- choice
      rename_i es
      obtain ⟨r, m, h1, h2⟩ := ih (.alts es) st.tick k ms v ok st' hk hpt (hfar.of rfl rfl) ht h
      exact ⟨r, m, h1, h2.of rfl rfl rfl rfl rfl⟩
    · cases h
      exact ⟨none, [], .choiceNil, rfl, by rw [List.append_nil]; exact hfar, rfl, fun _ h => (by cases h), fun _ => rfl⟩
    · -- alts
      rename_i e es
      have ht' : plain e = true ∧ plainAll es = true := (Bool.and_eq_true _ _).mp ht
      obtain ⟨v1, ok1, st2, h1, r, m, h2, h3⟩ := call (.expr e) st.pushV _ rfl rfl rfl ht'.1 h
      try dsimp only at h1
      rcases h3.cases with ⟨rfl, rfl, hb⟩ | ⟨rfl, k', rfl, hb⟩
      · rw [if_neg (by simp)] at h1
        obtain ⟨r', m', h4, h5⟩ := ih (.alts es) { st2.popV with randCount := st.randCount } k (ms ++ m) v ok st' hk
          (hb.trans hpt) (h3.far.of rfl rfl) ht'.2 h1
        have hi : ({ st2.popV with randCount := st.randCount } : PState).invert = st.invert := h3.invert
        rw [hi] at h4
        refine ⟨r', m ++ m', .choiceNext h2 h4, ?_⟩
        have h6 := h5.of (stB := st) rfl rfl rfl rfl hi
        exact ⟨h6.invert, by rw [← List.append_assoc]; exact h6.far, h6.ok, h6.hit, fun hr => (h6.miss hr).trans hb⟩
      · rw [if_pos rfl] at h1
        cases h1
        exact ⟨some k', m, .choiceHit h2, h3.of rfl rfl rfl rfl rfl⟩
    · -- labeled
      rename_i label e
      obtain ⟨v1, ok1, st2, h1, r, m, h2, h3⟩ := call (.expr e) st.tick.pushV _ rfl rfl rfl ht h
      refine ⟨r, m, .labeled h2, ?_⟩
      try dsimp only at h1
      split at h1
      · cases h1; exact h3.of rfl rfl rfl rfl rfl
      · cases h1; exact h3.of rfl rfl rfl rfl rfl
    · exact leaf h (peg_lit hw h0 _ _ ht hk hpt (hfar.of rfl rfl))
    · -- not
      rename_i e
      obtain ⟨v1, ok1, st2, h1, r, m, h2, h3⟩ := call (.expr e) { st.tick.pushV with invert := !st.invert } _ rfl rfl rfl ht h
      try dsimp only at h1
      cases h1
      have hreach : Reach p0 st2.pt := by
        rcases h3.cases with ⟨_, _, hb⟩ | ⟨_, k', _, hb⟩
        · exact ⟨k, hk, hb.trans hpt⟩
        · exact ⟨k', hb⟩
      have hrest := restore_fields hw { { st2 with invert := !st2.invert }.popV with randCount := st.randCount } st.pt
        hreach ⟨k, hk, hpt⟩
      have hinv : (!st2.invert) = st.invert := by
        rw [h3.invert]
        show (!!st.invert) = st.invert
        exact Bool.not_not _
      rcases h3.cases with ⟨rfl, rfl, hb⟩ | ⟨rfl, k', rfl, hb⟩
      · refine ⟨some k, m, .notMiss h2, ?_⟩
        rw [hrest]
        exact ⟨hinv, h3.far.of rfl rfl, rfl, fun _ h => (by cases h; exact ⟨hk, hpt⟩), fun h => (by cases h)⟩
      · refine ⟨none, m, .notHit h2, ?_⟩
        rw [hrest]
        exact ⟨hinv, h3.far.of rfl rfl, rfl, fun _ h => (by cases h), fun _ => rfl⟩
    · rename_i e
      obtain ⟨r, m, h1, h2⟩ := ih (.many e [] true) st.tick k ms v ok st' hk hpt (hfar.of rfl rfl) ht h
      exact ⟨r, m, h1, h2.of rfl rfl rfl rfl rfl⟩
    · rename_i e
      obtain ⟨r, m, h1, h2⟩ := ih (.many e [] false) st.tick k ms v ok st' hk hpt (hfar.of rfl rfl) ht h
      exact ⟨r, m, h1, h2.of rfl rfl rfl rfl rfl⟩
    · -- many
      rename_i e vals one
      obtain ⟨v1, ok1, st2, h1, r, m, h2, h3⟩ := call (.expr e) st.pushV _ rfl rfl rfl ht h
      try dsimp only at h1
      rcases h3.cases with ⟨rfl, rfl, hb⟩ | ⟨rfl, k', rfl, hb⟩
      · rw [if_neg (by simp)] at h1
        rw [taskExpr_many]
        by_cases hc : (one && vals.isEmpty) = true
        · rw [if_pos hc] at h1 ⊢
          cases h1
          exact ⟨none, m, .plusMiss h2, h3.of rfl rfl rfl rfl rfl⟩
        · rw [if_neg hc] at h1 ⊢
          cases h1
          refine ⟨some k, m, .starEnd h2, ?_⟩
          exact ⟨h3.invert, h3.far.of rfl rfl, rfl, fun _ h => (by cases h; exact ⟨hk, hb.trans hpt⟩), fun h => (by cases h)⟩
      · rw [if_pos rfl] at h1
        obtain ⟨r', m', h4, h5⟩ := ih (.many e (vals ++ [v1]) one) st2.popV k' (ms ++ m) v ok st' hb.1
          hb.2 (h3.far.of rfl rfl) ht h1
        have hi : st2.popV.invert = st.invert := h3.invert
        rw [hi] at h4
        have hte : taskExpr (.many e (vals ++ [v1]) one) = .zeroOrMore e := by
          rw [taskExpr_many, if_neg (by simp)]
        rw [hte] at h4
        have h6 := h5.of (stB := st) rfl rfl rfl rfl hi
        -- a repetition never fails once it has started
        have hsome : ∃ k2, r' = some k2 := star_some h4
        obtain ⟨k2, rfl⟩ := hsome
        have hout : Outcome p0 ms st (taskBack st (.many e vals one)) (some k2) (m ++ m') ok st' :=
          ⟨h6.invert, by rw [← List.append_assoc]; exact h6.far, h6.ok, h6.hit, fun hr => (by cases hr)⟩
        refine ⟨some k2, m ++ m', ?_, hout⟩
        rw [taskExpr_many]
        by_cases hc : (one && vals.isEmpty) = true
        · rw [if_pos hc]; exact .plusNext h2 h4
        · rw [if_neg hc]; exact .starNext h2 h4
    · -- ruleRef
      rename_i name
      split at h
      · rename_i hl
        cases h
        refine ⟨none, [], .noRule hl, rfl, ?_, rfl, fun _ h => (by cases h), fun _ => rfl⟩
        rw [List.append_nil]
        exact hfar.of rfl rfl
      · rename_i e hl
        obtain ⟨v1, ok1, st2, h1, r, m, h2, h3⟩ := call (.expr e)
          { st.tick.pushV with rstack := name :: st.rstack } _ rfl rfl rfl (hg _ (lookup_mem hl)) h
        try dsimp only at h1
        cases h1
        exact ⟨r, m, .rule hl h2, h3.of rfl rfl rfl rfl rfl⟩
    · rename_i es
      obtain ⟨r, m, h1, h2⟩ := ih (.seq es [] st.pt st.randCount) st.tick k ms v ok st' hk hpt (hfar.of rfl rfl)
        ⟨ht, k, hk, hpt⟩ h
      exact ⟨r, m, h1, h2.of rfl rfl rfl rfl rfl⟩
    · cases h
      refine ⟨some k, [], .seqNil, rfl, ?_, rfl, fun _ h => (by cases h; exact ⟨hk, hpt⟩), fun h => (by cases h)⟩
      rw [List.append_nil]; exact hfar
    · -- seq
      rename_i e es vals pt rc
      have ht' : plain e = true ∧ plainAll es = true := (Bool.and_eq_true _ _).mp ht.1
      obtain ⟨v1, ok1, st2, h1, r, m, h2, h3⟩ := call (.expr e) st _ rfl rfl rfl ht'.1 h
      try dsimp only at h1
      rcases h3.cases with ⟨rfl, rfl, hb⟩ | ⟨rfl, k', rfl, hb⟩
      · rw [if_neg (by simp)] at h1
        cases h1
        have hrest := restore_fields hw { st2 with randCount := rc } pt ⟨k, hk, hb.trans hpt⟩ ht.2
        refine ⟨none, m, .seqMiss h2, ?_⟩
        rw [hrest]
        exact ⟨h3.invert, h3.far.of rfl rfl, rfl, fun _ h => (by cases h), fun _ => rfl⟩
      · rw [if_pos rfl] at h1
        obtain ⟨r', m', h4, h5⟩ := ih (.seq es (vals ++ [v1]) pt rc) st2 k' (ms ++ m) v ok st' hb.1
          hb.2 h3.far ⟨ht'.2, ht.2⟩ h1
        rw [h3.invert] at h4
        refine ⟨r', m ++ m', .seqNext h2 h4, ?_⟩
        exact ⟨h5.invert.trans h3.invert, by rw [← List.append_assoc]; exact h5.far, h5.ok, h5.hit, h5.miss⟩
    · -- stateCode
      rename_i a
      unfold parseStateCode at h
      have hout : ∀ c : Option Int, Outcome p0 ms st (taskBack st (.expr (.stateCode a))) (some k) [] true
          { st.tick with randCount := c } := fun c =>
        ⟨rfl, by rw [List.append_nil]; exact hfar.of rfl rfl, rfl, fun _ h => (by cases h; exact ⟨hk, hpt⟩),
          fun h => (by cases h)⟩
      split at h
      · cases h; exact ⟨some k, [], .stateCode, hout _⟩
      · split at h
        · cases h
        · cases h; exact ⟨some k, [], .stateCode, hout _⟩
    · -- zeroOrOne
      rename_i e
      obtain ⟨v1, ok1, st2, h1, r, m, h2, h3⟩ := call (.expr e) st.tick.pushV _ rfl rfl rfl ht h
      try dsimp only at h1
      cases h1
      rcases h3.cases with ⟨rfl, rfl, hb⟩ | ⟨rfl, k', rfl, hb⟩
      · exact ⟨some k, m, .optMiss h2, h3.invert, h3.far.of rfl rfl, rfl,
          fun _ h => (by cases h; exact ⟨hk, hb.trans hpt⟩), fun h => (by cases h)⟩
      · exact ⟨some k', m, .optHit h2, h3.of rfl rfl rfl rfl rfl⟩

end

end Pigeon

end GoBCDice
