import Verif.Spec.Text
import Verif.Spec.Command
import Verif.Spec.Grammar
import Verif.Lemmas.Str
import Verif.Lemmas.TestcaseFile
import Verif.Lemmas.Message

/-! # Lemmas on the text of answers -/

namespace GoBCDice

theorem Plain.nil : Plain [] := fun _ h => nomatch h

theorem Plain.append {s t : Str} (hs : Plain s) (ht : Plain t) : Plain (s ++ t) := by
  intro c hc
  rcases List.mem_append.mp hc with h | h
  · exact hs c h
  · exact ht c h

theorem Plain.join {sep : Str} (hsep : Plain sep) : ∀ {ss : List Str}, (∀ s ∈ ss, Plain s) →
    Plain (GoBCDice.join sep ss)
  | [], _ => .nil
  | [s], h => h s (by simp)
  | s :: t :: rest, h =>
    ((h s (by simp)).append hsep).append (Plain.join hsep (fun u hu => h u (by simp [List.mem_cons.mp hu])))

theorem isDigit_plain {c : Char} (h : isDigit c = true) : c ∈ answerLetters := by
  simp only [isDigit, Bool.and_eq_true, decide_eq_true_eq] at h
  have h1 : 48 ≤ c.toNat := h.1
  have h2 : c.toNat ≤ 57 := h.2
  have h3 : c = Char.ofNat c.toNat := (Char.ofNat_toNat c).symm
  have : c.toNat = 48 ∨ c.toNat = 49 ∨ c.toNat = 50 ∨ c.toNat = 51 ∨ c.toNat = 52 ∨ c.toNat = 53 ∨
      c.toNat = 54 ∨ c.toNat = 55 ∨ c.toNat = 56 ∨ c.toNat = 57 := by omega
  rcases this with h | h | h | h | h | h | h | h | h | h <;> rw [h3, h] <;> decide

theorem plain_natStr (n : Nat) : Plain (natStr n) := fun c hc => isDigit_plain (natStr_isDigit n c hc)

theorem plain_intStr (v : Int64) : Plain (intStr v) := by
  unfold intStr
  split
  · exact Plain.append (s := ['-']) (by decide) (plain_natStr _)
  · exact plain_natStr _

theorem Plain.paren {s : Str} (h : Plain s) : Plain (parenthesize s) :=
  (Plain.append (s := chars!"(") (by decide) h).append (by decide)

theorem Plain.inParens {s : Str} (h : Plain s) : Plain (inParens s) :=
  (Plain.append (s := chars!"(") (by decide) h).append (by decide)

theorem plain_values (vs : List Int64) : Plain (valuesText vs) := by
  refine Plain.join (by decide) ?_
  intro s hs
  obtain ⟨v, -, rfl⟩ := List.mem_map.mp hs
  exact plain_intStr v

theorem plain_sumRoll (ds : List Die) : Plain (sumRollNotation ds) := by
  refine (((plain_intStr _).append (by decide)).append (Plain.join (by decide) ?_)).append (by decide)
  intro s hs
  obtain ⟨v, -, rfl⟩ := List.mem_map.mp hs
  exact plain_intStr _

theorem plain_infix (e : Expr) : ∀ wl, Plain (infixNotation wl e) := by
  induction e with
  | int v => intro wl; unfold infixNotation; exact plain_intStr v
  | sumRoll ds => intro wl; unfold infixNotation; exact plain_sumRoll ds
  | neg r ih =>
    intro wl
    unfold infixNotation
    split
    · exact Plain.append (by decide) (ih _)
    · exact Plain.append (by decide) (ih _).paren
  | bin op l r ihl ihr =>
    intro wl
    unfold infixNotation
    refine Plain.append (Plain.append ?_ (by cases op <;> decide)) ?_
    · repeat' split
      all_goals first | exact ihl _ | exact (ihl _).paren
    · repeat' split
      all_goals first | exact ihr _ | exact (ihr _).paren
  | div m l r ihl ihr =>
    intro wl
    unfold infixNotation
    refine Plain.append (Plain.append (Plain.append ?_ (by decide)) ?_) (by cases m <;> decide)
    · repeat' split
      all_goals first | exact ihl _ | exact (ihl _).paren
    · repeat' split
      all_goals first | exact ihr _ | exact (ihr _).paren
  | var k l r ihl ihr =>
    intro wl
    cases k
    · unfold infixNotation
      refine Plain.append (Plain.append ?_ (by decide)) ?_
      · repeat' split
        all_goals first | exact ihl _ | exact (ihl _).paren
      · repeat' split
        all_goals first | exact ihr _ | exact (ihr _).paren
    · unfold infixNotation
      refine Plain.append (Plain.append (Plain.append (Plain.append (by decide) ?_) (by decide)) ?_) (by decide)
      · repeat' split
        all_goals first | exact ihl _ | exact (ihl _).paren
      · repeat' split
        all_goals first | exact ihr _ | exact (ihr _).paren

theorem plain_op (op : CmpOp) : Plain op.str := by cases op <;> decide

theorem plain_rolls {letter : Str} (h : Plain letter) (ps : List (Int64 × Int64)) :
    Plain (rollsText letter ps) := by
  refine Plain.join (by decide) ?_
  intro s hs
  obtain ⟨v, -, rfl⟩ := List.mem_map.mp hs
  exact ((plain_intStr _).append h).append (plain_intStr _)

theorem plain_threshold (th : Option Int64) : Plain (thresholdText th) := by
  cases th with
  | none => exact .nil
  | some v => exact (Plain.append (by decide) (plain_intStr v)).append (by decide)

theorem plain_bonus (m : Int64) : Plain (bonusText m) := by
  unfold bonusText
  repeat' split
  · exact .nil
  · exact Plain.append (by decide) (plain_intStr _)
  · exact Plain.append (by decide) (plain_intStr _)

theorem plain_modifier (m : Int64) : Plain (modifierText m) := by
  unfold modifierText
  repeat' split
  · exact .nil
  · exact Plain.append (by decide) (plain_intStr _)
  · exact plain_intStr _

theorem plain_rGroups (gs : List (List Die)) : Plain (rGroupsText gs) := by
  refine Plain.join (by decide) ?_
  intro s hs
  obtain ⟨v, -, rfl⟩ := List.mem_map.mp hs
  exact plain_values _

theorem plain_groups (gs : List (List Die)) (m : Int64) : Plain (groupsText gs m) := by
  refine Plain.append (Plain.join (by decide) ?_) (plain_modifier m)
  intro s hs
  obtain ⟨v, -, rfl⟩ := List.mem_map.mp hs
  refine (plain_intStr _).append ?_
  split
  · exact (Plain.append (by decide) (plain_values _)).append (by decide)
  · exact .nil

theorem Refused.plain {nilMsg msg : Str} {th : Option Int64} (hn : Plain nilMsg)
    (h : Refused nilMsg th msg) : Plain msg := by
  cases h
  · exact hn
  · decide

theorem plain_missingR : Plain missingThresholdR := by decide
theorem plain_missingU : Plain missingThresholdU := by decide

/-- Every part of an answer that is not a choice is plain; a choice is answered as specified. -/
theorem Outcome.plain {limit : Nat} {g : Str} {node : Node} {ds : List Die} {r : Result}
    (h : Outcome limit g node ds r) :
    (∃ items, node = .choice items ∧ r.Chosen items) ∨
      (∀ items, node ≠ .choice items) ∧ ∀ p ∈ r.parts, Plain p := by
  cases h with
  | choice h1 h2 h3 =>
    refine .inl ⟨_, rfl, _, List.mem_of_getElem? h3, ?_⟩
    simp [GoBCDice.inParens]
  | «calc» h1 =>
    refine .inr ⟨by simp, ?_⟩
    simp only [List.mem_cons, List.not_mem_nil, or_false, forall_eq_or_imp, forall_eq]
    exact ⟨(Plain.append (by decide) (plain_infix _ _)).append (by decide), by decide, plain_intStr _⟩
  | dRollExpr h1 h2 h3 =>
    refine .inr ⟨by simp, ?_⟩
    simp only [List.mem_cons, List.not_mem_nil, or_false, forall_eq_or_imp, forall_eq]
    exact ⟨(plain_infix _ _).inParens, plain_infix _ _, plain_intStr _⟩
  | dRollComp =>
    refine .inr ⟨by simp, ?_⟩
    simp only [List.mem_cons, List.not_mem_nil, or_false, forall_eq_or_imp, forall_eq]
    refine ⟨(((plain_infix _ _).append (plain_op _)).append (plain_intStr _)).inParens, plain_infix _ _,
      plain_intStr _, ?_⟩
    split <;> decide
  | bRollList =>
    refine .inr ⟨by simp, ?_⟩
    simp only [List.mem_cons, List.not_mem_nil, or_false, forall_eq_or_imp, forall_eq]
    exact ⟨(plain_rolls (by decide) _).inParens, plain_values _⟩
  | bRollComp =>
    refine .inr ⟨by simp, ?_⟩
    simp only [List.mem_cons, List.not_mem_nil, or_false, forall_eq_or_imp, forall_eq]
    exact ⟨(((plain_rolls (by decide) _).append (plain_op _)).append (plain_intStr _)).inParens, plain_values _,
      Plain.append (by decide) (plain_intStr _)⟩
  | rRollRefused h1 h2 h3 =>
    refine .inr ⟨by simp, ?_⟩
    simp only [List.mem_cons, List.not_mem_nil, or_false, forall_eq_or_imp, forall_eq]
    exact ⟨((plain_rolls (by decide) _).append (plain_threshold _)).inParens, h3.plain plain_missingR⟩
  | rRollList =>
    refine .inr ⟨by simp, ?_⟩
    simp only [List.mem_cons, List.not_mem_nil, or_false, forall_eq_or_imp, forall_eq]
    exact ⟨((plain_rolls (by decide) _).append (plain_threshold _)).inParens, plain_rGroups _⟩
  | rRollCompRefused h1 h2 h3 h4 =>
    refine .inr ⟨by simp, ?_⟩
    simp only [List.mem_cons, List.not_mem_nil, or_false, forall_eq_or_imp, forall_eq]
    exact ⟨((((plain_rolls (by decide) _).append (plain_threshold _)).append (plain_op _)).append
      (plain_intStr _)).inParens, h4.plain plain_missingR⟩
  | rRollComp =>
    refine .inr ⟨by simp, ?_⟩
    simp only [List.mem_cons, List.not_mem_nil, or_false, forall_eq_or_imp, forall_eq]
    exact ⟨((((plain_rolls (by decide) _).append (plain_threshold _)).append (plain_op _)).append
      (plain_intStr _)).inParens, plain_rGroups _, Plain.append (by decide) (plain_intStr _)⟩
  | uRollRefused h1 h2 h3 h4 =>
    refine .inr ⟨by simp, ?_⟩
    simp only [List.mem_cons, List.not_mem_nil, or_false, forall_eq_or_imp, forall_eq]
    exact ⟨(((plain_rolls (by decide) _).append (plain_threshold _)).append (plain_bonus _)).inParens,
      h4.plain plain_missingU⟩
  | uRollExpr =>
    refine .inr ⟨by simp, ?_⟩
    simp only [List.mem_cons, List.not_mem_nil, or_false, forall_eq_or_imp, forall_eq]
    exact ⟨(((plain_rolls (by decide) _).append (plain_threshold _)).append (plain_bonus _)).inParens,
      plain_groups _ _, (((plain_intStr _).append (by decide)).append (plain_intStr _)).append (by decide)⟩
  | uRollCompRefused h1 h2 h3 h4 h5 =>
    refine .inr ⟨by simp, ?_⟩
    simp only [List.mem_cons, List.not_mem_nil, or_false, forall_eq_or_imp, forall_eq]
    exact ⟨(((((plain_rolls (by decide) _).append (plain_threshold _)).append (plain_bonus _)).append
      (plain_op _)).append (plain_intStr _)).inParens, h5.plain plain_missingU⟩
  | uRollComp =>
    refine .inr ⟨by simp, ?_⟩
    simp only [List.mem_cons, List.not_mem_nil, or_false, forall_eq_or_imp, forall_eq]
    exact ⟨(((((plain_rolls (by decide) _).append (plain_threshold _)).append (plain_bonus _)).append
      (plain_op _)).append (plain_intStr _)).inParens, plain_groups _ _,
      Plain.append (by decide) (plain_intStr _)⟩

theorem Trimmed.sub {s t : Str} (h : Trimmed s t) : ∀ c ∈ t, c ∈ s := by
  obtain ⟨a, b, rfl, -⟩ := h
  intro c hc
  simp [hc]

theorem ItemsText.sub {s : Str} {items : List Str} (h : ItemsText s items) :
    ∀ item ∈ items, ∀ c ∈ item, c ∈ s ∧ c ≠ ',' ∧ c ≠ ']' := by
  induction h with
  | one h =>
    intro item hi c hc
    simp only [List.mem_singleton] at hi
    subst hi
    exact ⟨h.2.2.sub c hc, h.1 c (h.2.2.sub c hc)⟩
  | cons h _ ih =>
    intro item hi c hc
    rcases List.mem_cons.mp hi with rfl | hi
    · exact ⟨by simp [h.2.2.sub c hc], h.1 c (h.2.2.sub c hc)⟩
    · exact ⟨by simp [(ih item hi c hc).1], (ih item hi c hc).2⟩

theorem CommandText.items_sub {s : Str} {items : List Str} (h : CommandText s (.choice items)) :
    ∀ item ∈ items, ∀ c ∈ item, c ∈ s ∧ c ≠ ',' ∧ c ≠ ']' := by
  cases h with
  | choice h1 h2 h3 =>
    intro item hi c hc
    have := h2.sub item hi c hc
    exact ⟨by simp [this.1], this.2⟩

theorem mem_join {sep : Str} {c : Char} : ∀ {ss : List Str}, c ∈ join sep ss →
    c ∈ sep ∨ ∃ s ∈ ss, c ∈ s
  | [], h => nomatch h
  | [s], h => .inr ⟨s, by simp, h⟩
  | s :: t :: rest, h => by
    rw [join] at h
    simp only [List.mem_append] at h
    rcases h with (h | h) | h
    · exact .inr ⟨s, by simp, h⟩
    · exact .inl h
    · rcases mem_join h with h | ⟨u, hu, h⟩
      · exact .inl h
      · exact .inr ⟨u, by simp [List.mem_cons.mp hu], h⟩

/-- Splitting at a mark that occurs in no part undoes joining. -/
theorem splitSeq_join {a b : Str} {m : Char} (ha : m ∉ a) (hb : m ∉ b) : ∀ {ps : List Str}, ps ≠ [] →
    (∀ p ∈ ps, m ∉ p) → splitSeq (a ++ m :: b) (join (a ++ m :: b) ps) = ps
  | [p], _, h => by
    have := h p (by simp)
    rw [join]
    refine splitSeq_free ?_ (by simp)
    rintro ⟨x, y, e⟩
    exact this (by rw [← e]; simp)
  | p :: q :: rest, _, h => by
    rw [join, splitSeq_append (by simp), splitSeq_join ha hb (by simp) (fun u hu => h u (by simp [List.mem_cons.mp hu]))]
    intro x t e
    have hp := h p (by simp)
    apply Nat.le_of_not_lt
    intro hlt
    -- the mark of the earlier occurrence would lie in `p` or in `a`
    have hpa : m ∉ p ++ a := by simp [hp, ha]
    have e' : (p ++ a) ++ m :: (b ++ join (a ++ m :: b) (q :: rest)) = (x ++ a) ++ m :: (b ++ t) := by
      simpa using e
    have hx : m ∉ x ++ a := by
      have hle : (x ++ a).length ≤ (p ++ a).length := by simp; omega
      have : x ++ a <+: p ++ a :=
        List.prefix_of_prefix_length_le (l₃ := (p ++ a) ++ m :: (b ++ join (a ++ m :: b) (q :: rest)))
          (by rw [e']; exact List.prefix_append _ _) (List.prefix_append _ _) hle
      intro hm
      exact hpa (this.subset hm)
    have hlen : (x ++ a).length = (p ++ a).length := by
      have h1 : ∀ (u v : Str), m ∉ u → (u ++ m :: v).idxOf m = u.length := by
        intro u v hu
        rw [List.idxOf_append, if_neg hu]; simp
      have := congrArg (List.idxOf m) e'
      rw [h1 _ _ hpa, h1 _ _ hx] at this
      exact this.symm
    simp at hlen
    omega

theorem notMem_intStr {c : Char} (h : isDigit c = false) (h' : c ≠ '-') (v : Int64) : c ∉ intStr v := by
  have hn : ∀ n, c ∉ natStr n := fun n hc => by
    have := natStr_isDigit n c hc
    rw [h] at this
    cases this
  unfold intStr
  split
  · simp [h', hn]
  · exact hn _

theorem notMem_values {c : Char} (h : isDigit c = false) (h' : c ≠ '-') (h2 : c ≠ ',') (vs : List Int64) :
    c ∉ valuesText vs := by
  intro hc
  rcases mem_join hc with hc | ⟨s, hs, hc⟩
  · simp at hc; exact h2 hc
  · obtain ⟨v, -, rfl⟩ := List.mem_map.mp hs
    exact notMem_intStr h h' v hc

theorem notMem_rGroups {c : Char} (h : isDigit c = false) (h' : c ≠ '-') (h2 : c ≠ ',') (h3 : c ≠ ' ')
    (h4 : c ≠ '+') (gs : List (List Die)) : c ∉ rGroupsText gs := by
  intro hc
  rcases mem_join hc with hc | ⟨s, hs, hc⟩
  · simp at hc
    rcases hc with hc | hc | hc
    · exact h3 hc
    · exact h4 hc
    · exact h3 hc
  · obtain ⟨v, -, rfl⟩ := List.mem_map.mp hs
    exact notMem_values h h' h2 _ hc

theorem verdictOf_other {ps : List Str} {p : Str} (h1 : p ≠ chars!"成功") (h2 : p ≠ chars!"失敗") :
    verdictOf (ps ++ [p]) = .unspecified := by
  simp [verdictOf, h1, h2]

theorem ne_of_notMem {p q : Str} {c : Char} (h : c ∉ p) (hq : c ∈ q) : p ≠ q := fun e => h (e ▸ hq)

theorem Refused.verdict {nilMsg msg : Str} {th : Option Int64} (hn : nilMsg.length ≠ 2)
    (h : Refused nilMsg th msg) : msg.length ≠ 2 := by
  cases h
  · exact hn
  · decide

theorem ne_of_length {p q : Str} (h : p.length ≠ 2) (hq : q.length = 2) : p ≠ q := fun e => h (e ▸ hq)

/-- Except for a choice, the verdict can be read off the last part. -/
theorem Outcome.verdict {limit : Nat} {g : Str} {node : Node} {ds : List Die} {r : Result}
    (h : Outcome limit g node ds r) (hn : ∀ items, node ≠ .choice items) :
    r.success = verdictOf r.parts := by
  cases h with
  | choice => exact absurd rfl (hn _)
  | dRollComp =>
    show (if _ then SuccessCheck.success else SuccessCheck.failure) = _
    split <;> simp [verdictOf]
  | «calc» =>
    exact (verdictOf_other (ps := [_, _]) (ne_of_notMem (notMem_intStr (c := '成') (by decide) (by decide) _) (by decide))
      (ne_of_notMem (notMem_intStr (c := '失') (by decide) (by decide) _) (by decide))).symm
  | dRollExpr =>
    exact (verdictOf_other (ps := [_, _]) (ne_of_notMem (notMem_intStr (c := '成') (by decide) (by decide) _) (by decide))
      (ne_of_notMem (notMem_intStr (c := '失') (by decide) (by decide) _) (by decide))).symm
  | bRollList =>
    exact (verdictOf_other (ps := [_]) (ne_of_notMem (notMem_values (c := '成') (by decide) (by decide) (by decide) _) (by decide))
      (ne_of_notMem (notMem_values (c := '失') (by decide) (by decide) (by decide) _) (by decide))).symm
  | rRollList =>
    exact (verdictOf_other (ps := [_])
      (ne_of_notMem (notMem_rGroups (c := '成') (by decide) (by decide) (by decide) (by decide) (by decide) _) (by decide))
      (ne_of_notMem (notMem_rGroups (c := '失') (by decide) (by decide) (by decide) (by decide) (by decide) _) (by decide))).symm
  | bRollComp =>
    refine (verdictOf_other (ps := [_, _]) (ne_of_length ?_ rfl) (ne_of_length ?_ rfl)).symm <;>
      simp only [List.length_append, List.length_cons, List.length_nil] <;> omega
  | rRollComp =>
    refine (verdictOf_other (ps := [_, _]) (ne_of_length ?_ rfl) (ne_of_length ?_ rfl)).symm <;>
      simp only [List.length_append, List.length_cons, List.length_nil] <;> omega
  | uRollComp =>
    refine (verdictOf_other (ps := [_, _]) (ne_of_length ?_ rfl) (ne_of_length ?_ rfl)).symm <;>
      simp only [List.length_append, List.length_cons, List.length_nil] <;> omega
  | uRollExpr =>
    refine (verdictOf_other (ps := [_, _]) (ne_of_length ?_ rfl) (ne_of_length ?_ rfl)).symm <;>
      simp only [List.length_append, List.length_cons, List.length_nil] <;> omega
  | rRollRefused h1 h2 h3 =>
    have := h3.verdict (by decide)
    exact (verdictOf_other (ps := [_]) (ne_of_length this rfl) (ne_of_length this rfl)).symm
  | rRollCompRefused h1 h2 h3 h4 =>
    have := h4.verdict (by decide)
    exact (verdictOf_other (ps := [_]) (ne_of_length this rfl) (ne_of_length this rfl)).symm
  | uRollRefused h1 h2 h3 h4 =>
    have := h4.verdict (by decide)
    exact (verdictOf_other (ps := [_]) (ne_of_length this rfl) (ne_of_length this rfl)).symm
  | uRollCompRefused h1 h2 h3 h4 h5 =>
    have := h5.verdict (by decide)
    exact (verdictOf_other (ps := [_]) (ne_of_length this rfl) (ne_of_length this rfl)).symm

end GoBCDice
