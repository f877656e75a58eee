import Verif.Spec.Writing
import Verif.BCDice

/-!
# C98: ways of writing a command that make no difference
-/

namespace GoBCDice

theorem split_one {ds b : Str} (h0 : ds ≠ []) (hd : ∀ c ∈ ds, '0' ≤ c ∧ c ≤ '9') (a : Str) (c : Char) (s t : Str)
    (hc : ¬ ('0' ≤ c ∧ c ≤ '9')) (he : a ++ ds ++ b = s ++ c :: t) :
    (∃ b', s = a ++ ds ++ b' ∧ b = b' ++ c :: t) ∨ (∃ a', t = a' ++ ds ++ b ∧ a = s ++ c :: a') := by
  rw [List.append_assoc, List.append_eq_append_iff] at he
  rcases he with ⟨as, h1, h2⟩ | ⟨bs, h1, h2⟩
  · -- `s` reaches at least to the number
    rw [List.append_eq_append_iff] at h2
    rcases h2 with ⟨x, h3, h4⟩ | ⟨x, h3, h4⟩
    · exact .inl ⟨x, by rw [h1, h3, List.append_assoc], h4⟩
    · cases x with
      | nil => exact .inl ⟨[], by rw [h1, h3]; simp, by simpa using h4.symm⟩
      | cons y ys =>
        injection h4 with h5 h6
        exact absurd (hd c (by rw [h3, h5]; simp)) hc
  · cases bs with
    | nil =>
      rw [List.nil_append] at h2
      cases ds with
      | nil => exact absurd rfl h0
      | cons d ds => injection h2 with h5 h6; exact absurd (hd c (by rw [h5]; simp)) hc
    | cons y ys =>
      injection h2 with h5 h6
      exact .inr ⟨ys, by rw [h6, List.append_assoc]; rfl, by rw [h1, h5]⟩

theorem split_sep {ds b : Str} (h0 : ds ≠ []) (hd : ∀ c ∈ ds, '0' ≤ c ∧ c ≤ '9') (t : Str) :
    ∀ (sep a s : Str), sep ≠ [] → (∀ c ∈ sep, ¬ ('0' ≤ c ∧ c ≤ '9')) → a ++ ds ++ b = s ++ sep ++ t →
      (∃ b', s = a ++ ds ++ b' ∧ b = b' ++ sep ++ t) ∨ (∃ a', t = a' ++ ds ++ b ∧ a = s ++ sep ++ a') := by
  intro sep
  induction sep with
  | nil => intro a s h; exact absurd rfl h
  | cons c sep ih =>
    intro a s _ hs he
    rcases split_one h0 hd a c s (sep ++ t) (hs c (by simp)) (by simpa using he) with ⟨b', h1, h2⟩ | ⟨a', h1, h2⟩
    · exact .inl ⟨b', h1, by simpa using h2⟩
    · cases sep with
      | nil => exact .inr ⟨a', by simpa using h1, by simpa using h2⟩
      | cons c2 sep =>
        rcases ih a' [] (by simp) (fun c hc => hs c (List.mem_cons_of_mem _ hc)) (by simpa using h1.symm) with
          ⟨b', h3, h4⟩ | ⟨a2, h3, h4⟩
        · exact absurd h3.symm (by simp [h0])
        · exact .inr ⟨a2, h3, by rw [h2, h4]; simp⟩

theorem WholeNumber.split {a ds b : Str} (h : WholeNumber a ds b) (sep s t : Str) (h1 : sep ≠ [])
    (h2 : ∀ c ∈ sep, ¬ ('0' ≤ c ∧ c ≤ '9')) (he : s ++ sep ++ t = a ++ ds ++ b) :
    (∃ b', s = a ++ ds ++ b' ∧ b = b' ++ sep ++ t ∧ WholeNumber a ds b') ∨
      (∃ a', t = a' ++ ds ++ b ∧ a = s ++ sep ++ a' ∧ WholeNumber a' ds b) := by
  rcases split_sep h.some h.digits t sep a s h1 h2 he.symm with ⟨b', h3, h4⟩ | ⟨a', h3, h4⟩
  · refine .inl ⟨b', h3, h4, h.some, h.digits, h.before, fun c hc => h.after c ?_⟩
    cases b' with
    | nil => simp at hc
    | cons x xs => rw [h4]; simpa using hc
  · refine .inr ⟨a', h3, h4, h.some, h.digits, fun c hc => h.before c ?_, h.after⟩
    rw [h4, List.getLast?_append]
    rw [Option.mem_def] at hc ⊢
    rw [hc]; rfl

/-- A spelling can stand wherever a number can. -/
structure StandsFor (w : Str) (v : Expr) : Prop where
  rand : Der .randOperand w v
  roll : Der .rollOperand w v
  prim : ∀ k, Der (.prim k) w v

theorem StandsFor.paren {w : Str} {v : Expr} (h : StandsFor w v) : StandsFor (chars!"(" ++ w ++ chars!")") v :=
  ⟨.randOperandParen (.addMul (.mulPrim (h.prim _))), .rollOperandParen (.addMul (.mulPrim (h.prim _))),
    fun _ => .paren (.addMul (.mulPrim (h.prim _)))⟩

theorem isDigit_iff' {c : Char} : isDigit c = true ↔ '0' ≤ c ∧ c ≤ '9' := by simp [isDigit]

theorem Spelling.fits {w : Str} {v : Nat} (h : Spelling w v) {ds : Str} (hv : decimal ds = v) :
    StandsFor w (.int (atoiSat ds)) := by
  obtain ⟨k, ds', rfl, h0, hd, hv'⟩ := h
  have he : atoiSat ds' = atoiSat ds := by
    rw [← Int64.toInt_inj, atoiSat_toInt, atoiSat_toInt, hv, hv']
  have hn : Der .number ds' (.int (atoiSat ds)) := he ▸ Der.number h0 fun c hc => isDigit_iff'.mpr (hd c hc)
  induction k with
  | zero => simpa using (⟨.randOperandNum hn, .rollOperandNum hn, fun _ => .primNum hn⟩ : StandsFor ds' _)
  | succ k ih =>
    have := ih.paren
    have e : List.replicate (k + 1) ')' = List.replicate k ')' ++ chars!")" := List.replicate_succ'
    rw [e, List.replicate_succ]
    simpa using this

theorem WholeNumber.after_prefix {a ds b : Str} (h : WholeNumber a ds b) (o s : Str) (h1 : o ≠ [])
    (h2 : ∀ c ∈ o, ¬ ('0' ≤ c ∧ c ≤ '9')) (he : o ++ s = a ++ ds ++ b) :
    ∃ a', s = a' ++ ds ++ b ∧ a = o ++ a' ∧ WholeNumber a' ds b := by
  rcases h.split o [] s h1 h2 (by simpa using he) with ⟨b', h3, -, -⟩ | ⟨a', h3, h4, h5⟩
  · exact absurd h3.symm (by simp [h.some])
  · exact ⟨a', h3, by simpa using h4, h5⟩

theorem WholeNumber.before_suffix {a ds b : Str} (h : WholeNumber a ds b) (s c : Str) (h1 : c ≠ [])
    (h2 : ∀ x ∈ c, ¬ ('0' ≤ x ∧ x ≤ '9')) (he : s ++ c = a ++ ds ++ b) :
    ∃ b', s = a ++ ds ++ b' ∧ b = b' ++ c ∧ WholeNumber a ds b' := by
  rcases h.split c s [] h1 h2 (by simpa using he) with ⟨b', h3, h4, h5⟩ | ⟨a', h3, -, -⟩
  · exact ⟨b', h3, by simpa using h4, h5⟩
  · exact absurd h3.symm (by simp [h.some])

theorem WholeNumber.inside {a ds b : Str} (h : WholeNumber a ds b) (o s c : Str) (h1 : o ≠ []) (h3 : c ≠ [])
    (h2 : ∀ x ∈ o, ¬ ('0' ≤ x ∧ x ≤ '9')) (h4 : ∀ x ∈ c, ¬ ('0' ≤ x ∧ x ≤ '9')) (he : o ++ s ++ c = a ++ ds ++ b) :
    ∃ a' b', s = a' ++ ds ++ b' ∧ a = o ++ a' ∧ b = b' ++ c ∧ WholeNumber a' ds b' := by
  obtain ⟨b', h5, h6, h7⟩ := h.before_suffix (o ++ s) c h3 h4 he
  obtain ⟨a', h8, h9, h10⟩ := h7.after_prefix o s h1 h2 h5
  exact ⟨a', b', h8, h9, h6, h10⟩

/-- What replacing a number by another spelling does to a text of the grammar. -/
def Respells (w : Str) (v : Expr) (a b : Str) : NT → Expr → Prop
  | .number, e => a = [] ∧ b = [] ∧ e = v
  | nt, e => Der nt (a ++ w ++ b) e

theorem der_respell {nt : NT} {s : Str} {e : Expr} (h : Der nt s e) : ∀ {a ds b w : Str},
    s = a ++ ds ++ b → WholeNumber a ds b → StandsFor w (.int (atoiSat ds)) →
      Respells w (.int (atoiSat ds)) a b nt e := by
  induction h with
  | @number s h0 hd =>
    intro a ds b w hs hw hf
    have ha : a = [] := by
      cases ha : a.getLast? with
      | none => exact List.getLast?_eq_none_iff.mp ha
      | some c =>
        exact absurd (isDigit_iff'.mp (hd c (by
          rw [hs]; exact List.mem_append_left _ (List.mem_append_left _ (List.mem_of_getLast? ha)))))
          (hw.before c ha)
    have hb : b = [] := by
      cases hb : b with
      | nil => rfl
      | cons c t =>
        exact absurd (isDigit_iff'.mp (hd c (by rw [hs, hb]; simp))) (hw.after c (by rw [hb]; rfl))
    subst ha; subst hb
    simp only [List.nil_append, List.append_nil] at hs
    subst hs
    exact ⟨rfl, rfl, rfl⟩
  | randOperandNum _ ih =>
    intro a ds b w hs hw hf
    obtain ⟨rfl, rfl, rfl⟩ := ih hs hw hf
    simpa [Respells] using hf.rand
  | rollOperandNum _ ih =>
    intro a ds b w hs hw hf
    obtain ⟨rfl, rfl, rfl⟩ := ih hs hw hf
    simpa [Respells] using hf.roll
  | primNum _ ih =>
    intro a ds b w hs hw hf
    obtain ⟨rfl, rfl, rfl⟩ := ih hs hw hf
    simpa [Respells] using hf.prim _
  | rollOperandRand _ ih => intro a ds b w hs hw hf; exact .rollOperandRand (ih hs hw hf)
  | primRand hk _ ih => intro a ds b w hs hw hf; exact .primRand hk (ih hs hw hf)
  | primDice _ ih => intro a ds b w hs hw hf; exact .primDice (ih hs hw hf)
  | mulPrim _ ih => intro a ds b w hs hw hf; exact .mulPrim (ih hs hw hf)
  | addMul _ ih => intro a ds b w hs hw hf; exact .addMul (ih hs hw hf)
  | paren _ ih =>
    intro a ds b w hs hw hf
    obtain ⟨a', b', rfl, rfl, rfl, hw'⟩ := hw.inside chars!"(" _ chars!")" (by simp) (by simp) (by decide) (by decide) hs
    simpa [Respells] using Der.paren (ih rfl hw' hf)
  | randOperandParen _ ih =>
    intro a ds b w hs hw hf
    obtain ⟨a', b', rfl, rfl, rfl, hw'⟩ := hw.inside chars!"(" _ chars!")" (by simp) (by simp) (by decide) (by decide) hs
    simpa [Respells] using Der.randOperandParen (ih rfl hw' hf)
  | rollOperandParen _ ih =>
    intro a ds b w hs hw hf
    obtain ⟨a', b', rfl, rfl, rfl, hw'⟩ := hw.inside chars!"(" _ chars!")" (by simp) (by simp) (by decide) (by decide) hs
    simpa [Respells] using Der.rollOperandParen (ih rfl hw' hf)
  | plus _ ih =>
    intro a ds b w hs hw hf
    obtain ⟨a', rfl, rfl, hw'⟩ := hw.after_prefix chars!"+" _ (by simp) (by decide) hs
    simpa [Respells] using Der.plus (ih rfl hw' hf)
  | minus _ ih =>
    intro a ds b w hs hw hf
    obtain ⟨a', rfl, rfl, hw'⟩ := hw.after_prefix chars!"-" _ (by simp) (by decide) hs
    simpa [Respells] using Der.minus (ih rfl hw' hf)
  | mulMul hl hr ihl ihr =>
    intro a ds b w hs hw hf
    rcases hw.split chars!"*" _ _ (by simp) (by decide) hs with ⟨b', rfl, rfl, hw'⟩ | ⟨a', rfl, rfl, hw'⟩
    · simpa [Respells] using Der.mulMul (ihl rfl hw' hf) hr
    · simpa [Respells] using Der.mulMul hl (ihr rfl hw' hf)
  | mulDiv hl hr ihl ihr =>
    intro a ds b w hs hw hf
    rcases hw.split chars!"/" _ _ (by simp) (by decide) hs with ⟨b', rfl, rfl, hw'⟩ | ⟨a', rfl, rfl, hw'⟩
    · simpa [Respells] using Der.mulDiv (ihl rfl hw' hf) hr
    · simpa [Respells] using Der.mulDiv hl (ihr rfl hw' hf)
  | addAdd hl hr ihl ihr =>
    intro a ds b w hs hw hf
    rcases hw.split chars!"+" _ _ (by simp) (by decide) hs with ⟨b', rfl, rfl, hw'⟩ | ⟨a', rfl, rfl, hw'⟩
    · simpa [Respells] using Der.addAdd (ihl rfl hw' hf) hr
    · simpa [Respells] using Der.addAdd hl (ihr rfl hw' hf)
  | addSub hl hr ihl ihr =>
    intro a ds b w hs hw hf
    rcases hw.split chars!"-" _ _ (by simp) (by decide) hs with ⟨b', rfl, rfl, hw'⟩ | ⟨a', rfl, rfl, hw'⟩
    · simpa [Respells] using Der.addSub (ihl rfl hw' hf) hr
    · simpa [Respells] using Der.addSub hl (ihr rfl hw' hf)
  | @mulDivUp k s t l r u hu hl hr ihl ihr =>
    intro a ds b w hs hw hf
    obtain ⟨b1, h1, rfl, hw1⟩ := hw.before_suffix _ [u] (by simp) (by rcases hu with rfl | rfl <;> decide) hs
    rcases hw1.split chars!"/" _ _ (by simp) (by decide) h1 with ⟨b', rfl, rfl, hw'⟩ | ⟨a', rfl, rfl, hw'⟩
    · simpa [Respells] using Der.mulDivUp hu (ihl rfl hw' hf) hr
    · simpa [Respells] using Der.mulDivUp hu hl (ihr rfl hw' hf)
  | @mulDivRound k s t l r u hu hl hr ihl ihr =>
    intro a ds b w hs hw hf
    obtain ⟨b1, h1, rfl, hw1⟩ := hw.before_suffix _ [u] (by simp) (by rcases hu with rfl | rfl <;> decide) hs
    rcases hw1.split chars!"/" _ _ (by simp) (by decide) h1 with ⟨b', rfl, rfl, hw'⟩ | ⟨a', rfl, rfl, hw'⟩
    · simpa [Respells] using Der.mulDivRound hu (ihl rfl hw' hf) hr
    · simpa [Respells] using Der.mulDivRound hu hl (ihr rfl hw' hf)
  | @dRoll a0 b0 x y d hd hl hr ihl ihr =>
    intro a ds b w hs hw hf
    rcases hw.split [d] _ _ (by simp) (by rcases hd with rfl | rfl <;> decide) hs with
      ⟨b', rfl, rfl, hw'⟩ | ⟨a', rfl, rfl, hw'⟩
    · simpa [Respells] using Der.dRoll hd (ihl rfl hw' hf) hr
    · simpa [Respells] using Der.dRoll hd hl (ihr rfl hw' hf)
  | randNum hl hr ihl ihr =>
    intro a ds b w hs hw hf
    obtain ⟨b1, h1, rfl, hw1⟩ := hw.before_suffix _ chars!"]" (by simp) (by decide) hs
    rcases hw1.split chars!"..." _ _ (by simp) (by decide) h1 with ⟨b', h2, rfl, hw'⟩ | ⟨a', rfl, rfl, hw'⟩
    · obtain ⟨a', rfl, rfl, hw2⟩ := hw'.after_prefix chars!"[" _ (by simp) (by decide) h2
      simpa [Respells] using Der.randNum (ihl rfl hw2 hf) hr
    · simpa [Respells] using Der.randNum hl (ihr rfl hw' hf)

section
variable {a ds b w : Str}

theorem add_respell {k : Kind} {s : Str} {e : Expr} (h : Der (.add k) s e) (hs : s = a ++ ds ++ b)
    (hw : WholeNumber a ds b) (hf : StandsFor w (.int (atoiSat ds))) : Der (.add k) (a ++ w ++ b) e :=
  der_respell h hs hw hf

theorem roll_respell {letters : Char × Char}
    (hl : ¬ ('0' ≤ letters.1 ∧ letters.1 ≤ '9') ∧ ¬ ('0' ≤ letters.2 ∧ letters.2 ≤ '9')) {s : Str} {r : Roll}
    (h : RollText letters s r) (hs : s = a ++ ds ++ b) (hw : WholeNumber a ds b)
    (hf : StandsFor w (.int (atoiSat ds))) : RollText letters (a ++ w ++ b) r := by
  obtain ⟨x, y, l, rfl, hl', hx, hy⟩ := h
  rcases hw.split [l] x y (by simp) (by
    intro c hc
    rw [List.mem_singleton] at hc
    subst hc
    rcases hl' with h | h
    · rw [h]; exact hl.1
    · rw [h]; exact hl.2) hs with ⟨b', rfl, rfl, hw'⟩ | ⟨a', rfl, rfl, hw'⟩
  · exact ⟨a ++ w ++ b', y, l, by simp, hl', der_respell hx rfl hw' hf, hy⟩
  · exact ⟨x, a' ++ w ++ b, l, by simp, hl', hx, der_respell hy rfl hw' hf⟩

theorem rolls_respell {letters : Char × Char}
    (hl : ¬ ('0' ≤ letters.1 ∧ letters.1 ≤ '9') ∧ ¬ ('0' ≤ letters.2 ∧ letters.2 ≤ '9')) {s : Str} {rs : List Roll}
    (h : RollsText letters s rs) : ∀ {a b : Str}, s = a ++ ds ++ b → WholeNumber a ds b →
      StandsFor w (.int (atoiSat ds)) → RollsText letters (a ++ w ++ b) rs := by
  induction h with
  | one h => intro a b hs hw hf; exact .one (roll_respell hl h hs hw hf)
  | cons h1 h2 ih =>
    intro a b hs hw hf
    rcases hw.split chars!"+" _ _ (by simp) (by decide) hs with ⟨b', rfl, rfl, hw'⟩ | ⟨a', rfl, rfl, hw'⟩
    · simpa using RollsText.cons (roll_respell hl h1 rfl hw' hf) h2
    · simpa using RollsText.cons h1 (ih rfl hw' hf)

theorem rRolls_respell {letters : Char × Char}
    (hl : ¬ ('0' ≤ letters.1 ∧ letters.1 ≤ '9') ∧ ¬ ('0' ≤ letters.2 ∧ letters.2 ≤ '9')) {s : Str} {rl : RRollList}
    (h : RRollsText letters s rl) (hs : s = a ++ ds ++ b) (hw : WholeNumber a ds b)
    (hf : StandsFor w (.int (atoiSat ds))) : RRollsText letters (a ++ w ++ b) rl := by
  obtain ⟨x, y, rfl, hx, hy⟩ := h
  generalize ht : rl.threshold = th at hy
  cases hy with
  | absent =>
    exact ⟨a ++ w ++ b, [], by simp, rolls_respell hl hx (by simpa using hs) hw hf, ht ▸ .absent⟩
  | @given t e he =>
    obtain ⟨b1, h1, rfl, hw1⟩ := hw.before_suffix (x ++ chars!"[" ++ t) chars!"]" (by simp) (by decide) (by simpa using hs)
    rcases hw1.split chars!"[" _ _ (by simp) (by decide) h1 with ⟨b', rfl, rfl, hw'⟩ | ⟨a', rfl, rfl, hw'⟩
    · exact ⟨a ++ w ++ b', chars!"[" ++ t ++ chars!"]", by simp, rolls_respell hl hx rfl hw' hf, ht ▸ .given he⟩
    · exact ⟨x, chars!"[" ++ (a' ++ w ++ b1) ++ chars!"]", by simp, hx, ht ▸ .given (add_respell he rfl hw' hf)⟩

theorem uRoll_respell {s : Str} {u : URollExpr} (h : URollText s u) (hs : s = a ++ ds ++ b)
    (hw : WholeNumber a ds b) (hf : StandsFor w (.int (atoiSat ds))) : URollText (a ++ w ++ b) u := by
  obtain ⟨x, y, rfl, hx, hy⟩ := h
  generalize ht : u.bonus = bo at hy
  cases hy with
  | absent =>
    exact ⟨a ++ w ++ b, [], by simp, rRolls_respell (by decide) hx (by simpa using hs) hw hf, ht ▸ .absent⟩
  | @plus t e he =>
    rcases hw.split chars!"+" x t (by simp) (by decide) (by simpa using hs) with ⟨b', rfl, rfl, hw'⟩ | ⟨a', rfl, rfl, hw'⟩
    · exact ⟨a ++ w ++ b', chars!"+" ++ t, by simp, rRolls_respell (by decide) hx rfl hw' hf, ht ▸ .plus he⟩
    · exact ⟨x, chars!"+" ++ (a' ++ w ++ b), by simp, hx, ht ▸ .plus (add_respell he rfl hw' hf)⟩
  | @minus t e he =>
    rcases hw.split chars!"-" x t (by simp) (by decide) (by simpa using hs) with ⟨b', rfl, rfl, hw'⟩ | ⟨a', rfl, rfl, hw'⟩
    · exact ⟨a ++ w ++ b', chars!"-" ++ t, by simp, rRolls_respell (by decide) hx rfl hw' hf, ht ▸ .minus he⟩
    · exact ⟨x, chars!"-" ++ (a' ++ w ++ b), by simp, hx, ht ▸ .minus (add_respell he rfl hw' hf)⟩

theorem cmpOp_plain (op : CmpOp) : op.str ≠ [] ∧ ∀ c ∈ op.str, ¬ ('0' ≤ c ∧ c ≤ '9') := by
  cases op <;> decide

/-- A comparison: the number is on its left or on its right. -/
theorem compare_respell {P : Str → Prop} {s t : Str} {op : CmpOp} {e : Expr}
    (hP : ∀ {a b : Str}, s = a ++ ds ++ b → WholeNumber a ds b → P (a ++ w ++ b)) (h0 : P s)
    (ht : CompareText t op e) (hs : s ++ t = a ++ ds ++ b) (hw : WholeNumber a ds b)
    (hf : StandsFor w (.int (atoiSat ds))) : ∃ s' t', a ++ w ++ b = s' ++ t' ∧ P s' ∧ CompareText t' op e := by
  cases ht with
  | @mk t _ _ he =>
    rcases hw.split op.str s t (cmpOp_plain op).1 (cmpOp_plain op).2 (by simpa using hs) with
      ⟨b', h1, rfl, hw'⟩ | ⟨a', rfl, rfl, hw'⟩
    · exact ⟨a ++ w ++ b', op.str ++ t, by simp, hP h1 hw', .mk he⟩
    · exact ⟨s, op.str ++ (a' ++ w ++ b), by simp, h0, .mk (add_respell he rfl hw' hf)⟩

theorem command_respell {s : Str} {n : Node} (h : CommandText s n) (hc : n.isChoice = false)
    (hs : s = a ++ ds ++ b) (hw : WholeNumber a ds b) (hf : StandsFor w (.int (atoiSat ds))) :
    CommandText (a ++ w ++ b) n := by
  cases h with
  | choice => simp [Node.isChoice] at hc
  | @«calc» t rest e c hc' he =>
    have hcd : ∀ x ∈ [c] ++ chars!"(", ¬ ('0' ≤ x ∧ x ≤ '9') := by rcases hc' with rfl | rfl <;> decide
    rcases hw.split chars!")" ([c] ++ chars!"(" ++ t) rest (by simp) (by decide) (by simpa using hs) with
      ⟨b', h1, rfl, hw'⟩ | ⟨a', rfl, rfl, hw'⟩
    · obtain ⟨a', rfl, rfl, hw2⟩ := hw'.after_prefix _ t (by simp) hcd h1
      simpa using CommandText.calc (rest := rest) hc' (add_respell he rfl hw2 hf)
    · simpa using CommandText.calc (rest := a' ++ w ++ b) hc' he
  | bRollList h => exact .bRollList (rolls_respell (by decide) h hs hw hf)
  | rRollList h => exact .rRollList (rRolls_respell (by decide) h hs hw hf)
  | uRollExpr h => exact .uRollExpr (uRoll_respell h hs hw hf)
  | dRollExpr h hr => exact .dRollExpr (add_respell h hs hw hf) hr
  | bRollComp h ht =>
    obtain ⟨s', t', h1, h2, h3⟩ := compare_respell (P := fun s => RollsText ('B', 'b') s _)
      (fun hs hw => rolls_respell (by decide) h hs hw hf) h ht hs hw hf
    exact h1 ▸ .bRollComp h2 h3
  | rRollComp h ht =>
    obtain ⟨s', t', h1, h2, h3⟩ := compare_respell (P := fun s => RRollsText ('R', 'r') s _)
      (fun hs hw => rRolls_respell (by decide) h hs hw hf) h ht hs hw hf
    exact h1 ▸ .rRollComp h2 h3
  | uRollComp h ht =>
    obtain ⟨s', t', h1, h2, h3⟩ := compare_respell (P := fun s => URollText s _)
      (fun hs hw => uRoll_respell h hs hw hf) h ht hs hw hf
    exact h1 ▸ .uRollComp h2 h3
  | dRollComp h hr ht =>
    obtain ⟨s', t', h1, h2, h3⟩ := compare_respell (P := fun s => Der (.add .dice) s _)
      (fun hs hw => add_respell h hs hw hf) h ht hs hw hf
    exact h1 ▸ .dRollComp h2 hr h3

end

/-- **C98.** In every command but a choice, any number may be put in parentheses, any number of them,
and given leading zeros: the parser returns the same tree. -/
theorem C98_numbers (a ds b w : Str) (n : Node) (hn : parse (a ++ ds ++ b) = some n)
    (hc : n.isChoice = false) (hw : WholeNumber a ds b) (hs : Spelling w (decimal ds)) :
    parse (a ++ w ++ b) = some n :=
  (parse_iff _ _).mpr (command_respell ((parse_iff _ _).mp hn) hc rfl hw (hs.fits rfl))

/-- What a sign before a text of the grammar does. -/
def Signs (s : Str) : NT → Expr → Prop
  | .prim k, e => Der (.prim k) (chars!"+" ++ s) e
  | .mul k, e => Der (.mul k) (chars!"+" ++ s) e
  | .add k, e => Der (.add k) (chars!"+" ++ s) e
  | _, _ => True

/-- A sign before a sum belongs to its first operand. -/
theorem der_plus {nt : NT} {s : Str} {e : Expr} (h : Der nt s e) : Signs s nt e := by
  induction h with
  | primNum h => exact .plus (.primNum h)
  | primRand hk h => exact .plus (.primRand hk h)
  | primDice h => exact .plus (.primDice h)
  | plus h => exact .plus (.plus h)
  | minus h => exact .plus (.minus h)
  | paren h => exact .plus (.paren h)
  | mulPrim _ ih => exact .mulPrim ih
  | mulMul _ hr ih => simpa [Signs] using Der.mulMul ih hr
  | mulDiv _ hr ih => simpa [Signs] using Der.mulDiv ih hr
  | mulDivUp hu _ hr ih => simpa [Signs] using Der.mulDivUp hu ih hr
  | mulDivRound hu _ hr ih => simpa [Signs] using Der.mulDivRound hu ih hr
  | addMul _ ih => exact .addMul ih
  | addAdd _ hr ih => simpa [Signs] using Der.addAdd ih hr
  | addSub _ hr ih => simpa [Signs] using Der.addSub ih hr
  | _ => exact trivial

theorem dRollExpr_text {s : Str} {e : Expr} (h : parse s = some (.dRollExpr e)) :
    Der (.add .dice) s e ∧ 1 ≤ e.rands := by
  have h := (parse_iff _ _).mp h
  cases h with
  | dRollExpr h hr => exact ⟨h, hr⟩

/-- **C98.** A whole sum roll may be put in parentheses or after a plus sign. -/
theorem C98_whole (s : Str) (e : Expr) (h : parse s = some (.dRollExpr e)) :
    parse (chars!"(" ++ s ++ chars!")") = some (.dRollExpr e) ∧ parse (chars!"+" ++ s) = some (.dRollExpr e) := by
  obtain ⟨hd, hr⟩ := dRollExpr_text h
  exact ⟨(parse_iff _ _).mpr (.dRollExpr (.addMul (.mulPrim (.paren hd))) hr),
    (parse_iff _ _).mpr (.dRollExpr (der_plus hd) hr)⟩

/-- **C98.** So may both sides of a comparison: any sum roll `l`, any arithmetic text `t`. -/
theorem C98_compare (l t : Str) (op : CmpOp) (e r : Expr) (hl : parse l = some (.dRollExpr e))
    (ht : Der (.add .int) t r) :
    parse (l ++ op.str ++ t) = some (.dRollComp e op r) ∧
    parse (chars!"(" ++ l ++ chars!")" ++ op.str ++ (chars!"(" ++ t ++ chars!")")) = some (.dRollComp e op r) ∧
    parse (chars!"+" ++ l ++ op.str ++ (chars!"+" ++ t)) = some (.dRollComp e op r) := by
  obtain ⟨hd, hr⟩ := dRollExpr_text hl
  refine ⟨(parse_iff _ _).mpr ?_, (parse_iff _ _).mpr ?_, (parse_iff _ _).mpr ?_⟩
  · rw [List.append_assoc]; exact .dRollComp hd hr (.mk ht)
  · rw [List.append_assoc _ op.str]
    exact .dRollComp (.addMul (.mulPrim (.paren hd))) hr (.mk (.addMul (.mulPrim (.paren ht))))
  · rw [List.append_assoc _ op.str]
    exact .dRollComp (der_plus hd) hr (.mk (der_plus ht))

/-- **C98.** Texts with the same tree get the same answer, use the same dice and leave the feeder in
the same state, with every feeder. -/
theorem C98_answer {σ : Type} (F : DieFeeder σ) (gameID a ds b w : Str) (n : Node)
    (hn : parse (a ++ ds ++ b) = some n) (hc : n.isChoice = false) (hw : WholeNumber a ds b)
    (hs : Spelling w (decimal ds)) (f : σ) :
    executeBasicCommand F gameID (a ++ w ++ b) f = executeBasicCommand F gameID (a ++ ds ++ b) f := by
  rw [executeBasicCommand, executeBasicCommand, C98_numbers a ds b w n hn hc hw hs, hn]

-- the hypotheses can be met: the sides of `2D6+3>=7`
example : ∃ n, parse (chars!"2D" ++ chars!"6" ++ chars!"+3>=7") = some n ∧ n.isChoice = false ∧
    WholeNumber chars!"2D" chars!"6" chars!"+3>=7" ∧ Spelling chars!"((006))" (decimal chars!"6") ∧
    parse (chars!"2D" ++ chars!"((006))" ++ chars!"+3>=7") = some n := by
  have hw : WholeNumber chars!"2D" chars!"6" chars!"+3>=7" := ⟨by decide, by decide, by decide, by decide⟩
  have hs : Spelling chars!"((006))" (decimal chars!"6") := ⟨2, chars!"006", by decide, by decide, by decide, by decide⟩
  have hn : parse (chars!"2D" ++ chars!"6" ++ chars!"+3>=7") =
      some (.dRollComp (.bin .add (.var .d (.int 2) (.int 6)) (.int 3)) .ge (.int 7)) := by decide
  exact ⟨_, hn, rfl, hw, hs, C98_numbers _ _ _ _ _ hn rfl hw hs⟩

/-- Not every pair of parentheses may be left out: those of a calculation belong to it. -/
theorem C98_calc_needed : (parse chars!"C(1)").isSome = true ∧ parse chars!"C1" = none := by decide

/-- Nor may part of a number be put in parentheses, and items of a choice are texts, not numbers. -/
theorem C98_limits : parse chars!"(1)2D6" = none ∧
    parse chars!"CHOICE[1,2]" ≠ parse chars!"CHOICE[(1),2]" := by
  refine ⟨by decide, ?_⟩
  have h1 : parse chars!"CHOICE[1,2]" = some (.choice [chars!"1", chars!"2"]) := by decide
  have h2 : parse chars!"CHOICE[(1),2]" = some (.choice [chars!"(1)", chars!"2"]) := by decide
  rw [h1, h2]
  simp

end GoBCDice
