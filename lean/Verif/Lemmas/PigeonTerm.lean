import Verif.Lemmas.PigeonInv

/-!
# The generated parser always returns, within a depth linear in the input

A static analysis of the table (which expressions can match without reading anything, and an order
of the rules in which a rule comes after those it can call before reading anything) bounds the
depth of the calls.  The analysis is proved right for every table; `goGrammar` passes it.
-/

namespace GoBCDice.Pigeon

mutual
/-- May the expression match without reading? -/
def nullE (nul : Str → Bool) : PExpr → Bool
  | .action _ e => nullE nul e
  | .any => false
  | .charClass .. => false
  | .choice es => nullAny nul es
  | .labeled _ e => nullE nul e
  | .lit val _ => val.isEmpty
  | .not _ => true
  | .oneOrMore e => nullE nul e
  | .ruleRef name => nul name
  | .seq es => nullAll nul es
  | .stateCode _ => true
  | .zeroOrMore _ => true
  | .zeroOrOne _ => true
/-- Any of them? -/
def nullAny (nul : Str → Bool) : List PExpr → Bool
  | [] => false
  | e :: es => nullE nul e || nullAny nul es
/-- All of them? -/
def nullAll (nul : Str → Bool) : List PExpr → Bool
  | [] => true
  | e :: es => nullE nul e && nullAll nul es
end

mutual
/-- Are the rules it may call before reading anything all of rank less than `r`? -/
def headsLt (nul : Str → Bool) (rk : Str → Nat) (r : Nat) : PExpr → Bool
  | .action _ e => headsLt nul rk r e
  | .any => true
  | .charClass .. => true
  | .choice es => headsAll nul rk r es
  | .labeled _ e => headsLt nul rk r e
  | .lit .. => true
  | .not e => headsLt nul rk r e
  | .oneOrMore e => headsLt nul rk r e
  | .ruleRef name => decide (rk name < r)
  | .seq es => headsSeq nul rk r es
  | .stateCode _ => true
  | .zeroOrMore e => headsLt nul rk r e
  | .zeroOrOne e => headsLt nul rk r e
/-- Each of them. -/
def headsAll (nul : Str → Bool) (rk : Str → Nat) (r : Nat) : List PExpr → Bool
  | [] => true
  | e :: es => headsLt nul rk r e && headsAll nul rk r es
/-- One after the other. -/
def headsSeq (nul : Str → Bool) (rk : Str → Nat) (r : Nat) : List PExpr → Bool
  | [] => true
  | e :: es => headsLt nul rk r e && (!nullE nul e || headsSeq nul rk r es)
end

mutual
/-- What is repeated always reads something. -/
def loopsOk (nul : Str → Bool) : PExpr → Bool
  | .action _ e => loopsOk nul e
  | .any => true
  | .charClass .. => true
  | .choice es => loopsAll nul es
  | .labeled _ e => loopsOk nul e
  | .lit .. => true
  | .not e => loopsOk nul e
  | .oneOrMore e => !nullE nul e && loopsOk nul e
  | .ruleRef _ => true
  | .seq es => loopsAll nul es
  | .stateCode _ => true
  | .zeroOrMore e => !nullE nul e && loopsOk nul e
  | .zeroOrOne e => loopsOk nul e
/-- Each of them. -/
def loopsAll (nul : Str → Bool) : List PExpr → Bool
  | [] => true
  | e :: es => loopsOk nul e && loopsAll nul es
end

mutual
/-- Depth of calls between rule references. -/
def sizeE : PExpr → Nat
  | .action _ e => sizeE e + 1
  | .any => 1
  | .charClass .. => 1
  | .choice es => sizeAll es + 1
  | .labeled _ e => sizeE e + 1
  | .lit .. => 1
  | .not e => sizeE e + 1
  | .oneOrMore e => sizeE e + 2
  | .ruleRef _ => 1
  | .seq es => sizeAll es + 1
  | .stateCode _ => 1
  | .zeroOrMore e => sizeE e + 2
  | .zeroOrOne e => sizeE e + 1
/-- Of a list. -/
def sizeAll : List PExpr → Nat
  | [] => 1
  | e :: es => max (sizeE e) (sizeAll es) + 1
end

/-- `nullE` of a task. -/
def nullT (nul : Str → Bool) : Task → Bool
  | .expr e => nullE nul e
  | .alts es => nullAny nul es
  | .seq es _ _ _ => nullAll nul es
  | .many e vals one => if one && vals.isEmpty then nullE nul e else true

/-- How much is left to read. -/
def PState.left (st : PState) : Nat := st.pt.rest.length

/-- Where a task may go back to. -/
def backT (st : PState) : Task → Nat
  | .seq _ _ pt _ => max pt.rest.length st.left
  | _ => st.left

/-- The part of `TaskOk` about literals. -/
def cleanT : Task → Bool
  | .expr e => clean e
  | .alts es => cleanAll es
  | .seq es _ _ _ => cleanAll es
  | .many e _ _ => clean e

variable {env : PEnv}

theorem left_failAt (st : PState) (b : Bool) (pos : Pos) (w : Str) : (st.failAt b pos w).left = st.left := by
  unfold PState.left
  rw [(failAt_fields st b pos w).1]

theorem left_restore (st : PState) (pt : Pt) : (st.restore pt).left ≤ max pt.rest.length st.left := by
  unfold PState.restore PState.left
  split
  · exact Nat.le_max_right ..
  · exact Nat.le_max_left ..

theorem left_read (st : PState) : (st.read env).left = st.left - 1 := by
  unfold PState.read PState.enter PState.left
  dsimp only
  split
  · show st.pt.rest.tail.length = _
    simp
  · show st.pt.rest.tail.length = _
    simp

theorem litLoop_left (ic : Bool) : ∀ (val : Str), val.contains runeError = false → ∀ (st : PState),
    (litLoop env ic val st).2.left ≤ st.left ∧
      ((litLoop env ic val st).1 = true → val ≠ [] → (litLoop env ic val st).2.left < st.left)
  | [], _, st => ⟨Nat.le_refl _, fun _ h => absurd rfl h⟩
  | w :: val, hc, st => by
    unfold litLoop
    dsimp only
    by_cases hcur : (if ic = true then toLowerRune st.rune else st.rune) ≠ w
    · rw [if_pos hcur]; exact ⟨Nat.le_refl _, fun h => (by cases h)⟩
    · rw [if_neg hcur]
      have hne : st.pt.rest ≠ [] := by
        intro hr
        apply hcur
        have hrune : st.rune = runeError := by unfold PState.rune; rw [hr]
        rw [hrune]
        intro hw
        have hw' : w = runeError := by
          rw [← hw]; cases ic <;> decide
        rw [hw'] at hc
        simp at hc
      have hpos : 0 < st.left := List.length_pos_iff.2 hne
      have h3 := litLoop_left ic val (by
        rw [List.contains_cons, Bool.or_eq_false_iff] at hc; exact hc.2) (st.read env)
      rw [left_read] at h3
      refine ⟨by omega, fun _ _ => by omega⟩

/-- What a call leaves to read. -/
def Reads (nul : Str → Bool) (t : Task) (st : PState) : PRes → Prop
  | .panic _ _ => True
  | .ret _ ok st' => st'.left ≤ backT st t ∧ (ok = true → st'.left ≤ st.left) ∧
      (ok = true → nullT nul t = false → st'.left < st.left)

theorem cls_reads (nul : Str → Bool) {st : PState} (val : Str) (chars : List Char)
    (ranges : List (Char × Char)) (classes : List Str) (ic inv : Bool) :
    Reads nul (.expr (.charClass val chars ranges classes ic inv)) st
      (parseCharClass env val chars ranges classes ic inv st.tick) := by
  unfold parseCharClass
  split
  · refine ⟨?_, fun h => (by cases h), fun h => (by cases h)⟩
    rw [left_failAt]; exact Nat.le_refl _
  · rename_i s l hr
    have hpos : 0 < st.tick.left := List.length_pos_iff.2 (by rw [hr]; simp)
    have hst : st.tick.left = st.left := rfl
    dsimp only
    by_cases hcl : classHas chars ranges classes (if ic = true then toLowerRune s.rn else s.rn) = inv
    · rw [if_pos hcl]
      refine ⟨?_, fun h => (by cases h), fun h => (by cases h)⟩
      rw [left_failAt]; exact Nat.le_refl _
    · rw [if_neg hcl]
      refine ⟨?_, fun _ => ?_, fun _ _ => ?_⟩ <;> rw [left_failAt, left_read]
      · show _ ≤ st.left; omega
      · omega
      · omega

theorem any_reads (nul : Str → Bool) {st : PState} : Reads nul (.expr .any) st (parseAny env st.tick) := by
  unfold parseAny
  split
  · refine ⟨?_, fun h => (by cases h), fun h => (by cases h)⟩
    rw [left_failAt]; exact Nat.le_refl _
  · rename_i s l hr
    have hpos : 0 < st.tick.left := List.length_pos_iff.2 (by rw [hr]; simp)
    have hst : st.tick.left = st.left := rfl
    refine ⟨?_, fun _ => ?_, fun _ _ => ?_⟩ <;> rw [left_failAt, left_read]
    · show _ ≤ st.left; omega
    · omega
    · omega

theorem lit_reads (nul : Str → Bool) {st : PState} (val : Str) (ic : Bool)
    (hc : val.contains runeError = false) :
    Reads nul (.expr (.lit val ic)) st (parseLit env val ic st.tick) := by
  have hl := litLoop_left (env := env) ic val hc st.tick
  unfold parseLit
  cases hll : litLoop env ic val st.tick with
  | mk b st1 =>
    rw [hll] at hl
    have hst : st.tick.left = st.left := rfl
    cases b
    · refine ⟨?_, fun h => (by cases h), fun h => (by cases h)⟩
      refine Nat.le_trans (left_restore _ _) ?_
      rw [left_failAt]
      exact Nat.max_le.2 ⟨Nat.le_refl _, hl.1⟩
    · refine ⟨?_, fun _ => ?_, fun _ hn => ?_⟩ <;> rw [left_failAt]
      · exact hl.1
      · exact hl.1
      · refine hl.2 rfl ?_
        rintro rfl
        cases hn

/-- Whatever the table, no call gives anything back, and what cannot match nothing reads something. -/
theorem run_reads (nul : Str → Bool) (hg : ∀ r ∈ env.rules, clean r.2 = true)
    (hn : ∀ name e, env.rules.lookup name = some e → nul name = false → nullE nul e = false) (n : Nat) :
    ∀ (t : Task) (st : PState) (r : PRes), cleanT t = true → run env n t st = some r → Reads nul t st r := by
  induction n with
  | zero => intro t st r _ h; simp [run] at h
  | succ n ih =>
    intro t st r ht h
    -- after a call
    have call : ∀ (e : PExpr) (st1 : PState) (k : Val → Bool → PState → Option PRes),
        st1.left = st.left → clean e = true →
        (∀ v ok st2, st2.left ≤ st.left → (ok = true → nullE nul e = false → st2.left < st.left) →
          k v ok st2 = some r → Reads nul t st r) →
        PRes.andThen (run env n (.expr e) st1) k = some r → Reads nul t st r := by
      intro e st1 k h1 h2 hk h
      cases hrun : run env n (.expr e) st1 with
      | none => rw [hrun] at h; cases h
      | some r1 =>
        rw [hrun] at h
        have h3 := ih (.expr e) st1 r1 h2 hrun
        cases r1 with
        | panic m st2 => cases h; trivial
        | ret v ok st2 =>
          refine hk v ok st2 ?_ ?_ h
          · rw [← h1]; exact h3.1
          · intro ho hne; rw [← h1]; exact h3.2.2 ho hne
    -- the same call under another name
    have pass : ∀ (t1 : Task) (st1 : PState), st1.left = st.left → backT st1 t1 ≤ backT st t →
        (nullT nul t = false → nullT nul t1 = false) → cleanT t1 = true → run env n t1 st1 = some r →
        Reads nul t st r := by
      intro t1 st1 h1 hb hnu h2 h
      have h3 := ih t1 st1 r h2 h
      cases r with
      | panic m st2 => trivial
      | ret v ok st2 =>
        refine ⟨Nat.le_trans h3.1 hb, fun ho => h1 ▸ h3.2.1 ho, fun ho hne => h1 ▸ h3.2.2 ho (hnu hne)⟩
    rw [run.eq_def] at h
    dsimp only at h
    split at h
    · -- action
      rename_i a e
      refine call e st.tick _ rfl ht ?_ h
      intro v ok st2 h1 h2 h3
      try dsimp only at h3
      split at h3
      · rename_i hok
        split at h3
        · cases h3; exact ⟨h1, fun _ => h1, fun _ hne => h2 hok hne⟩
        · cases h3; exact ⟨h1, fun _ => h1, fun _ hne => h2 hok hne⟩
        · cases h3; trivial
      · cases h3; exact ⟨h1, fun _ => h1, fun h => (by cases h)⟩
    · cases h; exact any_reads nul
    · cases h; exact cls_reads nul _ _ _ _ _ _
    · rename_i es
      exact pass (.alts es) st.tick rfl (Nat.le_refl _) (fun h => h) ht h
    · cases h; exact ⟨Nat.le_refl _, fun h => (by cases h), fun h => (by cases h)⟩
    · -- alts
      rename_i e es
      have ht' : clean e = true ∧ cleanAll es = true := (Bool.and_eq_true _ _).mp ht
      refine call e st.pushV _ rfl ht'.1 ?_ h
      intro v ok st2 h1 h2 h3
      try dsimp only at h3
      split at h3
      · rename_i hok
        cases h3
        refine ⟨h1, fun _ => h1, fun _ hne => h2 hok ?_⟩
        exact (Bool.or_eq_false_iff.1 hne).1
      · have := ih (.alts es) _ r ht'.2 h3
        cases r with
        | panic => trivial
        | ret v ok st4 =>
          have h1' : ({ st2.popV with randCount := st.randCount } : PState).left ≤ st.left := h1
          refine ⟨Nat.le_trans this.1 h1', fun ho => Nat.le_trans (this.2.1 ho) h1', fun ho hne => ?_⟩
          exact Nat.lt_of_lt_of_le (this.2.2 ho (Bool.or_eq_false_iff.1 hne).2) h1'
    · -- labeled
      rename_i label e
      refine call e st.tick.pushV _ rfl ht ?_ h
      intro v ok st2 h1 h2 h3
      try dsimp only at h3
      split at h3
      · cases h3; exact ⟨h1, fun _ => h1, fun ho hne => h2 ho hne⟩
      · cases h3; exact ⟨h1, fun _ => h1, fun ho hne => h2 ho hne⟩
    · cases h
      exact lit_reads nul _ _ (by simpa [cleanT, clean] using ht)
    · -- not
      rename_i e
      refine call e { st.tick.pushV with invert := !st.invert } _ rfl ht ?_ h
      intro v ok st2 h1 h2 h3
      try dsimp only at h3
      cases h3
      let st3 : PState := { { st2 with invert := !st2.invert }.popV with randCount := st.randCount }
      have h4 : (st3.restore st.pt).left ≤ st.left :=
        Nat.le_trans (left_restore _ _) (Nat.max_le.2 ⟨Nat.le_refl _, h1⟩)
      exact ⟨h4, fun _ => h4, fun _ hne => (by cases hne)⟩
    · rename_i e
      exact pass (.many e [] true) st.tick rfl (Nat.le_refl _) (fun h => h) ht h
    · rename_i e
      exact pass (.many e [] false) st.tick rfl (Nat.le_refl _) (fun h => h) ht h
    · -- many
      rename_i e vals one
      refine call e st.pushV _ rfl ht ?_ h
      intro v ok st2 h1 h2 h3
      try dsimp only at h3
      split at h3
      · rename_i hok
        have := ih (.many e (vals ++ [v]) one) _ r ht h3
        cases r with
        | panic => trivial
        | ret v4 ok4 st4 =>
          have h1' : st2.popV.left ≤ st.left := h1
          refine ⟨Nat.le_trans this.1 h1', fun ho => Nat.le_trans (this.2.1 ho) h1', fun ho hne => ?_⟩
          have hne' : nullE nul e = false := by
            dsimp only [nullT] at hne
            split at hne
            · exact hne
            · cases hne
          exact Nat.lt_of_le_of_lt (this.2.1 ho) (h2 hok hne')
      · split at h3
        · cases h3; exact ⟨h1, fun _ => h1, fun h => (by cases h)⟩
        · rename_i hv
          cases h3
          refine ⟨h1, fun _ => h1, fun _ hne => ?_⟩
          dsimp only [nullT] at hne
          rw [if_neg hv] at hne
          cases hne
    · -- ruleRef
      rename_i name
      split at h
      · cases h
        exact ⟨Nat.le_refl _, fun _ => Nat.le_refl _, fun h => (by cases h)⟩
      · rename_i e hl
        refine call e { st.tick.pushV with rstack := name :: st.rstack } _ rfl (hg _ (lookup_mem hl)) ?_ h
        intro v ok st2 h1 h2 h3
        try dsimp only at h3
        cases h3
        exact ⟨h1, fun _ => h1, fun ho hne => h2 ho (hn _ _ hl hne)⟩
    · rename_i es
      refine pass (.seq es [] st.pt st.randCount) st.tick rfl ?_ (fun h => h) ht h
      exact Nat.max_le.2 ⟨Nat.le_refl _, Nat.le_refl _⟩
    · cases h
      exact ⟨Nat.le_max_right _ _, fun _ => Nat.le_refl _, fun _ h => (by cases h)⟩
    · -- seq
      rename_i e es vals pt rc
      have ht' : clean e = true ∧ cleanAll es = true := (Bool.and_eq_true _ _).mp ht
      refine call e st _ rfl ht'.1 ?_ h
      intro v ok st2 h1 h2 h3
      try dsimp only at h3
      split at h3
      · rename_i hok
        have := ih (.seq es (vals ++ [v]) pt rc) _ r ht'.2 h3
        cases r with
        | panic => trivial
        | ret v4 ok4 st4 =>
          refine ⟨Nat.le_trans this.1 ?_, fun ho => Nat.le_trans (this.2.1 ho) h1, fun ho hne => ?_⟩
          · show max _ _ ≤ max _ _
            omega
          · have hne' : (nullE nul e && nullAll nul es) = false := hne
            rcases Bool.and_eq_false_iff.1 hne' with h | h
            · exact Nat.lt_of_le_of_lt (this.2.1 ho) (h2 hok h)
            · exact Nat.lt_of_lt_of_le (this.2.2 ho h) h1
      · cases h3
        refine ⟨Nat.le_trans (left_restore _ _) ?_, fun h => (by cases h), fun h => (by cases h)⟩
        show max _ st2.left ≤ max _ _
        omega
    · -- stateCode
      rename_i a
      cases h
      unfold parseStateCode
      split
      · exact ⟨Nat.le_refl _, fun _ => Nat.le_refl _, fun _ h => (by cases h)⟩
      · split
        · trivial
        · exact ⟨Nat.le_refl _, fun _ => Nat.le_refl _, fun _ h => (by cases h)⟩
    · -- zeroOrOne
      rename_i e
      refine call e st.tick.pushV _ rfl ht ?_ h
      intro v ok st2 h1 h2 h3
      try dsimp only at h3
      cases h3
      exact ⟨h1, fun _ => h1, fun _ hne => (by cases hne)⟩

/-! ## The depth of calls -/

/-- `sizeE` of a task. -/
def sizeT : Task → Nat
  | .expr e => sizeE e
  | .alts es => sizeAll es
  | .seq es _ _ _ => sizeAll es
  | .many e _ _ => sizeE e + 1

/-- `headsLt` of a task. -/
def headsT (nul : Str → Bool) (rk : Str → Nat) (r : Nat) : Task → Bool
  | .expr e => headsLt nul rk r e
  | .alts es => headsAll nul rk r es
  | .seq es _ _ _ => headsSeq nul rk r es
  | .many e _ _ => headsLt nul rk r e

/-- `loopsOk` of a task. -/
def loopsT (nul : Str → Bool) : Task → Bool
  | .expr e => loopsOk nul e
  | .alts es => loopsAll nul es
  | .seq es _ _ _ => loopsAll nul es
  | .many e _ _ => !nullE nul e && loopsOk nul e

mutual
theorem headsLt_top {nul : Str → Bool} {rk : Str → Nat} {R : Nat} (h : ∀ name, rk name < R) :
    ∀ e, headsLt nul rk R e = true
  | .action _ e => headsLt_top h e
  | .any => rfl
  | .charClass .. => rfl
  | .choice es => headsAll_top h es
  | .labeled _ e => headsLt_top h e
  | .lit .. => rfl
  | .not e => headsLt_top h e
  | .oneOrMore e => headsLt_top h e
  | .ruleRef name => decide_eq_true (h name)
  | .seq es => headsSeq_top h es
  | .stateCode _ => rfl
  | .zeroOrMore e => headsLt_top h e
  | .zeroOrOne e => headsLt_top h e
theorem headsAll_top {nul : Str → Bool} {rk : Str → Nat} {R : Nat} (h : ∀ name, rk name < R) :
    ∀ es, headsAll nul rk R es = true
  | [] => rfl
  | e :: es => by
    show (headsLt nul rk R e && headsAll nul rk R es) = true
    rw [headsLt_top h e, headsAll_top h es]; rfl
theorem headsSeq_top {nul : Str → Bool} {rk : Str → Nat} {R : Nat} (h : ∀ name, rk name < R) :
    ∀ es, headsSeq nul rk R es = true
  | [] => rfl
  | e :: es => by
    show (headsLt nul rk R e && (!nullE nul e || headsSeq nul rk R es)) = true
    rw [headsLt_top h e, headsSeq_top h es]; simp
end

theorem sizeE_pos (e : PExpr) : 0 < sizeE e := by
  cases e <;> simp only [sizeE] <;> omega

theorem sizeAll_pos (es : List PExpr) : 0 < sizeAll es := by
  cases es <;> simp only [sizeAll] <;> omega

/-- What the analysis checks. -/
structure Analysed (env : PEnv) (nul : Str → Bool) (rk : Str → Nat) (S R : Nat) : Prop where
  clean : ∀ r ∈ env.rules, clean r.2 = true
  null : ∀ name e, env.rules.lookup name = some e → nul name = false → nullE nul e = false
  loops : ∀ name e, env.rules.lookup name = some e → loopsOk nul e = true
  heads : ∀ name e, env.rules.lookup name = some e → headsLt nul rk (rk name) e = true
  size : ∀ name e, env.rules.lookup name = some e → sizeE e ≤ S
  rank : ∀ name, rk name < R

/-- The depth of calls of a task that can call, before reading anything, only rules of rank less
than `r`. -/
theorem run_total {nul : Str → Bool} {rk : Str → Nat} {S R : Nat} (ha : Analysed env nul rk S R) (n : Nat) :
    ∀ (t : Task) (st : PState) (r : Nat), r ≤ R → cleanT t = true → loopsT nul t = true →
      headsT nul rk r t = true → sizeT t + r * (S + 1) + st.left * (R * (S + 1) + 1) ≤ n →
      run env n t st ≠ none := by
  induction n with
  | zero =>
    intro t st r _ _ _ _ h
    have : 0 < sizeT t := by
      cases t with
      | expr e => exact sizeE_pos e
      | alts es => exact sizeAll_pos es
      | seq es => exact sizeAll_pos es
      | many e => exact Nat.succ_pos _
    omega
  | succ n ih =>
    intro t st r hr ht hlo hhe hsz
    -- a call
    have call : ∀ (e : PExpr) (st1 : PState) (k : Val → Bool → PState → Option PRes) (r' : Nat), r' ≤ R →
        clean e = true → loopsOk nul e = true → headsLt nul rk r' e = true →
        sizeE e + r' * (S + 1) + st1.left * (R * (S + 1) + 1) ≤ n →
        (∀ v ok st2, (st2.left ≤ st1.left ∧ (ok = true → nullE nul e = false → st2.left < st1.left)) →
          k v ok st2 ≠ none) →
        PRes.andThen (run env n (.expr e) st1) k ≠ none := by
      intro e st1 k r' hr' h1 h2 h3 h4 hk
      cases hrun : run env n (.expr e) st1 with
      | none => exact absurd hrun (ih (.expr e) st1 r' hr' h1 h2 h3 h4)
      | some r1 =>
        cases r1 with
        | panic m st2 => exact fun h => by cases h
        | ret v ok st2 =>
          have := run_reads nul ha.clean ha.null n (.expr e) st1 _ h1 hrun
          exact hk v ok st2 ⟨this.1, this.2.2⟩
    have hst : st.tick.left = st.left := rfl
    have hmul : ∀ a b : Nat, a < b → a * (R * (S + 1) + 1) + R * (S + 1) + 1 ≤ b * (R * (S + 1) + 1) := by
      intro a b hab
      have := Nat.mul_le_mul_right (R * (S + 1) + 1) (Nat.succ_le_of_lt hab)
      rw [Nat.succ_mul] at this
      omega
    have hmul' : ∀ a b : Nat, a ≤ b → a * (R * (S + 1) + 1) ≤ b * (R * (S + 1) + 1) :=
      fun a b hab => Nat.mul_le_mul_right _ hab
    have hrR : r * (S + 1) ≤ R * (S + 1) := Nat.mul_le_mul_right _ hr
    rw [run.eq_def]
    dsimp only
    split
    · -- action
      rename_i a e
      refine call e st.tick _ r hr ht hlo hhe ?_ ?_
      · simp only [sizeT, sizeE] at hsz; rw [hst]; omega
      · intro v ok st2 _
        try dsimp only
        split
        · split <;> exact fun h => by cases h
        · exact fun h => by cases h
    · exact fun h => by cases h
    · exact fun h => by cases h
    · rename_i es
      refine ih (.alts es) st.tick r hr ht hlo hhe ?_
      simp only [sizeT, sizeE] at hsz ⊢; rw [hst]; omega
    · exact fun h => by cases h
    · -- alts
      rename_i e es
      have ht' : clean e = true ∧ cleanAll es = true := (Bool.and_eq_true _ _).mp ht
      have hlo' : loopsOk nul e = true ∧ loopsAll nul es = true := (Bool.and_eq_true _ _).mp hlo
      have hhe' : headsLt nul rk r e = true ∧ headsAll nul rk r es = true := (Bool.and_eq_true _ _).mp hhe
      have hp : st.pushV.left = st.left := rfl
      simp only [sizeT, sizeAll] at hsz
      refine call e st.pushV _ r hr ht'.1 hlo'.1 hhe'.1 (by rw [hp]; omega) ?_
      intro v ok st2 h2
      try dsimp only
      split
      · exact fun h => by cases h
      · refine ih (.alts es) _ r hr ht'.2 hlo'.2 hhe'.2 ?_
        show sizeAll es + _ + st2.left * _ ≤ n
        have := hmul' _ _ h2.1
        rw [hp] at this
        omega
    · -- labeled
      rename_i label e
      refine call e st.tick.pushV _ r hr ht hlo hhe ?_ ?_
      · simp only [sizeT, sizeE] at hsz; show _ + _ + st.left * _ ≤ n; omega
      · intro v ok st2 _
        try dsimp only
        split <;> exact fun h => by cases h
    · exact fun h => by cases h
    · -- not
      rename_i e
      refine call e _ _ r hr ht hlo hhe ?_ ?_
      · simp only [sizeT, sizeE] at hsz; show _ + _ + st.left * _ ≤ n; omega
      · intro v ok st2 _
        exact fun h => by cases h
    · rename_i e
      refine ih (.many e [] true) st.tick r hr ht hlo hhe ?_
      simp only [sizeT, sizeE] at hsz ⊢; rw [hst]; omega
    · rename_i e
      refine ih (.many e [] false) st.tick r hr ht hlo hhe ?_
      simp only [sizeT, sizeE] at hsz ⊢; rw [hst]; omega
    · -- many
      rename_i e vals one
      have hlo' : (!nullE nul e) = true ∧ loopsOk nul e = true := (Bool.and_eq_true _ _).mp hlo
      simp only [sizeT] at hsz
      have hp : st.pushV.left = st.left := rfl
      refine call e st.pushV _ r hr ht hlo'.2 hhe (by rw [hp]; omega) ?_
      intro v ok st2 h2
      try dsimp only
      split
      · rename_i hok
        have hlt := h2.2 hok (by simpa using hlo'.1)
        refine ih (.many e (vals ++ [v]) one) _ R (Nat.le_refl _) ht hlo (headsLt_top ha.rank e) ?_
        show sizeE e + 1 + _ + st2.left * _ ≤ n
        have := hmul _ _ hlt
        rw [hp] at this
        omega
      · split <;> exact fun h => by cases h
    · -- ruleRef
      rename_i name
      split
      · exact fun h => by cases h
      · rename_i e hl
        have hlt : rk name < r := of_decide_eq_true hhe
        have h1 := ha.size _ _ hl
        have h2 : (rk name + 1) * (S + 1) ≤ r * (S + 1) := Nat.mul_le_mul_right _ hlt
        rw [Nat.succ_mul] at h2
        simp only [sizeT, sizeE] at hsz
        refine call e _ _ (rk name) (by omega) (ha.clean _ (lookup_mem hl)) (ha.loops _ _ hl)
          (ha.heads _ _ hl) ?_ ?_
        · show _ + _ + st.left * _ ≤ n; omega
        · intro v ok st2 _
          exact fun h => by cases h
    · rename_i es
      refine ih (.seq es [] st.pt st.randCount) st.tick r hr ht hlo hhe ?_
      simp only [sizeT, sizeE] at hsz ⊢; rw [hst]; omega
    · exact fun h => by cases h
    · -- seq
      rename_i e es vals pt rc
      have ht' : clean e = true ∧ cleanAll es = true := (Bool.and_eq_true _ _).mp ht
      have hlo' : loopsOk nul e = true ∧ loopsAll nul es = true := (Bool.and_eq_true _ _).mp hlo
      have hhe' : headsLt nul rk r e = true ∧ (!nullE nul e || headsSeq nul rk r es) = true :=
        (Bool.and_eq_true _ _).mp hhe
      simp only [sizeT, sizeAll] at hsz
      refine call e st _ r hr ht'.1 hlo'.1 hhe'.1 (by omega) ?_
      intro v ok st2 h2
      try dsimp only
      split
      · rename_i hok
        cases hnu : nullE nul e with
        | true =>
          rw [hnu] at hhe'
          refine ih (.seq es (vals ++ [v]) pt rc) st2 r hr ht'.2 hlo'.2 (by simpa [headsT] using hhe'.2) ?_
          have := hmul' _ _ h2.1
          simp only [sizeT]
          omega
        | false =>
          have hlt := h2.2 hok hnu
          refine ih (.seq es (vals ++ [v]) pt rc) st2 R (Nat.le_refl _) ht'.2 hlo'.2
            (headsSeq_top ha.rank es) ?_
          have := hmul _ _ hlt
          simp only [sizeT]
          omega
      · exact fun h => by cases h
    · exact fun h => by cases h
    · -- zeroOrOne
      rename_i e
      refine call e _ _ r hr ht hlo hhe ?_ ?_
      · simp only [sizeT, sizeE] at hsz; show _ + _ + st.left * _ ≤ n; omega
      · intro v ok st2 _
        exact fun h => by cases h

end GoBCDice.Pigeon
