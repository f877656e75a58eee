import Verif.Lemmas.PigeonFence
import Verif.Lemmas.ParserTop
import Verif.Props.Pigeon

/-!
# The generated parser: commands with a closing bracket

Of the data, the parser looks at the bracket and the one rune behind it.
-/

namespace GoBCDice.Pigeon

variable {env : PEnv} {p0 : Pt}

/-! ## Looking back at a run -/

theorem Runs.back {t t1 : Task} {st st1 : PState} {v : Val} {ok : Bool} {st' : PState}
    {k : Nat → Val → Bool → PState → Option PRes}
    (h : ∀ n, run env (n + 1) t st = PRes.andThen (run env n t1 st1) (k n))
    (hr : Runs env t st (.ret v ok st')) :
    (∃ n v1 ok1 st2, Runs env t1 st1 (.ret v1 ok1 st2) ∧ k n v1 ok1 st2 = some (.ret v ok st')) ∨
    (∃ n m st2, Runs env t1 st1 (.panic m st2) ∧ run env n t st = some (.panic m st2)) := by
  obtain ⟨n, hn⟩ := hr
  cases n with
  | zero => simp [run] at hn
  | succ n =>
    rw [h] at hn
    cases hrun : run env n t1 st1 with
    | none => rw [hrun] at hn; cases hn
    | some r =>
      rw [hrun] at hn
      cases r with
      | ret v1 ok1 st2 => exact .inl ⟨n, v1, ok1, st2, ⟨n, hrun⟩, hn⟩
      | panic m st2 => cases hn

theorem Runs.backStep {t t1 : Task} {st st1 : PState} {r : PRes}
    (h : ∀ n, run env (n + 1) t st = run env n t1 st1) (hr : Runs env t st r) : Runs env t1 st1 r := by
  obtain ⟨n, hn⟩ := hr
  cases n with
  | zero => simp [run] at hn
  | succ n => rw [h] at hn; exact ⟨n, hn⟩

theorem Runs.backNow {t : Task} {st : PState} {r r' : PRes}
    (h : ∀ n, run env (n + 1) t st = some r') (hr : Runs env t st r) : r' = r := by
  obtain ⟨n, hn⟩ := hr
  cases n with
  | zero => simp [run] at hn
  | succ n => rw [h] at hn; exact Option.some.inj hn

/-- `Runs.back` without the panic, which is a different result. -/
theorem Runs.back' {t t1 : Task} {st st1 : PState} {v : Val} {ok : Bool} {st' : PState}
    {k : Nat → Val → Bool → PState → Option PRes}
    (h : ∀ n, run env (n + 1) t st = PRes.andThen (run env n t1 st1) (k n))
    (hr : Runs env t st (.ret v ok st')) :
    ∃ n v1 ok1 st2, Runs env t1 st1 (.ret v1 ok1 st2) ∧ k n v1 ok1 st2 = some (.ret v ok st') := by
  rcases hr.back h with h1 | ⟨n, m, st2, -, h2⟩
  · exact h1
  · cases Runs.unique hr ⟨n, h2⟩

theorem rule_back {name : Str} {e : PExpr} (hl : env.rules.lookup name = some e) {st : PState} {v : Val}
    {ok : Bool} {st' : PState} (hr : Runs env (.expr (.ruleRef name)) st (.ret v ok st')) :
    ∃ st1 st2, st1.pt = st.pt ∧ st1.errs = st.errs ∧ Runs env (.expr e) st1 (.ret v ok st2) ∧
      st'.pt = st2.pt ∧ st'.errs = st2.errs ∧ st'.randCount = st2.randCount := by
  obtain ⟨n, v1, ok1, st2, h1, h2⟩ := hr.back' (t1 := .expr e) (st1 := { st.tick.pushV with rstack := name :: st.rstack })
    (k := fun _ v ok st' => some (.ret v ok { st'.popV with rstack := st'.rstack.tail })) (by
      intro n; rw [run.eq_def]; dsimp only; rw [hl])
  cases h2
  refine ⟨_, _, ?_, ?_, h1, rfl, rfl, rfl⟩ <;> rfl

theorem action_back {a : Action} (ha : quiet a = true) {e : PExpr} {st : PState} {v : Val}
    {ok : Bool} {st' : PState} (hr : Runs env (.expr (.action a e)) st (.ret v ok st')) :
    ∃ st1 v2, st1.pt = st.pt ∧ st1.errs = st.errs ∧ Runs env (.expr e) st1 (.ret v2 ok st') := by
  obtain ⟨n, v1, ok1, st2, h1, h2⟩ := hr.back' (t1 := .expr e) (st1 := st.tick) (fun n => rfl)
  try dsimp only at h2
  split at h2
  · rename_i hok
    split at h2
    · cases h2
      subst hok
      refine ⟨_, _, ?_, ?_, h1⟩ <;> rfl
    · rename_i m hm
      exact absurd hm (quiet_runAction ha _ _ _ m)
    · cases h2
  · cases h2
    rename_i h
    cases ok1 with
    | true => exact absurd rfl h
    | false => refine ⟨_, _, ?_, ?_, h1⟩ <;> rfl

theorem labeled_back {l : Str} {e : PExpr} {st : PState} {v : Val}
    {ok : Bool} {st' : PState} (hr : Runs env (.expr (.labeled l e)) st (.ret v ok st')) :
    ∃ st1 st2, st1.pt = st.pt ∧ st1.errs = st.errs ∧ st1.randCount = st.randCount ∧
      Runs env (.expr e) st1 (.ret v ok st2) ∧ st'.pt = st2.pt ∧ st'.errs = st2.errs := by
  obtain ⟨n, v1, ok1, st2, h1, h2⟩ := hr.back' (t1 := .expr e) (st1 := st.tick.pushV) (fun n => rfl)
  try dsimp only at h2
  split at h2 <;> (cases h2; refine ⟨_, _, ?_, ?_, ?_, h1, rfl, rfl⟩ <;> rfl)

theorem seq_back {e : PExpr} {es : List PExpr} {vals : List Val} {pt : Pt} {rc : Option Int} {st : PState} {v : Val}
    {st' : PState} (hr : Runs env (.seq (e :: es) vals pt rc) st (.ret v true st')) :
    ∃ v1 st1, Runs env (.expr e) st (.ret v1 true st1) ∧
      Runs env (.seq es (vals ++ [v1]) pt rc) st1 (.ret v true st') := by
  obtain ⟨n, hn⟩ := hr
  cases n with
  | zero => simp [run] at hn
  | succ n =>
    have hn' : PRes.andThen (run env n (.expr e) st) (fun v ok st' =>
        if ok then run env n (.seq es (vals ++ [v]) pt rc) st'
        else some (.ret .nil false ({ st' with randCount := rc }.restore pt))) = some (.ret v true st') := hn
    cases hrun : run env n (.expr e) st with
    | none => rw [hrun] at hn'; cases hn'
    | some r =>
      rw [hrun] at hn'
      cases r with
      | panic m st2 => cases hn'
      | ret v1 ok1 st2 =>
        cases ok1 with
        | true => exact ⟨v1, st2, ⟨n, hrun⟩, ⟨n, hn'⟩⟩
        | false => cases hn'

theorem seq_end {vals : List Val} {pt : Pt} {rc : Option Int} {st : PState} {v : Val}
    {ok : Bool} {st' : PState} (hr : Runs env (.seq [] vals pt rc) st (.ret v ok st')) : st' = st := by
  have := hr.backNow (fun n => rfl)
  cases this
  rfl

theorem expr_seq_back {es : List PExpr} {st : PState} {r : PRes}
    (hr : Runs env (.expr (.seq es)) st r) : Runs env (.seq es [] st.pt st.randCount) st.tick r :=
  hr.backStep (fun n => rfl)

/-! ## Literals -/

theorem litLoop_valid (ic : Bool) : ∀ (val : Str), val.contains runeError = false → ∀ (st : PState) (k : Nat),
    k ≤ p0.rest.length → st.pt = walk p0 k → (∀ j, j ≤ k + val.length → p0.rest[j]? ≠ some Sym.bad) →
    (litLoop env ic val st).2.errs = st.errs ∧
      ((litLoop env ic val st).1 = true → (litLoop env ic val st).2.pt = walk p0 (k + val.length))
  | [], _, st, k, _, hpt, _ => ⟨rfl, fun _ => hpt⟩
  | w :: val, hc, st, k, hk, hpt, hv => by
    unfold litLoop
    dsimp only
    rw [List.contains_cons, Bool.or_eq_false_iff] at hc
    by_cases hcur : (if ic = true then toLowerRune st.rune else st.rune) ≠ w
    · rw [if_pos hcur]; exact ⟨rfl, fun h => by cases h⟩
    · rw [if_neg hcur]
      have hlt : k < p0.rest.length := by
        by_cases hkl : k < p0.rest.length
        · exact hkl
        · exfalso
          have hrest : st.pt.rest = [] := by
            rw [hpt, walk_rest]; exact List.drop_eq_nil_of_le (by omega)
          have hrune : st.rune = runeError := by unfold PState.rune; rw [hrest]
          apply hcur
          rw [hrune]
          intro hw
          have : runeError = w := by rw [← hw]; cases ic <;> decide
          rw [this] at hc
          simp at hc
      have hlen : (w :: val).length = val.length + 1 := rfl
      obtain ⟨r1, r2⟩ := read_next (env := env) hlt hpt (hv (k + 1) (by rw [hlen]; omega))
      obtain ⟨h1, h2⟩ := litLoop_valid ic val hc.2 (st.read env) (k + 1) (by omega) r1
        (fun j hj => hv j (by rw [hlen]; omega))
      refine ⟨h1.trans r2, fun h => ?_⟩
      rw [h2 h, hlen]
      congr 1
      omega

theorem lit_back {val : Str} {ic : Bool} {st : PState} {v : Val} {st' : PState}
    (hr : Runs env (.expr (.lit val ic)) st (.ret v true st')) (hc : val.contains runeError = false)
    {k : Nat} (hk : k ≤ p0.rest.length) (hpt : st.pt = walk p0 k)
    (hv : ∀ j, j ≤ k + val.length → p0.rest[j]? ≠ some Sym.bad) :
    st'.errs = st.errs ∧ st'.pt = walk p0 (k + val.length) := by
  have h := hr.backNow (fun n => rfl)
  obtain ⟨h1, h2⟩ := litLoop_valid (env := env) ic val hc st.tick k hk hpt hv
  unfold parseLit at h
  cases hll : litLoop env ic val st.tick with
  | mk b st1 =>
    rw [hll] at h h1 h2
    cases b with
    | false => cases h
    | true =>
      cases h
      have hf := failAt_fields st1 true st.tick.pt.pos (litWant val ic)
      exact ⟨hf.2.2.2.2.1.trans h1, hf.1.trans (h2 rfl)⟩

/-- A literal of one character was matched where this character is. -/
theorem lit_one {x : Char} {st : PState} {v : Val} {st' : PState} (hx : x ≠ runeError)
    (hr : Runs env (.expr (.lit [x] false)) st (.ret v true st')) {k : Nat} (hpt : st.pt = walk p0 k) :
    ∃ w, p0.rest[k]? = some ⟨x, w⟩ := by
  have h := hr.backNow (fun n => rfl)
  unfold parseLit at h
  have hloop : litLoop env false [x] st.tick =
    if st.rune ≠ x then (false, st.tick) else (true, st.tick.read env) := rfl
  rw [hloop] at h
  by_cases hcur : st.rune ≠ x
  · rw [if_pos hcur] at h; cases h
  · have hcur' : st.rune = x := Decidable.of_not_not hcur
    rw [← walk_head hpt]
    cases hrest : st.pt.rest with
    | nil =>
      exfalso
      apply hx
      rw [← hcur']
      unfold PState.rune
      rw [hrest]
    | cons y ys =>
      obtain ⟨c, w⟩ := y
      refine ⟨w, ?_⟩
      have : st.rune = c := by unfold PState.rune; rw [hrest]
      rw [← hcur', this]
      rfl

/-! ## Balanced brackets -/

/-- Follow the parentheses: how many are open at the end, if no closing one is unmatched. -/
def scan : Nat → Str → Option Nat
  | d, [] => some d
  | d, c :: s => if c = '(' then scan (d + 1) s else if c = ')' then (if d = 0 then none else scan (d - 1) s)
      else scan d s

theorem scan_append (a b : Str) (d : Nat) : scan d (a ++ b) = (scan d a).bind (fun d' => scan d' b) := by
  induction a generalizing d with
  | nil => rfl
  | cons c a ih =>
    rw [List.cons_append, scan, scan]
    split
    · exact ih _
    · split
      · split
        · rfl
        · exact ih _
      · exact ih _

/-- A text whose parentheses are balanced. -/
def Balanced (t : Str) : Prop := ∀ d, scan d t = some d

theorem Balanced.append {a b : Str} (ha : Balanced a) (hb : Balanced b) : Balanced (a ++ b) := by
  intro d
  rw [scan_append, ha d]
  exact hb d

theorem Balanced.plain {a : Str} (h : ∀ c ∈ a, c ≠ '(' ∧ c ≠ ')') : Balanced a := by
  induction a with
  | nil => intro d; rfl
  | cons c a ih =>
    intro d
    have := h c (List.mem_cons_self ..)
    rw [scan, if_neg this.1, if_neg this.2]
    exact ih (fun c hc => h c (List.mem_cons_of_mem _ hc)) d

theorem Balanced.paren {a : Str} (h : Balanced a) : Balanced (chars!"(" ++ a ++ chars!")") := by
  intro d
  show scan d ('(' :: (a ++ chars!")")) = some d
  rw [scan, if_pos rfl, scan_append, h (d + 1)]
  rfl

theorem isDigit_plain {c : Char} (h : isDigit c = true) : c ≠ '(' ∧ c ≠ ')' := by
  constructor <;> (rintro rfl; revert h; decide)

theorem Der.balanced {nt : NT} {s : Str} {e : Expr} (h : Der nt s e) : Balanced s := by
  induction h with
  | number _ h => exact .plain (fun c hc => isDigit_plain (h c hc))
  | randOperandNum _ ih | rollOperandNum _ ih | rollOperandRand _ ih | primNum _ ih | primRand _ _ ih
  | primDice _ ih | mulPrim _ ih | addMul _ ih => exact ih
  | randOperandParen _ ih | rollOperandParen _ ih | paren _ ih => exact ih.paren
  | randNum _ _ ih1 ih2 =>
    exact ((((Balanced.plain (by decide)).append ih1).append (.plain (by decide))).append ih2).append
      (.plain (by decide))
  | dRoll hd _ _ ih1 ih2 =>
    refine (ih1.append (.plain ?_)).append ih2
    rcases hd with rfl | rfl <;> decide
  | plus _ ih | minus _ ih => exact (Balanced.plain (by decide)).append ih
  | mulMul _ _ ih1 ih2 | mulDiv _ _ ih1 ih2 | addAdd _ _ ih1 ih2 | addSub _ _ ih1 ih2 =>
    exact (ih1.append (.plain (by decide))).append ih2
  | mulDivUp hd _ _ ih1 ih2 | mulDivRound hd _ _ ih1 ih2 =>
    refine ((ih1.append (.plain (by decide))).append ih2).append (.plain ?_)
    rcases hd with rfl | rfl <;> decide

theorem scan_take {t : Str} (h : Balanced t) (k : Nat) : ∃ d, scan 0 (t.take k) = some d := by
  have := h 0
  rw [← List.take_append_drop k t, scan_append] at this
  cases hs : scan 0 (t.take k) with
  | none => rw [hs] at this; cases this
  | some d => exact ⟨d, rfl⟩

theorem ofChar_bad (c : Char) : Sym.ofChar c ≠ Sym.bad := by
  intro h
  simp only [Sym.ofChar, Sym.bad, Sym.mk.injEq] at h
  obtain ⟨rfl, h2⟩ := h
  revert h2
  decide

theorem getElem_utf8 {s : Str} {rest : List Sym} {j : Nat} (h : j < s.length) :
    (utf8 s ++ rest)[j]? = some (Sym.ofChar s[j]) := by
  rw [List.getElem?_append_left (by simpa [utf8] using h)]
  simp [utf8, h]

/-- The fence of a calculation. -/
theorem fence_calc {c : Char} {t : Str} {rest : List Sym} (ht : Balanced t)
    (hp : p0.rest = utf8 ([c] ++ chars!"(" ++ t ++ chars!")") ++ rest) (hw : Wide p0.rest) :
    Fence p0 '(' ')' 2 (t.length + 2) (fun j => (scan 0 (t.take (j - 2))).getD 0 + 1) where
  wide := hw
  opc := by decide
  clc := by decide
  close := by
    refine ⟨(')' : Char).utf8Size, ?_⟩
    rw [hp, getElem_utf8 (by simp)]
    simp [Sym.ofChar]
  last := by
    show (scan 0 (t.take (t.length + 2 - 2))).getD 0 + 1 = 1
    rw [show t.length + 2 - 2 = t.length by omega, List.take_length, ht 0]
    rfl
  pos := by intro j _ _; omega
  step := by
    intro j x h1 h2 hx
    rw [hp, getElem_utf8 (by simp; omega)] at hx
    cases hx
    obtain ⟨d, hd⟩ := scan_take ht (j - 2)
    obtain ⟨d', hd'⟩ := scan_take ht (j + 1 - 2)
    rw [hd, hd']
    have hlt : j - 2 < t.length := by omega
    have htake : t.take (j + 1 - 2) = t.take (j - 2) ++ [t[j - 2]] := by
      rw [show j + 1 - 2 = j - 2 + 1 by omega, List.take_add_one, List.getElem?_eq_getElem hlt]
      rfl
    have hget : ([c] ++ chars!"(" ++ t ++ chars!")")[j]'(by simp; omega) = t[j - 2] := by
      obtain ⟨i, rfl⟩ : ∃ i, j = i + 2 := ⟨j - 2, by omega⟩
      simp only [show i + 2 - 2 = i by omega] at hlt
      simp [List.getElem_append, hlt]
    rw [htake, scan_append, hd] at hd'
    rw [hget]
    show d' + 1 = if t[j - 2] = '(' then d + 1 + 1 else if t[j - 2] = ')' then d + 1 - 1 else d + 1
    have hd'' : scan d [t[j - 2]] = some d' := hd'
    simp only [scan] at hd''
    split at hd''
    · rename_i h; rw [if_pos h]; cases hd''; rfl
    · rename_i h
      rw [if_neg h]
      split at hd''
      · rename_i h'
        rw [if_pos h']
        split at hd''
        · cases hd''
        · cases hd''; omega
      · rename_i h'
        rw [if_neg h']
        cases hd''; rfl
  valid := by
    intro j hj
    rw [hp, getElem_utf8 (by simp; omega)]
    intro h
    exact ofChar_bad _ (Option.some.inj h)

/-- The fence of a choice. -/
theorem fence_choice {kw inner : Str} {rest : List Sym} (hkw : kw.length = 6) (hi : ∀ x ∈ inner, x ≠ ']')
    (hp : p0.rest = utf8 (kw ++ chars!"[" ++ inner ++ chars!"]") ++ rest) (hw : Wide p0.rest) :
    Fence p0 ']' ']' 7 (inner.length + 7) (fun _ => 1) where
  wide := hw
  opc := by decide
  clc := by decide
  close := by
    refine ⟨(']' : Char).utf8Size, ?_⟩
    rw [hp, getElem_utf8 (by simp; omega)]
    simp [List.getElem_append, hkw, Sym.ofChar]
  last := rfl
  pos := by intro j _ _; exact Nat.le_refl 1
  step := by
    intro j x h1 h2 hx
    rw [hp, getElem_utf8 (by simp; omega)] at hx
    cases hx
    have hne : (kw ++ chars!"[" ++ inner ++ chars!"]")[j]'(by simp; omega) ≠ ']' := by
      obtain ⟨i, rfl⟩ : ∃ i, j = i + 7 := ⟨j - 7, by omega⟩
      have hlt : i < inner.length := by omega
      have : (kw ++ chars!"[" ++ inner ++ chars!"]")[i + 7]'(by simp; omega) = inner[i] := by
        simp [List.getElem_append, hkw, hlt]
      rw [this]
      exact hi _ (List.getElem_mem hlt)
    generalize (kw ++ chars!"[" ++ inner ++ chars!"]")[j]'(by simp; omega) = y at hne ⊢
    show 1 = if y = ']' then 1 + 1 else if y = ']' then 1 - 1 else 1
    rw [if_neg hne, if_neg hne]
  valid := by
    intro j hj
    rw [hp, getElem_utf8 (by simp; omega)]
    intro h
    exact ofChar_bad _ (Option.some.inj h)

/-! ## The two rules -/

/-- The rules of the elements of a choice. -/
def choiceNames : List Str := [chars!"ChoiceItems", chars!"ChoiceItem", chars!"ChoiceItemChars"]

/-- The rules of expressions without random elements. -/
def intNames : List Str := [chars!"IntExpr", chars!"IntExprAdditive", chars!"IntExprMultitive",
  chars!"IntExprPrimary", chars!"ParenthesizedIntExpr", chars!"IntExprUnaryPlus",
  chars!"IntExprUnaryMinus", chars!"Integer"]

theorem choiceNames_tame : ∀ name ∈ choiceNames, ∃ e, goGrammar.lookup name = some e ∧
    tame ']' ']' choiceNames e = true := by
  intro name h
  simp only [choiceNames, List.mem_cons, List.not_mem_nil, or_false] at h
  rcases h with rfl | rfl | rfl <;> exact ⟨_, rfl, by decide⟩

theorem intNames_tame : ∀ name ∈ intNames, ∃ e, goGrammar.lookup name = some e ∧
    tame '(' ')' intNames e = true := by
  intro name h
  simp only [intNames, List.mem_cons, List.not_mem_nil, or_false] at h
  rcases h with rfl | rfl | rfl | rfl | rfl | rfl | rfl | rfl <;> exact ⟨_, rfl, by decide⟩

theorem valid_upto {W : Str} {rest : List Sym} (hp : p0.rest = utf8 W ++ rest)
    (hrest : rest.head? ≠ some Sym.bad) (j : Nat) (hj : j ≤ W.length) : p0.rest[j]? ≠ some Sym.bad := by
  rw [hp]
  rcases Nat.lt_or_eq_of_le hj with h | h
  · rw [getElem_utf8 h]
    intro h
    exact ofChar_bad _ (Option.some.inj h)
  · have hl : (utf8 W).length = W.length := by simp [utf8]
    rw [List.getElem?_append_right (by omega), hl, h, Nat.sub_self, ← List.head?_eq_getElem?]
    exact hrest

theorem within_lit {op cl : Char} {K L : Nat} {lev : Nat → Nat} {b : Nat} {errs : List Str} {st st' : PState}
    {x : Char} {v : Val} (F : Fence p0 op cl K L lev) (h : Within p0 K L lev b errs st)
    (hr : Runs env (.expr (.lit [x] false)) st (.ret v true st')) (hx : x ≠ runeError)
    (hv : ∀ j, j ≤ L + 1 → p0.rest[j]? ≠ some Sym.bad) : st'.errs = errs := by
  obtain ⟨k, -, hk, hpt, -⟩ := h.at'
  have hlt := F.lt
  have hc : List.contains [x] runeError = false := by
    simp [List.contains_cons]
    intro h; exact hx h.symm
  have := lit_back hr hc (k := k) (by omega) hpt (fun j hj => hv j (by
    have : [x].length = 1 := rfl
    omega))
  exact this.1.trans h.errs

/-- A choice: no error. -/
theorem choice_quiet (hg : env.rules = goGrammar) {kw inner : Str} {rest : List Sym} (hkw : kw.length = 6)
    (hi : ∀ x ∈ inner, x ≠ ']')
    (hp : p0.rest = utf8 (kw ++ chars!"[" ++ inner ++ chars!"]") ++ rest) (hw : Wide p0.rest)
    (hrest : rest.head? ≠ some Sym.bad) {st st' : PState} {v : Val} (hpt : st.pt = p0)
    (hr : Runs env (.expr (.ruleRef chars!"Choice")) st (.ret v true st')) : st'.errs = st.errs := by
  have F := fence_choice hkw hi hp hw
  have hlen : (kw ++ chars!"[" ++ inner ++ chars!"]").length = inner.length + 8 := by simp; omega
  have hv : ∀ j, j ≤ inner.length + 8 → p0.rest[j]? ≠ some Sym.bad := fun j hj =>
    valid_upto hp hrest j (by omega)
  obtain ⟨s1, s2, e1, e2, h1, -, e3, -⟩ := rule_back (e := ruleChoice) (by rw [hg]; rfl) hr
  obtain ⟨s3, v2, e4, e5, h2⟩ := action_back (by decide) h1
  have h3 := expr_seq_back h2
  obtain ⟨w1, t1, h4, h3⟩ := seq_back h3
  obtain ⟨w2, t2, h5, h3⟩ := seq_back h3
  obtain ⟨w3, t3, h6, h3⟩ := seq_back h3
  obtain ⟨w4, t4, h7, h3⟩ := seq_back h3
  have h8 := seq_end h3
  have hpt3 : s3.tick.pt = walk p0 0 := e4.trans (e1.trans hpt)
  obtain ⟨g1, g2⟩ := lit_back h4 (by decide) (k := 0) (Nat.zero_le _) hpt3 (fun j hj => hv j (by
    have : chars!"choice[".length = 7 := rfl
    omega))
  have hat : Within p0 7 (inner.length + 7) (fun _ => 1) 1 st.errs t1 :=
    ⟨g1.trans (e5.trans e2), 7, Nat.le_refl _, by omega, g2, rfl⟩
  have hn : ∀ name ∈ choiceNames, ∃ e, env.rules.lookup name = some e ∧
    tame ']' ']' choiceNames e = true := by rw [hg]; exact choiceNames_tame
  obtain ⟨n1, h5⟩ := h5
  have hat2 := run_tame F hn n1 (.expr (.labeled chars!"items" (.ruleRef chars!"ChoiceItems"))) 1 st.errs t1 _
    ⟨by decide, hat⟩ h5
  obtain ⟨n2, h6⟩ := h6
  have hat3 := run_tame F hn n2 (.expr (.zeroOrOne (.seq [.lit chars!"," false, .zeroOrMore
    (.charClass chars!"[\\pZ]" [] [] [chars!"Z"] false false)]))) 1 st.errs t2 _ ⟨by decide, hat2⟩ h6
  have := within_lit F hat3 h7 (by decide) hv
  rw [e3, h8]
  exact this

/-- A calculation: no error. -/
theorem calc_quiet (hg : env.rules = goGrammar) {c : Char} {t : Str} {rest : List Sym} (ht : Balanced t)
    (hp : p0.rest = utf8 ([c] ++ chars!"(" ++ t ++ chars!")") ++ rest) (hw : Wide p0.rest)
    (hrest : rest.head? ≠ some Sym.bad) {st st' : PState} {v : Val} (hpt : st.pt = p0)
    (hr : Runs env (.expr (.ruleRef chars!"Calc")) st (.ret v true st')) : st'.errs = st.errs := by
  have F := fence_calc ht hp hw
  have hlen : ([c] ++ chars!"(" ++ t ++ chars!")").length = t.length + 3 := by simp
  have hv : ∀ j, j ≤ t.length + 3 → p0.rest[j]? ≠ some Sym.bad := fun j hj =>
    valid_upto hp hrest j (by omega)
  obtain ⟨s1, s2, e1, e2, h1, -, e3, -⟩ := rule_back (e := ruleCalc) (by rw [hg]; rfl) hr
  obtain ⟨s3, v2, e4, e5, h2⟩ := action_back (by decide) h1
  have h3 := expr_seq_back h2
  obtain ⟨w1, t1, h4, h3⟩ := seq_back h3
  obtain ⟨w2, t2, h5, h3⟩ := seq_back h3
  obtain ⟨w3, t3, h6, h3⟩ := seq_back h3
  obtain ⟨w4, t4, h7, h3⟩ := seq_back h3
  have h8 := seq_end h3
  have hpt3 : s3.tick.pt = walk p0 0 := e4.trans (e1.trans hpt)
  have hl1 : ∀ x : Char, [x].length = 1 := fun _ => rfl
  have hlong : 2 ≤ p0.rest.length := by have := F.lt; omega
  obtain ⟨g1, g2⟩ := lit_back h4 (by decide) (k := 0) (Nat.zero_le _) hpt3 (fun j hj => hv j (by
    have := hl1 'c'
    omega))
  obtain ⟨g3, g4⟩ := lit_back h5 (by decide) (k := 1) (by omega) g2 (fun j hj => hv j (by
    have := hl1 '('
    omega))
  have hat : Within p0 2 (t.length + 2) (fun j => (scan 0 (t.take (j - 2))).getD 0 + 1) 1 st.errs t2 :=
    ⟨g3.trans (g1.trans (e5.trans e2)), 2, Nat.le_refl _, by omega, g4, rfl⟩
  have hn : ∀ name ∈ intNames, ∃ e, env.rules.lookup name = some e ∧
    tame '(' ')' intNames e = true := by rw [hg]; exact intNames_tame
  obtain ⟨n1, h6⟩ := h6
  have hat2 := run_tame F hn n1 (.expr (.labeled chars!"expr" (.ruleRef chars!"IntExpr"))) 1 st.errs t2 _
    ⟨by decide, hat⟩ h6
  have := within_lit F hat2 h7 (by decide) hv
  rw [e3, h8]
  exact this

/-! ## The command -/

theorem top_back (hg : env.rules = goGrammar) {st st' : PState} {v : Val}
    (hr : Runs env (.expr (.ruleRef chars!"Command")) st (.ret v true st')) :
    ∃ st1 st2 v2, st1.pt = st.pt ∧ st1.errs = st.errs ∧ st1.randCount = some 0 ∧
      Runs env (.alts [.ruleRef chars!"Choice", .ruleRef chars!"Calc", .ruleRef chars!"CommandWithExpression"])
        st1 (.ret v2 true st2) ∧ st'.errs = st2.errs := by
  obtain ⟨s1, s2, e1, e2, h1, -, e3, -⟩ := rule_back (e := ruleCommand) (by rw [hg]; rfl) hr
  obtain ⟨s3, v2, e4, e5, h2⟩ := action_back (by decide) h1
  have h3 := expr_seq_back h2
  obtain ⟨w1, t1, h4, h3⟩ := seq_back h3
  obtain ⟨w2, t2, h5, h3⟩ := seq_back h3
  have h8 := seq_end h3
  obtain ⟨r1, r2, q1, q2, h6, q3, q4, q5⟩ := rule_back (e := ruleResetRandCount) (by rw [hg]; rfl) h4
  have h7 := h6.backNow (r' := .ret .nil true { r1.tick with randCount := some 0 }) (fun n => rfl)
  cases h7
  obtain ⟨u1, u2, x1, x2, x3, h9, -, x5⟩ := labeled_back h5
  have h10 := h9.backStep (t1 := .alts _) (st1 := u1.tick) (fun n => rfl)
  refine ⟨u1.tick, u2, w2, ?_, ?_, ?_, h10, ?_⟩
  · exact x1.trans (q3.trans (q1.trans (e4.trans e1)))
  · exact x2.trans (q4.trans (q2.trans (e5.trans e2)))
  · exact x3.trans q5
  · rw [e3, h8, x5]

/-- One alternative: it is the result, or it failed. -/
theorem alts_back {e : PExpr} {es : List PExpr} {st st' : PState} {v : Val}
    (hr : Runs env (.alts (e :: es)) st (.ret v true st')) :
    ∃ v1 ok st1, Runs env (.expr e) st.pushV (.ret v1 ok st1) ∧ if ok then st'.errs = st1.errs
      else Runs env (.alts es) { st1.popV with randCount := st.randCount } (.ret v true st') := by
  obtain ⟨n, hn⟩ := hr
  cases n with
  | zero => simp [run] at hn
  | succ n =>
    have hn' : PRes.andThen (run env n (.expr e) st.pushV) (fun v ok st' =>
        if ok then some (.ret v true st'.popV)
        else run env n (.alts es) { st'.popV with randCount := st.randCount }) = some (.ret v true st') := hn
    cases hrun : run env n (.expr e) st.pushV with
    | none => rw [hrun] at hn'; cases hn'
    | some r =>
      rw [hrun] at hn'
      cases r with
      | panic m st2 => cases hn'
      | ret v1 ok1 st2 =>
        refine ⟨v1, ok1, st2, ⟨n, hrun⟩, ?_⟩
        cases ok1 with
        | true => cases hn'; rfl
        | false => exact ⟨n, hn'⟩

theorem initState_quiet {W : Str} {rest : List Sym} (h : W ≠ []) :
    (initState env (utf8 W ++ rest)).errs = [] := by
  unfold initState PState.enter
  dsimp only
  rw [if_neg]
  intro hb
  cases W with
  | nil => exact h rfl
  | cons c W => exact ofChar_bad c (Option.some.inj hb.1)

/-- A run that records no error gives the tree. -/
theorem parses_of_quiet {filename : Str} {data : List Sym} (hd : Decoded data) {node : Node}
    (hc : CommandText (runesOf data) node)
    (hq : ∀ v st', Runs ⟨filename, goGrammar, false⟩ (.expr (.ruleRef chars!"Command"))
      (initState ⟨filename, goGrammar, false⟩ data) (.ret v true st') → st'.errs = []) :
    ∃ v, Parses filename data (.ok v) ∧ v.toNode = some node := by
  obtain ⟨v, ok, st', h1, -, h3, -⟩ := top_run (env := ⟨filename, goGrammar, false⟩) rfl data hd
  obtain ⟨rest, c', hcmd⟩ := command_accepts hc ((runes data).length + 1) (Nat.le_succ _)
  have h3' : TopPost (command ((runes data).length + 1) (runesOf data) 0) v ok st' := h3
  rw [hcmd] at h3'
  obtain ⟨rfl, hv, -⟩ := h3'
  refine ⟨v, ?_, hv⟩
  have he := hq v st' h1
  obtain ⟨fuel, h⟩ := h1
  refine ⟨fuel, ?_⟩
  show (run ⟨filename, goGrammar, false⟩ fuel (.expr (.ruleRef chars!"Command"))
    (initState ⟨filename, goGrammar, false⟩ data)).map (finish ⟨filename, goGrammar, false⟩) = _
  rw [h]
  unfold finish
  dsimp only [Option.map]
  rw [if_pos he]

theorem initState_rest (l : List Sym) : (initState env l).pt.rest = l := (initState_fields l).1

theorem sameWord_length : ∀ (w kw : Str), SameWord w kw → w.length = kw.length
  | [], [], _ => rfl
  | l :: ls, x :: xs, h => congrArg (· + 1) (sameWord_length ls xs h.2)
  | [], x :: xs, h => h.elim
  | l :: ls, [], h => h.elim

theorem items_plain {body : Str} {items : List Str} (h : ItemsText body items) : ∀ x ∈ body, x ≠ ']' := by
  induction h with
  | one h => exact fun x hx => (h.1 x hx).2
  | cons h _ ih =>
    intro x hx
    rcases List.mem_append.1 hx with hx | hx
    · rcases List.mem_append.1 hx with hx | hx
      · exact (h.1 x hx).2
      · rw [List.mem_singleton.1 hx]; decide
    · exact ih x hx

/-- Of a choice, what is behind the bracket does not matter from the second rune on. -/
theorem parses_choice (filename : Str) {kw body seps : Str} {items : List Str} {rest : List Sym}
    (hkw : SameWord chars!"choice" kw) (hit : ItemsText body items)
    (hs : seps = [] ∨ ∃ t, seps = chars!"," ++ t ∧ ∀ c ∈ t, Separator c)
    (hd : Decoded (utf8 (kw ++ chars!"[" ++ body ++ seps ++ chars!"]") ++ rest))
    (hrest : rest.head? ≠ some Sym.bad) :
    ∃ v, Parses filename (utf8 (kw ++ chars!"[" ++ body ++ seps ++ chars!"]") ++ rest) (.ok v) ∧
      v.toNode = some (.choice items) := by
  have hrunes : runesOf (utf8 (kw ++ chars!"[" ++ body ++ seps ++ chars!"]") ++ rest) =
      kw ++ chars!"[" ++ body ++ seps ++ chars!"]" ++ runesOf rest := by
    have := runesOf_utf8 (kw ++ chars!"[" ++ body ++ seps ++ chars!"]")
    unfold runesOf at this ⊢
    rw [List.map_append, this]
  refine parses_of_quiet hd (by rw [hrunes]; exact .choice hkw hit hs) ?_
  intro v st' hr
  let env : PEnv := ⟨filename, goGrammar, false⟩
  obtain ⟨st1, st2, v2, e1, e2, e3, h1, e4⟩ := top_back (env := env) rfl hr
  obtain ⟨v1, ok, st3, h2, h3⟩ := alts_back h1
  have hpr := initState_rest (env := env) (utf8 (kw ++ chars!"[" ++ body ++ seps ++ chars!"]") ++ rest)
  have hok := imp_choice (env := env) (p0 := (initState env (utf8 (kw ++ chars!"[" ++ body ++ seps ++ chars!"]") ++ rest)).pt)
    rfl (by rw [hpr]; exact hd) _ _ 0 (Nat.lt_succ_self _) st1.pushV
    ⟨⟨0, Nat.zero_le _, e1⟩, by
      show runes st1.pt.rest = kw ++ chars!"[" ++ body ++ seps ++ chars!"]" ++ runesOf rest
      rw [e1, hpr]
      exact hrunes, e3⟩
  rw [choiceCmd_accepts hkw hit hs 0] at hok
  obtain ⟨v4, st4, h4, -⟩ := hok
  cases Runs.unique h2 h4
  have h3' : st2.errs = st3.errs := h3
  have hlen : kw.length = 6 := by
    exact (sameWord_length _ _ hkw).symm
  have hin : ∀ x ∈ body ++ seps, x ≠ ']' := by
    intro x hx
    rcases List.mem_append.1 hx with hx | hx
    · exact items_plain hit x hx
    · rcases hs with rfl | ⟨t, rfl, ht⟩
      · cases hx
      · rcases List.mem_append.1 hx with hx | hx
        · rw [List.mem_singleton.1 hx]; decide
        · rintro rfl
          exact absurd (ht _ hx) (by simp [Separator])
  have := choice_quiet (env := env) rfl (inner := body ++ seps) hlen hin (by
    rw [hpr]; simp only [List.append_assoc]) (by rw [hpr]; exact hd) hrest (st := st1.pushV) e1 h2
  rw [e4, h3', this]
  exact e2.trans (initState_quiet (by simp))

/-- The rule `Choice` fails on a calculation at its second rune. -/
theorem choice_fails (hg : env.rules = goGrammar) (hw : Wide p0.rest) {c : Char} (hc : c = 'C' ∨ c = 'c')
    {l : List Sym} (hp : p0.rest = Sym.ofChar c :: Sym.ofChar '(' :: l) {st st' : PState} {v : Val}
    {ok : Bool} (hpt : st.pt = p0)
    (hr : Runs env (.expr (.ruleRef chars!"Choice")) st (.ret v ok st')) :
    ok = false ∧ st'.errs = st.errs ∧ st'.pt = p0 := by
  -- the literal
  have hone : ∀ s0 : PState, s0.pt = p0 → s0.rune = c := by
    intro s0 h
    unfold PState.rune
    rw [h, hp]
    rfl
  have hlit : ∀ s0 : PState, s0.pt = p0 → ∃ s1, Runs env (.expr (.lit chars!"choice[" true)) s0 (.ret .nil false s1) ∧
      s1.pt = p0 ∧ s1.errs = s0.errs := by
    intro s0 h0
    obtain ⟨r1, r2⟩ := read_next (env := env) (st := s0.tick) (p0 := p0) (k := 0) (by rw [hp]; exact Nat.succ_pos _) h0
      (by rw [hp]; exact fun h => ofChar_bad _ (Option.some.inj h))
    have hrune2 : (s0.tick.read env).rune = '(' := by
      unfold PState.rune
      rw [r1, walk_rest, hp]
      rfl
    have hl : litLoop env true chars!"choice[" s0.tick = (false, s0.tick.read env) := by
      rw [show chars!"choice[" = 'c' :: 'h' :: chars!"oice[" from rfl]
      unfold litLoop
      dsimp only
      rw [if_pos rfl, hone s0.tick h0, if_neg (by rcases hc with rfl | rfl <;> decide)]
      unfold litLoop
      dsimp only
      rw [if_pos rfl, hrune2, if_pos (by decide)]
    have hpl : parseLit env chars!"choice[" true s0.tick = .ret .nil false
        (((s0.tick.read env).failAt false s0.tick.pt.pos (litWant chars!"choice[" true)).restore s0.tick.pt) := by
      unfold parseLit
      rw [hl]
    refine ⟨_, Runs.now (fun n => congrArg some hpl), ?_, ?_⟩
    · have hf := failAt_fields (s0.tick.read env) false s0.tick.pt.pos (litWant chars!"choice[" true)
      rw [restore_fields hw]
      · exact h0
      · rw [hf.1, r1]
        exact ⟨1, by rw [hp]; exact Nat.succ_le_succ (Nat.zero_le _), rfl⟩
      · exact ⟨0, Nat.zero_le _, h0⟩
    · have hf := failAt_fields (s0.tick.read env) false s0.tick.pt.pos (litWant chars!"choice[" true)
      rw [(restore_keep _ _).2, hf.2.2.2.2.1]
      exact r2
  obtain ⟨s1, s2, e1, e2, h1, e3, e4, -⟩ := rule_back (e := ruleChoice) (by rw [hg]; rfl) hr
  obtain ⟨s3, v2, e5, e6, h2⟩ := action_back (by decide) h1
  have h3 := expr_seq_back h2
  obtain ⟨s4, h4, g1, g2⟩ := hlit s3.tick (e5.trans (e1.trans hpt))
  have h5 : Runs env (.seq [.lit chars!"choice[" true, .labeled chars!"items" (.ruleRef chars!"ChoiceItems"),
      .zeroOrOne (.seq [.lit chars!"," false,
        .zeroOrMore (.charClass chars!"[\\pZ]" [] [] [chars!"Z"] false false)]),
      .lit chars!"]" false] [] s3.pt s3.randCount) s3.tick
      (.ret .nil false (PState.restore { s4 with randCount := s3.randCount } s3.pt)) :=
    Runs.call (fun n => rfl) h4 (fun n => rfl)
  cases Runs.unique h3 h5
  refine ⟨rfl, ?_, ?_⟩
  · rw [e4, (restore_keep _ _).2]
    exact g2.trans (e6.trans e2)
  · rw [e3, restore_fields hw]
    · exact e5.trans (e1.trans hpt)
    · exact ⟨0, Nat.zero_le _, g1⟩
    · exact ⟨0, Nat.zero_le _, e5.trans (e1.trans hpt)⟩

/-- Of a calculation, what is behind the parenthesis does not matter from the second rune on. -/
theorem parses_calc (filename : Str) {c : Char} {t : Str} {e : Expr} {rest : List Sym}
    (hc : c = 'C' ∨ c = 'c') (ht : Der (.add .int) t e)
    (hd : Decoded (utf8 ([c] ++ chars!"(" ++ t ++ chars!")") ++ rest))
    (hrest : rest.head? ≠ some Sym.bad) :
    ∃ v, Parses filename (utf8 ([c] ++ chars!"(" ++ t ++ chars!")") ++ rest) (.ok v) ∧
      v.toNode = some (.calc e) := by
  have hrunes : runesOf (utf8 ([c] ++ chars!"(" ++ t ++ chars!")") ++ rest) =
      [c] ++ chars!"(" ++ t ++ chars!")" ++ runesOf rest := by
    have := runesOf_utf8 ([c] ++ chars!"(" ++ t ++ chars!")")
    unfold runesOf at this ⊢
    rw [List.map_append, this]
  refine parses_of_quiet hd (by rw [hrunes]; exact .calc hc ht) ?_
  intro v st' hr
  let env : PEnv := ⟨filename, goGrammar, false⟩
  obtain ⟨st1, st2, v2, e1, e2, e3, h1, e4⟩ := top_back (env := env) rfl hr
  obtain ⟨v1, ok, st3, h2, h3⟩ := alts_back h1
  have hpr := initState_rest (env := env) (utf8 ([c] ++ chars!"(" ++ t ++ chars!")") ++ rest)
  generalize hp0 : (initState env (utf8 ([c] ++ chars!"(" ++ t ++ chars!")") ++ rest)).pt = p0 at hpr e1
  have hw : Wide p0.rest := by rw [hpr]; exact hd
  obtain ⟨rfl, f1, f2⟩ := choice_fails (env := env) (st := st1.pushV) rfl hw hc hpr e1 h2
  have h3' : Runs env (.alts [.ruleRef chars!"Calc", .ruleRef chars!"CommandWithExpression"])
    { st3.popV with randCount := st1.randCount } (.ret v2 true st2) := h3
  obtain ⟨v4, ok, st4, h4, h5⟩ := alts_back h3'
  have hL : (runes p0.rest) = [c] ++ chars!"(" ++ t ++ chars!")" ++ runesOf rest := by
    rw [hpr]; exact hrunes
  have hok := imp_calc (env := env) (p0 := p0) rfl hw ((runes p0.rest).length + 1) (runes p0.rest) 0
    (Nat.lt_succ_self _) (PState.pushV { st3.popV with randCount := st1.randCount })
    ⟨⟨0, Nat.zero_le _, f2⟩, by
      show runes st3.pt.rest = _
      rw [f2], e3⟩
  have hacc : calcCmd ((runes p0.rest).length + 1) (runes p0.rest) 0 = some (.calc e, runesOf rest, 0) := by
    rw [hL]
    have e0 : [c] ++ chars!"(" ++ t ++ chars!")" ++ runesOf rest = c :: '(' :: (t ++ (')' :: runesOf rest)) := by simp
    rw [e0]
    unfold calcCmd
    rw [P.bind_some (chrI_cons _ _ _ _ ((toLowerRune_c c).mpr hc)), P.bind_some (chr_cons _ _ _),
      P.bind_some (intExpr_accepts ht _ 0 (by simp; omega) (Stops.cons (by decide))),
      P.bind_some (chr_cons _ _ _)]
    rfl
  rw [hacc] at hok
  obtain ⟨v5, st5, h6, -⟩ := hok
  cases Runs.unique h4 h6
  have h5' : st2.errs = st4.errs := h5
  have := calc_quiet (env := env) rfl (Der.balanced ht) hpr hw hrest (st := PState.pushV { st3.popV with randCount := st1.randCount })
    f2 h4
  rw [e4, h5', this]
  exact f1.trans (e2.trans (initState_quiet (by simp)))

end GoBCDice.Pigeon
