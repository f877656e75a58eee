import Verif.Lemmas.PigeonInv

/-!
# The generated parser: how far it looks

Inside brackets the parser does not look past the closing one: an expression whose own brackets are
balanced consumes it at no level.  The table is arbitrary.
-/

namespace GoBCDice.Pigeon

variable {env : PEnv} {p0 : Pt}

/-- Actions that report no error. -/
def quiet : Action → Bool
  | .onDRollExprCommand1 | .onDRollCompCommand1 | .onURollExpr1 => false
  | _ => true

mutual
/-- The brackets an expression consumes are balanced; references are to the given rules only. -/
def tame (op cl : Char) (names : List Str) : PExpr → Bool
  | .action a e => quiet a && tame op cl names e
  | .any => false
  | .charClass _ chars ranges classes _ inv =>
    (classHas chars ranges classes op == inv) && (classHas chars ranges classes cl == inv)
  | .choice es => tameAll op cl names es
  | .labeled _ e => tame op cl names e
  | .lit val _ => !val.contains op && !val.contains cl && !val.contains runeError
  | .not e => tame op cl names e
  | .oneOrMore e => tame op cl names e
  | .ruleRef name => names.contains name
  | .seq es => tameSeq op cl names 0 es
  | .stateCode _ => true
  | .zeroOrMore e => tame op cl names e
  | .zeroOrOne e => tame op cl names e
/-- `tame` for each. -/
def tameAll (op cl : Char) (names : List Str) : List PExpr → Bool
  | [] => true
  | e :: es => tame op cl names e && tameAll op cl names es
/-- The brackets of a sequence are balanced, `d` being open already. -/
def tameSeq (op cl : Char) (names : List Str) : Nat → List PExpr → Bool
  | d, [] => d == 0
  | d, e :: es =>
    (tame op cl names e && tameSeq op cl names d es) ||
    match e with
    | .lit [x] false =>
      (x == op && op != cl && tameSeq op cl names (d + 1) es) ||
      (x == cl && op != cl && decide (0 < d) && tameSeq op cl names (d - 1) es)
    | _ => false
end

/-- From rune `K` on, rune `L` is the first closing bracket that is not opened; no invalid byte up to
there. -/
structure Fence (p0 : Pt) (op cl : Char) (K L : Nat) (lev : Nat → Nat) : Prop where
  wide : Wide p0.rest
  opc : toLowerRune op = op ∧ op ≠ runeError
  clc : toLowerRune cl = cl ∧ cl ≠ runeError
  close : ∃ w, p0.rest[L]? = some ⟨cl, w⟩
  last : lev L = 1
  pos : ∀ j, K ≤ j → j ≤ L → 1 ≤ lev j
  step : ∀ j x, K ≤ j → j < L → p0.rest[j]? = some x →
    lev (j + 1) = if x.rn = op then lev j + 1 else if x.rn = cl then lev j - 1 else lev j
  valid : ∀ j, j ≤ L → p0.rest[j]? ≠ some Sym.bad

variable {op cl : Char} {K L : Nat} {lev : Nat → Nat}

theorem Fence.lt (F : Fence p0 op cl K L lev) : L < p0.rest.length := by
  obtain ⟨w, h⟩ := F.close
  exact (List.getElem?_eq_some_iff.1 h).1

theorem Fence.reach (F : Fence p0 op cl K L lev) {k : Nat} (h : k ≤ L) : Reach p0 (walk p0 k) :=
  ⟨k, by have := F.lt; omega, rfl⟩

theorem walk_head {k : Nat} {st : PState} (h : st.pt = walk p0 k) : st.pt.rest.head? = p0.rest[k]? := by
  rw [h, walk_rest, List.head?_drop]

/-- Reading on. -/
theorem read_next {st : PState} {k : Nat} (hk : k < p0.rest.length) (h : st.pt = walk p0 k)
    (hv : p0.rest[k + 1]? ≠ some Sym.bad) :
    (st.read env).pt = walk p0 (k + 1) ∧ (st.read env).errs = st.errs := by
  have hf := read_fields (env := env) (p0 := p0) st ⟨k, Nat.le_of_lt hk, h⟩
  refine ⟨by rw [hf.1, h]; rfl, ?_⟩
  unfold PState.read PState.enter
  dsimp only
  have : st.pt.rest.tail.head? = p0.rest[k + 1]? := by
    rw [h, walk_rest, List.tail_drop, List.head?_drop]
  rw [if_neg (by rw [this]; exact fun hc => hv hc.1)]

/-- What holds of the state. -/
structure Within (p0 : Pt) (K L : Nat) (lev : Nat → Nat) (b : Nat) (errs : List Str) (st : PState) : Prop where
  errs : st.errs = errs
  at' : ∃ k, K ≤ k ∧ k ≤ L ∧ st.pt = walk p0 k ∧ lev k = b

theorem Within.of {b : Nat} {errs : List Str} {st st' : PState} (h : Within p0 K L lev b errs st)
    (h1 : st'.pt = st.pt) (h2 : st'.errs = st.errs) : Within p0 K L lev b errs st' :=
  ⟨h2.trans h.errs, by rw [h1]; exact h.at'⟩

theorem Within.failAt {b : Nat} {errs : List Str} {st : PState} (h : Within p0 K L lev b errs st)
    (x : Bool) (pos : Pos) (w : Str) : Within p0 K L lev b errs (st.failAt x pos w) := by
  have hf := failAt_fields st x pos w
  exact h.of hf.1 hf.2.2.2.2.1

theorem Within.restore (F : Fence p0 op cl K L lev) {b b' : Nat} {errs : List Str} {st : PState}
    (h : Within p0 K L lev b errs st) {i : Nat} (h1 : K ≤ i) (h2 : i ≤ L) (h3 : lev i = b') :
    Within p0 K L lev b' errs (st.restore (walk p0 i)) := by
  obtain ⟨k, -, hk, hpt, -⟩ := h.at'
  rw [restore_fields F.wide st _ (hpt ▸ F.reach hk) (F.reach h2)]
  exact ⟨h.errs, i, h1, h2, rfl, h3⟩

/-- Reading a rune that is no bracket. -/
theorem Within.read (F : Fence p0 op cl K L lev) {b : Nat} {errs : List Str} {st : PState}
    (h : Within p0 K L lev b errs st) {x : Sym} (hx : st.pt.rest.head? = some x) (ho : x.rn ≠ op)
    (hc : x.rn ≠ cl) : Within p0 K L lev b errs (st.read env) := by
  obtain ⟨k, hK, hk, hpt, hlev⟩ := h.at'
  rw [walk_head hpt] at hx
  have hne : k ≠ L := by
    rintro rfl
    obtain ⟨w, hw⟩ := F.close
    rw [hx] at hw
    cases hw
    exact hc rfl
  have hlt := F.lt
  obtain ⟨r1, r2⟩ := read_next (env := env) (by omega) hpt (F.valid (k + 1) (by omega))
  have hs := F.step k x hK (by omega) hx
  rw [if_neg ho, if_neg hc] at hs
  exact ⟨r2.trans h.errs, k + 1, by omega, by omega, r1, hs.trans hlev⟩

theorem litLoop_tame (F : Fence p0 op cl K L lev) (ic : Bool) {b : Nat} {errs : List Str} :
    ∀ (val : Str), val.contains op = false → val.contains cl = false → val.contains runeError = false →
      ∀ st, Within p0 K L lev b errs st → Within p0 K L lev b errs (litLoop env ic val st).2
  | [], _, _, _, st, h => h
  | w :: val, h1, h2, h3, st, h => by
    unfold litLoop
    dsimp only
    rw [List.contains_cons, Bool.or_eq_false_iff] at h1 h2 h3
    by_cases hcur : (if ic = true then toLowerRune st.rune else st.rune) ≠ w
    · rw [if_pos hcur]; exact h
    · rw [if_neg hcur]
      have hcur' : (if ic = true then toLowerRune st.rune else st.rune) = w := Decidable.of_not_not hcur
      have hne : ∀ y : Char, toLowerRune y = y → (y == w) = false → st.rune ≠ y := by
        intro y hy hw he
        rw [he] at hcur'
        have : y = w := by
          rw [← hcur']; split
          · exact hy.symm
          · rfl
        rw [this] at hw
        simp at hw
      cases hr : st.pt.rest with
      | nil =>
        have hrune : st.rune = runeError := by unfold PState.rune; rw [hr]
        exact absurd hrune (hne _ (by decide) h3.1)
      | cons x xs =>
        have hrune : st.rune = x.rn := by unfold PState.rune; rw [hr]
        refine litLoop_tame F ic val h1.2 h2.2 h3.2 _ (h.read F (x := x) (by rw [hr]; rfl) ?_ ?_)
        · rw [← hrune]; exact hne _ F.opc.1 h1.1
        · rw [← hrune]; exact hne _ F.clc.1 h2.1

theorem lit_tame (F : Fence p0 op cl K L lev) (ic : Bool) {b : Nat} {errs : List Str} (val : Str)
    (h1 : val.contains op = false) (h2 : val.contains cl = false) (h3 : val.contains runeError = false)
    (st : PState) (h : Within p0 K L lev b errs st) : Within p0 K L lev b errs (parseLit env val ic st).st := by
  have hl := litLoop_tame (env := env) F ic val h1 h2 h3 st h
  unfold parseLit
  cases hll : litLoop env ic val st with
  | mk x st1 =>
    rw [hll] at hl
    cases x with
    | true => exact hl.failAt _ _ _
    | false =>
      obtain ⟨k, hK, hk, hpt, hlev⟩ := h.at'
      dsimp only
      rw [hpt]
      exact (hl.failAt _ _ _).restore F hK hk hlev

/-- A literal of one bracket, with the level it leads to. -/
theorem bracket_tame (F : Fence p0 op cl K L lev) {b : Nat} {errs : List Str} (x : Char) (hoc : op ≠ cl)
    (hx : x = op ∨ (x = cl ∧ 1 < b)) (st : PState) (h : Within p0 K L lev b errs st) :
    ∃ v ok st', parseLit env [x] false st = .ret v ok st' ∧
      Within p0 K L lev (if ok then (if x = op then b + 1 else b - 1) else b) errs st' := by
  obtain ⟨k, hK, hk, hpt, hlev⟩ := h.at'
  have hloop : litLoop env false [x] st = if st.rune ≠ x then (false, st) else (true, st.read env) := rfl
  unfold parseLit
  rw [hloop]
  by_cases hcur : st.rune ≠ x
  · rw [if_pos hcur]
    refine ⟨_, _, _, rfl, ?_⟩
    rw [if_neg (by decide), hpt]
    exact (h.failAt _ _ _).restore F hK hk hlev
  · have hcur' : st.rune = x := Decidable.of_not_not hcur
    rw [if_neg hcur]
    refine ⟨_, _, _, rfl, ?_⟩
    rw [if_pos rfl]
    have hrune : ∃ y, st.pt.rest.head? = some y ∧ y.rn = x := by
      cases hr : st.pt.rest with
      | nil =>
        have : st.rune = runeError := by unfold PState.rune; rw [hr]
        rw [this] at hcur'
        rcases hx with hx | ⟨hx, -⟩
        · exact absurd (hx ▸ hcur'.symm) F.opc.2
        · exact absurd (hx ▸ hcur'.symm) F.clc.2
      | cons y ys =>
        refine ⟨y, rfl, ?_⟩
        rw [← hcur']
        unfold PState.rune
        rw [hr]
    obtain ⟨y, hy, hyx⟩ := hrune
    rw [walk_head hpt] at hy
    have hne : k ≠ L := by
      rintro rfl
      obtain ⟨w, hw⟩ := F.close
      rw [hy] at hw
      cases hw
      have := F.last
      rcases hx with hx | ⟨-, hx⟩
      · exact hoc (hx.symm.trans hyx.symm)
      · omega
    have hlt := F.lt
    obtain ⟨r1, r2⟩ := read_next (env := env) (by omega) hpt (F.valid (k + 1) (by omega))
    have hs := F.step k y hK (by omega) hy
    rw [hyx, hlev] at hs
    refine Within.failAt ⟨r2.trans h.errs, k + 1, by omega, by omega, r1, ?_⟩ _ _ _
    rw [hs]
    by_cases hxo : x = op
    · rw [if_pos hxo, if_pos hxo]
    · rw [if_neg hxo, if_neg hxo]
      rcases hx with hx | ⟨hx, -⟩
      · exact absurd hx hxo
      · rw [if_pos hx]

theorem cls_tame (F : Fence p0 op cl K L lev) {b : Nat} {errs : List Str} (val : Str) (chars : List Char)
    (ranges : List (Char × Char)) (classes : List Str) (ic inv : Bool)
    (h1 : classHas chars ranges classes op = inv) (h2 : classHas chars ranges classes cl = inv)
    (st : PState) (h : Within p0 K L lev b errs st) :
    Within p0 K L lev b errs (parseCharClass env val chars ranges classes ic inv st).st := by
  unfold parseCharClass
  split
  · exact h.failAt _ _ _
  · rename_i s l hr
    dsimp only
    by_cases hcl : classHas chars ranges classes (if ic = true then toLowerRune s.rn else s.rn) = inv
    · rw [if_pos hcl]
      exact h.failAt _ _ _
    · rw [if_neg hcl]
      refine (h.read F (x := s) (by rw [hr]; rfl) ?_ ?_).failAt _ _ _
      · intro he
        apply hcl
        rw [he, F.opc.1, ite_self]
        exact h1
      · intro he
        apply hcl
        rw [he, F.clc.1, ite_self]
        exact h2

theorem addLoop_quiet (m : Str) (e : Expr) (vs : List Val) : addLoop e vs ≠ .err m := by
  fun_induction addLoop e vs <;> simp_all [badType]

theorem mulLoop_quiet (m : Str) (e : Expr) (vs : List Val) : mulLoop e vs ≠ .err m := by
  fun_induction mulLoop e vs <;> simp_all [badType]

theorem quiet_runAction {a : Action} (h : quiet a = true) (f : Frame) (t : Str) (c : Option Int) (m : Str) :
    runAction a f t c ≠ .err m := by
  unfold runAction
  cases a <;> first
    | (cases h; done)
    | (dsimp only; intro hc; cases hc; done)
    | skip
  all_goals dsimp only [leftAssociativeAdditive, leftAssociativeMultitive, rollListAction, rRollListAction, compareAction]
  all_goals repeat' split
  all_goals first
    | exact addLoop_quiet _ _ _
    | exact mulLoop_quiet _ _ _
    | (intro hc; cases hc; done)

/-- What a task needs, at level `b`. -/
def TaskTame (p0 : Pt) (op cl : Char) (names : List Str) (K L : Nat) (lev : Nat → Nat) (b : Nat)
    (errs : List Str) (st : PState) : Task → Prop
  | .expr e => tame op cl names e = true ∧ Within p0 K L lev b errs st
  | .alts es => tameAll op cl names es = true ∧ Within p0 K L lev b errs st
  | .many e _ _ => tame op cl names e = true ∧ Within p0 K L lev b errs st
  | .seq es _ pt _ => ∃ d i, tameSeq op cl names d es = true ∧ Within p0 K L lev (b + d) errs st ∧
      K ≤ i ∧ i ≤ L ∧ pt = walk p0 i ∧ lev i = b

/-- What a result is. -/
def ResTame (p0 : Pt) (K L : Nat) (lev : Nat → Nat) (b : Nat) (errs : List Str) : PRes → Prop
  | .ret _ _ st => Within p0 K L lev b errs st
  | .panic _ st => st.errs = errs

theorem ResTame.of_st {b : Nat} {errs : List Str} {r : PRes} (h : Within p0 K L lev b errs r.st) :
    ResTame p0 K L lev b errs r := by
  cases r with
  | ret v ok st => exact h
  | panic m st => exact h.errs

/-- Inside the brackets the parser does not look past the closing one. -/
theorem run_tame {names : List Str} (F : Fence p0 op cl K L lev)
    (hg : ∀ name ∈ names, ∃ e, env.rules.lookup name = some e ∧ tame op cl names e = true)
    (n : Nat) : ∀ (t : Task) (b : Nat) (errs : List Str) (st : PState) (r : PRes),
    TaskTame p0 op cl names K L lev b errs st t → run env n t st = some r →
    ResTame p0 K L lev b errs r := by
  induction n with
  | zero => intro t b errs st r _ h; simp [run] at h
  | succ n ih =>
    intro t b errs st r ht h
    -- after a call
    have call : ∀ (t1 : Task) (b1 : Nat) (st1 : PState) (k : Val → Bool → PState → Option PRes),
        TaskTame p0 op cl names K L lev b1 errs st1 t1 →
        (∀ v ok st2, Within p0 K L lev b1 errs st2 → k v ok st2 = some r → ResTame p0 K L lev b errs r) →
        PRes.andThen (run env n t1 st1) k = some r → ResTame p0 K L lev b errs r := by
      intro t1 b1 st1 k h1 hk h
      cases hrun : run env n t1 st1 with
      | none => rw [hrun] at h; cases h
      | some r1 =>
        rw [hrun] at h
        have h3 := ih t1 b1 errs st1 r1 h1 hrun
        cases r1 with
        | panic m st2 => cases h; exact h3
        | ret v ok st2 => exact hk v ok st2 h3 h
    rw [run.eq_def] at h
    dsimp only at h
    split at h
    · -- action
      rename_i a e
      obtain ⟨ht1, ht2⟩ := ht
      have ht1' : quiet a = true ∧ tame op cl names e = true := (Bool.and_eq_true _ _).mp ht1
      refine call (.expr e) b st.tick _ ⟨ht1'.2, ht2.of rfl rfl⟩ ?_ h
      intro v ok st2 h1 h3
      try dsimp only at h3
      split at h3
      · split at h3
        · cases h3; exact h1
        · rename_i m hm
          exact absurd hm (quiet_runAction ht1'.1 _ _ _ m)
        · cases h3; exact h1.errs
      · cases h3; exact h1
    · cases ht.1
    · cases h
      rename_i val chars ranges classes ic inv
      obtain ⟨ht1, ht2⟩ := ht
      have ht1' : (classHas chars ranges classes op == inv) = true ∧ (classHas chars ranges classes cl == inv) = true :=
        (Bool.and_eq_true _ _).mp ht1
      exact .of_st (cls_tame F _ _ _ _ _ _ (beq_iff_eq.1 ht1'.1) (beq_iff_eq.1 ht1'.2) _ (ht2.of rfl rfl))
    · rename_i es
      exact ih (.alts es) b errs st.tick r ⟨ht.1, ht.2.of rfl rfl⟩ h
    · cases h; exact ht.2
    · -- alts
      rename_i e es
      obtain ⟨ht1, ht2⟩ := ht
      have ht' : tame op cl names e = true ∧ tameAll op cl names es = true := (Bool.and_eq_true _ _).mp ht1
      refine call (.expr e) b st.pushV _ ⟨ht'.1, ht2.of rfl rfl⟩ ?_ h
      intro v ok st2 h1 h3
      try dsimp only at h3
      split at h3
      · cases h3; exact h1.of rfl rfl
      · exact ih (.alts es) b errs _ r ⟨ht'.2, h1.of (st' := { st2.popV with randCount := st.randCount }) rfl rfl⟩ h3
    · -- labeled
      rename_i label e
      refine call (.expr e) b st.tick.pushV _ ⟨ht.1, ht.2.of rfl rfl⟩ ?_ h
      intro v ok st2 h1 h3
      try dsimp only at h3
      split at h3
      · cases h3; exact h1.of rfl rfl
      · cases h3; exact h1.of rfl rfl
    · cases h
      rename_i val ic
      obtain ⟨ht1, ht2⟩ := ht
      have ht1' : (val.contains op = false ∧ val.contains cl = false) ∧ val.contains runeError = false := by
        simpa only [tame, Bool.and_eq_true, Bool.not_eq_true'] using ht1
      exact .of_st (lit_tame F _ _ ht1'.1.1 ht1'.1.2 ht1'.2 _ (ht2.of rfl rfl))
    · -- not
      rename_i e
      refine call (.expr e) b { st.tick.pushV with invert := !st.invert } _ ⟨ht.1, ht.2.of rfl rfl⟩ ?_ h
      intro v ok st2 h1 h3
      try dsimp only at h3
      cases h3
      let st3 : PState := { { st2 with invert := !st2.invert }.popV with randCount := st.randCount }
      have h4 : Within p0 K L lev b errs st3 := h1.of rfl rfl
      obtain ⟨k, hK, hk, hpt, hlev⟩ := ht.2.at'
      show Within p0 K L lev b errs (st3.restore st.pt)
      rw [hpt]
      exact h4.restore F hK hk hlev
    · rename_i e
      exact ih (.many e [] true) b errs st.tick r ⟨ht.1, ht.2.of rfl rfl⟩ h
    · rename_i e
      exact ih (.many e [] false) b errs st.tick r ⟨ht.1, ht.2.of rfl rfl⟩ h
    · -- many
      rename_i e vals one
      refine call (.expr e) b st.pushV _ ⟨ht.1, ht.2.of rfl rfl⟩ ?_ h
      intro v ok st2 h1 h3
      try dsimp only at h3
      split at h3
      · exact ih (.many e (vals ++ [v]) one) b errs _ r ⟨ht.1, h1.of (st' := st2.popV) rfl rfl⟩ h3
      · split at h3
        · cases h3; exact h1.of rfl rfl
        · cases h3; exact h1.of rfl rfl
    · -- ruleRef
      rename_i name
      obtain ⟨e, he1, he2⟩ := hg name (List.contains_iff_mem.1 ht.1)
      rw [he1] at h
      refine call (.expr e) b { st.tick.pushV with rstack := name :: st.rstack } _ ⟨he2, ht.2.of rfl rfl⟩ ?_ h
      intro v ok st2 h1 h3
      try dsimp only at h3
      cases h3
      exact h1.of rfl rfl
    · rename_i es
      obtain ⟨k, hK, hk, hpt, hlev⟩ := ht.2.at'
      exact ih (.seq es [] st.pt st.randCount) b errs st.tick r
        ⟨0, k, ht.1, ht.2.of rfl rfl, hK, hk, hpt, hlev⟩ h
    · cases h
      obtain ⟨d, i, hd, hw, -⟩ := ht
      have : d = 0 := beq_iff_eq.1 hd
      subst this
      exact hw
    · -- seq
      rename_i e es vals pt rc
      obtain ⟨d, i, hd, hw, hi1, hi2, hi3, hi4⟩ := ht
      have hfail : ∀ (b' : Nat) (st2 : PState), Within p0 K L lev b' errs st2 →
          Within p0 K L lev b errs (PState.restore { st2 with randCount := rc } pt) := by
        intro b' st2 h1
        rw [hi3]
        exact (h1.of (st' := { st2 with randCount := rc }) rfl rfl).restore F hi1 hi2 hi4
      unfold tameSeq at hd
      replace hd := (Bool.or_eq_true _ _).mp hd
      rcases hd with hd | hd
      · have hd' : tame op cl names e = true ∧ tameSeq op cl names d es = true := (Bool.and_eq_true _ _).mp hd
        refine call (.expr e) (b + d) st _ ⟨hd'.1, hw⟩ ?_ h
        intro v ok st2 h1 h3
        try dsimp only at h3
        split at h3
        · exact ih (.seq es (vals ++ [v]) pt rc) b errs _ r ⟨d, i, hd'.2, h1, hi1, hi2, hi3, hi4⟩ h3
        · cases h3; exact hfail _ _ h1
      · split at hd
        · rename_i x
          have hb : 1 ≤ b := hi4 ▸ F.pos i hi1 hi2
          cases n with
          | zero => simp [run, PRes.andThen] at h
          | succ m =>
            rw [show run env (m + 1) (.expr (.lit [x] false)) st = some (parseLit env [x] false st.tick) from rfl] at h
            rcases (Bool.or_eq_true _ _).mp hd with hd | hd
            · have hd' : (x = op ∧ op ≠ cl) ∧ tameSeq op cl names (d + 1) es = true := by
                simpa only [Bool.and_eq_true, beq_iff_eq, bne_iff_ne] using hd
              obtain ⟨v, ok, st2, h1, h2⟩ := bracket_tame (env := env) F x hd'.1.2 (.inl hd'.1.1) st.tick (hw.of rfl rfl)
              rw [h1] at h
              have h' : (if ok = true then run env (m + 1) (.seq es (vals ++ [v]) pt rc) st2
                else some (.ret .nil false (PState.restore { st2 with randCount := rc } pt))) = some r := h
              cases ok with
              | true =>
                rw [if_pos rfl] at h'
                rw [if_pos rfl, if_pos hd'.1.1] at h2
                exact ih (.seq es (vals ++ [v]) pt rc) b errs _ r ⟨d + 1, i, hd'.2, h2, hi1, hi2, hi3, hi4⟩ h'
              | false =>
                rw [if_neg (by decide)] at h'
                cases h'
                exact hfail _ _ h2
            · have hd' : ((x = cl ∧ op ≠ cl) ∧ 0 < d) ∧ tameSeq op cl names (d - 1) es = true := by
                simpa only [Bool.and_eq_true, beq_iff_eq, bne_iff_ne, decide_eq_true_eq] using hd
              obtain ⟨v, ok, st2, h1, h2⟩ := bracket_tame (env := env) F x hd'.1.1.2
                (.inr ⟨hd'.1.1.1, by omega⟩) st.tick (hw.of rfl rfl)
              rw [h1] at h
              have h' : (if ok = true then run env (m + 1) (.seq es (vals ++ [v]) pt rc) st2
                else some (.ret .nil false (PState.restore { st2 with randCount := rc } pt))) = some r := h
              cases ok with
              | true =>
                rw [if_pos rfl] at h'
                rw [if_pos rfl, if_neg (by rw [hd'.1.1.1]; exact fun h => hd'.1.1.2 h.symm)] at h2
                refine ih (.seq es (vals ++ [v]) pt rc) b errs _ r ⟨d - 1, i, hd'.2, ?_, hi1, hi2, hi3, hi4⟩ h'
                rw [show b + (d - 1) = b + d - 1 by omega]
                exact h2
              | false =>
                rw [if_neg (by decide)] at h'
                cases h'
                exact hfail _ _ h2
        · cases hd
    · -- stateCode
      rename_i a
      cases h
      unfold parseStateCode
      split
      · exact ht.2.of rfl rfl
      · split
        · exact ht.2.errs
        · exact ht.2.of rfl rfl
    · -- zeroOrOne
      rename_i e
      refine call (.expr e) b st.tick.pushV _ ⟨ht.1, ht.2.of rfl rfl⟩ ?_ h
      intro v ok st2 h1 h3
      try dsimp only at h3
      cases h3
      exact h1.of rfl rfl

end GoBCDice.Pigeon
