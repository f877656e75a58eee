import Verif.Lemmas.PigeonTerm
import Verif.Lemmas.ParserComplete
import Verif.Spec.Pigeon

/-!
# The generated parser: how many expressions are parsed

`exprCnt` only grows.  On nested divisions the parser parses every parenthesis twice.
-/

namespace GoBCDice.Pigeon

variable {env : PEnv} {p0 : Pt}

theorem cnt_failAt (st : PState) (b : Bool) (pos : Pos) (w : Str) : (st.failAt b pos w).exprCnt = st.exprCnt := by
  unfold PState.failAt
  split
  · split
    · rfl
    · dsimp only; split <;> rfl
  · rfl

theorem cnt_restore (st : PState) (pt : Pt) : (st.restore pt).exprCnt = st.exprCnt := by
  unfold PState.restore
  split <;> rfl

theorem cnt_read (st : PState) : (st.read env).exprCnt = st.exprCnt := by
  unfold PState.read PState.enter
  dsimp only
  split <;> rfl

theorem cnt_litLoop (ic : Bool) : ∀ (val : Str) (st : PState), (litLoop env ic val st).2.exprCnt = st.exprCnt
  | [], _ => rfl
  | w :: val, st => by
    unfold litLoop
    dsimp only
    by_cases hcur : (if ic = true then toLowerRune st.rune else st.rune) ≠ w
    · rw [if_pos hcur]
    · rw [if_neg hcur, cnt_litLoop ic val, cnt_read]

/-- The calls a task makes itself. -/
def ownCalls : Task → Nat
  | .expr _ => 1
  | _ => 0

theorem run_cnt (n : Nat) : ∀ (t : Task) (st : PState) (r : PRes), run env n t st = some r →
    st.exprCnt + ownCalls t ≤ r.st.exprCnt := by
  induction n with
  | zero => intro t st r h; simp [run] at h
  | succ n ih =>
    intro t st r h
    have call : ∀ (t1 : Task) (st1 : PState) (k : Val → Bool → PState → Option PRes),
        st.exprCnt + ownCalls t ≤ st1.exprCnt →
        (∀ v ok st2, st.exprCnt + ownCalls t ≤ st2.exprCnt → k v ok st2 = some r →
          st.exprCnt + ownCalls t ≤ r.st.exprCnt) →
        PRes.andThen (run env n t1 st1) k = some r → st.exprCnt + ownCalls t ≤ r.st.exprCnt := by
      intro t1 st1 k h1 hk h
      cases hrun : run env n t1 st1 with
      | none => rw [hrun] at h; cases h
      | some r1 =>
        rw [hrun] at h
        have h3 := ih t1 st1 r1 hrun
        cases r1 with
        | panic m st2 =>
          cases h
          have : st1.exprCnt + ownCalls t1 ≤ st2.exprCnt := h3
          show _ ≤ st2.exprCnt
          omega
        | ret v ok st2 =>
          have : st1.exprCnt + ownCalls t1 ≤ st2.exprCnt := h3
          exact hk v ok st2 (by omega) h
    have pass : ∀ (t1 : Task) (st1 : PState), st.exprCnt + ownCalls t ≤ st1.exprCnt →
        run env n t1 st1 = some r → st.exprCnt + ownCalls t ≤ r.st.exprCnt := by
      intro t1 st1 h1 h
      have := ih t1 st1 r h
      omega
    rw [run.eq_def] at h
    dsimp only at h
    split at h
    · -- action
      refine call _ st.tick _ (Nat.le_refl _) ?_ h
      intro v ok st2 h1 h3
      try dsimp only at h3
      split at h3
      · split at h3
        · cases h3; exact h1
        · cases h3; exact h1
        · cases h3; exact h1
      · cases h3; exact h1
    · cases h
      unfold parseAny
      split
      · show _ ≤ (PState.failAt ..).exprCnt
        rw [cnt_failAt]; exact Nat.le_refl _
      · show _ ≤ (PState.failAt ..).exprCnt
        rw [cnt_failAt, cnt_read]; exact Nat.le_refl _
    · rename_i val chars ranges classes ic inv
      cases h
      unfold parseCharClass
      split
      · show _ ≤ (PState.failAt ..).exprCnt
        rw [cnt_failAt]; exact Nat.le_refl _
      · rename_i s l hr
        dsimp only
        by_cases hcl : classHas chars ranges classes (if ic = true then toLowerRune s.rn else s.rn) = inv
        · rw [if_pos hcl]
          show _ ≤ (PState.failAt ..).exprCnt
          rw [cnt_failAt]; exact Nat.le_refl _
        · rw [if_neg hcl]
          show _ ≤ (PState.failAt ..).exprCnt
          rw [cnt_failAt, cnt_read]; exact Nat.le_refl _
    · exact pass _ st.tick (Nat.le_refl _) h
    · cases h; exact Nat.le_refl _
    · -- alts
      refine call _ st.pushV _ (Nat.le_refl _) ?_ h
      intro v ok st2 h1 h3
      try dsimp only at h3
      split at h3
      · cases h3; exact h1
      · exact pass _ _ (by exact h1) h3
    · -- labeled
      refine call _ st.tick.pushV _ (Nat.le_refl _) ?_ h
      intro v ok st2 h1 h3
      try dsimp only at h3
      split at h3
      · cases h3; exact h1
      · cases h3; exact h1
    · -- lit
      rename_i val ic
      cases h
      have := cnt_litLoop (env := env) ic val st.tick
      unfold parseLit
      cases hll : litLoop env ic val st.tick with
      | mk b st1 =>
        rw [hll] at this
        cases b
        · show _ ≤ (PState.restore ..).exprCnt
          rw [cnt_restore, cnt_failAt, this]; exact Nat.le_refl _
        · show _ ≤ (PState.failAt ..).exprCnt
          rw [cnt_failAt, this]; exact Nat.le_refl _
    · -- not
      refine call _ _ _ (Nat.le_refl _) ?_ h
      intro v ok st2 h1 h3
      try dsimp only at h3
      cases h3
      show _ ≤ (PState.restore ..).exprCnt
      rw [cnt_restore]
      exact h1
    · exact pass _ st.tick (Nat.le_refl _) h
    · exact pass _ st.tick (Nat.le_refl _) h
    · -- many
      refine call _ st.pushV _ (Nat.le_refl _) ?_ h
      intro v ok st2 h1 h3
      try dsimp only at h3
      split at h3
      · exact pass _ _ (by exact h1) h3
      · split at h3
        · cases h3; exact h1
        · cases h3; exact h1
    · -- ruleRef
      split at h
      · cases h; exact Nat.le_refl _
      · refine call _ _ _ (Nat.le_refl _) ?_ h
        intro v ok st2 h1 h3
        try dsimp only at h3
        cases h3; exact h1
    · exact pass _ st.tick (Nat.le_refl _) h
    · cases h; exact Nat.le_refl _
    · -- seq
      refine call _ st _ (Nat.le_refl _) ?_ h
      intro v ok st2 h1 h3
      try dsimp only at h3
      split at h3
      · exact pass _ _ (by exact h1) h3
      · cases h3
        show _ ≤ (PState.restore ..).exprCnt
        rw [cnt_restore]
        exact h1
    · -- stateCode
      cases h
      unfold parseStateCode
      split
      · exact Nat.le_refl _
      · split
        · exact Nat.le_refl _
        · exact Nat.le_refl _
    · -- zeroOrOne
      refine call _ st.tick.pushV _ (Nat.le_refl _) ?_ h
      intro v ok st2 h1 h3
      try dsimp only at h3
      cases h3; exact h1

theorem Runs.cnt {t : Task} {st : PState} {r : PRes} (h : Runs env t st r) :
    st.exprCnt + ownCalls t ≤ r.st.exprCnt := by
  obtain ⟨n, hn⟩ := h
  exact run_cnt n t st r hn

/-! ## Lower bounds -/

/-- On text `s` the task makes at least `k` calls. -/
def Cost (env : PEnv) (p0 : Pt) (t : Task) (s : Str) (k : Nat) : Prop :=
  ∀ st c r, Ok p0 st s c → Runs env t st r → st.exprCnt + k ≤ r.st.exprCnt

/-- On text `s` the expression succeeds and leaves `s'`. -/
def Leads (env : PEnv) (p0 : Pt) (e : PExpr) (s s' : Str) : Prop :=
  ∀ st c, Ok p0 st s c → ∃ v st' c', Runs env (.expr e) st (.ret v true st') ∧ Ok p0 st' s' c'

/-- On text `s` the expression fails. -/
def Fails (env : PEnv) (p0 : Pt) (e : PExpr) (s : Str) : Prop :=
  ∀ st c, Ok p0 st s c → ∃ v st' c', Runs env (.expr e) st (.ret v false st') ∧ Ok p0 st' s c'

theorem Leads.of {α : Type} {e : PExpr} {V : α → Val → Prop} {s s' : Str}
    {o : Nat → Option (α × Str × Nat)} (h : ∀ c, Cl env p0 e V s c (o c))
    (ho : ∀ c, ∃ a c', o c = some (a, s', c')) : Leads env p0 e s s' := by
  intro st c hok
  obtain ⟨a, c', hc⟩ := ho c
  obtain ⟨v, st', h1, -, -, -, h5⟩ := h c st hok
  rw [hc] at h1 h5
  exact ⟨v, st', c', h1, h5.2⟩

theorem Fails.of {α : Type} {e : PExpr} {V : α → Val → Prop} {s : Str}
    {o : Nat → Option (α × Str × Nat)} (h : ∀ c, Cl env p0 e V s c (o c))
    (ho : ∀ c, o c = none) : Fails env p0 e s := by
  intro st c hok
  obtain ⟨v, st', h1, -, -, -, h5⟩ := h c st hok
  rw [ho c] at h1 h5
  exact ⟨v, st', c, h1, h5.2⟩

/-- A task that begins with a call. -/
theorem Runs.inv_call {t t1 : Task} {st st1 : PState} {r : PRes}
    {k : Nat → Val → Bool → PState → Option PRes}
    (h : ∀ n, run env (n + 1) t st = PRes.andThen (run env n t1 st1) (k n)) (hr : Runs env t st r) :
    ∃ r1, Runs env t1 st1 r1 ∧
      ((∃ m st2, r1 = .panic m st2 ∧ r = .panic m st2) ∨
        ∃ v ok st2 n, r1 = .ret v ok st2 ∧ k n v ok st2 = some r) := by
  obtain ⟨n, hn⟩ := hr
  cases n with
  | zero => simp [run] at hn
  | succ n =>
    rw [h n] at hn
    cases hrun : run env n t1 st1 with
    | none => rw [hrun] at hn; cases hn
    | some r1 =>
      rw [hrun] at hn
      refine ⟨r1, ⟨n, hrun⟩, ?_⟩
      cases r1 with
      | panic m st2 => cases hn; exact .inl ⟨m, st2, rfl, rfl⟩
      | ret v ok st2 => exact .inr ⟨v, ok, st2, n, rfl, hn⟩

theorem Runs.inv_step {t t1 : Task} {st st1 : PState} {r : PRes}
    (h : ∀ n, run env (n + 1) t st = run env n t1 st1) (hr : Runs env t st r) : Runs env t1 st1 r := by
  obtain ⟨n, hn⟩ := hr
  cases n with
  | zero => simp [run] at hn
  | succ n => exact ⟨n, (h n).symm.trans hn⟩

theorem Cost.one (e : PExpr) (s : Str) : Cost env p0 (.expr e) s 1 := fun _ _ _ _ hr => hr.cnt

/-- The first call of a task already costs so much. -/
theorem Cost.first {t t1 : Task} {s : Str} {k : Nat} (f : PState → PState)
    {kk : PState → Nat → Val → Bool → PState → Option PRes}
    (h : ∀ st n, run env (n + 1) t st = PRes.andThen (run env n t1 (f st)) (kk st n))
    (hf : ∀ st c, Ok p0 st s c → Ok p0 (f st) s c) (hc : ∀ st, st.exprCnt ≤ (f st).exprCnt)
    (hk : ∀ st n v ok st2 r, kk st n v ok st2 = some r → st2.exprCnt ≤ r.st.exprCnt)
    (h1 : Cost env p0 t1 s k) : Cost env p0 t s k := by
  intro st c r hok hr
  obtain ⟨r1, hr1, h2⟩ := Runs.inv_call (h st) hr
  have := h1 _ c r1 (hf st c hok) hr1
  have := hc st
  rcases h2 with ⟨m, st2, rfl, rfl⟩ | ⟨v, ok, st2, n, rfl, h3⟩
  · omega
  · have h4 := hk st n v ok st2 r h3
    have h5 : (PRes.ret v ok st2).st.exprCnt = st2.exprCnt := rfl
    omega

theorem Cost.step {t t1 : Task} {s : Str} {k : Nat} (f : PState → PState)
    (h : ∀ st n, run env (n + 1) t st = run env n t1 (f st))
    (hf : ∀ st c, Ok p0 st s c → Ok p0 (f st) s c) (hc : ∀ st, st.exprCnt ≤ (f st).exprCnt)
    (h1 : Cost env p0 t1 s k) : Cost env p0 t s k := by
  intro st c r hok hr
  have := h1 _ c r (hf st c hok) (Runs.inv_step (h st) hr)
  have := hc st
  omega

theorem Cost.rule {name : Str} {e : PExpr} {s : Str} {k : Nat} (hl : env.rules.lookup name = some e)
    (h : Cost env p0 (.expr e) s k) : Cost env p0 (.expr (.ruleRef name)) s k := by
  refine Cost.first (fun st => { st.tick.pushV with rstack := name :: st.rstack })
    (kk := fun _ _ v ok st' => some (.ret v ok { st'.popV with rstack := st'.rstack.tail }))
    (fun st n => ?_) (fun st c hok => ⟨hok.reach, hok.rest, hok.count⟩) (fun st => Nat.le_succ _) ?_ h
  · rw [run.eq_def]; dsimp only; rw [hl]
  · intro st n v ok st2 r hr
    cases hr
    exact Nat.le_refl _

theorem Cost.action {a : Action} {e : PExpr} {s : Str} {k : Nat}
    (h : Cost env p0 (.expr e) s k) : Cost env p0 (.expr (.action a e)) s k := by
  refine Cost.first (fun st => st.tick) (fun st n => rfl) (fun st c hok => hok.tick)
    (fun st => Nat.le_succ _) ?_ h
  intro st n v ok st2 r hr
  try dsimp only at hr
  split at hr
  · split at hr
    · cases hr; exact Nat.le_refl _
    · cases hr; exact Nat.le_refl _
    · cases hr; exact Nat.le_refl _
  · cases hr; exact Nat.le_refl _

theorem Cost.labeled {l : Str} {e : PExpr} {s : Str} {k : Nat}
    (h : Cost env p0 (.expr e) s k) : Cost env p0 (.expr (.labeled l e)) s k := by
  refine Cost.first (fun st => st.tick.pushV) (fun st n => rfl)
    (fun st c hok => ⟨hok.reach, hok.rest, hok.count⟩) (fun st => Nat.le_succ _) ?_ h
  intro st n v ok st2 r hr
  try dsimp only at hr
  split at hr
  · cases hr; exact Nat.le_refl _
  · cases hr; exact Nat.le_refl _

theorem Cost.choice {es : List PExpr} {s : Str} {k : Nat}
    (h : Cost env p0 (.alts es) s k) : Cost env p0 (.expr (.choice es)) s k :=
  Cost.step (fun st => st.tick) (fun _ _ => rfl) (fun _ _ hok => hok.tick) (fun _ => Nat.le_succ _) h

theorem Cost.star {e : PExpr} {s : Str} {k : Nat} (h : Cost env p0 (.expr e) s k) :
    Cost env p0 (.expr (.zeroOrMore e)) s k := by
  refine Cost.step (fun st => st.tick) (fun _ _ => rfl) (fun _ _ hok => hok.tick)
    (fun _ => Nat.le_succ _) ?_
  refine Cost.first (fun st => st.pushV) (fun st n => rfl)
    (fun st c hok => ⟨hok.reach, hok.rest, hok.count⟩) (fun st => Nat.le_refl _) ?_ h
  intro st n v ok st2 r hr
  try dsimp only at hr
  split at hr
  · have : st2.popV.exprCnt + 0 ≤ r.st.exprCnt := run_cnt n _ _ _ hr
    have h2 : st2.popV.exprCnt = st2.exprCnt := rfl
    omega
  · split at hr
    · cases hr; exact Nat.le_refl _
    · cases hr; exact Nat.le_refl _

/-- An alternative that fails, then the others. -/
theorem Cost.alt {e : PExpr} {es : List PExpr} {s : Str} {k1 k2 : Nat} (hf : Fails env p0 e s)
    (h1 : Cost env p0 (.expr e) s k1) (h2 : Cost env p0 (.alts es) s k2) :
    Cost env p0 (.alts (e :: es)) s (k1 + k2) := by
  intro st c r hok hr
  have hok' : Ok p0 st.pushV s c := ⟨hok.reach, hok.rest, hok.count⟩
  obtain ⟨r1, hr1, h3⟩ := Runs.inv_call (t1 := .expr e) (st1 := st.pushV) (fun n => rfl) hr
  obtain ⟨v, st', c', g1, g2⟩ := hf _ c hok'
  have := h1 _ c r1 hok' hr1
  have he := Runs.unique hr1 g1
  subst he
  rcases h3 with ⟨m, st2, h, -⟩ | ⟨v', ok, st2, n, h, h4⟩
  · cases h
  · cases h
    have h5 := h2 { st'.popV with randCount := st.randCount } c r
      ⟨g2.reach, g2.rest, hok.count⟩ ⟨n, h4⟩
    have h6 : (PRes.ret v false st').st.exprCnt = st'.exprCnt := rfl
    have h7 : ({ st'.popV with randCount := st.randCount } : PState).exprCnt = st'.exprCnt := rfl
    have h8 : st.pushV.exprCnt = st.exprCnt := rfl
    omega

/-- The first alternative costs so much. -/
theorem Cost.alt_first {e : PExpr} {es : List PExpr} {s : Str} {k : Nat}
    (h : Cost env p0 (.expr e) s k) : Cost env p0 (.alts (e :: es)) s k := by
  refine Cost.first (fun st => st.pushV) (fun st n => rfl)
    (fun st c hok => ⟨hok.reach, hok.rest, hok.count⟩) (fun st => Nat.le_refl _) ?_ h
  intro st n v ok st2 r hr
  try dsimp only at hr
  split at hr
  · cases hr; exact Nat.le_refl _
  · have : ({ st2.popV with randCount := st.randCount } : PState).exprCnt + 0 ≤ r.st.exprCnt :=
      run_cnt n _ _ _ hr
    have h2 : ({ st2.popV with randCount := st.randCount } : PState).exprCnt = st2.exprCnt := rfl
    omega

/-- `Cost` of the rest of a sequence. -/
def CostSeq (env : PEnv) (p0 : Pt) (es : List PExpr) (s : Str) (k : Nat) : Prop :=
  ∀ vals pt rc, Cost env p0 (.seq es vals pt rc) s k

theorem Cost.seq {es : List PExpr} {s : Str} {k : Nat} (h : CostSeq env p0 es s k) :
    Cost env p0 (.expr (.seq es)) s k := by
  intro st c r hok hr
  have h1 := h [] st.pt st.randCount st.tick c r hok.tick
    (Runs.inv_step (t1 := .seq es [] st.pt st.randCount) (st1 := st.tick) (fun n => rfl) hr)
  have h2 : st.tick.exprCnt = st.exprCnt + 1 := rfl
  omega

theorem CostSeq.head {e : PExpr} {es : List PExpr} {s : Str} {k : Nat}
    (h : Cost env p0 (.expr e) s k) : CostSeq env p0 (e :: es) s k := by
  intro vals pt rc
  refine Cost.first (fun st => st) (fun st n => rfl) (fun st c hok => hok) (fun st => Nat.le_refl _) ?_ h
  intro st n v ok st2 r hr
  try dsimp only at hr
  split at hr
  · have : st2.exprCnt + 0 ≤ r.st.exprCnt := run_cnt n _ _ _ hr
    omega
  · cases hr
    show _ ≤ (PState.restore ..).exprCnt
    rw [cnt_restore]
    exact Nat.le_refl _

theorem CostSeq.cons {e : PExpr} {es : List PExpr} {s s' : Str} {k1 k2 : Nat} (hl : Leads env p0 e s s')
    (h1 : Cost env p0 (.expr e) s k1) (h2 : CostSeq env p0 es s' k2) :
    CostSeq env p0 (e :: es) s (k1 + k2) := by
  intro vals pt rc st c r hok hr
  obtain ⟨r1, hr1, h3⟩ := Runs.inv_call (t1 := .expr e) (st1 := st) (fun n => rfl) hr
  obtain ⟨v, st', c', g1, g2⟩ := hl _ c hok
  have := h1 _ c r1 hok hr1
  have he := Runs.unique hr1 g1
  subst he
  rcases h3 with ⟨m, st2, h, -⟩ | ⟨v', ok, st2, n, h, h4⟩
  · cases h
  · cases h
    have h5 := h2 (vals ++ [v]) pt rc st' c' r g2 ⟨n, h4⟩
    have h6 : (PRes.ret v true st').st.exprCnt = st'.exprCnt := rfl
    omega

theorem Leads.labeled {l : Str} {e : PExpr} {s s' : Str} (h : Leads env p0 e s s') :
    Leads env p0 (.labeled l e) s s' := by
  intro st c hok
  obtain ⟨v, st', c', h1, h2⟩ := h st.tick.pushV c ⟨hok.reach, hok.rest, hok.count⟩
  by_cases hl : l = []
  · refine ⟨v, st'.popV, c', Runs.call (fun n => rfl) h1 (fun n => ?_), ⟨h2.reach, h2.rest, h2.count⟩⟩
    dsimp only
    rw [if_neg (by simp [hl])]
  · refine ⟨v, { st'.popV with vstack := ((l, v) :: st'.popV.vstack.headD []) :: st'.popV.vstack.tail }, c',
      Runs.call (fun n => rfl) h1 (fun n => ?_), ⟨h2.reach, h2.rest, h2.count⟩⟩
    dsimp only
    rw [if_pos (by simp [hl])]

/-! ## Nested divisions -/

theorem nested_der : ∀ n, ∃ e, Der (.add .int) (nested n) e ∧ e.rands = 0
  | 0 => ⟨_, .addMul (.mulPrim (.primNum (.number (by decide) (by decide)))), rfl⟩
  | n + 1 => by
    obtain ⟨e, he, h0⟩ := nested_der n
    have h1 : Der (.mul .int) chars!"1" (.int (atoiSat chars!"1")) :=
      .mulPrim (.primNum (.number (by decide) (by decide)))
    have heq : nested (n + 1) = chars!"1" ++ chars!"/" ++ (chars!"(" ++ nested n ++ chars!")") := by
      simp [nested]
    refine ⟨.div .down (.int (atoiSat chars!"1")) e, ?_, ?_⟩
    · rw [heq]
      exact Der.addMul (.mulDiv h1 (.paren he))
    · simp [Expr.rands, h0]

section
variable (hr : env.rules = goGrammar) (hw : Wide p0.rest)
include hr hw

/-- What `IntExprPrimary` leaves. -/
theorem leads_primary {s rest : Str} {e : Expr} (h : Der (.prim .int) s e) (hs : Stops fPrim rest) :
    Leads env p0 (.ruleRef chars!"IntExprPrimary") (s ++ rest) rest := by
  refine Leads.of (fun c => (imp_intPrimary hr hw ((s ++ rest).length + 1)).1 (s ++ rest) c (Nat.lt_succ_self _))
    (fun c => ⟨e, c + e.rands, ?_⟩)
  exact h.accepts ((s ++ rest).length + 1) rest c (by simp; omega) hs

theorem leads_intExpr {s rest : Str} {e : Expr} (h : Der (.add .int) s e) (hs : Stops fSum rest) :
    Leads env p0 (.ruleRef chars!"IntExpr") (s ++ rest) rest := by
  refine Leads.of (fun c => (imp_intPrimary hr hw ((s ++ rest).length + 1)).2.2.2 (s ++ rest) c (Nat.lt_succ_self _))
    (fun c => ⟨e, c + e.rands, ?_⟩)
  exact h.accepts.sum ((s ++ rest).length + 1) rest c (by simp; omega) hs

omit hr in
theorem leads_lit (val rest : Str) (hv : runeError ∉ val) : Leads env p0 (.lit val false) (val ++ rest) rest :=
  Leads.of (fun c => Cl.lit hw val hv (val ++ rest) c) (fun c => ⟨(), c, lit_append _ _ _⟩)

omit hr in
/-- A sequence fails if its last item does. -/
theorem fails_seq3 {a b d : PExpr} {s s1 s2 : Str} (ha : Leads env p0 a s s1) (hb : Leads env p0 b s1 s2)
    (hd : Fails env p0 d s2) : Fails env p0 (.seq [a, b, d]) s := by
  intro st c hok
  obtain ⟨v1, st1, c1, r1, o1⟩ := ha st.tick c hok.tick
  obtain ⟨v2, st2, c2, r2, o2⟩ := hb st1 c1 o1
  obtain ⟨v3, st3, c3, r3, o3⟩ := hd st2 c2 o2
  have hre := restore_fields hw { st3 with randCount := st.randCount } st.pt o3.reach hok.reach
  refine ⟨.nil, { st3 with randCount := st.randCount, pt := st.pt }, c, ?_, ⟨hok.reach, hok.rest, hok.count⟩⟩
  exact Runs.step (fun n => rfl) (Runs.callThen (fun n => rfl) r1 (fun n => rfl)
    (Runs.callThen (fun n => rfl) r2 (fun n => rfl) (Runs.call (fun n => rfl) r3
      (fun n => congrArg (fun x => some (PRes.ret .nil false x)) hre))))

/-- The parentheses around an expression are parsed at the cost of the expression. -/
theorem cost_paren {s : Str} {k : Nat}
    (h : Cost env p0 (.expr (.ruleRef chars!"IntExpr")) s k) :
    Cost env p0 (.expr (.ruleRef chars!"IntExprPrimary")) ('(' :: s) k := by
  refine Cost.rule (e := ruleIntExprPrimary) (by rw [hr]; rfl) (Cost.choice ?_)
  have hL : ('(' :: s).length < s.length + 1 + 1 := Nat.lt_succ_self _
  have f1 : Fails env p0 (.ruleRef chars!"Integer") ('(' :: s) :=
    Fails.of (fun c => imp_integer hr _ _ c hL) (fun c => integer_none _ c (Stops.cons (by decide)))
  have f2 : Fails env p0 (.ruleRef chars!"IntExprUnaryPlus") ('(' :: s) :=
    Fails.of (fun c => imp_unaryPlus hw (by rw [hr]; rfl) (act_same (by simp))
        (imp_intPrimary hr hw (s.length + 1)).1 _ c hL)
      (fun c => P.bind_none (chr_none _ _ _ (by simp)))
  have f3 : Fails env p0 (.ruleRef chars!"IntExprUnaryMinus") ('(' :: s) :=
    Fails.of (fun c => imp_unaryMinus hw (by rw [hr]; rfl) (act_neg (by simp))
        (imp_intPrimary hr hw (s.length + 1)).1 _ c hL)
      (fun c => P.bind_none (chr_none _ _ _ (by simp)))
  have hp : Cost env p0 (.expr (.ruleRef chars!"ParenthesizedIntExpr")) ('(' :: s) k := by
    refine Cost.rule (e := ruleParenthesizedIntExpr) (by rw [hr]; rfl) (Cost.action (Cost.seq ?_))
    have := CostSeq.cons (es := [.labeled chars!"e" (.ruleRef chars!"IntExpr"), .lit chars!")" false])
      (leads_lit hw chars!"(" s (by decide)) (Cost.one _ _) (CostSeq.head (Cost.labeled h))
    exact fun vals pt rc st c r hok hrun => by
      have := this vals pt rc st c r hok hrun
      omega
  have := Cost.alt f1 (Cost.one _ _) (Cost.alt f2 (Cost.one _ _) (Cost.alt f3 (Cost.one _ _)
    (Cost.alt_first (es := []) hp)))
  intro st c r hok hrun
  have := this st c r hok hrun
  omega

/-- Every level of nesting doubles the work. -/
theorem cost_nested : ∀ (n : Nat) (rest : Str), Stops fSum rest →
    Cost env p0 (.expr (.ruleRef chars!"IntExpr")) (nested n ++ rest) (2 ^ n)
  | 0, rest, _ => Cost.one _ _
  | n + 1, rest, hrest => by
    obtain ⟨e, he, -⟩ := nested_der n
    have ih := cost_nested n (')' :: rest) (Stops.cons (by decide))
    have h1 : Der (.prim .int) chars!"1" (.int (atoiSat chars!"1")) :=
      .primNum (.number (by decide) (by decide))
    have hs : nested (n + 1) ++ rest = chars!"1" ++ ('/' :: '(' :: (nested n ++ ')' :: rest)) := by
      simp [nested]
    rw [hs]
    -- down to the factors
    refine Cost.rule (e := ruleIntExpr) (by rw [hr]; rfl) ?_
    refine Cost.rule (e := ruleIntExprAdditive) (by rw [hr]; rfl) (Cost.action (Cost.seq ?_))
    refine CostSeq.head (Cost.labeled ?_)
    refine Cost.rule (e := ruleIntExprMultitive) (by rw [hr]; rfl) (Cost.action (Cost.seq ?_))
    have hprim : Cost env p0 (.expr (.ruleRef chars!"IntExprPrimary")) ('(' :: (nested n ++ ')' :: rest)) (2 ^ n) :=
      cost_paren hr hw ih
    have hlead : Leads env p0 (.ruleRef chars!"IntExprPrimary") ('(' :: (nested n ++ ')' :: rest)) rest := by
      have := leads_primary hr hw (rest := rest) (Der.paren he) hrest.fSum_term.fTerm_factor.fFactor_prim
      simpa using this
    have hround : Fails env p0 (.charClass chars!"[ur]i" ['u', 'r'] [] [] true false) rest :=
      Fails.of (fun c => cl_roundSuffix rest c) (fun c => roundSuffix_none rest c hrest.fSum_term.fTerm_factor)
    have hdiv : Leads env p0 (.lit chars!"/" false) ('/' :: '(' :: (nested n ++ ')' :: rest))
        ('(' :: (nested n ++ ')' :: rest)) := leads_lit hw chars!"/" _ (by decide)
    have hop : Leads env p0 (.choice [.lit chars!"*" false, .lit chars!"/" false])
        ('/' :: '(' :: (nested n ++ ')' :: rest)) ('(' :: (nested n ++ ')' :: rest)) :=
      Leads.of (fun c => cl_mulOpChar hw _ c) (fun c => ⟨_, _, rfl⟩)
    -- first with a rounding letter, in vain
    have hA := CostSeq.cons (es := [.ruleRef chars!"IntExprPrimary",
      .charClass chars!"[ur]i" ['u', 'r'] [] [] true false]) hdiv (Cost.one _ _) (CostSeq.head hprim)
    -- then without
    have hB := CostSeq.cons (es := [.ruleRef chars!"IntExprPrimary"]) hop (Cost.one _ _) (CostSeq.head hprim)
    have halt := Cost.alt (fails_seq3 hw hdiv hlead hround) (Cost.seq hA) (Cost.alt_first (es := []) (Cost.seq hB))
    have hfirst := leads_primary hr hw (rest := '/' :: '(' :: (nested n ++ ')' :: rest)) h1
      (Stops.cons (by decide))
    have := CostSeq.cons (es := [.labeled chars!"rest" (.zeroOrMore _)]) (Leads.labeled (l := chars!"first") hfirst)
      (Cost.one _ _) (CostSeq.head (Cost.labeled (Cost.star (Cost.choice halt))))
    intro vals pt rc st c r hok hrun
    have := this vals pt rc st c r hok hrun
    rw [Nat.pow_succ]
    omega
end

theorem initState_cnt (l : List Sym) : (initState env l).exprCnt = 0 := by
  unfold initState PState.enter
  dsimp only
  split <;> rfl

/-- The whole command. -/
theorem cost_command (hr : env.rules = goGrammar) (n : Nat) (r : PRes)
    (h : Runs env (.expr (.ruleRef chars!"Command"))
      (initState env (syms (chars!"c(" ++ nested n ++ chars!")"))) r) : 2 ^ n + 1 ≤ r.st.exprCnt := by
  have hcnt := initState_cnt (env := env) (syms (chars!"c(" ++ nested n ++ chars!")"))
  have hrest := (initState_fields (env := env) (syms (chars!"c(" ++ nested n ++ chars!")"))).1
  generalize initState env (syms (chars!"c(" ++ nested n ++ chars!")")) = st at h hcnt hrest
  have hw : Wide st.pt.rest := by rw [hrest]; exact wide_syms _
  let p0 := st.pt
  have hs : runes st.pt.rest = 'c' :: '(' :: (nested n ++ chars!")") := by
    rw [hrest, runes_syms]; simp
  obtain ⟨e, he, -⟩ := nested_der n
  -- into the rule
  let st0 : PState := { st.tick.pushV with rstack := chars!"Command" :: st.rstack }
  let ch : PExpr := .choice [.ruleRef chars!"Choice", .ruleRef chars!"Calc",
      .ruleRef chars!"CommandWithExpression"]
  have hin : ∀ {t t1 : Task} {st st1 : PState} {r : PRes} {k : Nat → Val → Bool → PState → Option PRes},
      (∀ n, run env (n + 1) t st = PRes.andThen (run env n t1 st1) (k n)) →
      (∀ n v ok st2 r, k n v ok st2 = some r → st2.exprCnt ≤ r.st.exprCnt) → Runs env t st r →
      ∃ r1, Runs env t1 st1 r1 ∧ r1.st.exprCnt ≤ r.st.exprCnt := by
    intro t t1 st st1 r k h hk hrun
    obtain ⟨r1, h1, h2⟩ := Runs.inv_call h hrun
    refine ⟨r1, h1, ?_⟩
    rcases h2 with ⟨m, st2, rfl, rfl⟩ | ⟨v, ok, st2, n, rfl, h3⟩
    · exact Nat.le_refl _
    · exact hk n v ok st2 r h3
  obtain ⟨r1, h1, l1⟩ := hin (t1 := .expr ruleCommand) (st1 := st0)
    (k := fun _ v ok st' => some (.ret v ok { st'.popV with rstack := st'.rstack.tail }))
    (fun n => by rw [run.eq_def]; dsimp only; rw [hr]; rfl)
    (fun n v ok st2 r hk => by cases hk; exact Nat.le_refl _) h
  obtain ⟨r2, h2, l2⟩ := hin (t1 := .expr (.seq [.ruleRef chars!"ResetRandCount", .labeled chars!"n" ch]))
    (st1 := st0.tick) (fun n => rfl) (fun n v ok st2 r hk => by
      try dsimp only at hk
      split at hk
      · split at hk
        · cases hk; exact Nat.le_refl _
        · cases hk; exact Nat.le_refl _
        · cases hk; exact Nat.le_refl _
      · cases hk; exact Nat.le_refl _) h1
  have h3 := Runs.inv_step (t1 := .seq [.ruleRef chars!"ResetRandCount", .labeled chars!"n" ch] [] st0.pt
    st0.randCount) (st1 := st0.tick.tick) (fun n => rfl) h2
  -- the counter is set
  let st1 : PState := { st0.tick.tick.tick.tick with randCount := some 0 }
  have hreset : Runs env (.expr (.ruleRef chars!"ResetRandCount")) st0.tick.tick (.ret .nil true st1) := by
    let rname := chars!"ResetRandCount"
    have h0 : Runs env (.expr (.stateCode .onResetRandCount1))
        { st0.tick.tick.tick.pushV with rstack := rname :: st0.rstack }
        (.ret .nil true { PState.tick { st0.tick.tick.tick.pushV with rstack := rname :: st0.rstack } with
          randCount := some 0 }) :=
      Runs.now (fun n => rfl)
    refine Runs.call (k := fun _ v ok st' =>
      some (.ret v ok { st'.popV with rstack := st'.rstack.tail })) (fun n => ?_) h0 (fun n => rfl)
    rw [run.eq_def]; dsimp only; rw [hr]
    rfl
  obtain ⟨r3, h4, h5⟩ := Runs.inv_call (t1 := .expr (.ruleRef chars!"ResetRandCount"))
    (st1 := st0.tick.tick) (fun n => rfl) h3
  have heq := Runs.unique h4 hreset
  subst heq
  have h6 : Runs env (.seq [.labeled chars!"n" ch] ([] ++ [Val.nil]) st0.pt st0.randCount) st1 r2 := by
    rcases h5 with ⟨m, st2, h, -⟩ | ⟨v', ok, st2, n, h, h7⟩
    · cases h
    · cases h
      exact ⟨n, h7⟩
  have hok : Ok p0 st1 ('c' :: '(' :: (nested n ++ chars!")")) 0 := ⟨⟨0, Nat.zero_le _, rfl⟩, hs, rfl⟩
  -- the alternatives
  have hint := cost_nested (env := env) (p0 := p0) hr hw n chars!")" (Stops.cons (by decide))
  have hc : Leads env p0 (.lit chars!"c" true) ('c' :: '(' :: (nested n ++ chars!")"))
      ('(' :: (nested n ++ chars!")")) :=
    Leads.of (fun c => Cl.litI hw chars!"c" (by decide) _ c) (fun c => ⟨(), c, rfl⟩)
  have hp : Leads env p0 (.lit chars!"(" false) ('(' :: (nested n ++ chars!")")) (nested n ++ chars!")") :=
    leads_lit hw chars!"(" _ (by decide)
  have hcalc : Cost env p0 (.expr (.ruleRef chars!"Calc")) ('c' :: '(' :: (nested n ++ chars!")")) (2 ^ n) := by
    refine Cost.rule (e := ruleCalc) (by rw [hr]; rfl) (Cost.action (Cost.seq ?_))
    have := CostSeq.cons (es := [.lit chars!"(" false, .labeled chars!"expr" (.ruleRef chars!"IntExpr"),
      .lit chars!")" false]) hc (Cost.one _ _) (CostSeq.cons hp (Cost.one _ _) (CostSeq.head (Cost.labeled hint)))
    intro vals pt rc st c r hok hrun
    have := this vals pt rc st c r hok hrun
    omega
  have hch : Fails env p0 (.ruleRef chars!"Choice") ('c' :: '(' :: (nested n ++ chars!")")) :=
    Fails.of (fun c => imp_choice hr hw _ _ c (Nat.lt_succ_self _)) (fun c => P.bind_none rfl)
  have hall := CostSeq.head (es := []) (Cost.labeled (l := chars!"n") (Cost.choice (Cost.alt hch (Cost.one _ _)
    (Cost.alt_first (es := [.ruleRef chars!"CommandWithExpression"]) hcalc))))
  have := hall _ _ _ st1 0 r2 hok h6
  have hc1 : st1.exprCnt = st.exprCnt + 5 := rfl
  omega

end GoBCDice.Pigeon
