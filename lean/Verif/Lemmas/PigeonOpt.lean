import Verif.PigeonOpt
import Verif.Lemmas.PigeonCost

/-!
# The generated parser with options against the one without
-/

namespace GoBCDice.Pigeon

variable {env : PEnv}

/-! ## The count does not matter -/

/-- The same state with a higher count. -/
abbrev up (k : Nat) (st : PState) : PState := { st with exprCnt := st.exprCnt + k }

/-- The same for results. -/
def PRes.up (k : Nat) : PRes → PRes
  | .ret v ok st => .ret v ok (Pigeon.up k st)
  | .panic m st => .panic m (Pigeon.up k st)

theorem failAt_up (k : Nat) (c : PState) (b : Bool) (p : Pos) (w : Str) :
    (up k c).failAt b p w = up k (c.failAt b p w) := by
  unfold PState.failAt
  simp only
  repeat' split
  all_goals rfl

theorem read_up (k : Nat) (c : PState) : (up k c).read env = up k (c.read env) := by
  unfold PState.read PState.enter
  simp only
  split <;> split <;> rfl

theorem restore_up (k : Nat) (c : PState) (p : Pt) : (up k c).restore p = up k (c.restore p) := by
  unfold PState.restore
  simp only
  split <;> rfl

theorem parseAny_up (k : Nat) (c : PState) : parseAny env (up k c) = (parseAny env c).up k := by
  unfold parseAny
  simp only [read_up, failAt_up]
  split <;> rfl

theorem parseCharClass_up (k : Nat) (val : Str) (chars : List Char) (ranges : List (Char × Char))
    (classes : List Str) (ic inv : Bool) (c : PState) :
    parseCharClass env val chars ranges classes ic inv (up k c) =
      (parseCharClass env val chars ranges classes ic inv c).up k := by
  unfold parseCharClass
  simp only [read_up, failAt_up]
  cases c.pt.rest with
  | nil => rfl
  | cons s rest =>
    simp only
    split <;> split <;> rfl

theorem litLoop_up (k : Nat) (ic : Bool) : ∀ (val : Str) (c : PState),
    litLoop env ic val (up k c) = ((litLoop env ic val c).1, up k (litLoop env ic val c).2) := by
  intro val
  induction val with
  | nil => intro c; rfl
  | cons w val ih =>
    intro c
    unfold litLoop
    simp only [read_up, ih]
    rw [show (up k c).rune = c.rune from rfl]
    split <;> split <;> rfl

theorem parseLit_up (k : Nat) (val : Str) (ic : Bool) (c : PState) :
    parseLit env val ic (up k c) = (parseLit env val ic c).up k := by
  unfold parseLit
  rw [litLoop_up]
  obtain ⟨b, st⟩ := litLoop env ic val c
  cases b
  · simp only [failAt_up, restore_up]; rfl
  · simp only [failAt_up]; rfl

theorem parseStateCode_up (k : Nat) (a : StateAction) (c : PState) :
    parseStateCode a (up k c) = (parseStateCode a c).up k := by
  cases a
  · rfl
  · unfold parseStateCode
    simp only
    cases c.randCount <;> rfl

theorem tick_up (k : Nat) (c : PState) : (up k c).tick = up k c.tick := by
  unfold PState.tick up
  simp only [PState.mk.injEq, true_and]
  omega

theorem andThen_up {k : Nat} {x x' : Option PRes} {f g : Val → Bool → PState → Option PRes}
    (hx : x' = x.map (PRes.up k)) (hf : ∀ v ok st, g v ok (up k st) = (f v ok st).map (PRes.up k)) :
    PRes.andThen x' g = (PRes.andThen x f).map (PRes.up k) := by
  subst hx
  cases x with
  | none => rfl
  | some r =>
    cases r with
    | panic m st => rfl
    | ret v ok st => exact hf v ok st

/-- The interpreter does not look at the count. -/
theorem run_up (k : Nat) (n : Nat) : ∀ (t : Task) (st : PState),
    run env n t (up k st) = (run env n t st).map (PRes.up k) := by
  induction n with
  | zero => intro t st; rfl
  | succ n ih =>
    intro t st
    have iht : ∀ t st, run env n t (up k st).tick = (run env n t st.tick).map (PRes.up k) := by
      intro t st
      rw [tick_up]; exact ih t st.tick
    cases t with
    | expr e =>
      cases e with
      | action a e =>
        refine andThen_up (iht _ _) (fun v ok st' => ?_)
        dsimp only
        cases ok
        · rfl
        · simp only [if_true]
          generalize runAction a _ _ _ = x
          cases x <;> rfl
      | any =>
        show some (parseAny env (up k st).tick) = some ((parseAny env st.tick).up k)
        rw [tick_up, parseAny_up]
      | charClass val chars ranges classes ic inv =>
        show some (parseCharClass env val chars ranges classes ic inv (up k st).tick) =
          some ((parseCharClass env val chars ranges classes ic inv st.tick).up k)
        rw [tick_up, parseCharClass_up]
      | choice es => exact iht _ _
      | labeled l e =>
        refine andThen_up (x := run env n (.expr e) st.tick.pushV) ?_ (fun v ok st' => ?_)
        · rw [tick_up]; exact ih _ st.tick.pushV
        · dsimp only; split <;> rfl
      | lit val ic =>
        show some (parseLit env val ic (up k st).tick) = some ((parseLit env val ic st.tick).up k)
        rw [tick_up, parseLit_up]
      | not e =>
        refine andThen_up (x := run env n (.expr e) { st.tick.pushV with invert := !st.invert }) ?_
          (fun v ok st' => ?_)
        · rw [tick_up]; exact ih _ { st.tick.pushV with invert := !st.invert }
        · exact congrArg (fun x => some (PRes.ret .nil (!ok) x))
            (restore_up k ({ { st' with invert := !st'.invert }.popV with randCount := st.randCount }) st.pt)
      | oneOrMore e => exact iht _ _
      | zeroOrMore e => exact iht _ _
      | ruleRef name =>
        unfold run
        dsimp only
        cases hl : env.rules.lookup name with
        | none =>
          dsimp only
          rw [tick_up]; rfl
        | some e =>
          dsimp only
          refine andThen_up (x := run env n (.expr e) { st.tick.pushV with rstack := name :: st.rstack }) ?_
            (fun v ok st' => rfl)
          rw [tick_up]; exact ih _ { st.tick.pushV with rstack := name :: st.rstack }
      | seq es => exact iht _ _
      | stateCode a =>
        show some (parseStateCode a (up k st).tick) = some ((parseStateCode a st.tick).up k)
        rw [tick_up, parseStateCode_up]
      | zeroOrOne e =>
        refine andThen_up (x := run env n (.expr e) st.tick.pushV) ?_ (fun v ok st' => rfl)
        rw [tick_up]; exact ih _ st.tick.pushV
    | alts es =>
      cases es with
      | nil => rfl
      | cons e es =>
        refine andThen_up (ih _ st.pushV) (fun v ok st' => ?_)
        dsimp only
        cases ok
        · exact ih _ { st'.popV with randCount := st.randCount }
        · rfl
    | seq es vals pt rc =>
      cases es with
      | nil => rfl
      | cons e es =>
        refine andThen_up (ih _ st) (fun v ok st' => ?_)
        dsimp only
        cases ok
        · exact congrArg (fun x => some (PRes.ret .nil false x)) (restore_up k { st' with randCount := rc } pt)
        · exact ih _ st'
    | many e vals b =>
      refine andThen_up (ih _ st.pushV) (fun v ok st' => ?_)
      dsimp only
      cases ok
      · simp only [Bool.false_eq_true, if_false]
        split <;> rfl
      · exact ih _ st'.popV

/-! ## Fuel -/

theorem oandThen_mono {r : Option ORes} {k k' : Val → Bool → OState → Option ORes} {x : ORes}
    (hk : ∀ v ok st, k v ok st = some x → k' v ok st = some x)
    {r' : Option ORes} (hr : ∀ y, r = some y → r' = some y)
    (h : ORes.andThen r k = some x) : ORes.andThen r' k' = some x := by
  unfold ORes.andThen at h ⊢
  cases r with
  | none => simp at h
  | some y =>
    rw [hr y rfl]
    cases y with
    | ret v ok st => exact hk _ _ _ h
    | panic m st => exact h

theorem parseRuleO_mono {s : Settings} {f g : OTask → OState → Option ORes}
    (hfg : ∀ t st r, f t st = some r → g t st = some r) {name : Str} {e : PExpr} {st : OState} {r : ORes}
    (h : parseRuleO s f name e st = some r) : parseRuleO s g name e st = some r := by
  unfold parseRuleO at h ⊢
  split at h
  · exact h
  · exact oandThen_mono (fun _ _ _ hk => hk) (fun y hy => hfg _ _ _ hy) h

theorem parseBodyO_mono {s : Settings} {f g : OTask → OState → Option ORes}
    (hfg : ∀ t st r, f t st = some r → g t st = some r) {rule : Str} {path : List Nat} {e : PExpr}
    {st : OState} {r : ORes}
    (h : parseBodyO env s f rule path e st = some r) : parseBodyO env s g rule path e st = some r := by
  unfold parseBodyO at h ⊢
  dsimp only at h ⊢
  split at h <;> first
    | exact h
    | exact hfg _ _ _ h
    | exact oandThen_mono (fun _ _ _ hk => hk) (fun y hy => hfg _ _ _ hy) h
    | skip
  split at h
  · exact h
  · exact parseRuleO_mono hfg h

theorem runO_succ {s : Settings} (n : Nat) : ∀ (t : OTask) (st : OState) (r : ORes),
    runO env s n t st = some r → runO env s (n + 1) t st = some r := by
  induction n with
  | zero => intro t st r h; simp [runO] at h
  | succ n ih =>
    intro t st r h
    rw [runO.eq_def] at h ⊢
    dsimp only at h ⊢
    have hcomb : ∀ {c : Prop} [Decidable c] {a a' b b' : Option ORes}, (a = some r → a' = some r) →
        (b = some r → b' = some r) → (if c then a else b) = some r →
        (if c then a' else b') = some r := by
      intro c _ a a' b b' h1 h2 h3
      by_cases hc : c
      · rw [if_pos hc] at h3 ⊢; exact h1 h3
      · rw [if_neg hc] at h3 ⊢; exact h2 h3
    cases t with
    | expr rule path e =>
      dsimp only at h ⊢
      split at h
      · exact h
      · exact hcomb (fun h => h) (fun h => oandThen_mono (fun _ _ _ hk => hk)
          (fun y hy => parseBodyO_mono ih hy) h) h
    | alts rule path i es =>
      cases es with
      | nil => exact h
      | cons e es =>
        exact oandThen_mono (fun _ _ _ hk => hcomb (fun x => x) (ih _ _ _) hk) (fun y hy => ih _ _ _ hy) h
    | seq rule path i es vals pt rc =>
      cases es with
      | nil => exact h
      | cons e es =>
        exact oandThen_mono (fun _ _ _ hk => hcomb (ih _ _ _) (fun x => x) hk) (fun y hy => ih _ _ _ hy) h
    | many rule path e vals b =>
      exact oandThen_mono (fun _ _ _ hk => hcomb (ih _ _ _) (fun x => x) hk) (fun y hy => ih _ _ _ hy) h

theorem runO_mono {s : Settings} {n m : Nat} (hnm : n ≤ m) {t : OTask} {st : OState} {r : ORes}
    (h : runO env s n t st = some r) : runO env s m t st = some r := by
  induction hnm with
  | refl => exact h
  | step _ ih => exact runO_succ _ _ _ _ ih

theorem parseFuelO_mono {s : Settings} {n m : Nat} (hnm : n ≤ m) {filename : Str}
    {rules : List (Str × PExpr)} {data : List Sym} {c : Called}
    (h : parseFuelO s n filename rules data = some c) : parseFuelO s m filename rules data = some c := by
  unfold parseFuelO at h ⊢
  dsimp only at h ⊢
  split at h
  · exact h
  · obtain ⟨y, h1, h2⟩ := Option.map_eq_some_iff.1 h
    exact Option.map_eq_some_iff.2 ⟨y, parseRuleO_mono (fun _ _ _ => runO_mono hnm) h1, h2⟩

/-! ## Without memory -/

/-- What remains of a task without its place. -/
def OTask.plain : OTask → Task
  | .expr _ _ e => .expr e
  | .alts _ _ _ es => .alts es
  | .seq _ _ _ es vals pt rc => .seq es vals pt rc
  | .many _ _ e vals b => .many e vals b

/-- The result with a table of remembered results. -/
def PRes.lift (memo : List ((Nat × NodeId) × Remembered)) : PRes → ORes
  | .ret v ok st => .ret v ok ⟨st, memo⟩
  | .panic m st => .panic m ⟨st, memo⟩

/-- `x` is the result `r`, unless the limit is exceeded. -/
structure Limited (s : Settings) (memo : List ((Nat × NodeId) × Remembered)) (r : PRes) (x : Option ORes) :
    Prop where
  below : s.exceeded r.st.exprCnt = false → x = some (r.lift memo)
  above : s.exceeded r.st.exprCnt = true →
    ∃ st', x = some (.panic maxExprMsg st') ∧ st'.p.exprCnt = s.maxExprCnt + 1

variable {s : Settings}

theorem exceeded_mono {a b : Nat} (h : a ≤ b) (ha : s.exceeded a = true) : s.exceeded b = true := by
  unfold Settings.exceeded at ha ⊢
  simp only [Bool.and_eq_true, bne_iff_ne, decide_eq_true_eq] at ha ⊢
  exact ⟨ha.1, Nat.lt_of_lt_of_le ha.2 h⟩

theorem Limited.refl {memo : List ((Nat × NodeId) × Remembered)} {r : PRes}
    (h : s.exceeded r.st.exprCnt = false) : Limited s memo r (some (r.lift memo)) :=
  ⟨fun _ => rfl, fun h' => by rw [h] at h'; cases h'⟩

theorem Limited.andThen {memo : List ((Nat × NodeId) × Remembered)} {r1 r : PRes} {x : Option ORes}
    {k : Val → Bool → PState → Option PRes} {ko : Val → Bool → OState → Option ORes}
    (h1 : Limited s memo r1 x) (h : PRes.andThen (some r1) k = some r)
    (hcnt : ∀ v ok p, k v ok p = some r → p.exprCnt ≤ r.st.exprCnt)
    (hk : ∀ v ok p, s.exceeded p.exprCnt = false → k v ok p = some r → Limited s memo r (ko v ok ⟨p, memo⟩)) :
    Limited s memo r (ORes.andThen x ko) := by
  cases r1 with
  | panic m p =>
    cases h
    constructor
    · intro hb
      rw [h1.below hb]; rfl
    · intro ha
      obtain ⟨st', h2, h3⟩ := h1.above ha
      exact ⟨st', by rw [h2]; rfl, h3⟩
  | ret v ok p =>
    by_cases hex : s.exceeded p.exprCnt = true
    · obtain ⟨st', h2, h3⟩ := h1.above hex
      rw [h2]
      refine ⟨fun hb => ?_, fun _ => ⟨st', rfl, h3⟩⟩
      rw [exceeded_mono (hcnt v ok p h) hex] at hb
      cases hb
    · have hex : s.exceeded p.exprCnt = false := by simpa using hex
      rw [h1.below hex]
      exact hk v ok p hex h

theorem leaf_lift (memo : List ((Nat × NodeId) × Remembered)) (p : PState) (f : PState → PRes) :
    OState.leaf ⟨p, memo⟩ f = (f p).lift memo := by
  unfold OState.leaf
  dsimp only
  cases f p <;> rfl

/-- Without memory, the interpreter with options does what the one without does, unless the limit is
exceeded; then it panics. -/
theorem runO_plain (hm : s.memoize = false) (n : Nat) : ∀ (t : OTask) (p : PState)
    (memo : List ((Nat × NodeId) × Remembered)) (r : PRes),
    run env n t.plain p = some r → s.exceeded p.exprCnt = false →
    Limited s memo r (runO env s n t ⟨p, memo⟩) := by
  have recallN : ∀ (st : OState) (nd : NodeId), st.recall s nd = none := by
    intro st nd; unfold OState.recall; rw [hm]; rfl
  have rememberN : ∀ (st : OState) (pt : Pt) (nd : NodeId) (v : Val) (b : Bool),
      st.remember s pt nd v b = st := by
    intro st pt nd v b; unfold OState.remember; rw [hm]; rfl
  induction n with
  | zero => intro t p memo r h; simp [run] at h
  | succ n ih =>
    intro t p memo r h hex
    -- a call followed by something that calls nothing
    have call : ∀ (t1 : OTask) (p1 : PState) (k : Val → Bool → PState → Option PRes)
        (ko : Val → Bool → OState → Option ORes), s.exceeded p1.exprCnt = false →
        (∀ v ok p, k v ok p = some r → p.exprCnt ≤ r.st.exprCnt) →
        (∀ v ok p, s.exceeded p.exprCnt = false → k v ok p = some r → Limited s memo r (ko v ok ⟨p, memo⟩)) →
        PRes.andThen (run env n t1.plain p1) k = some r →
        Limited s memo r (ORes.andThen (runO env s n t1 ⟨p1, memo⟩) ko) := by
      intro t1 p1 k ko h1 hc hk h
      cases hrun : run env n t1.plain p1 with
      | none => rw [hrun] at h; cases h
      | some r1 =>
        rw [hrun] at h
        exact (ih t1 p1 memo r1 hrun h1).andThen h hc hk
    cases t with
    | alts rule path i es =>
      cases es with
      | nil => cases h; exact Limited.refl (r := .ret .nil false p) hex
      | cons e es =>
        refine call (.expr rule (i :: path) e) p.pushV _ _ hex ?_ ?_ h
        · intro v ok p2 h2
          dsimp only at h2
          split at h2
          · cases h2; exact Nat.le_refl _
          · have := run_cnt n _ _ _ h2
            exact this
        · intro v ok p2 hx h2
          dsimp only at h2 ⊢
          cases ok
          · exact ih (.alts rule path (i + 1) es) _ memo r h2 hx
          · cases h2; exact Limited.refl (r := .ret v true p2.popV) hx
    | seq rule path i es vals pt rc =>
      cases es with
      | nil => cases h; exact Limited.refl (r := .ret (.list vals) true p) hex
      | cons e es =>
        refine call (.expr rule (i :: path) e) p _ _ hex ?_ ?_ h
        · intro v ok p2 h2
          split at h2
          · have := run_cnt n _ _ _ h2
            exact this
          · cases h2
            show _ ≤ (PState.restore _ pt).exprCnt
            rw [cnt_restore]; exact Nat.le_refl _
        · intro v ok p2 hx h2
          cases ok
          · cases h2
            refine Limited.refl (r := .ret .nil false (PState.restore { p2 with randCount := rc } pt)) ?_
            show s.exceeded (PState.restore _ pt).exprCnt = false
            rw [cnt_restore]; exact hx
          · exact ih (.seq rule path (i + 1) es (vals ++ [v]) pt rc) _ memo r h2 hx
    | many rule path e vals b =>
      refine call (.expr rule (0 :: path) e) p.pushV _ _ hex ?_ ?_ h
      · intro v ok p2 h2
        dsimp only at h2
        cases ok
        · simp only [Bool.false_eq_true, if_false] at h2
          split at h2 <;> cases h2 <;> exact Nat.le_refl _
        · have := run_cnt n _ _ _ h2
          exact this
      · intro v ok p2 hx h2
        dsimp only at h2 ⊢
        cases ok
        · simp only [Bool.false_eq_true, if_false] at h2 ⊢
          split at h2
          · rename_i hb
            rw [if_pos hb]; cases h2
            exact Limited.refl (r := .ret .nil false p2.popV) hx
          · rename_i hb
            rw [if_neg hb]; cases h2
            exact Limited.refl (r := .ret (.list vals) true p2.popV) hx
        · exact ih (.many rule path e (vals ++ [v]) b) _ memo r h2 hx
    | expr rule path e =>
      have hcr := run_cnt (n + 1) _ _ _ h
      replace hcr : p.exprCnt + 1 ≤ r.st.exprCnt := hcr
      rw [runO.eq_def]
      dsimp only
      rw [recallN]
      dsimp only
      by_cases hex1 : s.exceeded p.tick.exprCnt = true
      · rw [if_pos hex1]
        refine ⟨fun hb => ?_, fun _ => ⟨_, rfl, ?_⟩⟩
        · rw [exceeded_mono (show p.tick.exprCnt ≤ _ from hcr) hex1] at hb; cases hb
        · show p.exprCnt + 1 = s.maxExprCnt + 1
          have h1 : s.exceeded (p.exprCnt + 1) = true := hex1
          unfold Settings.exceeded at h1 hex
          simp only [Bool.and_eq_true, bne_iff_ne, decide_eq_true_eq, Bool.and_eq_false_iff,
            bne_eq_false_iff_eq, decide_eq_false_iff_not] at h1 hex
          omega
      · rw [if_neg hex1]
        have hex1 : s.exceeded p.tick.exprCnt = false := by simpa using hex1
        have drop : ∀ x : Option ORes, ORes.andThen x (fun v ok st' =>
            some (.ret v ok (st'.remember s p.pt (.expr rule path) v ok))) = x := by
          intro x
          simp only [rememberN]
          cases x with
          | none => rfl
          | some y => cases y <;> rfl
        rw [drop]
        cases e with
        | action a e =>
          refine call (.expr rule (0 :: path) e) p.tick _ _ hex1 ?_ ?_ h
          · intro v ok p2 h2
            split at h2
            · split at h2 <;> cases h2 <;> exact Nat.le_refl _
            · cases h2; exact Nat.le_refl _
          · intro v ok p2 hx h2
            dsimp only at h2 ⊢
            cases ok
            · cases h2; exact Limited.refl (r := .ret v false p2) hx
            · simp only [if_true] at h2 ⊢
              revert h2
              generalize runAction a (p2.vstack.headD []) (slice p.pt p2.pt) p2.randCount = y
              intro h2
              cases y with
              | ok v => cases h2; exact Limited.refl (r := .ret v true p2) hx
              | err m =>
                cases h2
                exact Limited.refl (r := .ret .nil true (p2.addErrAt env m p.pt.pos)) hx
              | panic m => cases h2; exact Limited.refl (r := .panic m p2) hx
        | any =>
          cases h
          show Limited s memo _ (some (OState.leaf ⟨p.tick, memo⟩ _))
          rw [leaf_lift]
          refine Limited.refl ?_
          unfold parseAny
          split
          · show s.exceeded (PState.failAt ..).exprCnt = false
            rw [cnt_failAt]; exact hex1
          · show s.exceeded (PState.failAt ..).exprCnt = false
            rw [cnt_failAt, cnt_read]; exact hex1
        | charClass val chars ranges classes ic inv =>
          cases h
          show Limited s memo _ (some (OState.leaf ⟨p.tick, memo⟩ _))
          rw [leaf_lift]
          refine Limited.refl ?_
          unfold parseCharClass
          split
          · show s.exceeded (PState.failAt ..).exprCnt = false
            rw [cnt_failAt]; exact hex1
          · rename_i y l hr
            dsimp only
            by_cases hcl : classHas chars ranges classes (if ic = true then toLowerRune y.rn else y.rn) = inv
            · rw [if_pos hcl]
              show s.exceeded (PState.failAt ..).exprCnt = false
              rw [cnt_failAt]; exact hex1
            · rw [if_neg hcl]
              show s.exceeded (PState.failAt ..).exprCnt = false
              rw [cnt_failAt, cnt_read]; exact hex1
        | choice es => exact ih (.alts rule path 0 es) _ memo r h hex1
        | labeled l e =>
          refine call (.expr rule (0 :: path) e) p.tick.pushV _ _ hex1 ?_ ?_ h
          · intro v ok p2 h2
            dsimp only at h2
            split at h2 <;> cases h2 <;> exact Nat.le_refl _
          · intro v ok p2 hx h2
            dsimp only at h2 ⊢
            split at h2
            · rename_i hb
              rw [if_pos hb]; cases h2
              exact Limited.refl (r := .ret v ok _) hx
            · rename_i hb
              rw [if_neg hb]; cases h2
              exact Limited.refl (r := .ret v ok _) hx
        | lit val ic =>
          cases h
          show Limited s memo _ (some (OState.leaf ⟨p.tick, memo⟩ _))
          rw [leaf_lift]
          refine Limited.refl ?_
          have := cnt_litLoop (env := env) ic val p.tick
          unfold parseLit
          cases hll : litLoop env ic val p.tick with
          | mk b st1 =>
            rw [hll] at this
            cases b
            · show s.exceeded (PState.restore ..).exprCnt = false
              rw [cnt_restore, cnt_failAt, this]; exact hex1
            · show s.exceeded (PState.failAt ..).exprCnt = false
              rw [cnt_failAt, this]; exact hex1
        | not e =>
          refine call (.expr rule (0 :: path) e) { p.tick.pushV with invert := !p.invert } _ _ hex1 ?_ ?_ h
          · intro v ok p2 h2
            cases h2
            show _ ≤ (PState.restore ..).exprCnt
            rw [cnt_restore]; exact Nat.le_refl _
          · intro v ok p2 hx h2
            cases h2
            refine Limited.refl (r := .ret .nil (!ok) _) ?_
            show s.exceeded (PState.restore ..).exprCnt = false
            rw [cnt_restore]; exact hx
        | oneOrMore e => exact ih (.many rule path e [] true) _ memo r h hex1
        | zeroOrMore e => exact ih (.many rule path e [] false) _ memo r h hex1
        | ruleRef name =>
          rw [run.eq_def] at h
          simp only [OTask.plain] at h
          unfold parseBodyO
          dsimp only
          cases hl : env.rules.lookup name with
          | none =>
            rw [hl] at h
            cases h
            exact Limited.refl (r := .ret .nil false _) hex1
          | some e =>
            rw [hl] at h
            dsimp only at h ⊢
            unfold parseRuleO
            rw [recallN]
            dsimp only
            refine call (.expr name [] e) { p.tick.pushV with rstack := name :: p.rstack } _ _ hex1 ?_ ?_ h
            · intro v ok p2 h2
              cases h2; exact Nat.le_refl _
            · intro v ok p2 hx h2
              cases h2
              rw [rememberN]
              exact Limited.refl (r := .ret v ok _) hx
        | seq es => exact ih (.seq rule path 0 es [] p.pt p.randCount) _ memo r h hex1
        | stateCode a =>
          cases h
          show Limited s memo _ (some (OState.leaf ⟨p.tick, memo⟩ _))
          rw [leaf_lift]
          refine Limited.refl ?_
          unfold parseStateCode
          cases a with
          | onResetRandCount1 => exact hex1
          | onIncRandCount1 =>
            dsimp only
            split <;> exact hex1
        | zeroOrOne e =>
          refine call (.expr rule (0 :: path) e) p.tick.pushV _ _ hex1 ?_ ?_ h
          · intro v ok p2 h2
            cases h2; exact Nat.le_refl _
          · intro v ok p2 hx h2
            cases h2
            exact Limited.refl (r := .ret v true p2.popV) hx

end GoBCDice.Pigeon
