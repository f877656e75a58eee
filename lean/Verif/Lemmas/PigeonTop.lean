import Verif.Lemmas.PigeonCommand
import Verif.Spec.Pigeon

/-!
# The generated parser against the rule functions: the whole parse
-/

namespace GoBCDice.Pigeon

variable {α β γ : Type} {env : PEnv} {p0 : Pt}

/-- The value of a command. -/
def VN (x : Option Node) (v : Val) : Prop :=
  match x with
  | none => True
  | some node => v.toNode = some node

theorem addErrAt_eq (st : PState) (m : Str) (pos : Pos) : (st.addErrAt env m pos).errs =
    st.errs ++ [located env.filename pos st.rstack.head? m] := by
  unfold PState.addErrAt located
  cases st.rstack <;> rfl

/-- Errors recorded by a command: that of the D commands without a random element, which is `E`. -/
def XE (env : PEnv) (p0 : Pt) (E : Str) (o : Option (Option Node)) (e e' : List Str) : Prop :=
  match o with
  | none => Grow env p0 e e'
  | some none => e' ≠ [] ∧ (Silent env p0.rest → e' = e ++ [E])
  | some (some _) => Grow env p0 e e'

theorem XE.before {E : Str} {o : Option (Option Node)} {x y z : List Str} (h : Grow env p0 x y)
    (h' : XE env p0 E o y z) : XE env p0 E o x z :=
  match o, h' with
  | none, h' => h.trans h'
  | some none, h' => ⟨h'.1, fun hv => by rw [h'.2 hv, h.valid hv]⟩
  | some (some _), h' => h.trans h'

theorem XE.after {E : Str} {o : Option (Option Node)} {x y z : List Str} (h : XE env p0 E o x y)
    (h' : Grow env p0 y z) : XE env p0 E o x z :=
  match o, h with
  | none, h => h.trans h'
  | some none, h => ⟨h'.stay h.1, fun hv => by rw [h'.valid hv, h.2 hv]⟩
  | some (some _), h => h.trans h'

theorem noErr_does {E : Str} {e : PExpr} {V : Node → Val → Prop} {s : Str} {c : Nat} {p : P Node}
    (h : Cl env p0 e V s c (p s c)) (hV : ∀ nd v, V nd v → v.toNode = some nd) :
    DoesX (XE env p0 E) env p0 (.expr e) VN s c (noErr p s c) := by
  intro st hok
  obtain ⟨v, st', h1, h2, h3, h4, h5⟩ := h st hok
  unfold noErr
  cases hp : p s c with
  | none =>
    rw [P.bind_none hp]
    rw [hp] at h1 h4 h5
    exact ⟨v, st', h1, h2, h3, h4, h5⟩
  | some r =>
    obtain ⟨nd, s', c'⟩ := r
    rw [P.bind_some hp]
    rw [hp] at h1 h4 h5
    exact ⟨v, st', h1, h2, h3, h4, hV nd v h5.1, h5.2⟩

theorem Ok.start {st : PState} {s : Str} {c : Nat} (h : Ok p0 st s c) (hs : s = runes p0.rest) :
    st.pt = p0 := by
  obtain ⟨k, hk, hpt⟩ := h.reach
  have h1 := h.rest
  rw [hpt, walk_rest, hs] at h1
  have h2 := congrArg List.length h1
  simp only [runes, List.length_map, List.length_drop] at h2
  have : k = 0 ∨ p0.rest.length = 0 := by omega
  have : k = 0 := by omega
  rw [hpt, this]
  rfl

/-- A D command. -/
theorem rule_random {name en : Str} {a : Action} {V : α → Val → Prop} {s : Str} {c : Nat} {p : P α}
    {mk : α → Node} {E : Str} (hs : s = runes p0.rest)
    (hE : (p s c).isSome = true → E = located env.filename p0.pos (some name) noRandomMsg)
    (hl : env.rules.lookup name = some (.action a (.labeled chars!"expr" (.ruleRef en))))
    (ha : ∀ x v text (c : Nat), V x v → runAction a [(chars!"expr", v)] text (some (c : Int)) =
      if c < 1 then .err noRandomMsg else .ok (.node (mk x)))
    (h : Cl env p0 (.ruleRef en) V s c (p s c)) :
    DoesX (XE env p0 E) env p0 (.expr (.ruleRef name)) VN s c ((p >>= fun x => requireRandom (mk x)) s c) := by
  intro st hok
  let st0 : PState := { st.tick.pushV with rstack := name :: st.rstack }
  obtain ⟨v, st1, h1, h2, h3, h4, h5⟩ := h st0.tick.tick.pushV ⟨hok.reach, hok.rest, hok.count⟩
  have h3' : st1.popV.vstack = [] :: st.vstack := by simp [PState.popV, h3, PState.pushV, PState.tick, st0]
  have fin : ∀ w ok st2, Runs env (.expr (.action a (.labeled chars!"expr" (.ruleRef en)))) st0
      (.ret w ok st2) →
      Runs env (.expr (.ruleRef name)) st (.ret w ok { st2.popV with rstack := st2.rstack.tail }) := by
    intro w ok st2 hr
    refine Runs.call (k := fun _ v ok st' =>
      some (.ret v ok { st'.popV with rstack := st'.rstack.tail })) (fun n => ?_) hr (fun n => rfl)
    rw [run.eq_def]; dsimp only; rw [hl]
  cases hp : p s c with
  | none =>
    rw [P.bind_none hp]
    rw [hp] at h1 h4 h5
    have hlab : Runs env (.expr (.labeled chars!"expr" (.ruleRef en))) st0.tick (.ret v false st1.popV) :=
      Runs.call (fun n => rfl) h1 (fun n => rfl)
    have hact : Runs env (.expr (.action a (.labeled chars!"expr" (.ruleRef en)))) st0
        (.ret v false st1.popV) := Runs.call (fun n => rfl) hlab (fun n => rfl)
    refine ⟨v, _, fin _ _ _ hact, ⟨?_, h2.invert⟩, ?_, h4, h5.1, ⟨h5.2.reach, h5.2.rest, h5.2.count⟩⟩
    · show st1.rstack.tail = st.rstack
      rw [h2.rstack]; rfl
    · show st1.popV.vstack.tail = st.vstack
      rw [h3']; rfl
  | some r =>
    obtain ⟨x, s', c'⟩ := r
    rw [P.bind_some hp]
    rw [hp] at h1 h4 h5
    let st2 : PState := { st1.popV with vstack := [(chars!"expr", v)] :: st.vstack }
    have hlab : Runs env (.expr (.labeled chars!"expr" (.ruleRef en))) st0.tick (.ret v true st2) := by
      refine Runs.call (fun n => rfl) h1 (fun n => ?_)
      dsimp only
      rw [if_pos (by simp), h3']
      rfl
    have hcount : st2.randCount = some (c' : Int) := h5.2.count
    have hact : Runs env (.expr (.action a (.labeled chars!"expr" (.ruleRef en)))) st0
        (if c' < 1 then .ret .nil true (st2.addErrAt env noRandomMsg st.pt.pos)
          else .ret (.node (mk x)) true st2) := by
      refine Runs.call (fun n => rfl) hlab (fun n => ?_)
      rw [if_pos rfl, hcount, show st2.vstack.headD [] = [(chars!"expr", v)] from rfl, ha x v _ c' h5.1]
      by_cases hc : c' < 1
      · rw [if_pos hc, if_pos hc]; rfl
      · rw [if_neg hc, if_neg hc]
    unfold requireRandom
    by_cases hc : c' < 1
    · rw [if_pos hc] at hact ⊢
      refine ⟨.nil, _, fin _ _ _ hact, ⟨?_, h2.invert⟩, rfl, ⟨addErrAt_errs _ _ _, fun hv => ?_⟩, trivial,
        ⟨h5.2.reach, h5.2.rest, h5.2.count⟩⟩
      · show st1.rstack.tail = st.rstack
        rw [h2.rstack]; rfl
      · have h4' : Grow env p0 st.errs st1.errs := h4
        show (st2.addErrAt env noRandomMsg st.pt.pos).errs = _
        have hr2 : st2.rstack = name :: st.rstack := h2.rstack
        rw [addErrAt_eq, hr2, hE (by rw [hp]; rfl), hok.start hs]
        show st1.errs ++ _ = _
        rw [h4'.valid hv]
        rfl
    · rw [if_neg hc] at hact ⊢
      refine ⟨.node (mk x), _, fin _ _ _ hact, ⟨?_, h2.invert⟩, rfl, h4, rfl,
        ⟨h5.2.reach, h5.2.rest, h5.2.count⟩⟩
      show st1.rstack.tail = st.rstack
      rw [h2.rstack]; rfl

/-- A rule that gives the value of a command, followed by an expression that may fail. -/
theorem rule_then {name : Str} {a : Action} {l : Str} {e e2 : PExpr} {s : Str} {c : Nat}
    {p : P (Option Node)} {q : P Unit} {E : Str} (hw : Wide p0.rest) (hne : l ≠ [])
    (hl : env.rules.lookup name = some (.action a (.seq [.labeled l e, e2])))
    (ha : ∀ v text c, runAction a [(l, v)] text c = .ok v)
    (h : DoesX (XE env p0 E) env p0 (.expr e) VN s c (p s c))
    (h2 : ∀ s c, Cl env p0 e2 (fun _ _ => True) s c (q s c)) :
    DoesX (fun _ => XE env p0 E ((p s c).map (·.1))) env p0 (.expr (.ruleRef name)) VN s c
      ((do let x ← p; let _ ← q; pure x : P (Option Node)) s c) := by
  intro st hok
  let st0 : PState := { st.tick.pushV with rstack := name :: st.rstack }
  obtain ⟨v, st1, h1, k2, h3, h4, h5⟩ := h st0.tick.tick.tick.pushV ⟨hok.reach, hok.rest, hok.count⟩
  have h3' : st1.popV.vstack = [] :: st.vstack := by simp [PState.popV, h3, PState.pushV, PState.tick, st0]
  have fin : ∀ w ok st2, Runs env (.expr (.action a (.seq [.labeled l e, e2]))) st0 (.ret w ok st2) →
      Runs env (.expr (.ruleRef name)) st (.ret w ok { st2.popV with rstack := st2.rstack.tail }) := by
    intro w ok st2 hr
    refine Runs.call (k := fun _ v ok st' =>
      some (.ret v ok { st'.popV with rstack := st'.rstack.tail })) (fun n => ?_) hr (fun n => rfl)
    rw [run.eq_def]; dsimp only; rw [hl]
  cases hp : p s c with
  | none =>
    rw [P.bind_none hp]
    rw [hp] at h1 h4 h5
    have hlab : Runs env (.expr (.labeled l e)) st0.tick.tick (.ret v false st1.popV) :=
      Runs.call (fun n => rfl) h1 (fun n => rfl)
    have hre := restore_fields hw { st1.popV with randCount := st.randCount } st.pt h5.2.reach hok.reach
    have hseq : Runs env (.expr (.seq [.labeled l e, e2])) st0.tick
        (.ret .nil false { st1.popV with randCount := st.randCount, pt := st.pt }) :=
      Runs.step (fun n => rfl) (Runs.call (fun n => rfl) hlab
        (fun n => congrArg (fun x => some (PRes.ret .nil false x)) hre))
    have hact : Runs env (.expr (.action a (.seq [.labeled l e, e2]))) st0
        (.ret .nil false { st1.popV with randCount := st.randCount, pt := st.pt }) :=
      Runs.call (fun n => rfl) hseq (fun n => rfl)
    refine ⟨.nil, _, fin _ _ _ hact, ⟨?_, k2.invert⟩, ?_, h4, rfl,
      ⟨hok.reach, hok.rest, hok.count⟩⟩
    · show st1.rstack.tail = st.rstack
      rw [k2.rstack]; rfl
    · show st1.popV.vstack.tail = st.vstack
      rw [h3']; rfl
  | some r =>
    obtain ⟨x, s', c'⟩ := r
    rw [P.bind_some hp]
    rw [hp] at h1 h4 h5
    let st2 : PState := { st1.popV with vstack := [(l, v)] :: st.vstack }
    have hlab : Runs env (.expr (.labeled l e)) st0.tick.tick (.ret v true st2) := by
      refine Runs.call (fun n => rfl) h1 (fun n => ?_)
      dsimp only
      rw [if_pos (by simp [hne]), h3']
      rfl
    obtain ⟨w, st3, m1, m2, m3, m4, m5⟩ := h2 s' c' st2 ⟨h5.2.reach, h5.2.rest, h5.2.count⟩
    cases hq : q s' c' with
    | none =>
      rw [P.bind_none hq]
      rw [hq] at m1 m4 m5
      have hre := restore_fields hw { st3 with randCount := st.randCount } st.pt m5.2.reach hok.reach
      have hseq : Runs env (.expr (.seq [.labeled l e, e2])) st0.tick
          (.ret .nil false { st3 with randCount := st.randCount, pt := st.pt }) :=
        Runs.step (fun n => rfl) (Runs.callThen (fun n => rfl) hlab (fun n => rfl)
          (Runs.call (fun n => rfl) m1
            (fun n => congrArg (fun x => some (PRes.ret .nil false x)) hre)))
      have hact : Runs env (.expr (.action a (.seq [.labeled l e, e2]))) st0
          (.ret .nil false { st3 with randCount := st.randCount, pt := st.pt }) :=
        Runs.call (fun n => rfl) hseq (fun n => rfl)
      refine ⟨.nil, _, fin _ _ _ hact, ⟨?_, m2.invert.trans k2.invert⟩, ?_, h4.after m4, rfl,
        ⟨hok.reach, hok.rest, hok.count⟩⟩
      · show st3.rstack.tail = st.rstack
        rw [m2.rstack]; show st1.rstack.tail = _; rw [k2.rstack]; rfl
      · show st3.vstack.tail = st.vstack
        rw [m3]; rfl
    | some r =>
      obtain ⟨u, s2, c2⟩ := r
      rw [P.bind_some hq]
      rw [hq] at m1 m4 m5
      have hseq : Runs env (.expr (.seq [.labeled l e, e2])) st0.tick (.ret (.list [v, w]) true st3) :=
        Runs.step (fun n => rfl) (Runs.callThen (fun n => rfl) hlab (fun n => rfl)
          (Runs.callThen (fun n => rfl) m1 (fun n => rfl) (Runs.now (fun n => rfl))))
      have hact : Runs env (.expr (.action a (.seq [.labeled l e, e2]))) st0 (.ret v true st3) := by
        refine Runs.call (fun n => rfl) hseq (fun n => ?_)
        rw [if_pos rfl, m3]
        show (match runAction a [(l, v)] _ _ with | .ok v => _ | .err m => _ | .panic m => _) = _
        rw [ha]
      refine ⟨v, _, fin _ _ _ hact, ⟨?_, m2.invert.trans k2.invert⟩, ?_, ?_, h5.1,
        ⟨m5.2.reach, m5.2.rest, m5.2.count⟩⟩
      · show st3.rstack.tail = st.rstack
        rw [m2.rstack]; show st1.rstack.tail = _; rw [k2.rstack]; rfl
      · show st3.vstack.tail = st.vstack
        rw [m3]; rfl
      · exact h4.after m4

/-- The alternatives of `CommandWithExpression`, before the end of the text is checked. -/
def inner (n : Nat) : P (Option Node) :=
  noErr (bRollComp n) <|> noErr (bRollListCmd n) <|> noErr (rRollComp n) <|>
    noErr (rRollListCmd n) <|> noErr (uRollComp n) <|> noErr (uRollExprCmd n) <|>
    dRollCompCommand n <|> dRollExprCommand n

theorem command_inner (n : Nat) :
    command n = (noErr choiceCmd <|> noErr (calcCmd n) <|>
      (do let x ← inner n; let _ ← eot; pure x)) := rfl

/-- All the alternatives, before the end of the text is checked. -/
def tried (n : Nat) : P (Option Node) := noErr choiceCmd <|> noErr (calcCmd n) <|> inner n

/-- The error of a command without a random element. -/
def randomErr (filename : Str) (pos : Pos) (n : Nat) (s : Str) (c : Nat) : Str :=
  located filename pos
    (some (if (dRollCompCommand n s c).isSome then chars!"DRollCompCommand" else chars!"DRollExprCommand"))
    noRandomMsg

section Rules
variable (hr : env.rules = goGrammar) (hw : Wide p0.rest)
include hr hw

theorem does_withExpression (n : Nat) (s : Str) (c : Nat) (hL : s.length < n) (hs : s = runes p0.rest) :
    DoesX (fun _ => XE env p0 (randomErr env.filename p0.pos n s c) ((inner n s c).map (·.1))) env p0
      (.expr (.ruleRef chars!"CommandWithExpression")) VN s c
      ((do let x ← inner n; let _ ← eot; pure x : P (Option Node)) s c) := by
  have x0 : ∀ o x y z, Grow env p0 x y → XE env p0 (randomErr env.filename p0.pos n s c) o y z →
      XE env p0 (randomErr env.filename p0.pos n s c) o x z := fun _ _ _ _ => XE.before
  have x1 : ∀ x y, XE env p0 (randomErr env.filename p0.pos n s c) none x y → Grow env p0 x y := fun _ _ h => h
  have x2 : ∀ a x y, XE env p0 (randomErr env.filename p0.pos n s c) (some a) x y →
    XE env p0 (randomErr env.filename p0.pos n s c) (some a) x y := fun _ _ _ h => h
  refine rule_then (l := chars!"n") hw (by decide) (by rw [hr]; rfl) (fun v text c => rfl) (choice_intro ?_)
    (fun s c => rule_plain (by rw [hr]; rfl) (Cl.eot hw s c))
  have hr1 := imp_rRollList hr hw (name := chars!"RRollList") n (by rw [hr]; rfl)
    (fun _ _ _ => rfl) (imp_rRoll hr hw n)
  refine alts_cons x0 x1 x2 (noErr_does (V := fun nd v => v = .node nd)
    (imp_comp hr hw (V := fun nd v => v = .node nd)
      (mk := fun rolls op r => Node.bRollComp rolls op r) (some .b) n (by rw [hr]; rfl) (fun _ _ _ => rfl) ?_
      ((imp_bRollList hr hw n).mono (by omega)) (shrinks_rollList (shrinks_letterRoll _ _)) s c hL)
    (by rintro nd v rfl; rfl)) ?_
  · rintro x v op t r rfl ht
    refine ⟨.node (.bRollComp x op r), ?_, rfl⟩
    simp only [compareAction, ht]
  refine alts_cons x0 x1 x2 (noErr_does (V := fun nd v => v = .node nd)
    (Cl.map (fun rolls => Node.bRollList rolls) (imp_bRollList hr hw n s c (by omega))
      (fun _ _ h => h)) (by rintro nd v rfl; rfl)) ?_
  refine alts_cons x0 x1 x2 (noErr_does (V := fun nd v => v = .node nd)
    (imp_comp hr hw (V := fun nd v => v = .node nd)
      (mk := fun rl op r => Node.rRollComp rl op r) (some .r) n (by rw [hr]; rfl) (fun _ _ _ => rfl) ?_
      (hr1.mono (by omega)) (shrinks_rRollList _ _) s c hL)
    (by rintro nd v rfl; rfl)) ?_
  · rintro x v op t r rfl ht
    refine ⟨.node (.rRollComp x op r), ?_, rfl⟩
    simp only [compareAction, ht]
  refine alts_cons x0 x1 x2 (noErr_does (V := fun nd v => v.toNode = some nd)
    (Cl.map (fun rl => Node.rRollList rl) (hr1 s c (by omega))
      (by rintro _ _ rfl; rfl)) (fun _ _ h => h)) ?_
  refine alts_cons x0 x1 x2 (noErr_does (V := fun nd v => v = .node nd)
    (imp_comp hr hw (V := fun nd v => v = .node nd)
      (mk := fun u op r => Node.uRollComp u op r) (some .u) n (by rw [hr]; rfl) (fun _ _ _ => rfl) ?_
      ((imp_uRollExpr hr hw n).mono (by omega)) (shrinks_uRollExpr _) s c hL)
    (by rintro nd v rfl; rfl)) ?_
  · rintro x v op t r rfl ht
    refine ⟨.node (.uRollComp x op r), ?_, rfl⟩
    simp only [compareAction, ht]
  refine alts_cons x0 x1 x2 (noErr_does (V := fun nd v => v = .node nd)
    (Cl.map (fun u => Node.uRollExpr u) (imp_uRollExpr hr hw n s c (by omega))
      (fun _ _ h => h)) (by rintro nd v rfl; rfl)) ?_
  refine alts_cons' x0 x1 (fun _ _ _ _ h => h) ?_ (fun hnone => alts_one ?_)
  · have hcomp := imp_comp hr hw (name := chars!"DRollComp")
      (V := fun (x : Expr × CmpOp × Expr) v => v = .compare x.1 x.2.1 x.2.2)
      (mk := fun l op r => (l, op, r)) none n (by rw [hr]; rfl) (fun _ _ _ => rfl)
      (by rintro x v op t r rfl ht
          refine ⟨.compare x op r, ?_, rfl⟩
          simp only [compareAction, ht])
      ((imp_dRollPrimary hr hw n).2.1) (shrinks_additive (shrinks_dRollPrimary n)) s c hL
    refine (rule_random (mk := fun x => Node.dRollComp x.1 x.2.1 x.2.2) hs ?_ (by rw [hr]; rfl) ?_
      hcomp).congr ?_
    · intro hsome
      unfold randomErr
      have he : dRollCompCommand n s c = ((do
          let l ← dRollExpr n; let op ← compareOp; let r ← intExpr n
          pure (l, op, r) : P (Expr × CmpOp × Expr)) >>= fun x =>
            requireRandom (.dRollComp x.1 x.2.1 x.2.2)) s c := by
        unfold dRollCompCommand
        simp only [bind_assoc', pure_bind']
      rw [if_pos]
      rw [he]
      obtain ⟨r, hr⟩ := Option.isSome_iff_exists.1 hsome
      rw [P.bind_some hr]
      rfl
    · rintro x v text c rfl
      by_cases hc : c < 1
      · rw [if_pos hc]
        simp [runAction, show (c : Int) < 1 by omega]
      · rw [if_neg hc]
        simp [runAction, show ¬ (c : Int) < 1 by omega, Frame.get, List.lookup]
    · unfold dRollCompCommand
      simp only [bind_assoc', pure_bind']
  · refine (rule_random (mk := fun x => Node.dRollExpr x) hs (fun _ => ?_) (by rw [hr]; rfl) ?_
      ((imp_dRollPrimary hr hw n).2.2 s c hL))
    · unfold randomErr
      rw [hnone]
      rfl
    rintro x v text c rfl
    by_cases hc : c < 1
    · rw [if_pos hc]
      simp [runAction, show (c : Int) < 1 by omega]
    · rw [if_neg hc]
      simp [runAction, show ¬ (c : Int) < 1 by omega, Frame.get, List.lookup]

theorem does_choice (n : Nat) (s : Str) (c : Nat) (hL : s.length < n) (hs : s = runes p0.rest) :
    DoesX (fun _ => XE env p0 (randomErr env.filename p0.pos n s c) ((tried n s c).map (·.1))) env p0
      (.expr (.choice [.ruleRef chars!"Choice", .ruleRef chars!"Calc",
      .ruleRef chars!"CommandWithExpression"])) VN s c (command n s c) := by
  have x0 : ∀ (o : Option (Option Node)) o' x y z, Grow env p0 x y → XE env p0 (randomErr env.filename p0.pos n s c) o' y z →
      XE env p0 (randomErr env.filename p0.pos n s c) o' x z := fun _ _ _ _ _ => XE.before
  have x1 : ∀ x y, XE env p0 (randomErr env.filename p0.pos n s c) none x y → Grow env p0 x y := fun _ _ h => h
  rw [command_inner]
  refine choice_intro ?_
  refine alts_cons' (fun o x y z => x0 o _ x y z) x1 (fun r x y hp h => ?_)
    (noErr_does (imp_choice hr hw n s c hL) (by rintro nd v rfl; rfl)) (fun h1 => ?_)
  · unfold tried
    rw [P.alt_left hp]
    exact h
  refine alts_cons' (fun o x y z => x0 o _ x y z) x1 (fun r x y hp h => ?_)
    (noErr_does (imp_calc hr hw n s c hL) (by rintro nd v rfl; rfl)) (fun h2 => ?_)
  · unfold tried
    rw [P.alt_right h1, P.alt_left hp]
    exact h
  have := alts_one (does_withExpression hr hw n s c hL hs)
  unfold tried
  rw [P.alt_right h1, P.alt_right h2]
  exact this

end Rules

/-- How the run from the initial state ends. -/
def TopPost (o : Option (Option Node × Str × Nat)) (v : Val) (ok : Bool) (st' : PState) : Prop :=
  match o with
  | none => ok = false
  | some (none, _, _) => ok = true
  | some (some node, s', _) => ok = true ∧ v.toNode = some node ∧ runes st'.pt.rest = s'

theorem initState_fields (l : List Sym) : (initState env l).pt.rest = l ∧
    (initState env l).rstack = [] ∧
    (Silent env l → (initState env l).errs = []) := by
  unfold initState PState.enter
  dsimp only
  by_cases hb : l.head? = some ⟨runeError, 1⟩ ∧ env.allowInvalid = false
  · rw [if_pos hb]
    refine ⟨rfl, rfl, fun hv => ?_⟩
    rcases hv with hv | hv
    · rw [hb.2] at hv; cases hv
    · exact absurd rfl (hv _ (List.mem_of_mem_head? hb.1))
  · rw [if_neg hb]
    exact ⟨rfl, rfl, fun _ => rfl⟩

theorem restore_keep (st : PState) (pt : Pt) :
    (st.restore pt).rstack = st.rstack ∧ (st.restore pt).errs = st.errs := by
  unfold PState.restore
  split <;> exact ⟨rfl, rfl⟩

theorem top_run (hr : env.rules = goGrammar) (l : List Sym) (hl : Wide l) :
    ∃ v ok st', Runs env (.expr (.ruleRef chars!"Command")) (initState env l) (.ret v ok st') ∧
      st'.rstack = [] ∧ TopPost (command ((runes l).length + 1) (runes l) 0) v ok st' ∧
      XE env (initState env l).pt
        (randomErr env.filename (initState env l).pt.pos ((runes l).length + 1) (runes l) 0)
        ((tried ((runes l).length + 1) (runes l) 0).map (·.1)) (initState env l).errs st'.errs := by
  obtain ⟨hrest, hrs, herrs⟩ := initState_fields (env := env) l
  generalize initState env l = st at hrest hrs herrs ⊢
  have hw : Wide st.pt.rest := by rw [hrest]; exact hl
  have hrest' : runes st.pt.rest = runes l := by rw [hrest]
  generalize hs : runes l = s at hrest'
  have hreach : Reach st.pt st.pt := ⟨0, Nat.zero_le _, rfl⟩
  let name := chars!"Command"
  let st0 : PState := { st.tick.pushV with rstack := name :: st.rstack }
  let rname := chars!"ResetRandCount"
  let ch : PExpr := .choice [.ruleRef chars!"Choice", .ruleRef chars!"Calc",
      .ruleRef chars!"CommandWithExpression"]
  let st1 : PState := { st0.tick.tick.tick.tick with randCount := some 0 }
  have hreset : Runs env (.expr (.ruleRef rname)) st0.tick.tick (.ret .nil true st1) := by
    have h0 : Runs env (.expr (.stateCode .onResetRandCount1)) { st0.tick.tick.tick.pushV with rstack := rname :: st0.rstack }
        (.ret .nil true { PState.tick { st0.tick.tick.tick.pushV with rstack := rname :: st0.rstack } with randCount := some 0 }) :=
      Runs.now (fun n => rfl)
    refine Runs.call (k := fun _ v ok st' =>
      some (.ret v ok { st'.popV with rstack := st'.rstack.tail })) (fun n => ?_) h0 (fun n => rfl)
    rw [run.eq_def]; dsimp only; rw [hr]
    rfl
  obtain ⟨v, st2, h1, h2, h3, h4, h5⟩ := does_choice hr hw (s.length + 1) s 0 (by omega) hrest'.symm st1.tick.pushV
    ⟨hreach, hrest', rfl⟩
  have h3' : st2.popV.vstack = [] :: st.vstack := by simp [PState.popV, h3, PState.pushV, PState.tick, st0, st1]
  have fin : ∀ w ok st3, Runs env (.expr (.action .onCommand1 (.seq [.ruleRef rname, .labeled chars!"n" ch])))
      st0 (.ret w ok st3) →
      Runs env (.expr (.ruleRef name)) st (.ret w ok { st3.popV with rstack := st3.rstack.tail }) := by
    intro w ok st2 hrn
    refine Runs.call (k := fun _ v ok st' =>
      some (.ret v ok { st'.popV with rstack := st'.rstack.tail })) (fun n => ?_) hrn (fun n => rfl)
    rw [run.eq_def]; dsimp only; rw [hr]
    rfl
  cases hc : command (s.length + 1) s 0 with
  | none =>
    rw [hc] at h1 h5
    have hlab : Runs env (.expr (.labeled chars!"n" ch)) st1 (.ret v false st2.popV) :=
      Runs.call (fun n => rfl) h1 (fun n => rfl)
    have hseq : Runs env (.expr (.seq [.ruleRef rname, .labeled chars!"n" ch])) st0.tick
        (.ret .nil false (PState.restore { st2.popV with randCount := st.randCount } st.pt)) :=
      Runs.step (fun n => rfl) (Runs.callThen (fun n => rfl) hreset (fun n => rfl)
        (Runs.call (fun n => rfl) hlab (fun n => rfl)))
    refine ⟨_, _, _, fin _ _ _ (Runs.call (fun n => rfl) hseq (fun n => rfl)), ?_, rfl, ?_⟩
    · show (PState.restore { st2.popV with randCount := st.randCount } st.pt).rstack.tail = []
      rw [(restore_keep _ _).1]
      show st2.rstack.tail = []
      rw [h2.rstack]
      exact hrs
    · show XE _ _ _ _ _ (PState.restore { st2.popV with randCount := st.randCount } st.pt).errs
      rw [(restore_keep _ _).2]
      exact h4
  | some r =>
    obtain ⟨x, s', c'⟩ := r
    rw [hc] at h1 h5
    let st3 : PState := { st2.popV with vstack := [(chars!"n", v)] :: st.vstack }
    have hlab : Runs env (.expr (.labeled chars!"n" ch)) st1 (.ret v true st3) := by
      refine Runs.call (fun n => rfl) h1 (fun n => ?_)
      dsimp only
      rw [if_pos (by simp), h3']
      rfl
    have hseq : Runs env (.expr (.seq [.ruleRef rname, .labeled chars!"n" ch])) st0.tick
        (.ret (.list [.nil, v]) true st3) :=
      Runs.step (fun n => rfl) (Runs.callThen (fun n => rfl) hreset (fun n => rfl)
        (Runs.callThen (fun n => rfl) hlab (fun n => rfl) (Runs.now (fun n => rfl))))
    have hact : Runs env (.expr (.action .onCommand1 (.seq [.ruleRef rname, .labeled chars!"n" ch])))
        st0 (.ret v true st3) := Runs.call (fun n => rfl) hseq (fun n => rfl)
    refine ⟨_, _, _, fin _ _ _ hact, ?_, ?_, h4⟩
    · show st2.rstack.tail = []
      rw [h2.rstack]
      exact hrs
    · cases x with
      | none => rfl
      | some node => exact ⟨rfl, h5.1, h5.2.rest⟩

end GoBCDice.Pigeon
