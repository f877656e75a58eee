import Verif.Lemmas.Pigeon

/-!
# The generated parser against the rule functions: the rules of arithmetic
-/

namespace GoBCDice.Pigeon

variable {α β : Type}

/-! ## Progress -/

/-- Success consumes a character. -/
def Shrinks (p : P α) : Prop := ∀ s c a s' c', p s c = some (a, s', c') → s'.length < s.length

/-- Success does not lengthen the text. -/
def NoGrow (p : P α) : Prop := ∀ s c a s' c', p s c = some (a, s', c') → s'.length ≤ s.length

theorem Shrinks.noGrow {p : P α} (h : Shrinks p) : NoGrow p := fun s c a s' c' hp =>
  Nat.le_of_lt (h s c a s' c' hp)

theorem NoGrow.pure (a : α) : NoGrow (pure a : P α) := by
  intro s c b s' c' h
  cases h
  exact Nat.le_refl _

theorem Shrinks.bind {p : P α} {k : α → P β} (h : Shrinks p) (hk : ∀ a, NoGrow (k a)) :
    Shrinks (p >>= k) := by
  intro s c b s' c' hb
  obtain ⟨a, s1, c1, h1, h2⟩ := P.bind_ok.1 hb
  exact Nat.lt_of_le_of_lt (hk a _ _ _ _ _ h2) (h _ _ _ _ _ h1)

theorem NoGrow.bind {p : P α} {k : α → P β} (h : NoGrow p) (hk : ∀ a, NoGrow (k a)) :
    NoGrow (p >>= k) := by
  intro s c b s' c' hb
  obtain ⟨a, s1, c1, h1, h2⟩ := P.bind_ok.1 hb
  exact Nat.le_trans (hk a _ _ _ _ _ h2) (h _ _ _ _ _ h1)

theorem Shrinks.alt {p q : P α} (hp : Shrinks p) (hq : Shrinks q) : Shrinks (p <|> q) := by
  intro s c a s' c' h
  cases P.alt_ok h with
  | inl h => exact hp _ _ _ _ _ h
  | inr h => exact hq _ _ _ _ _ h.2

theorem NoGrow.opt {p : P α} (hp : NoGrow p) : NoGrow (P.opt p) := by
  intro s c a s' c' h
  unfold P.opt at h
  split at h
  · cases h; exact Nat.le_refl _
  · rename_i h1; cases h; exact hp _ _ _ _ _ h1

theorem NoGrow.many {p : P α} (hp : NoGrow p) : NoGrow (P.many p) := by
  have aux : ∀ k s c, (P.manyAux p k s c).2.1.length ≤ s.length := by
    intro k
    induction k with
    | zero => intro s c; exact Nat.le_refl _
    | succ k ih =>
      intro s c
      unfold P.manyAux
      split
      · exact Nat.le_refl _
      · rename_i a s1 c1 h1
        exact Nat.le_trans (ih s1 c1) (hp _ _ _ _ _ h1)
  intro s c a s' c' h
  have := aux s.length s c
  unfold P.many at h
  rw [Option.some.inj h] at this
  exact this

theorem shrinks_sat (f : Char → Bool) : Shrinks (P.sat f) := by
  intro s c a s' c' h
  obtain ⟨rfl, -, -⟩ := P.sat_ok h
  simp

theorem shrinks_chr (x : Char) : Shrinks (chr x) := (shrinks_sat _).bind (fun _ => .pure _)

theorem shrinks_chrI (x : Char) : Shrinks (chrI x) := (shrinks_sat _).bind (fun _ => .pure _)

theorem noGrow_lit (t : Str) : NoGrow (lit t) := by
  induction t with
  | nil => exact .pure _
  | cons x xs ih => exact (shrinks_chr x).noGrow.bind (fun _ => ih)

theorem noGrow_inc : NoGrow incRandCount := by
  intro s c a s' c' h
  cases h
  exact Nat.le_refl _

theorem dropWhile_lt {f : Char → Bool} {s : Str} (h : s.takeWhile f ≠ []) :
    (s.dropWhile f).length < s.length := by
  have := congrArg List.length (List.takeWhile_append_dropWhile (p := f) (l := s))
  rw [List.length_append] at this
  have : 0 < (s.takeWhile f).length := List.length_pos_iff.2 h
  omega

theorem shrinks_integer : Shrinks integer := by
  intro s c a s' c' h
  unfold integer at h
  split at h
  · cases h
  · rename_i hne
    cases h
    exact dropWhile_lt (by intro h0; exact hne h0)

theorem shrinks_addOp : Shrinks addOp := by
  intro s c a s' c' h
  unfold addOp at h
  split at h <;> cases h <;> simp

theorem shrinks_mulOpChar : Shrinks mulOpChar := by
  intro s c a s' c' h
  unfold mulOpChar at h
  split at h <;> cases h <;> simp

theorem shrinks_roundSuffix : Shrinks roundSuffix := by
  intro s c a s' c' h
  unfold roundSuffix at h
  split at h
  · cases h
  · split at h
    · cases h; simp
    · split at h <;> cases h
      simp

theorem shrinks_compareOp : Shrinks compareOp := by
  intro s c a s' c' h
  unfold compareOp at h
  split at h <;> cases h <;> simp only [List.length_cons] <;> omega

theorem shrinks_addItem {m : P Expr} (h : Shrinks m) : Shrinks (addItem m) :=
  shrinks_addOp.bind fun _ => h.noGrow.bind fun _ => .pure _

theorem shrinks_mulItem {m : P Expr} (h : Shrinks m) : Shrinks (mulItem m) :=
  Shrinks.alt
    ((shrinks_chr _).bind fun _ => h.noGrow.bind fun _ => shrinks_roundSuffix.noGrow.bind fun _ => .pure _)
    (shrinks_mulOpChar.bind fun _ => h.noGrow.bind fun _ => .pure _)

theorem shrinks_multitive {m : P Expr} (h : Shrinks m) : Shrinks (multitive m) :=
  h.bind fun _ => (shrinks_mulItem h).noGrow.many.bind fun _ => .pure _

theorem shrinks_additive {m : P Expr} (h : Shrinks m) : Shrinks (additive m) :=
  (shrinks_multitive h).bind fun _ =>
    (shrinks_addItem (shrinks_multitive h)).noGrow.many.bind fun _ => .pure _

theorem shrinks_parenthesized {m : P Expr} (h : Shrinks m) : Shrinks (parenthesized m) :=
  (shrinks_chr _).bind fun _ => h.noGrow.bind fun _ => (shrinks_chr _).noGrow.bind fun _ => .pure _

theorem shrinks_unaryPlus {m : P Expr} (h : Shrinks m) : Shrinks (unaryPlus m) :=
  (shrinks_chr _).bind fun _ => h.noGrow

theorem shrinks_unaryMinus {m : P Expr} (h : Shrinks m) : Shrinks (unaryMinus m) :=
  (shrinks_chr _).bind fun _ => h.noGrow.bind fun _ => .pure _

theorem shrinks_intPrimary (n : Nat) : Shrinks (intPrimary n) := by
  induction n with
  | zero => intro s c a s' c' h; cases h
  | succ n ih =>
    exact shrinks_integer.alt ((shrinks_unaryPlus ih).alt ((shrinks_unaryMinus ih).alt
      (shrinks_parenthesized (shrinks_additive ih))))

theorem shrinks_intExpr (n : Nat) : Shrinks (intExpr n) := shrinks_additive (shrinks_intPrimary n)

theorem shrinks_randomNumberOperand (n : Nat) : Shrinks (randomNumberOperand n) :=
  shrinks_integer.alt (shrinks_parenthesized (shrinks_intExpr n))

theorem shrinks_randomNumber (n : Nat) : Shrinks (randomNumber n) :=
  (shrinks_chr _).bind fun _ => (shrinks_randomNumberOperand n).noGrow.bind fun _ =>
    (noGrow_lit _).bind fun _ => (shrinks_randomNumberOperand n).noGrow.bind fun _ =>
    (shrinks_chr _).noGrow.bind fun _ => noGrow_inc.bind fun _ => .pure _

theorem shrinks_intRandPrimary (n : Nat) : Shrinks (intRandPrimary n) := by
  induction n with
  | zero => intro s c a s' c' h; cases h
  | succ n ih =>
    exact shrinks_integer.alt ((shrinks_randomNumber n).alt ((shrinks_unaryPlus ih).alt
      ((shrinks_unaryMinus ih).alt (shrinks_parenthesized (shrinks_additive ih)))))

theorem shrinks_rollOperand (n : Nat) : Shrinks (rollOperand n) :=
  shrinks_integer.alt ((shrinks_randomNumber n).alt
    (shrinks_parenthesized (shrinks_additive (shrinks_intRandPrimary n))))

theorem shrinks_dRoll (n : Nat) : Shrinks (dRoll n) :=
  (shrinks_rollOperand n).bind fun _ => (shrinks_chrI _).noGrow.bind fun _ =>
    (shrinks_rollOperand n).noGrow.bind fun _ => noGrow_inc.bind fun _ => .pure _

theorem shrinks_letterRoll (x : Char) (n : Nat) : Shrinks (letterRoll x n) :=
  (shrinks_rollOperand n).bind fun _ => (shrinks_chrI _).noGrow.bind fun _ =>
    (shrinks_rollOperand n).noGrow.bind fun _ => noGrow_inc.bind fun _ => .pure _

theorem shrinks_dRollPrimary (n : Nat) : Shrinks (dRollPrimary n) := by
  induction n with
  | zero => intro s c a s' c' h; cases h
  | succ n ih =>
    exact (shrinks_dRoll n).alt ((shrinks_randomNumber n).alt (shrinks_integer.alt
      ((shrinks_unaryPlus ih).alt ((shrinks_unaryMinus ih).alt
        (shrinks_parenthesized (shrinks_additive ih))))))

/-! ## Rules -/

/-- The value of an arithmetic rule. -/
def VE (e : Expr) (v : Val) : Prop := v = .expr e

/-- Rule `name`, on texts shorter than `L`, does what `p` does. -/
def Imp (env : PEnv) (p0 : Pt) (name : Str) (V : α → Val → Prop) (p : P α) (L : Nat) : Prop :=
  ∀ s c, s.length < L → Cl env p0 (.ruleRef name) V s c (p s c)

variable {env : PEnv} {p0 : Pt}

theorem Imp.mono {name : Str} {V : α → Val → Prop} {p : P α} {L L' : Nat} (h : Imp env p0 name V p L)
    (hl : L' ≤ L) : Imp env p0 name V p L' := fun s c hs => h s c (by omega)

theorem manyAux_sat (f : Char → Bool) (k : Nat) : ∀ (s : Str) (c : Nat), s.length ≤ k →
    P.manyAux (P.sat f) k s c = (s.takeWhile f, s.dropWhile f, c) := by
  induction k with
  | zero =>
    intro s c h
    have : s = [] := List.length_eq_zero_iff.1 (by omega)
    subst this
    rfl
  | succ k ih =>
    intro s c h
    unfold P.manyAux
    cases s with
    | nil => rfl
    | cons x s =>
      by_cases hx : f x = true
      · rw [P.sat_cons f x s c hx]
        dsimp only
        rw [ih s c (by simpa using h)]
        simp [List.takeWhile_cons, List.dropWhile_cons, hx]
      · rw [P.sat_none f (x :: s) c (by simpa using hx)]
        simp [List.takeWhile_cons, List.dropWhile_cons, hx]

theorem took_dropWhile (f : Char → Bool) (s : Str) : took s (s.dropWhile f) = s.takeWhile f := by
  have h := took_append (s.takeWhile f) (s.dropWhile f)
  rwa [List.takeWhile_append_dropWhile] at h

section Rules
variable (hr : env.rules = goGrammar) (hw : Wide p0.rest)
include hr

theorem imp_integer (L : Nat) : Imp env p0 chars!"Integer" VE integer L := by
  intro s c _
  have hcls : ∀ (s : Str) (c : Nat), s.length < s.length + 1 → Cl env p0 _ _ s c _ := fun s c _ =>
    Cl.cls chars!"[0-9]" [] [('0', '9')] [] false false isDigit
      (by intro x; simp [classHas, isDigit]) s c
  have h := Cl.many1 (L := s.length + 1) (s := s) (c := c) (fun s c _ => hcls s c (by omega))
    (shrinks_sat isDigit) (by omega)
  refine (rule_text (V := VE) (g := fun r => Expr.int (atoiSat (took s r.2.1)))
    (by rw [hr]; rfl) h (fun x s' c' v _ _ => ⟨_, rfl, rfl⟩)).congr ?_
  unfold integer many1
  rw [manyAux_sat _ _ _ _ (Nat.le_refl _)]
  split
  · rename_i h0; rw [h0]; rfl
  · rename_i ds hne
    cases hd : List.takeWhile isDigit s with
    | nil => exact absurd hd (by intro h0; exact hne h0)
    | cons x xs =>
      simp only [Option.map_some]
      rw [took_dropWhile, hd]

include hw

/-- The value of an additive operator. -/
def OpV (op : BinOp) (v : Val) : Prop :=
  (op = .add ∧ v = .bytes chars!"+") ∨ (op = .sub ∧ v = .bytes chars!"-")

omit hr in
theorem cl_addOp (s : Str) (c : Nat) :
    Cl env p0 (.choice [.lit chars!"+" false, .lit chars!"-" false]) OpV s c (addOp s c) := by
  refine (choice_intro (Cl.alt
    (Cl.map (V' := OpV) (fun _ => BinOp.add) (Cl.chr hw '+' (by decide) s c) (fun _ _ h => Or.inl ⟨rfl, h⟩))
    (alts_one (Cl.map (V' := OpV) (fun _ => BinOp.sub) (Cl.chr hw '-' (by decide) s c)
      (fun _ _ h => Or.inr ⟨rfl, h⟩))))).congr ?_
  cases s with
  | nil => rfl
  | cons x s =>
    by_cases h1 : x = '+'
    · subst h1; rfl
    · by_cases h2 : x = '-'
      · subst h2; rfl
      · have e1 : chr '+' (x :: s) c = none := chr_none _ _ _ (by simpa using h1)
        have e2 : chr '-' (x :: s) c = none := chr_none _ _ _ (by simpa using h2)
        rw [P.alt_right (P.bind_none e1), P.bind_none e2]
        unfold addOp
        split
        · simp_all
        · simp_all
        · rfl

/-- The value of an item of an additive rule. -/
def AddV (x : BinOp × Expr) (v : Val) : Prop := ∃ o, OpV x.1 o ∧ v = .list [o, .expr x.2]

omit hr hw in
theorem addLoop_ok (items : List (BinOp × Expr)) : ∀ (acc : Expr) (vs : List Val), AllV AddV items vs →
    addLoop acc vs = .ok (.expr (foldAdd acc items)) := by
  induction items with
  | nil => intro acc vs h; cases vs with
    | nil => rfl
    | cons => exact h.elim
  | cons x items ih =>
    intro acc vs h
    cases vs with
    | nil => exact h.elim
    | cons v vs =>
      obtain ⟨⟨o, ho, rfl⟩, h2⟩ := h
      obtain ⟨op, e⟩ := x
      rcases ho with ⟨rfl, rfl⟩ | ⟨rfl, rfl⟩
      · exact ih (.bin .add acc e) vs h2
      · exact ih (.bin .sub acc e) vs h2

omit hr in
theorem imp_additive {name mname : Str} {a : Action} {prim : P Expr} {L : Nat}
    (hl : env.rules.lookup name = some (.action a (.seq [
      .labeled chars!"first" (.ruleRef mname),
      .labeled chars!"rest" (.zeroOrMore (.seq [
        .choice [.lit chars!"+" false, .lit chars!"-" false], .ruleRef mname]))])))
    (ha : ∀ f text c, runAction a f text c =
      leftAssociativeAdditive (f.get chars!"first") (f.get chars!"rest"))
    (hs : Shrinks prim) (hm : Imp env p0 mname VE (multitive prim) L) :
    Imp env p0 name VE (additive prim) L := by
  have hitem : ∀ s c, s.length < L → Cl env p0 (.seq [
        .choice [.lit chars!"+" false, .lit chars!"-" false], .ruleRef mname]) AddV s c
        (addItem (multitive prim) s c) := by
    intro s c hL
    refine (Cl.seq (W := fun x vs => AddV x (.list vs)) ?_).imp (by rintro x v ⟨vs, rfl, h⟩; exact h)
    refine SeqDoes.next hw (cl_addOp hw s c) (fun op s1 c1 o h1 ho => ?_)
    have := shrinks_addOp _ _ _ _ _ h1
    refine SeqDoes.next hw (hm s1 c1 (by omega)) (fun e s2 c2 v h2 hv => ?_)
    exact SeqDoes.done ⟨o, ho, by rw [hv]⟩
  intro s c hL
  refine rule_steps hl ?_
  refine Steps.label hw (by decide) (hm s c hL) (fun e s1 c1 v h1 hv => ?_)
  have := shrinks_multitive hs _ _ _ _ _ h1
  refine Steps.label hw (by decide)
    (Cl.many (L := L) hitem (shrinks_addItem (shrinks_multitive hs)) (by omega))
    (fun items s2 c2 w h2 hv2 => ?_)
  refine Steps.done (fun text count => ?_)
  obtain ⟨vs, rfl, hall⟩ := hv2
  cases hv
  rw [ha]
  exact ⟨_, addLoop_ok items e vs hall, rfl⟩

/-- The value of an item of a multiplicative rule. -/
def MulV (x : MulOp × Expr) (v : Val) : Prop :=
  (x.1 = .mul ∧ v = .list [.bytes chars!"*", .expr x.2]) ∨
  (x.1 = .div .down ∧ v = .list [.bytes chars!"/", .expr x.2]) ∨
  (x.1 = .div .up ∧ ∃ t, v = .list [.bytes chars!"/", .expr x.2, .bytes t] ∧ upperAscii t = chars!"U") ∨
  (x.1 = .div .round ∧ ∃ t, v = .list [.bytes chars!"/", .expr x.2, .bytes t] ∧ upperAscii t = chars!"R")

omit hr hw in
theorem mulLoop_ok (items : List (MulOp × Expr)) : ∀ (acc : Expr) (vs : List Val), AllV MulV items vs →
    mulLoop acc vs = .ok (.expr (foldMul acc items)) := by
  induction items with
  | nil => intro acc vs h; cases vs with
    | nil => rfl
    | cons => exact h.elim
  | cons x items ih =>
    intro acc vs h
    cases vs with
    | nil => exact h.elim
    | cons v vs =>
      obtain ⟨hv, h2⟩ := h
      obtain ⟨op, e⟩ := x
      rcases hv with ⟨rfl, rfl⟩ | ⟨rfl, rfl⟩ | ⟨rfl, t, rfl, ht⟩ | ⟨rfl, t, rfl, ht⟩
      · exact ih (.bin .mul acc e) vs h2
      · exact ih (.div .down acc e) vs h2
      · rw [mulLoop, if_neg (by decide), if_pos (by decide), if_pos ht]
        exact ih (.div .up acc e) vs h2
      · rw [mulLoop, if_neg (by decide), if_pos (by decide), if_neg (by rw [ht]; decide), if_pos ht]
        exact ih (.div .round acc e) vs h2

omit hr in
theorem cl_mulOpChar (s : Str) (c : Nat) :
    Cl env p0 (.choice [.lit chars!"*" false, .lit chars!"/" false])
      (fun op v => (op = .mul ∧ v = .bytes chars!"*") ∨ (op = .div .down ∧ v = .bytes chars!"/"))
      s c (mulOpChar s c) := by
  refine (choice_intro (Cl.alt
    (Cl.map (fun _ => MulOp.mul) (Cl.chr hw '*' (by decide) s c) (fun _ _ h => Or.inl ⟨rfl, h⟩))
    (alts_one (Cl.map (fun _ => MulOp.div .down) (Cl.chr hw '/' (by decide) s c)
      (fun _ _ h => Or.inr ⟨rfl, h⟩))))).congr ?_
  cases s with
  | nil => rfl
  | cons x s =>
    by_cases h1 : x = '*'
    · subst h1; rfl
    · by_cases h2 : x = '/'
      · subst h2; rfl
      · have e1 : chr '*' (x :: s) c = none := chr_none _ _ _ (by simpa using h1)
        have e2 : chr '/' (x :: s) c = none := chr_none _ _ _ (by simpa using h2)
        rw [P.alt_right (P.bind_none e1), P.bind_none e2]
        unfold mulOpChar
        split
        · simp_all
        · simp_all
        · rfl

omit hr hw in
theorem cl_roundSuffix (s : Str) (c : Nat) :
    Cl env p0 (.charClass chars!"[ur]i" ['u', 'r'] [] [] true false)
      (fun m v => ∃ t, v = .bytes t ∧
        ((m = .up ∧ upperAscii t = chars!"U") ∨ (m = .round ∧ upperAscii t = chars!"R")))
      s c (roundSuffix s c) := by
  refine (Cl.map (fun x => if toLowerRune x == 'u' then Rounding.up else .round)
    (Cl.cls chars!"[ur]i" ['u', 'r'] [] [] true false
      (fun x => toLowerRune x == 'u' || toLowerRune x == 'r')
      (by intro x; simp [classHas, BEq.comm (a := toLowerRune x)]) s c) (fun x v h => ?_)).congr ?_
  · obtain ⟨rfl, hx⟩ := h
    refine ⟨[x], rfl, ?_⟩
    by_cases hu : toLowerRune x = 'u'
    · rw [if_pos (by simpa using hu)]
      left
      rcases (toLowerRune_u x).1 hu with rfl | rfl
      · exact ⟨rfl, by decide⟩
      · exact ⟨rfl, by decide⟩
    · rw [if_neg (by simpa using hu)]
      right
      have hr' : toLowerRune x = 'r' := by simpa [hu] using hx
      rcases (toLowerRune_r x).1 hr' with rfl | rfl
      · exact ⟨rfl, by decide⟩
      · exact ⟨rfl, by decide⟩
  · cases s with
    | nil => rfl
    | cons x s =>
      unfold roundSuffix
      by_cases hu : toLowerRune x = 'u'
      · have : (fun x => toLowerRune x == 'u' || toLowerRune x == 'r') x = true := by simp [hu]
        rw [P.bind_some (P.sat_cons _ x s c this)]
        simp [hu, P.pure_def]
      · by_cases hr' : toLowerRune x = 'r'
        · have : (fun x => toLowerRune x == 'u' || toLowerRune x == 'r') x = true := by simp [hr']
          rw [P.bind_some (P.sat_cons _ x s c this)]
          simp [hr', P.pure_def]
        · have : P.sat (fun x => toLowerRune x == 'u' || toLowerRune x == 'r') (x :: s) c = none :=
            P.sat_none _ _ _ (by simp [hu, hr'])
          rw [P.bind_none this]
          simp [hu, hr']

omit hr in
theorem imp_multitive {name pname : Str} {a : Action} {prim : P Expr} {L : Nat}
    (hl : env.rules.lookup name = some (.action a (.seq [
      .labeled chars!"first" (.ruleRef pname),
      .labeled chars!"rest" (.zeroOrMore (.choice [
        .seq [.lit chars!"/" false, .ruleRef pname,
          .charClass chars!"[ur]i" ['u', 'r'] [] [] true false],
        .seq [.choice [.lit chars!"*" false, .lit chars!"/" false], .ruleRef pname]]))])))
    (ha : ∀ f text c, runAction a f text c =
      leftAssociativeMultitive (f.get chars!"first") (f.get chars!"rest"))
    (hs : Shrinks prim) (hm : Imp env p0 pname VE prim L) :
    Imp env p0 name VE (multitive prim) L := by
  have hitem : ∀ s c, s.length < L → Cl env p0 (.choice [
        .seq [.lit chars!"/" false, .ruleRef pname,
          .charClass chars!"[ur]i" ['u', 'r'] [] [] true false],
        .seq [.choice [.lit chars!"*" false, .lit chars!"/" false], .ruleRef pname]]) MulV s c
        (mulItem prim s c) := by
    intro s c hL
    refine choice_intro (Cl.alt ?_ (alts_one ?_))
    · refine (Cl.seq (W := fun x vs => MulV x (.list vs)) ?_).imp (by rintro x v ⟨vs, rfl, h⟩; exact h)
      refine SeqDoes.next hw (Cl.chr hw '/' (by decide) s c) (fun _ s1 c1 o h1 ho => ?_)
      have := shrinks_chr _ _ _ _ _ _ h1
      refine SeqDoes.next hw (hm s1 c1 (by omega)) (fun e s2 c2 v h2 hv => ?_)
      refine SeqDoes.next hw (cl_roundSuffix s2 c2) (fun m s3 c3 w h3 hw3 => ?_)
      refine SeqDoes.done ?_
      obtain ⟨t, rfl, ht⟩ := hw3
      cases ho
      cases hv
      rcases ht with ⟨rfl, ht⟩ | ⟨rfl, ht⟩
      · exact Or.inr (Or.inr (Or.inl ⟨rfl, t, rfl, ht⟩))
      · exact Or.inr (Or.inr (Or.inr ⟨rfl, t, rfl, ht⟩))
    · refine (Cl.seq (W := fun x vs => MulV x (.list vs)) ?_).imp (by rintro x v ⟨vs, rfl, h⟩; exact h)
      refine SeqDoes.next hw (cl_mulOpChar hw s c) (fun op s1 c1 o h1 ho => ?_)
      have := shrinks_mulOpChar _ _ _ _ _ h1
      refine SeqDoes.next hw (hm s1 c1 (by omega)) (fun e s2 c2 v h2 hv => ?_)
      refine SeqDoes.done ?_
      cases hv
      rcases ho with ⟨rfl, rfl⟩ | ⟨rfl, rfl⟩
      · exact Or.inl ⟨rfl, rfl⟩
      · exact Or.inr (Or.inl ⟨rfl, rfl⟩)
  intro s c hL
  refine rule_steps hl ?_
  refine Steps.label hw (by decide) (hm s c hL) (fun e s1 c1 v h1 hv => ?_)
  have := hs _ _ _ _ _ h1
  refine Steps.label hw (by decide) (Cl.many (L := L) hitem (shrinks_mulItem hs) (by omega))
    (fun items s2 c2 w h2 hv2 => ?_)
  refine Steps.done (fun text count => ?_)
  obtain ⟨vs, rfl, hall⟩ := hv2
  cases hv
  rw [ha]
  exact ⟨_, mulLoop_ok items e vs hall, rfl⟩

omit hr in
theorem imp_parenthesized {name ename : Str} {a : Action} {p : P Expr} {L : Nat}
    (hl : env.rules.lookup name = some (.action a (.seq [.lit chars!"(" false,
      .labeled chars!"e" (.ruleRef ename), .lit chars!")" false])))
    (ha : ∀ e f text c, f.get chars!"e" = .expr e → runAction a f text c = .ok (.expr e))
    (hm : Imp env p0 ename VE p L) : Imp env p0 name VE (parenthesized p) (L + 1) := by
  intro s c hL
  refine rule_steps hl ?_
  refine Steps.item hw (Cl.chr hw '(' (by decide) s c) (fun _ s1 c1 h1 => ?_)
  have := shrinks_chr _ _ _ _ _ _ h1
  refine Steps.label hw (by decide) (hm s1 c1 (by omega)) (fun e s2 c2 v h2 hv => ?_)
  refine Steps.item hw (Cl.chr hw ')' (by decide) s2 c2) (fun _ s3 c3 h3 => ?_)
  cases hv
  exact Steps.done (fun text count => ⟨_, ha e _ _ _ rfl, rfl⟩)

omit hr in
theorem imp_unaryPlus {name ename : Str} {a : Action} {p : P Expr} {L : Nat}
    (hl : env.rules.lookup name = some (.action a (.seq [.lit chars!"+" false,
      .labeled chars!"e" (.ruleRef ename)])))
    (ha : ∀ e f text c, f.get chars!"e" = .expr e → runAction a f text c = .ok (.expr e))
    (hm : Imp env p0 ename VE p L) : Imp env p0 name VE (unaryPlus p) (L + 1) := by
  have hb : ∀ s c, unaryPlus p s c = (chr '+' >>= fun _ => p >>= fun x => (pure x : P Expr)) s c := by
    intro s c
    unfold unaryPlus
    cases h : chr '+' s c with
    | none => rw [P.bind_none h, P.bind_none h]
    | some r =>
      rw [P.bind_some h, P.bind_some h]
      cases h' : p r.2.1 r.2.2 with
      | none => rw [P.bind_none h']
      | some r' => rw [P.bind_some h']; rfl
  intro s c hL
  refine (rule_steps hl ?_).congr (hb s c)
  refine Steps.item hw (Cl.chr hw '+' (by decide) s c) (fun _ s1 c1 h1 => ?_)
  have := shrinks_chr _ _ _ _ _ _ h1
  refine Steps.label hw (by decide) (hm s1 c1 (by omega)) (fun e s2 c2 v h2 hv => ?_)
  cases hv
  exact Steps.done (fun text count => ⟨_, ha e _ _ _ rfl, rfl⟩)

omit hr in
theorem imp_unaryMinus {name ename : Str} {a : Action} {p : P Expr} {L : Nat}
    (hl : env.rules.lookup name = some (.action a (.seq [.lit chars!"-" false,
      .labeled chars!"e" (.ruleRef ename)])))
    (ha : ∀ e f text c, f.get chars!"e" = .expr e → runAction a f text c = .ok (.expr (.neg e)))
    (hm : Imp env p0 ename VE p L) : Imp env p0 name VE (unaryMinus p) (L + 1) := by
  intro s c hL
  refine rule_steps hl ?_
  refine Steps.item hw (Cl.chr hw '-' (by decide) s c) (fun _ s1 c1 h1 => ?_)
  have := shrinks_chr _ _ _ _ _ _ h1
  refine Steps.label hw (by decide) (hm s1 c1 (by omega)) (fun e s2 c2 v h2 hv => ?_)
  cases hv
  exact Steps.done (fun text count => ⟨_, ha e _ _ _ rfl, rfl⟩)

omit hr hw in
/-- The action of a parenthesized expression or a unary plus. -/
theorem act_same {a : Action} (h : a = .onParenthesizedIntExpr1 ∨ a = .onParenthesizedDRollExpr1 ∨
    a = .onParenthesizedIntRandExpr1 ∨ a = .onIntExprUnaryPlus1 ∨ a = .onDRollExprUnaryPlus1 ∨
    a = .onIntRandExprUnaryPlus1) (e : Expr) (f : Frame) (text : Str) (c : Option Int)
    (hf : f.get chars!"e" = .expr e) : runAction a f text c = .ok (.expr e) := by
  rcases h with rfl | rfl | rfl | rfl | rfl | rfl <;> (unfold runAction; simp only [hf])

omit hr hw in
/-- The action of a unary minus. -/
theorem act_neg {a : Action} (h : a = .onIntExprUnaryMinus1 ∨ a = .onDRollExprUnaryMinus1 ∨
    a = .onIntRandExprUnaryMinus1) (e : Expr) (f : Frame) (text : Str) (c : Option Int)
    (hf : f.get chars!"e" = .expr e) : runAction a f text c = .ok (.expr (.neg e)) := by
  rcases h with rfl | rfl | rfl <;> (unfold runAction; simp only [hf])

theorem imp_intPrimary (n : Nat) : Imp env p0 chars!"IntExprPrimary" VE (intPrimary n) n ∧
    Imp env p0 chars!"ParenthesizedIntExpr" VE (parenthesized (intExpr n)) (n + 1) ∧
    Imp env p0 chars!"IntExprAdditive" VE (intExpr n) n ∧
    Imp env p0 chars!"IntExpr" VE (intExpr n) n := by
  have up : ∀ n, Imp env p0 chars!"IntExprPrimary" VE (intPrimary n) n →
      Imp env p0 chars!"ParenthesizedIntExpr" VE (parenthesized (intExpr n)) (n + 1) ∧
      Imp env p0 chars!"IntExprAdditive" VE (intExpr n) n ∧
      Imp env p0 chars!"IntExpr" VE (intExpr n) n := by
    intro n ih
    have hmul := imp_multitive hw (name := chars!"IntExprMultitive") (by rw [hr]; rfl)
      (fun _ _ _ => rfl) (shrinks_intPrimary n) ih
    have hadd := imp_additive hw (name := chars!"IntExprAdditive") (by rw [hr]; rfl)
      (fun _ _ _ => rfl) (shrinks_intPrimary n) hmul
    have hexp : Imp env p0 chars!"IntExpr" VE (intExpr n) n := fun s c hL =>
      rule_plain (by rw [hr]; rfl) (hadd s c hL)
    exact ⟨imp_parenthesized hw (by rw [hr]; rfl) (act_same (by simp)) hexp, hadd, hexp⟩
  suffices h : Imp env p0 chars!"IntExprPrimary" VE (intPrimary n) n from ⟨h, up n h⟩
  induction n with
  | zero => intro s c h; omega
  | succ n ih =>
    intro s c hL
    refine rule_plain (by rw [hr]; rfl) (choice_intro ?_)
    refine Cl.alt (imp_integer hr _ s c hL) (Cl.alt ?_ (Cl.alt ?_ (alts_one ?_)))
    · exact imp_unaryPlus hw (by rw [hr]; rfl) (act_same (by simp)) ih s c hL
    · exact imp_unaryMinus hw (by rw [hr]; rfl) (act_neg (by simp)) ih s c hL
    · exact (up n ih).1 s c hL

theorem imp_randomNumber (n : Nat) : Imp env p0 chars!"RandomNumber" VE (randomNumber n) (n + 1) := by
  have hop : Imp env p0 chars!"RandomNumberOperand" VE (randomNumberOperand n) (n + 1) := fun s c hL =>
    rule_plain (by rw [hr]; rfl) (choice_intro (Cl.alt (imp_integer hr _ s c hL)
      (alts_one ((imp_intPrimary hr hw n).2.1 s c hL))))
  intro s c hL
  refine rule_steps (by rw [hr]; rfl) ?_
  refine Steps.item hw (Cl.chr hw '[' (by decide) s c) (fun _ s1 c1 h1 => ?_)
  have l1 := shrinks_chr _ _ _ _ _ _ h1
  refine Steps.label hw (by decide) (hop s1 c1 (by omega)) (fun e s2 c2 v h2 hv => ?_)
  have l2 := shrinks_randomNumberOperand _ _ _ _ _ _ h2
  refine Steps.item hw (Cl.lit hw chars!"..." (by decide) s2 c2) (fun _ s3 c3 h3 => ?_)
  have l3 := noGrow_lit _ _ _ _ _ _ h3
  refine Steps.label hw (by decide) (hop s3 c3 (by omega)) (fun e' s4 c4 v' h4 hv' => ?_)
  refine Steps.item hw (Cl.chr hw ']' (by decide) s4 c4) (fun _ s5 c5 h5 => ?_)
  refine Steps.item hw (rule_plain (by rw [hr]; rfl) (Cl.inc s5 c5)) (fun _ s6 c6 h6 => ?_)
  cases hv
  cases hv'
  exact Steps.done (fun text count => ⟨_, rfl, rfl⟩)

theorem imp_intRandPrimary (n : Nat) : Imp env p0 chars!"IntRandExprPrimary" VE (intRandPrimary n) n ∧
    Imp env p0 chars!"ParenthesizedIntRandExpr" VE (parenthesized (intRandExpr n)) (n + 1) := by
  have up : ∀ n, Imp env p0 chars!"IntRandExprPrimary" VE (intRandPrimary n) n →
      Imp env p0 chars!"ParenthesizedIntRandExpr" VE (parenthesized (intRandExpr n)) (n + 1) := by
    intro n ih
    have hmul := imp_multitive hw (name := chars!"IntRandExprMultitive") (by rw [hr]; rfl)
      (fun _ _ _ => rfl) (shrinks_intRandPrimary n) ih
    have hadd := imp_additive hw (name := chars!"IntRandExprAdditive") (by rw [hr]; rfl)
      (fun _ _ _ => rfl) (shrinks_intRandPrimary n) hmul
    have hexp : Imp env p0 chars!"IntRandExpr" VE (intRandExpr n) n := fun s c hL =>
      rule_plain (by rw [hr]; rfl) (hadd s c hL)
    exact imp_parenthesized hw (by rw [hr]; rfl) (act_same (by simp)) hexp
  suffices h : Imp env p0 chars!"IntRandExprPrimary" VE (intRandPrimary n) n from ⟨h, up n h⟩
  induction n with
  | zero => intro s c h; omega
  | succ n ih =>
    intro s c hL
    refine rule_plain (by rw [hr]; rfl) (choice_intro ?_)
    refine Cl.alt (imp_integer hr _ s c hL) (Cl.alt (imp_randomNumber hr hw n s c hL)
      (Cl.alt ?_ (Cl.alt ?_ (alts_one ?_))))
    · exact imp_unaryPlus hw (by rw [hr]; rfl) (act_same (by simp)) ih s c hL
    · exact imp_unaryMinus hw (by rw [hr]; rfl) (act_neg (by simp)) ih s c hL
    · exact up n ih s c hL

theorem imp_rollOperand (n : Nat) : Imp env p0 chars!"RollOperand" VE (rollOperand n) (n + 1) :=
  fun s c hL => rule_plain (by rw [hr]; rfl) (choice_intro (Cl.alt (imp_integer hr _ s c hL)
    (Cl.alt (imp_randomNumber hr hw n s c hL) (alts_one ((imp_intRandPrimary hr hw n).2 s c hL)))))

theorem imp_dRoll (n : Nat) : Imp env p0 chars!"DRoll" VE (dRoll n) (n + 1) := by
  intro s c hL
  refine rule_steps (by rw [hr]; rfl) ?_
  refine Steps.label hw (by decide) (imp_rollOperand hr hw n s c hL) (fun e s1 c1 v h1 hv => ?_)
  have l1 := shrinks_rollOperand _ _ _ _ _ _ h1
  refine Steps.item hw (Cl.chrI hw 'd' (by decide) s1 c1) (fun _ s2 c2 h2 => ?_)
  have l2 := shrinks_chrI _ _ _ _ _ _ h2
  refine Steps.label hw (by decide) (imp_rollOperand hr hw n s2 c2 (by omega))
    (fun e' s3 c3 v' h3 hv' => ?_)
  refine Steps.item hw (rule_plain (by rw [hr]; rfl) (Cl.inc s3 c3)) (fun _ s4 c4 h4 => ?_)
  cases hv
  cases hv'
  exact Steps.done (fun text count => ⟨_, rfl, rfl⟩)

theorem imp_dRollPrimary (n : Nat) : Imp env p0 chars!"DRollExprPrimary" VE (dRollPrimary n) n ∧
    Imp env p0 chars!"DRollExprAdditive" VE (dRollExpr n) n ∧
    Imp env p0 chars!"DRollExpr" VE (dRollExpr n) n := by
  have up : ∀ n, Imp env p0 chars!"DRollExprPrimary" VE (dRollPrimary n) n →
      Imp env p0 chars!"DRollExprAdditive" VE (dRollExpr n) n ∧
      Imp env p0 chars!"DRollExpr" VE (dRollExpr n) n := by
    intro n ih
    have hmul := imp_multitive hw (name := chars!"DRollExprMultitive") (by rw [hr]; rfl)
      (fun _ _ _ => rfl) (shrinks_dRollPrimary n) ih
    have hadd := imp_additive hw (name := chars!"DRollExprAdditive") (by rw [hr]; rfl)
      (fun _ _ _ => rfl) (shrinks_dRollPrimary n) hmul
    exact ⟨hadd, fun s c hL => rule_plain (by rw [hr]; rfl) (hadd s c hL)⟩
  suffices h : Imp env p0 chars!"DRollExprPrimary" VE (dRollPrimary n) n from ⟨h, up n h⟩
  induction n with
  | zero => intro s c h; omega
  | succ n ih =>
    intro s c hL
    refine rule_plain (by rw [hr]; rfl) (choice_intro ?_)
    refine Cl.alt (imp_dRoll hr hw n s c hL) (Cl.alt (imp_randomNumber hr hw n s c hL)
      (Cl.alt (imp_integer hr _ s c hL) (Cl.alt ?_ (Cl.alt ?_ (alts_one ?_)))))
    · exact imp_unaryPlus hw (by rw [hr]; rfl) (act_same (by simp)) ih s c hL
    · exact imp_unaryMinus hw (by rw [hr]; rfl) (act_neg (by simp)) ih s c hL
    · exact imp_parenthesized hw (by rw [hr]; rfl) (act_same (by simp)) (up n ih).2 s c hL

end Rules

end GoBCDice.Pigeon
