import Verif.Lemmas.PigeonRules
import Verif.Lemmas.ParserTop

/-!
# The generated parser against the rule functions: the commands
-/

namespace GoBCDice.Pigeon

variable {α β γ : Type}

theorem bind_assoc' (p : P α) (f : α → P β) (g : β → P γ) :
    ((p >>= f) >>= g) = (p >>= fun a => f a >>= g) := by
  funext s c
  cases h : p s c with
  | none => rw [P.bind_none (P.bind_none h), P.bind_none h]
  | some r =>
    rw [P.bind_some h]
    cases h2 : f r.1 r.2.1 r.2.2 with
    | none => rw [P.bind_none h2, P.bind_none (by rw [P.bind_some h]; exact h2)]
    | some r2 => rw [P.bind_some h2, P.bind_some (by rw [P.bind_some h]; exact h2)]

theorem pure_bind' (a : α) (f : α → P β) : ((pure a : P α) >>= f) = f a := rfl

variable {env : PEnv} {p0 : Pt}

section Rules
variable (hr : env.rules = goGrammar) (hw : Wide p0.rest)
include hw

/-- The value of a comparison operator. -/
def CpV (op : CmpOp) (v : Val) : Prop := ∃ t, v = .bytes t ∧ cmpOfText t = some op

/-- One alternative of `CompareOp`. -/
theorem cl_cmp (t : Str) (op : CmpOp) (ht : runeError ∉ t) (h : cmpOfText t = some op) (s : Str) (c : Nat) :
    Cl env p0 (.lit t false) CpV s c ((do let _ ← lit t; pure op : P CmpOp) s c) :=
  Cl.map (fun _ => op) (Cl.lit hw t ht s c) (fun _ v hv => ⟨t, hv, h⟩)

omit hw in
theorem lit1 (x y : Char) (s : Str) (c : Nat) : (do let _ ← lit [x]; pure a : P α) (y :: s) c =
    if y = x then some (a, s, c) else none := by
  by_cases h : y = x
  · subst h
    rw [if_pos rfl]
    exact P.bind_some (lit_append [y] s c)
  · rw [if_neg h]
    exact P.bind_none (P.bind_none (chr_none _ _ _ (by simpa using h)))

omit hw in
theorem lit2 (x x' y : Char) (s : Str) (c : Nat) : (do let _ ← lit [x, x']; pure a : P α) (y :: s) c =
    if y = x then (do let _ ← lit [x']; pure a : P α) s c else none := by
  by_cases h : y = x
  · subst h
    rw [if_pos rfl]
    show ((chr y >>= fun _ => lit [x']) >>= fun _ => pure a) (y :: s) c = _
    rw [bind_assoc', P.bind_some (chr_cons y s c)]
  · rw [if_neg h]
    exact P.bind_none (P.bind_none (chr_none _ _ _ (by simpa using h)))

omit hw in
theorem lit1_nil (x : Char) (c : Nat) : (do let _ ← lit [x]; pure a : P α) [] c = none :=
    P.bind_none (P.bind_none (chr_none _ _ _ (by simp)))

omit hw in
theorem lit2_nil (x x' : Char) (c : Nat) : (do let _ ← lit [x, x']; pure a : P α) [] c = none :=
    P.bind_none (P.bind_none (chr_none _ _ _ (by simp)))

include hr in
theorem imp_compareOp (L : Nat) : Imp env p0 chars!"CompareOp" CpV compareOp L := by
  intro s c _
  refine (rule_plain (by rw [hr]; rfl) (choice_intro
    (Cl.alt (cl_cmp hw chars!"=" .eq (by decide) (by decide) s c)
    (Cl.alt (cl_cmp hw chars!"<>" .ne (by decide) (by decide) s c)
    (Cl.alt (cl_cmp hw chars!"<=" .le (by decide) (by decide) s c)
    (Cl.alt (cl_cmp hw chars!"<" .lt (by decide) (by decide) s c)
    (Cl.alt (cl_cmp hw chars!">=" .ge (by decide) (by decide) s c)
    (alts_one (cl_cmp hw chars!">" .gt (by decide) (by decide) s c))))))))).congr ?_
  simp only [P.alt_def]
  cases s with
  | nil => rfl
  | cons x s =>
    simp only [lit1, lit2]
    by_cases h1 : x = '='
    · subst h1; rfl
    · by_cases h2 : x = '<'
      · subst h2
        simp only [h1, if_false, if_true]
        cases s with
        | nil => rfl
        | cons y s =>
          simp only [lit1]
          by_cases h3 : y = '>'
          · subst h3; rfl
          · by_cases h4 : y = '='
            · subst h4; rfl
            · simp only [h3, h4, if_false]
              unfold compareOp
              split <;> simp_all
      · by_cases h3 : x = '>'
        · subst h3
          simp only [h1, h2, if_false, if_true]
          cases s with
          | nil => rfl
          | cons y s =>
            simp only [lit1]
            by_cases h4 : y = '='
            · subst h4; rfl
            · simp only [h4, if_false]
              unfold compareOp
              split <;> simp_all
        · simp only [h1, h2, h3, if_false]
          unfold compareOp
          split <;> simp_all

/-! ## Rolls -/

/-- The value of a roll rule. -/
def VR (k : Letter) (r : Roll) (v : Val) : Prop := v = .roll k r

include hr in
theorem imp_letterRoll {name : Str} {a : Action} {k : Letter} (x : Char) (hx : runeError ≠ x) (n : Nat)
    (hl : env.rules.lookup name = some (.action a (.seq [
      .labeled chars!"num" (.ruleRef chars!"RollOperand"), .lit [x] true,
      .labeled chars!"sides" (.ruleRef chars!"RollOperand"), .ruleRef chars!"IncRandCount"])))
    (ha : ∀ num sides text c, runAction a [(chars!"sides", .expr sides), (chars!"num", .expr num)] text c =
      .ok (.roll k ⟨num, sides⟩)) :
    Imp env p0 name (VR k) (letterRoll x n) (n + 1) := by
  intro s c hL
  refine rule_steps hl ?_
  refine Steps.label hw (by decide) (imp_rollOperand hr hw n s c hL) (fun e s1 c1 v h1 hv => ?_)
  have l1 := shrinks_rollOperand _ _ _ _ _ _ h1
  refine Steps.item hw (Cl.chrI hw x hx s1 c1) (fun _ s2 c2 h2 => ?_)
  have l2 := shrinks_chrI _ _ _ _ _ _ h2
  refine Steps.label hw (by decide) (imp_rollOperand hr hw n s2 c2 (by omega))
    (fun e' s3 c3 v' h3 hv' => ?_)
  refine Steps.item hw (rule_plain (by rw [hr]; rfl) (Cl.inc s3 c3)) (fun _ s4 c4 h4 => ?_)
  cases hv
  cases hv'
  exact Steps.done (fun text count => ⟨_, ha e e' text _, rfl⟩)

include hr in
theorem imp_bRoll (n : Nat) : Imp env p0 chars!"BRoll" (VR .b) (letterRoll 'b' n) (n + 1) :=
  imp_letterRoll hr hw 'b' (by decide) n (by rw [hr]; rfl) (fun _ _ _ _ => rfl)

include hr in
theorem imp_rRoll (n : Nat) : Imp env p0 chars!"RRoll" (VR .r) (letterRoll 'r' n) (n + 1) :=
  imp_letterRoll hr hw 'r' (by decide) n (by rw [hr]; rfl) (fun _ _ _ _ => rfl)

include hr in
theorem imp_uRoll (n : Nat) : Imp env p0 chars!"URoll" (VR .u) (letterRoll 'u' n) (n + 1) :=
  imp_letterRoll hr hw 'u' (by decide) n (by rw [hr]; rfl) (fun _ _ _ _ => rfl)

/-- The value of `'+' Roll`. -/
def PlusV (k : Letter) (r : Roll) (v : Val) : Prop := ∃ x, v = .list [x, .roll k r]

omit hw in
theorem restRolls_ok (k : Letter) (rs : List Roll) : ∀ vs, AllV (PlusV k) rs vs → restRolls k vs = some rs := by
  induction rs with
  | nil => intro vs h; cases vs with
    | nil => rfl
    | cons => exact h.elim
  | cons r rs ih =>
    intro vs h
    cases vs with
    | nil => exact h.elim
    | cons v vs =>
      obtain ⟨⟨x, rfl⟩, h2⟩ := h
      rw [restRolls, if_pos rfl, ih vs h2]
      rfl

theorem cl_plusRoll {name : Str} {k : Letter} {roll : P Roll} {L : Nat}
    (h : Imp env p0 name (VR k) roll L) (s : Str) (c : Nat) (hL : s.length < L) :
    Cl env p0 (.seq [.lit chars!"+" false, .ruleRef name]) (PlusV k) s c (plusRoll roll s c) := by
  refine (Cl.seq (W := fun x vs => PlusV k x (.list vs)) ?_).imp (by rintro x v ⟨vs, rfl, h⟩; exact h)
  refine SeqDoes.next hw (Cl.chr hw '+' (by decide) s c) (fun _ s1 c1 o h1 ho => ?_)
  have := shrinks_chr _ _ _ _ _ _ h1
  exact SeqDoes.last hw (h s1 c1 (by omega)) (fun r v hv => ⟨o, by rw [hv]⟩)

omit hw in
theorem shrinks_plusRoll {roll : P Roll} (h : Shrinks roll) : Shrinks (plusRoll roll) :=
  (shrinks_chr _).bind fun _ => h.noGrow

omit hw in
theorem shrinks_rollList {roll : P Roll} (h : Shrinks roll) : Shrinks (rollList roll) :=
  h.bind fun _ => (shrinks_plusRoll h).noGrow.many.bind fun _ => .pure _

include hr in
theorem imp_bRollList (n : Nat) : Imp env p0 chars!"BRollList" (fun rolls v => v = .node (.bRollList rolls))
    (rollList (letterRoll 'b' n)) (n + 1) := by
  intro s c hL
  refine rule_steps (by rw [hr]; rfl) ?_
  refine Steps.label hw (by decide) (imp_bRoll hr hw n s c hL) (fun e s1 c1 v h1 hv => ?_)
  have l1 := shrinks_letterRoll _ _ _ _ _ _ _ h1
  refine Steps.label hw (by decide) (Cl.many (L := n + 1)
    (fun s c hL => cl_plusRoll hw (imp_bRoll hr hw n) s c hL)
    (shrinks_plusRoll (shrinks_letterRoll _ _)) (by omega)) (fun rs s2 c2 w h2 hv2 => ?_)
  obtain ⟨vs, rfl, hall⟩ := hv2
  cases hv
  refine Steps.done (fun text count => ⟨_, ?_, rfl⟩)
  show rollListAction (.roll .b e) (.list vs) = _
  simp only [rollListAction, toSlice, restRolls_ok .b rs vs hall]

/-- The value of a threshold. -/
def ThV (e : Expr) (v : Val) : Prop := ∃ x y, v = .list [x, .expr e, y]

include hr in
theorem cl_threshold (n : Nat) (s : Str) (c : Nat) (hL : s.length < n + 1) :
    Cl env p0 (.zeroOrOne (.seq [.lit chars!"[" false, .ruleRef chars!"IntExpr", .lit chars!"]" false]))
      (OptV ThV) s c (P.opt (threshold n) s c) := by
  refine Cl.opt ((Cl.seq (W := fun x vs => ThV x (.list vs)) ?_).imp (by rintro x v ⟨vs, rfl, h⟩; exact h))
  refine SeqDoes.next hw (Cl.chr hw '[' (by decide) s c) (fun _ s1 c1 o h1 ho => ?_)
  have := shrinks_chr _ _ _ _ _ _ h1
  refine SeqDoes.next hw ((imp_intPrimary hr hw n).2.2.2 s1 c1 (by omega)) (fun e s2 c2 v h2 hv => ?_)
  refine SeqDoes.next hw (Cl.chr hw ']' (by decide) s2 c2) (fun _ s3 c3 w h3 hv3 => ?_)
  exact SeqDoes.done ⟨o, w, by rw [hv]⟩

omit hw in
theorem thresholdOf_ok {th : Option Expr} {v : Val} (h : OptV ThV th v) : thresholdOf v = some th := by
  cases th with
  | none => rw [show v = .nil from h]; rfl
  | some e =>
    obtain ⟨x, y, rfl⟩ := (h : ThV e v)
    rfl

include hr in
theorem imp_rRollList {name rname : Str} {a : Action} {k : Letter} {x : Char} (n : Nat)
    (hl : env.rules.lookup name = some (.action a (.seq [
      .labeled chars!"first" (.ruleRef rname),
      .labeled chars!"rest" (.zeroOrMore (.seq [.lit chars!"+" false, .ruleRef rname])),
      .labeled chars!"th" (.zeroOrOne (.seq [.lit chars!"[" false, .ruleRef chars!"IntExpr",
        .lit chars!"]" false]))])))
    (ha : ∀ f text c, runAction a f text c =
      rRollListAction k (f.get chars!"first") (f.get chars!"rest") (f.get chars!"th"))
    (hroll : Imp env p0 rname (VR k) (letterRoll x n) (n + 1)) :
    Imp env p0 name (fun rl v => v = .rRollList k rl) (rRollList x n) (n + 1) := by
  intro s c hL
  unfold rRollList rollList
  simp only [bind_assoc', pure_bind']
  refine rule_steps hl ?_
  refine Steps.label hw (by decide) (hroll s c hL) (fun e s1 c1 v h1 hv => ?_)
  have l1 := shrinks_letterRoll _ _ _ _ _ _ _ h1
  refine Steps.label hw (by decide) (Cl.many (L := n + 1)
    (fun s c hL => cl_plusRoll hw hroll s c hL)
    (shrinks_plusRoll (shrinks_letterRoll _ _)) (by omega)) (fun rs s2 c2 w h2 hv2 => ?_)
  have l2 := (shrinks_plusRoll (shrinks_letterRoll x n)).noGrow.many _ _ _ _ _ h2
  refine Steps.label hw (by decide) (cl_threshold hr hw n s2 c2 (by omega)) (fun th s3 c3 w3 h3 hv3 => ?_)
  obtain ⟨vs, rfl, hall⟩ := hv2
  cases hv
  refine Steps.done (fun text count => ⟨_, ?_, rfl⟩)
  rw [ha]
  show rRollListAction k (.roll k e) (.list vs) w3 = _
  simp only [rRollListAction, toSlice, restRolls_ok k rs vs hall, thresholdOf_ok hv3, if_true]

omit hw in
theorem shrinks_rRollList (x : Char) (n : Nat) : Shrinks (rRollList x n) :=
  (shrinks_rollList (shrinks_letterRoll x n)).bind fun _ =>
    (NoGrow.opt ((shrinks_chr _).bind fun _ => (shrinks_intExpr n).noGrow.bind fun _ =>
      (shrinks_chr _).noGrow.bind fun _ => .pure _).noGrow).bind fun _ => .pure _

/-- The value of a bonus. -/
def BonusV (b : Sign × Expr) (v : Val) : Prop :=
  (b.1 = .plus ∧ v = .list [.bytes chars!"+", .expr b.2]) ∨
  (b.1 = .minus ∧ v = .list [.bytes chars!"-", .expr b.2])

include hr in
theorem imp_uRollExpr (n : Nat) : Imp env p0 chars!"URollExpr" (fun u v => v = .node (.uRollExpr u))
    (uRollExpr n) (n + 1) := by
  intro s c hL
  refine rule_steps (by rw [hr]; rfl) ?_
  refine Steps.label hw (by decide) (imp_rRollList hr hw (name := chars!"URollList") n (by rw [hr]; rfl)
    (fun _ _ _ => rfl) (imp_uRoll hr hw n) s c hL) (fun rl s1 c1 v h1 hv => ?_)
  have l1 := shrinks_rRollList _ _ _ _ _ _ _ h1
  have hb : Cl env p0 (.zeroOrOne (.seq [.choice [.lit chars!"+" false, .lit chars!"-" false],
      .ruleRef chars!"IntExprAdditive"])) (OptV BonusV) s1 c1 (P.opt (bonus n) s1 c1) := by
    refine Cl.opt ((Cl.seq (W := fun x vs => BonusV x (.list vs)) ?_).imp
      (by rintro x v ⟨vs, rfl, h⟩; exact h))
    refine SeqDoes.next hw (cl_addOp hw s1 c1) (fun op s2 c2 o h2 ho => ?_)
    have := shrinks_addOp _ _ _ _ _ h2
    refine SeqDoes.next hw ((imp_intPrimary hr hw n).2.2.1 s2 c2 (by omega)) (fun e s3 c3 v h3 hv => ?_)
    refine SeqDoes.done ?_
    cases hv
    rcases ho with ⟨rfl, rfl⟩ | ⟨rfl, rfl⟩
    · exact Or.inl ⟨rfl, rfl⟩
    · exact Or.inr ⟨rfl, rfl⟩
  refine Steps.label hw (by decide) hb (fun b s2 c2 w h2 hv2 => ?_)
  subst hv
  refine Steps.done (fun text count => ⟨_, ?_, rfl⟩)
  show uRollExprAction (.rRollList .u rl) w = _
  cases b with
  | none => rw [show w = .nil from hv2]; rfl
  | some b =>
    obtain ⟨sg, e⟩ := b
    rcases (hv2 : BonusV (sg, e) w) with ⟨h, rfl⟩ | ⟨h, rfl⟩
    · dsimp only at h; subst h; rfl
    · dsimp only at h; subst h; rfl

omit hw in
theorem shrinks_uRollExpr (n : Nat) : Shrinks (uRollExpr n) :=
  (shrinks_rRollList 'u' n).bind fun _ =>
    (NoGrow.opt (shrinks_addOp.bind fun _ => (shrinks_intExpr n).noGrow.bind fun _ => .pure _).noGrow).bind
      fun _ => .pure _

/-! ## Comparisons -/

include hr in
theorem imp_comp {name lname : Str} {a : Action} {Vl : α → Val → Prop} {V : β → Val → Prop} {p : P α}
    {mk : α → CmpOp → Expr → β} (k : Option Letter) (n : Nat)
    (hl : env.rules.lookup name = some (.action a (.seq [
      .labeled chars!"left" (.ruleRef lname), .labeled chars!"op" (.ruleRef chars!"CompareOp"),
      .labeled chars!"right" (.ruleRef chars!"IntExpr")])))
    (ha : ∀ f text c, runAction a f text c =
      compareAction k (f.get chars!"left") (f.get chars!"op") (f.get chars!"right"))
    (hv : ∀ x v op t r, Vl x v → cmpOfText t = some op →
      ∃ w, compareAction k v (.bytes t) (.expr r) = .ok w ∧ V (mk x op r) w)
    (hp : Imp env p0 lname Vl p n) (hs : Shrinks p) :
    Imp env p0 name V (p >>= fun x => compareOp >>= fun op => intExpr n >>= fun r => pure (mk x op r)) n := by
  intro s c hL
  refine rule_steps hl ?_
  refine Steps.label hw (by decide) (hp s c hL) (fun x s1 c1 v h1 hx => ?_)
  have l1 := hs _ _ _ _ _ h1
  refine Steps.label hw (by decide) (imp_compareOp hr hw n s1 c1 (by omega)) (fun op s2 c2 o h2 ho => ?_)
  have l2 := shrinks_compareOp _ _ _ _ _ h2
  refine Steps.label hw (by decide) ((imp_intPrimary hr hw n).2.2.2 s2 c2 (by omega))
    (fun r s3 c3 w h3 hw3 => ?_)
  obtain ⟨t, rfl, ht⟩ := ho
  cases hw3
  refine Steps.done (fun text count => ?_)
  rw [ha]
  exact hv x v op t r hx ht

/-! ## Choice and Calc -/

include hr in
theorem imp_calc (n : Nat) : Imp env p0 chars!"Calc" (fun nd v => v = .node nd) (calcCmd n) n := by
  intro s c hL
  refine rule_steps (by rw [hr]; rfl) ?_
  refine Steps.item hw (Cl.chrI hw 'c' (by decide) s c) (fun _ s1 c1 h1 => ?_)
  have l1 := shrinks_chrI _ _ _ _ _ _ h1
  refine Steps.item hw (Cl.chr hw '(' (by decide) s1 c1) (fun _ s2 c2 h2 => ?_)
  have l2 := shrinks_chr _ _ _ _ _ _ h2
  refine Steps.label hw (by decide) ((imp_intPrimary hr hw n).2.2.2 s2 c2 (by omega))
    (fun e s3 c3 v h3 hv => ?_)
  refine Steps.item hw (Cl.chr hw ')' (by decide) s3 c3) (fun _ s4 c4 h4 => ?_)
  cases hv
  exact Steps.done (fun text count => ⟨_, rfl, rfl⟩)

omit hw in
theorem cl_separators (s : Str) (c : Nat) :
    Cl env p0 (.zeroOrMore (.charClass chars!"[\\pZ]" [] [] [chars!"Z"] false false)) (fun _ _ => True)
      s c (separators s c) := by
  have h := Cl.many (env := env) (p0 := p0) (L := s.length + 1) (s := s) (c := c)
    (fun s c _ => Cl.cls chars!"[\\pZ]" [] [] [chars!"Z"] false false isSeparator
      (by intro x; simp [classHas, inClass]) s c) (shrinks_sat isSeparator) (by omega)
  refine (Cl.map (V' := fun _ _ => True) (fun _ => ()) h (fun _ _ _ => trivial)).congr ?_
  unfold separators
  have : P.many (P.sat isSeparator) s c = some (s.takeWhile isSeparator, s.dropWhile isSeparator, c) := by
    unfold P.many; rw [manyAux_sat _ _ _ _ (Nat.le_refl _)]
  rw [P.bind_some this]
  rfl

omit hw in
theorem noGrow_separators : NoGrow separators := by
  intro s c a s' c' h
  cases h
  have := congrArg List.length (List.takeWhile_append_dropWhile (p := isSeparator) (l := s))
  rw [List.length_append] at this
  omega

omit hw in
theorem shrinks_itemChars : Shrinks choiceItemChars := by
  intro s c a s' c' h
  unfold choiceItemChars at h
  split at h
  · cases h
  · rename_i hne
    cases h
    exact dropWhile_lt (by intro h0; exact hne h0)

omit hw in
theorem shrinks_choiceItem : Shrinks choiceItem := by
  intro s c a s' c' h
  obtain ⟨u, s1, c1, h1, h2⟩ := P.bind_ok.1 h
  exact Nat.lt_of_lt_of_le (shrinks_itemChars _ _ _ _ _ h2) (noGrow_separators _ _ _ _ _ h1)

omit hw in
include hr in
theorem imp_itemChars (L : Nat) : Imp env p0 chars!"ChoiceItemChars" (fun t v => v = .str t) choiceItemChars L := by
  intro s c _
  have h := Cl.many1 (env := env) (p0 := p0) (L := s.length + 1) (s := s) (c := c)
    (fun s c _ => Cl.cls chars!"[^\\],]" [']', ','] [] [] false true isItemChar
      (by intro x; simp [classHas, isItemChar, BEq.comm (a := x)]) s c)
    (shrinks_sat isItemChar) (by omega)
  refine (rule_text (V := fun t v => v = .str t) (g := fun r => trimSpace (took s r.2.1))
    (by rw [hr]; rfl) h (fun x s' c' v _ _ => ⟨_, rfl, rfl⟩)).congr ?_
  unfold choiceItemChars many1
  rw [manyAux_sat _ _ _ _ (Nat.le_refl _)]
  split
  · rename_i h0; rw [h0]; rfl
  · rename_i ds hne
    cases hd : List.takeWhile isItemChar s with
    | nil => exact absurd hd (by intro h0; exact hne h0)
    | cons x xs =>
      simp only [Option.map_some]
      rw [took_dropWhile, hd]

include hr in
theorem imp_choiceItem (L : Nat) : Imp env p0 chars!"ChoiceItem" (fun t v => v = .str t) choiceItem L := by
  intro s c hL
  have hb : choiceItem s c =
      (separators >>= fun _ => choiceItemChars >>= fun x => (pure x : P Str)) s c := by
    unfold choiceItem
    cases h : separators s c with
    | none => rw [P.bind_none h, P.bind_none h]
    | some r =>
      rw [P.bind_some h, P.bind_some h]
      cases h' : choiceItemChars r.2.1 r.2.2 with
      | none => rw [P.bind_none h']
      | some r' => rw [P.bind_some h']; rfl
  refine (rule_steps (by rw [hr]; rfl) ?_).congr hb
  refine Steps.item hw (cl_separators s c) (fun _ s1 c1 h1 => ?_)
  have l1 := noGrow_separators _ _ _ _ _ h1
  refine Steps.label hw (by decide) (imp_itemChars hr L s1 c1 (by omega)) (fun t s2 c2 v h2 hv => ?_)
  subst hv
  exact Steps.done (fun text count => ⟨_, rfl, rfl⟩)

/-- The value of `',' ChoiceItem`. -/
def CommaV (t : Str) (v : Val) : Prop := ∃ x, v = .list [x, .str t]

omit hw in
theorem restStrings_ok (ts : List Str) : ∀ vs, AllV CommaV ts vs → restStrings vs = some ts := by
  induction ts with
  | nil => intro vs h; cases vs with
    | nil => rfl
    | cons => exact h.elim
  | cons r rs ih =>
    intro vs h
    cases vs with
    | nil => exact h.elim
    | cons v vs =>
      obtain ⟨⟨x, rfl⟩, h2⟩ := h
      rw [restStrings, ih vs h2]
      rfl

omit hw in
theorem shrinks_commaItem : Shrinks commaItem := (shrinks_chr _).bind fun _ => shrinks_choiceItem.noGrow

include hr in
theorem imp_choiceItems (L : Nat) : Imp env p0 chars!"ChoiceItems" (fun ts v => v = .node (.choice ts))
    choiceItems L := by
  intro s c hL
  refine rule_steps (by rw [hr]; rfl) ?_
  refine Steps.label hw (by decide) (imp_choiceItem hr hw L s c hL) (fun t s1 c1 v h1 hv => ?_)
  have l1 := shrinks_choiceItem _ _ _ _ _ h1
  have hitem : ∀ s c, s.length < L → Cl env p0 (.seq [.lit chars!"," false, .ruleRef chars!"ChoiceItem"])
      CommaV s c (commaItem s c) := by
    intro s c hL
    refine (Cl.seq (W := fun x vs => CommaV x (.list vs)) ?_).imp (by rintro x v ⟨vs, rfl, h⟩; exact h)
    refine SeqDoes.next hw (Cl.chr hw ',' (by decide) s c) (fun _ s1 c1 o h1 ho => ?_)
    have := shrinks_chr _ _ _ _ _ _ h1
    exact SeqDoes.last hw (imp_choiceItem hr hw L s1 c1 (by omega)) (fun r v hv => ⟨o, by rw [hv]⟩)
  refine Steps.label hw (by decide) (Cl.many (L := L) hitem shrinks_commaItem (by omega))
    (fun rs s2 c2 w h2 hv2 => ?_)
  obtain ⟨vs, rfl, hall⟩ := hv2
  subst hv
  refine Steps.done (fun text count => ⟨.node (.choice (t :: rs)), ?_, rfl⟩)
  unfold runAction
  rw [show Frame.get [(chars!"rest", .list vs), (chars!"first", .str t)] chars!"first" = .str t from rfl,
    show Frame.get [(chars!"rest", .list vs), (chars!"first", .str t)] chars!"rest" = .list vs from rfl]
  simp only [toSlice, restStrings_ok rs vs hall]

include hr in
theorem imp_choice (L : Nat) : Imp env p0 chars!"Choice" (fun nd v => v = .node nd) choiceCmd L := by
  intro s c hL
  refine rule_steps (by rw [hr]; rfl) ?_
  refine Steps.item hw (Cl.litI hw chars!"choice[" (by decide) s c) (fun _ s1 c1 h1 => ?_)
  have l1 : s1.length ≤ s.length := by
    have : ∀ t : Str, NoGrow (litI t) := by
      intro t
      induction t with
      | nil => exact .pure _
      | cons x xs ih => exact (shrinks_chrI x).noGrow.bind (fun _ => ih)
    exact this _ _ _ _ _ _ h1
  refine Steps.label hw (by decide) (imp_choiceItems hr hw L s1 c1 (by omega)) (fun ts s2 c2 v h2 hv => ?_)
  have hop : Cl env p0 (.zeroOrOne (.seq [.lit chars!"," false,
      .zeroOrMore (.charClass chars!"[\\pZ]" [] [] [chars!"Z"] false false)])) (fun _ _ => True) s2 c2
      (P.opt trailingComma s2 c2) := by
    refine (Cl.opt (Cl.seq (W := fun (_ : Unit) _ => True) ?_)).imp (fun _ _ _ => trivial)
    refine SeqDoes.next hw (Cl.chr hw ',' (by decide) s2 c2) (fun _ s3 c3 o h1 ho => ?_)
    exact SeqDoes.last hw (cl_separators s3 c3) (fun _ _ _ => trivial)
  refine Steps.item hw hop (fun _ s3 c3 h3 => ?_)
  refine Steps.item hw (Cl.chr hw ']' (by decide) s3 c3) (fun _ s4 c4 h4 => ?_)
  subst hv
  exact Steps.done (fun text count => ⟨_, rfl, rfl⟩)

end Rules

end GoBCDice.Pigeon
