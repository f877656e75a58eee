import Verif.Lemmas.ParserSound

/-! # Completeness of the parser with respect to the grammar -/

namespace GoBCDice

/-! ## Balanced parentheses -/

/-- Nesting depth after reading a text; `none` when a parenthesis is closed too often. -/
def depthAfter : Str → Nat → Option Nat
  | [], d => some d
  | x :: s, d =>
    if x = '(' then depthAfter s (d + 1)
    else if x = ')' then (match d with | 0 => none | d' + 1 => depthAfter s d')
    else depthAfter s d

theorem depthAfter_append (s t : Str) (d : Nat) :
    depthAfter (s ++ t) d = (depthAfter s d).bind (depthAfter t) := by
  induction s generalizing d with
  | nil => rfl
  | cons x s ih =>
    simp only [List.cons_append, depthAfter]
    split
    · exact ih _
    · split
      · cases d with
        | zero => rfl
        | succ d => exact ih _
      · exact ih _

/-- Parentheses match. -/
def Bal (s : Str) : Prop := ∀ d, depthAfter s d = some d

theorem Bal.append {s t : Str} (hs : Bal s) (ht : Bal t) : Bal (s ++ t) := by
  intro d
  rw [depthAfter_append, hs d]
  exact ht d

theorem Bal.paren {s : Str} (hs : Bal s) : Bal (chars!"(" ++ s ++ chars!")") := by
  intro d
  rw [depthAfter_append, depthAfter_append]
  simp [depthAfter, hs (d + 1)]

theorem bal_plain {s : Str} (h : ∀ c ∈ s, c ≠ '(' ∧ c ≠ ')') : Bal s := by
  intro d
  induction s with
  | nil => rfl
  | cons x s ih =>
    have := h x (by simp)
    simp only [depthAfter, if_neg this.1, if_neg this.2]
    exact ih (fun c hc => h c (by simp [hc]))

theorem Der.bal {nt : NT} {s : Str} {e : Expr} (h : Der nt s e) : Bal s := by
  induction h with
  | number _ h =>
    refine bal_plain fun c hc => ⟨?_, ?_⟩ <;> rintro rfl <;> exact absurd (h _ hc) (by decide)
  | randOperandNum _ ih => exact ih
  | randOperandParen _ ih => exact ih.paren
  | randNum _ _ ih1 ih2 =>
    exact ((((bal_plain (by decide)).append ih1).append (bal_plain (by decide))).append ih2).append
      (bal_plain (by decide))
  | rollOperandNum _ ih => exact ih
  | rollOperandRand _ ih => exact ih
  | rollOperandParen _ ih => exact ih.paren
  | dRoll hd _ _ ih1 ih2 =>
    refine (ih1.append (bal_plain ?_)).append ih2
    rcases hd with rfl | rfl <;> decide
  | primNum _ ih => exact ih
  | primRand _ _ ih => exact ih
  | primDice _ ih => exact ih
  | plus _ ih => exact (bal_plain (by decide)).append ih
  | minus _ ih => exact (bal_plain (by decide)).append ih
  | paren _ ih => exact ih.paren
  | mulPrim _ ih => exact ih
  | mulMul _ _ ih1 ih2 => exact (ih1.append (bal_plain (by decide))).append ih2
  | mulDiv _ _ ih1 ih2 => exact (ih1.append (bal_plain (by decide))).append ih2
  | mulDivUp hu _ _ ih1 ih2 =>
    refine ((ih1.append (bal_plain (by decide))).append ih2).append (bal_plain ?_)
    rcases hu with rfl | rfl <;> decide
  | mulDivRound hu _ _ ih1 ih2 =>
    refine ((ih1.append (bal_plain (by decide))).append ih2).append (bal_plain ?_)
    rcases hu with rfl | rfl <;> decide
  | addMul _ ih => exact ih
  | addAdd _ _ ih1 ih2 => exact (ih1.append (bal_plain (by decide))).append ih2
  | addSub _ _ ih1 ih2 => exact (ih1.append (bal_plain (by decide))).append ih2

theorem bal_unique {s t x y : Str} (hs : Bal s) (ht : Bal t)
    (h : s ++ ')' :: x = t ++ ')' :: y) : s = t := by
  have aux : ∀ {s t x y : Str}, Bal s → Bal t → ∀ u : Str, t = s ++ u → ')' :: x = u ++ ')' :: y →
      s = t := by
    intro s t x y hs ht u h1 h2
    cases u with
    | nil => simpa using h1.symm
    | cons z u =>
      simp only [List.cons_append, List.cons.injEq] at h2
      obtain ⟨rfl, -⟩ := h2
      have := ht 0
      rw [h1, depthAfter_append, hs 0] at this
      simp [depthAfter] at this
  rcases List.append_eq_append_iff.mp h with ⟨u, h1, h2⟩ | ⟨u, h1, h2⟩
  · exact aux hs ht u h1 h2
  · exact (aux ht hs u h1 h2).symm

/-! ## What may follow -/

/-- The text does not begin with one of these characters. -/
def Stops (f : Char → Bool) (s : Str) : Prop := ∀ x ∈ s.head?, f x = false

theorem Stops.nil (f : Char → Bool) : Stops f [] := by simp [Stops]

theorem Stops.cons {f : Char → Bool} {x : Char} {s : Str} (h : f x = false) : Stops f (x :: s) := by
  simpa [Stops] using h

theorem Stops.mono {f g : Char → Bool} {s : Str} (h : Stops f s) (hg : ∀ x, g x = true → f x = true) :
    Stops g s := by
  intro x hx
  cases hgx : g x with
  | false => rfl
  | true => exact absurd (hg x hgx) (by simp [h x hx])

/-- Characters that would extend a primary. -/
def fPrim (x : Char) : Bool := isDigit x || x == 'd' || x == 'D'
/-- Characters that would extend a factor. -/
def fFactor (x : Char) : Bool := fPrim x || x == 'u' || x == 'U' || x == 'r' || x == 'R'
/-- Characters that would extend a term. -/
def fTerm (x : Char) : Bool := fFactor x || x == '*' || x == '/'
/-- Characters that would extend a sum. -/
def fSum (x : Char) : Bool := fTerm x || x == '+' || x == '-'

theorem Stops.fPrim_digit {s : Str} (h : Stops fPrim s) : Stops isDigit s :=
  h.mono (by intro x hx; simp [fPrim, hx])
theorem Stops.fFactor_prim {s : Str} (h : Stops fFactor s) : Stops fPrim s :=
  h.mono (by intro x hx; simp [fFactor, hx])
theorem Stops.fTerm_factor {s : Str} (h : Stops fTerm s) : Stops fFactor s :=
  h.mono (by intro x hx; simp [fTerm, hx])
theorem Stops.fSum_term {s : Str} (h : Stops fSum s) : Stops fTerm s :=
  h.mono (by intro x hx; simp [fSum, hx])

/-! ## Failing alternatives -/

theorem takeWhile_append_stop (f : Char → Bool) (s rest : Str) (h : ∀ c ∈ s, f c = true)
    (hr : Stops f rest) : (s ++ rest).takeWhile f = s ∧ (s ++ rest).dropWhile f = rest := by
  induction s with
  | nil =>
    cases rest with
    | nil => simp
    | cons x rest =>
      have := hr x (by simp)
      simp [List.takeWhile_cons, List.dropWhile_cons, this]
  | cons x s ih =>
    have hx := h x (by simp)
    have := ih (fun c hc => h c (by simp [hc]))
    simp [List.takeWhile_cons, List.dropWhile_cons, hx, this.1, this.2]

theorem integer_accepts (ds rest : Str) (c : Nat) (h : ds ≠ []) (hd : ∀ x ∈ ds, isDigit x = true)
    (hr : Stops isDigit rest) : integer (ds ++ rest) c = some (.int (atoiSat ds), rest, c) := by
  obtain ⟨h1, h2⟩ := takeWhile_append_stop isDigit ds rest hd hr
  unfold integer
  rw [h1, h2]
  split
  · exact absurd rfl h
  · rfl

theorem integer_none (s : Str) (c : Nat) (h : Stops isDigit s) : integer s c = none := by
  have := (takeWhile_append_stop isDigit [] s (by simp) h).1
  simp only [List.nil_append] at this
  simp [integer, this]

theorem parenthesized_none (p : P Expr) (s : Str) (c : Nat) (h : Stops (· == '(') s) :
    parenthesized p s c = none := by
  unfold parenthesized
  exact P.bind_none (chr_none _ _ _ (by intro y hy; simpa using h y hy))

theorem unaryPlus_none (p : P Expr) (s : Str) (c : Nat) (h : Stops (· == '+') s) :
    unaryPlus p s c = none := by
  unfold unaryPlus
  exact P.bind_none (chr_none _ _ _ (by intro y hy; simpa using h y hy))

theorem unaryMinus_none (p : P Expr) (s : Str) (c : Nat) (h : Stops (· == '-') s) :
    unaryMinus p s c = none := by
  unfold unaryMinus
  exact P.bind_none (chr_none _ _ _ (by intro y hy; simpa using h y hy))

theorem randomNumber_none (n : Nat) (s : Str) (c : Nat) (h : Stops (· == '[') s) :
    randomNumber n s c = none := by
  unfold randomNumber
  exact P.bind_none (chr_none _ _ _ (by intro y hy; simpa using h y hy))

theorem rollOperand_none (n : Nat) (s : Str) (c : Nat)
    (h : Stops (fun x => isDigit x || x == '[' || x == '(') s) : rollOperand n s c = none := by
  unfold rollOperand
  rw [P.alt_right (integer_none _ _ (h.mono (by intro x hx; simp [hx]))),
    P.alt_right (randomNumber_none _ _ _ (h.mono (by intro x hx; simp_all))),
    parenthesized_none _ _ _ (h.mono (by intro x hx; simp_all))]

theorem dRoll_none (n : Nat) (s : Str) (c : Nat)
    (h : Stops (fun x => isDigit x || x == '[' || x == '(') s) : dRoll n s c = none :=
  P.bind_none (rollOperand_none n s c h)

theorem roundSuffix_none (s : Str) (c : Nat) (h : Stops fFactor s) : roundSuffix s c = none := by
  unfold roundSuffix
  split
  · rfl
  · rename_i x s'
    have := h x (by simp)
    simp only [fFactor, Bool.or_eq_false_iff, beq_eq_false_iff_ne] at this
    rw [if_neg, if_neg]
    · simp only [beq_iff_eq]; rw [toLowerRune_r]; grind
    · simp only [beq_iff_eq]; rw [toLowerRune_u]; grind

theorem mulItem_none (p : P Expr) (s : Str) (c : Nat) (h : Stops fTerm s) : mulItem p s c = none := by
  have h1 : Stops (fun x => x == '*' || x == '/') s :=
    h.mono (by intro x hx; simp only [fTerm, Bool.or_eq_true] at hx ⊢; grind)
  unfold mulItem
  rw [P.alt_right]
  · refine P.bind_none ?_
    unfold mulOpChar
    split
    · have := h1 '*' (by simp); simp at this
    · have := h1 '/' (by simp); simp at this
    · rfl
  · refine P.bind_none (chr_none _ _ _ ?_)
    intro y hy
    have := h1 y hy
    simp at this
    exact this.2

theorem addItem_none (p : P Expr) (s : Str) (c : Nat) (h : Stops fSum s) : addItem p s c = none := by
  have h1 : Stops (fun x => x == '+' || x == '-') s :=
    h.mono (by intro x hx; simp only [fSum, Bool.or_eq_true] at hx ⊢; grind)
  refine P.bind_none ?_
  unfold addOp
  split
  · have := h1 '+' (by simp); simp at this
  · have := h1 '-' (by simp); simp at this
  · rfl

/-! ## Repetition -/

theorem manyAux_fuel {α : Type} {p : P α}
    (hp : ∀ s c a s' c', p s c = some (a, s', c') → s'.length < s.length) :
    ∀ (K K' : Nat) (s : Str) (c : Nat), s.length ≤ K → s.length ≤ K' →
      P.manyAux p K s c = P.manyAux p K' s c := by
  have hnil : ∀ K c, P.manyAux p K [] c = ([], [], c) := by
    intro K c
    cases K with
    | zero => rfl
    | succ K =>
      simp only [P.manyAux]
      cases h : p [] c with
      | none => rfl
      | some x =>
        obtain ⟨a, s', c'⟩ := x
        have := hp _ _ _ _ _ h
        simp at this
  intro K
  induction K with
  | zero =>
    intro K' s c h1 h2
    have : s = [] := List.length_eq_zero_iff.mp (by omega)
    subst this
    rw [hnil, hnil]
  | succ K ih =>
    intro K' s c h1 h2
    cases K' with
    | zero =>
      have : s = [] := List.length_eq_zero_iff.mp (by omega)
      subst this
      rw [hnil, hnil]
    | succ K' =>
      simp only [P.manyAux]
      cases h : p s c with
      | none => rfl
      | some x =>
        obtain ⟨a, s', c'⟩ := x
        have := hp _ _ _ _ _ h
        simp only []
        rw [ih K' s' c' (by omega) (by omega)]

/-- Unfolding one repetition. -/
theorem many_cons {α : Type} {p : P α}
    (hp : ∀ s c a s' c', p s c = some (a, s', c') → s'.length < s.length)
    {s s' : Str} {c c' : Nat} {a : α} (h : p s c = some (a, s', c')) :
    P.manyAux p s.length s c =
      (a :: (P.manyAux p s'.length s' c').1, (P.manyAux p s'.length s' c').2) := by
  have hl := hp _ _ _ _ _ h
  obtain ⟨k, hk⟩ : ∃ k, s.length = k + 1 := ⟨s.length - 1, by omega⟩
  rw [hk]
  simp only [P.manyAux, h]
  rw [manyAux_fuel hp k s'.length s' c' (by omega) (by omega)]

theorem many_nil {α : Type} {p : P α} {s : Str} {c : Nat} (h : p s c = none) :
    P.manyAux p s.length s c = ([], s, c) := by
  cases hs : s.length with
  | zero => rfl
  | succ k => simp [P.manyAux, h]

/-! ## The expression parsers accept the expression language -/

/-- The parser of primaries of each kind. -/
def pPrim : Kind → Nat → P Expr
  | .int => intPrimary
  | .rand => intRandPrimary
  | .dice => dRollPrimary

theorem sound_pPrim (k : Kind) (n : Nat) : Sound (pPrim k n) (Der (.prim k)) := by
  cases k
  · exact sound_intPrimary n
  · exact sound_intRandPrimary n
  · exact sound_dRollPrimary n

/-- Rest of a multiplicative chain whose value so far is `e`. -/
def mulCont (p : P Expr) (e : Expr) (s : Str) (c : Nat) : Option (Expr × Str × Nat) :=
  some (foldMul e (P.manyAux (mulItem p) s.length s c).1, (P.manyAux (mulItem p) s.length s c).2)

/-- Rest of an additive chain whose value so far is `e`. -/
def addCont (p : P Expr) (e : Expr) (s : Str) (c : Nat) : Option (Expr × Str × Nat) :=
  some (foldAdd e (P.manyAux (addItem (multitive p)) s.length s c).1,
    (P.manyAux (addItem (multitive p)) s.length s c).2)

theorem mulItem_shorter {p : P Expr} {k : Kind} (hp : Sound p (Der (.prim k))) (s : Str) (c : Nat)
    (a : MulOp × Expr) (s' : Str) (c' : Nat) (h : mulItem p s c = some (a, s', c')) :
    s'.length < s.length := by
  obtain ⟨op, r⟩ := a
  obtain ⟨-, t, rfl, ht, -⟩ := mulItem_ok hp h
  have := List.length_pos_iff.mpr ht
  simp; omega

theorem addItem_shorter {p : P Expr} {k : Kind} (hp : Sound p (Der (.prim k))) (s : Str) (c : Nat)
    (a : BinOp × Expr) (s' : Str) (c' : Nat) (h : addItem (multitive p) s c = some (a, s', c')) :
    s'.length < s.length := by
  obtain ⟨op, r⟩ := a
  obtain ⟨-, t, rfl, ht, -⟩ := addItem_ok (sound_multitive hp) h
  have := List.length_pos_iff.mpr ht
  simp; omega

theorem multitive_eq {p : P Expr} {s s' : Str} {c c' : Nat} {e : Expr}
    (h : p s c = some (e, s', c')) : multitive p s c = mulCont p e s' c' := by
  unfold multitive
  rw [P.bind_some h, P.bind_some (a := (P.manyAux (mulItem p) s'.length s' c').1)
    (s' := (P.manyAux (mulItem p) s'.length s' c').2.1)
    (c' := (P.manyAux (mulItem p) s'.length s' c').2.2) rfl]
  rfl

theorem additive_eq {p : P Expr} {s s' : Str} {c c' : Nat} {e : Expr}
    (h : multitive p s c = some (e, s', c')) : additive p s c = addCont p e s' c' := by
  unfold additive
  rw [P.bind_some h, P.bind_some (a := (P.manyAux (addItem (multitive p)) s'.length s' c').1)
    (s' := (P.manyAux (addItem (multitive p)) s'.length s' c').2.1)
    (c' := (P.manyAux (addItem (multitive p)) s'.length s' c').2.2) rfl]
  rfl

theorem mulCont_step {p : P Expr} {k : Kind} (hp : Sound p (Der (.prim k))) {s s' : Str}
    {c c' : Nat} {l r : Expr} {op : MulOp} (h : mulItem p s c = some ((op, r), s', c')) :
    mulCont p l s c = mulCont p (op.mk l r) s' c' := by
  unfold mulCont
  rw [many_cons (mulItem_shorter hp) h]
  rfl

theorem mulCont_stop {p : P Expr} {s : Str} {c : Nat} {l : Expr} (h : Stops fTerm s) :
    mulCont p l s c = some (l, s, c) := by
  unfold mulCont
  rw [many_nil (mulItem_none p s c h)]
  rfl

theorem addCont_step {p : P Expr} {k : Kind} (hp : Sound p (Der (.prim k))) {s s' : Str}
    {c c' : Nat} {l r : Expr} {op : BinOp}
    (h : addItem (multitive p) s c = some ((op, r), s', c')) :
    addCont p l s c = addCont p (.bin op l r) s' c' := by
  unfold addCont
  rw [many_cons (addItem_shorter hp) h]
  rfl

theorem addCont_stop {p : P Expr} {s : Str} {c : Nat} {l : Expr} (h : Stops fSum s) :
    addCont p l s c = some (l, s, c) := by
  unfold addCont
  rw [many_nil (addItem_none (multitive p) s c h)]
  rfl

/-- What completeness says for each nonterminal. -/
def Accepts : NT → Str → Expr → Prop
  | .number, s, e => ∀ rest c, Stops isDigit rest → integer (s ++ rest) c = some (e, rest, c + e.rands)
  | .randOperand, s, e => ∀ n rest c, s.length ≤ n + 1 → Stops isDigit rest →
      randomNumberOperand n (s ++ rest) c = some (e, rest, c + e.rands)
  | .randNum, s, e => ∀ n rest c, s.length ≤ n + 1 →
      randomNumber n (s ++ rest) c = some (e, rest, c + e.rands)
  | .rollOperand, s, e => ∀ n rest c, s.length ≤ n + 1 → Stops isDigit rest →
      rollOperand n (s ++ rest) c = some (e, rest, c + e.rands)
  | .dRoll, s, e => ∀ n rest c, s.length ≤ n + 1 → Stops isDigit rest →
      dRoll n (s ++ rest) c = some (e, rest, c + e.rands)
  | .prim k, s, e => ∀ n rest c, s.length ≤ n → Stops fPrim rest →
      pPrim k n (s ++ rest) c = some (e, rest, c + e.rands)
  | .mul k, s, e => ∀ n rest c, s.length ≤ n → Stops fFactor rest →
      multitive (pPrim k n) (s ++ rest) c = mulCont (pPrim k n) e rest (c + e.rands)
  | .add k, s, e => ∀ n rest c, s.length ≤ n → Stops fTerm rest →
      additive (pPrim k n) (s ++ rest) c = addCont (pPrim k n) e rest (c + e.rands)

/-- A roll operand read off a parenthesized expression fails or reads exactly that expression. -/
theorem rollOperand_paren (n : Nat) (s rest : Str) (c : Nat) {k : Kind} {e : Expr}
    (h : Der (.add k) s e) :
    rollOperand n (chars!"(" ++ s ++ chars!")" ++ rest) c = none ∨
      ∃ e' c', rollOperand n (chars!"(" ++ s ++ chars!")" ++ rest) c = some (e', rest, c') := by
  cases hr : rollOperand n (chars!"(" ++ s ++ chars!")" ++ rest) c with
  | none => exact .inl rfl
  | some x =>
    right
    obtain ⟨e', rest', c'⟩ := x
    unfold rollOperand at hr
    rw [P.alt_right (integer_none (chars!"(" ++ s ++ chars!")" ++ rest) c (Stops.cons (by decide))),
      P.alt_right (randomNumber_none n (chars!"(" ++ s ++ chars!")" ++ rest) c
        (Stops.cons (by decide)))] at hr
    obtain ⟨t, h1, ⟨t', rfl, h2⟩, -⟩ :=
      sound_parenthesized (sound_additive (sound_intRandPrimary n)) _ _ _ _ _ hr
    have : s ++ ')' :: rest = t' ++ ')' :: rest' := by simpa using h1
    have hst := bal_unique h.bal h2.bal this
    subst hst
    simp only [List.append_cancel_left_eq, List.cons.injEq, true_and] at this
    subst this
    exact ⟨e', c', rfl⟩

theorem pPrim_paren_alt (k : Kind) (n : Nat) (s rest : Str) (c : Nat) {e : Expr}
    (h : Der (.add k) s e) (hr : Stops fPrim rest) :
    pPrim k (n + 1) (chars!"(" ++ s ++ chars!")" ++ rest) c =
      parenthesized (additive (pPrim k n)) (chars!"(" ++ s ++ chars!")" ++ rest) c := by
  have h1 := integer_none (chars!"(" ++ s ++ chars!")" ++ rest) c (Stops.cons (by decide))
  have h2 := randomNumber_none n (chars!"(" ++ s ++ chars!")" ++ rest) c (Stops.cons (by decide))
  have h3 := fun p => unaryPlus_none p (chars!"(" ++ s ++ chars!")" ++ rest) c (Stops.cons (by decide))
  have h4 := fun p => unaryMinus_none p (chars!"(" ++ s ++ chars!")" ++ rest) c (Stops.cons (by decide))
  cases k with
  | int =>
    simp only [pPrim, intPrimary]
    rw [P.alt_right h1, P.alt_right (h3 _), P.alt_right (h4 _)]
  | rand =>
    simp only [pPrim, intRandPrimary]
    rw [P.alt_right h1, P.alt_right h2, P.alt_right (h3 _), P.alt_right (h4 _)]
  | dice =>
    simp only [pPrim, dRollPrimary]
    have h5 : dRoll n (chars!"(" ++ s ++ chars!")" ++ rest) c = none := by
      unfold dRoll
      rcases rollOperand_paren n s rest c h with h5 | ⟨e', c', h5⟩
      · exact P.bind_none h5
      · rw [P.bind_some h5]
        refine P.bind_none (chrI_none _ _ _ ?_)
        intro y hy
        have := hr y hy
        simp only [fPrim, Bool.or_eq_false_iff, beq_eq_false_iff_ne] at this
        rw [Ne, toLowerRune_d]; grind
    rw [P.alt_right h5, P.alt_right h2, P.alt_right h1, P.alt_right (h3 _), P.alt_right (h4 _)]

theorem parenthesized_accepts {p : P Expr} {s rest : Str} {c c' : Nat} {e : Expr}
    (h : p (s ++ ')' :: rest) c = some (e, ')' :: rest, c')) :
    parenthesized p (chars!"(" ++ s ++ chars!")" ++ rest) c = some (e, rest, c') := by
  have : chars!"(" ++ s ++ chars!")" ++ rest = '(' :: (s ++ ')' :: rest) := by simp
  rw [this]
  unfold parenthesized
  rw [P.bind_some (chr_cons _ _ _), P.bind_some h, P.bind_some (chr_cons _ _ _)]
  rfl

/-- An accepted sum, up to a character that cannot extend it. -/
theorem Accepts.sum {k : Kind} {s : Str} {e : Expr} (h : Accepts (.add k) s e) (n : Nat)
    (rest : Str) (c : Nat) (hn : s.length ≤ n) (hr : Stops fSum rest) :
    additive (pPrim k n) (s ++ rest) c = some (e, rest, c + e.rands) := by
  rw [h n rest c hn hr.fSum_term, addCont_stop hr]

theorem Der.nonempty {nt : NT} {s : Str} {e : Expr} (h : Der nt s e) : s ≠ [] := by
  induction h <;> first | assumption | simp | simp_all

theorem Der.accepts {nt : NT} {s : Str} {e : Expr} (h : Der nt s e) : Accepts nt s e := by
  induction h with
  | number h1 h2 =>
    intro rest c hr
    exact integer_accepts _ rest c h1 h2 hr
  | randOperandNum _ ih =>
    intro n rest c _ hr
    exact P.alt_left (ih rest c hr)
  | @randOperandParen s e hd ih =>
    intro n rest c hn hr
    unfold randomNumberOperand
    rw [P.alt_right (integer_none (chars!"(" ++ s ++ chars!")" ++ rest) c (Stops.cons (by decide)))]
    exact parenthesized_accepts (ih.sum n _ c (by simp at hn; omega) (Stops.cons (by decide)))
  | @randNum a b x y _ _ ih1 ih2 =>
    intro n rest c hn
    simp only [List.length_append, List.length_cons, List.length_nil] at hn
    have : chars!"[" ++ a ++ chars!"..." ++ b ++ chars!"]" ++ rest =
        '[' :: (a ++ (chars!"..." ++ (b ++ ']' :: rest))) := by simp
    rw [this]
    unfold randomNumber
    rw [P.bind_some (chr_cons _ _ _),
      P.bind_some (ih1 n (chars!"..." ++ (b ++ ']' :: rest)) c (by omega) (Stops.cons (by decide))),
      P.bind_some (lit_append _ _ _),
      P.bind_some (ih2 n (']' :: rest) _ (by omega) (Stops.cons (by decide))),
      P.bind_some (chr_cons _ _ _), P.bind_some (a := ()) (s' := rest)
        (c' := c + x.rands + y.rands + 1) rfl]
    simp only [P.pure_def, Expr.rands]
    rw [Nat.add_assoc c, Nat.add_assoc c]
  | rollOperandNum _ ih =>
    intro n rest c _ hr
    exact P.alt_left (ih rest c hr)
  | @rollOperandRand s e hd ih =>
    intro n rest c hn hr
    have hh : Stops isDigit (s ++ rest) := by cases hd; exact Stops.cons (by decide)
    unfold rollOperand
    rw [P.alt_right (integer_none _ _ hh)]
    exact P.alt_left (ih n rest c hn)
  | @rollOperandParen s e hd ih =>
    intro n rest c hn hr
    unfold rollOperand
    rw [P.alt_right (integer_none (chars!"(" ++ s ++ chars!")" ++ rest) c (Stops.cons (by decide))),
      P.alt_right (randomNumber_none n (chars!"(" ++ s ++ chars!")" ++ rest) c
        (Stops.cons (by decide)))]
    exact parenthesized_accepts (ih.sum n _ c (by simp at hn; omega) (Stops.cons (by decide)))
  | @dRoll a b x y d hd _ _ ih1 ih2 =>
    intro n rest c hn hr
    simp only [List.length_append, List.length_cons, List.length_nil] at hn
    have : a ++ [d] ++ b ++ rest = a ++ (d :: (b ++ rest)) := by simp
    rw [this]
    unfold GoBCDice.dRoll
    rw [P.bind_some (ih1 n _ c (by omega) (Stops.cons (by rcases hd with rfl | rfl <;> decide))),
      P.bind_some (chrI_cons _ _ _ _ ((toLowerRune_d d).mpr hd)),
      P.bind_some (ih2 n _ _ (by omega) hr), P.bind_some (a := ()) (s' := rest)
        (c' := c + x.rands + y.rands + 1) rfl]
    simp only [P.pure_def, Expr.rands]
    rw [Nat.add_assoc c, Nat.add_assoc c]
  | @primNum k s e hd ih =>
    intro n rest c hn hr
    obtain ⟨n, rfl⟩ : ∃ m, n = m + 1 :=
      ⟨n - 1, by have := List.length_pos_iff.mpr hd.nonempty; omega⟩
    have hi := ih rest c hr.fPrim_digit
    have hhead : ∃ x s', s = x :: s' ∧ isDigit x = true := by
      cases hd with
      | number h1 h2 =>
        cases s with
        | nil => exact absurd rfl h1
        | cons x s' => exact ⟨x, s', rfl, h2 x (by simp)⟩
    have hb : Stops (· == '[') (s ++ rest) := by
      obtain ⟨x, s', rfl, hx⟩ := hhead
      refine Stops.cons ?_
      rw [beq_eq_false_iff_ne]; rintro rfl; exact absurd hx (by decide)
    cases k with
    | int => exact P.alt_left hi
    | rand => exact P.alt_left hi
    | dice =>
      simp only [pPrim, dRollPrimary]
      rw [P.alt_right, P.alt_right (randomNumber_none _ _ _ hb)]
      · exact P.alt_left hi
      · unfold GoBCDice.dRoll
        rw [P.bind_some (show rollOperand n (s ++ rest) c = _ from P.alt_left hi)]
        refine P.bind_none (chrI_none _ _ _ ?_)
        intro y hy
        have := hr y hy
        simp only [fPrim, Bool.or_eq_false_iff, beq_eq_false_iff_ne] at this
        rw [Ne, toLowerRune_d]; grind
  | @primRand k s e hk hd ih =>
    intro n rest c hn hr
    obtain ⟨n, rfl⟩ : ∃ m, n = m + 1 :=
      ⟨n - 1, by have := List.length_pos_iff.mpr hd.nonempty; omega⟩
    have hi := ih n rest c hn
    have hh : Stops isDigit (s ++ rest) := by cases hd; exact Stops.cons (by decide)
    cases k with
    | int => exact absurd rfl hk
    | rand =>
      simp only [pPrim, intRandPrimary]
      rw [P.alt_right (integer_none _ _ hh)]
      exact P.alt_left hi
    | dice =>
      simp only [pPrim, dRollPrimary]
      rw [P.alt_right]
      · exact P.alt_left hi
      · unfold GoBCDice.dRoll
        rw [P.bind_some (a := e) (s' := rest) (c' := c + e.rands)]
        · refine P.bind_none (chrI_none _ _ _ ?_)
          intro y hy
          have := hr y hy
          simp only [fPrim, Bool.or_eq_false_iff, beq_eq_false_iff_ne] at this
          rw [Ne, toLowerRune_d]; grind
        · unfold rollOperand
          rw [P.alt_right (integer_none _ _ hh)]
          exact P.alt_left hi
  | @primDice s e hd ih =>
    intro n rest c hn hr
    obtain ⟨n, rfl⟩ : ∃ m, n = m + 1 :=
      ⟨n - 1, by have := List.length_pos_iff.mpr hd.nonempty; omega⟩
    exact P.alt_left (ih n rest c hn hr.fPrim_digit)
  | @plus k s e hd ih =>
    intro n rest c hn hr
    simp only [List.length_append, List.length_cons, List.length_nil] at hn
    obtain ⟨n, rfl⟩ : ∃ m, n = m + 1 := ⟨n - 1, by omega⟩
    have hi := ih n rest c (by omega) hr
    have h1 : ∀ p : P Expr, p (s ++ rest) c = some (e, rest, c + e.rands) →
        unaryPlus p (chars!"+" ++ s ++ rest) c = some (e, rest, c + e.rands) := by
      intro p hp
      exact (P.bind_some (chr_cons _ _ _)).trans hp
    have h2 := integer_none (chars!"+" ++ s ++ rest) c (Stops.cons (by decide))
    have h3 := randomNumber_none n (chars!"+" ++ s ++ rest) c (Stops.cons (by decide))
    have h4 := dRoll_none n (chars!"+" ++ s ++ rest) c (Stops.cons (by decide))
    cases k with
    | int =>
      simp only [pPrim, intPrimary]
      rw [P.alt_right h2]; exact P.alt_left (h1 _ hi)
    | rand =>
      simp only [pPrim, intRandPrimary]
      rw [P.alt_right h2, P.alt_right h3]; exact P.alt_left (h1 _ hi)
    | dice =>
      simp only [pPrim, dRollPrimary]
      rw [P.alt_right h4, P.alt_right h3, P.alt_right h2]; exact P.alt_left (h1 _ hi)
  | @minus k s e hd ih =>
    intro n rest c hn hr
    simp only [List.length_append, List.length_cons, List.length_nil] at hn
    obtain ⟨n, rfl⟩ : ∃ m, n = m + 1 := ⟨n - 1, by omega⟩
    have hi := ih n rest c (by omega) hr
    have h1 : ∀ p : P Expr, p (s ++ rest) c = some (e, rest, c + e.rands) →
        unaryMinus p (chars!"-" ++ s ++ rest) c = some (.neg e, rest, c + e.rands) := by
      intro p hp
      exact (P.bind_some (chr_cons _ _ _)).trans (P.bind_some hp)
    have h2 := integer_none (chars!"-" ++ s ++ rest) c (Stops.cons (by decide))
    have h3 := randomNumber_none n (chars!"-" ++ s ++ rest) c (Stops.cons (by decide))
    have h4 := dRoll_none n (chars!"-" ++ s ++ rest) c (Stops.cons (by decide))
    have h5 := fun p => unaryPlus_none p (chars!"-" ++ s ++ rest) c (Stops.cons (by decide))
    cases k with
    | int =>
      simp only [pPrim, intPrimary]
      rw [P.alt_right h2, P.alt_right (h5 _)]; exact P.alt_left (h1 _ hi)
    | rand =>
      simp only [pPrim, intRandPrimary]
      rw [P.alt_right h2, P.alt_right h3, P.alt_right (h5 _)]; exact P.alt_left (h1 _ hi)
    | dice =>
      simp only [pPrim, dRollPrimary]
      rw [P.alt_right h4, P.alt_right h3, P.alt_right h2, P.alt_right (h5 _)]
      exact P.alt_left (h1 _ hi)
  | @paren k s e hd ih =>
    intro n rest c hn hr
    simp only [List.length_append, List.length_cons, List.length_nil] at hn
    obtain ⟨n, rfl⟩ : ∃ m, n = m + 1 := ⟨n - 1, by omega⟩
    rw [pPrim_paren_alt k n s rest c hd hr]
    exact parenthesized_accepts (ih.sum n _ c (by omega) (Stops.cons (by decide)))
  | @mulPrim k s e hd ih =>
    intro n rest c hn hr
    exact multitive_eq (ih n rest c hn hr.fFactor_prim)
  | @mulMul k s t l r _ _ ih1 ih2 =>
    intro n rest c hn hr
    simp only [List.length_append, List.length_cons, List.length_nil] at hn
    have : s ++ chars!"*" ++ t ++ rest = s ++ ('*' :: (t ++ rest)) := by simp
    rw [this, ih1 n _ c (by omega) (Stops.cons (by decide)),
      mulCont_step (sound_pPrim k n) (op := .mul) (r := r) (s' := rest) (c' := c + l.rands + r.rands)]
    · simp only [MulOp.mk, Expr.rands]; rw [Nat.add_assoc]
    · unfold mulItem
      rw [P.alt_right (show mulItemRound (pPrim k n) ('*' :: (t ++ rest)) (c + l.rands) = none from
        P.bind_none (chr_none '/' _ _ (by simp)))]
      unfold mulItemPlain
      rw [P.bind_some (a := MulOp.mul) (s' := t ++ rest) (c' := c + l.rands) rfl,
        P.bind_some (ih2 n rest _ (by omega) hr.fFactor_prim)]
      rfl
  | @mulDiv k s t l r _ _ ih1 ih2 =>
    intro n rest c hn hr
    simp only [List.length_append, List.length_cons, List.length_nil] at hn
    have : s ++ chars!"/" ++ t ++ rest = s ++ ('/' :: (t ++ rest)) := by simp
    rw [this, ih1 n _ c (by omega) (Stops.cons (by decide)),
      mulCont_step (sound_pPrim k n) (op := .div .down) (r := r) (s' := rest)
        (c' := c + l.rands + r.rands)]
    · simp only [MulOp.mk, Expr.rands]; rw [Nat.add_assoc]
    · unfold mulItem
      rw [P.alt_right]
      · unfold mulItemPlain
        rw [P.bind_some (a := MulOp.div .down) (s' := t ++ rest) (c' := c + l.rands) rfl,
          P.bind_some (ih2 n rest _ (by omega) hr.fFactor_prim)]
        rfl
      · unfold mulItemRound
        rw [P.bind_some (chr_cons _ _ _), P.bind_some (ih2 n rest _ (by omega) hr.fFactor_prim),
          P.bind_none (roundSuffix_none _ _ hr)]
  | @mulDivUp k s t l r u hu _ _ ih1 ih2 =>
    intro n rest c hn hr
    simp only [List.length_append, List.length_cons, List.length_nil] at hn
    have : s ++ chars!"/" ++ t ++ [u] ++ rest = s ++ ('/' :: (t ++ (u :: rest))) := by simp
    rw [this, ih1 n _ c (by omega) (Stops.cons (by decide)),
      mulCont_step (sound_pPrim k n) (op := .div .up) (r := r) (s' := rest)
        (c' := c + l.rands + r.rands)]
    · simp only [MulOp.mk, Expr.rands]; rw [Nat.add_assoc]
    · refine P.alt_left ?_
      unfold mulItemRound
      rw [P.bind_some (chr_cons _ _ _), P.bind_some (ih2 n _ _ (by omega)
        (Stops.cons (by rcases hu with rfl | rfl <;> decide))),
        P.bind_some (a := Rounding.up) (s' := rest) (c' := c + l.rands + r.rands)]
      · rfl
      · simp [roundSuffix, (toLowerRune_u u).mpr hu]
  | @mulDivRound k s t l r u hu _ _ ih1 ih2 =>
    intro n rest c hn hr
    simp only [List.length_append, List.length_cons, List.length_nil] at hn
    have : s ++ chars!"/" ++ t ++ [u] ++ rest = s ++ ('/' :: (t ++ (u :: rest))) := by simp
    rw [this, ih1 n _ c (by omega) (Stops.cons (by decide)),
      mulCont_step (sound_pPrim k n) (op := .div .round) (r := r) (s' := rest)
        (c' := c + l.rands + r.rands)]
    · simp only [MulOp.mk, Expr.rands]; rw [Nat.add_assoc]
    · refine P.alt_left ?_
      unfold mulItemRound
      rw [P.bind_some (chr_cons _ _ _), P.bind_some (ih2 n _ _ (by omega)
        (Stops.cons (by rcases hu with rfl | rfl <;> decide))),
        P.bind_some (a := Rounding.round) (s' := rest) (c' := c + l.rands + r.rands)]
      · rfl
      · simp [roundSuffix, (toLowerRune_r u).mpr hu]
  | @addMul k s e hd ih =>
    intro n rest c hn hr
    refine additive_eq ?_
    rw [ih n rest c hn hr.fTerm_factor, mulCont_stop hr]
  | @addAdd k s t l r _ _ ih1 ih2 =>
    intro n rest c hn hr
    simp only [List.length_append, List.length_cons, List.length_nil] at hn
    have : s ++ chars!"+" ++ t ++ rest = s ++ ('+' :: (t ++ rest)) := by simp
    rw [this, ih1 n _ c (by omega) (Stops.cons (by decide)),
      addCont_step (sound_pPrim k n) (op := .add) (r := r) (s' := rest) (c' := c + l.rands + r.rands)]
    · simp only [Expr.rands]; rw [Nat.add_assoc]
    · unfold addItem
      rw [P.bind_some (a := BinOp.add) (s' := t ++ rest) (c' := c + l.rands) rfl,
        P.bind_some (a := r) (s' := rest) (c' := c + l.rands + r.rands)]
      · rfl
      · rw [ih2 n rest _ (by omega) hr.fTerm_factor, mulCont_stop hr]
  | @addSub k s t l r _ _ ih1 ih2 =>
    intro n rest c hn hr
    simp only [List.length_append, List.length_cons, List.length_nil] at hn
    have : s ++ chars!"-" ++ t ++ rest = s ++ ('-' :: (t ++ rest)) := by simp
    rw [this, ih1 n _ c (by omega) (Stops.cons (by decide)),
      addCont_step (sound_pPrim k n) (op := .sub) (r := r) (s' := rest) (c' := c + l.rands + r.rands)]
    · simp only [Expr.rands]; rw [Nat.add_assoc]
    · unfold addItem
      rw [P.bind_some (a := BinOp.sub) (s' := t ++ rest) (c' := c + l.rands) rfl,
        P.bind_some (a := r) (s' := rest) (c' := c + l.rands + r.rands)]
      · rfl
      · rw [ih2 n rest _ (by omega) hr.fTerm_factor, mulCont_stop hr]

end GoBCDice
