import Verif.Lemmas.ParserBase

/-! # Soundness of the parser with respect to the grammar -/

namespace GoBCDice

/-- Whatever the parser accepts is a text of the language `L`, and the counter grows by the number of
random elements. -/
def Sound (p : P Expr) (L : Str → Expr → Prop) : Prop :=
  ∀ s c e rest c', p s c = some (e, rest, c') → ∃ t, s = t ++ rest ∧ L t e ∧ c' = c + e.rands

theorem Sound.alt {p q : P Expr} {L : Str → Expr → Prop} (hp : Sound p L) (hq : Sound q L) :
    Sound (p <|> q) L := by
  intro s c e rest c' h
  rcases P.alt_ok h with h | ⟨-, h⟩
  · exact hp _ _ _ _ _ h
  · exact hq _ _ _ _ _ h

theorem Sound.mono {p : P Expr} {L L' : Str → Expr → Prop} (hp : Sound p L)
    (h : ∀ t e, L t e → L' t e) : Sound p L' := by
  intro s c e rest c' hs
  obtain ⟨t, h1, h2, h3⟩ := hp _ _ _ _ _ hs
  exact ⟨t, h1, h _ _ h2, h3⟩

theorem takeWhile_all (f : Char → Bool) (s : Str) : ∀ c ∈ s.takeWhile f, f c = true := by
  induction s with
  | nil => simp
  | cons x s ih =>
    intro c hc
    rw [List.takeWhile_cons] at hc
    split at hc
    · rcases List.mem_cons.mp hc with rfl | h
      · assumption
      · exact ih c h
    · simp at hc

theorem sound_integer : Sound integer (Der .number) := by
  intro s c e rest c' h
  unfold integer at h
  split at h
  · simp at h
  · rename_i hne
    simp only [Option.some.injEq, Prod.mk.injEq] at h
    obtain ⟨rfl, rfl, rfl⟩ := h
    refine ⟨s.takeWhile isDigit, (List.takeWhile_append_dropWhile).symm, ?_, rfl⟩
    refine .number (fun h => hne h) ?_
    intro c hc
    exact takeWhile_all _ _ c hc

theorem sound_parenthesized {p : P Expr} {L : Str → Expr → Prop} (hp : Sound p L) :
    Sound (parenthesized p) (fun t e => ∃ t', t = chars!"(" ++ t' ++ chars!")" ∧ L t' e) := by
  intro s c e rest c' h
  unfold parenthesized at h
  rw [P.bind_ok] at h
  obtain ⟨_, s1, c1, h1, h⟩ := h
  rw [P.bind_ok] at h
  obtain ⟨x, s2, c2, h2, h⟩ := h
  rw [P.bind_ok] at h
  obtain ⟨_, s3, c3, h3, h⟩ := h
  obtain ⟨rfl, rfl⟩ := chr_ok h1
  obtain ⟨t', rfl, hL, rfl⟩ := hp _ _ _ _ _ h2
  obtain ⟨rfl, rfl⟩ := chr_ok h3
  simp only [P.pure_def, Option.some.injEq, Prod.mk.injEq] at h
  obtain ⟨rfl, rfl, rfl⟩ := h
  exact ⟨_, by simp, ⟨t', rfl, hL⟩, rfl⟩

theorem sound_unaryPlus {p : P Expr} {L : Str → Expr → Prop} (hp : Sound p L) :
    Sound (unaryPlus p) (fun t e => ∃ t', t = chars!"+" ++ t' ∧ L t' e) := by
  intro s c e rest c' h
  unfold unaryPlus at h
  rw [P.bind_ok] at h
  obtain ⟨_, s1, c1, h1, h⟩ := h
  obtain ⟨rfl, rfl⟩ := chr_ok h1
  obtain ⟨t', rfl, hL, rfl⟩ := hp _ _ _ _ _ h
  exact ⟨_, rfl, ⟨t', rfl, hL⟩, rfl⟩

theorem sound_unaryMinus {p : P Expr} {L : Str → Expr → Prop} (hp : Sound p L) :
    Sound (unaryMinus p) (fun t e => ∃ t' e', t = chars!"-" ++ t' ∧ e = .neg e' ∧ L t' e') := by
  intro s c e rest c' h
  unfold unaryMinus at h
  rw [P.bind_ok] at h
  obtain ⟨_, s1, c1, h1, h⟩ := h
  rw [P.bind_ok] at h
  obtain ⟨x, s2, c2, h2, h⟩ := h
  obtain ⟨rfl, rfl⟩ := chr_ok h1
  obtain ⟨t', rfl, hL, rfl⟩ := hp _ _ _ _ _ h2
  simp only [P.pure_def, Option.some.injEq, Prod.mk.injEq] at h
  obtain ⟨rfl, rfl, rfl⟩ := h
  exact ⟨_, rfl, ⟨t', x, rfl, rfl, hL⟩, rfl⟩

theorem roundSuffix_ok {s rest : Str} {c c' : Nat} {m : Rounding}
    (h : roundSuffix s c = some (m, rest, c')) :
    c' = c ∧ ∃ u, s = u :: rest ∧ (m = .up ∧ (u = 'U' ∨ u = 'u') ∨ m = .round ∧ (u = 'R' ∨ u = 'r')) := by
  unfold roundSuffix at h
  split at h
  · simp at h
  · rename_i x s'
    simp only [beq_iff_eq] at h
    split at h
    · rename_i hx
      simp only [Option.some.injEq, Prod.mk.injEq] at h
      obtain ⟨rfl, rfl, rfl⟩ := h
      exact ⟨rfl, x, rfl, .inl ⟨rfl, (toLowerRune_u x).mp hx⟩⟩
    · split at h
      · rename_i hx
        simp only [Option.some.injEq, Prod.mk.injEq] at h
        obtain ⟨rfl, rfl, rfl⟩ := h
        exact ⟨rfl, x, rfl, .inr ⟨rfl, (toLowerRune_r x).mp hx⟩⟩
      · simp at h

theorem mulOpChar_ok {s rest : Str} {c c' : Nat} {op : MulOp}
    (h : mulOpChar s c = some (op, rest, c')) :
    c' = c ∧ (op = .mul ∧ s = '*' :: rest ∨ op = .div .down ∧ s = '/' :: rest) := by
  unfold mulOpChar at h
  split at h
  · simp only [Option.some.injEq, Prod.mk.injEq] at h
    obtain ⟨rfl, rfl, rfl⟩ := h
    exact ⟨rfl, .inl ⟨rfl, rfl⟩⟩
  · simp only [Option.some.injEq, Prod.mk.injEq] at h
    obtain ⟨rfl, rfl, rfl⟩ := h
    exact ⟨rfl, .inr ⟨rfl, rfl⟩⟩
  · simp at h

theorem addOp_ok {s rest : Str} {c c' : Nat} {op : BinOp}
    (h : addOp s c = some (op, rest, c')) :
    c' = c ∧ (op = .add ∧ s = '+' :: rest ∨ op = .sub ∧ s = '-' :: rest) := by
  unfold addOp at h
  split at h
  · simp only [Option.some.injEq, Prod.mk.injEq] at h
    obtain ⟨rfl, rfl, rfl⟩ := h
    exact ⟨rfl, .inl ⟨rfl, rfl⟩⟩
  · simp only [Option.some.injEq, Prod.mk.injEq] at h
    obtain ⟨rfl, rfl, rfl⟩ := h
    exact ⟨rfl, .inr ⟨rfl, rfl⟩⟩
  · simp at h

/-- One multiplicative item extends a multiplicative text. -/
theorem mulItem_ok {p : P Expr} {k : Kind} (hp : Sound p (Der (.prim k))) {s rest : Str} {c c' : Nat}
    {op : MulOp} {r : Expr} (h : mulItem p s c = some ((op, r), rest, c')) :
    c' = c + r.rands ∧ ∃ t, s = t ++ rest ∧ t ≠ [] ∧
      ∀ t0 l, Der (.mul k) t0 l → Der (.mul k) (t0 ++ t) (op.mk l r) := by
  replace h := P.alt_ok h
  rcases h with h | ⟨-, h⟩
  · unfold mulItemRound at h
    rw [P.bind_ok] at h
    obtain ⟨_, s1, c1, h1, h⟩ := h
    rw [P.bind_ok] at h
    obtain ⟨x, s2, c2, h2, h⟩ := h
    rw [P.bind_ok] at h
    obtain ⟨m, s3, c3, h3, h⟩ := h
    obtain ⟨rfl, rfl⟩ := chr_ok h1
    obtain ⟨t', rfl, hL, rfl⟩ := hp _ _ _ _ _ h2
    obtain ⟨rfl, u, rfl, hu⟩ := roundSuffix_ok h3
    simp only [P.pure_def, Option.some.injEq, Prod.mk.injEq] at h
    obtain ⟨⟨rfl, rfl⟩, rfl, rfl⟩ := h
    refine ⟨rfl, chars!"/" ++ t' ++ [u], by simp, by simp, ?_⟩
    intro t0 l hl
    rcases hu with ⟨rfl, hu⟩ | ⟨rfl, hu⟩
    · simpa [MulOp.mk, List.append_assoc] using Der.mulDivUp hu hl hL
    · simpa [MulOp.mk, List.append_assoc] using Der.mulDivRound hu hl hL
  · unfold mulItemPlain at h
    rw [P.bind_ok] at h
    obtain ⟨o, s1, c1, h1, h⟩ := h
    rw [P.bind_ok] at h
    obtain ⟨x, s2, c2, h2, h⟩ := h
    obtain ⟨t', rfl, hL, rfl⟩ := hp _ _ _ _ _ h2
    simp only [P.pure_def, Option.some.injEq, Prod.mk.injEq] at h
    obtain ⟨⟨rfl, rfl⟩, rfl, rfl⟩ := h
    obtain ⟨rfl, ⟨rfl, rfl⟩ | ⟨rfl, rfl⟩⟩ := mulOpChar_ok h1
    · refine ⟨rfl, chars!"*" ++ t', by simp, by simp, ?_⟩
      intro t0 l hl
      simpa [MulOp.mk, List.append_assoc] using Der.mulMul hl hL
    · refine ⟨rfl, chars!"/" ++ t', by simp, by simp, ?_⟩
      intro t0 l hl
      simpa [MulOp.mk, List.append_assoc] using Der.mulDiv hl hL

theorem MulOp.mk_rands (op : MulOp) (l r : Expr) : (op.mk l r).rands = l.rands + r.rands := by
  cases op <;> rfl

theorem foldMul_sound {p : P Expr} {k : Kind} (hp : Sound p (Der (.prim k))) (K : Nat) :
    ∀ (s rest : Str) (c c' : Nat) (items : List (MulOp × Expr)) (t0 : Str) (l : Expr),
      P.manyAux (mulItem p) K s c = (items, rest, c') → Der (.mul k) t0 l →
      ∃ t, s = t ++ rest ∧ Der (.mul k) (t0 ++ t) (foldMul l items) ∧
        c' + l.rands = c + (foldMul l items).rands := by
  induction K with
  | zero =>
    intro s rest c c' items t0 l h hl
    simp only [P.manyAux, Prod.mk.injEq] at h
    obtain ⟨rfl, rfl, rfl⟩ := h
    exact ⟨[], rfl, by simpa [foldMul] using hl, rfl⟩
  | succ K ih =>
    intro s rest c c' items t0 l h hl
    simp only [P.manyAux] at h
    split at h
    · simp only [Prod.mk.injEq] at h
      obtain ⟨rfl, rfl, rfl⟩ := h
      exact ⟨[], rfl, by simpa [foldMul] using hl, rfl⟩
    · rename_i a s1 c1 h1
      obtain ⟨op, r⟩ := a
      obtain ⟨rfl, t, rfl, -, ht⟩ := mulItem_ok hp h1
      rcases hm : P.manyAux (mulItem p) K s1 (c + r.rands) with ⟨as, s2, c2⟩
      rw [hm] at h
      simp only [Prod.mk.injEq] at h
      obtain ⟨rfl, rfl, rfl⟩ := h
      obtain ⟨t2, rfl, hd, hc⟩ := ih _ _ _ _ _ _ _ hm (ht t0 l hl)
      refine ⟨t ++ t2, by simp, by simpa [foldMul, List.append_assoc] using hd, ?_⟩
      rw [MulOp.mk_rands] at hc
      simp only [foldMul, List.foldl_cons] at hc ⊢
      omega

theorem sound_multitive {p : P Expr} {k : Kind} (hp : Sound p (Der (.prim k))) :
    Sound (multitive p) (Der (.mul k)) := by
  intro s c e rest c' h
  unfold multitive at h
  rw [P.bind_ok] at h
  obtain ⟨x, s1, c1, h1, h⟩ := h
  rw [P.bind_ok] at h
  obtain ⟨items, s2, c2, h2, h⟩ := h
  obtain ⟨t, rfl, hL, rfl⟩ := hp _ _ _ _ _ h1
  simp only [P.many, Option.some.injEq] at h2
  obtain ⟨t2, rfl, hd, hc⟩ := foldMul_sound hp _ _ _ _ _ _ _ _ h2 (.mulPrim hL)
  simp only [P.pure_def, Option.some.injEq, Prod.mk.injEq] at h
  obtain ⟨rfl, rfl, rfl⟩ := h
  exact ⟨t ++ t2, by simp, hd, by omega⟩

theorem addItem_ok {p : P Expr} {k : Kind} (hp : Sound p (Der (.mul k))) {s rest : Str} {c c' : Nat}
    {op : BinOp} {r : Expr} (h : addItem p s c = some ((op, r), rest, c')) :
    c' = c + r.rands ∧ ∃ t, s = t ++ rest ∧ t ≠ [] ∧
      ∀ t0 l, Der (.add k) t0 l → Der (.add k) (t0 ++ t) (.bin op l r) := by
  unfold addItem at h
  rw [P.bind_ok] at h
  obtain ⟨o, s1, c1, h1, h⟩ := h
  rw [P.bind_ok] at h
  obtain ⟨x, s2, c2, h2, h⟩ := h
  obtain ⟨t', rfl, hL, rfl⟩ := hp _ _ _ _ _ h2
  simp only [P.pure_def, Option.some.injEq, Prod.mk.injEq] at h
  obtain ⟨⟨rfl, rfl⟩, rfl, rfl⟩ := h
  obtain ⟨rfl, ⟨rfl, rfl⟩ | ⟨rfl, rfl⟩⟩ := addOp_ok h1
  · refine ⟨rfl, chars!"+" ++ t', by simp, by simp, ?_⟩
    intro t0 l hl
    simpa [List.append_assoc] using Der.addAdd hl hL
  · refine ⟨rfl, chars!"-" ++ t', by simp, by simp, ?_⟩
    intro t0 l hl
    simpa [List.append_assoc] using Der.addSub hl hL

theorem foldAdd_sound {p : P Expr} {k : Kind} (hp : Sound p (Der (.mul k))) (K : Nat) :
    ∀ (s rest : Str) (c c' : Nat) (items : List (BinOp × Expr)) (t0 : Str) (l : Expr),
      P.manyAux (addItem p) K s c = (items, rest, c') → Der (.add k) t0 l →
      ∃ t, s = t ++ rest ∧ Der (.add k) (t0 ++ t) (foldAdd l items) ∧
        c' + l.rands = c + (foldAdd l items).rands := by
  induction K with
  | zero =>
    intro s rest c c' items t0 l h hl
    simp only [P.manyAux, Prod.mk.injEq] at h
    obtain ⟨rfl, rfl, rfl⟩ := h
    exact ⟨[], rfl, by simpa [foldAdd] using hl, rfl⟩
  | succ K ih =>
    intro s rest c c' items t0 l h hl
    simp only [P.manyAux] at h
    split at h
    · simp only [Prod.mk.injEq] at h
      obtain ⟨rfl, rfl, rfl⟩ := h
      exact ⟨[], rfl, by simpa [foldAdd] using hl, rfl⟩
    · rename_i a s1 c1 h1
      obtain ⟨op, r⟩ := a
      obtain ⟨rfl, t, rfl, -, ht⟩ := addItem_ok hp h1
      rcases hm : P.manyAux (addItem p) K s1 (c + r.rands) with ⟨as, s2, c2⟩
      rw [hm] at h
      simp only [Prod.mk.injEq] at h
      obtain ⟨rfl, rfl, rfl⟩ := h
      obtain ⟨t2, rfl, hd, hc⟩ := ih _ _ _ _ _ _ _ hm (ht t0 l hl)
      refine ⟨t ++ t2, by simp, by simpa [foldAdd, List.append_assoc] using hd, ?_⟩
      simp only [foldAdd, List.foldl_cons, Expr.rands] at hc ⊢
      omega

theorem sound_additive {p : P Expr} {k : Kind} (hp : Sound p (Der (.prim k))) :
    Sound (additive p) (Der (.add k)) := by
  intro s c e rest c' h
  unfold additive at h
  rw [P.bind_ok] at h
  obtain ⟨x, s1, c1, h1, h⟩ := h
  rw [P.bind_ok] at h
  obtain ⟨items, s2, c2, h2, h⟩ := h
  obtain ⟨t, rfl, hL, rfl⟩ := sound_multitive hp _ _ _ _ _ h1
  simp only [P.many, Option.some.injEq] at h2
  obtain ⟨t2, rfl, hd, hc⟩ := foldAdd_sound (sound_multitive hp) _ _ _ _ _ _ _ _ h2 (.addMul hL)
  simp only [P.pure_def, Option.some.injEq, Prod.mk.injEq] at h
  obtain ⟨rfl, rfl, rfl⟩ := h
  exact ⟨t ++ t2, by simp, hd, by omega⟩

theorem sound_intPrimary (n : Nat) : Sound (intPrimary n) (Der (.prim .int)) := by
  induction n with
  | zero => intro s c e rest c' h; simp [intPrimary] at h
  | succ n ih =>
    unfold intPrimary
    refine (sound_integer.mono fun _ _ => .primNum).alt (.alt ?_ (.alt ?_ ?_))
    · exact (sound_unaryPlus ih).mono (by rintro t e ⟨t', rfl, h⟩; exact .plus h)
    · exact (sound_unaryMinus ih).mono (by rintro t e ⟨t', e', rfl, rfl, h⟩; exact .minus h)
    · exact (sound_parenthesized (sound_additive ih)).mono
        (by rintro t e ⟨t', rfl, h⟩; exact .paren h)

theorem sound_intExpr (n : Nat) : Sound (intExpr n) (Der (.add .int)) :=
  sound_additive (sound_intPrimary n)

theorem sound_randomNumberOperand (n : Nat) : Sound (randomNumberOperand n) (Der .randOperand) :=
  (sound_integer.mono fun _ _ => .randOperandNum).alt
    ((sound_parenthesized (sound_intExpr n)).mono
      (by rintro t e ⟨t', rfl, h⟩; exact .randOperandParen h))

theorem incRandCount_ok {s s' : Str} {c c' : Nat} {u : Unit}
    (h : incRandCount s c = some (u, s', c')) : s' = s ∧ c' = c + 1 := by
  simp only [incRandCount, Option.some.injEq, Prod.mk.injEq] at h
  exact ⟨h.2.1.symm, h.2.2.symm⟩

theorem sound_randomNumber (n : Nat) : Sound (randomNumber n) (Der .randNum) := by
  intro s c e rest c' h
  unfold randomNumber at h
  rw [P.bind_ok] at h
  obtain ⟨_, s1, c1, h1, h⟩ := h
  rw [P.bind_ok] at h
  obtain ⟨x, s2, c2, h2, h⟩ := h
  rw [P.bind_ok] at h
  obtain ⟨_, s3, c3, h3, h⟩ := h
  rw [P.bind_ok] at h
  obtain ⟨y, s4, c4, h4, h⟩ := h
  rw [P.bind_ok] at h
  obtain ⟨_, s5, c5, h5, h⟩ := h
  rw [P.bind_ok] at h
  obtain ⟨_, s6, c6, h6, h⟩ := h
  obtain ⟨rfl, rfl⟩ := chr_ok h1
  obtain ⟨t', rfl, hL, rfl⟩ := sound_randomNumberOperand n _ _ _ _ _ h2
  obtain ⟨rfl, rfl⟩ := lit_ok h3
  obtain ⟨t2, rfl, hL2, rfl⟩ := sound_randomNumberOperand n _ _ _ _ _ h4
  obtain ⟨rfl, rfl⟩ := chr_ok h5
  obtain ⟨rfl, rfl⟩ := incRandCount_ok h6
  simp only [P.pure_def, Option.some.injEq, Prod.mk.injEq] at h
  obtain ⟨rfl, rfl, rfl⟩ := h
  exact ⟨_, by simp, .randNum hL hL2, by simp only [Expr.rands]; omega⟩

theorem sound_intRandPrimary (n : Nat) : Sound (intRandPrimary n) (Der (.prim .rand)) := by
  induction n with
  | zero => intro s c e rest c' h; simp [intRandPrimary] at h
  | succ n ih =>
    unfold intRandPrimary
    refine (sound_integer.mono fun _ _ => .primNum).alt (.alt ?_ (.alt ?_ (.alt ?_ ?_)))
    · exact (sound_randomNumber n).mono fun _ _ => .primRand (by decide)
    · exact (sound_unaryPlus ih).mono (by rintro t e ⟨t', rfl, h⟩; exact .plus h)
    · exact (sound_unaryMinus ih).mono (by rintro t e ⟨t', e', rfl, rfl, h⟩; exact .minus h)
    · exact (sound_parenthesized (sound_additive ih)).mono
        (by rintro t e ⟨t', rfl, h⟩; exact .paren h)

theorem sound_rollOperand (n : Nat) : Sound (rollOperand n) (Der .rollOperand) := by
  refine (sound_integer.mono fun _ _ => .rollOperandNum).alt (.alt ?_ ?_)
  · exact (sound_randomNumber n).mono fun _ _ => .rollOperandRand
  · exact (sound_parenthesized (sound_additive (sound_intRandPrimary n))).mono
      (by rintro t e ⟨t', rfl, h⟩; exact .rollOperandParen h)

theorem sound_dRoll (n : Nat) : Sound (dRoll n) (Der .dRoll) := by
  intro s c e rest c' h
  unfold dRoll at h
  rw [P.bind_ok] at h
  obtain ⟨x, s1, c1, h1, h⟩ := h
  rw [P.bind_ok] at h
  obtain ⟨_, s2, c2, h2, h⟩ := h
  rw [P.bind_ok] at h
  obtain ⟨y, s3, c3, h3, h⟩ := h
  rw [P.bind_ok] at h
  obtain ⟨_, s4, c4, h4, h⟩ := h
  obtain ⟨t, rfl, hL, rfl⟩ := sound_rollOperand n _ _ _ _ _ h1
  obtain ⟨d, rfl, hd, rfl⟩ := chrI_ok h2
  obtain ⟨t2, rfl, hL2, rfl⟩ := sound_rollOperand n _ _ _ _ _ h3
  obtain ⟨rfl, rfl⟩ := incRandCount_ok h4
  simp only [P.pure_def, Option.some.injEq, Prod.mk.injEq] at h
  obtain ⟨rfl, rfl, rfl⟩ := h
  exact ⟨_, by simp, .dRoll ((toLowerRune_d d).mp hd) hL hL2, by simp only [Expr.rands]; omega⟩

theorem sound_dRollPrimary (n : Nat) : Sound (dRollPrimary n) (Der (.prim .dice)) := by
  induction n with
  | zero => intro s c e rest c' h; simp [dRollPrimary] at h
  | succ n ih =>
    unfold dRollPrimary
    refine ((sound_dRoll n).mono fun _ _ => .primDice).alt (.alt ?_ (.alt ?_ (.alt ?_ (.alt ?_ ?_))))
    · exact (sound_randomNumber n).mono fun _ _ => .primRand (by decide)
    · exact sound_integer.mono fun _ _ => .primNum
    · exact (sound_unaryPlus ih).mono (by rintro t e ⟨t', rfl, h⟩; exact .plus h)
    · exact (sound_unaryMinus ih).mono (by rintro t e ⟨t', e', rfl, rfl, h⟩; exact .minus h)
    · exact (sound_parenthesized (sound_additive ih)).mono
        (by rintro t e ⟨t', rfl, h⟩; exact .paren h)

theorem sound_dRollExpr (n : Nat) : Sound (dRollExpr n) (Der (.add .dice)) :=
  sound_additive (sound_dRollPrimary n)

end GoBCDice
