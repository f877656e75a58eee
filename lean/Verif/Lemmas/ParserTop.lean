import Verif.Lemmas.ParserChoice
import Verif.Lemmas.ParserCommand

/-! # The whole command: the parser accepts exactly the texts of the grammar -/

namespace GoBCDice

theorem noErr_ok {p : P Node} {s rest : Str} {c c' : Nat} {x : Option Node}
    (h : noErr p s c = some (x, rest, c')) : ∃ node, x = some node ∧ p s c = some (node, rest, c') := by
  unfold noErr at h
  rw [P.bind_ok] at h
  obtain ⟨a, s1, c1, h1, h⟩ := h
  simp only [P.pure_def, Option.some.injEq, Prod.mk.injEq] at h
  obtain ⟨rfl, rfl, rfl⟩ := h
  exact ⟨a, rfl, h1⟩

theorem noErr_some {p : P Node} {s rest : Str} {c c' : Nat} {x : Node}
    (h : p s c = some (x, rest, c')) : noErr p s c = some (some x, rest, c') :=
  (P.bind_some h).trans rfl

theorem noErr_none {p : P Node} {s : Str} {c : Nat} (h : p s c = none) : noErr p s c = none :=
  P.bind_none h

/-! ## Soundness -/

theorem calcCmd_parts {n : Nat} {s rest : Str} {c c' : Nat} {node : Node}
    (h : calcCmd n s c = some (node, rest, c')) : ∃ y t e, node = .calc e ∧
      s = [y] ++ chars!"(" ++ t ++ chars!")" ++ rest ∧ (y = 'C' ∨ y = 'c') ∧ Der (.add .int) t e := by
  unfold calcCmd at h
  rw [P.bind_ok] at h
  obtain ⟨_, s1, c1, h1, h⟩ := h
  rw [P.bind_ok] at h
  obtain ⟨_, s2, c2, h2, h⟩ := h
  rw [P.bind_ok] at h
  obtain ⟨e, s3, c3, h3, h⟩ := h
  rw [P.bind_ok] at h
  obtain ⟨_, s4, c4, h4, h⟩ := h
  simp only [P.pure_def, Option.some.injEq, Prod.mk.injEq] at h
  obtain ⟨rfl, rfl, rfl⟩ := h
  obtain ⟨y, rfl, hy, -⟩ := chrI_ok h1
  obtain ⟨rfl, -⟩ := chr_ok h2
  obtain ⟨t, rfl, ht, -⟩ := sound_intExpr n _ _ _ _ _ h3
  obtain ⟨rfl, -⟩ := chr_ok h4
  exact ⟨y, t, e, rfl, by simp, (toLowerRune_c y).mp hy, ht⟩

theorem calcCmd_ok {n : Nat} {s rest : Str} {c c' : Nat} {node : Node}
    (h : calcCmd n s c = some (node, rest, c')) : CommandText s node := by
  obtain ⟨y, t, e, rfl, rfl, h1, h2⟩ := calcCmd_parts h
  exact .calc h1 h2

theorem compare_ok {n : Nat} {s s1 rest : Str} {c c1 c' : Nat} {op : CmpOp} {e : Expr}
    (h1 : compareOp s c = some (op, s1, c1)) (h2 : intExpr n s1 c1 = some (e, rest, c')) :
    ∃ t, s = t ++ rest ∧ CompareText t op e ∧ c' = c := by
  obtain ⟨rfl, rfl⟩ := compareOp_ok h1
  obtain ⟨t, rfl, ht, h3⟩ := sound_intExpr n _ _ _ _ _ h2
  have := ht.int_rands (by simp)
  exact ⟨op.str ++ t, by simp, .mk ht, by omega⟩

theorem bRollComp_ok {n : Nat} {s : Str} {c c' : Nat} {node : Node}
    (h : bRollComp n s c = some (node, [], c')) : CommandText s node := by
  unfold bRollComp at h
  rw [P.bind_ok] at h
  obtain ⟨rs, s1, c1, h1, h⟩ := h
  rw [P.bind_ok] at h
  obtain ⟨op, s2, c2, h2, h⟩ := h
  rw [P.bind_ok] at h
  obtain ⟨e, s3, c3, h3, h⟩ := h
  simp only [P.pure_def, Option.some.injEq, Prod.mk.injEq] at h
  obtain ⟨rfl, rfl, rfl⟩ := h
  obtain ⟨t, rfl, ht⟩ := rollList_ok .b h1
  obtain ⟨t', rfl, ht', -⟩ := compare_ok h2 h3
  rw [List.append_nil]
  exact .bRollComp ht ht'

theorem bRollListCmd_ok {n : Nat} {s : Str} {c c' : Nat} {node : Node}
    (h : bRollListCmd n s c = some (node, [], c')) : CommandText s node := by
  unfold bRollListCmd at h
  rw [P.bind_ok] at h
  obtain ⟨rs, s1, c1, h1, h⟩ := h
  simp only [P.pure_def, Option.some.injEq, Prod.mk.injEq] at h
  obtain ⟨rfl, rfl, rfl⟩ := h
  obtain ⟨t, rfl, ht⟩ := rollList_ok .b h1
  rw [List.append_nil]
  exact .bRollList ht

theorem rRollComp_ok {n : Nat} {s : Str} {c c' : Nat} {node : Node}
    (h : rRollComp n s c = some (node, [], c')) : CommandText s node := by
  unfold rRollComp at h
  rw [P.bind_ok] at h
  obtain ⟨rs, s1, c1, h1, h⟩ := h
  rw [P.bind_ok] at h
  obtain ⟨op, s2, c2, h2, h⟩ := h
  rw [P.bind_ok] at h
  obtain ⟨e, s3, c3, h3, h⟩ := h
  simp only [P.pure_def, Option.some.injEq, Prod.mk.injEq] at h
  obtain ⟨rfl, rfl, rfl⟩ := h
  obtain ⟨t, rfl, ht⟩ := rRollList_ok .r h1
  obtain ⟨t', rfl, ht', -⟩ := compare_ok h2 h3
  rw [List.append_nil]
  exact .rRollComp ht ht'

theorem rRollListCmd_ok {n : Nat} {s : Str} {c c' : Nat} {node : Node}
    (h : rRollListCmd n s c = some (node, [], c')) : CommandText s node := by
  unfold rRollListCmd at h
  rw [P.bind_ok] at h
  obtain ⟨rs, s1, c1, h1, h⟩ := h
  simp only [P.pure_def, Option.some.injEq, Prod.mk.injEq] at h
  obtain ⟨rfl, rfl, rfl⟩ := h
  obtain ⟨t, rfl, ht⟩ := rRollList_ok .r h1
  rw [List.append_nil]
  exact .rRollList ht

theorem uRollComp_ok {n : Nat} {s : Str} {c c' : Nat} {node : Node}
    (h : uRollComp n s c = some (node, [], c')) : CommandText s node := by
  unfold uRollComp at h
  rw [P.bind_ok] at h
  obtain ⟨rs, s1, c1, h1, h⟩ := h
  rw [P.bind_ok] at h
  obtain ⟨op, s2, c2, h2, h⟩ := h
  rw [P.bind_ok] at h
  obtain ⟨e, s3, c3, h3, h⟩ := h
  simp only [P.pure_def, Option.some.injEq, Prod.mk.injEq] at h
  obtain ⟨rfl, rfl, rfl⟩ := h
  obtain ⟨t, rfl, ht⟩ := uRollExpr_ok h1
  obtain ⟨t', rfl, ht', -⟩ := compare_ok h2 h3
  rw [List.append_nil]
  exact .uRollComp ht ht'

theorem uRollExprCmd_ok {n : Nat} {s : Str} {c c' : Nat} {node : Node}
    (h : uRollExprCmd n s c = some (node, [], c')) : CommandText s node := by
  unfold uRollExprCmd at h
  rw [P.bind_ok] at h
  obtain ⟨rs, s1, c1, h1, h⟩ := h
  simp only [P.pure_def, Option.some.injEq, Prod.mk.injEq] at h
  obtain ⟨rfl, rfl, rfl⟩ := h
  obtain ⟨t, rfl, ht⟩ := uRollExpr_ok h1
  rw [List.append_nil]
  exact .uRollExpr ht

theorem dRollCompCommand_ok {n : Nat} {s : Str} {c' : Nat} {node : Node}
    (h : dRollCompCommand n s 0 = some (some node, [], c')) : CommandText s node := by
  unfold dRollCompCommand at h
  rw [P.bind_ok] at h
  obtain ⟨l, s1, c1, h1, h⟩ := h
  rw [P.bind_ok] at h
  obtain ⟨op, s2, c2, h2, h⟩ := h
  rw [P.bind_ok] at h
  obtain ⟨e, s3, c3, h3, h⟩ := h
  simp only [requireRandom, Option.some.injEq, Prod.mk.injEq] at h
  obtain ⟨h, rfl, rfl⟩ := h
  split at h
  · simp at h
  · rename_i hc
    simp only [Option.some.injEq] at h
    subst h
    obtain ⟨t, rfl, ht, hr⟩ := sound_dRollExpr n _ _ _ _ _ h1
    obtain ⟨t', rfl, ht', rfl⟩ := compare_ok h2 h3
    rw [List.append_nil]
    exact .dRollComp ht (by omega) ht'

theorem dRollExprCommand_ok {n : Nat} {s : Str} {c' : Nat} {node : Node}
    (h : dRollExprCommand n s 0 = some (some node, [], c')) : CommandText s node := by
  unfold dRollExprCommand at h
  rw [P.bind_ok] at h
  obtain ⟨l, s1, c1, h1, h⟩ := h
  simp only [requireRandom, Option.some.injEq, Prod.mk.injEq] at h
  obtain ⟨h, rfl, rfl⟩ := h
  split at h
  · simp at h
  · rename_i hc
    simp only [Option.some.injEq] at h
    subst h
    obtain ⟨t, rfl, ht, hr⟩ := sound_dRollExpr n _ _ _ _ _ h1
    rw [List.append_nil]
    exact .dRollExpr ht (by omega)

theorem eot_ok {s rest : Str} {c c' : Nat} {u : Unit} (h : eot s c = some (u, rest, c')) : s = [] := by
  cases s with
  | nil => rfl
  | cons x s => simp [eot] at h

theorem command_ok {n : Nat} {s rest : Str} {c' : Nat} {node : Node}
    (h : command n s 0 = some (some node, rest, c')) : CommandText s node := by
  unfold command at h
  rcases P.alt_ok h with h | ⟨-, h⟩
  · obtain ⟨x, hx, h⟩ := noErr_ok h
    cases hx; exact choiceCmd_ok h
  rcases P.alt_ok h with h | ⟨-, h⟩
  · obtain ⟨x, hx, h⟩ := noErr_ok h
    cases hx; exact calcCmd_ok h
  unfold commandWithExpression at h
  rw [P.bind_ok] at h
  obtain ⟨x, s1, c1, h, h2⟩ := h
  rw [P.bind_ok] at h2
  obtain ⟨_, s2, c2, h2, h3⟩ := h2
  simp only [P.pure_def, Option.some.injEq, Prod.mk.injEq] at h3
  obtain ⟨rfl, -, -⟩ := h3
  have := eot_ok h2
  subst this
  rcases P.alt_ok h with h | ⟨-, h⟩
  · obtain ⟨x, hx, h⟩ := noErr_ok h
    cases hx; exact bRollComp_ok h
  rcases P.alt_ok h with h | ⟨-, h⟩
  · obtain ⟨x, hx, h⟩ := noErr_ok h
    cases hx; exact bRollListCmd_ok h
  rcases P.alt_ok h with h | ⟨-, h⟩
  · obtain ⟨x, hx, h⟩ := noErr_ok h
    cases hx; exact rRollComp_ok h
  rcases P.alt_ok h with h | ⟨-, h⟩
  · obtain ⟨x, hx, h⟩ := noErr_ok h
    cases hx; exact rRollListCmd_ok h
  rcases P.alt_ok h with h | ⟨-, h⟩
  · obtain ⟨x, hx, h⟩ := noErr_ok h
    cases hx; exact uRollComp_ok h
  rcases P.alt_ok h with h | ⟨-, h⟩
  · obtain ⟨x, hx, h⟩ := noErr_ok h
    cases hx; exact uRollExprCmd_ok h
  rcases P.alt_ok h with h | ⟨-, h⟩
  · exact dRollCompCommand_ok h
  · exact dRollExprCommand_ok h

/-! ## Completeness -/

theorem isStart_c {x : Char} (h : isStart x = true) : toLowerRune x ≠ 'c' := by
  rw [Ne, toLowerRune_c]
  rintro (rfl | rfl) <;> revert h <;> decide

/-- Choice and Calc fail on a text starting like an expression. -/
theorem command_expr {n : Nat} {s : Str} {c : Nat} (h : ∃ x s', s = x :: s' ∧ isStart x = true) :
    command n s c = commandWithExpression n s c := by
  obtain ⟨x, s', rfl, hx⟩ := h
  have hc : ∀ y ∈ (x :: s').head?, toLowerRune y ≠ 'c' := by
    intro y hy
    simp only [List.head?_cons, Option.mem_def, Option.some.injEq] at hy
    subst hy
    exact isStart_c hx
  unfold command
  rw [P.alt_right, P.alt_right]
  · exact noErr_none (P.bind_none (chrI_none _ _ _ hc))
  · refine noErr_none (P.bind_none ?_)
    exact P.bind_none (chrI_none _ _ _ hc)

theorem eot_nil (c : Nat) : eot [] c = some ((), [], c) := rfl

theorem withExpr_end {n : Nat} {s : Str} {c c' : Nat} {node : Node}
    (h : (noErr (bRollComp n) <|> noErr (bRollListCmd n) <|> noErr (rRollComp n) <|>
      noErr (rRollListCmd n) <|> noErr (uRollComp n) <|> noErr (uRollExprCmd n) <|>
      dRollCompCommand n <|> dRollExprCommand n) s c = some (some node, [], c')) :
    commandWithExpression n s c = some (some node, [], c') := by
  unfold commandWithExpression
  rw [P.bind_some h, P.bind_some (eot_nil c')]
  rfl

theorem CompareText.head {t : Str} {op : CmpOp} {e : Expr} (h : CompareText t op e) :
    ∃ x t', t = x :: t' ∧ isCmp x = true := by
  cases h with
  | mk h => cases op <;> exact ⟨_, _, rfl, by decide⟩

theorem CompareText.accepts {t : Str} {op : CmpOp} {e : Expr} (h : CompareText t op e) (n c : Nat)
    (hn : t.length ≤ n) :
    ∃ s1, compareOp t c = some (op, s1, c) ∧ intExpr n s1 c = some (e, [], c) := by
  cases h with
  | @mk s _ _ h =>
    simp only [List.length_append] at hn
    exact ⟨s, compareOp_accepts op s c h.start, intExpr_end h n c (by omega)⟩

theorem start_append {s t : Str} (h : ∃ x s', s = x :: s' ∧ isStart x = true) :
    ∃ x s', s ++ t = x :: s' ∧ isStart x = true := by
  obtain ⟨x, s', rfl, hx⟩ := h
  exact ⟨x, s' ++ t, rfl, hx⟩

theorem RRollsText.start {L : Char × Char} {s : Str} {rl : RRollList} (h : RRollsText L s rl) :
    ∃ x s', s = x :: s' ∧ isStart x = true := by
  obtain ⟨a, b, rfl, ha, hb⟩ := h
  exact start_append ha.start

theorem URollText.start {s : Str} {u : URollExpr} (h : URollText s u) :
    ∃ x s', s = x :: s' ∧ isStart x = true := by
  obtain ⟨a, b, rfl, ha, hb⟩ := h
  exact start_append (RRollsText.start ha)

/-- The B alternatives fail when the roll list does. -/
theorem b_fail {n : Nat} {s : Str} {c : Nat} (h : rollList (letterRoll 'b' n) s c = none) :
    noErr (bRollComp n) s c = none ∧ noErr (bRollListCmd n) s c = none :=
  ⟨noErr_none (P.bind_none h), noErr_none (P.bind_none h)⟩

theorem r_fail {n : Nat} {s : Str} {c : Nat} (h : rollList (letterRoll 'r' n) s c = none) :
    noErr (rRollComp n) s c = none ∧ noErr (rRollListCmd n) s c = none :=
  ⟨noErr_none (P.bind_none (P.bind_none h)), noErr_none (P.bind_none (P.bind_none h))⟩

theorem u_fail {n : Nat} {s : Str} {c : Nat} (h : rollList (letterRoll 'u' n) s c = none) :
    noErr (uRollComp n) s c = none ∧ noErr (uRollExprCmd n) s c = none :=
  ⟨noErr_none (P.bind_none (P.bind_none (P.bind_none h))),
    noErr_none (P.bind_none (P.bind_none (P.bind_none h)))⟩

theorem cmpEnd {t : Str} (h : t = [] ∨ ∃ op e, CompareText t op e) :
    t = [] ∨ ∃ x t', t = x :: t' ∧ isCmp x = true := by
  rcases h with rfl | ⟨op, e, h⟩
  · exact .inl rfl
  · exact .inr h.head

theorem command_accepts {s : Str} {node : Node} (h : CommandText s node) (n : Nat)
    (hn : s.length ≤ n) : ∃ rest c', command n s 0 = some (some node, rest, c') := by
  cases h with
  | choice hkw hit hs =>
    exact ⟨_, _, P.alt_left (noErr_some (choiceCmd_accepts hkw hit hs 0))⟩
  | @«calc» t rest e c hc ht =>
    have e0 : [c] ++ chars!"(" ++ t ++ chars!")" ++ rest = c :: '(' :: (t ++ (')' :: rest)) := by simp
    rw [e0] at hn ⊢
    refine ⟨rest, 0, ?_⟩
    unfold command
    rw [P.alt_right]
    · refine P.alt_left (noErr_some ?_)
      unfold calcCmd
      rw [P.bind_some (chrI_cons _ _ _ _ ((toLowerRune_c c).mpr hc)), P.bind_some (chr_cons _ _ _),
        P.bind_some (intExpr_accepts ht n 0 (by simp at hn; omega) (Stops.cons (by decide))),
        P.bind_some (chr_cons _ _ _)]
      rfl
    · refine noErr_none (P.bind_none ?_)
      show litI ('c' :: 'h' :: chars!"oice[") _ _ = none
      simp only [litI]
      rw [P.bind_some (chrI_cons _ _ _ _ ((toLowerRune_c c).mpr hc))]
      refine P.bind_none (chrI_none _ _ _ ?_)
      intro y hy
      simp only [List.head?_cons, Option.mem_def, Option.some.injEq] at hy
      subst hy
      decide
  | @bRollList _ rs hrs =>
    obtain ⟨c', h1⟩ := rollList_accepts .b 0 hrs hn (Stops.nil _)
      (fun c => plusRoll_none (Stops.nil _))
    rw [List.append_nil] at h1
    refine ⟨[], c', ?_⟩
    rw [command_expr hrs.start]
    refine withExpr_end ?_
    rw [P.alt_right]
    · exact P.alt_left (noErr_some ((P.bind_some h1).trans rfl))
    · exact noErr_none ((P.bind_some h1).trans (P.bind_none (compareOp_nil _)))
  | @bRollComp a t rs op e hrs hcmp =>
    simp only [List.length_append] at hn
    have hst : ∀ {f : Char → Bool}, f '=' = false → f '<' = false → f '>' = false → Stops f t :=
      fun h1 h2 h3 => isCmp_stops (.inr hcmp.head) (isCmp_cases h1 h2 h3)
    obtain ⟨c', h1⟩ := rollList_accepts (n := n) .b 0 hrs (by omega)
      (hst (by decide) (by decide) (by decide))
      (fun c => plusRoll_none (hst (by decide) (by decide) (by decide)))
    obtain ⟨s1, h2, h3⟩ := hcmp.accepts n c' (by omega)
    refine ⟨[], c', ?_⟩
    rw [command_expr (start_append hrs.start)]
    refine withExpr_end (P.alt_left (noErr_some ?_))
    unfold bRollComp
    rw [P.bind_some h1, P.bind_some h2, P.bind_some h3]
    rfl
  | @rRollList _ rl hrl =>
    obtain ⟨c', h1⟩ := rRollList_accepts .r 0 hrl hn (Stops.nil _)
      (fun c => plusRoll_none (Stops.nil _))
    have hb := b_fail (rRollList_other (rest := []) .b .r (by decide) 0 hrl hn)
    rw [List.append_nil] at h1 hb
    refine ⟨[], c', ?_⟩
    rw [command_expr (RRollsText.start hrl)]
    refine withExpr_end ?_
    rw [P.alt_right hb.1, P.alt_right hb.2, P.alt_right]
    · exact P.alt_left (noErr_some ((P.bind_some h1).trans rfl))
    · exact noErr_none ((P.bind_some h1).trans (P.bind_none (compareOp_nil _)))
  | @rRollComp a t rl op e hrl hcmp =>
    simp only [List.length_append] at hn
    have hst : ∀ {f : Char → Bool}, f '=' = false → f '<' = false → f '>' = false → Stops f t :=
      fun h1 h2 h3 => isCmp_stops (.inr hcmp.head) (isCmp_cases h1 h2 h3)
    obtain ⟨c', h1⟩ := rRollList_accepts (n := n) .r 0 hrl (by omega)
      (hst (by decide) (by decide) (by decide))
      (fun c => plusRoll_none (hst (by decide) (by decide) (by decide)))
    have hb := b_fail (rRollList_other (rest := t) (n := n) .b .r (by decide) 0 hrl (by omega))
    obtain ⟨s1, h2, h3⟩ := hcmp.accepts n c' (by omega)
    refine ⟨[], c', ?_⟩
    rw [command_expr (start_append (RRollsText.start hrl))]
    refine withExpr_end ?_
    rw [P.alt_right hb.1, P.alt_right hb.2]
    refine P.alt_left (noErr_some ?_)
    unfold rRollComp
    rw [P.bind_some h1, P.bind_some h2, P.bind_some h3]
    rfl
  | @uRollExpr _ u hu =>
    obtain ⟨c', h1⟩ := uRollExpr_accepts 0 hu hn (.inl rfl)
    obtain ⟨list, bon⟩ := u
    have hu' := hu
    obtain ⟨a, b, rfl, ha, hb'⟩ := hu
    simp only [List.length_append] at hn ha
    have hb := b_fail (rRollList_other (rest := b) (n := n) .b .u (by decide) 0 ha (by omega))
    have hr := r_fail (rRollList_other (rest := b) (n := n) .r .u (by decide) 0 ha (by omega))
    rw [List.append_nil] at h1
    refine ⟨[], c', ?_⟩
    rw [command_expr hu'.start]
    refine withExpr_end ?_
    rw [P.alt_right hb.1, P.alt_right hb.2, P.alt_right hr.1, P.alt_right hr.2, P.alt_right]
    · exact P.alt_left (noErr_some ((P.bind_some h1).trans rfl))
    · exact noErr_none ((P.bind_some h1).trans (P.bind_none (compareOp_nil _)))
  | @uRollComp a t u op e hu hcmp =>
    simp only [List.length_append] at hn
    obtain ⟨c', h1⟩ := uRollExpr_accepts (n := n) 0 hu (by omega) (.inr hcmp.head)
    obtain ⟨list, bon⟩ := u
    have hu' := hu
    obtain ⟨a, b, rfl, ha, hb'⟩ := hu
    simp only [List.length_append] at hn ha
    have hb := b_fail (rRollList_other (rest := b ++ t) (n := n) .b .u (by decide) 0 ha (by omega))
    have hr := r_fail (rRollList_other (rest := b ++ t) (n := n) .r .u (by decide) 0 ha (by omega))
    rw [← List.append_assoc] at hb hr
    obtain ⟨s1, h2, h3⟩ := hcmp.accepts n c' (by omega)
    refine ⟨[], c', ?_⟩
    rw [command_expr (start_append hu'.start)]
    refine withExpr_end ?_
    rw [P.alt_right hb.1, P.alt_right hb.2, P.alt_right hr.1, P.alt_right hr.2]
    refine P.alt_left (noErr_some ?_)
    unfold uRollComp
    rw [P.bind_some h1, P.bind_some h2, P.bind_some h3]
    rfl
  | @dRollExpr _ e hd hpos =>
    have h1 := dRollExpr_accepts hd n 0 hn (Stops.nil _)
    have hb := b_fail (rollList_expr (rest := []) .b 0 hd hn (Stops.nil _))
    have hr := r_fail (rollList_expr (rest := []) .r 0 hd hn (Stops.nil _))
    have hu := u_fail (rollList_expr (rest := []) .u 0 hd hn (Stops.nil _))
    rw [List.append_nil] at h1 hb hr hu
    refine ⟨[], 0 + e.rands, ?_⟩
    rw [command_expr hd.start]
    refine withExpr_end ?_
    rw [P.alt_right hb.1, P.alt_right hb.2, P.alt_right hr.1, P.alt_right hr.2, P.alt_right hu.1,
      P.alt_right hu.2, P.alt_right]
    · unfold dRollExprCommand
      rw [P.bind_some h1]
      simp only [requireRandom]
      rw [if_neg (by omega)]
    · exact (P.bind_some h1).trans (P.bind_none (compareOp_nil _))
  | @dRollComp a t l op e hd hpos hcmp =>
    simp only [List.length_append] at hn
    have hst : ∀ {f : Char → Bool}, f '=' = false → f '<' = false → f '>' = false → Stops f t :=
      fun h1 h2 h3 => isCmp_stops (.inr hcmp.head) (isCmp_cases h1 h2 h3)
    have h1 := dRollExpr_accepts hd n 0 (by omega) (hst (by decide) (by decide) (by decide))
    have hf : Stops fLetter t := hst (by decide) (by decide) (by decide)
    have hb := b_fail (rollList_expr (n := n) .b 0 hd (by omega) hf)
    have hr := r_fail (rollList_expr (n := n) .r 0 hd (by omega) hf)
    have hu := u_fail (rollList_expr (n := n) .u 0 hd (by omega) hf)
    obtain ⟨s1, h2, h3⟩ := hcmp.accepts n (0 + l.rands) (by omega)
    refine ⟨[], 0 + l.rands, ?_⟩
    rw [command_expr (start_append hd.start)]
    refine withExpr_end ?_
    rw [P.alt_right hb.1, P.alt_right hb.2, P.alt_right hr.1, P.alt_right hr.2, P.alt_right hu.1,
      P.alt_right hu.2]
    refine P.alt_left ?_
    unfold dRollCompCommand
    rw [P.bind_some h1, P.bind_some h2, P.bind_some h3]
    simp only [requireRandom]
    rw [if_neg (by omega)]

/-- The parser, with any sufficient fuel, accepts exactly the texts of the grammar and returns the
tree they denote. -/
theorem parseFuel_iff (n : Nat) (s : Str) (node : Node) (hn : s.length ≤ n) :
    parseFuel n s = some node ↔ CommandText s node := by
  constructor
  · intro h
    unfold parseFuel at h
    split at h
    · rename_i hc
      simp only [Option.some.injEq] at h
      subst h
      exact command_ok hc
    · simp at h
  · intro h
    obtain ⟨rest, c', hc⟩ := command_accepts h n hn
    unfold parseFuel
    rw [hc]

theorem parse_iff (s : Str) (node : Node) : parse s = some node ↔ CommandText s node :=
  parseFuel_iff _ s node (Nat.le_succ _)

theorem parseFuel_eq (n : Nat) (s : Str) (hn : s.length ≤ n) : parseFuel n s = parse s := by
  cases h : parse s with
  | some node => exact (parseFuel_iff n s node hn).mpr ((parse_iff s node).mp h)
  | none =>
    cases h' : parseFuel n s with
    | none => rfl
    | some node =>
      have := (parse_iff s node).mpr ((parseFuel_iff n s node hn).mp h')
      rw [h] at this
      simp at this

end GoBCDice
