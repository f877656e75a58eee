import Verif.Lemmas.MemParseActions

/-! # The parser on memory runs like the parser on trees -/

namespace GoBCDice.Mem

open Pigeon (Sym PExpr PEnv PState PRes Action Pt slice upperAscii noRandomMsg Val Letter)
open Raw (Heap Ref Ptr Obj Rep RepRolls RepRRollList RepNode RepThreshold RepBonus RepURollExpr RepItems
  Frame)

/-! ## Labels -/

/-- The labels of a frame have values in memory; `fp` are their nodes. -/
inductive RepFrame (h : Heap) : Pigeon.Frame → MFrame → List Ref → Prop
  | nil : RepFrame h [] [] []
  | cons {l v m f F M fp} : RepVal h v m f → RepFrame h F M fp →
      RepFrame h ((l, v) :: F) ((l, m) :: M) (f ++ fp)

theorem RepFrame.frame0 {h h' F M fp} (hr : RepFrame h F M fp) (f : Frame h [] h') :
    RepFrame h' F M fp := by
  induction hr with
  | nil => exact .nil
  | cons hv _ ih => exact .cons (hv.frame0 f) ih

theorem RepFrame.lt {h F M fp} (hr : RepFrame h F M fp) : ∀ x ∈ fp, x < h.length := by
  induction hr with
  | nil => simp
  | cons hv _ ih => exact append_lt hv.lt ih

theorem get_cons_self (l : Str) (v : Val) (F : Pigeon.Frame) :
    Pigeon.Frame.get ((l, v) :: F) l = v := by
  unfold Pigeon.Frame.get
  simp [List.lookup]

theorem get_cons_ne {l l' : Str} (h : l ≠ l') (v : Val) (F : Pigeon.Frame) :
    Pigeon.Frame.get ((l', v) :: F) l = F.get l := by
  unfold Pigeon.Frame.get
  have hb : (l == l') = false := by simp [h]
  simp only [List.lookup, hb]

theorem mget_cons_self (l : Str) (v : MVal) (F : MFrame) : MFrame.get ((l, v) :: F) l = v := by
  unfold MFrame.get
  simp [List.lookup]

theorem mget_cons_ne {l l' : Str} (h : l ≠ l') (v : MVal) (F : MFrame) :
    MFrame.get ((l', v) :: F) l = F.get l := by
  unfold MFrame.get
  have hb : (l == l') = false := by simp [h]
  simp only [List.lookup, hb]

theorem get1 {h F M fp} (hr : RepFrame h F M fp) (l : Str) :
    ∃ f, RepVal h (F.get l) (M.get l) f ∧ f.Sublist fp := by
  induction hr with
  | nil => exact ⟨[], .nil, by simp⟩
  | @cons l' v m f F M fp hv _ ih =>
    by_cases hl : l = l'
    · subst hl
      rw [get_cons_self, mget_cons_self]
      exact ⟨f, hv, List.sublist_append_left _ _⟩
    · rw [get_cons_ne hl, mget_cons_ne hl]
      obtain ⟨g, h1, h2⟩ := ih
      exact ⟨g, h1, h2.trans (List.sublist_append_right _ _)⟩

theorem nodup_swap {f g : List Ref} (h : (f ++ g).Nodup) : (g ++ f).Nodup := by
  have hn := List.nodup_append.mp h
  exact List.nodup_append.mpr ⟨hn.2.1, hn.1, fun x hx y hy he => hn.2.2 y hy x hx he.symm⟩

theorem get2 {h F M fp} (hr : RepFrame h F M fp) (hn : fp.Nodup) {l1 l2 : Str} (h12 : l1 ≠ l2) :
    ∃ f g, RepVal h (F.get l1) (M.get l1) f ∧ RepVal h (F.get l2) (M.get l2) g ∧ (f ++ g).Nodup ∧
      ∀ x ∈ f ++ g, x ∈ fp := by
  induction hr with
  | nil => exact ⟨[], [], .nil, .nil, by simp, by simp⟩
  | @cons l' v m f F M fp hv hr ih =>
    by_cases hl : l1 = l'
    · subst hl
      rw [get_cons_self, mget_cons_self, get_cons_ne h12.symm, mget_cons_ne h12.symm]
      obtain ⟨g, h1, h2⟩ := get1 hr l2
      have hs := (List.Sublist.refl f).append h2
      exact ⟨f, g, hv, h1, hn.sublist hs, fun x hx => hs.subset hx⟩
    · rw [get_cons_ne hl, mget_cons_ne hl]
      by_cases hl2 : l2 = l'
      · subst hl2
        rw [get_cons_self, mget_cons_self]
        obtain ⟨g, h1, h2⟩ := get1 hr l1
        have hs := (List.Sublist.refl f).append h2
        refine ⟨g, f, h1, hv, nodup_swap (hn.sublist hs), fun x hx => hs.subset ?_⟩
        rw [List.mem_append] at hx ⊢
        exact hx.symm
      · rw [get_cons_ne hl2, mget_cons_ne hl2]
        obtain ⟨f', g', h1, h2, h3, h4⟩ := ih (List.nodup_append.mp hn).2.1
        exact ⟨f', g', h1, h2, h3, fun x hx => List.mem_append_right _ (h4 x hx)⟩

theorem get3 {h F M fp} (hr : RepFrame h F M fp) (hn : fp.Nodup) {l1 l2 l3 : Str} (h12 : l1 ≠ l2)
    (h13 : l1 ≠ l3) (h23 : l2 ≠ l3) :
    ∃ f g e, RepVal h (F.get l1) (M.get l1) f ∧ RepVal h (F.get l2) (M.get l2) g ∧
      RepVal h (F.get l3) (M.get l3) e ∧ (f ++ (g ++ e)).Nodup ∧ ∀ x ∈ f ++ (g ++ e), x ∈ fp := by
  induction hr with
  | nil => exact ⟨[], [], [], .nil, .nil, .nil, by simp, by simp⟩
  | @cons l' v m f F M fp hv hr ih =>
    have hn' := List.nodup_append.mp hn
    by_cases hl : l1 = l'
    · subst hl
      rw [get_cons_self, mget_cons_self, get_cons_ne h12.symm, mget_cons_ne h12.symm,
        get_cons_ne h13.symm, mget_cons_ne h13.symm]
      obtain ⟨g, e, h1, h2, h3, h4⟩ := get2 hr hn'.2.1 h23
      refine ⟨f, g, e, hv, h1, h2, List.nodup_append.mpr ⟨hn'.1, h3, fun x hx y hy =>
        hn'.2.2 x hx y (h4 y hy)⟩, ?_⟩
      intro x hx
      rcases List.mem_append.mp hx with hx | hx
      · exact List.mem_append_left _ hx
      · exact List.mem_append_right _ (h4 x hx)
    rw [get_cons_ne hl, mget_cons_ne hl]
    by_cases hl2 : l2 = l'
    · subst hl2
      rw [get_cons_self, mget_cons_self, get_cons_ne h23.symm, mget_cons_ne h23.symm]
      obtain ⟨g, e, h1, h2, h3, h4⟩ := get2 hr hn'.2.1 h13
      have hg := List.nodup_append.mp h3
      refine ⟨g, f, e, h1, hv, h2, List.nodup_append.mpr ⟨hg.1, List.nodup_append.mpr
        ⟨hn'.1, hg.2.1, fun x hx y hy => hn'.2.2 x hx y (h4 y (List.mem_append_right _ hy))⟩, ?_⟩, ?_⟩
      · intro x hx y hy hxy
        rcases List.mem_append.mp hy with hy | hy
        · exact hn'.2.2 y hy x (h4 x (List.mem_append_left _ hx)) hxy.symm
        · exact hg.2.2 x hx y hy hxy
      · intro x hx
        simp only [List.mem_append] at hx h4 ⊢
        rcases hx with hx | hx | hx
        · exact .inr (h4 x (.inl hx))
        · exact .inl hx
        · exact .inr (h4 x (.inr hx))
    rw [get_cons_ne hl2, mget_cons_ne hl2]
    by_cases hl3 : l3 = l'
    · subst hl3
      rw [get_cons_self, mget_cons_self]
      obtain ⟨g, e, h1, h2, h3, h4⟩ := get2 hr hn'.2.1 h12
      refine ⟨g, e, f, h1, h2, hv, ?_, ?_⟩
      · rw [← List.append_assoc]
        exact List.nodup_append.mpr ⟨h3, hn'.1, fun x hx y hy he => hn'.2.2 y hy x (h4 x hx) he.symm⟩
      · intro x hx
        rw [← List.append_assoc, List.mem_append] at hx
        rw [List.mem_append]
        exact hx.symm.imp id (h4 x)
    · rw [get_cons_ne hl3, mget_cons_ne hl3]
      obtain ⟨f', g', e', h1, h2, h3, h4, h5⟩ := ih hn'.2.1
      exact ⟨f', g', e', h1, h2, h3, h4, fun x hx => List.mem_append_right _ (h5 x hx)⟩

/-! ## All actions -/

/-- The value of a label. -/
theorem made_get {h F M fp} (hr : RepFrame h F M fp) (hn : fp.Nodup) (l : Str) :
    Made h fp (F.get l) ((pure (M.get l) : A MVal) h) := by
  obtain ⟨f, h1, h2⟩ := get1 hr l
  exact ⟨_, _, f, rfl, h1, hn.sublist h2, fun y hy => .inl (h2.subset hy), Frame.refl _ _⟩

theorem made_leaf {h fp} {v : Val} (o : Obj) (hv : RepVal (h ++ [o]) v (.node h.length) [h.length]) :
    Made h fp v ((do let n ← new o; pure (.node n) : A MVal) h) :=
  (made_top o (f := []) (by simp) (by simp) hv).mono (by simp)

theorem made_wrap {h F M fp} {l : Str} {e : Expr} {v : Val} {o : Ref → Obj} (hr : RepFrame h F M fp)
    (hn : fp.Nodup) (he : F.get l = .expr e)
    (hv : ∀ r f, Rep (h ++ [o r]) (some r) e f →
      RepVal (h ++ [o r]) v (.node h.length) (h.length :: f)) :
    Made h fp v ((do
      let e ← asNode (M.get l)
      let n ← new (o e)
      pure (.node n) : A MVal) h) := by
  obtain ⟨f, h1, h2⟩ := get1 hr l
  rw [he] at h1
  obtain ⟨r, hr, hrep⟩ := h1.expr_ref
  rw [hr]
  exact (made_top (o r) (hn.sublist h2) hrep.lt (hv r f (hrep.top _))).mono (fun y hy => h2.subset hy)

/-- Two operands. -/
theorem made_two {h F M fp} {l1 l2 : Str} (h12 : l1 ≠ l2) {a b : Expr} {v : Val} {k : Raw.InfixKind}
    (hr : RepFrame h F M fp) (hn : fp.Nodup) (h1 : F.get l1 = .expr a) (h2 : F.get l2 = .expr b)
    (hv : ∀ m1 m2 fl fr, RepVal h (.expr a) m1 fl → RepVal h (.expr b) m2 fr → (fl ++ fr).Nodup →
      Made h (fl ++ fr) v (onVarInfix k m1 m2 h)) :
    Made h fp v (onVarInfix k (M.get l1) (M.get l2) h) := by
  obtain ⟨f, g, g1, g2, g3, g4⟩ := get2 hr hn h12
  rw [h1] at g1
  rw [h2] at g2
  exact (hv _ _ _ _ g1 g2 g3).mono g4

theorem made_assoc {PL : Expr → List Val → Pigeon.ActRes} {ML : Ref → List MVal → A Ref}
    {h F M fp} (hL : ∀ rest, LoopOk PL ML h rest) (hr : RepFrame h F M fp) (hn : fp.Nodup) {v : Val}
    (hv : (match F.get chars!"first", F.get chars!"rest" with
      | .expr first, rest =>
        match Pigeon.toSlice rest with
        | some rs => PL first rs
        | none => Pigeon.badType
      | _, _ => Pigeon.badType) = .ok v) :
    Made h fp v ((do
      let lastNode ← asNode (M.get chars!"first")
      let n ← ML lastNode (← toSlice (M.get chars!"rest"))
      pure (.node n) : A MVal) h) := by
  obtain ⟨f, g, g1, g2, g3, g4⟩ := get2 hr hn (l1 := chars!"first") (l2 := chars!"rest") (by decide)
  exact (assoc_ok hL g1 g2 g3 hv).mono g4

theorem compareLabels {h F M fp} (hr : RepFrame h F M fp) (hn : fp.Nodup) {o : Str} {left : Val}
    {r : Expr} (h1 : F.get chars!"left" = left) (h2 : F.get chars!"op" = .bytes o)
    (h3 : F.get chars!"right" = .expr r) :
    ∃ f g, RepVal h left (M.get chars!"left") f ∧ M.get chars!"op" = .bytes o ∧
      RepVal h (.expr r) (M.get chars!"right") g ∧ (f ++ g).Nodup ∧ ∀ x ∈ f ++ g, x ∈ fp := by
  obtain ⟨f, g, e, g1, g2, g3, g4, g5⟩ := get3 hr hn (l1 := chars!"left") (l2 := chars!"op")
    (l3 := chars!"right") (by decide) (by decide) (by decide)
  rw [h1] at g1
  rw [h2] at g2
  rw [h3] at g3
  cases hm : M.get chars!"op" with
  | bytes s =>
    rw [hm] at g2
    cases g2 with
    | bytes =>
    exact ⟨f, e, g1, rfl, g3, by simpa using g4, by simpa using g5⟩
  | nil => rw [hm] at g2; cases g2
  | list => rw [hm] at g2; cases g2
  | node => rw [hm] at g2; cases g2

theorem rRollListAction_ok {nilInstance : Ref} {h F M fp} (hnil : h[nilInstance]? = some .nilNode)
    (hr : RepFrame h F M fp) (hn : fp.Nodup) {k : Letter} {v : Val}
    (hv : Pigeon.rRollListAction k (F.get chars!"first") (F.get chars!"rest") (F.get chars!"th") =
      .ok v) :
    Made h fp v (onRRollList nilInstance (M.get chars!"first") (M.get chars!"rest")
      (M.get chars!"th") h) := by
  obtain ⟨f, g, e, g1, g2, g3, g4, g5⟩ := get3 hr hn (l1 := chars!"first") (l2 := chars!"rest")
    (l3 := chars!"th") (by decide) (by decide) (by decide)
  unfold Pigeon.rRollListAction at hv
  split at hv
  · rename_i t k' r rs ht hfirst hrs
    split at hv
    · rename_i hk
      subst hk
      split at hv
      · rename_i rolls hrolls
        cases hv
        rw [hfirst] at g1
        exact (onRRollList_ok hnil g1 g2 g3 g4 hrs hrolls ht).mono g5
      · cases hv
    · cases hv
  · cases hv

/-- The comparisons. -/
theorem compare_case {h F M fp} (hr : RepFrame h F M fp) (hn : fp.Nodup) {k : Option Letter} {v : Val}
    (hv : Pigeon.compareAction k (F.get chars!"left") (F.get chars!"op") (F.get chars!"right") = .ok v) :
    Made h fp v (match k with
      | some .b => onComp .bRollComp (M.get chars!"left") (M.get chars!"op") (M.get chars!"right") h
      | some .r => onComp .rRollComp (M.get chars!"left") (M.get chars!"op") (M.get chars!"right") h
      | some .u => onComp .uRollComp (M.get chars!"left") (M.get chars!"op") (M.get chars!"right") h
      | none => (do
        let c ← newCompare (M.get chars!"left") (M.get chars!"op") (M.get chars!"right")
        pure (.node c) : A MVal) h) := by
  obtain ⟨o, c, r, h2, h3, rfl, h1⟩ := compare_inv hv
  obtain ⟨f, g, g1, g2, g3, g4, g5⟩ := compareLabels hr hn rfl h2 h3
  rw [g2]
  rcases h1 with ⟨x, rfl, h1, rfl⟩ | ⟨x, rfl, h1, rfl⟩ | ⟨x, rfl, h1, rfl⟩ | ⟨x, rfl, h1, rfl⟩
  · rw [h1] at g1; exact (onBComp_ok g1 g3 g4).mono g5
  · rw [h1] at g1; exact (onRComp_ok g1 g3 g4).mono g5
  · rw [h1] at g1; exact (onUComp_ok g1 g3 g4).mono g5
  · rw [h1] at g1; exact (onDComp_ok g1 g3 g4).mono g5

/-- Parentheses and unary plus. -/
theorem same_case {h F M fp} (hr : RepFrame h F M fp) (hn : fp.Nodup) {v : Val}
    (hv : (match F.get chars!"e" with
      | .expr e => Pigeon.ActRes.ok (.expr e)
      | _ => Pigeon.badType) = .ok v) :
    Made h fp v ((do
      let e ← asNode (M.get chars!"e")
      pure (.node e) : A MVal) h) := by
  split at hv
  · rename_i e he
    cases hv
    obtain ⟨f, h1, h2⟩ := get1 hr chars!"e"
    rw [he] at h1
    obtain ⟨r, hm, hrep⟩ := h1.expr_ref
    rw [hm]
    exact ⟨_, _, f, rfl, .expr hrep, hn.sublist h2, fun y hy => .inl (h2.subset hy), Frame.refl _ _⟩
  · cases hv

/-- Unary minus. -/
theorem neg_case {h F M fp} (hr : RepFrame h F M fp) (hn : fp.Nodup) {v : Val}
    (hv : (match F.get chars!"e" with
      | .expr e => Pigeon.ActRes.ok (.expr (.neg e))
      | _ => Pigeon.badType) = .ok v) :
    Made h fp v ((do
      let e ← asNode (M.get chars!"e")
      let n ← new (.unary (some e))
      pure (.node n) : A MVal) h) := by
  split at hv
  · rename_i e he
    cases hv
    exact made_wrap (o := fun e => .unary (some e)) hr hn he
      (fun r f hrep => .expr (.neg (Raw.get_top _ _) hrep))
  · cases hv

/-- `onDRoll1`, `onRandomNumber1`. -/
theorem var_case {h F M fp} {l1 l2 : Str} (h12 : l1 ≠ l2) {k : Raw.InfixKind} {c : Expr → Expr → Expr}
    (hk : ∀ a b, Raw.infixExpr k a b = some (c a b)) (hr : RepFrame h F M fp) (hn : fp.Nodup) {v : Val}
    (hv : (match F.get l1, F.get l2 with
      | .expr n, .expr s => Pigeon.ActRes.ok (.expr (c n s))
      | _, _ => Pigeon.badType) = .ok v) :
    Made h fp v (onVarInfix k (M.get l1) (M.get l2) h) := by
  split at hv
  · rename_i n s h1 h2
    cases hv
    exact made_two h12 hr hn h1 h2 (fun m1 m2 fl fr g1 g2 g3 => onVarInfix_expr (hk _ _) g1 g2 g3)
  · cases hv

/-- `onBRoll1`, `onRRoll1`, `onURoll1`. -/
theorem roll_case {h F M fp} {k : Letter} (hr : RepFrame h F M fp) (hn : fp.Nodup) {v : Val}
    (hv : (match F.get chars!"num", F.get chars!"sides" with
      | .expr n, .expr s => Pigeon.ActRes.ok (.roll k ⟨n, s⟩)
      | _, _ => Pigeon.badType) = .ok v) :
    Made h fp v (onVarInfix (rollKind k) (M.get chars!"num") (M.get chars!"sides") h) := by
  split at hv
  · rename_i n s h1 h2
    cases hv
    exact made_two (by decide) hr hn h1 h2 (fun m1 m2 fl fr g1 g2 g3 => onVarInfix_roll g1 g2 g3)
  · cases hv

/-- Every action that returns a value on trees makes it in memory. -/
theorem runAction_ok {nilInstance : Ref} {h F M fp} (hnil : h[nilInstance]? = some .nilNode)
    (hr : RepFrame h F M fp) (hn : fp.Nodup) {a : Action} {text : Str} {rc : Option Int} {v : Val}
    (hv : Pigeon.runAction a F text rc = .ok v) :
    Made h fp v (runAction nilInstance a M text rc h) := by
  cases a with
  | onCommand1 => cases hv; exact made_get hr hn _
  | onCommandWithExpression1 => cases hv; exact made_get hr hn _
  | onChoice1 => cases hv; exact made_get hr hn _
  | onChoiceItem1 => cases hv; exact made_get hr hn _
  | onChoiceItems1 =>
    unfold Pigeon.runAction at hv
    simp only at hv
    split at hv
    · rename_i s rs hs hrs
      split at hv
      · rename_i ss hss
        cases hv
        obtain ⟨f, g, g1, g2, g3, g4⟩ := get2 hr hn (l1 := chars!"first") (l2 := chars!"rest") (by decide)
        rw [hs] at g1
        exact (onChoiceItems_ok g1 g2 g3 hrs hss).mono g4
      · cases hv
    · cases hv
  | onChoiceItemChars1 => cases hv; exact made_leaf _ (.str (Raw.get_top _ _))
  | onInteger1 => cases hv; exact made_leaf _ (.expr (.int (Raw.get_top _ _)))
  | onCalc1 =>
    unfold Pigeon.runAction at hv
    simp only at hv
    split at hv
    · rename_i e he
      cases hv
      exact made_wrap (o := fun e => .command .calc (some e)) hr hn he
        (fun r f hrep => .node (.calc (Raw.get_top _ _) hrep))
    · cases hv
  | onDRollExprCommand1 =>
    unfold Pigeon.runAction at hv
    simp only at hv
    split at hv
    · cases hv
    · rename_i c
      split at hv
      · cases hv
      · rename_i hc
        split at hv
        · rename_i e he
          cases hv
          have := made_wrap (o := fun e => .command .dRollExpr (some e)) hr hn he
            (fun r f hrep => .node (.dRollExpr (Raw.get_top _ _) hrep))
          show Made h fp _ (onDCommand .dRollExpr (some c) (M.get chars!"expr") h)
          unfold onDCommand
          simp only
          rw [if_neg hc]
          exact this
        · cases hv
  | onDRollCompCommand1 =>
    unfold Pigeon.runAction at hv
    simp only at hv
    split at hv
    · cases hv
    · rename_i c
      split at hv
      · cases hv
      · rename_i hc
        split at hv
        · rename_i l op r he
          cases hv
          show Made h fp _ (onDCommand .dRollComp (some c) (M.get chars!"expr") h)
          unfold onDCommand
          simp only
          rw [if_neg hc]
          obtain ⟨f, h1, h2⟩ := get1 hr chars!"expr"
          rw [he] at h1
          generalize hm : M.get chars!"expr" = m at h1
          cases h1 with
          | @compare cr _ _ _ lp rp fl fr hx hl hrr =>
          have hlt : ∀ x ∈ cr :: (fl ++ fr), x < h.length := (RepVal.compare hx hl hrr).lt
          exact (made_top (.command .dRollComp (some cr)) (hn.sublist h2) hlt
            (.node (.dRollComp (Raw.get_top _ _) (Raw.parent_kept (Raw.top_frame _ _) hx (by simp))
              (hl.top _) (hrr.top _)))).mono (fun y hy => h2.subset hy)
        · cases hv
  | onBRollList1 =>
    replace hv : Pigeon.rollListAction (F.get chars!"first") (F.get chars!"rest") = .ok v := hv
    unfold Pigeon.rollListAction at hv
    split at hv
    · rename_i r rs hs hrs
      split at hv
      · rename_i rolls hss
        cases hv
        obtain ⟨f, g, g1, g2, g3, g4⟩ := get2 hr hn (l1 := chars!"first") (l2 := chars!"rest") (by decide)
        rw [hs] at g1
        exact (onBRollList_ok g1 g2 g3 hrs hss).mono g4
      · cases hv
    · cases hv
  | onBRollComp1 => exact compare_case (k := some .b) hr hn hv
  | onRRollComp1 => exact compare_case (k := some .r) hr hn hv
  | onURollComp1 => exact compare_case (k := some .u) hr hn hv
  | onDRollComp1 => exact compare_case (k := none) hr hn hv
  | onRRollList1 => exact rRollListAction_ok hnil hr hn hv
  | onURollList1 => exact rRollListAction_ok hnil hr hn hv
  | onURollExpr1 =>
    replace hv : Pigeon.uRollExprAction (F.get chars!"uRollList") (F.get chars!"bonus") = .ok v := hv
    obtain ⟨f, g, g1, g2, g3, g4⟩ := get2 hr hn (l1 := chars!"uRollList") (l2 := chars!"bonus") (by decide)
    unfold Pigeon.uRollExprAction at hv
    split at hv
    · rename_i rl hb hl
      cases hv
      rw [hl] at g1
      rw [hb] at g2
      exact (onURollExpr_none g1 g2 g3).mono g4
    · rename_i op e rl hb hl
      rw [hl] at g1
      rw [hb] at g2
      split at hv
      · rename_i hop
        cases hv
        exact (onURollExpr_some g1 g2 g3 (.inl ⟨hop, rfl⟩)).mono g4
      · split at hv
        · rename_i hop
          cases hv
          exact (onURollExpr_some g1 g2 g3 (.inr ⟨hop, rfl⟩)).mono g4
        · cases hv
    · cases hv
  | onIntExprAdditive1 => exact made_assoc (addLoop_ok h) hr hn hv
  | onDRollExprAdditive1 => exact made_assoc (addLoop_ok h) hr hn hv
  | onIntRandExprAdditive1 => exact made_assoc (addLoop_ok h) hr hn hv
  | onIntExprMultitive1 => exact made_assoc (mulLoop_ok h) hr hn hv
  | onDRollExprMultitive1 => exact made_assoc (mulLoop_ok h) hr hn hv
  | onIntRandExprMultitive1 => exact made_assoc (mulLoop_ok h) hr hn hv
  | onParenthesizedIntExpr1 => exact same_case hr hn hv
  | onParenthesizedDRollExpr1 => exact same_case hr hn hv
  | onParenthesizedIntRandExpr1 => exact same_case hr hn hv
  | onIntExprUnaryPlus1 => exact same_case hr hn hv
  | onDRollExprUnaryPlus1 => exact same_case hr hn hv
  | onIntRandExprUnaryPlus1 => exact same_case hr hn hv
  | onIntExprUnaryMinus1 => exact neg_case hr hn hv
  | onDRollExprUnaryMinus1 => exact neg_case hr hn hv
  | onIntRandExprUnaryMinus1 => exact neg_case hr hn hv
  | onDRoll1 => exact var_case (k := .dRoll) (by decide) (fun _ _ => rfl) hr hn hv
  | onRandomNumber1 => exact var_case (k := .random) (by decide) (fun _ _ => rfl) hr hn hv
  | onBRoll1 => exact roll_case (k := .b) hr hn hv
  | onRRoll1 => exact roll_case (k := .r) hr hn hv
  | onURoll1 => exact roll_case (k := .u) hr hn hv

/-! ## Actions that return an error -/

theorem addLoop_err {m : Str} : ∀ (rest : List Val) (acc : Expr), Pigeon.addLoop acc rest ≠ .err m := by
  intro rest
  induction rest with
  | nil => intro acc h; cases h
  | cons w rest ih =>
    intro acc h
    unfold Pigeon.addLoop at h
    split at h
    · cases h
    · rename_i heq; cases heq
      split at h
      · exact ih _ h
      · split at h
        · exact ih _ h
        · exact ih _ h
    · cases h

theorem mulLoop_err {m : Str} : ∀ (rest : List Val) (acc : Expr), Pigeon.mulLoop acc rest ≠ .err m := by
  intro rest
  induction rest with
  | nil => intro acc h; cases h
  | cons w rest ih =>
    intro acc h
    unfold Pigeon.mulLoop at h
    split at h
    · cases h
    · rename_i heq; cases heq
      repeat' split at h
      all_goals exact ih _ h
    · rename_i heq; cases heq
      repeat' split at h
      all_goals exact ih _ h
    · cases h

theorem onDCommand_err (ty : Raw.CommandType) {c : Int} (hc : c < 1) (m : MVal) (h : Heap) :
    onDCommand ty (some c) m h = (.err noRandomMsg, h) := by
  unfold onDCommand
  simp only [if_pos hc]
  rfl

/-- Every action that returns an error on trees returns it on memory, which it leaves as it is. -/
theorem runAction_err {nilInstance : Ref} {h F M fp} (hr : RepFrame h F M fp) {a : Action} {text : Str}
    {rc : Option Int} {m : Str} (hv : Pigeon.runAction a F text rc = .err m) :
    runAction nilInstance a M text rc h = (.err m, h) := by
  have hassoc : ∀ (PL : Expr → List Val → Pigeon.ActRes) (x y : Val),
      (∀ acc rest, PL acc rest ≠ .err m) → (match x, y with
      | .expr first, rest =>
        match Pigeon.toSlice rest with
        | some rs => PL first rs
        | none => Pigeon.badType
      | _, _ => Pigeon.badType) ≠ .err m := by
    intro PL x y hPL h
    split at h
    · split at h
      · exact hPL _ _ h
      · cases h
    · cases h
  have hcomp : ∀ (k : Option Letter) (l o r : Val), Pigeon.compareAction k l o r ≠ .err m := by
    intro k l o r h
    unfold Pigeon.compareAction at h
    repeat' split at h
    all_goals cases h
  cases a with
  | onDRollExprCommand1 =>
    unfold Pigeon.runAction at hv
    simp only at hv
    split at hv
    · cases hv
    · rename_i c
      split at hv
      · rename_i hc
        cases hv
        exact onDCommand_err _ hc _ _
      · split at hv <;> cases hv
  | onDRollCompCommand1 =>
    unfold Pigeon.runAction at hv
    simp only at hv
    split at hv
    · cases hv
    · rename_i c
      split at hv
      · rename_i hc
        cases hv
        exact onDCommand_err _ hc _ _
      · split at hv <;> cases hv
  | onURollExpr1 =>
    replace hv : Pigeon.uRollExprAction (F.get chars!"uRollList") (F.get chars!"bonus") = .err m := hv
    obtain ⟨g, g2, -⟩ := get1 hr chars!"bonus"
    show onURollExpr (M.get chars!"uRollList") (M.get chars!"bonus") h = _
    unfold Pigeon.uRollExprAction at hv
    split at hv
    · cases hv
    · rename_i op e rl hb hl
      rw [hb] at g2
      split at hv
      · cases hv
      · rename_i h1
        split at hv
        · cases hv
        · rename_i h2
          cases hv
          obtain ⟨q, hq, -⟩ := pair_inv g2
          rw [hq]
          have hstep : newBonus (.list [.bytes op, .node q]) h =
            (if op = chars!"+" then do
              let z ← new (.int 0)
              let n ← new (.binary .add (some z) (some q))
              pure (some n)
            else if op = chars!"-" then do
              let z ← new (.int 0)
              let n ← new (.binary .sub (some z) (some q))
              pure (some n)
            else A.fail (chars!"unknown operator: " ++ op) : A Ptr) h := rfl
          rw [if_neg h1, if_neg h2] at hstep
          unfold onURollExpr
          simp only [bind_apply, hstep, A.fail]
    · cases hv
  | onBRollComp1 => exact absurd hv (hcomp _ _ _ _)
  | onRRollComp1 => exact absurd hv (hcomp _ _ _ _)
  | onURollComp1 => exact absurd hv (hcomp _ _ _ _)
  | onDRollComp1 => exact absurd hv (hcomp _ _ _ _)
  | onIntExprAdditive1 => exact absurd hv (hassoc _ _ _ (fun _ _ => addLoop_err _ _))
  | onDRollExprAdditive1 => exact absurd hv (hassoc _ _ _ (fun _ _ => addLoop_err _ _))
  | onIntRandExprAdditive1 => exact absurd hv (hassoc _ _ _ (fun _ _ => addLoop_err _ _))
  | onIntExprMultitive1 => exact absurd hv (hassoc _ _ _ (fun _ _ => mulLoop_err _ _))
  | onDRollExprMultitive1 => exact absurd hv (hassoc _ _ _ (fun _ _ => mulLoop_err _ _))
  | onIntRandExprMultitive1 => exact absurd hv (hassoc _ _ _ (fun _ _ => mulLoop_err _ _))
  | onBRollList1 =>
    exfalso
    simp only [Pigeon.runAction, Pigeon.rollListAction] at hv
    repeat' split at hv
    all_goals cases hv
  | onRRollList1 =>
    exfalso
    simp only [Pigeon.runAction, Pigeon.rRollListAction] at hv
    repeat' split at hv
    all_goals cases hv
  | onURollList1 =>
    exfalso
    simp only [Pigeon.runAction, Pigeon.rRollListAction] at hv
    repeat' split at hv
    all_goals cases hv
  | _ =>
    exfalso
    simp only [Pigeon.runAction] at hv
    repeat' split at hv
    all_goals cases hv

/-! ## Steps without labels -/

/-- The same state with other labels. -/
abbrev withV (c : PState) (V : List Pigeon.Frame) : PState := { c with vstack := V }

theorem addErrAt_withV (env : PEnv) (c : PState) (V) (m : Str) (p : Pigeon.Pos) :
    (withV c V).addErrAt env m p = withV (c.addErrAt env m p) V := rfl

theorem failAt_withV (c : PState) (V) (b : Bool) (p : Pigeon.Pos) (w : Str) :
    (withV c V).failAt b p w = withV (c.failAt b p w) V := by
  unfold PState.failAt
  simp only
  repeat' split
  all_goals rfl

theorem enter_withV (env : PEnv) (c : PState) (V) (l k o : Nat) (r : List Sym) :
    (withV c V).enter env l k o r = withV (c.enter env l k o r) V := by
  unfold PState.enter
  simp only
  split <;> split <;> rfl

theorem read_withV (env : PEnv) (c : PState) (V) : (withV c V).read env = withV (c.read env) V :=
  enter_withV ..

theorem restore_withV (c : PState) (V) (p : Pt) : (withV c V).restore p = withV (c.restore p) V := by
  unfold PState.restore
  simp only
  split <;> rfl

/-- The same for results. -/
def resV (V : List Pigeon.Frame) : PRes → PRes
  | .ret v ok st => .ret v ok (withV st V)
  | .panic m st => .panic m (withV st V)

theorem parseAny_withV (env : PEnv) (c : PState) (V) :
    Pigeon.parseAny env (withV c V) = resV V (Pigeon.parseAny env c) := by
  unfold Pigeon.parseAny
  simp only [read_withV, failAt_withV]
  split <;> rfl

theorem parseCharClass_withV (env : PEnv) (val : Str) (chars : List Char) (ranges : List (Char × Char))
    (classes : List Str) (ic inv : Bool) (c : PState) (V) :
    Pigeon.parseCharClass env val chars ranges classes ic inv (withV c V) =
      resV V (Pigeon.parseCharClass env val chars ranges classes ic inv c) := by
  unfold Pigeon.parseCharClass
  simp only [read_withV, failAt_withV]
  cases c.pt.rest with
  | nil => rfl
  | cons s rest =>
    simp only
    split <;> split <;> rfl

theorem litLoop_withV (env : PEnv) (ic : Bool) (V) : ∀ (val : Str) (c : PState),
    Pigeon.litLoop env ic val (withV c V) =
      ((Pigeon.litLoop env ic val c).1, withV (Pigeon.litLoop env ic val c).2 V) := by
  intro val
  induction val with
  | nil => intro c; rfl
  | cons w val ih =>
    intro c
    unfold Pigeon.litLoop
    simp only [read_withV, ih]
    rw [show (withV c V).rune = c.rune from rfl]
    split <;> split <;> rfl

theorem parseLit_withV (env : PEnv) (val : Str) (ic : Bool) (c : PState) (V) :
    Pigeon.parseLit env val ic (withV c V) = resV V (Pigeon.parseLit env val ic c) := by
  unfold Pigeon.parseLit
  rw [litLoop_withV]
  obtain ⟨b, st⟩ := Pigeon.litLoop env ic val c
  cases b
  · simp only [failAt_withV, restore_withV]; rfl
  · simp only [failAt_withV]; rfl

theorem parseStateCode_withV (a : Pigeon.StateAction) (c : PState) (V) :
    Pigeon.parseStateCode a (withV c V) = resV V (Pigeon.parseStateCode a c) := by
  cases a with
  | onResetRandCount1 => rfl
  | onIncRandCount1 =>
    unfold Pigeon.parseStateCode
    simp only
    split <;> rfl

end GoBCDice.Mem
