import Verif.MemParse
import Verif.Lemmas.RawBuild

/-! # The parser that makes nodes in memory against the one that builds trees: actions -/

namespace GoBCDice.Mem

open Pigeon (Sym PExpr PEnv PState PRes Action Pt slice upperAscii noRandomMsg Val Letter)
open Raw (Heap Ref Ptr Obj Rep RepRolls RepRRollList RepNode RepThreshold RepBonus RepURollExpr RepItems
  Frame)

/-- The kind of node of a roll. -/
def rollKind : Letter → Raw.InfixKind
  | .b => .bRoll
  | .r => .rRoll
  | .u => .uRoll

mutual
/-- The value `m` is, with the nodes of memory, the value `v`; `fp` are its nodes. -/
inductive RepVal (h : Heap) : Val → MVal → List Ref → Prop
  | nil : RepVal h .nil .nil []
  | bytes {s} : RepVal h (.bytes s) (.bytes s) []
  | list {vs ms fp} : RepVals h vs ms fp → RepVal h (.list vs) (.list ms) fp
  | expr {e r fp} : Rep h (some r) e fp → RepVal h (.expr e) (.node r) fp
  | roll {k x r fp} : RepRolls h (rollKind k) [some r] [x] fp → RepVal h (.roll k x) (.node r) fp
  | str {s r} : h[r]? = some (.string s) → RepVal h (.str s) (.node r) [r]
  | rRollList {k rl r fp} : RepRRollList h (rollKind k) (some r) rl fp →
      RepVal h (.rRollList k rl) (.node r) fp
  | compare {c l op r lp rp fl fr} : h[c]? = some (.binary (.compare (CmpOp.str op)) lp rp) →
      Rep h lp l fl → Rep h rp r fr → RepVal h (.compare l op r) (.node c) (c :: (fl ++ fr))
  | node {n r fp} : RepNode h (some r) n fp → RepVal h (.node n) (.node r) fp
/-- The same for lists. -/
inductive RepVals (h : Heap) : List Val → List MVal → List Ref → Prop
  | nil : RepVals h [] [] []
  | cons {v m f vs ms fs} : RepVal h v m f → RepVals h vs ms fs →
      RepVals h (v :: vs) (m :: ms) (f ++ fs)
end

mutual
theorem RepVal.frame0 {h h' v m fp} (hr : RepVal h v m fp) (f : Frame h [] h') : RepVal h' v m fp := by
  cases hr with
  | nil => exact .nil
  | bytes => exact .bytes
  | list hs => exact .list (hs.frame0 f)
  | expr hs => exact .expr (hs.frame0 f)
  | roll hs => exact .roll (hs.frame f (by simp))
  | str hx => exact .str (Raw.parent_kept f hx (by simp))
  | rRollList hs => exact .rRollList (hs.frame f (by simp) (by simp [Raw.NotNil]))
  | compare hx hl hr => exact .compare (Raw.parent_kept f hx (by simp)) (hl.frame0 f) (hr.frame0 f)
  | node hs => exact .node (hs.frame0 f)
theorem RepVals.frame0 {h h' v m fp} (hr : RepVals h v m fp) (f : Frame h [] h') :
    RepVals h' v m fp := by
  cases hr with
  | nil => exact .nil
  | cons h1 h2 => exact .cons (h1.frame0 f) (h2.frame0 f)
end

mutual
theorem RepVal.lt {h v m fp} (hr : RepVal h v m fp) : ∀ x ∈ fp, x < h.length := by
  cases hr with
  | nil => simp
  | bytes => simp
  | list hs => exact hs.lt
  | expr hs => exact hs.lt
  | roll hs => exact hs.lt
  | str hx => intro x hm; rw [List.mem_singleton] at hm; exact hm ▸ Raw.lt_of_get hx
  | rRollList hs => exact hs.lt
  | compare hx hl hr =>
    intro x hm
    rw [List.mem_cons, List.mem_append] at hm
    rcases hm with rfl | hm | hm
    · exact Raw.lt_of_get hx
    · exact hl.lt x hm
    · exact hr.lt x hm
  | node hs => exact hs.lt
theorem RepVals.lt {h v m fp} (hr : RepVals h v m fp) : ∀ x ∈ fp, x < h.length := by
  cases hr with
  | nil => simp
  | cons h1 h2 =>
    intro x hm
    rcases List.mem_append.mp hm with hm | hm
    · exact h1.lt x hm
    · exact h2.lt x hm
end

theorem RepVals.snoc {h vs ms fs v m f} (hs : RepVals h vs ms fs) (hv : RepVal h v m f) :
    RepVals h (vs ++ [v]) (ms ++ [m]) (fs ++ f) := by
  induction vs generalizing ms fs with
  | nil =>
    cases hs
    simpa using RepVals.cons hv .nil
  | cons a vs ih =>
    cases hs with
    | cons h1 h2 =>
      rw [List.append_assoc]
      exact .cons h1 (ih h2)

/-! ## Computations -/

theorem bind_apply {α β : Type} (x : A α) (f : α → A β) (h : Heap) :
    (x >>= f) h = match x h with
      | (.ok a, h') => f a h'
      | (.err e, h') => (.err e, h')
      | (.panic m, h') => (.panic m, h') := rfl

theorem pure_apply {α : Type} (a : α) (h : Heap) : (pure a : A α) h = (.ok a, h) := rfl

theorem new_apply (o : Obj) (h : Heap) : new o h = (.ok h.length, h ++ [o]) := rfl

theorem load_apply {r : Ref} {o : Obj} {h : Heap} (hr : h[r]? = some o) : load r h = (.ok o, h) := by
  unfold load; rw [hr]

theorem index_apply {vs : List MVal} {i : Nat} {v : MVal} (hi : vs[i]? = some v) (h : Heap) :
    index vs i h = (.ok v, h) := by
  unfold index; rw [hi]; rfl

theorem asNode_node (r : Ref) (h : Heap) : asNode (.node r) h = (.ok r, h) := rfl
theorem asBytes_bytes (s : Str) (h : Heap) : asBytes (.bytes s) h = (.ok s, h) := rfl
theorem toSlice_list (vs : List MVal) (h : Heap) : toSlice (.list vs) h = (.ok vs, h) := rfl
theorem toSlice_nil (h : Heap) : toSlice .nil h = (.ok [], h) := rfl

theorem asVarInfix_roll {h hc : Heap} {k x m f} (hr : RepVal h (.roll k x) m f)
    (fr : Frame h [] hc) : ∃ r, m = .node r ∧ asVarInfix m hc = (.ok r, hc) := by
  cases hr with
  | @roll _ _ r _ hs =>
    refine ⟨r, rfl, ?_⟩
    cases hs with
    | cons hx _ _ _ =>
      unfold asVarInfix
      have h1 := load_apply (Raw.parent_kept fr hx (by simp))
      simp only [bind_apply, asNode_node, h1]
      cases k <;> rfl

theorem asString_str {h hc : Heap} {s m f} (hr : RepVal h (.str s) m f)
    (fr : Frame h [] hc) : ∃ r, m = .node r ∧ asString m hc = (.ok r, hc) := by
  cases hr with
  | @str _ r hx =>
    refine ⟨r, rfl, ?_⟩
    unfold asString
    have h1 := load_apply (Raw.parent_kept fr hx (by simp))
    simp only [bind_apply, asNode_node, h1]
    rfl

theorem asRRollList_list {h hc : Heap} {k rl m f} (hr : RepVal h (.rRollList k rl) m f)
    (fr : Frame h [] hc) : ∃ r, m = .node r ∧ asRRollList m hc = (.ok r, hc) := by
  cases hr with
  | @rRollList _ _ r _ hs =>
    refine ⟨r, rfl, ?_⟩
    cases hs with
    | mk hx _ _ =>
      unfold asRRollList
      have h1 := load_apply (Raw.parent_kept fr hx (by simp))
      simp only [bind_apply, asNode_node, h1]
      rfl

/-! ## Values made by actions -/

/-- The outcome of an action with arguments in `fp` is the value `v`, without sharing. -/
def Made (h : Heap) (fp : List Ref) (v : Val) (x : Out MVal × Heap) : Prop :=
  ∃ m h' f, x = (.ok m, h') ∧ RepVal h' v m f ∧ f.Nodup ∧ (∀ y ∈ f, y ∈ fp ∨ h.length ≤ y) ∧
    Frame h [] h'

theorem cons_new_nodup {h : Heap} {f : List Ref} (hn : f.Nodup) (hlt : ∀ x ∈ f, x < h.length) :
    (h.length :: f).Nodup :=
  List.nodup_cons.mpr ⟨fun hm => Nat.lt_irrefl _ (hlt _ hm), hn⟩

theorem append_lt {h : Heap} {f g : List Ref} (hf : ∀ x ∈ f, x < h.length)
    (hg : ∀ x ∈ g, x < h.length) : ∀ x ∈ f ++ g, x < h.length := by
  intro x hm
  rcases List.mem_append.mp hm with hm | hm
  · exact hf x hm
  · exact hg x hm

/-- A new node above operands that are in memory. -/
theorem made_top {h : Heap} {f : List Ref} {v : Val} (o : Obj) (hn : f.Nodup)
    (hlt : ∀ x ∈ f, x < h.length)
    (hv : RepVal (h ++ [o]) v (.node h.length) (h.length :: f)) :
    Made h f v (.ok (.node h.length), h ++ [o]) :=
  ⟨_, _, _, rfl, hv, cons_new_nodup hn hlt, by
    intro y hy
    rw [List.mem_cons] at hy
    rcases hy with rfl | hy
    · exact .inr (Nat.le_refl _)
    · exact .inl hy, Raw.top_frame h o⟩

theorem Made.mono {h fp fp' v x} (hm : Made h fp v x) (hs : ∀ y ∈ fp, y ∈ fp') : Made h fp' v x := by
  obtain ⟨m, h', f, h1, h2, h3, h4, h5⟩ := hm
  exact ⟨m, h', f, h1, h2, h3, fun y hy => (h4 y hy).imp (hs y) id, h5⟩

/-- An infix node that is an expression. -/
theorem made_infix {h : Heap} {k : Raw.InfixKind} {a b e : Expr} {l r : Ref} {fl fr : List Ref}
    (he : Raw.infixExpr k a b = some e) (hl : Rep h (some l) a fl) (hr : Rep h (some r) b fr)
    (hn : (fl ++ fr).Nodup) :
    Made h (fl ++ fr) (.expr e) (.ok (.node h.length), h ++ [.binary k (some l) (some r)]) :=
  made_top _ hn (append_lt hl.lt hr.lt)
    (.expr (.binary (Raw.get_top _ _) he (hl.top _) (hr.top _)))

theorem onVarInfix_expr {h : Heap} {k : Raw.InfixKind} {a b e : Expr} {m1 m2 : MVal} {fl fr : List Ref}
    (he : Raw.infixExpr k a b = some e) (hl : RepVal h (.expr a) m1 fl)
    (hr : RepVal h (.expr b) m2 fr) (hn : (fl ++ fr).Nodup) :
    Made h (fl ++ fr) (.expr e) (onVarInfix k m1 m2 h) := by
  cases hl with
  | expr hl =>
    cases hr with
    | expr hr => exact made_infix he hl hr hn

theorem onVarInfix_roll {h : Heap} {k : Letter} {a b : Expr} {m1 m2 : MVal} {fl fr : List Ref}
    (hl : RepVal h (.expr a) m1 fl) (hr : RepVal h (.expr b) m2 fr) (hn : (fl ++ fr).Nodup) :
    Made h (fl ++ fr) (.roll k ⟨a, b⟩) (onVarInfix (rollKind k) m1 m2 h) := by
  cases hl with
  | expr hl =>
    cases hr with
    | expr hr =>
      refine made_top _ hn (append_lt hl.lt hr.lt) (.roll ?_)
      have := RepRolls.cons (k := rollKind k) (Raw.get_top h (.binary (rollKind k) _ _)) (hl.top _)
        (hr.top _) RepRolls.nil
      simpa using this

/-! ### Sums and products -/

theorem addLoop_inv {acc : Expr} {w : Val} {rest : List Val} {v : Val}
    (h : Pigeon.addLoop acc (w :: rest) = .ok v) : ∃ op r, w = .list [.bytes op, .expr r] := by
  unfold Pigeon.addLoop at h
  split at h
  · rename_i heq; cases heq
  · rename_i heq; cases heq; exact ⟨_, _, rfl⟩
  · cases h

/-- What the loops of sums and products keep: the tree so far. -/
def LoopOk (PL : Expr → List Val → Pigeon.ActRes) (ML : Ref → List MVal → A Ref) (h : Heap)
    (rest : List Val) : Prop :=
  ∀ (ms : List MVal) (fr : List Ref) (hc : Heap) (acc : Expr) (a : Ref) (fa : List Ref) (v : Val),
    RepVals h rest ms fr → Frame h [] hc → Rep hc (some a) acc fa → fa.Nodup → fr.Nodup →
    (∀ x ∈ fa, x ∉ fr) → PL acc rest = .ok v →
    ∃ e n hc' f, v = .expr e ∧ ML a ms hc = (.ok n, hc') ∧ Rep hc' (some n) e f ∧ f.Nodup ∧
      (∀ y ∈ f, y ∈ fa ∨ y ∈ fr ∨ hc.length ≤ y) ∧ Frame h [] hc'

/-- The loop makes a node. -/
theorem LoopOk.step {PL ML h rest} (ih : LoopOk PL ML h rest) {ms : List MVal} {fr f2 fs : List Ref}
    {hc : Heap} {acc r e : Expr} {a q : Ref} {fa : List Ref} {v : Val} (hs : RepVals h rest ms fs)
    (hf : Frame h [] hc) (ha : Rep hc (some a) acc fa) (hna : fa.Nodup) (hq : Rep h (some q) r f2)
    (hfr : fr = f2 ++ fs) (hnr : fr.Nodup) (hd : ∀ x ∈ fa, x ∉ fr) (k : Raw.InfixKind)
    (he : Raw.infixExpr k acc r = some e) (hv : PL e rest = .ok v) :
    ∃ e' n hc' f', v = .expr e' ∧ ML hc.length ms (hc ++ [.binary k (some a) (some q)]) =
      (.ok n, hc') ∧ Rep hc' (some n) e' f' ∧ f'.Nodup ∧
      (∀ y ∈ f', y ∈ fa ∨ y ∈ fr ∨ hc.length ≤ y) ∧ Frame h [] hc' := by
  subst hfr
  have hq' := hq.frame0 hf
  have hfq : (∀ x ∈ fa, x ∉ f2) := fun x hx hm => hd x hx (List.mem_append_left _ hm)
  have hn2 : (fa ++ f2).Nodup := List.nodup_append.mpr
    ⟨hna, (List.nodup_append.mp hnr).1, fun x hx y hy hxy => hfq x hx (hxy ▸ hy)⟩
  obtain ⟨_, _, f', hx, hrep, hnf, hsub, hfr⟩ := made_infix he ha hq' hn2
  cases hx
  cases hrep with
  | expr hrep =>
  have hlt : ∀ x ∈ fs, x < h.length := hs.lt
  obtain ⟨e', n, hc', f'', g1, g2, g3, g4, g5, g6⟩ := ih ms fs _ e hc.length f' v hs
    (hf.trans hfr (by simp)) hrep hnf (List.nodup_append.mp hnr).2.1 (by
      intro x hx hm
      rcases hsub x hx with h1 | h1
      · rcases List.mem_append.mp h1 with h1 | h1
        · exact hd x h1 (List.mem_append_right _ hm)
        · exact (List.nodup_append.mp hnr).2.2 x h1 x hm rfl
      · exact absurd (Nat.lt_of_lt_of_le (hlt x hm) hf.1) (Nat.not_lt.mpr h1)) hv
  refine ⟨e', n, hc', f'', g1, g2, g3, g4, ?_, g6⟩
  intro y hy
  rcases g5 y hy with h1 | h1 | h1
  · rcases hsub y h1 with h2 | h2
    · rcases List.mem_append.mp h2 with h2 | h2
      · exact .inl h2
      · exact .inr (.inl (List.mem_append_left _ h2))
    · exact .inr (.inr h2)
  · exact .inr (.inl (List.mem_append_right _ h1))
  · exact .inr (.inr (Nat.le_trans hfr.1 h1))

/-- The loop makes none. -/
theorem LoopOk.skip {PL ML h rest} (ih : LoopOk PL ML h rest) {ms : List MVal} {fr f2 fs : List Ref}
    {hc : Heap} {acc : Expr} {a : Ref} {fa : List Ref} {v : Val} (hs : RepVals h rest ms fs)
    (hf : Frame h [] hc) (ha : Rep hc (some a) acc fa) (hna : fa.Nodup)
    (hfr : fr = f2 ++ fs) (hnr : fr.Nodup) (hd : ∀ x ∈ fa, x ∉ fr) (hv : PL acc rest = .ok v) :
    ∃ e' n hc' f', v = .expr e' ∧ ML a ms hc =
      (.ok n, hc') ∧ Rep hc' (some n) e' f' ∧ f'.Nodup ∧
      (∀ y ∈ f', y ∈ fa ∨ y ∈ fr ∨ hc.length ≤ y) ∧ Frame h [] hc' := by
  subst hfr
  obtain ⟨e', n, hc', f'', g1, g2, g3, g4, g5, g6⟩ := ih ms fs hc acc a fa v hs hf ha hna
    (List.nodup_append.mp hnr).2.1 (fun x hx hm => hd x hx (List.mem_append_right _ hm)) hv
  refine ⟨e', n, hc', f'', g1, g2, g3, g4, ?_, g6⟩
  intro y hy
  rcases g5 y hy with h1 | h1 | h1
  · exact .inl h1
  · exact .inr (.inl (List.mem_append_right _ h1))
  · exact .inr (.inr h1)

/-- A pair of operator and operand. -/
theorem pair_inv {h : Heap} {op : Str} {r : Expr} {m : MVal} {f : List Ref}
    (hw : RepVal h (.list [.bytes op, .expr r]) m f) :
    ∃ q, m = .list [.bytes op, .node q] ∧ Rep h (some q) r f := by
  cases hw with
  | list hw =>
  cases hw with
  | cons hw1 hw =>
  cases hw1 with
  | bytes =>
  cases hw with
  | cons hw2 hw =>
  cases hw with
  | nil =>
  cases hw2 with
  | expr hq => exact ⟨_, rfl, by simpa using hq⟩

/-- The same with a rounding method. -/
theorem triple_inv {h : Heap} {op m' : Str} {r : Expr} {m : MVal} {f : List Ref}
    (hw : RepVal h (.list [.bytes op, .expr r, .bytes m']) m f) :
    ∃ q, m = .list [.bytes op, .node q, .bytes m'] ∧ Rep h (some q) r f := by
  cases hw with
  | list hw =>
  cases hw with
  | cons hw1 hw =>
  cases hw1 with
  | bytes =>
  cases hw with
  | cons hw2 hw =>
  cases hw with
  | cons hw3 hw =>
  cases hw3 with
  | bytes =>
  cases hw with
  | nil =>
  cases hw2 with
  | expr hq => exact ⟨_, rfl, by simpa using hq⟩

theorem addLoop_ok (h : Heap) (rest : List Val) : LoopOk Pigeon.addLoop addLoop h rest := by
  induction rest with
  | nil =>
    intro ms fr hc acc a fa v hs hf ha hna hnr hd hv
    cases hs
    simp only [Pigeon.addLoop, Pigeon.ActRes.ok.injEq] at hv
    exact ⟨acc, a, hc, fa, hv.symm, rfl, ha, hna, fun y hy => .inl hy, hf⟩
  | cons w rest ih =>
    intro ms fr hc acc a fa v hs hf ha hna hnr hd hv
    cases hs with
    | @cons _ m f _ ms fs hw hs =>
    obtain ⟨op, r, rfl⟩ := addLoop_inv hv
    simp only [Pigeon.addLoop] at hv
    obtain ⟨q, rfl, hq⟩ := pair_inv hw
    have hstep : addLoop a (.list [.bytes op, .node q] :: ms) hc =
        (if op = chars!"+" then do
          let n ← new (.binary .add (some a) (some q))
          addLoop n ms
        else if op = chars!"-" then do
          let n ← new (.binary .sub (some a) (some q))
          addLoop n ms
        else addLoop a ms) hc := rfl
    rw [hstep]
    by_cases h1 : op = chars!"+"
    · rw [if_pos h1] at hv ⊢
      exact ih.step hs hf ha hna hq rfl hnr hd .add rfl hv
    · rw [if_neg h1] at hv ⊢
      by_cases h2 : op = chars!"-"
      · rw [if_pos h2] at hv ⊢
        exact ih.step hs hf ha hna hq rfl hnr hd .sub rfl hv
      · rw [if_neg h2] at hv ⊢
        exact ih.skip hs hf ha hna rfl hnr hd hv

theorem mulLoop_inv {acc : Expr} {w : Val} {rest : List Val} {v : Val}
    (h : Pigeon.mulLoop acc (w :: rest) = .ok v) :
    (∃ op r, w = .list [.bytes op, .expr r]) ∨ ∃ op r m, w = .list [.bytes op, .expr r, .bytes m] := by
  unfold Pigeon.mulLoop at h
  split at h
  · rename_i heq; cases heq
  · rename_i heq; cases heq; exact .inl ⟨_, _, rfl⟩
  · rename_i heq; cases heq; exact .inr ⟨_, _, _, rfl⟩
  · cases h

theorem upperAscii_nil {s : Str} : upperAscii s = [] ↔ s = [] := by
  unfold upperAscii; simp

theorem mulLoop_ok (h : Heap) (rest : List Val) : LoopOk Pigeon.mulLoop mulLoop h rest := by
  induction rest with
  | nil =>
    intro ms fr hc acc a fa v hs hf ha hna hnr hd hv
    cases hs
    simp only [Pigeon.mulLoop, Pigeon.ActRes.ok.injEq] at hv
    exact ⟨acc, a, hc, fa, hv.symm, rfl, ha, hna, fun y hy => .inl hy, hf⟩
  | cons w rest ih =>
    intro ms fr hc acc a fa v hs hf ha hna hnr hd hv
    cases hs with
    | @cons _ m f _ ms fs hw hs =>
    rcases mulLoop_inv hv with ⟨op, r, rfl⟩ | ⟨op, r, m', rfl⟩
    · simp only [Pigeon.mulLoop] at hv
      obtain ⟨q, rfl, hq⟩ := pair_inv hw
      have hstep : mulLoop a (.list [.bytes op, .node q] :: ms) hc =
          (if op = chars!"*" then do
            let n ← new (.binary .mul (some a) (some q))
            mulLoop n ms
          else if op = chars!"/" then do
            let n ← new (.binary (.div .down) (some a) (some q))
            mulLoop n ms
          else mulLoop a ms) hc := rfl
      rw [hstep]
      by_cases h1 : op = chars!"*"
      · rw [if_pos h1] at hv ⊢
        exact ih.step hs hf ha hna hq rfl hnr hd .mul rfl hv
      · rw [if_neg h1] at hv ⊢
        by_cases h2 : op = chars!"/"
        · rw [if_pos h2] at hv ⊢
          exact ih.step hs hf ha hna hq rfl hnr hd (.div .down) rfl hv
        · rw [if_neg h2] at hv ⊢
          exact ih.skip hs hf ha hna rfl hnr hd hv
    · simp only [Pigeon.mulLoop] at hv
      obtain ⟨q, rfl, hq⟩ := triple_inv hw
      have hstep : mulLoop a (.list [.bytes op, .node q, .bytes m'] :: ms) hc =
          (if op = chars!"*" then do
            let n ← new (.binary .mul (some a) (some q))
            mulLoop n ms
          else if op = chars!"/" then
            if upperAscii m' = chars!"U" then do
              let n ← new (.binary (.div .up) (some a) (some q))
              mulLoop n ms
            else if upperAscii m' = chars!"R" then do
              let n ← new (.binary (.div .round) (some a) (some q))
              mulLoop n ms
            else if upperAscii m' = [] then do
              let n ← new (.binary (.div .down) (some a) (some q))
              mulLoop n ms
            else mulLoop a ms
          else mulLoop a ms) hc := rfl
      rw [hstep]
      by_cases h1 : op = chars!"*"
      · rw [if_pos h1] at hv ⊢
        exact ih.step hs hf ha hna hq rfl hnr hd .mul rfl hv
      rw [if_neg h1] at hv ⊢
      by_cases h2 : op = chars!"/"
      · rw [if_pos h2] at hv ⊢
        by_cases h3 : upperAscii m' = chars!"U"
        · rw [if_pos h3] at hv ⊢
          exact ih.step hs hf ha hna hq rfl hnr hd (.div .up) rfl hv
        rw [if_neg h3] at hv ⊢
        by_cases h4 : upperAscii m' = chars!"R"
        · rw [if_pos h4] at hv ⊢
          exact ih.step hs hf ha hna hq rfl hnr hd (.div .round) rfl hv
        rw [if_neg h4] at hv ⊢
        by_cases h5 : m' = []
        · rw [if_pos h5] at hv
          rw [if_pos (upperAscii_nil.mpr h5)]
          exact ih.step hs hf ha hna hq rfl hnr hd (.div .down) rfl hv
        · rw [if_neg h5] at hv
          rw [if_neg (fun h => h5 (upperAscii_nil.mp h))]
          exact ih.skip hs hf ha hna rfl hnr hd hv
      · rw [if_neg h2] at hv ⊢
        exact ih.skip hs hf ha hna rfl hnr hd hv

/-- The arguments of the loops. -/
theorem toSlice_ok {h : Heap} {v : Val} {m : MVal} {f : List Ref} {vs : List Val}
    (hr : RepVal h v m f) (hv : Pigeon.toSlice v = some vs) :
    ∃ ms, RepVals h vs ms f ∧ ∀ hc, toSlice m hc = (.ok ms, hc) := by
  cases hr with
  | nil => cases hv; exact ⟨[], .nil, fun _ => rfl⟩
  | list hs => cases hv; exact ⟨_, hs, fun _ => rfl⟩
  | bytes => cases hv
  | expr => cases hv
  | roll => cases hv
  | str => cases hv
  | rRollList => cases hv
  | compare => cases hv
  | node => cases hv

theorem assoc_ok {PL : Expr → List Val → Pigeon.ActRes} {ML : Ref → List MVal → A Ref} {h : Heap}
    (hL : ∀ rest, LoopOk PL ML h rest) {first rest v : Val} {m1 m2 : MVal} {f g : List Ref}
    (h1 : RepVal h first m1 f) (h2 : RepVal h rest m2 g) (hn : (f ++ g).Nodup)
    (hv : (match first, rest with
      | .expr first, rest =>
        match Pigeon.toSlice rest with
        | some rs => PL first rs
        | none => Pigeon.badType
      | _, _ => Pigeon.badType) = .ok v) :
    Made h (f ++ g) v ((do
      let lastNode ← asNode m1
      let n ← ML lastNode (← toSlice m2)
      pure (.node n) : A MVal) h) := by
  cases h1 with
  | expr ha =>
    simp only at hv
    split at hv
    · rename_i rs hrs
      obtain ⟨ms, hms, hts⟩ := toSlice_ok h2 hrs
      have hn' := List.nodup_append.mp hn
      obtain ⟨e, n, hc', f', g1, g2, g3, g4, g5, g6⟩ := hL rs ms g h _ _ f v hms (Frame.refl _ _) ha
        hn'.1 hn'.2.1 (fun x hx hm => hn'.2.2 x hx x hm rfl) hv
      simp only [bind_apply, asNode_node, hts, g2, pure_apply]
      subst g1
      refine ⟨_, _, f', rfl, .expr g3, g4, ?_, g6⟩
      intro y hy
      rw [List.mem_append]
      rcases g5 y hy with h | h | h
      · exact .inl (.inl h)
      · exact .inl (.inr h)
      · exact .inr h
    · cases hv
  | nil => cases hv
  | bytes => cases hv
  | list => cases hv
  | roll => cases hv
  | str => cases hv
  | rRollList => cases hv
  | compare => cases hv
  | node => cases hv

end GoBCDice.Mem
