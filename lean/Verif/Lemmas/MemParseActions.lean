import Verif.Lemmas.MemParse

/-! # The actions of the grammar on memory -/

namespace GoBCDice.Mem

open Pigeon (Sym PExpr PEnv PState PRes Action Pt slice upperAscii noRandomMsg Val Letter)
open Raw (Heap Ref Ptr Obj Rep RepRolls RepRRollList RepNode RepThreshold RepBonus RepURollExpr RepItems
  Frame)

/-! ## Lists -/

theorem rolls_join {h k p x f ps xs fs} (h1 : RepRolls h k [p] [x] f) (h2 : RepRolls h k ps xs fs) :
    RepRolls h k (p :: ps) (x :: xs) (f ++ fs) := by
  cases h1 with
  | cons hx hl hr hn =>
    cases hn
    simpa using RepRolls.cons hx hl hr h2

theorem Frame.set_new {h hc : Heap} (hf : Frame h [] hc) {r : Ref} (hr : h.length ≤ r) (o : Obj) :
    Frame h [] (hc.set r o) :=
  hf.trans (Raw.Frame.set hc r o) (by
    intro x hx
    rw [List.mem_singleton] at hx
    exact .inr (hx ▸ hr))

/-- A pair of a separator and an item. -/
theorem snd_inv {h : Heap} {w v : Val} {m : MVal} {f : List Ref} (hw : RepVal h (.list [w, v]) m f) :
    ∃ m1 m2 g, m = .list [m1, m2] ∧ RepVal h v m2 g ∧ g.Sublist f := by
  cases hw with
  | list hw =>
  cases hw with
  | @cons _ m1 f1 _ _ _ hw1 hw =>
  cases hw with
  | @cons _ m2 f2 _ _ _ hw2 hw =>
  cases hw with
  | nil => exact ⟨m1, m2, f2, rfl, hw2, by simp⟩

/-- An `Append` method of the list at `r`. -/
def Appends (r : Ref) (mk : List Ptr → Obj) (append : Ref → A Unit) : Prop :=
  ∀ (hc : Heap) ps i, hc[r]? = some (mk ps) → append i hc = (.ok (), hc.set r (mk (ps ++ [some i])))

theorem restRolls_inv {k : Letter} {w : Val} {rest : List Val} {rolls : List Roll}
    (h : Pigeon.restRolls k (w :: rest) = some rolls) :
    ∃ a r rs, w = .list [a, .roll k r] ∧ rolls = r :: rs ∧ Pigeon.restRolls k rest = some rs := by
  unfold Pigeon.restRolls at h
  split at h
  · rename_i heq; cases heq
  · rename_i a k' r rest' heq
    cases heq
    split at h
    · rename_i hk
      subst hk
      rw [Option.map_eq_some_iff] at h
      obtain ⟨rs, h1, h2⟩ := h
      exact ⟨_, _, rs, rfl, h2.symm, h1⟩
    · cases h
  · cases h

theorem appendLoop_rolls {h : Heap} {k : Letter} {r0 : Ref} {mk : List Ptr → Obj}
    {append : Ref → A Unit} (happ : Appends r0 mk append) (hr0 : h.length ≤ r0) :
    ∀ (rest : List Val) (ms : List MVal) (fr : List Ref) (hc : Heap) (ps : List Ptr)
      (rolls : List Roll), RepVals h rest ms fr → Frame h [] hc → hc[r0]? = some (mk ps) →
      Pigeon.restRolls k rest = some rolls →
      ∃ ps' fs hc', appendLoop asVarInfix append ms hc = (.ok (), hc') ∧ Frame h [] hc' ∧
        hc'[r0]? = some (mk (ps ++ ps')) ∧ hc'.length = hc.length ∧
        RepRolls h (rollKind k) ps' rolls fs ∧ fs.Sublist fr := by
  intro rest
  induction rest with
  | nil =>
    intro ms fr hc ps rolls hs hf hx hv
    cases hs
    cases hv
    exact ⟨[], [], hc, rfl, hf, by simpa using hx, rfl, .nil, by simp⟩
  | cons w rest ih =>
    intro ms fr hc ps rolls hs hf hx hv
    obtain ⟨a, r, rs, rfl, rfl, hv2⟩ := restRolls_inv hv
    cases hs with
    | @cons _ m f _ ms fs hw hs =>
    obtain ⟨m1, m2, g, rfl, hw2, hg⟩ := snd_inv hw
    obtain ⟨q, rfl, hq⟩ := asVarInfix_roll hw2 hf
    obtain ⟨ps', fs', hc', g1, g2, g3, g4, g5, g6⟩ := ih ms fs (hc.set r0 (mk (ps ++ [some q])))
      (ps ++ [some q]) rs hs (Frame.set_new hf hr0 _) (Raw.get_set_self hx) hv2
    cases hw2 with
    | roll hroll =>
    refine ⟨some q :: ps', g ++ fs', hc', ?_, g2, by simpa using g3, by simpa using g4,
      rolls_join hroll g5, hg.append g6⟩
    unfold appendLoop
    simp only [bind_apply, toSlice_list, index_apply (vs := [m1, MVal.node q]) (i := 1) rfl, hq,
      happ hc ps q hx]
    exact g1

theorem restStrings_inv {w : Val} {rest : List Val} {ss : List Str}
    (h : Pigeon.restStrings (w :: rest) = some ss) :
    ∃ a s rs, w = .list [a, .str s] ∧ ss = s :: rs ∧ Pigeon.restStrings rest = some rs := by
  unfold Pigeon.restStrings at h
  split at h
  · rename_i heq; cases heq
  · rename_i a s rest' heq
    cases heq
    rw [Option.map_eq_some_iff] at h
    obtain ⟨rs, h1, h2⟩ := h
    exact ⟨_, _, rs, rfl, h2.symm, h1⟩
  · cases h

theorem appendLoop_items {h : Heap} {r0 : Ref} {mk : List Ptr → Obj}
    {append : Ref → A Unit} (happ : Appends r0 mk append) (hr0 : h.length ≤ r0) :
    ∀ (rest : List Val) (ms : List MVal) (fr : List Ref) (hc : Heap) (ps : List Ptr)
      (ss : List Str), RepVals h rest ms fr → Frame h [] hc → hc[r0]? = some (mk ps) →
      Pigeon.restStrings rest = some ss →
      ∃ ps' fs hc', appendLoop asString append ms hc = (.ok (), hc') ∧ Frame h [] hc' ∧
        hc'[r0]? = some (mk (ps ++ ps')) ∧ hc'.length = hc.length ∧
        RepItems h ps' ss fs ∧ fs.Sublist fr := by
  intro rest
  induction rest with
  | nil =>
    intro ms fr hc ps ss hs hf hx hv
    cases hs
    cases hv
    exact ⟨[], [], hc, rfl, hf, by simpa using hx, rfl, .nil, by simp⟩
  | cons w rest ih =>
    intro ms fr hc ps ss hs hf hx hv
    obtain ⟨a, s, rs, rfl, rfl, hv2⟩ := restStrings_inv hv
    cases hs with
    | @cons _ m f _ ms fs hw hs =>
    obtain ⟨m1, m2, g, rfl, hw2, hg⟩ := snd_inv hw
    obtain ⟨q, rfl, hq⟩ := asString_str hw2 hf
    obtain ⟨ps', fs', hc', g1, g2, g3, g4, g5, g6⟩ := ih ms fs (hc.set r0 (mk (ps ++ [some q])))
      (ps ++ [some q]) rs hs (Frame.set_new hf hr0 _) (Raw.get_set_self hx) hv2
    cases hw2 with
    | str hstr =>
    refine ⟨some q :: ps', [q] ++ fs', hc', ?_, g2, by simpa using g3, by simpa using g4,
      .cons hstr g5, hg.append g6⟩
    unfold appendLoop
    simp only [bind_apply, toSlice_list, index_apply (vs := [m1, MVal.node q]) (i := 1) rfl, hq,
      happ hc ps q hx]
    exact g1

theorem choice_appends (r : Ref) : Appends r .choice (choiceAppend r) := by
  intro hc ps i hx
  unfold choiceAppend
  simp only [bind_apply, load_apply hx]
  rfl

theorem bRollList_appends (r : Ref) : Appends r .bRollList (bRollListAppend r) := by
  intro hc ps i hx
  unfold bRollListAppend
  simp only [bind_apply, load_apply hx]
  rfl

theorem rRollList_appends (r : Ref) (t : Ptr) :
    Appends r (fun ps => .rRollList ps t) (rRollListAppend r) := by
  intro hc ps i hx
  unfold rRollListAppend
  simp only [bind_apply, load_apply hx]
  rfl

/-- A list node with new address above parts of the arguments. -/
theorem made_list {h h' : Heap} {f fp : List Ref} {v : Val} (hf : Frame h [] h')
    (hv : RepVal h' v (.node h.length) (h.length :: f)) (hn : f.Nodup) (hlt : ∀ x ∈ f, x < h.length)
    (hs : ∀ x ∈ f, x ∈ fp) : Made h fp v (.ok (.node h.length), h') :=
  ⟨_, _, _, rfl, hv, cons_new_nodup hn hlt, by
    intro y hy
    rw [List.mem_cons] at hy
    rcases hy with rfl | hy
    · exact .inr (Nat.le_refl _)
    · exact .inl (hs y hy), hf⟩

theorem nodup_sub {f g f' g' : List Ref} (hn : (f ++ g).Nodup) (h1 : f'.Sublist f) (h2 : g'.Sublist g) :
    (f' ++ g').Nodup := hn.sublist (h1.append h2)

theorem onChoiceItems_ok {h : Heap} {s : Str} {rest : Val} {rs : List Val} {ss : List Str} {m1 m2 : MVal}
    {f g : List Ref} (h1 : RepVal h (.str s) m1 f) (h2 : RepVal h rest m2 g) (hn : (f ++ g).Nodup)
    (hrs : Pigeon.toSlice rest = some rs) (hss : Pigeon.restStrings rs = some ss) :
    Made h (f ++ g) (.node (.choice (s :: ss))) (onChoiceItems m1 m2 h) := by
  obtain ⟨ms, hms, hts⟩ := toSlice_ok h2 hrs
  obtain ⟨q, rfl, hq⟩ := asString_str h1 (Frame.refl _ _)
  cases h1 with
  | str hstr =>
  obtain ⟨ps', fs, hc', g1, g2, g3, g4, g5, g6⟩ := appendLoop_items (choice_appends h.length)
    (Nat.le_refl _) rs ms g (h ++ [.choice [some q]]) [some q] ss hms (Raw.top_frame _ _)
    (Raw.get_top _ _) hss
  unfold onChoiceItems
  simp only [bind_apply, hq, new_apply, hts, g1, pure_apply]
  have hsub : (q :: fs).Sublist ([q] ++ g) := g6.cons_cons q
  refine made_list g2 (.node (.choice g3 (RepItems.congr (RepItems.cons hstr g5) ?_))) (hn.sublist hsub) ?_
    (fun x hx => hsub.subset hx)
  · intro x hm
    exact g2.2 x ((RepItems.cons hstr g5).lt x hm) (by simp)
  · exact (RepItems.cons hstr g5).lt

theorem onBRollList_ok {h : Heap} {r : Roll} {rest : Val} {rs : List Val} {rolls : List Roll} {m1 m2 : MVal}
    {f g : List Ref} (h1 : RepVal h (.roll .b r) m1 f) (h2 : RepVal h rest m2 g) (hn : (f ++ g).Nodup)
    (hrs : Pigeon.toSlice rest = some rs) (hss : Pigeon.restRolls .b rs = some rolls) :
    Made h (f ++ g) (.node (.bRollList (r :: rolls))) (onBRollList m1 m2 h) := by
  obtain ⟨ms, hms, hts⟩ := toSlice_ok h2 hrs
  obtain ⟨q, rfl, hq⟩ := asVarInfix_roll h1 (Frame.refl _ _)
  cases h1 with
  | roll hroll =>
  obtain ⟨ps', fs, hc', g1, g2, g3, g4, g5, g6⟩ := appendLoop_rolls (k := .b)
    (bRollList_appends h.length)
    (Nat.le_refl _) rs ms g (h ++ [.bRollList [some q]]) [some q] rolls hms (Raw.top_frame _ _)
    (Raw.get_top _ _) hss
  unfold onBRollList
  simp only [bind_apply, hq, new_apply, hts, g1, pure_apply]
  have hj := rolls_join hroll g5
  have hsub : (f ++ fs).Sublist (f ++ g) := (List.Sublist.refl f).append g6
  exact made_list g2 (.node (.bRollList g3 (hj.frame g2 (by simp)))) (hn.sublist hsub) hj.lt
    (fun x hx => hsub.subset hx)

theorem triple_mid {h : Heap} {a b v : Val} {m : MVal} {f : List Ref}
    (hw : RepVal h (.list [a, v, b]) m f) :
    ∃ m1 m2 m3 g, m = .list [m1, m2, m3] ∧ RepVal h v m2 g ∧ g.Sublist f := by
  cases hw with
  | list hw =>
  cases hw with
  | @cons _ m1 f1 _ _ _ hw1 hw =>
  cases hw with
  | @cons _ m2 f2 _ _ _ hw2 hw =>
  cases hw with
  | @cons _ m3 f3 _ _ _ hw3 hw =>
  cases hw with
  | nil =>
    refine ⟨m1, m2, m3, f2, rfl, hw2, ?_⟩
    exact (List.sublist_append_left f2 _).trans (List.sublist_append_right f1 _)

theorem threshold_ok {nilInstance : Ref} {h : Heap} (hnil : h[nilInstance]? = some .nilNode) {th : Val}
    {m : MVal} {f : List Ref} {t : Option Expr} (hr : RepVal h th m f)
    (ht : Pigeon.thresholdOf th = some t) :
    ∃ r g, thresholdNode nilInstance m h = (.ok r, h) ∧
      RepThreshold h (some r) t g ∧ g.Sublist f := by
  unfold Pigeon.thresholdOf at ht
  split at ht
  · cases ht
    cases hr with
    | nil => exact ⟨nilInstance, [], rfl, .none hnil, by simp⟩
  · cases ht
    obtain ⟨m1, m2, m3, g, rfl, hw, hg⟩ := triple_mid hr
    cases hw with
    | @expr _ q _ hq => exact ⟨q, g, rfl, .some hq, hg⟩
  · cases ht

theorem onRRollList_ok {nilInstance : Ref} {h : Heap} (hnil : h[nilInstance]? = some .nilNode)
    {k : Letter} {r : Roll} {rest th : Val} {rs : List Val} {rolls : List Roll} {t : Option Expr}
    {m1 m2 m3 : MVal} {f g f3 : List Ref} (h1 : RepVal h (.roll k r) m1 f) (h2 : RepVal h rest m2 g)
    (h3 : RepVal h th m3 f3) (hn : (f ++ (g ++ f3)).Nodup)
    (hrs : Pigeon.toSlice rest = some rs) (hss : Pigeon.restRolls k rs = some rolls)
    (ht : Pigeon.thresholdOf th = some t) :
    Made h (f ++ (g ++ f3)) (.rRollList k { rolls := r :: rolls, threshold := t })
      (onRRollList nilInstance m1 m2 m3 h) := by
  obtain ⟨ms, hms, hts⟩ := toSlice_ok h2 hrs
  obtain ⟨q, rfl, hq⟩ := asVarInfix_roll h1 (Frame.refl _ _)
  obtain ⟨tr, ft, ht2, ht3, ht4⟩ := threshold_ok hnil h3 ht
  cases h1 with
  | roll hroll =>
  obtain ⟨ps', fs, hc', g1, g2, g3, g4, g5, g6⟩ := appendLoop_rolls (k := k)
    (rRollList_appends h.length (some tr))
    (Nat.le_refl _) rs ms g (h ++ [.rRollList [some q] (some tr)]) [some q] rolls hms
    (Raw.top_frame _ _) (Raw.get_top _ _) hss
  have hj := rolls_join hroll g5
  have hrun : onRRollList nilInstance (.node q) m2 m3 h = (.ok (.node h.length), hc') := by
    unfold onRRollList
    rw [bind_apply, ht2]
    simp only [bind_apply, hq, new_apply, hts, g1, pure_apply]
  rw [hrun]
  have hsub : ((f ++ fs) ++ ft).Sublist (f ++ (g ++ f3)) := by
    rw [List.append_assoc]
    exact (List.Sublist.refl f).append (g6.append ht4)
  have hn2 := List.nodup_append.mp (hn.sublist hsub)
  refine made_list g2 (.rRollList (.mk g3 (hj.frame g2 (by simp))
    (ht3.frame g2 (by simp) (by simp [Raw.NotNil])))) ?_ ?_ ?_
  · exact List.nodup_append.mpr ⟨hn2.2.1, hn2.1, fun x hx y hy he => hn2.2.2 y hy x hx he.symm⟩
  · intro x hx
    rcases List.mem_append.mp hx with hx | hx
    · exact ht3.lt x hx
    · exact hj.lt x hx
  · intro x hx
    refine hsub.subset ?_
    rw [List.mem_append] at hx ⊢
    exact hx.symm

/-! ## Comparisons and U rolls -/

theorem cmpOfText_str {s : Str} {op : CmpOp} (h : Pigeon.cmpOfText s = some op) : s = op.str := by
  unfold Pigeon.cmpOfText at h
  repeat' split at h
  all_goals first | (cases h; assumption) | cases h

/-- What a comparison is built from. -/
theorem compare_inv {k : Option Letter} {left op right v : Val}
    (hv : Pigeon.compareAction k left op right = .ok v) :
    ∃ o c r, op = .bytes o ∧ right = .expr r ∧ o = CmpOp.str c ∧
      ((∃ rolls, k = some .b ∧ left = .node (.bRollList rolls) ∧ v = .node (.bRollComp rolls c r)) ∨
       (∃ rl, k = some .r ∧ left = .rRollList .r rl ∧ v = .node (.rRollComp rl c r)) ∨
       (∃ u, k = some .u ∧ left = .node (.uRollExpr u) ∧ v = .node (.uRollComp u c r)) ∨
       (∃ l, k = none ∧ left = .expr l ∧ v = .compare l c r)) := by
  unfold Pigeon.compareAction at hv
  split at hv
  · rename_i o r
    split at hv
    · cases hv
    · rename_i c hc
      refine ⟨_, c, _, rfl, rfl, cmpOfText_str hc, ?_⟩
      split at hv
      · cases hv; exact .inl ⟨_, rfl, rfl, rfl⟩
      · cases hv; exact .inr (.inl ⟨_, rfl, rfl, rfl⟩)
      · cases hv; exact .inr (.inr (.inl ⟨_, rfl, rfl, rfl⟩))
      · cases hv; exact .inr (.inr (.inr ⟨_, rfl, rfl, rfl⟩))
      · cases hv
  · cases hv

theorem newCompare_run (l r : Ref) (o : Str) (h : Heap) :
    newCompare (.node l) (.bytes o) (.node r) h =
      (.ok h.length, h ++ [.binary (.compare o) (some l) (some r)]) := rfl

/-- Two new nodes: a comparison and the command around it. -/
theorem onComp_run (ty : Raw.CommandType) (l r : Ref) (o : Str) (h : Heap) :
    onComp ty (.node l) (.bytes o) (.node r) h =
      (.ok (.node (h.length + 1)), h ++ [.binary (.compare o) (some l) (some r)] ++
        [.command ty (some h.length)]) := by
  unfold onComp
  simp only [bind_apply, newCompare_run, new_apply, pure_apply]
  simp

theorem made_comp {h : Heap} {f : List Ref} {n : Node} {ty : Raw.CommandType} {o : Str} {l r : Ref}
    (hn : f.Nodup) (hlt : ∀ x ∈ f, x < h.length)
    (hv : ∀ h', Frame h [] h' → h'[h.length + 1]? = some (.command ty (some h.length)) →
      h'[h.length]? = some (.binary (.compare o) (some l) (some r)) →
      RepNode h' (some (h.length + 1)) n ((h.length + 1) :: h.length :: f)) :
    Made h f (.node n) (onComp ty (.node l) (.bytes o) (.node r) h) := by
  rw [onComp_run]
  refine ⟨_, _, _, rfl, .node (hv _ ?_ ?_ ?_), ?_, ?_, ?_⟩
  · exact (Raw.top_frame _ _).trans (Raw.top_frame _ _) (by simp)
  · have := Raw.get_top (h ++ [.binary (.compare o) (some l) (some r)]) (.command ty (some h.length))
    simpa using this
  · exact Raw.parent_kept (Raw.top_frame _ _) (Raw.get_top _ _) (by simp)
  · have h1 := cons_new_nodup hn hlt
    refine List.nodup_cons.mpr ⟨?_, h1⟩
    intro hm
    rw [List.mem_cons] at hm
    rcases hm with hm | hm
    · exact absurd hm (Nat.succ_ne_self _)
    · exact absurd (hlt _ hm) (Nat.not_lt.mpr (Nat.le_succ _))
  · intro y hy
    rw [List.mem_cons, List.mem_cons] at hy
    rcases hy with rfl | rfl | hy
    · exact .inr (Nat.le_succ _)
    · exact .inr (Nat.le_refl _)
    · exact .inl hy
  · exact (Raw.top_frame _ _).trans (Raw.top_frame _ _) (by simp)

theorem RepVal.node_ref {h n m f} (hr : RepVal h (.node n) m f) :
    ∃ r, m = .node r ∧ RepNode h (some r) n f := by
  cases hr with
  | node hs => exact ⟨_, rfl, hs⟩

theorem RepVal.expr_ref {h e m f} (hr : RepVal h (.expr e) m f) :
    ∃ r, m = .node r ∧ Rep h (some r) e f := by
  cases hr with
  | expr hs => exact ⟨_, rfl, hs⟩

/-- `onBRollComp1`. -/
theorem onBComp_ok {h : Heap} {rolls : List Roll} {c : CmpOp} {r : Expr} {m1 m3 : MVal} {f g : List Ref}
    (h1 : RepVal h (.node (.bRollList rolls)) m1 f) (h3 : RepVal h (.expr r) m3 g)
    (hn : (f ++ g).Nodup) :
    Made h (f ++ g) (.node (.bRollComp rolls c r)) (onComp .bRollComp m1 (.bytes c.str) m3 h) := by
  obtain ⟨l, rfl, hl⟩ := h1.node_ref
  obtain ⟨q, rfl, hq⟩ := h3.expr_ref
  refine made_comp hn (append_lt hl.lt hq.lt) ?_
  intro h' hf hx hc
  cases hl with
  | bRollList hlx hls =>
    exact .bRollComp hx hc (Raw.parent_kept hf hlx (by simp)) (hls.frame hf (by simp)) (hq.frame0 hf)

/-- `onRRollComp1`. -/
theorem onRComp_ok {h : Heap} {rl : RRollList} {c : CmpOp} {r : Expr} {m1 m3 : MVal} {f g : List Ref}
    (h1 : RepVal h (.rRollList .r rl) m1 f) (h3 : RepVal h (.expr r) m3 g)
    (hn : (f ++ g).Nodup) :
    Made h (f ++ g) (.node (.rRollComp rl c r)) (onComp .rRollComp m1 (.bytes c.str) m3 h) := by
  obtain ⟨q, rfl, hq⟩ := h3.expr_ref
  cases h1 with
  | rRollList hl =>
  refine made_comp hn (append_lt hl.lt hq.lt) ?_
  intro h' hf hx hc
  exact .rRollComp hx hc (hl.frame hf (by simp) (by simp [Raw.NotNil])) (hq.frame0 hf)

/-- `onURollComp1`. -/
theorem onUComp_ok {h : Heap} {u : URollExpr} {c : CmpOp} {r : Expr} {m1 m3 : MVal} {f g : List Ref}
    (h1 : RepVal h (.node (.uRollExpr u)) m1 f) (h3 : RepVal h (.expr r) m3 g)
    (hn : (f ++ g).Nodup) :
    Made h (f ++ g) (.node (.uRollComp u c r)) (onComp .uRollComp m1 (.bytes c.str) m3 h) := by
  obtain ⟨l, rfl, hl⟩ := h1.node_ref
  obtain ⟨q, rfl, hq⟩ := h3.expr_ref
  refine made_comp hn (append_lt hl.lt hq.lt) ?_
  intro h' hf hx hc
  cases hl with
  | uRollExpr hls =>
    exact .uRollComp hx hc (hls.frame hf (by simp) (by simp [Raw.NotNil])) (hq.frame0 hf)

/-- `onDRollComp1`. -/
theorem onDComp_ok {h : Heap} {l : Expr} {c : CmpOp} {r : Expr} {m1 m3 : MVal} {f g : List Ref}
    (h1 : RepVal h (.expr l) m1 f) (h3 : RepVal h (.expr r) m3 g) (hn : (f ++ g).Nodup) :
    Made h (f ++ g) (.compare l c r) ((do
      let c ← newCompare m1 (.bytes c.str) m3
      pure (.node c) : A MVal) h) := by
  obtain ⟨q1, rfl, hq1⟩ := h1.expr_ref
  obtain ⟨q, rfl, hq⟩ := h3.expr_ref
  exact made_top _ hn (append_lt hq1.lt hq.lt)
    (.compare (Raw.get_top _ _) (hq1.top _) (hq.top _))

/-- `onURollExpr1` without bonus. -/
theorem onURollExpr_none {h : Heap} {rl : RRollList} {m1 m2 : MVal} {f g : List Ref}
    (h1 : RepVal h (.rRollList .u rl) m1 f) (h2 : RepVal h .nil m2 g) (hn : (f ++ g).Nodup) :
    Made h (f ++ g) (.node (.uRollExpr { list := rl, bonus := none })) (onURollExpr m1 m2 h) := by
  obtain ⟨q, rfl, hq⟩ := asRRollList_list h1 (Frame.refl _ _)
  cases h2 with
  | nil =>
  cases h1 with
  | rRollList hl =>
  have hrun : onURollExpr (.node q) .nil h = (.ok (.node h.length), h ++ [.uRollExpr (some q) none]) := by
    unfold onURollExpr newBonus
    simp only [bind_apply, toSlice_nil, pure_apply, hq, new_apply]
  rw [hrun]
  refine made_top _ hn (append_lt hl.lt (by simp)) (.node (.uRollExpr (.mk (Raw.get_top _ _)
    (hl.frame (Raw.top_frame _ _) (by simp) (by simp [Raw.NotNil])) .none)))

/-- The operator of a bonus. -/
def signKind : Sign → Raw.InfixKind
  | .plus => .add
  | .minus => .sub

/-- `onURollExpr1` with a bonus. -/
theorem onURollExpr_some {h : Heap} {rl : RRollList} {op : Str} {e : Expr} {sg : Sign} {m1 m2 : MVal}
    {f g : List Ref} (h1 : RepVal h (.rRollList .u rl) m1 f)
    (h2 : RepVal h (.list [.bytes op, .expr e]) m2 g) (hn : (f ++ g).Nodup)
    (hop : (op = chars!"+" ∧ sg = .plus) ∨ (op = chars!"-" ∧ sg = .minus)) :
    Made h (f ++ g) (.node (.uRollExpr { list := rl, bonus := some (sg, e) })) (onURollExpr m1 m2 h) := by
  obtain ⟨b, rfl, hb⟩ := pair_inv h2
  let h2' : Heap := h ++ [.int 0] ++ [.binary (signKind sg) (some h.length) (some b)]
  have hf : Frame h [] h2' := (Raw.top_frame _ _).trans (Raw.top_frame _ _) (by simp)
  obtain ⟨q, rfl, hq⟩ := asRRollList_list h1 hf
  cases h1 with
  | rRollList hl =>
  have hrun : onURollExpr (.node q) (.list [.bytes op, .node b]) h =
      (.ok (.node h2'.length), h2' ++ [.uRollExpr (some q) (some (h ++ [Obj.int 0]).length)]) := by
    have hnb : newBonus (.list [.bytes op, .node b]) h = (.ok (some (h ++ [Obj.int 0]).length), h2') := by
      rcases hop with ⟨rfl, rfl⟩ | ⟨rfl, rfl⟩ <;> rfl
    unfold onURollExpr
    rw [bind_apply, hnb]
    simp only [bind_apply, hq, new_apply, pure_apply]
  rw [hrun]
  have hrep : Rep h2' (some (h ++ [Obj.int 0]).length) (bonusExpr (sg, e))
      ((h ++ [Obj.int 0]).length :: ([h.length] ++ g)) := by
    refine .binary (Raw.get_top _ _) ?_ ((Rep.int (Raw.get_top h (.int 0))).top _)
      ((hb.top _).top _)
    rcases hop with ⟨rfl, rfl⟩ | ⟨rfl, rfl⟩ <;> rfl
  have hlen : (h ++ [Obj.int 0]).length = h.length + 1 := by simp
  have hlen2 : h2'.length = h.length + 2 := by simp [h2']
  rw [hlen] at hrep ⊢
  rw [hlen2]
  have hf3 : Frame h [] (h2' ++ [Obj.uRollExpr (some q) (some (h.length + 1))]) :=
    hf.trans (Raw.top_frame _ _) (by simp)
  have hlt : ∀ x ∈ f ++ g, x < h.length := append_lt hl.lt hb.lt
  refine ⟨_, _, (h.length + 2) :: (f ++ ((h.length + 1) :: ([h.length] ++ g))), rfl,
    .node (.uRollExpr (.mk ?_ (hl.frame hf3 (by simp) (by simp [Raw.NotNil])) (.some (hrep.top _)))),
    ?_, ?_, hf3⟩
  · have := Raw.get_top h2' (.uRollExpr (some q) (some (h.length + 1)))
    rwa [hlen2] at this
  · have hn' := List.nodup_append.mp hn
    rw [List.nodup_cons, List.nodup_append, List.nodup_cons]
    refine ⟨?_, hn'.1, ⟨?_, ?_⟩, ?_⟩
    · intro hm
      simp only [List.mem_append, List.mem_cons, List.cons_append, List.nil_append] at hm
      rcases hm with hm | hm | hm | hm
      · exact absurd (hlt _ (List.mem_append_left _ hm)) (by simp)
      · exact absurd hm (Nat.succ_ne_self _)
      · exact absurd hm (by simp)
      · exact absurd (hlt _ (List.mem_append_right _ hm)) (by simp)
    · intro hm
      simp only [List.mem_cons, List.cons_append, List.nil_append] at hm
      rcases hm with hm | hm
      · exact absurd hm (Nat.succ_ne_self _)
      · exact absurd (hlt _ (List.mem_append_right _ hm)) (by simp)
    · exact cons_new_nodup hn'.2.1 (fun x hx => hlt x (List.mem_append_right _ hx))
    · intro x hx y hy hxy
      subst hxy
      simp only [List.mem_cons, List.cons_append, List.nil_append] at hy
      have hxl := hlt x (List.mem_append_left _ hx)
      rcases hy with hy | hy | hy
      · subst hy; exact absurd hxl (by simp)
      · subst hy; exact absurd hxl (by simp)
      · exact hn'.2.2 x hx x hy rfl
  · intro y hy
    simp only [List.mem_append, List.mem_cons, List.cons_append, List.nil_append] at hy ⊢
    rcases hy with rfl | hy | rfl | rfl | hy
    · exact .inr (by simp)
    · exact .inl (.inl hy)
    · exact .inr (by simp)
    · exact .inr (Nat.le_refl _)
    · exact .inl (.inr hy)

end GoBCDice.Mem
