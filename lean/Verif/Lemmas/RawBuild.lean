import Verif.Lemmas.RawFormat

/-! # Trees made by constructor calls are in memory, without sharing -/

namespace GoBCDice.Raw

/-- New, without sharing, and the old memory is as before. -/
def Fresh (h : Heap) (fp : List Ref) (h' : Heap) : Prop :=
  fp.Nodup ∧ (∀ x ∈ fp, h.length ≤ x) ∧ Frame h [] h'

theorem Fresh.two {h fl h1 fr h2} (a : Fresh h fl h1) (b : Fresh h1 fr h2)
    (hlt : ∀ x ∈ fl, x < h1.length) : Fresh h (fl ++ fr) h2 := by
  refine ⟨?_, ?_, a.2.2.trans b.2.2 (by simp)⟩
  · rw [List.nodup_append]
    refine ⟨a.1, b.1, ?_⟩
    intro x hx y hy hxy
    subst hxy
    exact absurd (hlt x hx) (Nat.not_lt.mpr (b.2.1 x hy))
  · intro x hx
    rcases List.mem_append.mp hx with hx | hx
    · exact a.2.1 x hx
    · exact Nat.le_trans a.2.2.1 (b.2.1 x hx)

theorem top_frame (h : Heap) (o : Obj) : Frame h [] (h ++ [o]) := Frame.append h [] [o]

theorem Fresh.comm {h fl fr h'} (a : Fresh h (fl ++ fr) h') : Fresh h (fr ++ fl) h' := by
  have hn := List.nodup_append.mp a.1
  refine ⟨List.nodup_append.mpr ⟨hn.2.1, hn.1, fun x hx y hy he => hn.2.2 y hy x hx he.symm⟩, ?_,
    a.2.2⟩
  intro x hx
  exact a.2.1 x (by rw [List.mem_append] at *; exact hx.symm)

theorem Fresh.top {h fp h1} (a : Fresh h fp h1) (o : Obj) (hlt : ∀ x ∈ fp, x < h1.length) :
    Fresh h (h1.length :: fp) (h1 ++ [o]) := by
  refine ⟨?_, ?_, a.2.2.trans (top_frame _ _) (by simp)⟩
  · rw [List.nodup_cons]
    exact ⟨fun hm => Nat.lt_irrefl _ (hlt _ hm), a.1⟩
  · intro x hx
    rw [List.mem_cons] at hx
    rcases hx with rfl | hx
    · exact a.2.2.1
    · exact a.2.1 x hx

theorem get_top (h : Heap) (o : Obj) : (h ++ [o])[h.length]? = some o := by simp

theorem Rep.top {h p e fp} (hr : Rep h p e fp) (o : Obj) : Rep (h ++ [o]) p e fp :=
  hr.frame0 (top_frame _ _)

theorem binary_built {k : InfixKind} {a b e : Expr} (he : infixExpr k a b = some e)
    (iha : ∀ h, ∃ fp, Rep (buildExpr a h).2 (buildExpr a h).1 a fp ∧ Fresh h fp (buildExpr a h).2)
    (ihb : ∀ h, ∃ fp, Rep (buildExpr b h).2 (buildExpr b h).1 b fp ∧ Fresh h fp (buildExpr b h).2)
    (h : Heap) :
    ∃ fp, Rep ((buildExpr b (buildExpr a h).2).2 ++
        [.binary k (buildExpr a h).1 (buildExpr b (buildExpr a h).2).1])
      (some (buildExpr b (buildExpr a h).2).2.length) e fp ∧
      Fresh h fp ((buildExpr b (buildExpr a h).2).2 ++
        [.binary k (buildExpr a h).1 (buildExpr b (buildExpr a h).2).1]) := by
  obtain ⟨fl, hl, fl1⟩ := iha h
  obtain ⟨fr, hr, fr1⟩ := ihb (buildExpr a h).2
  have hl' := hl.frame0 fr1.2.2
  refine ⟨_ :: (fl ++ fr), .binary (get_top _ _) he (hl'.top _) (hr.top _),
    (fl1.two fr1 hl.lt).top _ ?_⟩
  intro x hx
  rcases List.mem_append.mp hx with hx | hx
  · exact hl'.lt x hx
  · exact hr.lt x hx

theorem buildExpr_ok (e : Expr) : ∀ h, ∃ fp, Rep (buildExpr e h).2 (buildExpr e h).1 e fp ∧
    Fresh h fp (buildExpr e h).2 := by
  induction e with
  | int v =>
    intro h
    exact ⟨[h.length], .int (get_top _ _), by simp, by simp, top_frame _ _⟩
  | sumRoll ds =>
    intro h
    exact ⟨[h.length], .sumRoll (get_top _ _), by simp, by simp, top_frame _ _⟩
  | neg r ih =>
    intro h
    obtain ⟨fp, hr, fr⟩ := ih h
    exact ⟨_ :: fp, .neg (get_top _ _) (hr.top _), fr.top _ hr.lt⟩
  | bin op l r ihl ihr =>
    exact binary_built (k := binKind op) (by cases op <;> rfl) ihl ihr
  | div m l r ihl ihr => exact binary_built (k := .div m) rfl ihl ihr
  | var k l r ihl ihr => exact binary_built (k := varKind k) (by cases k <;> rfl) ihl ihr

theorem buildRolls_ok (k : InfixKind) (rolls : List Roll) : ∀ h, ∃ fp,
    RepRolls (buildRolls k rolls h).2 k (buildRolls k rolls h).1 rolls fp ∧
    Fresh h fp (buildRolls k rolls h).2 := by
  induction rolls with
  | nil => intro h; exact ⟨[], .nil, by simp, by simp, Frame.refl _ _⟩
  | cons r rest ih =>
    intro h
    obtain ⟨num, sides⟩ := r
    obtain ⟨fl, hl, fl1⟩ := buildExpr_ok num h
    obtain ⟨fr, hr, fr1⟩ := buildExpr_ok sides (buildExpr num h).2
    have hl' := hl.frame0 fr1.2.2
    have hlt : ∀ x ∈ fl ++ fr, x < (buildExpr sides (buildExpr num h).2).2.length := by
      intro x hx
      rcases List.mem_append.mp hx with hx | hx
      · exact hl'.lt x hx
      · exact hr.lt x hx
    have ft := (fl1.two fr1 hl.lt).top
      (.binary k (buildExpr num h).1 (buildExpr sides (buildExpr num h).2).1) hlt
    obtain ⟨fs, hs, fs1⟩ := ih ((buildExpr sides (buildExpr num h).2).2 ++
      [.binary k (buildExpr num h).1 (buildExpr sides (buildExpr num h).2).1])
    refine ⟨_, .cons (parent_kept fs1.2.2 (get_top _ _) (by simp)) ((hl'.top _).frame0 fs1.2.2)
      ((hr.top _).frame0 fs1.2.2) hs, ft.two fs1 ?_⟩
    intro x hx
    rw [List.mem_cons] at hx
    rcases hx with rfl | hx
    · simp
    · exact Nat.lt_of_lt_of_le (hlt x hx) (by simp)

theorem buildThreshold_ok (t : Option Expr) (h : Heap) : ∃ fp,
    RepThreshold (buildThreshold t h).2 (buildThreshold t h).1 t fp ∧
    Fresh h fp (buildThreshold t h).2 := by
  cases t with
  | none => exact ⟨[], .none (get_top _ _), by simp, by simp, top_frame _ _⟩
  | some e =>
    obtain ⟨fp, hr, fr⟩ := buildExpr_ok e h
    exact ⟨fp, .some hr, fr⟩

theorem buildRRollList_ok (k : InfixKind) (rl : RRollList) (h : Heap) : ∃ fp,
    RepRRollList (buildRRollList k rl h).2 k (buildRRollList k rl h).1 rl fp ∧
    Fresh h fp (buildRRollList k rl h).2 := by
  obtain ⟨rolls, t⟩ := rl
  obtain ⟨fs, hs, fs1⟩ := buildRolls_ok k rolls h
  obtain ⟨ft, ht, ft1⟩ := buildThreshold_ok t (buildRolls k rolls h).2
  have hs' := hs.frame ft1.2.2 (by simp)
  refine ⟨_ :: (ft ++ fs), .mk (get_top _ _) (hs'.frame (top_frame _ _) (by simp))
    (ht.frame (top_frame _ _) (by simp) (by simp [NotNil])), ((fs1.two ft1 hs.lt).comm).top _ ?_⟩
  intro x hx
  rcases List.mem_append.mp hx with hx | hx
  · exact ht.lt x hx
  · exact hs'.lt x hx

theorem buildBonus_ok (b : Option (Sign × Expr)) (h : Heap) : ∃ fp,
    RepBonus (buildBonus b h).2 (buildBonus b h).1 b fp ∧ Fresh h fp (buildBonus b h).2 := by
  cases b with
  | none => exact ⟨[], .none, by simp, by simp, Frame.refl _ _⟩
  | some b =>
    obtain ⟨fp, hr, fr⟩ := buildExpr_ok (bonusExpr b) h
    exact ⟨fp, .some hr, fr⟩

theorem buildURollExpr_ok (u : URollExpr) (h : Heap) : ∃ fp,
    RepURollExpr (buildURollExpr u h).2 (buildURollExpr u h).1 u fp ∧
    Fresh h fp (buildURollExpr u h).2 := by
  obtain ⟨list, bonus⟩ := u
  obtain ⟨fl, hl, fl1⟩ := buildRRollList_ok .uRoll list h
  obtain ⟨fb, hb, fb1⟩ := buildBonus_ok bonus (buildRRollList .uRoll list h).2
  have hl' := hl.frame fb1.2.2 (by simp) (by simp [NotNil])
  refine ⟨_ :: (fl ++ fb), .mk (get_top _ _)
    (hl'.frame (top_frame _ _) (by simp) (by simp [NotNil]))
    (hb.frame (top_frame _ _) (by simp)), (fl1.two fb1 hl.lt).top _ ?_⟩
  intro x hx
  rcases List.mem_append.mp hx with hx | hx
  · exact hl'.lt x hx
  · exact hb.lt x hx

theorem buildItems_ok (items : List Str) : ∀ h, ∃ fp,
    RepItems (buildItems items h).2 (buildItems items h).1 items fp ∧
    Fresh h fp (buildItems items h).2 := by
  induction items with
  | nil => intro h; exact ⟨[], .nil, by simp, by simp, Frame.refl _ _⟩
  | cons s rest ih =>
    intro h
    obtain ⟨fs, hs, fs1⟩ := ih (h ++ [.string s])
    refine ⟨h.length :: fs, .cons (parent_kept fs1.2.2 (get_top _ _) (by simp)) hs, ?_, ?_, ?_⟩
    · rw [List.nodup_cons]
      refine ⟨fun hm => ?_, fs1.1⟩
      have := fs1.2.1 _ hm
      simp at this
      exact absurd this (Nat.not_succ_le_self _)
    · intro x hx
      rw [List.mem_cons] at hx
      rcases hx with rfl | hx
      · exact Nat.le_refl _
      · have := fs1.2.1 x hx
        simp at this
        exact Nat.le_of_succ_le this
    · exact (top_frame _ _).trans fs1.2.2 (by simp)

/-- The comparison and the command around it. -/
theorem buildComp_ok {S : Heap → List Ref → Prop} (hS : Stable S) {h h1 fl} (hl : S h1 fl)
    (fl1 : Fresh h fl h1) (ty : CommandType) (op : CmpOp) (l : Ptr) (r : Expr) :
    ∃ c cr rp fr, (buildComp ty op l r h1).1 = some cr ∧
      (buildComp ty op l r h1).2[cr]? = some (.command ty (some c)) ∧
      (buildComp ty op l r h1).2[c]? = some (.binary (.compare op.str) l rp) ∧
      Rep (buildComp ty op l r h1).2 rp r fr ∧ S (buildComp ty op l r h1).2 fl ∧
      Fresh h (cr :: c :: (fl ++ fr)) (buildComp ty op l r h1).2 := by
  obtain ⟨fr, hr, fr1⟩ := buildExpr_ok r h1
  let h2 := (buildExpr r h1).2
  let h3 := h2 ++ [.binary (.compare op.str) l (buildExpr r h1).1]
  have f23 : Frame h2 [] (h3 ++ [.command ty (some h2.length)]) :=
    (top_frame _ _).trans (top_frame _ _) (by simp)
  have f2 := fl1.two fr1 (hS.lt hl)
  have hl2 := hS.frame hl fr1.2.2 (by simp) (by simp [NotNil])
  have hlt : ∀ x ∈ fl ++ fr, x < h2.length := by
    intro x hx
    rcases List.mem_append.mp hx with hx | hx
    · exact hS.lt hl2 x hx
    · exact hr.lt x hx
  have f3 := f2.top (.binary (.compare op.str) l (buildExpr r h1).1) hlt
  refine ⟨h2.length, h3.length, (buildExpr r h1).1, fr, rfl, get_top _ _,
    parent_kept (top_frame _ _) (get_top _ _) (by simp), hr.frame0 f23,
    hS.frame hl2 f23 (by simp) (by simp [NotNil]), f3.top _ ?_⟩
  intro x hx
  rw [List.mem_cons] at hx
  rcases hx with rfl | hx
  · simp
  · have := hlt x hx
    simp only [List.length_append, List.length_singleton]
    exact Nat.lt_succ_of_lt this

theorem RepRRollList.stable' (k : InfixKind) (p : Ptr) (rl : RRollList) :
    Stable (fun h fp => RepRRollList h k p rl fp) :=
  ⟨fun hs f hd hn => hs.frame f hd hn, fun hs => hs.lt⟩

theorem RepURollExpr.stable' (p : Ptr) (u : URollExpr) : Stable (fun h fp => RepURollExpr h p u fp) :=
  ⟨fun hs f hd hn => hs.frame f hd hn, fun hs => hs.lt⟩

theorem Rep.stable' (p : Ptr) (e : Expr) : Stable (fun h fp => Rep h p e fp) :=
  ⟨fun hs f hd _ => hs.frame f hd, fun hs => hs.lt⟩

theorem bList_stable (l : Ref) (ps : List Ptr) (rolls : List Roll) :
    Stable (fun h fp => ∃ fs, fp = l :: fs ∧ h[l]? = some (.bRollList ps) ∧
      RepRolls h .bRoll ps rolls fs) := by
  refine ⟨?_, ?_⟩
  · rintro h h' fp fp2 ⟨fs, rfl, hx, hr⟩ f hd _
    exact ⟨fs, rfl, parent_kept f hx (hd _ (by simp)),
      hr.frame f (fun x hx => hd x (by simp [hx]))⟩
  · rintro h fp ⟨fs, rfl, hx, hr⟩ x hm
    rw [List.mem_cons] at hm
    rcases hm with rfl | hm
    · exact lt_of_get hx
    · exact hr.lt x hm

/-- A command made by constructor calls. -/
theorem build_ok (n : Node) (h : Heap) : ∃ fp, RepNode (build n h).2 (build n h).1 n fp ∧
    Fresh h fp (build n h).2 := by
  cases n with
  | choice items =>
    obtain ⟨fs, hs, fs1⟩ := buildItems_ok items h
    exact ⟨_ :: fs, .choice (get_top _ _) (hs.congr fun x hm =>
      List.getElem?_append_left (hs.lt x hm)), fs1.top _ hs.lt⟩
  | «calc» e =>
    obtain ⟨fp, hr, fr⟩ := buildExpr_ok e h
    exact ⟨_ :: fp, .calc (get_top _ _) (hr.top _), fr.top _ hr.lt⟩
  | dRollExpr e =>
    obtain ⟨fp, hr, fr⟩ := buildExpr_ok e h
    exact ⟨_ :: fp, .dRollExpr (get_top _ _) (hr.top _), fr.top _ hr.lt⟩
  | dRollComp l op r =>
    obtain ⟨fl, hl, fl1⟩ := buildExpr_ok l h
    obtain ⟨c, cr, rp, fr, h1, h2, h3, h4, h5, h6⟩ :=
      buildComp_ok (Rep.stable' _ l) hl fl1 .dRollComp op (buildExpr l h).1 r
    refine ⟨_, ?_, h6⟩
    show RepNode _ (buildComp .dRollComp op (buildExpr l h).1 r (buildExpr l h).2).1 _ _
    rw [h1]
    exact .dRollComp h2 h3 h5 h4
  | bRollList rolls =>
    obtain ⟨fs, hs, fs1⟩ := buildRolls_ok .bRoll rolls h
    exact ⟨_ :: fs, .bRollList (get_top _ _) (hs.frame (top_frame _ _) (by simp)), fs1.top _ hs.lt⟩
  | bRollComp rolls op r =>
    obtain ⟨fs, hs, fs1⟩ := buildRolls_ok .bRoll rolls h
    have ft := fs1.top (.bRollList (buildRolls .bRoll rolls h).1) hs.lt
    obtain ⟨c, cr, rp, fr, h1, h2, h3, h4, ⟨fs', h5, h6, h7⟩, h8⟩ :=
      buildComp_ok (bList_stable (buildRolls .bRoll rolls h).2.length (buildRolls .bRoll rolls h).1
        rolls) ⟨fs, rfl, get_top _ _, hs.frame (top_frame _ _) (by simp)⟩ ft .bRollComp op
        (some (buildRolls .bRoll rolls h).2.length) r
    cases h5
    refine ⟨_, ?_, h8⟩
    show RepNode _ (buildComp .bRollComp op _ r _).1 _ _
    rw [h1]
    exact .bRollComp h2 h3 h6 h7 h4
  | rRollList rl =>
    obtain ⟨fp, hr, fr⟩ := buildRRollList_ok .rRoll rl h
    exact ⟨fp, .rRollList hr, fr⟩
  | rRollComp rl op r =>
    obtain ⟨fl, hl, fl1⟩ := buildRRollList_ok .rRoll rl h
    obtain ⟨c, cr, rp, fr, h1, h2, h3, h4, h5, h6⟩ :=
      buildComp_ok (RepRRollList.stable' .rRoll _ rl) hl fl1 .rRollComp op
        (buildRRollList .rRoll rl h).1 r
    refine ⟨_, ?_, h6⟩
    show RepNode _ (buildComp .rRollComp op (buildRRollList .rRoll rl h).1 r
      (buildRRollList .rRoll rl h).2).1 _ _
    rw [h1]
    exact .rRollComp h2 h3 h5 h4
  | uRollExpr u =>
    obtain ⟨fp, hr, fr⟩ := buildURollExpr_ok u h
    exact ⟨fp, .uRollExpr hr, fr⟩
  | uRollComp u op r =>
    obtain ⟨fl, hl, fl1⟩ := buildURollExpr_ok u h
    obtain ⟨c, cr, rp, fr, h1, h2, h3, h4, h5, h6⟩ :=
      buildComp_ok (RepURollExpr.stable' _ u) hl fl1 .uRollComp op (buildURollExpr u h).1 r
    refine ⟨_, ?_, h6⟩
    show RepNode _ (buildComp .uRollComp op (buildURollExpr u h).1 r (buildURollExpr u h).2).1 _ _
    rw [h1]
    exact .uRollComp h2 h3 h5 h4

end GoBCDice.Raw
