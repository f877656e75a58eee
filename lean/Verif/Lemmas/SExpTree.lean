import Verif.Lemmas.SExp

/-!
# The S-expression of a tree, and why it determines the tree
-/

namespace GoBCDice

instance (s : Str) : Decidable (AtomOk s) := by unfold AtomOk; infer_instance

/-- An atom. -/
abbrev sxAtom (s : Str) (h : AtomOk s := by decide) : SX := .atom ⟨s, h⟩

theorem natStr_atomOk (n : Nat) : ∀ c ∈ natStr n, c ∉ sxSpecial := by
  intro c hc
  have := natStr_isDigit n c hc
  simp [sxSpecial]
  refine ⟨?_, ?_, ?_, ?_⟩ <;> (rintro rfl; revert this; decide)

theorem intStr_atomOk (v : Int64) : AtomOk (intStr v) := by
  intro c hc
  unfold intStr at hc
  split at hc
  · rcases List.mem_cons.1 hc with rfl | hc
    · decide
    · exact natStr_atomOk _ c hc
  · exact natStr_atomOk _ c hc

/-- The elements of a list node; an empty list leaves an empty atom behind. -/
def sxList : List SX → List SX
  | [] => [sxAtom []]
  | t :: ts => t :: ts

/-- An integer. -/
abbrev sxInt (v : Int64) : SX := .atom ⟨intStr v, intStr_atomOk v⟩

/-- A die. -/
def Die.toSX (d : Die) : SX := .node (sxAtom chars!"Die") [sxInt d.value, sxInt d.sides]

theorem slash_atomOk (m : Rounding) : AtomOk (chars!"/" ++ m.str) := by cases m <;> decide
theorem binOp_atomOk (o : BinOp) : AtomOk o.sexpOp := by cases o <;> decide
theorem cmpOp_atomOk (o : CmpOp) : AtomOk o.str := by cases o <;> decide

/-- An arithmetic expression. -/
def Expr.toSX : Expr → SX
  | .int v => sxInt v
  | .sumRoll ds => .node (sxAtom chars!"SumRollResult") (sxList (ds.map Die.toSX))
  | .neg r => .node (sxAtom chars!"-") [r.toSX]
  | .bin op l r => .node (sxAtom op.sexpOp (binOp_atomOk op)) [l.toSX, r.toSX]
  | .div m l r => .node (sxAtom (chars!"/" ++ m.str) (slash_atomOk m)) [l.toSX, r.toSX]
  | .var .d l r => .node (sxAtom chars!"DRoll") [l.toSX, r.toSX]
  | .var .rand l r => .node (sxAtom chars!"RandomNumber") [l.toSX, r.toSX]

/-- A roll of a list. -/
def Roll.toSX (name : Str) (h : AtomOk name) (r : Roll) : SX :=
  .node (sxAtom name h) [r.num.toSX, r.sides.toSX]

/-- A comparison. -/
def compareSX (l : SX) (op : CmpOp) (r : Expr) : SX :=
  .node (sxAtom op.str (cmpOp_atomOk op)) [l, r.toSX]

/-- A list of B rolls. -/
def bRollListSX (rolls : List Roll) : SX :=
  .node (sxAtom chars!"BRollList") (sxList (rolls.map (Roll.toSX chars!"BRoll" (by decide))))

/-- A threshold. -/
def thresholdSX : Option Expr → SX
  | none => sxAtom chars!"nil"
  | some e => e.toSX

/-- A list of R or U rolls. -/
def rRollListSX (name : Str) (h : AtomOk name) (rl : RRollList) : SX :=
  .node (sxAtom chars!"RRollList")
    (thresholdSX rl.threshold :: sxList (rl.rolls.map (Roll.toSX name h)))

/-- A U roll expression. -/
def uRollExprSX (u : URollExpr) : SX :=
  .node (sxAtom chars!"URollExpr")
    [match u.bonus with
     | none => rRollListSX chars!"URoll" (by decide) u.list
     | some (.plus, e) =>
       .node (sxAtom chars!"+") [rRollListSX chars!"URoll" (by decide) u.list, e.toSX]
     | some (.minus, e) =>
       .node (sxAtom chars!"-") [rRollListSX chars!"URoll" (by decide) u.list, e.toSX]]

/-- A command tree. -/
def Node.toSX : Node → SX
  | .choice items => .node (sxAtom chars!"Choice") (items.map SX.str)
  | .calc e => .node (sxAtom chars!"Calc") [e.toSX]
  | .dRollExpr e => .node (sxAtom chars!"DRollExpr") [e.toSX]
  | .dRollComp l op r => .node (sxAtom chars!"DRollComp") [compareSX l.toSX op r]
  | .bRollList rolls => bRollListSX rolls
  | .bRollComp rolls op r => .node (sxAtom chars!"BRollComp") [compareSX (bRollListSX rolls) op r]
  | .rRollList rl => rRollListSX chars!"RRoll" (by decide) rl
  | .rRollComp rl op r =>
    .node (sxAtom chars!"RRollComp") [compareSX (rRollListSX chars!"RRoll" (by decide) rl) op r]
  | .uRollExpr u => uRollExprSX u
  | .uRollComp u op r => .node (sxAtom chars!"URollComp") [compareSX (uRollExprSX u) op r]

/-! ## Rendering gives the model's text -/

theorem renderTail_join (isPrint : Char → Bool) (ts : List SX) :
    SX.renderTail isPrint (sxList ts) =
      ' ' :: (join chars!" " (ts.map (SX.render isPrint)) ++ [')']) := by
  cases ts with
  | nil => simp [sxList, SX.renderTail, SX.render, join]
  | cons t ts =>
    simp only [sxList]
    induction ts generalizing t with
    | nil => simp [SX.renderTail, join]
    | cons u ts ih =>
      rw [SX.renderTail, ih u]
      simp [join]

theorem Die.render (isPrint : Char → Bool) (d : Die) : d.toSX.render isPrint = d.sexp := by
  simp [Die.toSX, Die.sexp, SX.render, SX.renderTail]

theorem Expr.render (isPrint : Char → Bool) (e : Expr) : e.toSX.render isPrint = e.sexp := by
  induction e with
  | int v => simp [Expr.toSX, Expr.sexp, SX.render]
  | sumRoll ds =>
    have : ds.map (SX.render isPrint ∘ Die.toSX) = ds.map Die.sexp :=
      List.map_congr_left fun d _ => Die.render isPrint d
    simp [Expr.toSX, Expr.sexp, sumRollSExp, SX.render, renderTail_join, this]
  | neg r ih => simp [Expr.toSX, Expr.sexp, SX.render, SX.renderTail, ih]
  | bin op l r ihl ihr =>
    simp [Expr.toSX, Expr.sexp, SX.render, SX.renderTail, infixSExp, ihl, ihr]
  | div m l r ihl ihr =>
    simp [Expr.toSX, Expr.sexp, SX.render, SX.renderTail, infixSExp, ihl, ihr]
  | var k l r ihl ihr =>
    cases k <;> simp [Expr.toSX, Expr.sexp, SX.render, SX.renderTail, infixSExp, ihl, ihr]

theorem Roll.render (isPrint : Char → Bool) (name : Str) (h : AtomOk name) (r : Roll) :
    (r.toSX name h).render isPrint = r.sexp name := by
  simp [Roll.toSX, Roll.sexp, SX.render, SX.renderTail, infixSExp, Expr.render]

theorem compareSX_render (isPrint : Char → Bool) (l : SX) (op : CmpOp) (r : Expr) :
    (compareSX l op r).render isPrint = compareSExp (l.render isPrint) op r := by
  simp [compareSX, compareSExp, SX.render, SX.renderTail, infixSExp, Expr.render]

theorem rolls_render (isPrint : Char → Bool) (name : Str) (h : AtomOk name) (rs : List Roll) :
    rs.map (SX.render isPrint ∘ Roll.toSX name h) = rs.map (Roll.sexp name) :=
  List.map_congr_left fun r _ => Roll.render isPrint name h r

theorem bRollList_render (isPrint : Char → Bool) (rs : List Roll) :
    (bRollListSX rs).render isPrint = bRollListSExp rs := by
  simp [bRollListSX, bRollListSExp, SX.render, renderTail_join, rolls_render]

theorem rRollList_render (isPrint : Char → Bool) (name : Str) (h : AtomOk name) (rl : RRollList) :
    (rRollListSX name h rl).render isPrint = rRollListSExp name rl := by
  obtain ⟨rs, t⟩ := rl
  cases t <;>
    simp [rRollListSX, rRollListSExp, SX.render, SX.renderTail, renderTail_join, rolls_render,
      thresholdSX, thresholdSExp, Expr.render]

theorem uRollExpr_render (isPrint : Char → Bool) (u : URollExpr) :
    (uRollExprSX u).render isPrint = uRollExprSExp u := by
  obtain ⟨rl, b⟩ := u
  rcases b with _ | ⟨_ | _, e⟩ <;>
    simp [uRollExprSX, uRollExprSExp, SX.render, SX.renderTail, rRollList_render, infixSExp,
      Expr.render]

theorem items_render (isPrint : Char → Bool) (items : List Str) :
    SX.renderTail isPrint (items.map SX.str) =
      items.flatMap (fun i => chars!" " ++ quote isPrint i) ++ [')'] := by
  induction items with
  | nil => simp [SX.renderTail]
  | cons i items ih => simp [SX.renderTail, SX.render, ih]

theorem Node.render (isPrint : Char → Bool) (n : Node) : n.toSX.render isPrint = n.sexp isPrint := by
  cases n <;>
    simp [Node.toSX, Node.sexp, choiceSExp, commandSExp, SX.render, SX.renderTail, items_render,
      Expr.render, compareSX_render, bRollList_render, rRollList_render, uRollExpr_render]

/-! ## The S-expression determines the tree -/

theorem map_inj {α β} {f : α → β} : ∀ {l m : List α}, (∀ a ∈ l, ∀ b, f a = f b → a = b) →
    l.map f = m.map f → l = m
  | [], [], _, _ => rfl
  | [], _ :: _, _, h => by simp at h
  | _ :: _, [], _, h => by simp at h
  | a :: l, b :: m, hf, h => by
    simp only [List.map_cons, List.cons.injEq] at h
    rw [hf a (by simp) b h.1, map_inj (fun a ha => hf a (by simp [ha])) h.2]

theorem sxList_inj {ts us : List SX} (ht : ∀ t ∈ ts, t ≠ sxAtom []) (hu : ∀ t ∈ us, t ≠ sxAtom [])
    (h : sxList ts = sxList us) : ts = us := by
  cases ts <;> cases us <;> simp_all [sxList]

theorem Die.toSX_inj {d e : Die} (h : d.toSX = e.toSX) : d = e := by
  cases d; cases e
  simp [Die.toSX] at h
  rw [intStr_inj h.1, intStr_inj h.2]

theorem dice_inj {ds es : List Die} (h : sxList (ds.map Die.toSX) = sxList (es.map Die.toSX)) :
    ds = es := by
  have := sxList_inj (by simp [Die.toSX]) (by simp [Die.toSX]) h
  exact map_inj (fun d _ e => Die.toSX_inj) this

theorem Expr.toSX_inj : ∀ {e f : Expr}, e.toSX = f.toSX → e = f := by
  intro e
  induction e with
  | int v =>
    intro f h
    cases f with
    | int w => simp [Expr.toSX] at h; rw [intStr_inj h]
    | var k l r => cases k <;> simp [Expr.toSX] at h
    | _ => simp [Expr.toSX] at h
  | sumRoll ds =>
    intro f h
    cases f with
    | sumRoll es => simp [Expr.toSX] at h; rw [dice_inj h]
    | bin o l r => cases o <;> simp [Expr.toSX, BinOp.sexpOp] at h
    | var k l r => cases k <;> simp [Expr.toSX] at h
    | _ => simp [Expr.toSX] at h
  | neg r ih =>
    intro f h
    cases f with
    | neg s => simp [Expr.toSX] at h; rw [ih h]
    | sumRoll es => simp [Expr.toSX] at h
    | var k l r => cases k <;> simp [Expr.toSX] at h
    | _ => simp [Expr.toSX] at h
  | bin o l r ihl ihr =>
    intro f h
    cases f with
    | bin o' l' r' =>
      simp only [Expr.toSX, SX.node.injEq, SX.atom.injEq, Subtype.mk.injEq, List.cons.injEq,
        and_true] at h
      have ho : o = o' := by
        have := h.1
        cases o <;> cases o' <;> first | rfl | (simp [BinOp.sexpOp] at this)
      rw [ho, ihl h.2.1, ihr h.2.2]
    | var k l r => cases k <;> cases o <;> simp [Expr.toSX, BinOp.sexpOp] at h
    | _ => cases o <;> simp [Expr.toSX, BinOp.sexpOp] at h
  | div m l r ihl ihr =>
    intro f h
    cases f with
    | div m' l' r' =>
      simp only [Expr.toSX, SX.node.injEq, SX.atom.injEq, Subtype.mk.injEq, List.cons.injEq,
        and_true] at h
      have hm : m = m' := by
        have := h.1
        cases m <;> cases m' <;> first | rfl | (simp [Rounding.str] at this)
      rw [hm, ihl h.2.1, ihr h.2.2]
    | var k l r => cases k <;> simp [Expr.toSX] at h
    | bin o l r => cases o <;> simp [Expr.toSX, BinOp.sexpOp] at h
    | _ => simp [Expr.toSX] at h
  | var k l r ihl ihr =>
    intro f h
    cases f with
    | var k' l' r' =>
      cases k <;> cases k' <;> simp [Expr.toSX] at h <;> rw [ihl h.1, ihr h.2]
    | bin o l r => cases k <;> cases o <;> simp [Expr.toSX, BinOp.sexpOp] at h
    | _ => cases k <;> simp [Expr.toSX] at h

theorem Expr.toSX_ne_nil {e : Expr} : e.toSX ≠ sxAtom chars!"nil" := by
  cases e with
  | int v =>
    simp only [Expr.toSX, ne_eq, SX.atom.injEq, Subtype.mk.injEq]
    intro h
    have hn : 'n' ∈ intStr v := by rw [h]; simp
    unfold intStr at hn
    split at hn
    · rcases List.mem_cons.1 hn with h | h
      · revert h; decide
      · have := natStr_isDigit _ _ h; revert this; decide
    · have := natStr_isDigit _ _ hn; revert this; decide
  | var k l r => cases k <;> simp [Expr.toSX]
  | _ => simp [Expr.toSX]

theorem Roll.toSX_inj {name name' : Str} {h h'} {r s : Roll}
    (e : r.toSX name h = s.toSX name' h') : r = s := by
  cases r; cases s
  simp [Roll.toSX] at e
  rw [Expr.toSX_inj e.2.1, Expr.toSX_inj e.2.2]

theorem rolls_inj {name : Str} {h} {rs ss : List Roll}
    (e : sxList (rs.map (Roll.toSX name h)) = sxList (ss.map (Roll.toSX name h))) : rs = ss := by
  have := sxList_inj (by simp [Roll.toSX]) (by simp [Roll.toSX]) e
  exact map_inj (fun d _ e => Roll.toSX_inj) this

theorem compareSX_inj {l l' : SX} {o o' : CmpOp} {r r' : Expr}
    (h : compareSX l o r = compareSX l' o' r') : l = l' ∧ o = o' ∧ r = r' := by
  simp only [compareSX, SX.node.injEq, SX.atom.injEq, Subtype.mk.injEq, List.cons.injEq,
    and_true] at h
  refine ⟨h.2.1, ?_, Expr.toSX_inj h.2.2⟩
  have := h.1
  cases o <;> cases o' <;> first | rfl | (simp [CmpOp.str] at this)

theorem bRollListSX_inj {rs ss : List Roll} (h : bRollListSX rs = bRollListSX ss) : rs = ss := by
  simp [bRollListSX] at h
  exact rolls_inj h

theorem rRollListSX_inj {name : Str} {h} {l m : RRollList}
    (e : rRollListSX name h l = rRollListSX name h m) : l = m := by
  obtain ⟨rs, t⟩ := l
  obtain ⟨ss, u⟩ := m
  simp only [rRollListSX, SX.node.injEq, true_and, List.cons.injEq] at e
  obtain ⟨ht, hr⟩ := e
  have hr := rolls_inj hr
  have ht : t = u := by
    cases t <;> cases u
    · rfl
    · exact absurd ht.symm Expr.toSX_ne_nil
    · exact absurd ht Expr.toSX_ne_nil
    · rw [Expr.toSX_inj ht]
  simp_all

theorem uRollExprSX_inj {u v : URollExpr} (h : uRollExprSX u = uRollExprSX v) : u = v := by
  obtain ⟨l, b⟩ := u
  obtain ⟨m, c⟩ := v
  simp only [uRollExprSX, SX.node.injEq, true_and, List.cons.injEq, and_true] at h
  rcases b with _ | ⟨_ | _, e⟩ <;> rcases c with _ | ⟨_ | _, f⟩ <;>
    simp only [SX.node.injEq, SX.atom.injEq, Subtype.mk.injEq, List.cons.injEq, and_true,
      true_and] at h
  all_goals first
    | (simp [rRollListSX] at h; done)
    | (have := rRollListSX_inj h; simp_all; done)
    | (have := rRollListSX_inj h.1; have := Expr.toSX_inj h.2; simp_all; done)
    | (simp at h; done)

theorem Node.toSX_inj {n m : Node} (h : n.toSX = m.toSX) : n = m := by
  cases n <;> cases m
  all_goals first
    | (exfalso
       simp [Node.toSX, bRollListSX, rRollListSX, uRollExprSX] at h
       done)
    | (simp only [Node.toSX, SX.node.injEq, true_and, List.cons.injEq, and_true] at h)
  · rw [map_inj (by simp) h]
  · rw [Expr.toSX_inj h]
  · rw [Expr.toSX_inj h]
  · obtain ⟨h1, h2, h3⟩ := compareSX_inj h; rw [Expr.toSX_inj h1, h2, h3]
  · rw [bRollListSX_inj h]
  · obtain ⟨h1, h2, h3⟩ := compareSX_inj h; rw [bRollListSX_inj h1, h2, h3]
  · rw [rRollListSX_inj h]
  · obtain ⟨h1, h2, h3⟩ := compareSX_inj h; rw [rRollListSX_inj h1, h2, h3]
  · rw [uRollExprSX_inj h]
  · obtain ⟨h1, h2, h3⟩ := compareSX_inj h; rw [uRollExprSX_inj h1, h2, h3]

theorem Node.sexp_inj (isPrint : Char → Bool) {n m : Node} (h : n.sexp isPrint = m.sexp isPrint) :
    n = m := by
  rw [← Node.render, ← Node.render] at h
  have stop : SxStop [] := by intro c hc; simp at hc
  exact Node.toSX_inj (SX.render_inj isPrint _ _ [] [] stop stop (by simpa using h)).1

end GoBCDice
