import Verif.Spec.Answer
import Verif.Props.Outcome

/-!
# C111: how long answers are
-/

namespace GoBCDice

variable {σ : Type}

/-! ## Lengths of texts -/

theorem natStr_length {n k : Nat} (hk : 0 < k) (h : n < 10 ^ k) : (natStr n).length ≤ k :=
  Nat.length_toDigits_le_iff (by decide) hk |>.mpr h

theorem intStr_length (v : Int64) : (intStr v).length ≤ 20 := by
  have h1 := v.toInt_lt
  have h2 := v.le_toInt
  have : (natStr v.toInt.natAbs).length ≤ 19 := natStr_length (by decide) (by
    have : (10 : Nat) ^ 19 = 10000000000000000000 := by decide
    omega)
  unfold intStr
  split <;> simp <;> omega

theorem join_length (sep : Str) : ∀ l : List Str,
    (join sep l).length ≤ ((l.map List.length).sum + sep.length * l.length)
  | [] => by simp [join]
  | [s] => by simp [join]
  | s :: t :: rest => by
    have := join_length sep (t :: rest)
    simp only [join, List.length_append, List.map_cons, List.sum_cons, List.length_cons] at this ⊢
    rw [Nat.mul_add sep.length (rest.length + 1) 1]
    omega

theorem sum_le_mul {α : Type} (f : α → Nat) (k : Nat) : ∀ l : List α, (∀ x ∈ l, f x ≤ k) → (l.map f).sum ≤ k * l.length
  | [], _ => by simp
  | x :: l, h => by
    have := sum_le_mul f k l (fun y hy => h y (List.mem_cons_of_mem _ hy))
    have := h x List.mem_cons_self
    simp only [List.map_cons, List.sum_cons, List.length_cons, Nat.mul_add]
    omega

theorem valuesText_length (vs : List Int64) : (valuesText vs).length ≤ 21 * vs.length := by
  have h1 := join_length chars!"," (vs.map intStr)
  have h2 := sum_le_mul (fun v => (intStr v).length) 20 vs (fun v _ => intStr_length v)
  simp only [List.map_map, Function.comp_def, List.length_map, List.length_cons, List.length_nil] at h1
  have : (chars!"," : Str).length = 1 := rfl
  unfold valuesText
  omega

/-- The number of nodes of an expression. -/
def Expr.nodes : Expr → Nat
  | .int _ => 1
  | .sumRoll _ => 1
  | .neg r => r.nodes + 1
  | .bin _ l r => l.nodes + r.nodes + 1
  | .div _ l r => l.nodes + r.nodes + 1
  | .var _ l r => l.nodes + r.nodes + 1

/-- The number of dice in the rolls of an expression that are known. -/
def Expr.known : Expr → Nat
  | .int _ => 0
  | .sumRoll ds => ds.length
  | .neg r => r.known
  | .bin _ l r => l.known + r.known
  | .div _ l r => l.known + r.known
  | .var _ l r => l.known + r.known

theorem infixNotation_length : ∀ (wl : Bool) (e : Expr), (infixNotation wl e).length ≤ 24 * e.nodes + 21 * e.known
  | wl, .int v => by
    have := intStr_length v
    simp only [infixNotation, Expr.nodes, Expr.known]
    omega
  | wl, .sumRoll ds => by
    have h1 := intStr_length (sumDice ds)
    have h2 := valuesText_length (ds.map Die.value)
    have : infixNotation wl (.sumRoll ds) = intStr (sumDice ds) ++ chars!"[" ++ valuesText (ds.map Die.value) ++ chars!"]" := by
      simp only [infixNotation, sumRollNotation, valuesText, List.map_map, Function.comp_def]
    rw [List.length_map] at h2
    simp only [Expr.nodes, Expr.known, this, List.length_append, List.length_cons, List.length_nil]
    omega
  | wl, .neg r => by
    have h1 := infixNotation_length wl r
    have h2 := infixNotation_length true r
    simp only [infixNotation, Expr.nodes, Expr.known]
    split <;> simp [parenthesize] <;> omega
  | wl, .bin op l r => by
    have h1 := infixNotation_length wl l
    have h2 := infixNotation_length true l
    have h3 := infixNotation_length true r
    have h4 := infixNotation_length false r
    have h5 : op.str.length = 1 := by cases op <;> rfl
    simp only [infixNotation, Expr.nodes, Expr.known, List.length_append, h5]
    repeat' split
    all_goals (simp [parenthesize]; omega)
  | wl, .div m l r => by
    have h1 := infixNotation_length wl l
    have h2 := infixNotation_length true l
    have h3 := infixNotation_length true r
    have h4 := infixNotation_length false r
    have h5 : m.str.length ≤ 1 := by cases m <;> decide
    simp only [infixNotation, Expr.nodes, Expr.known, List.length_append]
    repeat' split
    all_goals (simp [parenthesize]; omega)
  | wl, .var .d l r => by
    have h1 := infixNotation_length wl l
    have h2 := infixNotation_length true l
    have h3 := infixNotation_length true r
    have h4 := infixNotation_length false r
    simp only [infixNotation, Expr.nodes, Expr.known, List.length_append]
    repeat' split
    all_goals (simp [parenthesize]; omega)
  | wl, .var .rand l r => by
    have h2 := infixNotation_length true l
    have h3 := infixNotation_length true r
    have h4 := infixNotation_length false r
    simp only [infixNotation, Expr.nodes, Expr.known, List.length_append]
    repeat' split
    all_goals (simp [parenthesize]; omega)

/-! ## Trees of typed texts -/

theorem Der.nodes_le {n : NT} {s : Str} {e : Expr} (h : Der n s e) : e.nodes ≤ s.length ∧ e.known = 0 := by
  induction h with
  | number hn _ =>
    rename_i ds _
    have : 0 < ds.length := List.length_pos_iff.mpr hn
    exact ⟨this, rfl⟩
  | _ => simp_all [Expr.nodes, Expr.known] <;> omega

theorem DArgs.nodes_le {e e1 : Expr} {as : List Die} (h : DArgs e as e1) : e1.nodes ≤ e.nodes ∧ e1.known ≤ e.known := by
  induction h with
  | @roll l r _ _ _ _ _ _ =>
    have h1 : 1 ≤ l.nodes := by cases l <;> simp [Expr.nodes]
    have h2 : 1 ≤ r.nodes := by cases r <;> simp [Expr.nodes]
    simp only [Expr.nodes, Expr.known]
    omega
  | _ => simp_all [Expr.nodes, Expr.known] <;> omega

theorem DDice.nodes_le {e e1 : Expr} {rs : List Die} (h : DDice e rs e1) :
    e1.nodes ≤ e.nodes ∧ e1.known = e.known + rs.length := by
  induction h with
  | roll _ => simp [Expr.nodes, Expr.known]
  | _ => simp_all [Expr.nodes, Expr.known] <;> omega

theorem RollsText.length_le {letters : Char × Char} {s : Str} {rs : List Roll} (h : RollsText letters s rs) :
    3 * rs.length ≤ s.length := by
  have one : ∀ {s : Str} {r : Roll}, RollText letters s r → 3 ≤ s.length := by
    rintro s r ⟨a, b, l, rfl, -, ha, hb⟩
    have h1 := ha.nodes_le.1
    have h2 := hb.nodes_le.1
    have h3 : 1 ≤ r.num.nodes := by cases r.num <;> simp [Expr.nodes]
    have h4 : 1 ≤ r.sides.nodes := by cases r.sides <;> simp [Expr.nodes]
    simp
    omega
  induction h with
  | one h => simpa using one h
  | cons h _ ih =>
    have := one h
    simp only [List.length_cons, List.length_append]
    omega

theorem Args.length_eq {rolls : List Roll} {as : List Die} {ps : List (Int64 × Int64)} (h : Args rolls as ps) :
    ps.length = rolls.length := by
  induction h with
  | nil => rfl
  | cons _ _ _ ih => simp [ih]

theorem rollsText_length (letter : Str) (hl : letter.length = 1) (ps : List (Int64 × Int64)) :
    (rollsText letter ps).length ≤ 42 * ps.length := by
  have h1 := join_length chars!"+" (ps.map fun p => intStr p.1 ++ letter ++ intStr p.2)
  have h2 := sum_le_mul (fun p : Int64 × Int64 => (intStr p.1 ++ letter ++ intStr p.2).length) 41 ps (fun p _ => by
    have := intStr_length p.1
    have := intStr_length p.2
    simp only [List.length_append]
    omega)
  simp only [List.map_map, Function.comp_def, List.length_map, List.length_cons, List.length_nil] at h1
  have : (chars!"+" : Str).length = 1 := rfl
  unfold rollsText
  omega

theorem thresholdText_length (th : Option Int64) : (thresholdText th).length ≤ 22 := by
  cases th with
  | none => simp [thresholdText]
  | some v =>
    have := intStr_length v
    simp [thresholdText]
    omega

theorem bonusText_length (m : Int64) : (bonusText m).length ≤ 21 := by
  have := intStr_length m
  have := intStr_length (-m)
  unfold bonusText
  split <;> (try split) <;> simp <;> omega

theorem modifierText_length (m : Int64) : (modifierText m).length ≤ 21 := by
  have := intStr_length m
  unfold modifierText
  split <;> (try split) <;> simp <;> omega

theorem CmpOp.str_length (op : CmpOp) : op.str.length ≤ 2 := by cases op <;> decide

theorem Refused.length {nilMsg msg : Str} {th : Option Int64} (h : Refused nilMsg th msg) :
    msg.length ≤ max nilMsg.length 50 := by
  cases h with
  | absent => exact Nat.le_max_left ..
  | small _ => exact Nat.le_trans (by decide) (Nat.le_max_right ..)

theorem groups_length (f : List Die → Nat) (k : Nat) : ∀ gs : List (List Die), (∀ g ∈ gs, f g ≤ k * g.length) →
    (gs.map f).sum ≤ k * gs.flatten.length
  | [], _ => by simp
  | g :: gs, h => by
    have := groups_length f k gs (fun y hy => h y (List.mem_cons_of_mem _ hy))
    have := h g List.mem_cons_self
    simp only [List.map_cons, List.sum_cons, List.flatten_cons, List.length_append, Nat.mul_add]
    omega

theorem groups_count (gs : List (List Die)) (h : ∀ g ∈ gs, 1 ≤ g.length) : gs.length ≤ gs.flatten.length := by
  have h1 := groups_length (fun _ => 1) 1 gs (fun g hg => by have := h g hg; omega)
  have h2 : (gs.map fun _ => 1).sum = gs.length := by
    clear h h1
    induction gs with
    | nil => rfl
    | cons g gs ih => simp only [List.map_cons, List.sum_cons, ih, List.length_cons]; omega
  omega

theorem rGroupsText_length (gs : List (List Die)) (h : ∀ g ∈ gs, 1 ≤ g.length) :
    (rGroupsText gs).length ≤ 24 * gs.flatten.length := by
  have h1 := join_length chars!" + " (gs.map fun g => valuesText (g.map Die.value))
  have h2 := groups_length (fun g => (valuesText (g.map Die.value)).length) 21 gs (fun g _ => by
    simpa using valuesText_length (g.map Die.value))
  have h3 := groups_count gs h
  simp only [List.map_map, Function.comp_def, List.length_map, List.length_cons, List.length_nil] at h1
  have : (chars!" + " : Str).length = 3 := rfl
  unfold rGroupsText
  omega

theorem groupsText_length (gs : List (List Die)) (m : Int64) (h : ∀ g ∈ gs, 1 ≤ g.length) :
    (groupsText gs m).length ≤ 44 * gs.flatten.length + 21 := by
  have h1 := join_length chars!"," (gs.map fun g => intStr (g.map Die.value).sum ++
    (if 1 < g.length then chars!"[" ++ valuesText (g.map Die.value) ++ chars!"]" else []))
  have h2 := groups_length (fun g => (intStr (g.map Die.value).sum ++
    (if 1 < g.length then chars!"[" ++ valuesText (g.map Die.value) ++ chars!"]" else [])).length) 43 gs (fun g hg => by
    have := h g hg
    have h3 := intStr_length (g.map Die.value).sum
    have h4 := valuesText_length (g.map Die.value)
    rw [List.length_map] at h4
    split <;> simp only [List.length_append, List.length_cons, List.length_nil] <;> omega)
  have h3 := groups_count gs h
  have h4 := modifierText_length m
  simp only [List.map_map, Function.comp_def, List.length_map, List.length_cons, List.length_nil] at h1
  have : (chars!"," : Str).length = 1 := rfl
  simp only [groupsText, List.length_append]
  omega

theorem RGroups.nonempty {th : Int64} {n : Nat} {ps : List (Int64 × Int64)} {gs : List (List Die)} (h : RGroups th n ps gs) :
    ∀ g ∈ gs, 1 ≤ g.length := by
  induction h with
  | done => simp
  | limit => simp
  | roll hr _ ih =>
    intro g hg
    rcases List.mem_cons.mp hg with rfl | hg
    · obtain ⟨-, h1, -, h2, -⟩ := hr
      rw [Int64.le_iff_toInt_le] at h1
      have : (1 : Int64).toInt = 1 := rfl
      omega
    · exact ih g hg

theorem UGroups.nonempty {limit : Nat} {th : Int64} {ps : List (Int64 × Int64)} {gs : List (List Die)}
    (h : UGroups limit th ps gs) (hl : 1 ≤ limit) : ∀ g ∈ gs, 1 ≤ g.length := by
  induction h with
  | nil => simp
  | cons h1 _ ih =>
    intro g hg
    rcases List.mem_append.mp hg with hg | hg
    · obtain ⟨-, -, -, -, h2⟩ := h1
      rcases (h2 g hg).last with h3 | ⟨d, h3, -⟩
      · omega
      · cases g with
        | nil => simp at h3
        | cons _ _ => simp
    · exact ih g hg

theorem ItemsText.lengths_le {s : Str} {items : List Str} (h : ItemsText s items) :
    (items.map List.length).sum + items.length ≤ s.length + 1 ∧ ∀ item ∈ items, item.length ≤ s.length := by
  have one : ∀ {raw item : Str}, ItemText raw item → item.length ≤ raw.length := by
    rintro raw item ⟨-, -, a, b, rfl, -⟩
    simp
    omega
  induction h with
  | one h =>
    have := one h
    simpa using this
  | cons h _ ih =>
    have := one h
    refine ⟨by simp at ih ⊢; omega, fun item hi => ?_⟩
    rcases List.mem_cons.mp hi with rfl | hi
    · simp; omega
    · have := ih.2 item hi
      simp; omega

theorem CompareText.one_le {s : Str} {op : CmpOp} {e : Expr} (h : CompareText s op e) : 1 ≤ s.length := by
  cases h; cases op <;> simp [CmpOp.str]

/-- The result of a command in a text. -/
theorem outcome_length {limit : Nat} (hl : 1 ≤ limit) {g t : Str} {node : Node} {ds : List Die} {r : Result}
    (ht : CommandText t node) (ho : Outcome limit g node ds r) :
    r.gameID = g ∧ r.joinedParts.length ≤ 48 * t.length + 44 * r.rolledDice.length + 140 := by
  have hR : ∀ {letters : Char × Char} {s : Str} {rl : RRollList} {as ps}, RRollsText letters s rl → Args rl.rolls as ps →
      3 * ps.length ≤ s.length := by
    rintro letters s rl as ps ⟨a, b, rfl, h1, -⟩ h2
    have := h1.length_le
    rw [h2.length_eq]
    simp; omega
  have hU : ∀ {s : Str} {u : URollExpr} {as ps}, URollText s u → Args u.list.rolls as ps →
      3 * ps.length ≤ s.length := by
    rintro s u as ps ⟨a, b, rfl, h1, -⟩ h2
    have := hR h1 h2
    simp; omega
  cases ho with
  | @choice items d item h1 h2 h3 =>
    cases ht with | @choice kw body seps rest _ _ h4 _ =>
    refine ⟨rfl, ?_⟩
    have h5 := h4.lengths_le
    have h6 := h5.2 item (List.mem_of_getElem? h3)
    have h7 := join_length chars!"," items
    simp [Result.joinedParts, join, inParens] at h7 ⊢
    omega
  | @«calc» e _ v h1 =>
    cases ht with | @«calc» s rest _ c _ h4 =>
    refine ⟨rfl, ?_⟩
    have h5 := h4.nodes_le
    have h6 := infixNotation_length true e
    have h7 := intStr_length v
    simp [Result.joinedParts, join] at h7 ⊢
    omega
  | @dRollExpr e e1 e2 as rs v h1 h2 h3 =>
    cases ht with | dRollExpr h4 _ =>
    refine ⟨rfl, ?_⟩
    have h5 := h4.nodes_le
    have h6 := h1.nodes_le
    have h7 := h2.nodes_le
    have h8 := infixNotation_length true e1
    have h9 := infixNotation_length true e2
    have h10 := intStr_length v
    simp [Result.joinedParts, join, inParens]
    omega
  | @dRollComp l l1 l2 _ op as bs rs v target _ h1 _ h2 h3 =>
    cases ht with | @dRollComp s s' _ _ _ h4 _ _ =>
    refine ⟨rfl, ?_⟩
    have h5 := h4.nodes_le
    have h6 := h1.nodes_le
    have h7 := h2.nodes_le
    have h8 := infixNotation_length true l1
    have h9 := infixNotation_length true l2
    have h10 := intStr_length v
    have h11 := intStr_length target
    have h12 := op.str_length
    split <;> simp [Result.joinedParts, join, inParens] <;> omega
  | @bRollList rolls as ps gs h1 h2 =>
    cases ht with | bRollList h4 =>
    refine ⟨rfl, ?_⟩
    have h5 := h4.length_le
    have h6 := h1.length_eq
    have h7 := rollsText_length chars!"B" rfl ps
    have h8 := valuesText_length (gs.flatten.map Die.value)
    rw [List.length_map] at h8
    simp only [Result.joinedParts, join, inParens, List.length_append, List.length_cons, List.length_nil]
    omega
  | @bRollComp rolls op _ as bs ps gs target h1 _ h2 =>
    cases ht with | bRollComp h4 _ =>
    refine ⟨rfl, ?_⟩
    have h5 := h4.length_le
    have h6 := h1.length_eq
    have h7 := rollsText_length chars!"B" rfl ps
    have h8 := valuesText_length (gs.flatten.map Die.value)
    have h9 := intStr_length target
    have h10 := intStr_length (Int64.ofNat (successes op target (gs.flatten.map Die.value)))
    have h12 := op.str_length
    rw [List.length_map] at h8
    simp only [Result.joinedParts, join, inParens, List.length_append, List.length_cons, List.length_nil]
    omega
  | @rRollRefused rl ts as th ps msg _ h1 h2 =>
    cases ht with | rRollList h4 =>
    refine ⟨rfl, ?_⟩
    have h5 := hR h4 h1
    have h7 := rollsText_length chars!"R" rfl ps
    have h8 := thresholdText_length th
    have h9 : msg.length ≤ 60 := Nat.le_trans h2.length (by decide)
    simp only [Result.joinedParts, join, inParens, List.length_append, List.length_cons, List.length_nil]
    omega
  | @rRollList rl ts as th ps gs _ h1 _ h2 =>
    cases ht with | rRollList h4 =>
    refine ⟨rfl, ?_⟩
    have h5 := hR h4 h1
    have h7 := rollsText_length chars!"R" rfl ps
    have h8 := thresholdText_length (some th)
    have h9 := rGroupsText_length gs h2.nonempty
    simp only [Result.joinedParts, join, inParens, List.length_append, List.length_cons, List.length_nil]
    omega
  | @rRollCompRefused rl op _ ts as bs th ps target msg _ h1 _ h2 =>
    cases ht with | rRollComp h4 _ =>
    refine ⟨rfl, ?_⟩
    have h5 := hR h4 h1
    have h7 := rollsText_length chars!"R" rfl ps
    have h8 := thresholdText_length (orTarget th target)
    have h9 : msg.length ≤ 60 := Nat.le_trans h2.length (by decide)
    have h11 := intStr_length target
    have h12 := op.str_length
    simp only [Result.joinedParts, join, inParens, List.length_append, List.length_cons, List.length_nil]
    omega
  | @rRollComp rl op _ ts as bs th th' ps gs target _ h1 _ _ _ h2 =>
    cases ht with | rRollComp h4 _ =>
    refine ⟨rfl, ?_⟩
    have h5 := hR h4 h1
    have h7 := rollsText_length chars!"R" rfl ps
    have h8 := thresholdText_length (some th')
    have h9 := rGroupsText_length gs h2.nonempty
    have h11 := intStr_length target
    have h12 := op.str_length
    have h10 := intStr_length (Int64.ofNat (successes op target (gs.flatten.map Die.value)))
    simp only [Result.joinedParts, join, inParens, List.length_append, List.length_cons, List.length_nil]
    omega
  | @uRollRefused u ts as ms th ps m msg _ h1 _ h2 =>
    cases ht with | uRollExpr h4 =>
    refine ⟨rfl, ?_⟩
    have h5 := hU h4 h1
    have h7 := rollsText_length chars!"U" rfl ps
    have h8 := thresholdText_length th
    have h9 : msg.length ≤ 60 := Nat.le_trans h2.length (by decide)
    have h13 := bonusText_length m
    simp only [Result.joinedParts, join, inParens, List.length_append, List.length_cons, List.length_nil]
    omega
  | @uRollExpr u ts as ms th ps m maxSum gs _ h1 _ _ h2 _ =>
    cases ht with | uRollExpr h4 =>
    refine ⟨rfl, ?_⟩
    have h5 := hU h4 h1
    have h7 := rollsText_length chars!"U" rfl ps
    have h8 := thresholdText_length (some th)
    have h9 := groupsText_length gs m (h2.nonempty hl)
    have h10 := intStr_length (maxSum + m)
    have h11 := intStr_length ((gs.flatten.map Die.value).sum + m)
    have h13 := bonusText_length m
    simp only [Result.joinedParts, join, inParens, List.length_append, List.length_cons, List.length_nil]
    omega
  | @uRollCompRefused u op _ ts as ms bs th ps m target msg _ h1 _ _ h2 =>
    cases ht with | uRollComp h4 _ =>
    refine ⟨rfl, ?_⟩
    have h5 := hU h4 h1
    have h7 := rollsText_length chars!"U" rfl ps
    have h8 := thresholdText_length th
    have h9 : msg.length ≤ 60 := Nat.le_trans h2.length (by decide)
    have h13 := bonusText_length m
    have h11 := intStr_length target
    have h12 := op.str_length
    simp only [Result.joinedParts, join, inParens, List.length_append, List.length_cons, List.length_nil]
    omega
  | @uRollComp u op _ ts as ms bs th ps m target gs _ h1 _ _ _ h2 =>
    cases ht with | uRollComp h4 _ =>
    refine ⟨rfl, ?_⟩
    have h5 := hU h4 h1
    have h7 := rollsText_length chars!"U" rfl ps
    have h8 := thresholdText_length (some th)
    have h9 := groupsText_length gs m (h2.nonempty hl)
    have h10 := intStr_length (Int64.ofNat (successes op target ((groupSums gs).map (fun x => x + m))))
    have h11 := intStr_length target
    have h12 := op.str_length
    have h13 := bonusText_length m
    simp only [Result.joinedParts, join, inParens, List.length_append, List.length_cons, List.length_nil]
    omega

/-- **C111.** Whatever is typed and whatever the dice, the answer is not longer than a multiple of the text and the number of
dice it shows. -/
theorem C111_length (F : DieFeeder σ) (usage input : Str) (f f' : σ) (r : Result)
    (h' : executeCommand F (basicBot usage) input f = (.ok r, f')) :
    r.message.length ≤ 48 * input.length + 44 * r.rolledDice.length + 150 := by
  obtain ⟨body, secret, word, r0, hm, hw, rfl, h⟩ := (C78_answer F usage input f f' r).mp h'
  have h1 : body.length ≤ input.length := by
    clear h' h
    cases hm <;> simp
  have h2 : word.length ≤ body.length := by cases hw <;> simp
  have : ∃ t node ds, t.length ≤ input.length ∧ CommandText t node ∧ Outcome 10000 chars!"DiceBot" node ds r0 := by
    rcases h with ⟨node, ds, ht, ho, -⟩ | ⟨_, _, -, node, ds, ht, ho, -⟩
    · exact ⟨body, node, ds, h1, ht, ho⟩
    · exact ⟨word, node, ds, Nat.le_trans h2 h1, ht, ho⟩
  obtain ⟨t, node, ds, h3, ht, ho⟩ := this
  obtain ⟨h4, h5⟩ := outcome_length (by decide) ht ho
  have h6 : ({ r0 with isSecret := secret } : Result).message = chars!"DiceBot : " ++ r0.joinedParts := by
    simp only [Result.message, h4]; rfl
  rw [h6]
  simp only [List.length_append, List.length_cons, List.length_nil]
  omega

theorem intStr_pos (v : Int64) : 1 ≤ (intStr v).length := by
  have : natStr v.toInt.natAbs ≠ [] := Nat.toDigits_ne_nil
  have := List.length_pos_iff.mpr this
  unfold intStr
  split <;> simp <;> omega

theorem valuesText_pos : ∀ vs : List Int64, 2 * vs.length ≤ (valuesText vs).length + 1
  | [] => by simp
  | [v] => by have := intStr_pos v; simp [valuesText, join]; omega
  | v :: w :: rest => by
    have h1 := intStr_pos v
    have h2 := valuesText_pos (w :: rest)
    simp [valuesText, join] at h2 ⊢
    omega

/-- **C111.** The dice have to be counted: a B roll shows every one of them. -/
theorem C111_dice_shown (E : Evaluator σ) (g : Str) (x y : Int64) (f f' : σ) (r : Result) (log : List Die)
    (h : E.execute g (.bRollList [⟨.int x, .int y⟩]) ⟨f, []⟩ = (.ok r, ⟨f', log⟩)) :
    (r.rolledDice.length : Int) = x.toInt ∧ 2 * r.rolledDice.length ≤ r.message.length := by
  obtain ⟨ds, ho, -⟩ := (C78_execute E g _ f f' r).mp ⟨log, h⟩
  cases ho with | @bRollList _ as ps gs h1 h2 =>
  cases h1 with | @cons _ _ _ _ _ _ _ _ a1 a2 a3 =>
  cases a1
  cases a2
  cases a3
  cases h2 with | @cons _ _ _ ds _ b1 b2 =>
  cases b2
  have := valuesText_pos (ds.map Die.value)
  rw [List.length_map] at this
  obtain ⟨-, -, -, h3, -⟩ := b1
  refine ⟨by simpa using h3, ?_⟩
  simp only [Result.message, Result.joinedParts, join, inParens, List.length_append, List.length_cons, List.length_nil,
    List.flatten_cons, List.flatten_nil, List.append_nil, List.nil_append]
  omega

/-- Thirteen characters and three dice: the bound is 906, the answer has 43. -/
example : ∃ r f', executeCommand queueFeeder (basicBot []) chars!"(1+2)D6-1>=10" [⟨1, 6⟩, ⟨2, 6⟩, ⟨6, 6⟩] = (.ok r, f') ∧
    r.message.length = 43 ∧ r.message.length ≤ 48 * 13 + 44 * 3 + 150 :=
  ⟨_, _, rfl, by decide +kernel, by decide +kernel⟩

/-- `2B6` with 3 and 5. -/
example : ∃ r log, (newEvaluator queueFeeder).execute chars!"DiceBot" (.bRollList [⟨.int 2, .int 6⟩]) ⟨[⟨3, 6⟩, ⟨5, 6⟩], []⟩ =
    (.ok r, ⟨[], log⟩) ∧ 2 * r.rolledDice.length ≤ r.message.length := by
  obtain ⟨r, log, hx⟩ : ∃ r log, (newEvaluator queueFeeder).execute chars!"DiceBot" (.bRollList [⟨.int 2, .int 6⟩])
    ⟨[⟨3, 6⟩, ⟨5, 6⟩], []⟩ = (.ok r, ⟨[], log⟩) := ⟨_, _, rfl⟩
  exact ⟨r, log, hx, (C111_dice_shown _ _ _ _ _ _ _ _ hx).2⟩

end GoBCDice
