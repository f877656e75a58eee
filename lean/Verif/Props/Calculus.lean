import Mathlib.Topology.Algebra.InfiniteSum.ENNReal
import Verif.Props.Rearrange

/-!
# Computing with probabilities (C101)

The probabilities of the totals of a D command from those of its parts: dice, numbers, operators, comparisons.
-/

namespace GoBCDice
open MeasureTheory

theorem tsum_count {α : Type} [DecidableEq α] (A : Multiset α) (g : α → ENNReal) :
    ∑' a, (A.count a : ENNReal) * g a = (A.map g).sum := by
  induction A using Multiset.induction_on with
  | empty => simp
  | cons a A ih =>
    have : ∀ x, (((a ::ₘ A).count x : ℕ) : ENNReal) * g x = (A.count x : ENNReal) * g x + if x = a then g a else 0 := by
      intro x
      rw [Multiset.count_cons]
      split
      · next h => subst h; push_cast; rw [add_mul, one_mul]
      · simp
    rw [tsum_congr this, ENNReal.tsum_add, ih, tsum_ite_eq, Multiset.map_cons, Multiset.sum_cons, add_comm]

theorem count_map_eq {α β : Type} [DecidableEq β] (B : Multiset α) (f : α → β) (t : β) :
    (((B.map f).count t : ℕ) : ENNReal) = (B.map fun b => if f b = t then (1 : ENNReal) else 0).sum := by
  induction B using Multiset.induction_on with
  | empty => simp
  | cons b B ih =>
    rw [Multiset.map_cons, Multiset.count_cons, Multiset.map_cons, Multiset.sum_cons, ← ih]
    by_cases h : f b = t
    · simp [h, add_comm]
    · simp [h, Ne.symm h]

theorem count_both {α β γ : Type} [DecidableEq α] [DecidableEq β] [DecidableEq γ] (f : α → β → γ) (A : Multiset α)
    (B : Multiset β) (t : γ) :
    (((both f A B).count t : ℕ) : ENNReal) =
      ∑' p : {p : α × β | f p.1 p.2 = t}, (A.count p.1.1 : ENNReal) * (B.count p.1.2 : ENNReal) := by
  have h1 : (((both f A B).count t : ℕ) : ENNReal) = (A.map fun a => (((B.map (f a)).count t : ℕ) : ENNReal)).sum := by
    unfold both
    rw [Multiset.count_bind]
    induction A using Multiset.induction_on with
    | empty => simp
    | cons a A ih => rw [Multiset.map_cons, Multiset.sum_cons, Multiset.map_cons, Multiset.sum_cons, Nat.cast_add, ih]
  rw [h1, ← tsum_count, tsum_subtype {p : α × β | f p.1 p.2 = t} (fun p => (A.count p.1 : ENNReal) * (B.count p.2 : ENNReal)),
    ENNReal.tsum_prod']
  apply tsum_congr
  intro a
  rw [count_map_eq, ← tsum_count, ← ENNReal.tsum_mul_left]
  apply tsum_congr
  intro b
  by_cases h : f a b = t
  · simp [Set.indicator, h]
  · simp [Set.indicator, h]

theorem card_both {α β γ : Type} (f : α → β → γ) (A : Multiset α) (B : Multiset β) :
    (both f A B).card = A.card * B.card := by
  unfold both
  rw [Multiset.card_bind]
  simp

variable {usage input body input' body' input'' body'' : Str} {secret secret' secret'' : Bool} {a b c : Expr}

theorem share_mul {m n k l : ℕ} :
    (k : ENNReal) / (m : ENNReal) * ((l : ENNReal) / (n : ENNReal)) = (k * l : ENNReal) / ((m * n : ℕ) : ENNReal) := by
  rw [div_eq_mul_inv, div_eq_mul_inv, div_eq_mul_inv, Nat.cast_mul,
    ENNReal.mul_inv (.inr (ENNReal.natCast_ne_top n)) (.inl (ENNReal.natCast_ne_top m))]
  ring

theorem tsum_div {α : Type} (f : α → ENNReal) (c : ENNReal) : ∑' x, f x / c = (∑' x, f x) / c := by
  simp only [div_eq_mul_inv]
  exact ENNReal.tsum_mul_right

theorem count_map_tsum {α β : Type} [DecidableEq α] [DecidableEq β] (A : Multiset α) (g : α → β) (t : β) :
    (((A.map g).count t : ℕ) : ENNReal) = ∑' s : {s | g s = t}, (A.count s.1 : ENNReal) := by
  rw [count_map_eq, ← tsum_count, tsum_subtype {s | g s = t} (fun s => (A.count s : ENNReal))]
  apply tsum_congr
  intro s
  by_cases h : g s = t
  · simp [Set.indicator, h]
  · simp [Set.indicator, h]

/-- The total of `c` is a function of that of `a`. -/
theorem totals_map {g : Int64 → Int64} (hm : Marked input body secret) (ht : CommandText body (.dRollExpr a))
    (hm' : Marked input' body' secret') (ht' : CommandText body' (.dRollExpr c)) (ha : Ordinary a) (hc : Ordinary c)
    (hg : c.values = a.values.map g) (i j : ℕ) (t : Int64) :
    chance (Totals usage input' j t) = ∑' s : {s | g s = t}, chance (Totals usage input i s.1) := by
  unfold Totals
  rw [total_eq hm' ht' hc, hg, count_map_tsum, Multiset.card_map]
  simp only [total_eq hm ht ha]
  rw [tsum_div]

/-- **C101.** One die: every face is equally likely. -/
theorem C101_die {y : Int64} (hm : Marked input body secret)
    (ht : CommandText body (.dRollExpr (.var .d (.int 1) (.int y)))) (hy : 1 ≤ y) (i : ℕ) (t : Int64) :
    chance (Totals usage input i t) = if 1 ≤ t ∧ t ≤ y then (y.toInt.toNat : ENNReal)⁻¹ else 0 := by
  have hy' : 1 ≤ y.toInt := by simpa [Int64.le_iff_toInt_le] using hy
  have hlt := y.toInt_lt
  unfold Totals
  rw [total_eq hm ht (.roll (by decide) (by decide) hy), values_roll]
  have hf : (allFaces (List.replicate (1 : Int64).toInt.toNat y)).map List.sum =
      (List.range y.toInt.toNat).map fun v => Int64.ofNat (v + 1) := by
    show (allFaces [y]).map List.sum = _
    simp only [allFaces, List.map_cons, List.map_nil]
    rw [← List.map_eq_flatMap, List.map_map]
    apply List.map_congr_left
    intro v _
    exact Int64.add_zero _
  have hnd : ((List.range y.toInt.toNat).map fun v => Int64.ofNat (v + 1)).Nodup := by
    rw [List.nodup_map_iff_inj_on List.nodup_range]
    intro a ha b hb h
    have ha := List.mem_range.mp ha
    have hb := List.mem_range.mp hb
    have := ofNat_inj_of_lt (by omega) (by omega) h
    omega
  have hmem : t ∈ ((List.range y.toInt.toNat).map fun v => Int64.ofNat (v + 1)) ↔ 1 ≤ t ∧ t ≤ y := by
    simp only [List.mem_map, List.mem_range, Int64.le_iff_toInt_le]
    have one : (1 : Int64).toInt = 1 := by decide
    constructor
    · rintro ⟨v, hv, rfl⟩
      rw [Int64.toInt_ofNat_of_lt (by omega), one]
      omega
    · rintro ⟨h1, h2⟩
      refine ⟨t.toInt.toNat - 1, by omega, ?_⟩
      rw [show t.toInt.toNat - 1 + 1 = t.toInt.toNat by omega]
      rw [← Int64.toInt_inj, Int64.toInt_ofNat_of_lt (by omega)]
      omega
  rw [hf, Multiset.coe_count, Multiset.coe_card, List.length_map, List.length_range]
  split
  · next h => rw [List.count_eq_one_of_mem hnd (hmem.mpr h)]; simp
  · next h => rw [List.count_eq_zero_of_not_mem (fun h' => h (hmem.mp h'))]; simp

/-- **C101.** Dice of one kind: `x` dice and `x'` more are independent. -/
theorem C101_more {x x' y : Int64} (hm : Marked input body secret)
    (ht : CommandText body (.dRollExpr (.var .d (.int x) (.int y))))
    (hm' : Marked input' body' secret') (ht' : CommandText body' (.dRollExpr (.var .d (.int x') (.int y))))
    (hm'' : Marked input'' body'' secret'') (ht'' : CommandText body'' (.dRollExpr (.var .d (.int (x + x')) (.int y))))
    (hx : 1 ≤ x) (hx' : 1 ≤ x') (hs : x.toInt + x'.toInt ≤ 2 ^ 44) (hy : 1 ≤ y) (i j k : ℕ) (t : Int64) :
    chance (Totals usage input'' k t) =
      ∑' p : {p : Int64 × Int64 | p.1 + p.2 = t},
        chance (Totals usage input i p.1.1) * chance (Totals usage input' j p.1.2) := by
  have one : (1 : Int64).toInt = 1 := by decide
  have h1 := Int64.le_iff_toInt_le.mp hx
  have h2 := Int64.le_iff_toInt_le.mp hx'
  have e : (x + x').toInt = x.toInt + x'.toInt := by
    rw [Int64.toInt_add, Int.bmod_eq_of_le (by omega) (by omega)]
  have ha : Ordinary (.var .d (.int x) (.int y)) := .roll hx (by omega) hy
  have hb : Ordinary (.var .d (.int x') (.int y)) := .roll hx' (by omega) hy
  unfold Totals
  rw [total_eq hm'' ht'' (.roll (by rw [Int64.le_iff_toInt_le]; omega) (by omega) hy),
    (Rearranged.split hx hx' hs).values, values_bin, count_both, card_both]
  simp only [total_eq hm ht ha, total_eq hm' ht' hb, share_mul]
  rw [tsum_div]
  rfl

/-- **C101.** `a+b`, `a-b`, `a*b`: the totals of the two sides are independent. -/
theorem C101_op {op : BinOp} (hm : Marked input body secret) (ht : CommandText body (.dRollExpr a))
    (hm' : Marked input' body' secret') (ht' : CommandText body' (.dRollExpr b))
    (hm'' : Marked input'' body'' secret'') (ht'' : CommandText body'' (.dRollExpr (.bin op a b)))
    (ha : Ordinary a) (hb : Ordinary b) (i j k : ℕ) (t : Int64) :
    chance (Totals usage input'' k t) =
      ∑' p : {p : Int64 × Int64 | op.value p.1 p.2 = t},
        chance (Totals usage input i p.1.1) * chance (Totals usage input' j p.1.2) := by
  unfold Totals
  rw [total_eq hm'' ht'' (.bin ha hb), values_bin, count_both, card_both]
  simp only [total_eq hm ht ha, total_eq hm' ht' hb, share_mul]
  rw [tsum_div]

/-- **C101.** A number on one side, a sign, a division by a number: the total is computed from that of the rest. -/
theorem C101_number {op : BinOp} {n : Int64} (hm : Marked input body secret) (ht : CommandText body (.dRollExpr a))
    (ha : Ordinary a) (hm' : Marked input' body' secret') (i j : ℕ) (t : Int64) :
    (CommandText body' (.dRollExpr (.bin op a (.int n))) → chance (Totals usage input' j t) =
      ∑' s : {s | op.value s n = t}, chance (Totals usage input i s.1)) ∧
    (CommandText body' (.dRollExpr (.bin op (.int n) a)) → chance (Totals usage input' j t) =
      ∑' s : {s | op.value n s = t}, chance (Totals usage input i s.1)) ∧
    (CommandText body' (.dRollExpr (.neg a)) → chance (Totals usage input' j t) =
      ∑' s : {s : Int64 | -s = t}, chance (Totals usage input i s.1)) ∧
    (∀ m, CommandText body' (.dRollExpr (.div m a (.int n))) → n ≠ 0 → chance (Totals usage input' j t) =
      ∑' s : {s | divValue m s n = t}, chance (Totals usage input i s.1)) := by
  refine ⟨fun ht' => ?_, fun ht' => ?_, fun ht' => ?_, fun m ht' hn => ?_⟩
  · exact totals_map hm ht hm' ht' ha (.bin ha .int) (by rw [values_bin, values_int, both_single_right]) i j t
  · exact totals_map hm ht hm' ht' ha (.bin .int ha) (by rw [values_bin, values_int, both_single_left]) i j t
  · exact totals_map hm ht hm' ht' ha (.neg ha) (values_neg a) i j t
  · exact totals_map hm ht hm' ht' ha (.div ha hn) (by rw [values_div, values_int, both_single_right]) i j t

theorem success_eq {l r : Expr} {op : CmpOp} (hm : Marked input body secret)
    (ht : CommandText body (.dRollComp l op r)) (hl : Ordinary l) (hn : 1 ≤ l.rands) (hr : Ordinary r) (i : ℕ) :
    chance (Answered usage input i fun r => r.success = .success) =
      ((both (fun b a => decide (op.Rel a.toInt b.toInt)) r.values l.values).count true : ENNReal) /
        ((both (fun b a => decide (op.Rel a.toInt b.toInt)) r.values l.values).card : ENNReal) := by
  classical
  rw [C85_favourable hm ht (.dRollComp hl hn hr) rfl]
  unfold Expr.values
  rw [← map_faces_append, ← length_eq_card, countP_eq_count _ (fun vs => decide (op.Rel
    (l.worth (vs.drop r.dice.length)).toInt (r.worth (vs.take r.dice.length)).toInt)) true]
  intro vs hv
  obtain ⟨hval, hsid⟩ := diceShowing_values (length_of_mem_allFaces hv)
  rw [decide_eq_true_iff, decide_eq_true_iff]
  constructor
  · rintro ⟨r0, h, hs⟩
    generalize hds : diceShowing _ vs = ds at h hval hsid
    cases h with | @dRollComp _ l1 l2 _ _ as bs rs v target a0 a1 a2 a3 a4 =>
    have hv := (staged_iff_DVal ..).mp ⟨_, _, a1, a3, a4⟩
    obtain ⟨rfl, -⟩ := hv.dice hl
    rw [List.nil_append] at hval
    obtain ⟨h1, h2⟩ := take_sides (bs := rs) (a2.dice hr)
    rw [hval] at h1 h2
    rw [h1, h2, ← a2.worth hr, ← hv.worth hl]
    by_cases hR : op.Rel v.toInt target.toInt
    · exact hR
    · simp [hR] at hs
  · intro h
    obtain ⟨bs, rs, h0, h1, h2⟩ := List.map_eq_append_iff.mp hsid
    obtain ⟨t1, t2⟩ := take_sides (bs := rs) h1
    rw [h0] at hval ⊢
    rw [hval] at t1 t2
    rw [t1, t2] at h
    obtain ⟨l1, l2, g1, g2, g3⟩ := (staged_iff_DVal ..).mpr (hl.dval rs h2)
    refine ⟨_, .dRollComp (dCompLeft_of hl hn) g1 (hr.ev bs h1) g2 g3, ?_⟩
    simp [h]

/-- **C101.** A comparison succeeds with the probability of the totals for which it holds. -/
theorem C101_target {op : CmpOp} {r : Expr} {n : Int64} (hm : Marked input body secret)
    (ht : CommandText body (.dRollExpr a)) (hm' : Marked input' body' secret')
    (ht' : CommandText body' (.dRollComp a op r)) (ha : Ordinary a) (hn : 1 ≤ a.rands) (hr : Ordinary r)
    (hv : Ev r [] n) (i j : ℕ) :
    chance (Answered usage input' j fun r => r.success = .success) =
      ∑' s : {s : Int64 | op.Rel s.toInt n.toInt}, chance (Totals usage input i s.1) := by
  have hd : r.values = {n} := by
    have h1 : r.dice = [] := (hv.dice hr).symm
    have h2 := hv.worth hr
    unfold Expr.values
    rw [h1, h2]
    rfl
  rw [success_eq hm' ht' ha hn hr, hd, both_single_left, count_map_tsum, Multiset.card_map]
  unfold Totals
  simp only [total_eq hm ht ha]
  rw [tsum_div]
  congr 1
  exact tsum_congr_set_coe (fun s => (a.values.count s : ENNReal)) (by ext; simp)

/-! ### Examples -/

/-- `1D6` shows 4 with probability 1/6. -/
example (usage : Str) (i : ℕ) : chance (Totals usage chars!"1D6" i 4) = (6 : ENNReal)⁻¹ := by
  have := C101_die (usage := usage) (y := 6) (Marked.plain (body := chars!"1D6") (by decide))
    ((C27_language _ _).mp (by decide)) (by decide) i 4
  rw [if_pos (by decide)] at this
  exact_mod_cast this

/-- `3D6` from `1D6` and `2D6`. -/
example (usage : Str) (i j k : ℕ) (t : Int64) : chance (Totals usage chars!"3D6" k t) =
    ∑' p : {p : Int64 × Int64 | p.1 + p.2 = t},
      chance (Totals usage chars!"1D6" i p.1.1) * chance (Totals usage chars!"2D6" j p.1.2) :=
  C101_more (x := 1) (x' := 2) (y := 6) (Marked.plain (by decide)) ((C27_language _ _).mp (by decide))
    (Marked.plain (by decide)) ((C27_language _ _).mp (by decide)) (Marked.plain (by decide))
    ((C27_language _ _).mp (by decide)) (by decide) (by decide) (by decide) (by decide) i j k t

/-- `2D6*1D4` from `2D6` and `1D4`. -/
example (usage : Str) (i j k : ℕ) (t : Int64) : chance (Totals usage chars!"2D6*1D4" k t) =
    ∑' p : {p : Int64 × Int64 | p.1 * p.2 = t},
      chance (Totals usage chars!"2D6" i p.1.1) * chance (Totals usage chars!"1D4" j p.1.2) :=
  C101_op (op := .mul) (a := .var .d (.int 2) (.int 6)) (b := .var .d (.int 1) (.int 4))
    (Marked.plain (by decide)) ((C27_language _ _).mp (by decide)) (Marked.plain (by decide))
    ((C27_language _ _).mp (by decide)) (Marked.plain (by decide)) ((C27_language _ _).mp (by decide))
    (.roll (by decide) (by decide) (by decide)) (.roll (by decide) (by decide) (by decide)) i j k t

/-- `2D6/2R` from `2D6`, and `2D6>=3+4` from `2D6`. -/
example (usage : Str) (i j : ℕ) (t : Int64) :
    (chance (Totals usage chars!"2D6/2R" j t) =
      ∑' s : {s | divValue .round s 2 = t}, chance (Totals usage chars!"2D6" i s.1)) ∧
    chance (Answered usage chars!"2D6>=3+4" j fun r => r.success = .success) =
      ∑' s : {s : Int64 | s.toInt ≥ (7 : Int64).toInt}, chance (Totals usage chars!"2D6" i s.1) :=
  ⟨(C101_number (op := .add) (a := .var .d (.int 2) (.int 6)) (n := 2) (Marked.plain (by decide))
      ((C27_language _ _).mp (by decide)) (.roll (by decide) (by decide) (by decide)) (Marked.plain (by decide)) i j t).2.2.2
      .round ((C27_language _ _).mp (by decide)) (by decide),
    C101_target (op := .ge) (a := .var .d (.int 2) (.int 6)) (r := .bin .add (.int 3) (.int 4)) (n := 7)
      (Marked.plain (by decide)) ((C27_language _ _).mp (by decide)) (Marked.plain (by decide))
      ((C27_language _ _).mp (by decide)) (.roll (by decide) (by decide) (by decide)) (by decide)
      (.bin .int .int) (.add (ds := []) (es := []) (.int 3) (.int 4)) i j⟩

end GoBCDice
