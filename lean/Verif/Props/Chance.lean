import Verif.Lemmas.ChanceDice
import Verif.Lemmas.ChanceSession

/-!
# Probabilities (C85)

With perfect random numbers, how likely is what the program answers?
-/

namespace GoBCDice
open MeasureTheory

/-- **C85.** Rolling `num` dice with `sides` sides: every list of faces has the same probability, at any
time. -/
theorem C85_roll (num sides : Int64) (h1 : 1 ≤ num) (h2 : num.toInt ≤ 2 ^ 44) (h3 : 1 ≤ sides) (i : ℕ)
    (ds : List Die) (hl : (ds.length : Int) = num.toInt) (hd : ∀ d ∈ ds, d.sides = sides ∧ d.Fair) :
    chance {ω | ∃ i', rollDice (mtFeeder (fated ω)) num sides i = (.ok ds, i')} =
      ((sides.toInt.toNat : ENNReal) ^ num.toInt.toNat)⁻¹ := by
  have hr : Rolled num sides ds := by
    refine ⟨h3, h1, ?_, hl, fun d h => (hd d h).1⟩
    rw [Int64.le_iff_toInt_le, maxMakeCap_toInt, cap_eq]
    omega
  have : {ω | ∃ i', rollDice (mtFeeder (fated ω)) num sides i = (.ok ds, i')} = {ω | Dealt ω i ds} := by
    ext ω
    simp only [Set.mem_ofPred_eq]
    constructor
    · rintro ⟨i', h⟩
      exact (draws_fated.mp ((C01_rollDice_ok_iff _ _ _ _ _ _).mp h).2.2.2.2.2).1
    · intro h
      exact ⟨_, (C01_rollDice_ok_iff _ _ _ _ _ _).mpr ⟨hr.1, hr.2.1, hr.2.2.1, hr.2.2.2.1, hr.2.2.2.2, dealt_draws h⟩⟩
  rw [this, chance_dealt, odds_fair (fun d h => (hd d h).2)]
  have hs : (ds.map fun d => d.sides.toInt.toNat) = List.replicate num.toInt.toNat sides.toInt.toNat := by
    have := congrArg (List.map fun s : Int64 => s.toInt.toNat) hr.sides
    rw [List.map_map, List.map_replicate] at this
    exact this
  rw [hs, List.prod_replicate, Nat.cast_pow]

/-- **C85.** Executing a command: the probability of a result is the sum of the probabilities of the
lists of dice that give it. -/
theorem C85_execute (g : Str) (node : Node) (i : ℕ) (E : Result → Prop) :
    chance {ω | ∃ r s', (newEvaluator (mtFeeder (fated ω))).execute g node ⟨i, []⟩ = (.ok r, s') ∧ E r} =
      ∑' ds : {ds | ∃ r, Outcome 10000 g node ds r ∧ E r}, odds ds.1 := by
  refine Eq.trans ?_ (chance_some (outcome_separate g node E) i)
  congr 1
  ext ω
  simp only [Set.mem_ofPred_eq, diceGiving]
  constructor
  · rintro ⟨r, s', h, hE⟩
    obtain ⟨ds, hO, hd, -⟩ := (execute_ok_iff _ _ _ _ _ _).mp h
    rw [limit_eq] at hO
    exact ⟨ds, ⟨r, hO, hE⟩, (draws_fated.mp hd).1⟩
  · rintro ⟨ds, ⟨r, hO, hE⟩, hd⟩
    exact ⟨r, ⟨i + ds.length, ds⟩, (execute_ok_iff _ _ _ _ _ _).mpr ⟨ds, by rw [limit_eq]; exact hO, dealt_draws hd, rfl⟩, hE⟩

variable {usage input body : Str} {secret : Bool} {node : Node}

/-- **C85.** The same for the answer to an ordinary command, secret or not. -/
theorem C85_answer (hm : Marked input body secret) (ht : CommandText body node) (ho : OrdinaryCommand node)
    (i : ℕ) (E : Result → Prop) :
    chance (Answered usage input i E) =
      ∑' ds : {ds | ∃ r, Outcome 10000 chars!"DiceBot" node ds r ∧ E { r with isSecret := secret }}, odds ds.1 := by
  rw [answered_iff hm ht ho i E]
  exact chance_some (outcome_separate _ _ _) i

open Classical in
/-- **C85.** The answer to an ordinary command without rerolls: favourable combinations of faces divided by
all combinations of faces. -/
theorem C85_favourable (hm : Marked input body secret) (ht : CommandText body node) (ho : OrdinaryCommand node)
    {ss : List Int64} (hs : node.dice = some ss) (i : ℕ) (E : Result → Prop) :
    chance (Answered usage input i E) =
      ((allFaces ss).countP (fun vs => ∃ r, Outcome 10000 chars!"DiceBot" node (diceShowing ss vs) r ∧
        E { r with isSecret := secret }) : ENNReal) / ((allFaces ss).length : ENNReal) := by
  rw [answered_iff hm ht ho i E, allFaces_length]
  refine Eq.trans ?_ (chance_count ss (fun ds => ∃ r, Outcome 10000 chars!"DiceBot" node ds r ∧
    E { r with isSecret := secret }) i)
  congr 1
  ext ω
  simp only [Set.mem_ofPred_eq, diceGiving]
  constructor
  · rintro ⟨ds, ⟨r, h1, h2⟩, h3⟩; exact ⟨ds, h1.dice ho hs, ⟨r, h1, h2⟩, h3⟩
  · rintro ⟨ds, -, h1, h2⟩; exact ⟨ds, h1, h2⟩

/-- **C85.** An ordinary command is answered with certainty. -/
theorem C85_certain (hm : Marked input body secret) (ht : CommandText body node) (ho : OrdinaryCommand node)
    (i : ℕ) : chance (Answered usage input i fun _ => True) = 1 := by
  have : Answered usage input i (fun _ => True) = Set.univ := by
    ext ω
    obtain ⟨r, i', h, -⟩ := C80_answer (mtFeeder (fated ω)) (mt_generous _ (fated_lawful ω)) usage input body
      secret node hm ht ho i
    simp [Answered, h]
  rw [this, measure_univ]

/-- **C85.** Whatever two groups of people type one after the other: the answers to the ones are independent
of the answers to the others, and of what was drawn before. -/
theorem C85_independent (usage : Str) (first later : List Bytes) (A B : Set (List (Out Result))) (i j k : ℕ) :
    chance {ω | (answersAlone (mtFeeder (fated ω)) (basicByteBot usage) first i).1 ∈ A ∧
        (answersAlone (mtFeeder (fated ω)) (basicByteBot usage) later
          (answersAlone (mtFeeder (fated ω)) (basicByteBot usage) first i).2).1 ∈ B} =
      chance {ω | (answersAlone (mtFeeder (fated ω)) (basicByteBot usage) first j).1 ∈ A} *
      chance {ω | (answersAlone (mtFeeder (fated ω)) (basicByteBot usage) later k).1 ∈ B} := by
  rw [chance_answers_then, chance_answers, chance_answers]

/-! ### Particular commands -/

theorem countP_range_getElem? {α : Type} [BEq α] [LawfulBEq α] (l : List α) (a : α) :
    (List.range l.length).countP (fun v => l[v]? == some a) = l.count a := by
  have h : (List.range l.length).map (fun v => l[v]?) = l.map some := by
    apply List.ext_getElem <;> simp
  have : (l.map some).count (some a) = l.count a := List.count_map_of_injective _ _ (Option.some_injective _) _
  rw [← this, ← h, List.count, List.countP_map]
  rfl

/-- Counting by a test of the faces. -/
theorem favourable_of (hm : Marked input body secret) (ht : CommandText body node) (ho : OrdinaryCommand node)
    {ss : List Int64} (hs : node.dice = some ss) (i : ℕ) {E : Result → Prop} (q : List Int64 → Bool)
    (hq : ∀ vs ∈ allFaces ss, (∃ r, Outcome 10000 chars!"DiceBot" node (diceShowing ss vs) r ∧
      E { r with isSecret := secret }) ↔ q vs = true) :
    chance (Answered usage input i E) = ((allFaces ss).countP q : ENNReal) / ((allFaces ss).length : ENNReal) := by
  rw [C85_favourable hm ht ho hs i]
  congr 2
  apply List.countP_congr
  intro vs hvs
  exact (@decide_eq_true_iff _ (Classical.propDecidable _)).trans (hq vs hvs)

/-- **C85.** A choice: every item is chosen with the same probability. -/
theorem C85_choice {items : List Str} (hm : Marked input body secret) (ht : CommandText body (.choice items))
    (h0 : items ≠ []) (h63 : items.length < 2 ^ 63) (i : ℕ) (a : Str) :
    chance (Answered usage input i fun r => r.parts[1]? = some a) =
      (items.count a : ENNReal) / (items.length : ENNReal) := by
  have hl : (Int64.ofNat items.length).toInt.toNat = items.length := by
    rw [Int64.toInt_ofNat_of_lt h63, Int.toNat_natCast]
  have hpos : 0 < items.length := List.length_pos_iff.mpr h0
  have hval : ∀ v, v < items.length → (Int64.ofNat (v + 1) - 1).toInt.toNat = v := by
    intro v hv
    rw [Int64.toInt_sub, Int64.toInt_ofNat_of_lt (by omega)]
    show ((((v + 1 : ℕ) : Int) - 1).bmod (2 ^ 64)).toNat = v
    rw [Int.bmod_eq_of_le (by omega) (by omega)]
    omega
  have hf : allFaces [Int64.ofNat items.length] = (List.range items.length).map fun v => [Int64.ofNat (v + 1)] := by
    simp only [allFaces, List.map_cons, List.map_nil, hl]
    rw [← List.map_eq_flatMap]
  rw [favourable_of hm ht (.choice h0 h63) rfl i (fun vs => items[(vs.headD 0 - 1).toInt.toNat]? == some a), hf,
    List.length_map, List.length_range]
  · congr 2
    rw [← countP_range_getElem? items a, List.countP_map]
    apply List.countP_congr
    intro v hv
    simp only [Function.comp, List.headD_cons, hval v (List.mem_range.mp hv)]
  rw [hf]
  intro vs hvs
  obtain ⟨v, hv, rfl⟩ := List.mem_map.mp hvs
  have hv := List.mem_range.mp hv
  have hval := hval v hv
  have h0v : 0 ≤ Int64.ofNat (v + 1) - 1 := by
    rw [Int64.le_iff_toInt_le, Int64.toInt_sub, Int64.toInt_ofNat_of_lt (by omega)]
    show 0 ≤ (((v + 1 : ℕ) : Int) - 1).bmod (2 ^ 64)
    rw [Int.bmod_eq_of_le (by omega) (by omega)]
    omega
  simp only [beq_iff_eq, List.headD_cons, hval, diceShowing, List.zipWith_cons_cons, List.zipWith_nil_left]
  constructor
  · rintro ⟨r, h, hr⟩
    cases h with | choice h1 h2 h3 =>
    simp only [hval] at h3
    simpa [h3] using hr
  · intro h
    refine ⟨_, .choice (d := ⟨Int64.ofNat (v + 1), Int64.ofNat items.length⟩) (item := a) ?_ h0v
      (by rw [hval]; exact h), rfl⟩
    refine ⟨?_, by decide, by decide, rfl, by simp⟩
    rw [Int64.le_iff_toInt_le, Int64.toInt_ofNat_of_lt h63]
    show 1 ≤ ((items.length : ℕ) : Int)
    omega

theorem allFaces_replicate_length (x y : Int64) :
    (allFaces (List.replicate x.toInt.toNat y)).length = y.toInt.toNat ^ x.toInt.toNat := by
  rw [allFaces_length, List.map_replicate, List.prod_replicate]

open Classical in
/-- **C85.** A sum of rolls with literal operands, with arithmetic: how likely is the total `t`? -/
theorem C85_expression {e : Expr} (hm : Marked input body secret) (ht : CommandText body (.dRollExpr e))
    (ho : Ordinary e) (i : ℕ) (t : Int64) :
    chance (Answered usage input i fun r => r.parts[2]? = some (intStr t)) =
      ((allFaces e.dice).countP (fun vs => DVal e [] (diceShowing e.dice vs) t) : ENNReal) /
        ((allFaces e.dice).length : ENNReal) := by
  refine favourable_of hm ht (.dRollExpr ho) rfl i _ fun vs hvs => ?_
  rw [decide_eq_true_iff]
  constructor
  · rintro ⟨r, h, hr⟩
    generalize hds : diceShowing e.dice vs = ds at h ⊢
    cases h with | @dRollExpr _ e1 e2 as rs v h1 h2 h3 =>
    have hv := (staged_iff_DVal ..).mp ⟨_, _, h1, h2, h3⟩
    obtain ⟨rfl, -⟩ := hv.dice ho
    have hr : intStr v = intStr t := by simpa using hr
    rw [intStr_inj hr] at hv
    exact hv
  · intro h
    obtain ⟨e1, e2, h1, h2, h3⟩ := (staged_iff_DVal ..).mpr h
    exact ⟨_, .dRollExpr h1 h2 h3, rfl⟩

/-- **C85.** `xDy`: how likely is the total `t`? -/
theorem C85_total {x y : Int64} (hm : Marked input body secret)
    (ht : CommandText body (.dRollExpr (.var .d (.int x) (.int y)))) (h1 : 1 ≤ x) (h2 : x.toInt ≤ 2 ^ 44)
    (h3 : 1 ≤ y) (i : ℕ) (t : Int64) :
    chance (Answered usage input i fun r => r.parts[2]? = some (intStr t)) =
      ((allFaces (List.replicate x.toInt.toNat y)).countP (fun vs => vs.sum = t) : ENNReal) /
        (y.toInt.toNat ^ x.toInt.toNat : ℕ) := by
  classical
  rw [C85_expression hm ht (.roll h1 h2 h3) i t, ← allFaces_replicate_length]
  congr 2
  apply List.countP_congr
  intro vs hvs
  simp only [decide_eq_true_eq]
  obtain ⟨hl, -⟩ := mem_allFaces.mp hvs
  obtain ⟨hval, hsid⟩ := diceShowing_values hl
  constructor
  · intro h
    generalize hds : diceShowing _ vs = ds at h hval
    generalize ([] : List Die) = as at h
    cases h with | roll a b c =>
    rw [hval]
  · rintro rfl
    have := DVal.roll (as := []) (bs := []) (Ev.int x) (Ev.int y) (rolled_of h1 h2 h3 hsid)
    rw [hval] at this
    exact this

/-- **C85.** `xDy` compared with a number: how likely is success? -/
theorem C85_success {x y t : Int64} {op : CmpOp} (hm : Marked input body secret)
    (ht : CommandText body (.dRollComp (.var .d (.int x) (.int y)) op (.int t))) (h1 : 1 ≤ x)
    (h2 : x.toInt ≤ 2 ^ 44) (h3 : 1 ≤ y) (i : ℕ) :
    chance (Answered usage input i fun r => r.success = .success) =
      ((allFaces (List.replicate x.toInt.toNat y)).countP (fun vs => op.Rel vs.sum.toInt t.toInt) : ENNReal) /
        (y.toInt.toNat ^ x.toInt.toNat : ℕ) := by
  rw [← allFaces_replicate_length]
  refine favourable_of hm ht (.dRollComp (.roll h1 h2 h3) (by simp [Expr.rands]) .int) rfl i _ fun vs hvs => ?_
  rw [decide_eq_true_iff]
  obtain ⟨hl, -⟩ := mem_allFaces.mp hvs
  obtain ⟨hval, hsid⟩ := diceShowing_values hl
  constructor
  · rintro ⟨r, h, hr⟩
    generalize hds : diceShowing _ vs = ds at h hval
    cases h with | dRollComp h0 h1 hb h2 h3 =>
    have hv := (staged_iff_DVal ..).mp ⟨_, _, h1, h2, h3⟩
    cases hb
    cases hv with | roll a b c =>
    cases a; cases b
    simp only [List.append_nil, List.nil_append] at hval
    rw [hval] at hr
    by_cases hR : op.Rel vs.sum.toInt t.toInt
    · exact hR
    · simp [hR] at hr
  · intro h
    have hv := DVal.roll (as := []) (bs := []) (Ev.int x) (Ev.int y) (rolled_of h1 h2 h3 hsid)
    rw [hval] at hv
    obtain ⟨e1, e2, g1, g2, g3⟩ := (staged_iff_DVal ..).mpr hv
    refine ⟨_, .dRollComp (l := .var .d (.int x) (.int y)) (bs := []) trivial g1 (.int t) g2 g3, ?_⟩
    simp [h]

theorem facesPassing_rel (op : CmpOp) (t y : Int64) :
    facesPassing (fun v => op.Rel v.toInt t.toInt) y = winningFaces op t.toInt y.toInt.toNat := by
  unfold facesPassing winningFaces
  apply List.countP_congr
  intro v hv
  have := List.mem_range.mp hv
  have hlt := y.toInt_lt
  dsimp only
  rw [Int64.toInt_ofNat_of_lt (by omega)]
  push_cast
  rfl

theorem ofNat_inj_of_lt {a b : ℕ} (ha : a < 2 ^ 63) (hb : b < 2 ^ 63) (h : Int64.ofNat a = Int64.ofNat b) : a = b := by
  have := congrArg Int64.toInt h
  rw [Int64.toInt_ofNat_of_lt ha, Int64.toInt_ofNat_of_lt hb] at this
  omega

/-- **C85.** `xBy` compared with a number: the number of successes has the binomial distribution. -/
theorem C85_binomial {x y t : Int64} {op : CmpOp} (hm : Marked input body secret)
    (ht : CommandText body (.bRollComp [⟨.int x, .int y⟩] op (.int t))) (h1 : 1 ≤ x) (h2 : x.toInt ≤ 2 ^ 44)
    (h3 : 1 ≤ y) (i k : ℕ) (hk : k < 2 ^ 63) :
    chance (Answered usage input i fun r => r.parts[2]? = some (chars!"成功数" ++ intStr (Int64.ofNat k))) =
      (x.toInt.toNat.choose k * winningFaces op t.toInt y.toInt.toNat ^ k *
        (y.toInt.toNat - winningFaces op t.toInt y.toInt.toNat) ^ (x.toInt.toNat - k) : ℕ) /
        (y.toInt.toNat ^ x.toInt.toNat : ℕ) := by
  have ho : OrdinaryCommand (.bRollComp [⟨.int x, .int y⟩] op (.int t)) := by
    refine .bRollComp ?_ .int
    intro r hr
    rw [List.mem_singleton.mp hr]
    exact .mk h1 h2 h3
  have hs : Node.dice (.bRollComp [⟨.int x, .int y⟩] op (.int t)) = some (List.replicate x.toInt.toNat y) := by
    simp [Node.dice, Expr.dice, Roll.dice]
  rw [← facesPassing_rel, ← count_passing, ← allFaces_replicate_length]
  refine favourable_of hm ht ho hs i _ fun vs hvs => ?_
  rw [decide_eq_true_iff]
  obtain ⟨hl, -⟩ := mem_allFaces.mp hvs
  obtain ⟨hval, hsid⟩ := diceShowing_values hl
  have hlen : vs.length < 2 ^ 63 := by
    rw [hl, List.length_replicate]
    omega
  have hfl : (vs.filter (fun v => decide (op.Rel v.toInt t.toInt))).length < 2 ^ 63 :=
    lt_of_le_of_lt (List.length_filter_le ..) hlen
  constructor
  · rintro ⟨r, h, hr⟩
    generalize hds : diceShowing _ vs = ds at h hval
    cases h with | @bRollComp _ _ _ as bs ps gs target a1 a2 a3 =>
    cases a2
    obtain ⟨rfl, -⟩ := a1.literal (by intro r hr; rw [List.mem_singleton.mp hr]; exact .mk h1 h2 h3)
    simp only [List.append_nil, List.nil_append] at hval
    rw [hval] at hr
    have : intStr (Int64.ofNat (successes op t vs)) = intStr (Int64.ofNat k) := by simpa using hr
    exact ofNat_inj_of_lt hfl hk (intStr_inj this)
  · intro h
    have := Outcome.bRollComp (limit := 10000) (gameID := chars!"DiceBot") (op := op) (bs := []) (gs := [diceShowing _ vs])
      (Args.cons (r := ⟨.int x, .int y⟩) (Ev.int x) (Ev.int y) .nil) (Ev.int t)
      (.cons (rolled_of h1 h2 h3 hsid) .nil)
    rw [show ([] ++ [] ++ [] ++ [] ++ [diceShowing (List.replicate x.toInt.toNat y) vs].flatten) = diceShowing (List.replicate x.toInt.toNat y) vs by simp] at this
    refine ⟨_, this, ?_⟩
    simp only [List.flatten_cons, List.flatten_nil, List.append_nil, hval, successes, h]
    rfl

/-- The dice of `1Uy[th]`. -/
theorem diceGiving_one {y th : Int64} (h3 : 1 ≤ y) (h4 : 2 ≤ th) {E : Result → Prop} {ds : List Die} {Q : Prop}
    (hE : ∀ r : Result, r.rolledDice = ds → (E r ↔ Q)) :
    ds ∈ diceGiving chars!"DiceBot" (.uRollExpr ⟨⟨[⟨.int 1, .int y⟩], some (.int th)⟩, none⟩) E ↔
      UChain y th 10000 ds ∧ Q := by
  have ho : ∀ r ∈ [(⟨.int 1, .int y⟩ : Roll)], OrdinaryRoll r := by
    intro r hr; rw [List.mem_singleton.mp hr]; exact .mk (by decide) (by decide) h3
  have h4' : ¬ th < 2 := by rw [Int64.not_lt]; exact h4
  constructor
  · rintro ⟨r, h, hr⟩
    have hstrong : UChain y th 10000 ds ∧ r.rolledDice = ds := by
      cases h with
      | uRollRefused a1 a2 a3 a4 =>
        cases a1 with | given a1 =>
        cases a1
        cases a4 with | small a4 => exact absurd a4 h4'
      | @uRollExpr _ ts as ms th ps m maxSum gs a1 a2 a3 a4 a5 a6 =>
        cases a1 with | given a1 =>
        cases a1
        cases a3
        cases a2 with | cons b1 b2 b3 =>
        cases b1; cases b2; cases b3
        generalize hgs : gs = gs' at a5
        cases a5 with | @cons _ _ gs1 _ c1 c2 =>
        cases c2
        obtain ⟨-, -, -, c3, c4⟩ := c1
        have hl : gs1.length = 1 := by
          have : (gs1.length : Int) = 1 := c3
          omega
        obtain ⟨g, rfl⟩ := List.length_eq_one_iff.mp hl
        simp only [List.append_nil] at hgs
        subst hgs
        simpa using c4
    exact ⟨hstrong.1, (hE r hstrong.2).mp hr⟩
  · rintro ⟨hc, hQ⟩
    have := Outcome.uRollExpr (limit := 10000) (gameID := chars!"DiceBot")
      (u := ⟨⟨[⟨.int 1, .int y⟩], some (.int th)⟩, none⟩) (gs := [ds]) (maxSum := (ds.map Die.value).sum) (ms := [])
      (.given (Ev.int th)) (Args.cons (r := ⟨.int 1, .int y⟩) (Ev.int 1) (Ev.int y) .nil) .absent h4
      (.cons (gs := [ds]) ⟨h3, show (1 : Int64) ≤ 1 by decide, show (1 : Int64) ≤ maxMakeCap by decide, rfl, by simpa using hc⟩ .nil)
      (.inr ⟨by simp [groupSums], by simp [groupSums]⟩)
    rw [show ([] ++ ([] ++ [] ++ []) ++ [] ++ [ds].flatten) = ds by simp] at this
    exact ⟨_, this, (hE _ rfl).mpr hQ⟩

theorem ordinary_one {y th : Int64} (h3 : 1 ≤ y) :
    OrdinaryCommand (.uRollExpr ⟨⟨[⟨.int 1, .int y⟩], some (.int th)⟩, none⟩) := by
  refine .uRollExpr ?_ ?_ ?_
  · intro r hr; rw [List.mem_singleton.mp hr]; exact .mk (by decide) (by decide) h3
  · intro e he; cases he; exact .int
  · intro b hb; cases hb

/-- **C85.** `1Uy[th]` rerolls as long as the die shows at least `th`: exactly `k` rerolls, and then no more,
have the geometric probability. -/
theorem C85_chain {y th : Int64} (hm : Marked input body secret)
    (ht : CommandText body (.uRollExpr ⟨⟨[⟨.int 1, .int y⟩], some (.int th)⟩, none⟩)) (h3 : 1 ≤ y) (h4 : 2 ≤ th)
    (i k : ℕ) (hk : k + 1 < 10000) :
    chance (Answered usage input i fun r => r.rolledDice.length = k + 1) =
      (winningFaces .ge th.toInt y.toInt.toNat ^ k *
        (y.toInt.toNat - winningFaces .ge th.toInt y.toInt.toNat) : ℕ) / (y.toInt.toNat ^ (k + 1) : ℕ) := by
  rw [answered_iff hm ht (ordinary_one h3) i, ← facesPassing_rel, ← count_chain]
  have hc := chance_count (List.replicate (k + 1) y) (fun ds =>
    ((ds.map Die.value).dropLast.all (fun v => decide (CmpOp.ge.Rel v.toInt th.toInt)) &&
      ((ds.map Die.value).getLast?.all fun v => !decide (CmpOp.ge.Rel v.toInt th.toInt))) = true) i
  rw [List.map_replicate, List.prod_replicate] at hc
  refine Eq.trans ?_ (hc.trans ?_)
  · congr 1
    ext ω
    simp only [Set.mem_ofPred_eq]
    constructor
    · rintro ⟨ds, h, hd⟩
      obtain ⟨hch, hl⟩ := (diceGiving_one h3 h4 (Q := ds.length = k + 1) (by intro r hr; simp [hr])).mp h
      refine ⟨ds, ?_, ?_, hd⟩
      · rw [List.eq_replicate_iff]
        refine ⟨by rw [List.length_map]; exact hl, ?_⟩
        intro b hb
        obtain ⟨d, hd, rfl⟩ := List.mem_map.mp hb
        exact hch.sides_eq d hd
      · rw [Bool.and_eq_true, List.all_eq_true]
        constructor
        · intro v hv
          rw [← List.map_dropLast] at hv
          obtain ⟨d, hd, rfl⟩ := List.mem_map.mp hv
          have := hch.init_ge d hd
          rw [Int64.le_iff_toInt_le] at this
          exact decide_eq_true this
        · rcases hch.last with h | ⟨d, h, h'⟩
          · omega
          · rw [Int64.lt_iff_toInt_lt] at h'
            simp [List.getLast?_map, h, CmpOp.Rel, h']
    · rintro ⟨ds, h1, h2, hd⟩
      rw [List.eq_replicate_iff, List.length_map] at h1
      obtain ⟨h1, h1'⟩ := h1
      rw [Bool.and_eq_true, List.all_eq_true] at h2
      obtain ⟨h2, h5⟩ := h2
      refine ⟨ds, (diceGiving_one h3 h4 (Q := ds.length = k + 1) (by intro r hr; simp [hr])).mpr
        ⟨⟨h3, fun d hd => h1' _ (List.mem_map.mpr ⟨d, hd, rfl⟩), by omega, ?_, .inr ?_⟩, h1⟩, hd⟩
      · intro d hd
        have := h2 d.value (by rw [← List.map_dropLast]; exact List.mem_map.mpr ⟨d, hd, rfl⟩)
        rw [Int64.le_iff_toInt_le]
        simpa [CmpOp.Rel] using this
      · have hne : ds ≠ [] := by intro h; simp [h] at h1
        refine ⟨ds.getLast hne, List.getLast?_eq_some_getLast hne, ?_⟩
        rw [List.getLast?_map, List.getLast?_eq_some_getLast hne] at h5
        rw [Int64.lt_iff_toInt_lt]
        simpa [CmpOp.Rel] using h5
  · congr 2
    apply List.countP_congr
    intro vs hvs
    rw [(diceShowing_values (mem_allFaces.mp hvs).1).1, decide_eq_true_iff]

/-- The number of ways for all of `k` equal dice to pass a test. -/
theorem count_all (p : Int64 → Bool) (s : Int64) (k : ℕ) :
    (allFaces (List.replicate k s)).countP (fun vs => vs.all p) = facesPassing p s ^ k := by
  have h := count_passing p s k k
  rw [Nat.choose_self, one_mul, Nat.sub_self, pow_zero, mul_one] at h
  rw [← h]
  apply List.countP_congr
  intro vs hvs
  have hl := (mem_allFaces.mp hvs).1
  rw [List.length_replicate] at hl
  rw [decide_eq_true_iff, ← hl, List.length_filter_eq_length_iff, List.all_eq_true]

/-- **C85.** `1Uy[th]`: at least `k` rerolls.  There are never more than 9999. -/
theorem C85_chain_atLeast {y th : Int64} (hm : Marked input body secret)
    (ht : CommandText body (.uRollExpr ⟨⟨[⟨.int 1, .int y⟩], some (.int th)⟩, none⟩)) (h3 : 1 ≤ y) (h4 : 2 ≤ th)
    (i k : ℕ) (hk : k < 10000) :
    chance (Answered usage input i fun r => k < r.rolledDice.length) =
      (winningFaces .ge th.toInt y.toInt.toNat ^ k : ℕ) / (y.toInt.toNat ^ k : ℕ) := by
  rw [answered_iff hm ht (ordinary_one h3) i, ← facesPassing_rel, ← count_all]
  have hc := chance_count (List.replicate k y) (fun ds =>
    (ds.map Die.value).all (fun v => decide (CmpOp.ge.Rel v.toInt th.toInt)) = true) i
  rw [List.map_replicate, List.prod_replicate] at hc
  refine Eq.trans ?_ (hc.trans ?_)
  · congr 1
    ext ω
    simp only [Set.mem_ofPred_eq]
    constructor
    · rintro ⟨ds, h, hd⟩
      obtain ⟨hch, hl⟩ := (diceGiving_one h3 h4 (Q := k < ds.length) (by intro r hr; simp [hr])).mp h
      have hsplit := Dealt.append.mp (show Dealt ω i (ds.take k ++ ds.drop k) by rw [List.take_append_drop]; exact hd)
      refine ⟨ds.take k, ?_, ?_, hsplit.1⟩
      · rw [List.eq_replicate_iff]
        refine ⟨by rw [List.length_map, List.length_take]; omega, ?_⟩
        intro b hb
        obtain ⟨d, hd, rfl⟩ := List.mem_map.mp hb
        exact hch.sides_eq d (List.mem_of_mem_take hd)
      · rw [List.all_eq_true]
        intro v hv
        obtain ⟨d, hd, rfl⟩ := List.mem_map.mp hv
        have : d ∈ ds.dropLast := by
          rw [List.dropLast_eq_take]
          exact (List.take_subset_take_left ds (by omega)) hd
        have := hch.init_ge d this
        rw [Int64.le_iff_toInt_le] at this
        exact decide_eq_true this
    · rintro ⟨es, h1, h2, hd⟩
      rw [List.eq_replicate_iff, List.length_map] at h1
      obtain ⟨h1, h1'⟩ := h1
      rw [List.all_eq_true] at h2
      have hex : ω ∈ Answered usage input i (fun _ => True) := by
        obtain ⟨r, i', h, -⟩ := C80_answer (mtFeeder (fated ω)) (mt_generous _ (fated_lawful ω)) usage input body
          secret _ hm ht (ordinary_one h3) i
        exact ⟨r, i', h, trivial⟩
      rw [answered_iff hm ht (ordinary_one h3) i] at hex
      obtain ⟨ds, h, hds⟩ := hex
      obtain ⟨hch, -⟩ := (diceGiving_one h3 h4 (Q := True) (by simp)).mp h
      refine ⟨ds, (diceGiving_one h3 h4 (Q := k < ds.length) (by intro r hr; simp [hr])).mpr ⟨hch, ?_⟩, hds⟩
      rcases hch.last with h | ⟨d, h, h'⟩
      · omega
      · by_contra hlt
        rw [List.getLast?_eq_getElem?] at h
        obtain ⟨hi, h⟩ := List.getElem?_eq_some_iff.mp h
        have e1 := (dealt_iff.mp hds _ hi).2
        have e2 := (dealt_iff.mp hd (ds.length - 1) (by omega)).2
        have s1 : (ds[ds.length - 1]).sides = y := hch.sides_eq _ (List.getElem_mem _)
        have s2 : (es[ds.length - 1]'(by omega)).sides = y := h1' _ (List.mem_map.mpr ⟨_, List.getElem_mem _, rfl⟩)
        rw [s1] at e1
        rw [s2] at e2
        have := h2 (es[ds.length - 1]'(by omega)).value (List.mem_map.mpr ⟨_, List.getElem_mem _, rfl⟩)
        rw [e2, ← e1, h] at this
        rw [Int64.lt_iff_toInt_lt] at h'
        have := of_decide_eq_true this
        simp only [CmpOp.Rel] at this
        omega
  · congr 2
    apply List.countP_congr
    intro vs hvs
    rw [(diceShowing_values (mem_allFaces.mp hvs).1).1, decide_eq_true_iff]

/-! ### Examples -/

section Examples
set_option maxRecDepth 20000

/-- `2D6` totals 7 in 6 of 36 cases. -/
example (usage : Str) (i : ℕ) :
    chance (Answered usage chars!"s2D6" i fun r => r.parts[2]? = some chars!"7") = 6 / 36 := by
  have h := C85_total (usage := usage) (x := 2) (y := 6) (Marked.secret (c := 's') (body := chars!"2D6") (.inr rfl))
    ((C27_language _ _).mp (by decide)) (by decide) (by decide) (by decide) i 7
  have c : (allFaces (List.replicate (2 : Int64).toInt.toNat 6)).countP (fun vs => vs.sum = 7) = 6 := by decide
  have d : (6 : Int64).toInt.toNat ^ (2 : Int64).toInt.toNat = 36 := by decide
  rw [c, d] at h
  rw [show intStr 7 = chars!"7" by decide] at h
  exact_mod_cast h

/-- `2D6>=7` succeeds in 21 of 36 cases. -/
example (usage : Str) (i : ℕ) :
    chance (Answered usage chars!"2D6>=7" i fun r => r.success = .success) = 21 / 36 := by
  have h := C85_success (usage := usage) (x := 2) (y := 6) (op := .ge) (t := 7)
    (Marked.plain (body := chars!"2D6>=7") (by decide))
    ((C27_language _ _).mp (by decide)) (by decide) (by decide) (by decide) i
  have c : (allFaces (List.replicate (2 : Int64).toInt.toNat 6)).countP
      (fun vs => CmpOp.ge.Rel vs.sum.toInt (7 : Int64).toInt) = 21 := by decide
  have d : (6 : Int64).toInt.toNat ^ (2 : Int64).toInt.toNat = 36 := by decide
  rw [c, d] at h
  exact_mod_cast h

/-- `4B6>=5`: two successes in 6 · 4 · 16 of 1296 cases. -/
example (usage : Str) (i : ℕ) :
    chance (Answered usage chars!"4B6>=5" i fun r => r.parts[2]? = some chars!"成功数2") = 384 / 1296 := by
  have h := C85_binomial (usage := usage) (x := 4) (y := 6) (op := .ge) (t := 5)
    (Marked.plain (body := chars!"4B6>=5") (by decide))
    ((C27_language _ _).mp (by decide)) (by decide) (by decide) (by decide) i 2 (by decide)
  have c : (4 : Int64).toInt.toNat.choose 2 * winningFaces .ge (5 : Int64).toInt (6 : Int64).toInt.toNat ^ 2 *
        ((6 : Int64).toInt.toNat - winningFaces .ge (5 : Int64).toInt (6 : Int64).toInt.toNat) ^
          ((4 : Int64).toInt.toNat - 2) = 384 := by decide
  have d : (6 : Int64).toInt.toNat ^ (4 : Int64).toInt.toNat = 1296 := by decide
  rw [c, d] at h
  rw [show chars!"成功数" ++ intStr (Int64.ofNat 2) = chars!"成功数2" by decide] at h
  exact_mod_cast h

/-- `1U6[6]` rolls three dice with probability 1/6 · 1/6 · 5/6. -/
example (usage : Str) (i : ℕ) :
    chance (Answered usage chars!"1U6[6]" i fun r => r.rolledDice.length = 3) = 5 / 216 := by
  have h := C85_chain (usage := usage) (y := 6) (th := 6)
    (Marked.plain (body := chars!"1U6[6]") (by decide))
    ((C27_language _ _).mp (by decide)) (by decide) (by decide) i 2 (by decide)
  have c : winningFaces .ge (6 : Int64).toInt (6 : Int64).toInt.toNat ^ 2 *
        ((6 : Int64).toInt.toNat - winningFaces .ge (6 : Int64).toInt (6 : Int64).toInt.toNat) = 5 := by decide
  have d : (6 : Int64).toInt.toNat ^ (2 + 1) = 216 := by decide
  rw [c, d] at h
  exact_mod_cast h

/-- `CHOICE[A,B,A]` chooses `A` in 2 of 3 cases. -/
example (usage : Str) (i : ℕ) :
    chance (Answered usage chars!"CHOICE[A,B,A]" i fun r => r.parts[1]? = some chars!"A") = 2 / 3 := by
  have h := C85_choice (usage := usage) (items := [chars!"A", chars!"B", chars!"A"])
    (Marked.plain (body := chars!"CHOICE[A,B,A]") (by decide))
    ((C27_language _ _).mp (by decide)) (by decide) (by decide) i chars!"A"
  rw [show [chars!"A", chars!"B", chars!"A"].count chars!"A" = 2 by decide] at h
  exact_mod_cast h

end Examples

end GoBCDice
