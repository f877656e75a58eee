import Mathlib.Tactic.Ring
import Mathlib.Tactic.Linarith
import Mathlib.Tactic.FieldSimp
import Verif.Spec.Average
import Verif.Props.Chance

/-!
# Averages over all faces
-/

namespace GoBCDice
open MeasureTheory

theorem allFaces_append (ss ts : List Int64) :
    allFaces (ss ++ ts) = (allFaces ss).flatMap fun a => (allFaces ts).map (a ++ ·) := by
  induction ss with
  | nil => simp [allFaces]
  | cons s ss ih =>
    simp only [List.cons_append, allFaces, ih, List.flatMap_assoc]
    congr 1
    funext v
    rw [List.map_flatMap, List.flatMap_map]
    congr 1
    funext a
    rw [List.map_map]
    rfl

theorem length_of_mem_allFaces {ss vs : List Int64} (h : vs ∈ allFaces ss) : vs.length = ss.length :=
  (mem_allFaces.mp h).1

/-- The mean of `f` over all faces. -/
def avg (ss : List Int64) (f : List Int64 → Rat) : Rat := ((allFaces ss).map f).sum / (allFaces ss).length

theorem avg_congr {ss : List Int64} {f g : List Int64 → Rat} (h : ∀ vs ∈ allFaces ss, f vs = g vs) :
    avg ss f = avg ss g := by
  unfold avg
  rw [List.map_congr_left h]

theorem sum_map_add' {α : Type} (l : List α) (f g : α → Rat) :
    (l.map fun a => f a + g a).sum = (l.map f).sum + (l.map g).sum := by
  induction l with
  | nil => simp
  | cons a l ih => simp only [List.map_cons, List.sum_cons, ih]; ring

theorem sum_map_mul' {α : Type} (l : List α) (f : α → Rat) (c : Rat) :
    (l.map fun a => c * f a).sum = c * (l.map f).sum := by
  induction l with
  | nil => simp
  | cons a l ih => simp only [List.map_cons, List.sum_cons, ih]; ring

theorem avg_add (ss : List Int64) (f g : List Int64 → Rat) :
    avg ss (fun vs => f vs + g vs) = avg ss f + avg ss g := by
  unfold avg
  rw [sum_map_add', add_div]

theorem avg_smul (ss : List Int64) (f : List Int64 → Rat) (c : Rat) :
    avg ss (fun vs => c * f vs) = c * avg ss f := by
  unfold avg
  rw [sum_map_mul', mul_div_assoc]

theorem sum_flatMap' {α β : Type} (l : List α) (k : α → List β) (f : β → Rat) :
    ((l.flatMap k).map f).sum = (l.map fun a => ((k a).map f).sum).sum := by
  induction l with
  | nil => simp
  | cons a l ih => simp [ih]

/-- Different dice are independent. -/
theorem avg_append (ss ts : List Int64) (f g : List Int64 → Rat) :
    avg (ss ++ ts) (fun vs => f (vs.take ss.length) * g (vs.drop ss.length)) = avg ss f * avg ts g := by
  unfold avg
  have h : ((allFaces (ss ++ ts)).map fun vs => f (vs.take ss.length) * g (vs.drop ss.length)).sum =
      ((allFaces ss).map f).sum * ((allFaces ts).map g).sum := by
    rw [allFaces_append, sum_flatMap']
    have : ∀ a ∈ allFaces ss, (((allFaces ts).map (a ++ ·)).map
        fun vs => f (vs.take ss.length) * g (vs.drop ss.length)).sum = ((allFaces ts).map g).sum * f a := by
      intro a ha
      have hl := length_of_mem_allFaces ha
      rw [List.map_map, mul_comm, ← sum_map_mul']
      congr 1
      apply List.map_congr_left
      intro b _
      simp [← hl]
    rw [List.map_congr_left this, sum_map_mul', mul_comm]
  rw [h, allFaces_length, allFaces_length, allFaces_length, List.map_append, List.prod_append, Nat.cast_mul]
  rw [mul_div_mul_comm]

theorem allFaces_pos {ss : List Int64} (h : ∀ s ∈ ss, 1 ≤ s) : 0 < (allFaces ss).length := by
  rw [allFaces_length]
  apply Nat.pos_of_ne_zero
  intro h0
  rw [List.prod_eq_zero_iff] at h0
  obtain ⟨s, hs, h1⟩ := List.mem_map.mp h0
  have := h s hs
  rw [Int64.le_iff_toInt_le] at this
  have : (1 : Int) ≤ s.toInt := this
  omega

theorem avg_const {ss : List Int64} (h : ∀ s ∈ ss, 1 ≤ s) (c : Rat) : avg ss (fun _ => c) = c := by
  have := allFaces_pos h
  unfold avg
  rw [List.map_const', List.sum_replicate, nsmul_eq_mul]
  field_simp

theorem avg_take {ss ts : List Int64} (h : ∀ s ∈ ts, 1 ≤ s) (f : List Int64 → Rat) :
    avg (ss ++ ts) (fun vs => f (vs.take ss.length)) = avg ss f := by
  have := avg_append ss ts f (fun _ => 1)
  rw [avg_const h, mul_one] at this
  simpa using this

theorem avg_drop {ss ts : List Int64} (h : ∀ s ∈ ss, 1 ≤ s) (g : List Int64 → Rat) :
    avg (ss ++ ts) (fun vs => g (vs.drop ss.length)) = avg ts g := by
  have := avg_append ss ts (fun _ => 1) g
  rw [avg_const h, one_mul] at this
  simpa using this

/-! ### The exact total -/

/-- The total of the faces, as an integer. -/
def Expr.exact : Expr → List Int64 → Int
  | .int v, _ => v.toInt
  | .neg r, vs => -r.exact vs
  | .bin .add l r, vs => l.exact (vs.take l.dice.length) + r.exact (vs.drop l.dice.length)
  | .bin .sub l r, vs => l.exact (vs.take l.dice.length) - r.exact (vs.drop l.dice.length)
  | .bin .mul l r, vs => l.exact (vs.take l.dice.length) * r.exact (vs.drop l.dice.length)
  | .var _ _ _, vs => (vs.map Int64.toInt).sum
  | _, _ => 0

theorem Whole.ordinary {e : Expr} (h : Whole e) : Ordinary e := by
  induction h with
  | int => exact .int
  | neg _ ih => exact .neg ih
  | bin _ _ ih1 ih2 => exact .bin ih1 ih2
  | roll a b c => exact .roll a b c

theorem Whole.dice_pos {e : Expr} (h : Whole e) : ∀ s ∈ e.dice, 1 ≤ s := by
  induction h with
  | int => intro s hs; simp [Expr.dice] at hs
  | neg _ ih => exact ih
  | bin _ _ ih1 ih2 =>
    intro s hs
    rcases List.mem_append.mp hs with hs | hs
    · exact ih1 s hs
    · exact ih2 s hs
  | roll a b c =>
    intro s hs
    simp only [Expr.dice] at hs
    rw [(List.mem_replicate.mp hs).2]
    exact c

theorem ofInt_sum (l : List Int64) : Int64.ofInt (l.map Int64.toInt).sum = l.sum := by
  induction l with
  | nil => rfl
  | cons a l ih => rw [List.map_cons, List.sum_cons, List.sum_cons, Int64.ofInt_add, ih, Int64.ofInt_toInt]

theorem take_sides {as bs : List Die} {l : List Int64} (h : as.map Die.sides = l) :
    ((as ++ bs).map Die.value).take l.length = as.map Die.value ∧
    ((as ++ bs).map Die.value).drop l.length = bs.map Die.value := by
  rw [← h, List.length_map, List.map_append, List.take_left' (by simp), List.drop_left' (by simp)]
  exact ⟨rfl, rfl⟩

theorem DVal.exact {e : Expr} {as rs : List Die} {v : Int64} (h : DVal e as rs v) (hw : Whole e) :
    v = Int64.ofInt (e.exact (rs.map Die.value)) := by
  induction h with
  | int v => rw [Expr.exact, Int64.ofInt_toInt]
  | sumRoll ds => cases hw
  | neg _ ih => cases hw with | neg hw => rw [Expr.exact, Int64.ofInt_neg, ← ih hw]
  | add h1 h2 ih1 ih2 =>
    cases hw with | bin w1 w2 =>
    obtain ⟨t1, t2⟩ := take_sides (bs := _) (h1.dice w1.ordinary).2
    rw [Expr.exact, t1, t2, Int64.ofInt_add, ← ih1 w1, ← ih2 w2]
  | sub h1 h2 ih1 ih2 =>
    cases hw with | bin w1 w2 =>
    obtain ⟨t1, t2⟩ := take_sides (bs := _) (h1.dice w1.ordinary).2
    rw [Expr.exact, t1, t2, Int64.ofInt_sub, ← ih1 w1, ← ih2 w2]
  | mul h1 h2 ih1 ih2 =>
    cases hw with | bin w1 w2 =>
    obtain ⟨t1, t2⟩ := take_sides (bs := _) (h1.dice w1.ordinary).2
    rw [Expr.exact, t1, t2, Int64.ofInt_mul, ← ih1 w1, ← ih2 w2]
  | div h1 h2 _ ih1 ih2 => cases hw
  | roll h1 h2 h3 => rw [Expr.exact, ofInt_sum]

theorem Whole.dval {e : Expr} (hw : Whole e) : ∀ rs : List Die, rs.map Die.sides = e.dice →
    DVal e [] rs (Int64.ofInt (e.exact (rs.map Die.value))) := by
  induction hw with
  | @int v =>
    intro rs h
    have : rs = [] := by simpa [Expr.dice] using h
    subst this
    have := DVal.int v
    rwa [Expr.exact, Int64.ofInt_toInt]
  | neg _ ih =>
    intro rs h
    rw [Expr.exact, Int64.ofInt_neg]
    exact .neg (ih rs h)
  | @bin op l r w1 w2 ih1 ih2 =>
    intro rs h
    obtain ⟨as, bs, rfl, h1, h2⟩ := List.map_eq_append_iff.mp h
    obtain ⟨t1, t2⟩ := take_sides (bs := bs) h1
    have d1 := ih1 as h1
    have d2 := ih2 bs h2
    cases op with
    | add => rw [Expr.exact, t1, t2, Int64.ofInt_add]; exact .add (as := []) (bs := []) d1 d2
    | sub => rw [Expr.exact, t1, t2, Int64.ofInt_sub]; exact .sub (as := []) (bs := []) d1 d2
    | mul => rw [Expr.exact, t1, t2, Int64.ofInt_mul]; exact .mul (as := []) (bs := []) d1 d2
  | @roll x y a b c =>
    intro rs h
    rw [Expr.exact, ofInt_sum]
    exact DVal.roll (as := []) (bs := []) (Ev.int x) (Ev.int y) (rolled_of a b c h)

theorem dval_faces {e : Expr} (hw : Whole e) {vs : List Int64} (hv : vs ∈ allFaces e.dice) (t : Int64) :
    DVal e [] (diceShowing e.dice vs) t ↔ t = Int64.ofInt (e.exact vs) := by
  obtain ⟨hval, hsid⟩ := diceShowing_values (length_of_mem_allFaces hv)
  constructor
  · intro h
    have := h.exact hw
    rwa [hval] at this
  · rintro rfl
    have := hw.dval _ hsid
    rwa [hval] at this

/-! ### Limits -/

theorem mul_between {a b l1 h1 l2 h2 : Int} (ha : l1 ≤ a ∧ a ≤ h1) (hb : l2 ≤ b ∧ b ≤ h2) :
    min (min (l1 * l2) (l1 * h2)) (min (h1 * l2) (h1 * h2)) ≤ a * b ∧
    a * b ≤ max (max (l1 * l2) (l1 * h2)) (max (h1 * l2) (h1 * h2)) := by
  have step : ∀ {x l h c : Int}, l ≤ x ∧ x ≤ h → min (l * c) (h * c) ≤ x * c ∧ x * c ≤ max (l * c) (h * c) := by
    intro x l h c hx
    rcases le_total 0 c with hc | hc
    · exact ⟨le_trans (min_le_left _ _) (mul_le_mul_of_nonneg_right hx.1 hc),
        le_trans (mul_le_mul_of_nonneg_right hx.2 hc) (le_max_right _ _)⟩
    · exact ⟨le_trans (min_le_right _ _) (mul_le_mul_of_nonpos_right hx.2 hc),
        le_trans (mul_le_mul_of_nonpos_right hx.1 hc) (le_max_left _ _)⟩
  have s1 := step (c := b) ha
  have s2 := step (c := l1) hb
  have s3 := step (c := h1) hb
  simp only [mul_comm _ l1, mul_comm _ h1] at s2 s3
  have e : ∀ x : Int, x * b = x * b := fun _ => rfl
  constructor
  · refine le_trans ?_ s1.1
    rw [le_min_iff]
    exact ⟨le_trans (min_le_left _ _) s2.1, le_trans (min_le_right _ _) s3.1⟩
  · refine le_trans s1.2 ?_
    rw [max_le_iff]
    exact ⟨le_trans s2.2 (le_max_left _ _), le_trans s3.2 (le_max_right _ _)⟩

theorem mem_append_faces {ss ts vs : List Int64} (h : vs ∈ allFaces (ss ++ ts)) :
    vs.take ss.length ∈ allFaces ss ∧ vs.drop ss.length ∈ allFaces ts := by
  rw [allFaces_append] at h
  obtain ⟨a, ha, h⟩ := List.mem_flatMap.mp h
  obtain ⟨b, hb, rfl⟩ := List.mem_map.mp h
  have hl := length_of_mem_allFaces ha
  rw [← hl, List.take_left' rfl, List.drop_left' rfl]
  exact ⟨ha, hb⟩

theorem face_bounds {s v : Int64} {ss vs : List Int64} (h : v :: vs ∈ allFaces (s :: ss)) :
    (1 ≤ v.toInt ∧ v.toInt ≤ s.toInt) ∧ vs ∈ allFaces ss := by
  obtain ⟨h1, h2⟩ := mem_allFaces.mp h
  refine ⟨?_, mem_allFaces.mpr ⟨by simpa using h1, fun d hd => h2 d (by simp only [diceShowing, List.zipWith_cons_cons]; exact List.mem_cons_of_mem _ hd)⟩⟩
  have := h2 ⟨v, s⟩ (by simp [diceShowing])
  obtain ⟨h3, h4⟩ := this
  rw [Int64.le_iff_toInt_le] at h3 h4
  exact ⟨h3, h4⟩

theorem sum_bounds (n : ℕ) (s : Int64) : ∀ vs ∈ allFaces (List.replicate n s),
    (n : Int) ≤ (vs.map Int64.toInt).sum ∧ (vs.map Int64.toInt).sum ≤ n * s.toInt := by
  induction n with
  | zero => intro vs hv; simp [allFaces] at hv; simp [hv]
  | succ n ih =>
    intro vs hv
    rw [List.replicate_succ] at hv
    cases vs with
    | nil => exact absurd (length_of_mem_allFaces hv) (by simp)
    | cons v vs =>
      obtain ⟨⟨h1, h2⟩, hv⟩ := face_bounds hv
      obtain ⟨h3, h4⟩ := ih vs hv
      simp only [List.map_cons, List.sum_cons]
      push_cast
      constructor
      · omega
      · rw [add_mul]; omega

theorem Whole.between {e : Expr} (hw : Whole e) : ∀ vs ∈ allFaces e.dice,
    e.limits.1 ≤ e.exact vs ∧ e.exact vs ≤ e.limits.2 := by
  induction hw with
  | int => intro vs _; simp [Expr.limits, Expr.exact]
  | neg _ ih =>
    intro vs hv
    have := ih vs hv
    simp only [Expr.limits, Expr.exact]
    omega
  | @bin op l r w1 w2 ih1 ih2 =>
    intro vs hv
    obtain ⟨m1, m2⟩ := mem_append_faces hv
    have b1 := ih1 _ m1
    have b2 := ih2 _ m2
    cases op with
    | add => simp only [Expr.limits, Expr.exact]; omega
    | sub => simp only [Expr.limits, Expr.exact]; omega
    | mul => exact mul_between b1 b2
  | @roll x y a b c =>
    intro vs hv
    have h := sum_bounds x.toInt.toNat y vs hv
    rw [Int64.le_iff_toInt_le] at a
    have a : (1 : Int) ≤ x.toInt := a
    have e : (x.toInt.toNat : Int) = x.toInt := by omega
    rw [e] at h
    exact h

/-! ### Mean and variance -/

theorem sum_range_faces (n : ℕ) :
    ((List.range n).map fun v : ℕ => ((v : Rat) + 1)).sum = (n : Rat) * (n + 1) / 2 ∧
    ((List.range n).map fun v : ℕ => ((v : Rat) + 1) ^ 2).sum = (n : Rat) * (n + 1) * (2 * n + 1) / 6 := by
  induction n with
  | zero => simp
  | succ n ih =>
    rw [List.range_succ, List.map_append, List.map_append, List.sum_append, List.sum_append, ih.1, ih.2]
    simp only [List.map_cons, List.map_nil, List.sum_cons, List.sum_nil]
    push_cast
    constructor <;> ring

theorem avg_one (s : Int64) (h : 1 ≤ s) :
    avg [s] (fun vs => (((vs.map Int64.toInt).sum : Int) : Rat)) = (s.toInt + 1) / 2 ∧
    avg [s] (fun vs => (((vs.map Int64.toInt).sum : Int) : Rat) ^ 2) = (s.toInt + 1) * (2 * s.toInt + 1) / 6 := by
  have hs : (1 : Int) ≤ s.toInt := Int64.le_iff_toInt_le.mp h
  have hlt := s.toInt_lt
  obtain ⟨n, hn⟩ : ∃ n : ℕ, s.toInt = n := ⟨s.toInt.toNat, by omega⟩
  have hf : allFaces [s] = (List.range n).map fun v => [Int64.ofNat (v + 1)] := by
    simp only [allFaces, List.map_cons, List.map_nil]
    rw [← List.map_eq_flatMap, hn, Int.toNat_natCast]
  have hv : ∀ v ∈ List.range n, ((([Int64.ofNat (v + 1)] : List Int64).map Int64.toInt).sum : Int) = (v : Int) + 1 := by
    intro v hv
    have := List.mem_range.mp hv
    simp only [List.map_cons, List.map_nil, List.sum_cons, List.sum_nil]
    rw [Int64.toInt_ofNat_of_lt (by omega)]
    push_cast
    omega
  have hn0 : (n : Rat) ≠ 0 := by
    have : n ≠ 0 := by omega
    exact_mod_cast this
  unfold avg
  rw [hf, List.map_map, List.map_map, List.length_map, List.length_range, hn]
  constructor
  · rw [List.map_congr_left (g := fun v : ℕ => ((v : Rat) + 1)) (by
      intro v h; simp only [Function.comp]; rw [hv v h]; push_cast; rfl), (sum_range_faces n).1]
    push_cast
    field_simp
  · rw [List.map_congr_left (g := fun v : ℕ => ((v : Rat) + 1) ^ 2) (by
      intro v h; simp only [Function.comp]; rw [hv v h]; push_cast; rfl), (sum_range_faces n).2]
    push_cast
    field_simp

/-- Mean and mean square of a sum of two independent totals. -/
theorem avg_sum {ss ts : List Int64} (hs : ∀ s ∈ ss, 1 ≤ s) (ht : ∀ s ∈ ts, 1 ≤ s) (f g : List Int64 → Rat) :
    avg (ss ++ ts) (fun vs => f (vs.take ss.length) + g (vs.drop ss.length)) = avg ss f + avg ts g ∧
    avg (ss ++ ts) (fun vs => (f (vs.take ss.length) + g (vs.drop ss.length)) ^ 2) =
      avg ss (fun vs => f vs ^ 2) + 2 * (avg ss f * avg ts g) + avg ts (fun vs => g vs ^ 2) := by
  constructor
  · rw [avg_add, avg_take ht, avg_drop hs]
  · rw [avg_congr (g := fun vs => (f (vs.take ss.length) ^ 2 + 2 * (f (vs.take ss.length) * g (vs.drop ss.length))) +
      g (vs.drop ss.length) ^ 2) (fun vs _ => by ring), avg_add, avg_add, avg_smul, avg_append,
      avg_take ht (fun a => f a ^ 2), avg_drop hs (fun a => g a ^ 2)]

theorem avg_dice (n : ℕ) (s : Int64) (h : 1 ≤ s) :
    avg (List.replicate n s) (fun vs => (((vs.map Int64.toInt).sum : Int) : Rat)) = n * (s.toInt + 1) / 2 ∧
    avg (List.replicate n s) (fun vs => (((vs.map Int64.toInt).sum : Int) : Rat) ^ 2) =
      n * ((s.toInt : Rat) ^ 2 - 1) / 12 + (n * (s.toInt + 1) / 2) ^ 2 := by
  induction n with
  | zero => simp [avg, allFaces]
  | succ n ih =>
    have hs : ∀ x ∈ [s], 1 ≤ x := by simpa using h
    have ht : ∀ x ∈ List.replicate n s, 1 ≤ x := by
      intro x hx; rw [(List.mem_replicate.mp hx).2]; exact h
    obtain ⟨e1, e2⟩ := avg_sum hs ht (fun vs => (((vs.map Int64.toInt).sum : Int) : Rat))
      (fun vs => (((vs.map Int64.toInt).sum : Int) : Rat))
    rw [List.replicate_succ, ← List.singleton_append]
    have split : ∀ vs : List Int64, (((vs.map Int64.toInt).sum : Int) : Rat) =
        ((((vs.take [s].length).map Int64.toInt).sum : Int) : Rat) + ((((vs.drop [s].length).map Int64.toInt).sum : Int) : Rat) := by
      intro vs
      rw [← Int.cast_add, ← List.sum_append, ← List.map_append, List.take_append_drop]
    constructor
    · rw [avg_congr (fun vs _ => split vs), e1, (avg_one s h).1, ih.1]
      push_cast
      ring
    · rw [avg_congr (fun vs _ => by rw [split vs]), e2, (avg_one s h).2, ih.2, ih.1, (avg_one s h).1]
      push_cast
      ring

theorem Whole.moments {e : Expr} (hw : Whole e) :
    avg e.dice (fun vs => (e.exact vs : Rat)) = e.mean ∧
    avg e.dice (fun vs => (e.exact vs : Rat) ^ 2) = e.variance + e.mean ^ 2 := by
  induction hw with
  | int => simp [avg, allFaces, Expr.dice, Expr.exact, Expr.mean, Expr.variance]
  | @neg r _ ih =>
    simp only [Expr.dice, Expr.mean, Expr.variance, Expr.exact]
    constructor
    · rw [avg_congr (g := fun vs => (-1) * (r.exact vs : Rat)) (fun vs _ => by push_cast; ring), avg_smul, ih.1]
      ring
    · rw [avg_congr (g := fun vs => (r.exact vs : Rat) ^ 2) (fun vs _ => by push_cast; ring), ih.2]
      ring
  | @bin op l r w1 w2 ih1 ih2 =>
    have hs := w1.dice_pos
    have ht := w2.dice_pos
    cases op with
    | add =>
      obtain ⟨e1, e2⟩ := avg_sum hs ht (fun vs => (l.exact vs : Rat)) (fun vs => (r.exact vs : Rat))
      simp only [Expr.dice, Expr.mean, Expr.variance, Expr.exact]
      push_cast
      rw [e1, e2, ih1.1, ih1.2, ih2.1, ih2.2]
      exact ⟨rfl, by ring⟩
    | sub =>
      obtain ⟨e1, e2⟩ := avg_sum hs ht (fun vs => (l.exact vs : Rat)) (fun vs => (-1) * (r.exact vs : Rat))
      rw [avg_smul] at e1 e2
      rw [avg_congr (ss := r.dice) (f := fun vs => (-1 * (r.exact vs : Rat)) ^ 2) (g := fun vs => (r.exact vs : Rat) ^ 2)
        (fun vs _ => by ring)] at e2
      simp only [Expr.dice, Expr.mean, Expr.variance, Expr.exact]
      push_cast
      simp only [sub_eq_add_neg, ← neg_one_mul ((r.exact _ : Int) : Rat)]
      rw [e1, e2, ih1.1, ih1.2, ih2.1, ih2.2]
      constructor <;> ring
    | mul =>
      simp only [Expr.dice, Expr.mean, Expr.variance, Expr.exact]
      push_cast
      constructor
      · rw [avg_append l.dice r.dice (fun vs => (l.exact vs : Rat)) (fun vs => (r.exact vs : Rat)), ih1.1, ih2.1]
      · rw [avg_congr (g := fun vs => (fun vs => (l.exact vs : Rat) ^ 2) (vs.take l.dice.length) *
          (fun vs => (r.exact vs : Rat) ^ 2) (vs.drop l.dice.length)) (fun vs _ => mul_pow _ _ _),
          avg_append l.dice r.dice (fun vs => (l.exact vs : Rat) ^ 2) (fun vs => (r.exact vs : Rat) ^ 2), ih1.2, ih2.2]
        ring
  | @roll x y a b c =>
    have h := avg_dice x.toInt.toNat y c
    rw [Int64.le_iff_toInt_le] at a
    have a : (1 : Int) ≤ x.toInt := a
    have e : ((x.toInt.toNat : ℕ) : Rat) = x.toInt := by
      rw [← Int.cast_natCast, Int.toNat_of_nonneg (by omega)]
    rw [e] at h
    exact h

/-! ### From faces to totals -/

theorem sum_countP {α : Type} (L : List α) (F : α → Int) (a b : Int) (hF : ∀ x ∈ L, a ≤ F x ∧ F x ≤ b)
    (g : Int → Rat) :
    ∑ t ∈ Finset.Icc a b, g t * (L.countP (fun x => F x = t) : Rat) = (L.map fun x => g (F x)).sum := by
  induction L with
  | nil => simp
  | cons x L ih =>
    rw [List.map_cons, List.sum_cons, ← ih (fun y hy => hF y (List.mem_cons_of_mem _ hy))]
    have : ∀ t, g t * ((x :: L).countP (fun x => F x = t) : Rat) =
        (if F x = t then g t else 0) + g t * (L.countP (fun x => F x = t) : Rat) := by
      intro t
      rw [List.countP_cons]
      by_cases h : F x = t
      · simp [h]; ring
      · simp [h]
    rw [Finset.sum_congr rfl (fun t _ => this t), Finset.sum_add_distrib, Finset.sum_ite_eq, if_pos]
    exact Finset.mem_Icc.mpr (hF x (by simp))

/-! ### The other side of the dice -/

/-- Every die turned over: `s + 1 - v` for `v`. -/
def turned (ss vs : List Int64) : List Int64 := List.zipWith (fun s v => s + 1 - v) ss vs

theorem turn_toInt {s v : Int64} (h : 1 ≤ v.toInt ∧ v.toInt ≤ s.toInt) : (s + 1 - v).toInt = s.toInt + 1 - v.toInt := by
  have e : s + 1 - v = Int64.ofInt (s.toInt + 1 - v.toInt) := by
    rw [Int64.ofInt_sub, Int64.ofInt_add, Int64.ofInt_toInt, Int64.ofInt_toInt]
    rfl
  have := s.toInt_lt
  rw [e, Int64.toInt_ofInt_of_le (by omega) (by omega)]

theorem turned_spec : ∀ (ss vs : List Int64), vs ∈ allFaces ss →
    turned ss vs ∈ allFaces ss ∧ turned ss (turned ss vs) = vs
  | [], vs, h => by simp [allFaces] at h; subst h; simp [turned, allFaces]
  | s :: ss, [], h => absurd (length_of_mem_allFaces h) (by simp)
  | s :: ss, v :: vs, h => by
    obtain ⟨hb, hv⟩ := face_bounds h
    obtain ⟨i1, i2⟩ := turned_spec ss vs hv
    have ht := turn_toInt hb
    constructor
    · obtain ⟨m1, m2⟩ := mem_allFaces.mp i1
      refine mem_allFaces.mpr ⟨by simpa [turned] using m1, ?_⟩
      intro d hd
      simp only [turned, diceShowing, List.zipWith_cons_cons, List.mem_cons] at hd
      rcases hd with rfl | hd
      · constructor
        · rw [Int64.le_iff_toInt_le]; show 1 ≤ (s + 1 - v).toInt; omega
        · rw [Int64.le_iff_toInt_le]; show (s + 1 - v).toInt ≤ s.toInt; omega
      · exact m2 d hd
    · simp only [turned, List.zipWith_cons_cons] at i2 ⊢
      rw [i2]
      congr 1
      rw [← Int64.toInt_inj, turn_toInt (by omega)]
      omega

theorem turned_append {ss ts vs : List Int64} :
    (turned (ss ++ ts) vs).take ss.length = turned ss (vs.take ss.length) ∧
    (turned (ss ++ ts) vs).drop ss.length = turned ts (vs.drop ss.length) := by
  unfold turned
  rw [List.take_zipWith, List.drop_zipWith, List.take_left' rfl, List.drop_left' rfl]
  exact ⟨rfl, rfl⟩

theorem turned_sum (n : ℕ) (s : Int64) : ∀ vs ∈ allFaces (List.replicate n s),
    ((turned (List.replicate n s) vs).map Int64.toInt).sum = n * (s.toInt + 1) - (vs.map Int64.toInt).sum := by
  induction n with
  | zero => intro vs hv; simp [allFaces] at hv; simp [hv, turned]
  | succ n ih =>
    intro vs hv
    rw [List.replicate_succ] at hv ⊢
    cases vs with
    | nil => exact absurd (length_of_mem_allFaces hv) (by simp)
    | cons v vs =>
      obtain ⟨hb, hv⟩ := face_bounds hv
      have := ih vs hv
      simp only [turned, List.zipWith_cons_cons, List.map_cons, List.sum_cons] at this ⊢
      rw [this, turn_toInt hb]
      push_cast
      ring

theorem exact_const {e : Expr} (hw : Whole e) (hd : e.dice = []) : (e.exact [] : Rat) = e.mean := by
  have := hw.moments.1
  rw [hd] at this
  simpa [avg, allFaces] using this

theorem Whole.turned {e : Expr} (hw : Whole e) (hl : e.Linear) : ∀ vs ∈ allFaces e.dice,
    (e.exact (turned e.dice vs) : Rat) = 2 * e.mean - e.exact vs := by
  induction hw with
  | int => intro vs _; simp [Expr.exact, Expr.mean]; ring
  | neg _ ih =>
    intro vs hv
    have := ih hl vs hv
    simp only [Expr.exact, Expr.dice, Expr.mean, Int.cast_neg] at *
    rw [this]; ring
  | @bin op l r w1 w2 ih1 ih2 =>
    intro vs hv
    obtain ⟨m1, m2⟩ := mem_append_faces hv
    obtain ⟨t1, t2⟩ := turned_append (ss := l.dice) (ts := r.dice) (vs := vs)
    simp only [Expr.dice]
    cases op with
    | add =>
      simp only [Expr.exact, t1, t2, Expr.mean]
      push_cast
      rw [ih1 hl.1 _ m1, ih2 hl.2 _ m2]; ring
    | sub =>
      simp only [Expr.exact, t1, t2, Expr.mean]
      push_cast
      rw [ih1 hl.1 _ m1, ih2 hl.2 _ m2]; ring
    | mul =>
      simp only [Expr.exact, t1, t2, Expr.mean]
      push_cast
      rw [ih1 hl.1 _ m1, ih2 hl.2.1 _ m2]
      rcases hl.2.2 with h | h
      · have e1 : (l.exact (vs.take l.dice.length) : Rat) = l.mean := by
          rw [h]; exact exact_const w1 h
        rw [e1]; ring
      · rw [h] at m2
        simp only [allFaces, List.mem_singleton] at m2
        rw [m2, exact_const w2 h]; ring
  | @roll x y a b c =>
    intro vs hv
    have h := turned_sum x.toInt.toNat y vs hv
    rw [Int64.le_iff_toInt_le] at a
    have a : (1 : Int) ≤ x.toInt := a
    have e : (x.toInt.toNat : Int) = x.toInt := by omega
    rw [e] at h
    simp only [Expr.exact, Expr.dice, Expr.mean]
    rw [h]
    push_cast
    ring

theorem turned_perm (ss : List Int64) : ((allFaces ss).map (turned ss)).Perm (allFaces ss) := by
  have hn : ((allFaces ss).map (turned ss)).Nodup := by
    refine (List.nodup_map_iff_inj_on (allFaces_nodup ss)).mpr ?_
    intro a ha b hb h
    rw [← (turned_spec ss a ha).2, h, (turned_spec ss b hb).2]
  rw [List.perm_ext_iff_of_nodup hn (allFaces_nodup ss)]
  intro vs
  constructor
  · intro h
    obtain ⟨a, ha, rfl⟩ := List.mem_map.mp h
    exact (turned_spec ss a ha).1
  · intro h
    exact List.mem_map.mpr ⟨turned ss vs, (turned_spec ss vs h).1, (turned_spec ss vs h).2⟩

end GoBCDice
