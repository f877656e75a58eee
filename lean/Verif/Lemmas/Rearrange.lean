import Mathlib.Data.Multiset.Bind
import Verif.Spec.Rearrange
import Verif.Lemmas.Average

/-!
# Rearranged expressions have the same values equally often
-/

namespace GoBCDice

/-- The value of an expression whose rolls show `vs`. -/
def Expr.worth : Expr → List Int64 → Int64
  | .int v, _ => v
  | .sumRoll ds, _ => (ds.map Die.value).sum
  | .neg r, vs => -r.worth vs
  | .bin op l r, vs => op.value (l.worth (vs.take l.dice.length)) (r.worth (vs.drop l.dice.length))
  | .div m l r, vs => divValue m (l.worth (vs.take l.dice.length)) (r.worth (vs.drop l.dice.length))
  | .var _ _ _, vs => vs.sum

theorem DVal.worth {e : Expr} {as rs : List Die} {v : Int64} (h : DVal e as rs v) (ho : Ordinary e) :
    v = e.worth (rs.map Die.value) := by
  induction h with
  | int v => rfl
  | sumRoll ds => rfl
  | neg _ ih => cases ho with | neg ho => rw [Expr.worth, ← ih ho]
  | add h1 _ ih1 ih2 =>
    cases ho with | bin a b =>
    obtain ⟨t, d⟩ := take_sides (h1.dice a).2
    rw [Expr.worth, t, d, ← ih1 a, ← ih2 b]; rfl
  | sub h1 _ ih1 ih2 =>
    cases ho with | bin a b =>
    obtain ⟨t, d⟩ := take_sides (h1.dice a).2
    rw [Expr.worth, t, d, ← ih1 a, ← ih2 b]; rfl
  | mul h1 _ ih1 ih2 =>
    cases ho with | bin a b =>
    obtain ⟨t, d⟩ := take_sides (h1.dice a).2
    rw [Expr.worth, t, d, ← ih1 a, ← ih2 b]; rfl
  | div h1 _ _ ih1 ih2 =>
    cases ho with | div a b =>
    obtain ⟨t, d⟩ := take_sides (h1.dice a).2
    rw [Expr.worth, t, d, ← ih1 a, ← ih2 .int]
  | roll _ _ _ => rfl

theorem Ev.worth {e : Expr} {ds : List Die} {v : Int64} (h : Ev e ds v) (ho : Ordinary e) :
    v = e.worth (ds.map Die.value) := by
  induction h with
  | int v => rfl
  | sumRoll ds => rfl
  | neg _ ih => cases ho with | neg ho => rw [Expr.worth, ← ih ho]
  | add h1 _ ih1 ih2 =>
    cases ho with | bin a b =>
    obtain ⟨t, d⟩ := take_sides (h1.dice a)
    rw [Expr.worth, t, d, ← ih1 a, ← ih2 b]; rfl
  | sub h1 _ ih1 ih2 =>
    cases ho with | bin a b =>
    obtain ⟨t, d⟩ := take_sides (h1.dice a)
    rw [Expr.worth, t, d, ← ih1 a, ← ih2 b]; rfl
  | mul h1 _ ih1 ih2 =>
    cases ho with | bin a b =>
    obtain ⟨t, d⟩ := take_sides (h1.dice a)
    rw [Expr.worth, t, d, ← ih1 a, ← ih2 b]; rfl
  | div h1 _ _ ih1 ih2 =>
    cases ho with | div a b =>
    obtain ⟨t, d⟩ := take_sides (h1.dice a)
    rw [Expr.worth, t, d, ← ih1 a, ← ih2 .int]
  | d h1 h2 _ _ _ =>
    cases ho
    cases h1; cases h2; rfl
  | rand => cases ho

theorem Ordinary.dval {e : Expr} (ho : Ordinary e) : ∀ rs : List Die, rs.map Die.sides = e.dice →
    DVal e [] rs (e.worth (rs.map Die.value)) := by
  induction ho with
  | @int v =>
    intro rs h
    have : rs = [] := by simpa [Expr.dice] using h
    subst this
    exact .int v
  | neg _ ih => intro rs h; exact .neg (ih rs h)
  | @bin op l r _ _ ih1 ih2 =>
    intro rs h
    obtain ⟨as, bs, rfl, h1, h2⟩ := List.map_eq_append_iff.mp (show rs.map Die.sides = l.dice ++ r.dice from h)
    obtain ⟨t, d⟩ := take_sides (bs := bs) h1
    rw [Expr.worth, t, d]
    have a := ih1 as h1
    have b := ih2 bs h2
    cases op with
    | add => exact .add (as := []) (bs := []) a b
    | sub => exact .sub (as := []) (bs := []) a b
    | mul => exact .mul (as := []) (bs := []) a b
  | @div m l v _ hv ih1 =>
    intro rs h
    have h1 : rs.map Die.sides = l.dice := by simpa [Expr.dice] using h
    have a := ih1 rs h1
    have := DVal.div (m := m) (as := []) (bs := []) a (.int v) hv
    simp only [List.append_nil] at this
    rw [Expr.worth, List.take_of_length_le (by rw [← h1]; simp), Expr.worth]
    exact this
  | @roll x y a b c =>
    intro rs h
    exact .roll (as := []) (bs := []) (Ev.int x) (Ev.int y) (rolled_of a b c h)

theorem Ordinary.ev {e : Expr} (ho : Ordinary e) : ∀ rs : List Die, rs.map Die.sides = e.dice →
    Ev e rs (e.worth (rs.map Die.value)) := by
  induction ho with
  | @int v =>
    intro rs h
    have : rs = [] := by simpa [Expr.dice] using h
    subst this
    exact .int v
  | neg _ ih => intro rs h; exact .neg (ih rs h)
  | @bin op l r _ _ ih1 ih2 =>
    intro rs h
    obtain ⟨as, bs, rfl, h1, h2⟩ := List.map_eq_append_iff.mp (show rs.map Die.sides = l.dice ++ r.dice from h)
    obtain ⟨t, d⟩ := take_sides (bs := bs) h1
    rw [Expr.worth, t, d]
    have a := ih1 as h1
    have b := ih2 bs h2
    cases op with
    | add => exact .add a b
    | sub => exact .sub a b
    | mul => exact .mul a b
  | @div m l v _ hv ih1 =>
    intro rs h
    have h1 : rs.map Die.sides = l.dice := by simpa [Expr.dice] using h
    have a := ih1 rs h1
    have := Ev.div (m := m) a (.int v) hv
    rw [List.append_nil] at this
    rw [Expr.worth, List.take_of_length_le (by rw [← h1]; simp), Expr.worth]
    exact this
  | @roll x y a b c =>
    intro rs h
    exact .d (ds := []) (es := []) (Ev.int x) (Ev.int y) (rolled_of a b c h)

/-! ### The values of an expression, each as often as it occurs -/

/-- All values of an expression. -/
def Expr.values (e : Expr) : Multiset Int64 := ((allFaces e.dice).map e.worth : List Int64)

/-- All values of a function of two values. -/
def both {α β γ : Type} (f : α → β → γ) (A : Multiset α) (B : Multiset β) : Multiset γ :=
  A.bind fun a => B.map (f a)

theorem map_faces_append {α β γ : Type} (ss ts : List Int64) (p : List Int64 → α) (q : List Int64 → β) (f : α → β → γ) :
    ((allFaces (ss ++ ts)).map fun vs => f (p (vs.take ss.length)) (q (vs.drop ss.length)) : Multiset γ) =
      both f ((allFaces ss).map p : List α) ((allFaces ts).map q : List β) := by
  have h : ((allFaces (ss ++ ts)).map fun vs => f (p (vs.take ss.length)) (q (vs.drop ss.length))) =
      (allFaces ss).flatMap fun a => (allFaces ts).map fun b => f (p a) (q b) := by
    rw [allFaces_append, List.map_flatMap]
    apply List.flatMap_congr
    intro a ha
    rw [List.map_map]
    apply List.map_congr_left
    intro b _
    simp only [Function.comp]
    rw [List.take_left' (length_of_mem_allFaces ha), List.drop_left' (length_of_mem_allFaces ha)]
  rw [h, ← Multiset.coe_bind]
  unfold both
  rw [← Multiset.map_coe, Multiset.bind_map]
  simp only [← Multiset.map_coe, Multiset.map_map]
  rfl

theorem values_int (v : Int64) : (Expr.int v).values = {v} := rfl

theorem values_neg (a : Expr) : (Expr.neg a).values = a.values.map fun v => -v := by
  unfold Expr.values
  rw [Multiset.map_coe, List.map_map]
  rfl

theorem values_bin (op : BinOp) (l r : Expr) : (Expr.bin op l r).values = both op.value l.values r.values :=
  map_faces_append l.dice r.dice l.worth r.worth op.value

theorem values_div (m : Rounding) (l r : Expr) : (Expr.div m l r).values = both (divValue m) l.values r.values :=
  map_faces_append l.dice r.dice l.worth r.worth (divValue m)

theorem values_roll (x y : Int64) :
    (Expr.var .d (.int x) (.int y)).values = ((allFaces (List.replicate x.toInt.toNat y)).map List.sum : List Int64) := rfl

section both
variable {α β γ δ : Type}

theorem both_comm (f : α → β → γ) (A : Multiset α) (B : Multiset β) : both f A B = both (fun b a => f a b) B A :=
  Multiset.bind_map_comm ..

theorem both_assoc {f : α → α → α} (hf : ∀ a b c, f (f a b) c = f a (f b c)) (A B C : Multiset α) :
    both f (both f A B) C = both f A (both f B C) := by
  unfold both
  simp only [Multiset.bind_assoc, Multiset.bind_map, Multiset.map_bind, Multiset.map_map, Function.comp_def, hf]

theorem both_single_right (f : α → β → γ) (A : Multiset α) (b : β) : both f A {b} = A.map fun a => f a b := by
  unfold both
  simp only [Multiset.map_singleton, Multiset.bind_singleton]

theorem both_single_left (f : α → β → γ) (a : α) (B : Multiset β) : both f {a} B = B.map (f a) := by
  unfold both
  simp only [Multiset.singleton_bind]

theorem map_both (g : γ → δ) (f : α → β → γ) (A : Multiset α) (B : Multiset β) :
    (both f A B).map g = both (fun a b => g (f a b)) A B := by
  unfold both
  simp only [Multiset.map_bind, Multiset.map_map, Function.comp_def]

theorem both_map (f : γ → δ → α) (g : β → γ) (h : β → δ) (A B : Multiset β) :
    both f (A.map g) (B.map h) = both (fun a b => f (g a) (h b)) A B := by
  unfold both
  simp only [Multiset.bind_map, Multiset.map_map, Function.comp_def]

end both

theorem turn_sum {x y : Int64} (h1 : 1 ≤ x) (vs : List Int64)
    (hv : vs ∈ allFaces (List.replicate x.toInt.toNat y)) :
    (turned (List.replicate x.toInt.toNat y) vs).sum = x * (y + 1) - vs.sum := by
  have h := turned_sum _ y vs hv
  have hx : ((x.toInt.toNat : ℕ) : Int) = x.toInt := by
    rw [Int64.le_iff_toInt_le] at h1
    have : (1 : Int64).toInt = 1 := by decide
    omega
  rw [hx] at h
  rw [← ofInt_sum, h, Int64.ofInt_sub, Int64.ofInt_mul, Int64.ofInt_add, ofInt_sum, Int64.ofInt_toInt, Int64.ofInt_toInt]
  rfl

/-- Rearranged expressions have the same values, each equally often. -/
theorem Rearranged.values {a b : Expr} (h : Rearranged a b) : a.values = b.values := by
  induction h with
  | refl => rfl
  | symm _ ih => exact ih.symm
  | trans _ _ ih1 ih2 => exact ih1.trans ih2
  | neg _ ih => rw [values_neg, values_neg, ih]
  | bin _ _ ih1 ih2 => rw [values_bin, values_bin, ih1, ih2]
  | div _ ih => rw [values_div, values_div, ih]
  | add_comm a b =>
    rw [values_bin, values_bin, both_comm]
    congr 1; funext a b; exact Int64.add_comm _ _
  | add_assoc a b c =>
    rw [values_bin, values_bin, values_bin, values_bin, both_assoc]
    exact fun a b c => Int64.add_assoc a b c
  | add_zero a =>
    rw [values_bin, values_int, both_single_right]
    exact (Multiset.map_congr rfl fun x _ => (Int64.add_zero x)).trans (Multiset.map_id _)
  | sub a b =>
    rw [values_bin, values_bin, values_neg, ← Multiset.map_id a.values, both_map, Multiset.map_id]
    congr 1; funext a b; exact Int64.sub_eq_add_neg a b
  | neg_neg a =>
    rw [values_neg, values_neg, Multiset.map_map]
    exact (Multiset.map_congr rfl fun x _ => (Int64.neg_neg)).trans (Multiset.map_id _)
  | neg_add a b =>
    rw [values_neg, values_bin, values_bin, values_neg, values_neg, map_both, both_map]
    congr 1; funext a b; exact Int64.neg_add.trans (Int64.sub_eq_add_neg _ _)
  | mul_comm a b =>
    rw [values_bin, values_bin, both_comm]
    congr 1; funext a b; exact Int64.mul_comm _ _
  | mul_assoc a b c =>
    rw [values_bin, values_bin, values_bin, values_bin, both_assoc]
    exact fun a b c => Int64.mul_assoc a b c
  | mul_one a =>
    rw [values_bin, values_int, both_single_right]
    exact (Multiset.map_congr rfl fun x _ => (Int64.mul_one x)).trans (Multiset.map_id _)
  | neg_mul a b =>
    rw [values_neg, values_bin, values_bin, values_neg, map_both]
    conv_rhs => rw [← Multiset.map_id b.values, both_map]
    congr 1; funext a b; exact (Int64.neg_mul a b).symm
  | mul_add n a b =>
    rw [values_bin, values_bin, values_bin, values_bin, values_bin, values_int, both_single_left, both_single_left,
      both_single_left, map_both, both_map]
    congr 1; funext a b; exact Int64.mul_add
  | num_add m n => rw [values_bin, values_int, values_int, values_int, both_single_left]; rfl
  | num_mul m n => rw [values_bin, values_int, values_int, values_int, both_single_left]; rfl
  | num_neg n => rw [values_neg, values_int, values_int]; rfl
  | @split x x' y h1 h2 h3 =>
    have e : (x + x').toInt.toNat = x.toInt.toNat + x'.toInt.toNat := by
      rw [Int64.le_iff_toInt_le] at h1 h2
      have : (1 : Int64).toInt = 1 := by decide
      rw [Int64.toInt_add, Int.bmod_eq_of_le (by omega) (by omega)]
      omega
    rw [values_bin, values_roll, values_roll, values_roll, e, List.replicate_add, ← map_faces_append]
    congr 1
    apply List.map_congr_left
    intro vs _
    show vs.sum = (vs.take _).sum + (vs.drop _).sum
    rw [← List.sum_append, List.take_append_drop]
  | @turn x y h1 h2 h3 =>
    rw [values_bin, values_int, both_single_left, values_roll, Multiset.map_coe, List.map_map]
    rw [Multiset.coe_eq_coe]
    refine ((turned_perm (List.replicate x.toInt.toNat y)).symm.map List.sum).trans ?_
    rw [List.map_map]
    apply List.Perm.of_eq
    apply List.map_congr_left
    intro vs hv
    exact turn_sum h1 vs hv

end GoBCDice
