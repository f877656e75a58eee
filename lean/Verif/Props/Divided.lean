import Verif.Spec.Amount
import Verif.Props.InTurn
import Verif.Props.Steps

/-!
# C117: totals and calculations, one after another
-/

namespace GoBCDice

theorem ev_gives {e : Expr} (hr : e.rands = 0) : ∀ (ds : List Die) (v : Int64), Ev e ds v ↔ ds = [] ∧ e.Gives (.ok v) := by
  induction e with
  | int w =>
    intro ds v
    have hg : (Expr.int w).Gives (.ok w) := ⟨fun _ _ => rfl⟩
    rw [hg.iff, Out.ok.injEq]
    exact ⟨fun h => by cases h; exact ⟨rfl, rfl⟩, fun ⟨h1, h2⟩ => by subst h1 h2; exact .int _⟩
  | sumRoll l =>
    intro ds v
    have hg : (Expr.sumRoll l).Gives (.ok (l.map Die.value).sum) := ⟨fun _ _ => by
      show ((Out.ok (sumDice l) : Out Int64), _) = _
      rw [sumDice_eq_sum]⟩
    rw [hg.iff, Out.ok.injEq]
    exact ⟨fun h => by cases h; exact ⟨rfl, rfl⟩, fun ⟨h1, h2⟩ => by subst h1 h2; exact .sumRoll _⟩
  | neg r ih =>
    intro ds v
    obtain ⟨o, -, h'⟩ := eval_const r hr
    rw [(Expr.Gives.neg (o := o) ⟨h'⟩).iff]
    constructor
    · intro h
      cases h with | neg h =>
      obtain ⟨rfl, hg⟩ := (ih hr _ _).mp h
      obtain rfl := Expr.Gives.unique ⟨h'⟩ hg
      exact ⟨rfl, rfl⟩
    · rintro ⟨rfl, h⟩
      cases o with
      | ok w => cases h; exact .neg ((ih hr _ _).mpr ⟨rfl, ⟨h'⟩⟩)
      | err m => cases h
      | panic m => cases h
  | bin op l r i j =>
    intro ds v
    simp only [Expr.rands, Nat.add_eq_zero_iff] at hr
    obtain ⟨o, -, h1⟩ := eval_const l hr.1
    obtain ⟨o', -, h2⟩ := eval_const r hr.2
    rw [(Expr.Gives.bin (op := op) (o := o) (o' := o') ⟨h1⟩ ⟨h2⟩).iff, calcBoth_ok]
    constructor
    · intro h
      cases h with
      | add h h' | sub h h' | mul h h' =>
        obtain ⟨rfl, g⟩ := (i hr.1 _ _).mp h
        obtain ⟨rfl, g'⟩ := (j hr.2 _ _).mp h'
        exact ⟨rfl, _, _, Expr.Gives.unique ⟨h1⟩ g, Expr.Gives.unique ⟨h2⟩ g', rfl⟩
    · rintro ⟨rfl, x, y, rfl, rfl, h⟩
      cases h
      have g := (i hr.1 _ _).mpr ⟨rfl, ⟨h1⟩⟩
      have g' := (j hr.2 _ _).mpr ⟨rfl, ⟨h2⟩⟩
      cases op with
      | add => exact .add g g'
      | sub => exact .sub g g'
      | mul => exact .mul g g'
  | div m l r i j =>
    intro ds v
    simp only [Expr.rands, Nat.add_eq_zero_iff] at hr
    obtain ⟨o, -, h1⟩ := eval_const l hr.1
    obtain ⟨o', -, h2⟩ := eval_const r hr.2
    rw [(Expr.Gives.div (m := m) (o := o) (o' := o') ⟨h1⟩ ⟨h2⟩).iff, calcBoth_ok]
    constructor
    · intro h
      cases h with | div h h' hne =>
      obtain ⟨rfl, g⟩ := (i hr.1 _ _).mp h
      obtain ⟨rfl, g'⟩ := (j hr.2 _ _).mp h'
      exact ⟨rfl, _, _, Expr.Gives.unique ⟨h1⟩ g, Expr.Gives.unique ⟨h2⟩ g', if_neg hne⟩
    · rintro ⟨rfl, x, y, rfl, rfl, h⟩
      split at h
      · cases h
      · cases h
        exact .div ((i hr.1 _ _).mpr ⟨rfl, ⟨h1⟩⟩) ((j hr.2 _ _).mpr ⟨rfl, ⟨h2⟩⟩) ‹_›
  | var k l r => simp [Expr.rands] at hr

section
variable {σ : Type} (F : DieFeeder σ) (g : Str)

/-- Answers to totals, in terms of their trees. -/
theorem replies_total {z : Str} {e : Expr} (hz : CommandText z (.dRollExpr e)) (hp : PlainRolls e) (f f2 : σ) (ds : List Die) (last : Str) :
    Replies F g z f ds last f2 ↔ ∃ v, Ev e ds v ∧ Draws F f ds f2 ∧ last = intStr v := by
  constructor
  · rintro ⟨r, h, rfl, hl⟩
    obtain ⟨n, ds, h1, h2, h3⟩ := executeBasicCommand_ok_text.mp h
    have := ((parse_iff _ n).mpr h1).symm.trans ((parse_iff _ _).mpr hz)
    simp only [Option.some.injEq] at this
    subst this
    cases h2 with | dRollExpr d1 d2 d3 =>
    refine ⟨_, (dval_iff_ev hp _ _).mp ⟨_, _, rfl, (staged_iff_DVal ..).mp ⟨_, _, d1, d2, d3⟩⟩, h3, ?_⟩
    exact (Option.some.inj hl).symm
  · rintro ⟨v, h1, h2, rfl⟩
    obtain ⟨as, rs, rfl, h3⟩ := (dval_iff_ev hp _ _).mpr h1
    obtain ⟨e1, e2, d1, d2, d3⟩ := (staged_iff_DVal ..).mpr h3
    exact ⟨_, executeBasicCommand_ok_text.mpr ⟨_, _, hz, .dRollExpr d1 d2 d3, h2⟩, rfl, rfl⟩

/-- Amounts, in terms of their trees. -/
theorem IsAmount.tree {z : Str} (hz : IsAmount z) (hn : '[' ∉ z) : ∃ e, Der (.add .dice) z e ∧ PlainRolls e ∧
    (IsTotal z → 1 ≤ e.rands) ∧ ∀ (f : σ) (ds : List Die) (v : Int64) (f' : σ), Amount F g z f ds v f' ↔ Ev e ds v ∧ Draws F f ds f' := by
  by_cases ht : IsTotal z
  · obtain ⟨e, ht'⟩ := ht
    have ht'' := ht'
    cases ht'' with | dRollExpr d n =>
    have hp := d.plainRolls_of_noRandom hn
    refine ⟨e, d, hp, fun _ => n, fun f ds v f' => ?_⟩
    have nc : ¬ IsCalculation z := fun hc => by
      obtain ⟨e', he⟩ := hc.der
      obtain rfl := d.kinds he
      have := he.int_rands (by simp)
      omega
    constructor
    · rintro (⟨-, h⟩ | ⟨h, -⟩)
      · obtain ⟨w, h1, h2, h3⟩ := (replies_total F g ht' hp ..).mp h
        obtain rfl := intStr_inj h3
        exact ⟨h1, h2⟩
      · exact absurd h nc
    · rintro ⟨h1, h2⟩
      exact .inl ⟨⟨e, ht'⟩, (replies_total F g ht' hp ..).mpr ⟨_, h1, h2, rfl⟩⟩
  · have hc := hz.resolve_left ht
    obtain ⟨e, he⟩ := hc.der
    have d : Der (.add .dice) z e := he.widen .dice rfl
    refine ⟨e, d, d.plainRolls_of_noRandom hn, fun h => absurd h ht, fun f ds v f' => ?_⟩
    rw [ev_gives (he.int_rands (by simp)), ← he.calculates]
    constructor
    · rintro (⟨h, -⟩ | ⟨-, h1, rfl, rfl⟩)
      · exact absurd h ht
      · exact ⟨⟨rfl, h1⟩, .nil _⟩
    · rintro ⟨⟨rfl, h1⟩, h2⟩
      cases h2
      exact .inr ⟨hc, h1, rfl, rfl⟩

/-- Two amounts and what is made of them. -/
theorem two_amounts {x y z : Str} (hx : IsAmount x) (hy : IsAmount y) (h : IsTotal x ∨ IsTotal y) (hn : NoRandomNumber (x ++ y))
    {k : Expr → Expr → Expr} {q : Int64 → Int64 → Int64 → Prop}
    (hz : ∀ {a b}, Der (.add .dice) x a → Der (.add .dice) y b → Der (.add .dice) z (k a b))
    (hr : ∀ a b, (k a b).rands = a.rands + b.rands) (hp : ∀ {a b}, PlainRolls a → PlainRolls b → PlainRolls (k a b))
    (hv : ∀ a b ds v, Ev (k a b) ds v ↔ ∃ ds1 ds2 x y, Ev a ds1 x ∧ Ev b ds2 y ∧ ds = ds1 ++ ds2 ∧ q x y v)
    (f f2 : σ) (ds : List Die) (last : Str) :
    Replies F g z f ds last f2 ↔ ∃ f1 ds1 ds2 v w u, Amount F g x f ds1 v f1 ∧ Amount F g y f1 ds2 w f2 ∧ ds = ds1 ++ ds2 ∧ q v w u ∧
      last = intStr u := by
  simp only [NoRandomNumber, List.mem_append, not_or] at hn
  obtain ⟨a, dx, px, nx, ax⟩ := hx.tree F g hn.1
  obtain ⟨b, dy, py, ny, ay⟩ := hy.tree F g hn.2
  have n1 : 1 ≤ (k a b).rands := by
    rw [hr]
    rcases h with h | h
    · have := nx h; omega
    · have := ny h; omega
  rw [replies_total F g (.dRollExpr (hz dx dy) n1) (hp px py)]
  simp only [ax, ay, hv]
  constructor
  · rintro ⟨u, ⟨ds1, ds2, v, w, h1, h2, rfl, h3⟩, h4, rfl⟩
    obtain ⟨f1, d1, d2⟩ := h4.split
    exact ⟨f1, ds1, ds2, v, w, u, ⟨h1, d1⟩, ⟨h2, d2⟩, rfl, h3, rfl⟩
  · rintro ⟨f1, ds1, ds2, v, w, u, ⟨h1, d1⟩, ⟨h2, d2⟩, rfl, h3, rfl⟩
    exact ⟨u, ⟨ds1, ds2, v, w, h1, h2, rfl, h3⟩, d1.append d2, rfl⟩

/-- **C117.** Amounts are added, subtracted and multiplied by what each of them is answered, one after the other. -/
theorem C117_operation {x y c : Str} {o : Int64 → Int64 → Int64} (hx : IsAmount x) (hy : IsAmount y) (h : IsTotal x ∨ IsTotal y)
    (ho : Operation c o) (hn : NoRandomNumber (x ++ y)) (f f2 : σ) (ds : List Die) (last : Str) :
    Replies F g (chars!"(" ++ x ++ chars!")" ++ c ++ chars!"(" ++ y ++ chars!")") f ds last f2 ↔
      ∃ f1 ds1 ds2 v w, Amount F g x f ds1 v f1 ∧ Amount F g y f1 ds2 w f2 ∧ ds = ds1 ++ ds2 ∧ last = intStr (o v w) := by
  have fin : ∀ {A : σ → List Die → List Die → Int64 → Int64 → Prop} {B : Int64 → Int64 → Int64},
      (∃ f1 ds1 ds2 v w u, A f1 ds1 ds2 v w ∧ u = B v w ∧ last = intStr u) ↔ ∃ f1 ds1 ds2 v w, A f1 ds1 ds2 v w ∧ last = intStr (B v w) :=
    ⟨fun ⟨f1, ds1, ds2, v, w, u, h1, h2, h3⟩ => ⟨f1, ds1, ds2, v, w, h1, by rw [h3, h2]⟩,
     fun ⟨f1, ds1, ds2, v, w, h1, h2⟩ => ⟨f1, ds1, ds2, v, w, _, h1, rfl, h2⟩⟩
  have fin' := fun B => fin (A := fun f1 ds1 ds2 v w => Amount F g x f ds1 v f1 ∧ Amount F g y f1 ds2 w f2 ∧ ds = ds1 ++ ds2) (B := B)
  simp only [and_assoc] at fin'
  cases ho with
  | plus =>
    rw [two_amounts F g hx hy h hn (k := .bin .add) (q := fun v w u => u = v + w)
      (fun d e => by simpa using Der.addAdd (.addMul (.mulPrim (.paren d))) (.mulPrim (.paren e))) (fun _ _ => rfl)
      (fun p q => ⟨p, q⟩) (fun a b ds v => ⟨fun h => by cases h with | add h h' => exact ⟨_, _, _, _, h, h', rfl, rfl⟩,
        fun ⟨_, _, _, _, h, h', h1, h2⟩ => by subst h1 h2; exact .add h h'⟩), fin']
  | minus =>
    rw [two_amounts F g hx hy h hn (k := .bin .sub) (q := fun v w u => u = v - w)
      (fun d e => by simpa using Der.addSub (.addMul (.mulPrim (.paren d))) (.mulPrim (.paren e))) (fun _ _ => rfl)
      (fun p q => ⟨p, q⟩) (fun a b ds v => ⟨fun h => by cases h with | sub h h' => exact ⟨_, _, _, _, h, h', rfl, rfl⟩,
        fun ⟨_, _, _, _, h, h', h1, h2⟩ => by subst h1 h2; exact .sub h h'⟩), fin']
  | times =>
    rw [two_amounts F g hx hy h hn (k := .bin .mul) (q := fun v w u => u = v * w)
      (fun d e => by simpa using Der.addMul (.mulMul (.mulPrim (.paren d)) (.paren e))) (fun _ _ => rfl)
      (fun p q => ⟨p, q⟩) (fun a b ds v => ⟨fun h => by cases h with | mul h h' => exact ⟨_, _, _, _, h, h', rfl, rfl⟩,
        fun ⟨_, _, _, _, h, h', h1, h2⟩ => by subst h1 h2; exact .mul h h'⟩), fin']

theorem divided {x y t : Str} {m : Rounding} (hx : IsAmount x) (hy : IsAmount y) (h : IsTotal x ∨ IsTotal y)
    (hm : RoundingText m t) (hn : NoRandomNumber (x ++ y)) (f f2 : σ) (ds : List Die) (last : Str) :
    Replies F g (chars!"(" ++ x ++ chars!")/(" ++ y ++ chars!")" ++ t) f ds last f2 ↔
      ∃ f1 ds1 ds2 v w u, Amount F g x f ds1 v f1 ∧ Amount F g y f1 ds2 w f2 ∧ ds = ds1 ++ ds2 ∧ (w ≠ 0 ∧ u = divValue m v w) ∧
        last = intStr u := by
  refine two_amounts F g hx hy h hn (k := .div m) (q := fun v w u => w ≠ 0 ∧ u = divValue m v w) ?_ (fun _ _ => rfl)
    (fun p q => ⟨p, q⟩) (fun a b ds v => ⟨fun h => by cases h with | div h h' hne => exact ⟨_, _, _, _, h, h', rfl, hne, rfl⟩,
      fun ⟨_, _, _, _, h, h', h1, h2, h3⟩ => by subst h1 h3; exact .div h h' h2⟩) f f2 ds last
  intro a b d e
  cases hm with
  | down => simpa using Der.addMul (Der.mulDiv (.mulPrim (.paren d)) (.paren e))
  | up hc => simpa using Der.addMul (Der.mulDivUp hc (.mulPrim (.paren d)) (.paren e))
  | round hc => simpa using Der.addMul (Der.mulDivRound hc (.mulPrim (.paren d)) (.paren e))

/-- **C117.** Amounts are divided so too, unless the second one is 0: then there is no answer. -/
theorem C117_division {x y : Str} (hx : IsAmount x) (hy : IsAmount y) (h : IsTotal x ∨ IsTotal y) (hn : NoRandomNumber (x ++ y))
    (f f2 : σ) (ds : List Die) (last : Str) :
    Replies F g (chars!"(" ++ x ++ chars!")/(" ++ y ++ chars!")") f ds last f2 ↔
      ∃ f1 ds1 ds2 v w, Amount F g x f ds1 v f1 ∧ Amount F g y f1 ds2 w f2 ∧ ds = ds1 ++ ds2 ∧ w ≠ 0 ∧ last = intStr (v / w) := by
  have := divided F g hx hy h .down hn f f2 ds last
  rw [List.append_nil] at this
  rw [this]
  constructor
  · rintro ⟨f1, ds1, ds2, v, w, u, h1, h2, h3, ⟨h4, rfl⟩, h5⟩
    exact ⟨f1, ds1, ds2, v, w, h1, h2, h3, h4, h5⟩
  · rintro ⟨f1, ds1, ds2, v, w, h1, h2, h3, h4, h5⟩
    exact ⟨f1, ds1, ds2, v, w, _, h1, h2, h3, ⟨h4, rfl⟩, h5⟩

/-- **C117.** With `U` and `R` they are divided if the second one is not 0; the quotient of numbers below 2^53 (2^52) is the least integer
not below, or the integer nearest to, the exact one. -/
theorem C117_rounding {x y t : Str} {m : Rounding} (hx : IsAmount x) (hy : IsAmount y) (h : IsTotal x ∨ IsTotal y)
    (hm : RoundingText m t) (hn : NoRandomNumber (x ++ y)) (f f1 f2 : σ) (ds1 ds2 : List Die) (v w : Int64)
    (hv : Amount F g x f ds1 v f1) (hw : Amount F g y f1 ds2 w f2) (h0 : w ≠ 0) :
    ∃ u, Replies F g (chars!"(" ++ x ++ chars!")/(" ++ y ++ chars!")" ++ t) f (ds1 ++ ds2) (intStr u) f2 ∧
      (|v.toInt| < 2 ^ 53 → |w.toInt| < 2 ^ 53 → m = .up → u.toInt = ⌈(v.toInt : Rat) / w.toInt⌉) ∧
      (|v.toInt| < 2 ^ 52 → |w.toInt| < 2 ^ 53 → m = .round → IsNearest ((v.toInt : Rat) / w.toInt) u.toInt) := by
  refine ⟨_, (divided F g hx hy h hm hn ..).mpr ⟨f1, ds1, ds2, v, w, divValue m v w, hv, hw, rfl, ⟨h0, rfl⟩, rfl⟩, ?_, ?_⟩
  · rintro h1 h2 rfl
    exact divValue_up v w h0 h1 h2
  · rintro h1 h2 rfl
    exact divValue_round v w h0 h1 h2

/-- **C117.** If a division of amounts is answered, both of them are, one after the other, and the second one is not 0. -/
theorem C117_answered {x y t : Str} {m : Rounding} (hx : IsAmount x) (hy : IsAmount y) (h : IsTotal x ∨ IsTotal y)
    (hm : RoundingText m t) (hn : NoRandomNumber (x ++ y)) (f f2 : σ) (ds : List Die) (last : Str)
    (hr : Replies F g (chars!"(" ++ x ++ chars!")/(" ++ y ++ chars!")" ++ t) f ds last f2) :
    ∃ f1 ds1 ds2 v w, Amount F g x f ds1 v f1 ∧ Amount F g y f1 ds2 w f2 ∧ ds = ds1 ++ ds2 ∧ w ≠ 0 := by
  obtain ⟨f1, ds1, ds2, v, w, u, h1, h2, h3, ⟨h4, -⟩, -⟩ := (divided F g hx hy h hm hn ..).mp hr
  exact ⟨f1, ds1, ds2, v, w, h1, h2, h3, h4⟩

/-- **C117.** A total in parentheses, or with a plus, is answered the same; with a minus, its opposite. -/
theorem C117_sign {x : Str} (hx : IsTotal x) (hn : NoRandomNumber x) (f f2 : σ) (ds : List Die) (last : Str) :
    (Replies F g (chars!"(" ++ x ++ chars!")") f ds last f2 ↔ Replies F g x f ds last f2) ∧
    (Replies F g (chars!"+(" ++ x ++ chars!")") f ds last f2 ↔ Replies F g x f ds last f2) ∧
    (Replies F g (chars!"-(" ++ x ++ chars!")") f ds last f2 ↔ ∃ v, Replies F g x f ds (intStr v) f2 ∧ last = intStr (-v)) := by
  obtain ⟨e, hx⟩ := hx
  have hx' := hx
  cases hx' with | dRollExpr d n =>
  have hp := d.plainRolls_of_noRandom hn
  have c1 : CommandText (chars!"(" ++ x ++ chars!")") (.dRollExpr e) := .dRollExpr (.addMul (.mulPrim (.paren d))) n
  have c2 : CommandText (chars!"+(" ++ x ++ chars!")") (.dRollExpr e) :=
    .dRollExpr (by simpa using Der.addMul (.mulPrim (.plus (.paren d)))) n
  have c3 : CommandText (chars!"-(" ++ x ++ chars!")") (.dRollExpr (.neg e)) :=
    .dRollExpr (by simpa using Der.addMul (.mulPrim (.minus (.paren d)))) n
  rw [replies_total F g c1 hp, replies_total F g c2 hp, replies_total F g c3 hp, replies_total F g hx hp]
  refine ⟨Iff.rfl, Iff.rfl, ?_⟩
  constructor
  · rintro ⟨v, h1, h2, rfl⟩
    cases h1 with | neg h1 =>
    exact ⟨_, (replies_total F g hx hp ..).mpr ⟨_, h1, h2, rfl⟩, rfl⟩
  · rintro ⟨v, h, rfl⟩
    obtain ⟨w, h1, h2, h3⟩ := (replies_total F g hx hp ..).mp h
    obtain rfl := intStr_inj h3
    exact ⟨_, .neg h1, h2, rfl⟩

end

/-! Cases met. -/

example : IsTotal chars!"2D6+1" := ⟨_, (parse_iff _ _).mp rfl⟩

theorem isCalculation_two : IsCalculation chars!"2" :=
  Der.isCalculation (e := .int 2) (.addMul (.mulPrim (.primNum (.number (ds := chars!"2") (by decide) (by decide)))))

theorem calculates_two : Calculates chars!"2" 2 :=
  (Der.calculates (e := .int 2) (.addMul (.mulPrim (.primNum (.number (ds := chars!"2") (by decide) (by decide)))))).mpr ⟨fun _ _ => rfl⟩

example : Replies queueFeeder chars!"DiceBot" chars!"(2D6)/(2)" [⟨4, 6⟩, ⟨5, 6⟩, ⟨1, 10⟩] [⟨4, 6⟩, ⟨5, 6⟩] chars!"4" [⟨1, 10⟩] :=
  (C117_division queueFeeder chars!"DiceBot" (x := chars!"2D6") (y := chars!"2") (.inl ⟨_, (parse_iff _ _).mp rfl⟩)
    (.inr isCalculation_two) (.inl ⟨_, (parse_iff _ _).mp rfl⟩) (by unfold NoRandomNumber; decide) _ _ _ _).mpr
    ⟨[⟨1, 10⟩], [⟨4, 6⟩, ⟨5, 6⟩], [], 9, 2, .inl ⟨⟨_, (parse_iff _ _).mp rfl⟩, _, rfl, rfl, rfl⟩,
      .inr ⟨isCalculation_two, calculates_two, rfl, rfl⟩, rfl, by decide, rfl⟩

end GoBCDice
