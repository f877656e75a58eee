import Verif.Spec.InTurn
import Verif.Props.TypedAlike
import Verif.Props.Easier
import Verif.Props.Display
import Verif.Lemmas.Redisplay

/-!
# C115: rolls may be made one after another
-/

namespace GoBCDice

/-! ### Texts -/

theorem Der.calc_of_noRandom {nt : NT} {s : Str} {e : Expr} (h : Der nt s e) (hn : '[' ∉ s) :
    (nt ≠ .dRoll ∧ nt ≠ .prim .dice ∧ nt ≠ .mul .dice ∧ nt ≠ .add .dice) → e.rands = 0 := by
  induction h <;> simp_all [Expr.rands]

theorem Der.plainRolls_of_noRandom {nt : NT} {s : Str} {e : Expr} (h : Der nt s e) (hn : '[' ∉ s) : PlainRolls e := by
  have nv : ∀ {nt s e}, Der nt s e → e.rands = 0 → e.isVariable = false := fun h h0 => by
    have := h.rands_pos
    cases hv : Expr.isVariable _ with
    | false => rfl
    | true => have := this.mpr hv; omega
  induction h with
  | dRoll hd h1 h2 ih1 ih2 =>
    simp only [List.mem_append, not_or] at hn
    exact ⟨nv h1 (h1.calc_of_noRandom hn.1.1 (by simp)), nv h2 (h2.calc_of_noRandom hn.2 (by simp))⟩
  | randNum => simp at hn
  | _ => simp_all [PlainRolls]

theorem Der.noVar {s : Str} {e : Expr} (h : Der .rollOperand s e) (hn : '[' ∉ s) : e.isVariable = false := by
  have h0 := h.calc_of_noRandom hn (by simp)
  have := h.rands_pos
  cases hv : e.isVariable with
  | false => rfl
  | true => have := this.mpr hv; omega

theorem Der.noVar_int {s : Str} {e : Expr} (h : Der (.add .int) s e) : e.isVariable = false := by
  have h0 := h.int_rands (by simp)
  have := h.rands_pos
  cases hv : e.isVariable with
  | false => rfl
  | true => have := this.mpr hv; omega

theorem RollsText.calc {letters : Char × Char} {s : Str} {rs : List Roll} (h : RollsText letters s rs) (hn : '[' ∉ s) :
    ∀ r ∈ rs, r.num.isVariable = false ∧ r.sides.isVariable = false := by
  have one : ∀ {s : Str} {r : Roll}, RollText letters s r → '[' ∉ s → r.num.isVariable = false ∧ r.sides.isVariable = false := by
    rintro s r ⟨a, b, l, rfl, -, ha, hb⟩ hn
    simp only [List.mem_append, not_or] at hn
    exact ⟨ha.noVar hn.1.1, hb.noVar hn.2⟩
  induction h with
  | one h => intro r hr; rw [List.mem_singleton] at hr; subst hr; exact one h hn
  | cons h _ ih =>
    simp only [List.mem_append, not_or] at hn
    intro r hr
    rcases List.mem_cons.mp hr with rfl | hr
    · exact one h hn.1.1
    · exact ih hn.2 r hr

theorem RollsText.append {letters : Char × Char} {s t : Str} {rs rs' : List Roll} (h : RollsText letters s rs)
    (h' : RollsText letters t rs') : RollsText letters (s ++ chars!"+" ++ t) (rs ++ rs') := by
  induction h with
  | one h => exact .cons h h'
  | cons h _ ih => simpa using RollsText.cons h ih

/-! ### Lists of rolls -/

theorem Args.calc {rs : List Roll} {as : List Die} {ps : List (Int64 × Int64)} (h : Args rs as ps)
    (hc : ∀ r ∈ rs, r.num.isVariable = false ∧ r.sides.isVariable = false) : as = [] := by
  induction h with
  | nil => rfl
  | cons h1 h2 _ ih =>
    have := hc _ List.mem_cons_self
    rw [h1.no_dice this.1, h2.no_dice this.2, ih fun r hr => hc r (by simp [hr])]
    rfl

theorem Args.join {rs rs' : List Roll} {as as' : List Die} {ps ps' : List (Int64 × Int64)} (h : Args rs as ps) (h' : Args rs' as' ps') :
    Args (rs ++ rs') (as ++ as') (ps ++ ps') := by
  induction h with
  | nil => exact h'
  | cons h1 h2 _ ih => simpa using Args.cons h1 h2 ih

theorem Args.unjoin : ∀ {rs rs' : List Roll} {as : List Die} {ps : List (Int64 × Int64)}, Args (rs ++ rs') as ps →
    ∃ as1 as2 ps1 ps2, Args rs as1 ps1 ∧ Args rs' as2 ps2 ∧ as = as1 ++ as2 ∧ ps = ps1 ++ ps2
  | [], _, _, _, h => ⟨[], _, [], _, .nil, h, rfl, rfl⟩
  | _ :: _, _, _, _, .cons h1 h2 h3 => by
    obtain ⟨as1, as2, ps1, ps2, h4, h5, rfl, rfl⟩ := Args.unjoin h3
    exact ⟨_, as2, _, ps2, .cons h1 h2 h4, h5, by simp, by simp⟩

theorem GroupsFor.join {ps ps' : List (Int64 × Int64)} {gs gs' : List (List Die)} (h : GroupsFor ps gs) (h' : GroupsFor ps' gs') :
    GroupsFor (ps ++ ps') (gs ++ gs') := by
  induction h with
  | nil => exact h'
  | cons h1 _ ih => exact .cons h1 ih

theorem GroupsFor.unjoin : ∀ {ps ps' : List (Int64 × Int64)} {gs : List (List Die)}, GroupsFor (ps ++ ps') gs →
    ∃ gs1 gs2, GroupsFor ps gs1 ∧ GroupsFor ps' gs2 ∧ gs = gs1 ++ gs2
  | [], _, gs, h => ⟨[], gs, .nil, h, rfl⟩
  | _ :: _, _, _, .cons h1 h2 => by
    obtain ⟨gs1, gs2, h3, h4, rfl⟩ := GroupsFor.unjoin h2
    exact ⟨_, gs2, .cons h1 h3, h4, rfl⟩

theorem UGroups.join {limit : Nat} {th : Int64} {ps ps' : List (Int64 × Int64)} {gs gs' : List (List Die)} (h : UGroups limit th ps gs)
    (h' : UGroups limit th ps' gs') : UGroups limit th (ps ++ ps') (gs ++ gs') := by
  induction h with
  | nil => exact h'
  | cons h1 _ ih => simpa using UGroups.cons h1 ih

theorem UGroups.unjoin {limit : Nat} {th : Int64} : ∀ {ps ps' : List (Int64 × Int64)} {gs : List (List Die)},
    UGroups limit th (ps ++ ps') gs → ∃ gs1 gs2, UGroups limit th ps gs1 ∧ UGroups limit th ps' gs2 ∧ gs = gs1 ++ gs2
  | [], _, gs, h => ⟨[], gs, .nil, h, rfl⟩
  | _ :: _, _, _, .cons h1 h2 => by
    obtain ⟨gs1, gs2, h3, h4, rfl⟩ := UGroups.unjoin h2
    exact ⟨_, gs2, .cons h1 h3, h4, by simp⟩

theorem GroupsFor.flat_ne {ps : List (Int64 × Int64)} {gs : List (List Die)} (h : GroupsFor ps gs) (hp : ps ≠ []) : gs.flatten ≠ [] := by
  cases h with
  | nil => exact absurd rfl hp
  | cons h1 _ =>
    obtain ⟨-, h2, -, h3, -⟩ := h1
    rw [Int64.le_iff_toInt_le] at h2
    intro he
    simp only [List.flatten_cons, List.append_eq_nil_iff] at he
    rw [he.1] at h3
    have : (1 : Int64).toInt = 1 := by decide
    simp at h3
    omega

theorem join_join (sep : Str) : ∀ {xs ys : List Str}, xs ≠ [] → ys ≠ [] → join sep (xs ++ ys) = join sep xs ++ sep ++ join sep ys
  | [x], y :: ys, _, _ => by simp [join]
  | x :: x' :: xs, ys, _, hy => by
    have := join_join sep (xs := x' :: xs) (ys := ys) (by simp) hy
    simp only [List.cons_append, join] at this ⊢
    simp [this]
  | [], _, h, _ => absurd rfl h

theorem successes_join (op : CmpOp) (t : Int64) (vs ws : List Int64) :
    Int64.ofNat (successes op t (vs ++ ws)) = Int64.ofNat (successes op t vs) + Int64.ofNat (successes op t ws) := by
  simp [successes, Int64.ofNat_add]

/-! ### B rolls -/

section
variable {σ : Type} (F : DieFeeder σ) (g : Str)

/-- **C115.** A list of B rolls is answered exactly if its parts are when executed one after the other, and shows their dice and
values. -/
theorem C115_values {s t : Str} {rs rs' : List Roll} (hs : RollsText ('B', 'b') s rs) (ht : RollsText ('B', 'b') t rs')
    (hn : NoRandomNumber (s ++ t)) (f f2 : σ) (ds : List Die) (last : Str) :
    Replies F g (s ++ chars!"+" ++ t) f ds last f2 ↔
      ∃ f1 ds1 ds2 v w, Replies F g s f ds1 v f1 ∧ Replies F g t f1 ds2 w f2 ∧ ds = ds1 ++ ds2 ∧ last = v ++ chars!"," ++ w := by
  simp only [NoRandomNumber, List.mem_append, not_or] at hn
  have c1 := hs.calc hn.1
  have c2 := ht.calc hn.2
  have u1 : ∀ n, CommandText s n → n = .bRollList rs := fun n h => by
    have := ((parse_iff s n).mpr h).symm.trans ((parse_iff _ _).mpr (.bRollList hs)); simpa using this
  have u2 : ∀ n, CommandText t n → n = .bRollList rs' := fun n h => by
    have := ((parse_iff t n).mpr h).symm.trans ((parse_iff _ _).mpr (.bRollList ht)); simpa using this
  have u3 : ∀ n, CommandText (s ++ chars!"+" ++ t) n → n = .bRollList (rs ++ rs') := fun n h => by
    have := ((parse_iff _ n).mpr h).symm.trans ((parse_iff _ _).mpr (.bRollList (hs.append ht))); simpa using this
  have hj : ∀ {ps1 ps2 : List (Int64 × Int64)} {gs1 gs2 : List (List Die)}, Args rs [] ps1 → Args rs' [] ps2 → GroupsFor ps1 gs1 →
      GroupsFor ps2 gs2 → valuesText ((gs1 ++ gs2).flatten.map Die.value) =
        valuesText (gs1.flatten.map Die.value) ++ chars!"," ++ valuesText (gs2.flatten.map Die.value) := by
    intro ps1 ps2 gs1 gs2 a1 a2 h1 h2
    have n1 := h1.flat_ne (a1.ne_nil hs.ne_nil)
    have n2 := h2.flat_ne (a2.ne_nil ht.ne_nil)
    simp only [valuesText, List.flatten_append, List.map_append]
    exact join_join _ (by simpa using n1) (by simpa using n2)
  constructor
  · rintro ⟨r, h, rfl, hl⟩
    obtain ⟨n, ds, h1, h2, h3⟩ := executeBasicCommand_ok_text.mp h
    obtain rfl := u3 n h1
    cases h2 with | bRollList ha hg =>
    obtain ⟨as1, as2, ps1, ps2, a1, a2, rfl, rfl⟩ := ha.unjoin
    obtain ⟨gs1, gs2, g1, g2, rfl⟩ := hg.unjoin
    obtain rfl := a1.calc c1
    obtain rfl := a2.calc c2
    simp only [List.flatten_append, List.nil_append] at h3
    obtain ⟨f1, d1, d2⟩ := h3.split
    refine ⟨f1, gs1.flatten, gs2.flatten, _, _,
      ⟨_, executeBasicCommand_ok_text.mpr ⟨_, _, .bRollList hs, .bRollList a1 g1, by simpa using d1⟩, by simp, rfl⟩,
      ⟨_, executeBasicCommand_ok_text.mpr ⟨_, _, .bRollList ht, .bRollList a2 g2, by simpa using d2⟩, by simp, rfl⟩, by simp, ?_⟩
    exact (Option.some.inj hl).symm.trans (hj a1 a2 g1 g2)
  · rintro ⟨f1, ds1, ds2, v, w, ⟨r1, h, rfl, hl⟩, ⟨r2, h', rfl, hl'⟩, rfl, rfl⟩
    obtain ⟨n, ds, h1, h2, h3⟩ := executeBasicCommand_ok_text.mp h
    obtain rfl := u1 n h1
    cases h2 with | @bRollList _ _ ps1 gs1 a1 g1 =>
    obtain ⟨n, ds, h1', h2', h3'⟩ := executeBasicCommand_ok_text.mp h'
    obtain rfl := u2 n h1'
    cases h2' with | @bRollList _ _ ps2 gs2 a2 g2 =>
    obtain rfl := a1.calc c1
    obtain rfl := a2.calc c2
    refine ⟨_, executeBasicCommand_ok_text.mpr ⟨_, _, .bRollList (hs.append ht), .bRollList (a1.join a2) (g1.join g2), ?_⟩, by simp, ?_⟩
    · simpa using h3.append h3'
    · obtain rfl : valuesText (gs1.flatten.map Die.value) = v := Option.some.inj hl
      obtain rfl : valuesText (gs2.flatten.map Die.value) = w := Option.some.inj hl'
      exact congrArg some (hj a1 a2 g1 g2)

/-- **C115.** If a list of B rolls is compared with a target, its successes are those of its parts together. -/
theorem C115_successes {s t c : Str} {rs rs' : List Roll} {op : CmpOp} {e : Expr} (hs : RollsText ('B', 'b') s rs)
    (ht : RollsText ('B', 'b') t rs') (hc : CompareText c op e) (hn : NoRandomNumber (s ++ t)) (f f2 : σ) (ds : List Die) (last : Str) :
    Replies F g (s ++ chars!"+" ++ t ++ c) f ds last f2 ↔
      ∃ f1 ds1 ds2 n m, Replies F g (s ++ c) f ds1 (successesShown n) f1 ∧ Replies F g (t ++ c) f1 ds2 (successesShown m) f2 ∧
        ds = ds1 ++ ds2 ∧ last = successesShown (n + m) := by
  simp only [NoRandomNumber, List.mem_append, not_or] at hn
  have c1 := hs.calc hn.1
  have c2 := ht.calc hn.2
  have ce : e.isVariable = false := by cases hc with | mk h => exact h.noVar_int
  have t1 := CommandText.bRollComp hs hc
  have t2 := CommandText.bRollComp ht hc
  have t3 := CommandText.bRollComp (hs.append ht) hc
  have u1 : ∀ n, CommandText (s ++ c) n → n = .bRollComp rs op e := fun n h => by
    have := ((parse_iff _ n).mpr h).symm.trans ((parse_iff _ _).mpr t1); simpa using this
  have u2 : ∀ n, CommandText (t ++ c) n → n = .bRollComp rs' op e := fun n h => by
    have := ((parse_iff _ n).mpr h).symm.trans ((parse_iff _ _).mpr t2); simpa using this
  have u3 : ∀ n, CommandText (s ++ chars!"+" ++ t ++ c) n → n = .bRollComp (rs ++ rs') op e := fun n h => by
    have := ((parse_iff _ n).mpr h).symm.trans ((parse_iff _ _).mpr t3); simpa using this
  constructor
  · rintro ⟨r, h, rfl, hl⟩
    obtain ⟨n, ds, h1, h2, h3⟩ := executeBasicCommand_ok_text.mp h
    obtain rfl := u3 n h1
    cases h2 with | bRollComp ha he hg =>
    obtain ⟨as1, as2, ps1, ps2, a1, a2, rfl, rfl⟩ := ha.unjoin
    obtain ⟨gs1, gs2, g1, g2, rfl⟩ := hg.unjoin
    obtain rfl := a1.calc c1
    obtain rfl := a2.calc c2
    obtain rfl := he.no_dice ce
    simp only [List.flatten_append, List.nil_append] at h3
    obtain ⟨f1, d1, d2⟩ := h3.split
    refine ⟨f1, gs1.flatten, gs2.flatten, _, _,
      ⟨_, executeBasicCommand_ok_text.mpr ⟨_, _, t1, .bRollComp a1 he g1, by simpa using d1⟩, by simp, rfl⟩,
      ⟨_, executeBasicCommand_ok_text.mpr ⟨_, _, t2, .bRollComp a2 he g2, by simpa using d2⟩, by simp, rfl⟩, by simp, ?_⟩
    have e3 : successesShown (Int64.ofNat (successes op _ ((gs1 ++ gs2).flatten.map Die.value))) = last := Option.some.inj hl
    rw [← e3, List.flatten_append, List.map_append, successes_join]
  · rintro ⟨f1, ds1, ds2, n, m, ⟨r1, h, rfl, hl⟩, ⟨r2, h', rfl, hl'⟩, rfl, rfl⟩
    obtain ⟨n', ds, h1, h2, h3⟩ := executeBasicCommand_ok_text.mp h
    obtain rfl := u1 n' h1
    cases h2 with | @bRollComp _ _ _ _ _ ps1 gs1 target a1 he g1 =>
    obtain ⟨n', ds, h1', h2', h3'⟩ := executeBasicCommand_ok_text.mp h'
    obtain rfl := u2 n' h1'
    cases h2' with | @bRollComp _ _ _ _ _ ps2 gs2 target' a2 he' g2 =>
    obtain rfl := a1.calc c1
    obtain rfl := a2.calc c2
    obtain rfl := he.no_dice ce
    obtain ⟨rfl, rfl⟩ := he.const rfl _ _ he'
    refine ⟨_, executeBasicCommand_ok_text.mpr ⟨_, _, t3, .bRollComp (a1.join a2) he (g1.join g2), ?_⟩, by simp, ?_⟩
    · simpa using h3.append h3'
    · have e1 := intStr_inj (List.append_cancel_left (Option.some.inj hl))
      have e2 := intStr_inj (List.append_cancel_left (Option.some.inj hl'))
      simp only [List.flatten_append, List.map_append, successes_join, successesShown, ← e1, ← e2]
      rfl

/-! ### D rolls -/

/-- **C115.** Totals of D rolls may be rolled one after the other and then added, subtracted or multiplied. -/
theorem C115_total {x y c : Str} {a b : Expr} {o : Int64 → Int64 → Int64} (hx : CommandText x (.dRollExpr a))
    (hy : CommandText y (.dRollExpr b)) (ho : Operation c o) (hn : NoRandomNumber (x ++ y)) (f f2 : σ) (ds : List Die) (last : Str) :
    Replies F g (chars!"(" ++ x ++ chars!")" ++ c ++ chars!"(" ++ y ++ chars!")") f ds last f2 ↔
      ∃ f1 ds1 ds2 v w, Replies F g x f ds1 (intStr v) f1 ∧ Replies F g y f1 ds2 (intStr w) f2 ∧ ds = ds1 ++ ds2 ∧
        last = intStr (o v w) := by
  simp only [NoRandomNumber, List.mem_append, not_or] at hn
  have ans : ∀ {z : Str} {e : Expr}, CommandText z (.dRollExpr e) → PlainRolls e → ∀ (f f2 : σ) (ds : List Die) (last : Str),
      Replies F g z f ds last f2 ↔ ∃ v, Ev e ds v ∧ Draws F f ds f2 ∧ last = intStr v := by
    intro z e hz hp f f2 ds last
    constructor
    · rintro ⟨r, h, rfl, hl⟩
      obtain ⟨n, ds, h1, h2, h3⟩ := executeBasicCommand_ok_text.mp h
      have := ((parse_iff _ n).mpr h1).symm.trans ((parse_iff _ _).mpr hz)
      simp only [Option.some.injEq] at this
      subst this
      cases h2 with | dRollExpr d1 d2 d3 =>
      refine ⟨_, (dval_iff_ev hp _ _).mp ⟨_, _, rfl, (staged_iff_DVal ..).mp ⟨_, _, d1, d2, d3⟩⟩, h3, ?_⟩
      exact (Option.some.inj hl).symm
    · rintro ⟨v, h1, h2, rfl⟩
      obtain ⟨as, rs, rfl, h3⟩ := (dval_iff_ev hp _ _).mpr h1
      obtain ⟨e1, e2, d1, d2, d3⟩ := (staged_iff_DVal ..).mpr h3
      exact ⟨_, executeBasicCommand_ok_text.mpr ⟨_, _, hz, .dRollExpr d1 d2 d3, h2⟩, rfl, rfl⟩
  have hx' := hx
  have hy' := hy
  cases hx' with | dRollExpr dx nx =>
  cases hy' with | dRollExpr dy ny =>
  have px := dx.plainRolls_of_noRandom hn.1
  have py := dy.plainRolls_of_noRandom hn.2
  have qx : Der (.mul .dice) (chars!"(" ++ x ++ chars!")") a := .mulPrim (.paren dx)
  have qy : Der (.prim .dice) (chars!"(" ++ y ++ chars!")") b := .paren dy
  rw [List.append_assoc _ chars!"(" y, List.append_assoc _ (chars!"(" ++ y)]
  cases ho with
  | plus =>
    rw [ans (.dRollExpr (.addAdd (.addMul qx) (.mulPrim qy)) (by simp only [Expr.rands]; omega)) ⟨px, py⟩]
    constructor
    · rintro ⟨v, h1, h2, rfl⟩
      cases h1 with | add h1 h1' =>
      obtain ⟨f1, d1, d2⟩ := h2.split
      exact ⟨f1, _, _, _, _, (ans hx px ..).mpr ⟨_, h1, d1, rfl⟩, (ans hy py ..).mpr ⟨_, h1', d2, rfl⟩, rfl, rfl⟩
    · rintro ⟨f1, ds1, ds2, v, w, h1, h2, rfl, rfl⟩
      obtain ⟨v', h3, h4, h5⟩ := (ans hx px ..).mp h1
      obtain ⟨w', h6, h7, h8⟩ := (ans hy py ..).mp h2
      obtain rfl := intStr_inj h5
      obtain rfl := intStr_inj h8
      exact ⟨_, .add h3 h6, h4.append h7, rfl⟩
  | minus =>
    rw [ans (.dRollExpr (.addSub (.addMul qx) (.mulPrim qy)) (by simp only [Expr.rands]; omega)) ⟨px, py⟩]
    constructor
    · rintro ⟨v, h1, h2, rfl⟩
      cases h1 with | sub h1 h1' =>
      obtain ⟨f1, d1, d2⟩ := h2.split
      exact ⟨f1, _, _, _, _, (ans hx px ..).mpr ⟨_, h1, d1, rfl⟩, (ans hy py ..).mpr ⟨_, h1', d2, rfl⟩, rfl, rfl⟩
    · rintro ⟨f1, ds1, ds2, v, w, h1, h2, rfl, rfl⟩
      obtain ⟨v', h3, h4, h5⟩ := (ans hx px ..).mp h1
      obtain ⟨w', h6, h7, h8⟩ := (ans hy py ..).mp h2
      obtain rfl := intStr_inj h5
      obtain rfl := intStr_inj h8
      exact ⟨_, .sub h3 h6, h4.append h7, rfl⟩
  | times =>
    rw [ans (.dRollExpr (.addMul (.mulMul qx qy)) (by simp only [Expr.rands]; omega)) ⟨px, py⟩]
    constructor
    · rintro ⟨v, h1, h2, rfl⟩
      cases h1 with | mul h1 h1' =>
      obtain ⟨f1, d1, d2⟩ := h2.split
      exact ⟨f1, _, _, _, _, (ans hx px ..).mpr ⟨_, h1, d1, rfl⟩, (ans hy py ..).mpr ⟨_, h1', d2, rfl⟩, rfl, rfl⟩
    · rintro ⟨f1, ds1, ds2, v, w, h1, h2, rfl, rfl⟩
      obtain ⟨v', h3, h4, h5⟩ := (ans hx px ..).mp h1
      obtain ⟨w', h6, h7, h8⟩ := (ans hy py ..).mp h2
      obtain rfl := intStr_inj h5
      obtain rfl := intStr_inj h8
      exact ⟨_, .mul h3 h6, h4.append h7, rfl⟩

/-! ### U rolls -/

theorem groups_join (gs gs' : List (List Die)) : groupSums (gs ++ gs') = groupSums gs ++ groupSums gs' := by simp [groupSums]

/-- **C115.** If a list of U rolls is compared with a target, its successes are those of its parts (with the same threshold
and the same bonus) together. -/
theorem C115_successes_U {s t u b c : Str} {rs rs' : List Roll} {te : Expr} {bo : Option (Sign × Expr)} {op : CmpOp} {e : Expr}
    {th : Int64} (hs : RollsText ('U', 'u') s rs) (ht : RollsText ('U', 'u') t rs') (hu : ThresholdText u (some te))
    (hb : BonusText b bo) (hc : CompareText c op e) (hth : Ev te [] th) (h2 : 2 ≤ th) (hn : NoRandomNumber (s ++ t)) (f f2 : σ)
    (ds : List Die) (last : Str) :
    Replies F g (s ++ chars!"+" ++ t ++ u ++ b ++ c) f ds last f2 ↔
      ∃ f1 ds1 ds2 n m, Replies F g (s ++ u ++ b ++ c) f ds1 (successesShown n) f1 ∧
        Replies F g (t ++ u ++ b ++ c) f1 ds2 (successesShown m) f2 ∧ ds = ds1 ++ ds2 ∧ last = successesShown (n + m) := by
  simp only [NoRandomNumber, List.mem_append, not_or] at hn
  have ce : e.isVariable = false := by cases hc with | mk h => exact h.noVar_int
  have cb : ∀ {ms m}, Bonus bo ms m → ms = [] ∧ ∀ {ms' m'}, Bonus bo ms' m' → m' = m := by
    intro ms m h
    cases hb with
    | absent => cases h; exact ⟨rfl, fun h => by cases h; rfl⟩
    | plus hd =>
      cases h with | plus h =>
      obtain rfl := h.no_dice hd.noVar_int
      exact ⟨rfl, fun h' => by cases h' with | plus h' => rw [(h.const rfl _ _ h').2]⟩
    | minus hd =>
      cases h with | minus h =>
      obtain rfl := h.no_dice hd.noVar_int
      exact ⟨rfl, fun h' => by cases h' with | minus h' => rw [(h.const rfl _ _ h').2]⟩
  have thr : ∀ {ts x}, Threshold (some te) ts x → ts = [] ∧ x = some th := by
    intro ts x h
    cases h with | given h =>
    obtain ⟨h1, h2⟩ := hth.const rfl _ _ h
    exact ⟨h1, by rw [h2]⟩
  have notRef : ∀ {msg x}, x = some th → ¬ Refused missingThresholdU x msg := by
    rintro msg x rfl h
    cases h with | small h =>
    rw [Int64.lt_iff_toInt_lt] at h
    rw [Int64.le_iff_toInt_le] at h2
    omega
  have txt : ∀ {z : Str} {rs : List Roll}, RollsText ('U', 'u') z rs →
      CommandText (z ++ u ++ b ++ c) (.uRollComp ⟨⟨rs, some te⟩, bo⟩ op e) := fun hz =>
    .uRollComp ⟨_, _, rfl, ⟨_, _, rfl, hz, hu⟩, hb⟩ hc
  have ans : ∀ {z : Str} {rs : List Roll}, RollsText ('U', 'u') z rs → '[' ∉ z → ∀ (f f2 : σ) (ds : List Die) (last : Str),
      Replies F g (z ++ u ++ b ++ c) f ds last f2 ↔ ∃ ps gs m target, Args rs [] ps ∧ Bonus bo [] m ∧ Ev e [] target ∧
        UGroups 10000 th ps gs ∧ Draws F f gs.flatten f2 ∧ ds = gs.flatten ∧
        last = successesShown (Int64.ofNat (successes op target ((groupSums gs).map (fun x => x + m)))) := by
    intro z rs hz hnz f f2 ds last
    constructor
    · rintro ⟨r, h, rfl, hl⟩
      obtain ⟨n, ds, h1, h3, h4⟩ := executeBasicCommand_ok_text.mp h
      have := ((parse_iff _ n).mpr h1).symm.trans ((parse_iff _ _).mpr (txt hz))
      simp only [Option.some.injEq] at this
      subst this
      cases h3 with
      | uRollCompRefused a1 a2 a3 a4 a5 => exact absurd a5 (notRef (thr a1).2)
      | uRollComp a1 a2 a3 a4 a5 a6 =>
        obtain ⟨rfl, hx⟩ := thr a1
        cases hx
        obtain rfl := a2.calc (hz.calc hnz)
        obtain ⟨rfl, -⟩ := cb a3
        obtain rfl := a4.no_dice ce
        exact ⟨_, _, _, _, a2, a3, a4, a6, by simpa using h4, by simp, (Option.some.inj hl).symm⟩
    · rintro ⟨ps, gs, m, target, a1, a2, a3, a4, a5, rfl, rfl⟩
      exact ⟨_, executeBasicCommand_ok_text.mpr ⟨_, _, txt hz, .uRollComp (.given hth) a1 a2 a3 h2 a4, by simpa using a5⟩, by simp, rfl⟩
  rw [ans (hs.append ht) (by simp [hn])]
  constructor
  · rintro ⟨ps, gs, m, target, a1, a2, a3, a4, a5, rfl, rfl⟩
    obtain ⟨as1, as2, ps1, ps2, b1, b2, hab, rfl⟩ := a1.unjoin
    obtain ⟨rfl, rfl⟩ := List.append_eq_nil_iff.mp hab.symm
    obtain ⟨gs1, gs2, g1, g2, rfl⟩ := a4.unjoin
    rw [List.flatten_append] at a5
    obtain ⟨f1, d1, d2⟩ := a5.split
    refine ⟨f1, gs1.flatten, gs2.flatten, _, _, (ans hs hn.1 ..).mpr ⟨_, _, _, _, b1, a2, a3, g1, d1, rfl, rfl⟩,
      (ans ht hn.2 ..).mpr ⟨_, _, _, _, b2, a2, a3, g2, d2, rfl, rfl⟩, by simp, ?_⟩
    rw [groups_join, List.map_append, successes_join]
  · rintro ⟨f1, ds1, ds2, n, m, h1, h3, rfl, rfl⟩
    obtain ⟨ps1, gs1, m1, t1, a1, a2, a3, a4, a5, rfl, e1⟩ := (ans hs hn.1 ..).mp h1
    obtain ⟨ps2, gs2, m2, t2, b1, b2, b3, b4, b5, rfl, e2⟩ := (ans ht hn.2 ..).mp h3
    obtain rfl := (cb a2).2 b2
    obtain ⟨-, rfl⟩ := a3.const rfl _ _ b3
    refine ⟨_, gs1 ++ gs2, _, _, by simpa using a1.join b1, a2, a3, a4.join b4, by simpa using a5.append b5, by simp, ?_⟩
    have e1 := intStr_inj (List.append_cancel_left e1)
    have e2 := intStr_inj (List.append_cancel_left e2)
    rw [groups_join, List.map_append, successes_join, e1, e2]

theorem maxAndTotal_inj {m t m' t' : Int64} (h : maxAndTotalShown m t = maxAndTotalShown m' t') : m = m' ∧ t = t' := by
  have ns : ∀ x : Int64, ∀ c ∈ intStr x, (c != '/') = true := by
    intro x c hc
    unfold intStr at hc
    split at hc
    · rcases List.mem_cons.mp hc with rfl | hc
      · decide
      · simp only [bne_iff_ne]
        rintro rfl
        exact absurd (natStr_isDigit _ _ hc) (by decide)
    · simp only [bne_iff_ne]
      rintro rfl
      exact absurd (natStr_isDigit _ _ hc) (by decide)
  have key : ∀ x y : Int64, (maxAndTotalShown x y).takeWhile (fun c => c != '/') = intStr x := by
    intro x y
    unfold maxAndTotalShown
    rw [List.append_assoc, List.append_assoc, List.takeWhile_append_of_pos (ns x)]
    simp
  have h1 : m = m' := intStr_inj (by rw [← key m t, h, key])
  subst h1
  refine ⟨rfl, intStr_inj ?_⟩
  unfold maxAndTotalShown at h
  exact List.append_cancel_left (List.append_cancel_right h)

theorem max_join {m m' : Int64} {vs ws : List Int64} (h : IsMax m vs) (h' : IsMax m' ws) : IsMax (max m m') (vs ++ ws) := by
  have hle : ∀ a b : Int64, a ≤ max a b ∧ b ≤ max a b ∧ (max a b = a ∨ max a b = b) := by
    intro a b
    have hm : max a b = if a ≤ b then b else a := rfl
    rw [hm]
    split
    · rename_i h; exact ⟨h, Int64.le_refl _, .inr rfl⟩
    · rename_i h
      refine ⟨Int64.le_refl _, ?_, .inl rfl⟩
      rw [Int64.le_iff_toInt_le] at h ⊢
      omega
  obtain ⟨h1, h2, h3⟩ := hle m m'
  refine ⟨?_, fun w hw => ?_⟩
  · rcases h3 with h3 | h3 <;> rw [h3]
    · exact List.mem_append.mpr (.inl h.1)
    · exact List.mem_append.mpr (.inr h'.1)
  · rcases List.mem_append.mp hw with hw | hw
    · exact Int64.le_trans (h.2 w hw) h1
    · exact Int64.le_trans (h'.2 w hw) h2

theorem UGroups.ne {limit : Nat} {th : Int64} {ps : List (Int64 × Int64)} {gs : List (List Die)} (h : UGroups limit th ps gs)
    (hp : ps ≠ []) : gs ≠ [] := by
  cases h with
  | nil => exact absurd rfl hp
  | cons h1 _ =>
    obtain ⟨-, h2, -, h3, -⟩ := h1
    rw [Int64.le_iff_toInt_le] at h2
    intro he
    rw [(List.append_eq_nil_iff.mp he).1] at h3
    have : (1 : Int64).toInt = 1 := by decide
    simp at h3
    omega

/-- **C115.** The maximum of a list of U rolls is the larger one of the maxima of its parts, the total is the sum of their
totals. -/
theorem C115_max_total {s t u : Str} {rs rs' : List Roll} {te : Expr} {th : Int64} (hs : RollsText ('U', 'u') s rs)
    (ht : RollsText ('U', 'u') t rs') (hu : ThresholdText u (some te)) (hth : Ev te [] th) (h2 : 2 ≤ th)
    (hn : NoRandomNumber (s ++ t)) (f f2 : σ) (ds : List Die) (last : Str) :
    Replies F g (s ++ chars!"+" ++ t ++ u) f ds last f2 ↔
      ∃ f1 ds1 ds2 m m' n n', Replies F g (s ++ u) f ds1 (maxAndTotalShown m n) f1 ∧
        Replies F g (t ++ u) f1 ds2 (maxAndTotalShown m' n') f2 ∧ ds = ds1 ++ ds2 ∧
        last = maxAndTotalShown (max m m') (n + n') := by
  simp only [NoRandomNumber, List.mem_append, not_or] at hn
  have thr : ∀ {ts x}, Threshold (some te) ts x → ts = [] ∧ x = some th := by
    intro ts x h
    cases h with | given h =>
    obtain ⟨h1, h2⟩ := hth.const rfl _ _ h
    exact ⟨h1, by rw [h2]⟩
  have notRef : ∀ {msg x}, x = some th → ¬ Refused missingThresholdU x msg := by
    rintro msg x rfl h
    cases h with | small h =>
    rw [Int64.lt_iff_toInt_lt] at h
    rw [Int64.le_iff_toInt_le] at h2
    omega
  have txt : ∀ {z : Str} {rs : List Roll}, RollsText ('U', 'u') z rs →
      CommandText (z ++ u) (.uRollExpr ⟨⟨rs, some te⟩, none⟩) := fun hz =>
    .uRollExpr ⟨_, _, (List.append_nil _).symm, ⟨_, _, rfl, hz, hu⟩, .absent⟩
  have ans : ∀ {z : Str} {rs : List Roll}, RollsText ('U', 'u') z rs → '[' ∉ z → ∀ (f f2 : σ) (ds : List Die) (last : Str),
      Replies F g (z ++ u) f ds last f2 ↔ ∃ ps gs m, Args rs [] ps ∧ UGroups 10000 th ps gs ∧ IsMax m (groupSums gs) ∧
        Draws F f gs.flatten f2 ∧ ds = gs.flatten ∧ last = maxAndTotalShown m (gs.flatten.map Die.value).sum := by
    intro z rs hz hnz f f2 ds last
    constructor
    · rintro ⟨r, h, rfl, hl⟩
      obtain ⟨n, ds, h1, h3, h4⟩ := executeBasicCommand_ok_text.mp h
      have := ((parse_iff _ n).mpr h1).symm.trans ((parse_iff _ _).mpr (txt hz))
      simp only [Option.some.injEq] at this
      subst this
      cases h3 with
      | uRollRefused a1 a2 a3 a4 => exact absurd a4 (notRef (thr a1).2)
      | @uRollExpr _ ts as ms th' ps m mx gs a1 a2 a3 a4 a5 a6 =>
        obtain ⟨rfl, hx⟩ := thr a1
        cases hx
        obtain rfl := a2.calc (hz.calc hnz)
        cases a3
        have hne := a5.ne (a2.ne_nil hz.ne_nil)
        refine ⟨_, _, mx, a2, a5, a6.resolve_left (fun h => hne h.1), by simpa using h4, by simp, ?_⟩
        have e3 : maxAndTotalShown (mx + 0) ((gs.flatten.map Die.value).sum + 0) = last := Option.some.inj hl
        rw [← e3]
        simp
    · rintro ⟨ps, gs, m, a1, a2, a3, a4, rfl, rfl⟩
      refine ⟨_, executeBasicCommand_ok_text.mpr ⟨_, _, txt hz, .uRollExpr (.given hth) a1 .absent h2 a2 (.inr a3),
        by simpa using a4⟩, by simp, ?_⟩
      have e3 : maxAndTotalShown (m + 0) ((gs.flatten.map Die.value).sum + 0) = maxAndTotalShown m (gs.flatten.map Die.value).sum := by
        simp
      exact congrArg some e3
  rw [ans (hs.append ht) (by simp [hn])]
  constructor
  · rintro ⟨ps, gs, m, a1, a2, a3, a4, rfl, rfl⟩
    obtain ⟨as1, as2, ps1, ps2, b1, b2, hab, rfl⟩ := a1.unjoin
    obtain ⟨rfl, rfl⟩ := List.append_eq_nil_iff.mp hab.symm
    obtain ⟨gs1, gs2, g1, g2, rfl⟩ := a2.unjoin
    rw [List.flatten_append] at a4
    obtain ⟨f1, d1, d2⟩ := a4.split
    have mx : ∀ {l : List (List Die)}, l ≠ [] → ∃ m, IsMax m (groupSums l) := by
      intro l hl
      have : groupSums l ≠ [] := by simpa [groupSums] using hl
      generalize groupSums l = k at this
      clear hl
      induction k with
      | nil => exact absurd rfl this
      | cons x xs ih =>
        cases xs with
        | nil => exact ⟨x, by simp [IsMax]⟩
        | cons y ys =>
          obtain ⟨m, hm⟩ := ih (by simp)
          exact ⟨_, max_join (vs := [x]) (m := x) (by simp [IsMax]) hm⟩
    obtain ⟨m1, k1⟩ := mx (g1.ne (b1.ne_nil hs.ne_nil))
    obtain ⟨m2, k2⟩ := mx (g2.ne (b2.ne_nil ht.ne_nil))
    refine ⟨f1, gs1.flatten, gs2.flatten, m1, m2, _, _, (ans hs hn.1 ..).mpr ⟨_, _, _, b1, g1, k1, d1, rfl, rfl⟩,
      (ans ht hn.2 ..).mpr ⟨_, _, _, b2, g2, k2, d2, rfl, rfl⟩, by simp, ?_⟩
    rw [isMax_unique a3 (by rw [groups_join]; exact max_join k1 k2)]
    simp
  · rintro ⟨f1, ds1, ds2, m, m', n, n', h1, h3, rfl, rfl⟩
    obtain ⟨ps1, gs1, m1, a1, a2, a3, a4, rfl, e1⟩ := (ans hs hn.1 ..).mp h1
    obtain ⟨ps2, gs2, m2, b1, b2, b3, b4, rfl, e2⟩ := (ans ht hn.2 ..).mp h3
    obtain ⟨rfl, rfl⟩ := maxAndTotal_inj e1
    obtain ⟨rfl, rfl⟩ := maxAndTotal_inj e2
    exact ⟨_, gs1 ++ gs2, _, by simpa using a1.join b1, a2.join b2, by rw [groups_join]; exact max_join a3 b3,
      by simpa using a4.append b4, by simp, by simp⟩

end

/-- **C115.** What is typed to the bot is answered so: with a comment behind it, exactly what the text is answered by itself; without, at
least that (what fails is tried once more, C34). -/
theorem C115_typed {σ : Type} (F : DieFeeder σ) (usage mark text rest : Str) (n : Node) (hm : IsMark mark) (hr : IsComment rest)
    (h : CommandText text n) (hn : n.isRollCommand = true) (f f' : σ) (ds : List Die) (last : Str) :
    (Replies F chars!"DiceBot" text f ds last f' → ∃ r, executeCommand F (basicBot usage) (mark ++ text ++ rest) f = (.ok r, f') ∧
      r.rolledDice = ds ∧ r.parts.getLast? = some last ∧ r.isSecret = !mark.isEmpty) ∧
    (rest ≠ [] → ∀ r, executeCommand F (basicBot usage) (mark ++ text ++ rest) f = (.ok r, f') → r.rolledDice = ds →
      r.parts.getLast? = some last → Replies F chars!"DiceBot" text f ds last f') := by
  rw [typed_roll F usage hm ((parse_iff _ _).mpr h) hn hr f]
  unfold typedAnswer Replies
  rcases hx : executeBasicCommand F chars!"DiceBot" text f with ⟨o, f1⟩
  cases o with
  | ok r =>
    refine ⟨?_, fun _ r' h1 h2 h3 => ?_⟩
    · rintro ⟨r', h1, h2, h3⟩
      cases h1
      exact ⟨_, rfl, h2, h3, rfl⟩
    · cases h1
      exact ⟨r, rfl, h2, h3⟩
  | err m =>
    refine ⟨fun ⟨r', h1, _⟩ => (nomatch h1), fun hne r' h1 _ _ => ?_⟩
    cases rest with
    | nil => exact absurd rfl hne
    | cons _ _ => simp at h1
  | panic m => exact ⟨fun ⟨r', h1, _⟩ => (nomatch h1), fun _ r' h1 _ _ => nomatch h1⟩

/-- **C115.** R rolls are not made one after another: the dice that are rolled again wait until the whole list has been rolled once. -/
theorem C115_R_needed :
    let dice : List Die := [⟨6, 6⟩, ⟨1, 10⟩, ⟨2, 6⟩]
    (∃ r, executeBasicCommand queueFeeder chars!"DiceBot" chars!"1R6+1R10[6]" dice = (.ok r, [])) ∧
    ∃ m rest, executeBasicCommand queueFeeder chars!"DiceBot" chars!"1R6[6]" dice = (.err m, rest) :=
  ⟨⟨_, rfl⟩, ⟨_, _, rfl⟩⟩

/-- **C115.** With random numbers the dice are not those of the parts one after another: the numbers are drawn first. -/
theorem C115_numbers_needed :
    let dice : List Die := [⟨1, 2⟩, ⟨2, 2⟩, ⟨3, 6⟩, ⟨4, 6⟩, ⟨5, 6⟩]
    (∃ r, executeBasicCommand queueFeeder chars!"DiceBot" chars!"[1...2]B6+[1...2]B6" dice = (.ok r, [])) ∧
    ∃ m rest, executeBasicCommand queueFeeder chars!"DiceBot" chars!"[1...2]B6" dice = (.err m, rest) :=
  ⟨⟨_, rfl⟩, ⟨_, _, rfl⟩⟩

/-! Cases met. -/

theorem CommandText.bRolls {s : Str} {rs : List Roll} (h : CommandText s (.bRollList rs)) : RollsText ('B', 'b') s rs := by
  cases h with | bRollList h => exact h

theorem CommandText.uRolls {s : Str} {rs : List Roll} (h : CommandText s (.uRollExpr ⟨⟨rs, none⟩, none⟩)) : RollsText ('U', 'u') s rs := by
  cases h with | uRollExpr h =>
  obtain ⟨a, b, rfl, ⟨a', b', rfl, h1, h2⟩, h3⟩ := h
  cases h2
  cases h3
  simpa using h1

example : ∃ f1 ds1 ds2 v w,
    Replies queueFeeder chars!"DiceBot" chars!"2B6" [⟨3, 6⟩, ⟨5, 6⟩, ⟨7, 10⟩] ds1 v f1 ∧
    Replies queueFeeder chars!"DiceBot" chars!"1B10" f1 ds2 w [] ∧ [⟨3, 6⟩, ⟨5, 6⟩, ⟨7, 10⟩] = ds1 ++ ds2 ∧
    chars!"3,5,7" = v ++ chars!"," ++ w :=
  (C115_values queueFeeder chars!"DiceBot" (s := chars!"2B6") (t := chars!"1B10") (CommandText.bRolls ((parse_iff _ _).mp rfl))
    (CommandText.bRolls ((parse_iff _ _).mp rfl)) (by unfold NoRandomNumber; decide) _ _ _ _).mp ⟨_, rfl, rfl, rfl⟩

example : Replies queueFeeder chars!"DiceBot" chars!"(2D6)-(1D10+1)" [⟨3, 6⟩, ⟨5, 6⟩, ⟨7, 10⟩] [⟨3, 6⟩, ⟨5, 6⟩, ⟨7, 10⟩] chars!"0" [] :=
  (C115_total queueFeeder chars!"DiceBot" (x := chars!"2D6") (y := chars!"1D10+1") ((parse_iff _ _).mp rfl) ((parse_iff _ _).mp rfl) .minus
    (by unfold NoRandomNumber; decide) _ _ _ _).mpr ⟨[⟨7, 10⟩], [⟨3, 6⟩, ⟨5, 6⟩], [⟨7, 10⟩], 8, 8, ⟨_, rfl, rfl, rfl⟩, ⟨_, rfl, rfl, rfl⟩, rfl, rfl⟩

example : Replies queueFeeder chars!"DiceBot" chars!"1U6+1U6[4]" [⟨5, 6⟩, ⟨3, 6⟩, ⟨2, 6⟩] [⟨5, 6⟩, ⟨3, 6⟩, ⟨2, 6⟩]
    (maxAndTotalShown 8 10) [] :=
  (C115_max_total queueFeeder chars!"DiceBot" (s := chars!"1U6") (t := chars!"1U6") (u := chars!"[4]") (te := .int 4) (th := 4)
    (CommandText.uRolls ((parse_iff _ _).mp rfl)) (CommandText.uRolls ((parse_iff _ _).mp rfl))
    (.given (.addMul (.mulPrim (.primNum (.number (ds := chars!"4") (by decide) (by decide)))))) (.int 4) (by decide)
    (by unfold NoRandomNumber; decide) _ _ _ _).mpr
    ⟨[⟨2, 6⟩], [⟨5, 6⟩, ⟨3, 6⟩], [⟨2, 6⟩], 8, 2, 8, 2, ⟨_, rfl, rfl, rfl⟩, ⟨_, rfl, rfl, rfl⟩, rfl, rfl⟩

end GoBCDice
