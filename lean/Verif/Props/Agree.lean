import Verif.Props.InTurn

/-!
# C116: the kinds of rolls agree on the same dice
-/

namespace GoBCDice

section
variable {σ : Type} (F : DieFeeder σ) (g : Str)

theorem replies_d {z : Str} {e : Expr} (hz : CommandText z (.dRollExpr e)) (hp : PlainRolls e) (f f2 : σ) (ds : List Die) (last : Str) :
    Replies F g z f ds last f2 ↔ ∃ v, Ev e ds v ∧ Draws F f ds f2 ∧ last = intStr v := by
  constructor
  · rintro ⟨r, h, rfl, hl⟩
    obtain ⟨n, ds, h1, h2, h3⟩ := executeBasicCommand_ok_text.mp h
    have := ((parse_iff _ n).mpr h1).symm.trans ((parse_iff _ _).mpr hz)
    simp only [Option.some.injEq] at this
    subst this
    cases h2 with | dRollExpr d1 d2 d3 =>
    refine ⟨_, (dval_iff_ev hp _ _).mp ⟨_, _, rfl, (staged_iff_DVal ..).mp ⟨_, _, d1, d2, d3⟩⟩, h3, ?_⟩
    exact (Option.some.inj hl).symm
  · rintro ⟨v, h1, h2, rfl⟩
    obtain ⟨as, rs, rfl, h3⟩ := (dval_iff_ev hp _ _).mpr h1
    obtain ⟨e1, e2, d1, d2, d3⟩ := (staged_iff_DVal ..).mpr h3
    exact ⟨_, executeBasicCommand_ok_text.mpr ⟨_, _, hz, .dRollExpr d1 d2 d3, h2⟩, rfl, rfl⟩

/-- The dice `ds` are those of the rolls, in order. -/
def DiceOf (rs : List Roll) (ds : List Die) : Prop := ∃ ps gs, Args rs [] ps ∧ GroupsFor ps gs ∧ ds = gs.flatten

theorem replies_b {z : Str} {rs : List Roll} (hz : RollsText ('B', 'b') z rs)
    (hc : ∀ r ∈ rs, r.num.isVariable = false ∧ r.sides.isVariable = false) (f f2 : σ) (ds : List Die) (last : Str) :
    Replies F g z f ds last f2 ↔ DiceOf rs ds ∧ Draws F f ds f2 ∧ last = valuesText (ds.map Die.value) := by
  constructor
  · rintro ⟨r, h, rfl, hl⟩
    obtain ⟨n, ds, h1, h2, h3⟩ := executeBasicCommand_ok_text.mp h
    have := ((parse_iff _ n).mpr h1).symm.trans ((parse_iff _ _).mpr (.bRollList hz))
    simp only [Option.some.injEq] at this
    subst this
    cases h2 with | @bRollList _ _ ps gs ha hg =>
    obtain rfl := ha.calc hc
    refine ⟨⟨_, _, ha, hg, by simp⟩, by simpa using h3, ?_⟩
    have e3 : valuesText (gs.flatten.map Die.value) = last := Option.some.inj hl
    rw [← e3]
    simp
  · rintro ⟨⟨ps, gs, ha, hg, rfl⟩, h3, rfl⟩
    exact ⟨_, executeBasicCommand_ok_text.mpr ⟨_, _, .bRollList hz, .bRollList ha hg, by simpa using h3⟩, by simp, rfl⟩

theorem replies_b_comp {z c : Str} {rs : List Roll} {op : CmpOp} {e : Expr} (hz : RollsText ('B', 'b') z rs)
    (hc : ∀ r ∈ rs, r.num.isVariable = false ∧ r.sides.isVariable = false) (hcc : CompareText c op e) (f f2 : σ) (ds : List Die)
    (last : Str) :
    Replies F g (z ++ c) f ds last f2 ↔ ∃ target, Ev e [] target ∧ DiceOf rs ds ∧ Draws F f ds f2 ∧
      last = successesShown (Int64.ofNat (successes op target (ds.map Die.value))) := by
  have ce : e.isVariable = false := by cases hcc with | mk h => exact h.noVar_int
  constructor
  · rintro ⟨r, h, rfl, hl⟩
    obtain ⟨n, ds, h1, h2, h3⟩ := executeBasicCommand_ok_text.mp h
    have := ((parse_iff _ n).mpr h1).symm.trans ((parse_iff _ _).mpr (.bRollComp hz hcc))
    simp only [Option.some.injEq] at this
    subst this
    cases h2 with | @bRollComp _ _ _ _ _ ps gs target ha he hg =>
    obtain rfl := ha.calc hc
    obtain rfl := he.no_dice ce
    refine ⟨_, he, ⟨_, _, ha, hg, by simp⟩, by simpa using h3, ?_⟩
    have e3 : successesShown (Int64.ofNat (successes op target (gs.flatten.map Die.value))) = last := Option.some.inj hl
    rw [← e3]
    simp
  · rintro ⟨target, he, ⟨ps, gs, ha, hg, rfl⟩, h3, rfl⟩
    exact ⟨_, executeBasicCommand_ok_text.mpr ⟨_, _, .bRollComp hz hcc, .bRollComp ha he hg, by simpa using h3⟩, by simp, rfl⟩

/-! ### D rolls -/

theorem dRoll_ev {x y : Expr} (hx : x.isVariable = false) (hy : y.isVariable = false) (ds : List Die) (v : Int64) :
    Ev (.var .d x y) ds v ↔ DiceOf [⟨x, y⟩] ds ∧ v = (ds.map Die.value).sum := by
  constructor
  · intro h
    cases h with | d h1 h2 h3 =>
    obtain rfl := h1.no_dice hx
    obtain rfl := h2.no_dice hy
    exact ⟨⟨_, _, by simpa using Args.cons (r := ⟨x, y⟩) h1 h2 .nil, .cons h3 .nil, by simp⟩, by simp⟩
  · rintro ⟨⟨ps, gs, h1, h2, rfl⟩, rfl⟩
    generalize hz : ([] : List Die) = as at h1
    cases h1 with | cons a1 a2 a3 =>
    cases a3
    obtain ⟨h4, -⟩ := List.append_eq_nil_iff.mp hz.symm
    obtain ⟨h5, h6⟩ := List.append_eq_nil_iff.mp h4
    subst h5 h6
    cases h2 with | cons b1 b2 =>
    cases b2
    simpa using Ev.d a1 a2 b1

theorem DiceOf.join {rs rs' : List Roll} (ds : List Die) :
    DiceOf (rs ++ rs') ds ↔ ∃ ds1 ds2, DiceOf rs ds1 ∧ DiceOf rs' ds2 ∧ ds = ds1 ++ ds2 := by
  constructor
  · rintro ⟨ps, gs, h1, h2, rfl⟩
    obtain ⟨as1, as2, ps1, ps2, b1, b2, hab, rfl⟩ := h1.unjoin
    obtain ⟨rfl, rfl⟩ := List.append_eq_nil_iff.mp hab.symm
    obtain ⟨gs1, gs2, g1, g2, rfl⟩ := h2.unjoin
    exact ⟨_, _, ⟨_, _, b1, g1, rfl⟩, ⟨_, _, b2, g2, rfl⟩, by simp⟩
  · rintro ⟨_, _, ⟨_, _, b1, g1, rfl⟩, ⟨_, _, b2, g2, rfl⟩, rfl⟩
    exact ⟨_, _, by simpa using b1.join b2, g1.join g2, by simp⟩

theorem sum_values_append (ds es : List Die) :
    ((ds ++ es).map Die.value).sum = (ds.map Die.value).sum + (es.map Die.value).sum := by simp

/-- A sum of D rolls as an expression. -/
structure IsSum (e : Expr) (rs : List Roll) : Prop where
  plain : PlainRolls e
  rands : 1 ≤ e.rands
  ev : ∀ ds v, Ev e ds v ↔ DiceOf rs ds ∧ v = (ds.map Die.value).sum

theorem RollText.sum {s : Str} {r : Roll} (h : RollText ('D', 'd') s r) (hc : r.num.isVariable = false ∧ r.sides.isVariable = false) :
    ∃ e, Der (.prim .dice) s e ∧ IsSum e [r] := by
  obtain ⟨a, b, l, rfl, hl, ha, hb⟩ := h
  exact ⟨_, .primDice (.dRoll hl ha hb), ⟨hc, by simp [Expr.rands], dRoll_ev hc.1 hc.2⟩⟩

theorem RollsText.sum_after {s : Str} {rs : List Roll} (h : RollsText ('D', 'd') s rs) :
    ∀ {p : Str} {e0 : Expr} {rs0 : List Roll}, Der (.add .dice) p e0 → IsSum e0 rs0 →
      (∀ r ∈ rs0 ++ rs, r.num.isVariable = false ∧ r.sides.isVariable = false) →
      ∃ e, Der (.add .dice) (p ++ chars!"+" ++ s) e ∧ IsSum e (rs0 ++ rs) := by
  have step : ∀ {s p : Str} {r : Roll} {e0 : Expr} {rs0 : List Roll}, RollText ('D', 'd') s r → Der (.add .dice) p e0 → IsSum e0 rs0 →
      (∀ r' ∈ rs0 ++ [r], r'.num.isVariable = false ∧ r'.sides.isVariable = false) →
      ∃ e, Der (.add .dice) (p ++ chars!"+" ++ s) e ∧ IsSum e (rs0 ++ [r]) := by
    intro s p r e0 rs0 hs hp h0 hc
    obtain ⟨e, h1, h2⟩ := hs.sum (hc r (by simp))
    refine ⟨_, .addAdd hp (.mulPrim h1), ⟨⟨h0.plain, h2.plain⟩, by have := h0.rands; simp only [Expr.rands]; omega, fun ds v => ?_⟩⟩
    rw [DiceOf.join]
    constructor
    · intro h
      cases h with | add k1 k2 =>
      obtain ⟨k1', rfl⟩ := (h0.ev _ _).mp k1
      obtain ⟨k2', rfl⟩ := (h2.ev _ _).mp k2
      exact ⟨⟨_, _, k1', k2', rfl⟩, (sum_values_append _ _).symm⟩
    · rintro ⟨⟨ds1, ds2, k1, k2, rfl⟩, rfl⟩
      rw [sum_values_append]
      exact .add ((h0.ev _ _).mpr ⟨k1, rfl⟩) ((h2.ev _ _).mpr ⟨k2, rfl⟩)
  induction h with
  | one h => exact fun hp h0 hc => step h hp h0 hc
  | cons h _ ih =>
    intro p e0 rs0 hp h0 hc
    obtain ⟨e, h1, h2⟩ := step h hp h0 (fun r hr => hc r (by simp at hr ⊢; grind))
    obtain ⟨e', h3, h4⟩ := ih h1 h2 (by simpa using hc)
    exact ⟨e', by simpa using h3, by simpa using h4⟩

theorem RollsText.sum {s : Str} {rs : List Roll} (h : RollsText ('D', 'd') s rs)
    (hc : ∀ r ∈ rs, r.num.isVariable = false ∧ r.sides.isVariable = false) : ∃ e, Der (.add .dice) s e ∧ IsSum e rs := by
  cases h with
  | one h =>
    obtain ⟨e, h1, h2⟩ := h.sum (hc _ (by simp))
    exact ⟨e, .addMul (.mulPrim h1), h2⟩
  | @cons s t r rs h h' =>
    obtain ⟨e, h1, h2⟩ := h.sum (hc _ (by simp))
    exact h'.sum_after (.addMul (.mulPrim h1)) h2 (by simpa using hc)

/-- **C116.** A sum of D rolls draws the dice of the list of B rolls; its total is the sum of their values. -/
theorem C116_total {b d : Str} {rs : List Roll} (hb : RollsText ('B', 'b') b rs) (hd : RollsText ('D', 'd') d rs)
    (hn : NoRandomNumber b) (f f2 : σ) (ds : List Die) :
    (∀ shown, Replies F g b f ds shown f2 → shown = valuesText (ds.map Die.value) ∧
      Replies F g d f ds (intStr (ds.map Die.value).sum) f2) ∧
    (∀ shown, Replies F g d f ds shown f2 → shown = intStr (ds.map Die.value).sum ∧
      Replies F g b f ds (valuesText (ds.map Die.value)) f2) := by
  have hc := hb.calc hn
  obtain ⟨e, h1, h2⟩ := hd.sum hc
  refine ⟨fun shown h => ?_, fun shown h => ?_⟩
  · obtain ⟨k1, k2, rfl⟩ := (replies_b F g hb hc ..).mp h
    exact ⟨rfl, (replies_d F g (.dRollExpr h1 h2.rands) h2.plain ..).mpr ⟨_, (h2.ev _ _).mpr ⟨k1, rfl⟩, k2, rfl⟩⟩
  · obtain ⟨v, k1, k2, rfl⟩ := (replies_d F g (.dRollExpr h1 h2.rands) h2.plain ..).mp h
    obtain ⟨k1', rfl⟩ := (h2.ev _ _).mp k1
    exact ⟨rfl, (replies_b F g hb hc ..).mpr ⟨k1', k2, rfl⟩⟩

/-! ### R rolls -/

theorem rgroups_calm {th : Int64} : ∀ {n : Nat} {ps : List (Int64 × Int64)} {gs : List (List Die)}, ps.length ≤ n →
    (∀ d ∈ gs.flatten, d.value < th) → (RGroups th n ps gs ↔ GroupsFor ps gs) := by
  have none : ∀ {gr : List Die}, (∀ d ∈ gr, d.value < th) → (gr.filter fun d => th ≤ d.value).length = 0 := by
    intro gr h
    rw [List.length_eq_zero_iff, List.filter_eq_nil_iff]
    intro d hd
    have := h d hd
    simpa using this
  intro n
  induction n with
  | zero =>
    intro ps gs hl hd
    obtain rfl := List.length_eq_zero_iff.mp (Nat.le_zero.mp hl)
    exact ⟨fun h => by cases h <;> exact .nil, fun h => by cases h; exact .done 0⟩
  | succ n ih =>
    intro ps gs hl hd
    cases ps with
    | nil => exact ⟨fun h => by cases h; exact .nil, fun h => by cases h; exact .done _⟩
    | cons p ps =>
      have hl' : ps.length ≤ n := by simpa using hl
      constructor
      · intro h
        cases h with | @roll _ x y _ gr gs h1 h2 =>
        rw [none fun d hd' => hd d (by simp [hd'])] at h2
        simp only [if_true, List.append_nil] at h2
        exact .cons h1 ((ih hl' fun d hd' => hd d (List.mem_append.mpr (.inr hd'))).mp h2)
      · intro h
        cases h with | @cons x y _ gr gs h1 h2 =>
        refine .roll h1 ?_
        rw [none fun d hd' => hd d (by simp [hd'])]
        simp only [if_true, List.append_nil]
        exact (ih hl' fun d hd' => hd d (List.mem_append.mpr (.inr hd'))).mpr h2

theorem not_refused {m msg : Str} {th : Int64} (h2 : 2 ≤ th) : ¬ Refused m (some th) msg := by
  intro h
  cases h with | small h =>
  rw [Int64.lt_iff_toInt_lt] at h
  rw [Int64.le_iff_toInt_le] at h2
  omega

/-- **C116.** As long as no die reaches the threshold, R rolls have the dice and the successes of B rolls. -/
theorem C116_R {b r u c : Str} {rs : List Roll} {te e : Expr} {op : CmpOp} {th : Int64} (hb : RollsText ('B', 'b') b rs)
    (hr : RollsText ('R', 'r') r rs) (hu : ThresholdText u (some te)) (hth : Ev te [] th) (h2 : 2 ≤ th) (hc : CompareText c op e)
    (hn : NoRandomNumber b) (hl : rs.length ≤ 10000) (f f2 : σ) (ds : List Die) (hd : ∀ d ∈ ds, d.value < th) (last : Str) :
    Replies F g (r ++ u ++ c) f ds last f2 ↔ Replies F g (b ++ c) f ds last f2 := by
  have hcalc := hb.calc hn
  have ce : e.isVariable = false := by cases hc with | mk h => exact h.noVar_int
  have txt : CommandText (r ++ u ++ c) (.rRollComp ⟨rs, some te⟩ op e) := .rRollComp ⟨_, _, rfl, hr, hu⟩ hc
  rw [replies_b_comp F g hb hcalc hc]
  constructor
  · rintro ⟨res, h, rfl, hlast⟩
    obtain ⟨n, ds, h1, h3, h4⟩ := executeBasicCommand_ok_text.mp h
    have := ((parse_iff _ n).mpr h1).symm.trans ((parse_iff _ _).mpr txt)
    simp only [Option.some.injEq] at this
    subst this
    cases h3 with
    | rRollCompRefused a1 a2 a3 a4 =>
      cases a1 with | given a1 =>
      obtain ⟨rfl, rfl⟩ := hth.const rfl _ _ a1
      exact absurd a4 (not_refused h2)
    | @rRollComp _ _ _ ts as bs th0 th' ps gs target a1 a2 a3 a4 a5 a6 =>
      cases a1 with | given a1 =>
      obtain ⟨rfl, rfl⟩ := hth.const rfl _ _ a1
      cases a4
      obtain rfl := a2.calc hcalc
      obtain rfl := a3.no_dice ce
      have hd' := fun d (hx : d ∈ gs.flatten) => hd d (by simpa using hx)
      have hg := (rgroups_calm (by rw [a2.length]; exact hl) hd').mp a6
      refine ⟨_, a3, ⟨_, _, a2, hg, by simp⟩, by simpa using h4, ?_⟩
      have e3 : successesShown (Int64.ofNat (successes op target (gs.flatten.map Die.value))) = last := Option.some.inj hlast
      rw [← e3]
      simp
  · rintro ⟨target, a3, ⟨ps, gs, a2, hg, rfl⟩, h4, rfl⟩
    exact ⟨_, executeBasicCommand_ok_text.mpr ⟨_, _, txt, .rRollComp (.given hth) a2 a3 rfl h2
      ((rgroups_calm (by rw [a2.length]; exact hl) hd).mpr hg), by simpa using h4⟩, by simp, rfl⟩

/-! ### U rolls -/

theorem chain_calm {y th : Int64} {gr : List Die} (hd : ∀ d ∈ gr, d.value < th) : UChain y th 10000 gr ↔ 1 ≤ y ∧ ∃ d, gr = [d] ∧ d.sides = y := by
  constructor
  · intro h
    refine ⟨h.sides_ok, ?_⟩
    cases gr with
    | nil => rcases h.last with h | ⟨d, h, -⟩ <;> simp at h
    | cons d rest =>
      cases rest with
      | nil => exact ⟨d, rfl, h.sides_eq d (by simp)⟩
      | cons d' rest =>
        have h1 := h.init_ge d (by simp)
        have h2 := hd d (by simp)
        rw [Int64.lt_iff_toInt_lt] at h2
        rw [Int64.le_iff_toInt_le] at h1
        omega
  · rintro ⟨h1, d, rfl, h2⟩
    exact ⟨h1, by simp [h2], by simp, by simp, .inr ⟨d, rfl, hd d (by simp)⟩⟩

theorem singles : ∀ {gs : List (List Die)}, (∀ gr ∈ gs, ∃ d, gr = [d]) → gs = gs.flatten.map fun d => [d]
  | [], _ => rfl
  | gr :: gs, h => by
    obtain ⟨d, rfl⟩ := h gr (by simp)
    have := singles fun gr hg => h gr (List.mem_cons_of_mem _ hg)
    simp only [List.flatten_cons, List.singleton_append, List.map_cons, ← this]

theorem flatten_singles (ds : List Die) : (ds.map fun d => [d]).flatten = ds := by
  induction ds with
  | nil => rfl
  | cons d ds ih => simp only [List.map_cons, List.flatten_cons, ih]; rfl

theorem ugroups_calm {th : Int64} : ∀ {ps : List (Int64 × Int64)} {gs : List (List Die)}, (∀ d ∈ gs.flatten, d.value < th) →
    (UGroups 10000 th ps gs ↔ ∃ gs0, GroupsFor ps gs0 ∧ gs = gs0.flatten.map fun d => [d])
  | [], gs, _ => ⟨fun h => by cases h; exact ⟨[], .nil, rfl⟩, fun ⟨gs0, h, e⟩ => by cases h; rw [e]; exact .nil⟩
  | p :: ps, gs, hd => by
    constructor
    · intro h
      cases h with | @cons _ _ hs gs' h1 h2 =>
      simp only [List.flatten_append, List.mem_append] at hd
      obtain ⟨gs0, h3, rfl⟩ := (ugroups_calm fun d hx => hd d (.inr hx)).mp h2
      obtain ⟨k1, k2, k3, k4, k5⟩ := h1
      have hone : ∀ gr ∈ hs, ∃ d, gr = [d] ∧ d.sides = p.2 := fun gr hg =>
        ((chain_calm fun d hx => hd d (.inl (List.mem_flatten.mpr ⟨gr, hg, hx⟩))).mp (k5 gr hg)).2
      have hs' := singles fun gr hg => (hone gr hg).imp fun _ h => h.1
      refine ⟨hs.flatten :: gs0, .cons ⟨k1, k2, k3, ?_, ?_⟩ h3, ?_⟩
      · have := congrArg List.length hs'
        rw [List.length_map] at this
        rw [← this]
        exact k4
      · intro d hx
        obtain ⟨gr, hg, hx⟩ := List.mem_flatten.mp hx
        obtain ⟨d', rfl, hs⟩ := hone gr hg
        rw [List.mem_singleton] at hx
        rw [hx, hs]
      · simp only [List.flatten_cons, List.map_append, ← hs']
    · rintro ⟨gs0, h, rfl⟩
      cases h with | @cons x y _ gr gs0 h1 h2 =>
      obtain ⟨k1, k2, k3, k4, k5⟩ := h1
      rw [flatten_singles, List.flatten_cons] at hd
      have hd1 : ∀ d ∈ gr, d.value < th := fun d hx => hd d (List.mem_append.mpr (.inl hx))
      have h3 := (ugroups_calm (th := th) (ps := ps) (gs := gs0.flatten.map fun d => [d]) (fun d hx => hd d (by
        rw [flatten_singles] at hx
        exact List.mem_append.mpr (.inr hx)))).mpr ⟨gs0, h2, rfl⟩
      rw [List.flatten_cons, List.map_append]
      refine .cons ⟨k1, k2, k3, by simpa using k4, fun l hl => ?_⟩ h3
      obtain ⟨d, hx, rfl⟩ := List.mem_map.mp hl
      exact (chain_calm fun d' hd' => by rw [List.mem_singleton] at hd'; rw [hd']; exact hd1 d hx).mpr ⟨k1, d, rfl, k5 d hx⟩

theorem groupSums_singles (ds : List Die) : groupSums (ds.map fun d => [d]) = ds.map Die.value := by
  simp [groupSums]

theorem calm_groups {th : Int64} {ps : List (Int64 × Int64)} {ds : List Die} (hd : ∀ d ∈ ds, d.value < th) :
    (∃ gs, UGroups 10000 th ps gs ∧ gs.flatten = ds ∧ groupSums gs = ds.map Die.value) ↔ ∃ gs0, GroupsFor ps gs0 ∧ ds = gs0.flatten := by
  constructor
  · rintro ⟨gs, h, rfl, -⟩
    obtain ⟨gs0, h1, h2⟩ := (ugroups_calm hd).mp h
    exact ⟨gs0, h1, by rw [h2, flatten_singles]⟩
  · rintro ⟨gs0, h, rfl⟩
    exact ⟨gs0.flatten.map fun d => [d], (ugroups_calm (by rwa [flatten_singles])).mpr ⟨gs0, h, rfl⟩, flatten_singles _, groupSums_singles _⟩

theorem calm_sums {th : Int64} {ps : List (Int64 × Int64)} {gs : List (List Die)} (hd : ∀ d ∈ gs.flatten, d.value < th)
    (h : UGroups 10000 th ps gs) : groupSums gs = gs.flatten.map Die.value := by
  obtain ⟨gs0, h1, h2⟩ := (ugroups_calm hd).mp h
  rw [h2, groupSums_singles, flatten_singles]

/-- **C116.** As long as no die reaches the threshold, U rolls have the dice and the successes of B rolls. -/
theorem C116_U {b u t c : Str} {rs : List Roll} {te e : Expr} {op : CmpOp} {th : Int64} (hb : RollsText ('B', 'b') b rs)
    (hu : RollsText ('U', 'u') u rs) (ht : ThresholdText t (some te)) (hth : Ev te [] th) (h2 : 2 ≤ th) (hc : CompareText c op e)
    (hn : NoRandomNumber b) (f f2 : σ) (ds : List Die) (hd : ∀ d ∈ ds, d.value < th) (last : Str) :
    Replies F g (u ++ t ++ c) f ds last f2 ↔ Replies F g (b ++ c) f ds last f2 := by
  have hcalc := hb.calc hn
  have ce : e.isVariable = false := by cases hc with | mk h => exact h.noVar_int
  have txt : CommandText (u ++ t ++ c) (.uRollComp ⟨⟨rs, some te⟩, none⟩ op e) :=
    .uRollComp ⟨_, _, (List.append_nil _).symm, ⟨_, _, rfl, hu, ht⟩, .absent⟩ hc
  rw [replies_b_comp F g hb hcalc hc]
  have z : ∀ l : List Int64, l.map (fun x => x + 0) = l := fun l => by simp
  constructor
  · rintro ⟨res, h, rfl, hlast⟩
    obtain ⟨n, ds, h1, h3, h4⟩ := executeBasicCommand_ok_text.mp h
    have := ((parse_iff _ n).mpr h1).symm.trans ((parse_iff _ _).mpr txt)
    simp only [Option.some.injEq] at this
    subst this
    cases h3 with
    | uRollCompRefused a1 a2 a3 a4 a5 =>
      cases a1 with | given a1 =>
      obtain ⟨rfl, rfl⟩ := hth.const rfl _ _ a1
      exact absurd a5 (not_refused h2)
    | @uRollComp _ _ _ ts as ms bs th' ps m target gs a1 a2 a3 a4 a5 a6 =>
      cases a1 with | given a1 =>
      obtain ⟨rfl, rfl⟩ := hth.const rfl _ _ a1
      obtain rfl := a2.calc hcalc
      cases a3
      obtain rfl := a4.no_dice ce
      have hd' : ∀ d ∈ gs.flatten, d.value < th' := fun d hx => hd d (by simpa using hx)
      obtain ⟨gs0, k1, k2⟩ := (calm_groups hd').mp ⟨gs, a6, rfl, calm_sums hd' a6⟩
      refine ⟨_, a4, ⟨_, _, a2, k1, by simpa using k2⟩, by simpa using h4, ?_⟩
      have e3 : successesShown (Int64.ofNat (successes op target ((groupSums gs).map (fun x => x + 0)))) = last :=
        Option.some.inj hlast
      rw [← e3, z, calm_sums hd' a6]
      simp
  · rintro ⟨target, a3, ⟨ps, gs0, a2, hg, rfl⟩, h4, rfl⟩
    obtain ⟨gs, k1, k2, k3⟩ := (calm_groups hd).mpr ⟨gs0, hg, rfl⟩
    refine ⟨_, executeBasicCommand_ok_text.mpr ⟨_, _, txt, .uRollComp (.given hth) a2 .absent a3 h2 k1, by simpa [k2] using h4⟩,
      by simp [k2], ?_⟩
    have e3 : successesShown (Int64.ofNat (successes op target ((groupSums gs).map (fun x => x + 0)))) =
        successesShown (Int64.ofNat (successes op target (gs0.flatten.map Die.value))) := by rw [z, k3]
    exact congrArg some e3

/-- **C116.** As long as no die reaches the threshold, the total of U rolls is that of the D rolls and their maximum is the greatest
value of the B rolls. -/
theorem C116_max_total {b u t : Str} {rs : List Roll} {te : Expr} {th : Int64} (hb : RollsText ('B', 'b') b rs)
    (hu : RollsText ('U', 'u') u rs) (ht : ThresholdText t (some te)) (hth : Ev te [] th) (h2 : 2 ≤ th)
    (hn : NoRandomNumber b) (f f2 : σ) (ds : List Die) (hd : ∀ d ∈ ds, d.value < th) (max : Int64) :
    Replies F g (u ++ t) f ds (maxAndTotalShown max (ds.map Die.value).sum) f2 ↔
      Replies F g b f ds (valuesText (ds.map Die.value)) f2 ∧ IsMax max (ds.map Die.value) := by
  have hcalc := hb.calc hn
  have txt : CommandText (u ++ t) (.uRollExpr ⟨⟨rs, some te⟩, none⟩) :=
    .uRollExpr ⟨_, _, (List.append_nil _).symm, ⟨_, _, rfl, hu, ht⟩, .absent⟩
  rw [replies_b F g hb hcalc]
  constructor
  · rintro ⟨res, h, hds, hlast⟩
    obtain ⟨n, ds, h1, h3, h4⟩ := executeBasicCommand_ok_text.mp h
    have := ((parse_iff _ n).mpr h1).symm.trans ((parse_iff _ _).mpr txt)
    simp only [Option.some.injEq] at this
    subst this
    cases h3 with
    | uRollRefused a1 a2 a3 a4 =>
      cases a1 with | given a1 =>
      obtain ⟨rfl, rfl⟩ := hth.const rfl _ _ a1
      exact absurd a4 (not_refused h2)
    | @uRollExpr _ ts as ms th' ps m mx gs a1 a2 a3 a4 a5 a6 =>
      cases a1 with | given a1 =>
      obtain ⟨rfl, rfl⟩ := hth.const rfl _ _ a1
      obtain rfl := a2.calc hcalc
      cases a3
      simp only [List.nil_append] at hds h4
      subst hds
      obtain ⟨gs0, k1, k2⟩ := (calm_groups hd).mp ⟨gs, a5, rfl, calm_sums hd a5⟩
      have e3 : maxAndTotalShown (mx + 0) ((gs.flatten.map Die.value).sum + 0) = maxAndTotalShown max (gs.flatten.map Die.value).sum :=
        Option.some.inj hlast
      obtain ⟨e4, -⟩ := maxAndTotal_inj e3
      have e5 : mx = max := by simpa using e4
      subst e5
      have hm := a6.resolve_left (fun h => a5.ne (a2.ne_nil hb.ne_nil) h.1)
      rw [calm_sums hd a5] at hm
      exact ⟨⟨⟨_, _, a2, k1, k2⟩, h4, rfl⟩, hm⟩
  · rintro ⟨⟨⟨ps, gs0, a2, hg, rfl⟩, h4, -⟩, hm⟩
    obtain ⟨gs, k1, k2, k3⟩ := (calm_groups hd).mpr ⟨gs0, hg, rfl⟩
    refine ⟨_, executeBasicCommand_ok_text.mpr ⟨_, _, txt, .uRollExpr (.given hth) a2 .absent h2 k1 (.inr (k3 ▸ hm)),
      by simpa [k2] using h4⟩, by simp [k2], ?_⟩
    have e3 : maxAndTotalShown (max + 0) ((gs.flatten.map Die.value).sum + 0) = maxAndTotalShown max (gs0.flatten.map Die.value).sum := by
      rw [k2]; simp
    exact congrArg some e3

end

/-! Cases met. -/

example : Replies queueFeeder chars!"DiceBot" chars!"2D6+1D10" [⟨3, 6⟩, ⟨5, 6⟩, ⟨7, 10⟩] [⟨3, 6⟩, ⟨5, 6⟩, ⟨7, 10⟩] (intStr 15) [] :=
  ((C116_total queueFeeder chars!"DiceBot" (b := chars!"2B6+1B10") (d := chars!"2D6+1D10") (rs := [⟨.int 2, .int 6⟩, ⟨.int 1, .int 10⟩])
    (CommandText.bRolls ((parse_iff _ _).mp rfl))
    (.cons (s := chars!"2D6") ⟨chars!"2", chars!"6", 'D', rfl, .inl rfl, .rollOperandNum (.number (ds := chars!"2") (by decide) (by decide)),
        .rollOperandNum (.number (ds := chars!"6") (by decide) (by decide))⟩
      (.one ⟨chars!"1", chars!"10", 'D', rfl, .inl rfl, .rollOperandNum (.number (ds := chars!"1") (by decide) (by decide)),
        .rollOperandNum (.number (ds := chars!"10") (by decide) (by decide))⟩))
    (by unfold NoRandomNumber; decide) [⟨3, 6⟩, ⟨5, 6⟩, ⟨7, 10⟩] [] [⟨3, 6⟩, ⟨5, 6⟩, ⟨7, 10⟩]).1 chars!"3,5,7" ⟨_, rfl, rfl, rfl⟩).2

example : Replies queueFeeder chars!"DiceBot" chars!"2U6[6]" [⟨3, 6⟩, ⟨5, 6⟩] [⟨3, 6⟩, ⟨5, 6⟩] (maxAndTotalShown 5 8) [] :=
  ((C116_max_total queueFeeder chars!"DiceBot" (b := chars!"2B6") (u := chars!"2U6") (t := chars!"[6]") (te := .int 6) (th := 6)
    (CommandText.bRolls ((parse_iff _ _).mp rfl)) (CommandText.uRolls ((parse_iff _ _).mp rfl))
    (.given (.addMul (.mulPrim (.primNum (.number (ds := chars!"6") (by decide) (by decide)))))) (.int 6) (by decide)
    (by unfold NoRandomNumber; decide) [⟨3, 6⟩, ⟨5, 6⟩] [] [⟨3, 6⟩, ⟨5, 6⟩] (by decide) 5).mpr ⟨⟨_, rfl, rfl, rfl⟩, by unfold IsMax; decide⟩)

/-- **C116.** Without dice that reach the threshold is meant: a six is rolled again and counted twice. -/
theorem C116_calm_needed :
    Replies queueFeeder chars!"DiceBot" chars!"1B6>=4" [⟨6, 6⟩, ⟨5, 6⟩] [⟨6, 6⟩] (successesShown 1) [⟨5, 6⟩] ∧
    Replies queueFeeder chars!"DiceBot" chars!"1R6[6]>=4" [⟨6, 6⟩, ⟨5, 6⟩] [⟨6, 6⟩, ⟨5, 6⟩] (successesShown 2) [] :=
  ⟨⟨_, rfl, rfl, rfl⟩, ⟨_, rfl, rfl, rfl⟩⟩

end GoBCDice
