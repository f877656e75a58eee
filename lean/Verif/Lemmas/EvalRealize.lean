import Verif.Lemmas.Realize

/-!
# The evaluator realises the specification relations
-/

namespace GoBCDice

theorem sumInts_acc (vs : List Int64) (a : Int64) : vs.foldl (· + ·) a = a + vs.sum := by
  induction vs generalizing a with
  | nil => simp
  | cons v vs ih => simp only [List.foldl_cons, List.sum_cons, ih]; grind

theorem sumInts_eq (vs : List Int64) : sumInts vs = vs.sum := by
  rw [sumInts, sumInts_acc]; simp

variable {σ : Type} (E : Evaluator σ)

/-- **Evaluation realises the big-step semantics.** -/
theorem realizes_eval (e : Expr) : Realizes E.F (E.eval e) (Ev e) := by
  induction e with
  | int v =>
    refine (Realizes.pure v).congr ?_
    intro ds a
    constructor
    · rintro ⟨rfl, rfl⟩; exact .int _
    · rintro ⟨⟩; exact ⟨rfl, rfl⟩
  | sumRoll rs =>
    refine (Realizes.pure (sumDice rs)).congr ?_
    intro ds a
    rw [sumDice, sumInts_eq]
    constructor
    · rintro ⟨rfl, rfl⟩; exact .sumRoll _
    · rintro ⟨⟩; exact ⟨rfl, rfl⟩
  | neg r ih =>
    refine (Realizes.bind ih (fun v => Realizes.pure (-v))).congr ?_
    intro ds a
    constructor
    · rintro ⟨d1, d2, v, rfl, h1, rfl, rfl⟩
      simpa using Ev.neg h1
    · rintro ⟨h1⟩
      rename_i h1
      exact ⟨_, [], _, by simp, h1, rfl, rfl⟩
  | bin op l r ihl ihr =>
    refine (Realizes.bind ihl (fun a => Realizes.bind ihr
      (fun b => Realizes.pure (op.apply a b)))).congr ?_
    intro ds v
    constructor
    · rintro ⟨d1, d2, a, rfl, h1, d3, d4, b, rfl, h2, rfl, rfl⟩
      rw [List.append_nil]
      cases op
      · exact .add h1 h2
      · exact .sub h1 h2
      · exact .mul h1 h2
    · intro h
      cases h with
      | add h1 h2 => exact ⟨_, _, _, rfl, h1, _, [], _, by simp, h2, rfl, rfl⟩
      | sub h1 h2 => exact ⟨_, _, _, rfl, h1, _, [], _, by simp, h2, rfl, rfl⟩
      | mul h1 h2 => exact ⟨_, _, _, rfl, h1, _, [], _, by simp, h2, rfl, rfl⟩
  | div m l r ihl ihr =>
    have hdiv : ∀ a b : Int64, Realizes E.F (Evaluator.evalIntegerDivide m a b)
        (fun ds v => b ≠ 0 ∧ ds = [] ∧ v = divValue m a b) := by
      intro a b
      unfold Evaluator.evalIntegerDivide
      split
      · exact (Realizes.fail _).congr (by simp_all)
      · exact (Realizes.pure _).congr (by simp_all)
    refine (Realizes.bind ihl (fun a => Realizes.bind ihr (fun b => hdiv a b))).congr ?_
    intro ds v
    constructor
    · rintro ⟨d1, d2, a, rfl, h1, d3, d4, b, rfl, h2, hb, rfl, rfl⟩
      rw [List.append_nil]
      exact .div h1 h2 hb
    · intro h
      cases h with | div h1 h2 hb =>
      exact ⟨_, _, _, rfl, h1, _, [], _, by simp, h2, hb, rfl, rfl⟩
  | var k l r ihl ihr =>
    cases k with
    | d =>
      refine (Realizes.bind ihl (fun a => Realizes.bind ihr (fun b =>
        Realizes.bind (realizes_rollDice E a b) (fun ds => Realizes.pure (sumDice ds))))).congr ?_
      intro ds v
      constructor
      · rintro ⟨d1, d2, a, rfl, h1, d3, d4, b, rfl, h2, d5, d6, ds, rfl, ⟨rfl, hr⟩, rfl, rfl⟩
        rw [List.append_nil, sumDice, sumInts_eq, ← List.append_assoc]
        exact .d h1 h2 hr
      · intro h
        cases h with | d h1 h2 hr =>
        exact ⟨_, _, _, List.append_assoc .., h1, _, _, _, rfl, h2, _, [], _, by simp, ⟨rfl, hr⟩, rfl,
          by rw [sumDice, sumInts_eq]⟩
    | rand =>
      have hfirst : ∀ (lo : Int64) (ds : List Die), Realizes E.F
          (do let d ← Evaluator.firstDie ds; pure ((lo - 1) + d.value))
          (fun es v => es = [] ∧ ∃ d rest, ds = d :: rest ∧ v = lo - 1 + d.value) := by
        intro lo ds
        cases ds with
        | nil => exact (Realizes.crash _).congr (by simp)
        | cons d rest =>
          refine (Realizes.pure (lo - 1 + d.value)).congr ?_
          intro es v
          constructor
          · rintro ⟨rfl, rfl⟩; exact ⟨rfl, d, rest, rfl, rfl⟩
          · rintro ⟨rfl, d', rest', h, rfl⟩; cases h; exact ⟨rfl, rfl⟩
      have hrand : ∀ lo hi : Int64, Realizes E.F (E.evalRandomNumber lo hi)
          (fun ds v => lo < hi ∧ ∃ d, ds = [d] ∧ Rolled 1 (hi - lo + 1) [d] ∧
            v = lo - 1 + d.value) := by
        intro lo hi
        unfold Evaluator.evalRandomNumber
        split
        · exact (Realizes.fail _).congr (by grind)
        · rename_i hlt
          refine (Realizes.bind (realizes_rollDice E 1 (hi - lo + 1)) (hfirst lo)).congr ?_
          intro ds v
          constructor
          · rintro ⟨d1, d2, a, rfl, ⟨rfl, hr⟩, rfl, d, rest, rfl, rfl⟩
            have hl := hr.2.2.2.1
            have h1 : (1 : Int64).toInt = 1 := by decide
            have : rest = [] := by
              rw [h1] at hl; simp at hl; exact List.length_eq_zero_iff.mp (by omega)
            subst this
            exact ⟨by grind, d, by simp, hr, rfl⟩
          · rintro ⟨h, d, rfl, hr, rfl⟩
            exact ⟨[d], [], [d], by simp, ⟨rfl, hr⟩, rfl, d, [], rfl, rfl⟩
      refine (Realizes.bind ihl (fun a => Realizes.bind ihr (fun b => hrand a b))).congr ?_
      intro ds v
      constructor
      · rintro ⟨d1, d2, a, rfl, h1, d3, d4, b, rfl, h2, hlt, d, rfl, hr, rfl⟩
        rw [← List.append_assoc]
        exact .rand h1 h2 hlt hr
      · intro h
        cases h with | rand h1 h2 hlt hr =>
        exact ⟨_, _, _, List.append_assoc .., h1, _, _, _, rfl, h2, hlt, _, rfl, hr, rfl⟩

/-- Dice of one B or R roll: operands, then the dice themselves. -/
def BasicRollEv (r : Roll) (ds : List Die) (vs : List Int64) : Prop :=
  ∃ d1 d2 g x y, ds = d1 ++ d2 ++ g ∧ Ev r.num d1 x ∧ Ev r.sides d2 y ∧ Rolled x y g ∧
    vs = g.map Die.value

theorem realizes_evalBasicRoll (r : Roll) :
    Realizes E.F (E.evalBasicRoll r) (BasicRollEv r) := by
  refine (Realizes.bind (realizes_eval E r.num) (fun a => Realizes.bind (realizes_eval E r.sides)
    (fun b => Realizes.bind (realizes_rollDice E a b)
      (fun ds => Realizes.pure (ds.map Die.value))))).congr ?_
  intro ds v
  constructor
  · rintro ⟨d1, _, a, rfl, h1, d3, _, b, rfl, h2, d5, _, ds, rfl, ⟨rfl, hr⟩, rfl, rfl⟩
    exact ⟨d1, d3, ds, a, b, by simp, h1, h2, hr, rfl⟩
  · rintro ⟨d1, d2, g, x, y, rfl, h1, h2, hr, rfl⟩
    exact ⟨d1, d2 ++ g, x, by simp, h1, d2, g, y, rfl, h2, g, [], g, by simp, ⟨rfl, hr⟩, rfl, rfl⟩

/-- The literal roll with given number and sides. -/
def litRoll (p : Int64 × Int64) : Roll := { num := .int p.1, sides := .int p.2 }

theorem ev_int {v a : Int64} {ds : List Die} : Ev (.int v) ds a ↔ ds = [] ∧ a = v := by
  constructor
  · rintro ⟨⟩; exact ⟨rfl, rfl⟩
  · rintro ⟨rfl, rfl⟩; exact .int _

theorem basicRollEv_lit (p : Int64 × Int64) (ds : List Die) (vs : List Int64) :
    BasicRollEv (litRoll p) ds vs ↔ Rolled p.1 p.2 ds ∧ vs = ds.map Die.value := by
  constructor
  · rintro ⟨d1, d2, g, x, y, rfl, h1, h2, hr, rfl⟩
    rw [litRoll, ev_int] at h1
    rw [litRoll, ev_int] at h2
    obtain ⟨rfl, rfl⟩ := h1
    obtain ⟨rfl, rfl⟩ := h2
    simpa using hr
  · rintro ⟨hr, rfl⟩
    exact ⟨[], [], ds, p.1, p.2, by simp, .int _, .int _, hr, rfl⟩

theorem realizes_evalBRollList (ps : List (Int64 × Int64)) :
    Realizes E.F (E.evalBRollList (ps.map litRoll))
      (fun ds vs => ∃ gs, GroupsFor ps gs ∧ ds = gs.flatten ∧ vs = ds.map Die.value) := by
  induction ps with
  | nil =>
    refine (Realizes.pure []).congr ?_
    intro ds a
    constructor
    · rintro ⟨rfl, rfl⟩; exact ⟨[], .nil, rfl, rfl⟩
    · rintro ⟨gs, ⟨⟩, rfl, rfl⟩; exact ⟨rfl, rfl⟩
  | cons p ps ih =>
    refine (Realizes.bind ((realizes_evalBasicRoll E (litRoll p)).congr (basicRollEv_lit p))
      (fun vs => Realizes.bind ih (fun ws => Realizes.pure (vs ++ ws)))).congr ?_
    intro ds a
    constructor
    · rintro ⟨d1, _, _, rfl, ⟨hr, rfl⟩, d3, _, _, rfl, ⟨gs, hg, rfl, rfl⟩, rfl, rfl⟩
      exact ⟨d1 :: gs, .cons hr hg, by simp, by simp⟩
    · rintro ⟨gs, hg, rfl, rfl⟩
      cases hg with | @cons x y _ g gs hr hg =>
      exact ⟨g, gs.flatten, _, by simp, ⟨hr, rfl⟩, gs.flatten, [], _, by simp, ⟨gs, hg, rfl, rfl⟩, rfl,
        by simp⟩

/-- The reroll scheduled by a group of values, as a list. -/
def rerolls (th y : Int64) (vs : List Int64) : List (Int64 × Int64) :=
  if (vs.filter (fun v => decide (v ≥ th))).length = 0 then []
  else [(Int64.ofNat (vs.filter (fun v => decide (v ≥ th))).length, y)]

theorem rerolls_map (th y : Int64) (g : List Die) :
    rerolls th y (g.map Die.value) =
      (if (g.filter (fun d => th ≤ d.value)).length = 0 then []
       else [(Int64.ofNat (g.filter (fun d => th ≤ d.value)).length, y)]) := by
  unfold rerolls
  have e : ((g.map Die.value).filter (fun v => decide (v ≥ th))).length =
      (g.filter (fun d => th ≤ d.value)).length := by
    rw [List.filter_map, List.length_map]
    rfl
  rw [e]

theorem realizes_rRollLoop (th : Int64) (n : Nat) (ps : List (Int64 × Int64))
    (acc : List (List Int64)) :
    Realizes E.F (E.rRollLoop th n (ps.map litRoll) acc)
      (fun ds vss => ∃ gs, RGroups th n ps gs ∧ ds = gs.flatten ∧ vss = acc ++ valuesOf gs) := by
  induction n generalizing ps acc with
  | zero =>
    unfold Evaluator.rRollLoop
    refine (Realizes.pure acc).congr ?_
    intro ds a
    constructor
    · rintro ⟨rfl, rfl⟩; exact ⟨[], .limit _, rfl, by simp [valuesOf]⟩
    · rintro ⟨gs, h, rfl, rfl⟩
      cases h <;> simp [valuesOf]
  | succ n ih =>
    cases ps with
    | nil =>
      simp only [List.map_nil, Evaluator.rRollLoop]
      refine (Realizes.pure acc).congr ?_
      intro ds a
      constructor
      · rintro ⟨rfl, rfl⟩; exact ⟨[], .done _, rfl, by simp [valuesOf]⟩
      · rintro ⟨gs, h, rfl, rfl⟩
        cases h; simp [valuesOf]
    | cons p ps =>
      obtain ⟨x, y⟩ := p
      simp only [List.map_cons, Evaluator.rRollLoop]
      have key : ∀ vs : List Int64,
          (if (vs.filter (fun v => decide (v ≥ th))).length > 0 then
              ps.map litRoll ++ [{ num := .int (Int64.ofNat (vs.filter (fun v => decide (v ≥ th))).length),
                                   sides := (litRoll (x, y)).sides }]
            else ps.map litRoll) =
          (ps ++ rerolls th y vs).map litRoll := by
        intro vs
        unfold rerolls
        by_cases h : (vs.filter (fun v => decide (v ≥ th))).length = 0
        · rw [if_neg (by omega), if_pos h]; simp
        · rw [if_pos (by omega), if_neg h]; simp [litRoll]
      simp only [key]
      refine (Realizes.bind ((realizes_evalBasicRoll E (litRoll (x, y))).congr (basicRollEv_lit _))
        (fun vs => ih (ps ++ rerolls th y vs) (acc ++ [vs]))).congr ?_
      intro ds vss
      constructor
      · rintro ⟨d1, _, _, rfl, ⟨hr, rfl⟩, gs, hg, rfl, rfl⟩
        rw [rerolls_map] at hg
        exact ⟨d1 :: gs, .roll hr hg, by simp, by simp [valuesOf]⟩
      · rintro ⟨gs, hg, rfl, rfl⟩
        cases hg with | @roll _ _ _ _ g gs hr hg =>
        rw [← rerolls_map] at hg
        exact ⟨g, gs.flatten, _, by simp, ⟨hr, rfl⟩, gs, hg, rfl, by simp [valuesOf]⟩

theorem realizes_evalRRollList (th : Int64) (ps : List (Int64 × Int64)) :
    Realizes E.F (E.evalRRollList { rolls := ps.map litRoll, threshold := some (.int th) })
      (fun ds vss => ∃ gs, RGroups th (loopCount E.maxRerolls) ps gs ∧ ds = gs.flatten ∧
        vss = valuesOf gs) := by
  show Realizes E.F (E.rRollLoop th (loopCount E.maxRerolls) (ps.map litRoll) []) _
  simpa using realizes_rRollLoop E th (loopCount E.maxRerolls) ps []

/-! ## U rolls -/

theorem uGroup_spec_step (sides th : Int64) (n : Nat) (d : Die) (g : List Die) :
    UChain sides th (n + 1) (d :: g) ↔
      1 ≤ sides ∧ d.sides = sides ∧ ((d.value < th ∧ g = []) ∨ (th ≤ d.value ∧ UChain sides th n g)) := by
  constructor
  · rintro ⟨h0, h1, h2, h3, h4⟩
    refine ⟨h0, h1 d (by simp), ?_⟩
    cases g with
    | nil =>
      simp at h4
      by_cases hd : d.value < th
      · exact .inl ⟨hd, rfl⟩
      · refine .inr ⟨by grind, h0, by simp, by simp, by simp, ?_⟩
        left
        rcases h4 with h4 | h4
        · simpa using h4.symm
        · exact absurd h4 hd
    | cons d' g =>
      right
      refine ⟨h3 d (by simp), h0, fun x hx => h1 x (by simp [hx]), by simpa using h2,
        fun x hx => h3 x (by simp [List.dropLast_cons_of_ne_nil, hx]), ?_⟩
      rcases h4 with h4 | ⟨x, hx, hlt⟩
      · left; simpa using h4
      · right; exact ⟨x, by simpa [List.getLast?_cons_cons] using hx, hlt⟩
  · rintro ⟨h0, h1, h2⟩
    rcases h2 with ⟨h2, rfl⟩ | ⟨h2, h3⟩
    · exact ⟨h0, by simpa using h1, by simp, by simp, .inr ⟨d, by simp, h2⟩⟩
    · cases g with
      | nil =>
        refine ⟨h0, by simpa using h1, by simp, by simp, ?_⟩
        rcases h3.last with h | ⟨x, hx, _⟩
        · left; simpa using h.symm
        · simp at hx
      | cons d' g =>
        refine ⟨h0, ?_, by simpa using h3.length_le, ?_, ?_⟩
        · intro x hx
          rcases List.mem_cons.mp hx with rfl | hx
          · exact h1
          · exact h3.sides_eq x hx
        · intro x hx
          rw [List.dropLast_cons_of_ne_nil (by simp)] at hx
          rcases List.mem_cons.mp hx with rfl | hx
          · exact h2
          · exact h3.init_ge x hx
        · rcases h3.last with h | ⟨x, hx, hlt⟩
          · left; simpa using h
          · right; exact ⟨x, by simpa [List.getLast?_cons_cons] using hx, hlt⟩

theorem realizes_firstOfOne {α : Type} (sides : Int64) (k : Die → M σ α)
    {S : Die → List Die → α → Prop} (hk : ∀ d, Realizes E.F (k d) (S d)) :
    Realizes E.F (do
        let ds ← E.rollDice 1 sides
        let d ← Evaluator.firstDie ds
        k d)
      (fun ds a => ∃ d es, ds = d :: es ∧ 1 ≤ sides ∧ d.sides = sides ∧ S d es a) := by
  have hfirst : ∀ ds : List Die, Realizes E.F (do let d ← Evaluator.firstDie ds; k d)
      (fun es a => ∃ d rest, ds = d :: rest ∧ S d es a) := by
    intro ds
    cases ds with
    | nil => exact (Realizes.crash _).congr (by simp)
    | cons d rest =>
      refine Realizes.congr (m := k d) (hk d) ?_
      intro es v
      constructor
      · intro h; exact ⟨d, rest, rfl, h⟩
      · rintro ⟨d', rest', h, h'⟩; cases h; exact h'
  refine (Realizes.bind (realizes_rollDice E 1 sides) hfirst).congr ?_
  have h1 : (1 : Int64).toInt = 1 := by decide
  intro ds a
  constructor
  · rintro ⟨d1, d2, _, rfl, ⟨rfl, hr⟩, d, rest, rfl, h⟩
    have hl := hr.2.2.2.1
    have : rest = [] := by
      rw [h1] at hl; simp at hl; exact List.length_eq_zero_iff.mp (by omega)
    subst this
    exact ⟨d, d2, by simp, hr.1, hr.2.2.2.2 d (by simp), h⟩
  · rintro ⟨d, es, rfl, hs, hd, h⟩
    exact ⟨[d], es, [d], by simp, ⟨rfl, hs, by decide, by decide, by simp [h1], by simpa using hd⟩,
      d, [], rfl, h⟩

theorem realizes_uGroup (sides th : Int64) (hs : 1 ≤ sides) (n : Nat) (acc : List Int64) :
    Realizes E.F (E.uGroup sides th n acc)
      (fun ds vs => UChain sides th n ds ∧ vs = acc ++ ds.map Die.value) := by
  induction n generalizing acc with
  | zero =>
    unfold Evaluator.uGroup
    refine (Realizes.pure acc).congr ?_
    intro ds a
    constructor
    · rintro ⟨rfl, rfl⟩
      exact ⟨⟨hs, by simp, by simp, by simp, by simp⟩, by simp⟩
    · rintro ⟨h, rfl⟩
      have := List.length_eq_zero_iff.mp (Nat.le_zero.mp h.length_le)
      subst this
      simp
  | succ n ih =>
    have hk : ∀ d : Die, Realizes E.F
        (if d.value < th then pure (acc ++ [d.value])
          else E.uGroup sides th n (acc ++ [d.value]))
        (fun ds vs => ((d.value < th ∧ ds = []) ∨ (th ≤ d.value ∧ UChain sides th n ds)) ∧
          vs = acc ++ [d.value] ++ ds.map Die.value) := by
      intro d
      split
      · rename_i h
        refine (Realizes.pure (acc ++ [d.value])).congr ?_
        intro ds a
        constructor
        · rintro ⟨rfl, rfl⟩; exact ⟨.inl ⟨h, rfl⟩, by simp⟩
        · rintro ⟨⟨_, rfl⟩ | ⟨h', _⟩, rfl⟩
          · simp
          · exact absurd h (by grind)
      · rename_i h
        refine (ih (acc ++ [d.value])).congr ?_
        intro ds a
        constructor
        · rintro ⟨h1, rfl⟩; exact ⟨.inr ⟨by grind, h1⟩, rfl⟩
        · rintro ⟨⟨h', rfl⟩ | ⟨_, h1⟩, rfl⟩
          · exact absurd h' h
          · exact ⟨h1, rfl⟩
    refine Realizes.congr (m := E.uGroup sides th (n + 1) acc)
      (realizes_firstOfOne E sides _ hk) ?_
    intro ds a
    constructor
    · rintro ⟨d, es, rfl, _, hd, h, rfl⟩
      exact ⟨(uGroup_spec_step ..).mpr ⟨hs, hd, h⟩, by simp⟩
    · rintro ⟨h, rfl⟩
      cases ds with
      | nil => rcases h.last with h | ⟨x, hx, _⟩ <;> simp at *
      | cons d es =>
        obtain ⟨_, hd, h⟩ := (uGroup_spec_step ..).mp h
        exact ⟨d, es, rfl, hs, hd, h, by simp⟩

theorem realizes_uGroups (sides th : Int64) (hs : 1 ≤ sides) (n : Nat) (acc : List (List Int64)) :
    Realizes E.F (E.uGroups sides th n acc)
      (fun ds vss => ∃ gs, gs.length = n ∧ (∀ g ∈ gs, UChain sides th (loopCount E.maxRerolls) g) ∧
        ds = gs.flatten ∧ vss = acc ++ valuesOf gs) := by
  induction n generalizing acc with
  | zero =>
    unfold Evaluator.uGroups
    refine (Realizes.pure acc).congr ?_
    intro ds a
    constructor
    · rintro ⟨rfl, rfl⟩; exact ⟨[], rfl, by simp, rfl, by simp [valuesOf]⟩
    · rintro ⟨gs, hl, -, rfl, rfl⟩
      have := List.length_eq_zero_iff.mp hl
      subst this
      simp [valuesOf]
  | succ n ih =>
    refine Realizes.congr (m := E.uGroups sides th (n + 1) acc)
      (Realizes.bind (realizes_uGroup E sides th hs _ []) (fun g => ih (acc ++ [g]))) ?_
    intro ds a
    constructor
    · rintro ⟨d1, _, _, rfl, ⟨h1, rfl⟩, gs, hl, hg, rfl, rfl⟩
      refine ⟨d1 :: gs, by simp [hl], ?_, by simp, by simp [valuesOf]⟩
      simpa [h1] using hg
    · rintro ⟨gs, hl, hg, rfl, rfl⟩
      cases gs with
      | nil => simp at hl
      | cons g gs =>
        exact ⟨g, gs.flatten, _, by simp, ⟨hg g (by simp), rfl⟩, gs, by simpa using hl,
          fun x hx => hg x (by simp [hx]), rfl, by simp [valuesOf]⟩

theorem realizes_evalCompoundingRoll (th : Int64) (p : Int64 × Int64) :
    Realizes E.F (E.evalCompoundingRoll (litRoll p) th)
      (fun ds vss => ∃ gs, UGroupsOne (loopCount E.maxRerolls) th p gs ∧ ds = gs.flatten ∧
        vss = valuesOf gs) := by
  obtain ⟨x, y⟩ := p
  have e : E.evalCompoundingRoll (litRoll (x, y)) th =
      (if y < 1 then M.fail (Evaluator.compoundingMsg x y chars!"ダイスの面数が少なすぎます")
        else if x < 1 then M.fail (Evaluator.compoundingMsg x y chars!"振るダイス数が少なすぎます")
        else if maxMakeCap < x then M.crash makePanicMsg
        else E.uGroups y th (loopCount x) []) := rfl
  rw [e]
  split
  · exact (Realizes.fail _).congr (by intro ds a; simp [UGroupsOne]; grind)
  · split
    · exact (Realizes.fail _).congr (by intro ds a; simp [UGroupsOne]; grind)
    · split
      · exact (Realizes.crash _).congr (by intro ds a; simp [UGroupsOne]; grind)
      · rename_i h1 h2 h3
        refine (realizes_uGroups E y th (by grind) (loopCount x) []).congr ?_
        have hx : 1 ≤ x.toInt := by
          have : (1 : Int64) ≤ x := by grind
          simpa [Int64.le_iff_toInt_le] using this
        intro ds a
        constructor
        · rintro ⟨gs, hl, hg, rfl, rfl⟩
          unfold loopCount at hl
          exact ⟨gs, ⟨by grind, by grind, by grind, by simp only; omega, hg⟩, rfl, by simp⟩
        · rintro ⟨gs, ⟨_, _, _, hl, hg⟩, rfl, rfl⟩
          exact ⟨gs, by unfold loopCount; simp only at hl; omega, hg, rfl, by simp⟩

theorem realizes_evalCompoundingRolls (th : Int64) (ps : List (Int64 × Int64)) :
    Realizes E.F (E.evalCompoundingRolls th (ps.map litRoll))
      (fun ds vss => ∃ gs, UGroups (loopCount E.maxRerolls) th ps gs ∧ ds = gs.flatten ∧
        vss = valuesOf gs) := by
  induction ps with
  | nil =>
    refine (Realizes.pure []).congr ?_
    intro ds a
    constructor
    · rintro ⟨rfl, rfl⟩; exact ⟨[], .nil, rfl, rfl⟩
    · rintro ⟨gs, ⟨⟩, rfl, rfl⟩; exact ⟨rfl, rfl⟩
  | cons p ps ih =>
    refine (Realizes.bind (realizes_evalCompoundingRoll E th p)
      (fun vs => Realizes.bind ih (fun ws => Realizes.pure (vs ++ ws)))).congr ?_
    intro ds a
    constructor
    · rintro ⟨_, _, _, rfl, ⟨gs, hg, rfl, rfl⟩, _, _, _, rfl, ⟨hs, hh, rfl, rfl⟩, rfl, rfl⟩
      exact ⟨gs ++ hs, .cons hg hh, by simp, by simp [valuesOf]⟩
    · rintro ⟨_, hg, rfl, rfl⟩
      cases hg with | @cons _ _ gs hs hg hh =>
      exact ⟨gs.flatten, hs.flatten, _, by simp, ⟨gs, hg, rfl, rfl⟩, hs.flatten, [], _, by simp,
        ⟨hs, hh, rfl, rfl⟩, rfl, by simp [valuesOf]⟩

theorem realizes_evalURollList (th : Int64) (ps : List (Int64 × Int64)) :
    Realizes E.F (E.evalURollList { rolls := ps.map litRoll, threshold := some (.int th) })
      (fun ds vss => ∃ gs, UGroups (loopCount E.maxRerolls) th ps gs ∧ ds = gs.flatten ∧
        vss = valuesOf gs) := by
  show Realizes E.F (E.evalCompoundingRolls th (ps.map litRoll)) _
  exact realizes_evalCompoundingRolls E th ps

/-! ## Stage 1 -/

theorem realizes_evalVarArgsInRolls (rolls : List Roll) :
    Realizes E.F (E.evalVarArgsInRolls rolls)
      (fun ds rolls' => ∃ ps, Args rolls ds ps ∧ rolls' = ps.map litRoll) := by
  induction rolls with
  | nil =>
    refine (Realizes.pure []).congr ?_
    intro ds a
    constructor
    · rintro ⟨rfl, rfl⟩; exact ⟨[], .nil, rfl⟩
    · rintro ⟨ps, ⟨⟩, rfl⟩; exact ⟨rfl, rfl⟩
  | cons r rest ih =>
    have hr : Realizes E.F (E.evalVarArgsOfRoll r)
        (fun ds r' => ∃ d1 d2 x y, ds = d1 ++ d2 ∧ Ev r.num d1 x ∧ Ev r.sides d2 y ∧
          r' = litRoll (x, y)) := by
      refine (Realizes.bind (realizes_eval E r.num) (fun a => Realizes.bind (realizes_eval E r.sides)
        (fun b => Realizes.pure ({ num := .int a, sides := .int b } : Roll)))).congr ?_
      intro ds a
      constructor
      · rintro ⟨d1, _, x, rfl, h1, d2, _, y, rfl, h2, rfl, rfl⟩
        exact ⟨d1, d2, x, y, by simp, h1, h2, rfl⟩
      · rintro ⟨d1, d2, x, y, rfl, h1, h2, rfl⟩
        exact ⟨d1, d2, x, rfl, h1, d2, [], y, by simp, h2, rfl, rfl⟩
    refine (Realizes.bind hr
      (fun r' => Realizes.bind ih (fun rest' => Realizes.pure (r' :: rest')))).congr ?_
    intro ds a
    constructor
    · rintro ⟨_, _, _, rfl, ⟨d1, d2, x, y, rfl, h1, h2, rfl⟩, d3, _, _, rfl, ⟨ps, hp, rfl⟩, rfl, rfl⟩
      exact ⟨(x, y) :: ps, by simpa using Args.cons h1 h2 hp, rfl⟩
    · rintro ⟨ps, h, rfl⟩
      cases h with | @cons _ _ d1 d2 as x y ps h1 h2 h3 =>
      exact ⟨d1 ++ d2, as, _, rfl, ⟨d1, d2, x, y, rfl, h1, h2, rfl⟩, as, [], _, by simp, ⟨ps, h3, rfl⟩,
        rfl, rfl⟩

end GoBCDice
