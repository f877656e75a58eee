import Verif.Lemmas.ChanceCount
import Verif.Props.Outcome

/-!
# The dice of ordinary commands are known in advance
-/

namespace GoBCDice
open MeasureTheory

theorem Rolled.sides {x y : Int64} {ds : List Die} (h : Rolled x y ds) :
    ds.map Die.sides = List.replicate x.toInt.toNat y := by
  obtain ⟨-, -, -, h4, h5⟩ := h
  rw [List.eq_replicate_iff]
  refine ⟨by rw [List.length_map]; omega, ?_⟩
  intro b hb
  obtain ⟨d, hd, rfl⟩ := List.mem_map.mp hb
  exact h5 d hd

theorem rolled_of {x y : Int64} {ds : List Die} (h1 : 1 ≤ x) (h2 : x.toInt ≤ 2 ^ 44) (h3 : 1 ≤ y)
    (h : ds.map Die.sides = List.replicate x.toInt.toNat y) : Rolled x y ds := by
  rw [List.eq_replicate_iff] at h
  obtain ⟨h4, h5⟩ := h
  have h1' : 1 ≤ x.toInt := by simpa [Int64.le_iff_toInt_le] using h1
  refine ⟨h3, h1, ?_, by rw [List.length_map] at h4; omega, fun d hd => h5 _ (List.mem_map.mpr ⟨d, hd, rfl⟩)⟩
  rw [Int64.le_iff_toInt_le, maxMakeCap_toInt, cap_eq]
  omega

theorem Ev.dice {e : Expr} {ds : List Die} {v : Int64} (h : Ev e ds v) (ho : Ordinary e) :
    ds.map Die.sides = e.dice := by
  induction h with
  | int v => rfl
  | sumRoll ds => cases ho
  | neg _ ih => cases ho with | neg h => exact ih h
  | add _ _ ih1 ih2 => cases ho with | bin h1 h2 => simp [Expr.dice, ih1 h1, ih2 h2]
  | sub _ _ ih1 ih2 => cases ho with | bin h1 h2 => simp [Expr.dice, ih1 h1, ih2 h2]
  | mul _ _ ih1 ih2 => cases ho with | bin h1 h2 => simp [Expr.dice, ih1 h1, ih2 h2]
  | div h1 h2 _ ih1 ih2 => cases ho with | div h1 _ => cases h2; simp [Expr.dice, ih1 h1]
  | d h1 h2 h3 =>
    cases ho with | roll a b c =>
    cases h1; cases h2
    exact h3.sides
  | rand => cases ho

theorem DVal.dice {e : Expr} {as rs : List Die} {v : Int64} (h : DVal e as rs v) (ho : Ordinary e) :
    as = [] ∧ rs.map Die.sides = e.dice := by
  induction h with
  | int v => exact ⟨rfl, rfl⟩
  | sumRoll ds => cases ho
  | neg _ ih => cases ho with | neg h => exact ih h
  | add _ _ ih1 ih2 => cases ho with | bin h1 h2 => simp [Expr.dice, ih1 h1, ih2 h2]
  | sub _ _ ih1 ih2 => cases ho with | bin h1 h2 => simp [Expr.dice, ih1 h1, ih2 h2]
  | mul _ _ ih1 ih2 => cases ho with | bin h1 h2 => simp [Expr.dice, ih1 h1, ih2 h2]
  | div h1 h2 _ ih1 ih2 => cases ho with | div h1 _ => cases h2; simp [Expr.dice, ih1 h1]
  | roll h1 h2 h3 =>
    cases ho with | roll a b c =>
    cases h1; cases h2
    exact ⟨rfl, h3.sides⟩

theorem Args.literal {rolls : List Roll} {as : List Die} {ps : List (Int64 × Int64)} (h : Args rolls as ps)
    (ho : ∀ r ∈ rolls, OrdinaryRoll r) :
    as = [] ∧ rolls.flatMap Roll.dice = ps.flatMap fun p => List.replicate p.1.toInt.toNat p.2 := by
  induction h with
  | nil => exact ⟨rfl, rfl⟩
  | @cons r rest ds es as x y ps h1 h2 _ ih =>
    obtain ⟨i1, i2⟩ := ih (fun r hr => ho r (by simp [hr]))
    have := ho r (by simp)
    cases this with | mk a b c =>
    cases h1; cases h2
    subst i1
    exact ⟨rfl, by simp [Roll.dice, i2]⟩

theorem GroupsFor.dice {ps : List (Int64 × Int64)} {gs : List (List Die)} (h : GroupsFor ps gs) :
    gs.flatten.map Die.sides = ps.flatMap fun p => List.replicate p.1.toInt.toNat p.2 := by
  induction h with
  | nil => rfl
  | cons h1 _ ih =>
    have := h1.sides
    simp only [List.flatten_cons, List.map_append, List.flatMap_cons, this, ih]

/-- Every outcome of a command without rerolls rolls the same dice. -/
theorem Outcome.dice {limit : Nat} {g : Str} {node : Node} {ds : List Die} {r : Result} {ss : List Int64}
    (h : Outcome limit g node ds r) (ho : OrdinaryCommand node) (hs : node.dice = some ss) :
    ds.map Die.sides = ss := by
  cases h with
  | choice h1 _ _ =>
    cases hs
    simpa using h1.2.2.2.2 _ (by simp)
  | «calc» h1 =>
    cases hs
    cases ho with | «calc» h => exact h1.dice h
  | dRollExpr h1 h2 h3 =>
    cases hs
    cases ho with | dRollExpr h =>
    obtain ⟨rfl, h4⟩ := ((staged_iff_DVal ..).mp ⟨_, _, h1, h2, h3⟩).dice h
    exact h4
  | dRollComp _ h1 hr h2 h3 =>
    cases hs
    cases ho with | dRollComp h _ h' =>
    obtain ⟨rfl, h4⟩ := ((staged_iff_DVal ..).mp ⟨_, _, h1, h2, h3⟩).dice h
    simp [h4, hr.dice h']
  | bRollList h1 h2 =>
    cases hs
    cases ho with | bRollList h =>
    obtain ⟨rfl, h4⟩ := h1.literal h
    rw [h4, ← h2.dice]
    rfl
  | bRollComp h1 hr h2 =>
    cases hs
    cases ho with | bRollComp h h' =>
    obtain ⟨rfl, h4⟩ := h1.literal h
    rw [h4, ← h2.dice, ← hr.dice h']
    simp
  | _ => cases hs

theorem dealt_draws {ω : Fate} {i : ℕ} {ds : List Die} (h : Dealt ω i ds) :
    Draws (mtFeeder (fated ω)) i ds (i + ds.length) := draws_fated.mpr ⟨h, rfl⟩

/-- The lists of dice with which a command gives a result for which `E` holds. -/
def diceGiving (g : Str) (node : Node) (E : Result → Prop) : Set (List Die) :=
  {ds | ∃ r, Outcome 10000 g node ds r ∧ E r}

theorem outcome_separate (g : Str) (node : Node) (E : Result → Prop) : Separate (diceGiving g node E) := by
  rintro ω i ds es ⟨r, h, -⟩ ⟨r', h', -⟩ hd hd'
  have e1 := (execute_ok_iff (newEvaluator (mtFeeder (fated ω))) g node i ⟨i + ds.length, ds⟩ r).mpr
    ⟨ds, by rw [limit_eq]; exact h, dealt_draws hd, rfl⟩
  have e2 := (execute_ok_iff (newEvaluator (mtFeeder (fated ω))) g node i ⟨i + es.length, es⟩ r').mpr
    ⟨es, by rw [limit_eq]; exact h', dealt_draws hd', rfl⟩
  rw [e1] at e2
  simp only [Prod.mk.injEq, St.mk.injEq] at e2
  exact e2.2.2

/-- What an ordinary command answers, in terms of the dice. -/
theorem answered_iff {usage input body : Str} {secret : Bool} {node : Node} (hm : Marked input body secret)
    (ht : CommandText body node) (ho : OrdinaryCommand node) (i : ℕ) (E : Result → Prop) :
    Answered usage input i E =
      {ω | ∃ ds ∈ diceGiving chars!"DiceBot" node (fun r => E { r with isSecret := secret }), Dealt ω i ds} := by
  ext ω
  simp only [Answered, Set.mem_ofPred_eq, diceGiving]
  have hans : ∀ ds r0, Outcome 10000 chars!"DiceBot" node ds r0 → Dealt ω i ds →
      executeCommand (mtFeeder (fated ω)) (basicBot usage) input i = (.ok { r0 with isSecret := secret }, i + ds.length) := by
    intro ds r0 h1 h2
    exact (C78_answer _ usage input i _ _).mpr ⟨body, secret, firstPart body, r0, hm, firstWord_iff.mpr rfl,
      rfl, .inl ⟨node, ds, ht, h1, dealt_draws h2⟩⟩
  constructor
  · rintro ⟨r, i', h1, h2⟩
    obtain ⟨r0, s', h⟩ := C80_execute (mtFeeder (fated ω)) (mt_generous _ (fated_lawful ω)) chars!"DiceBot" node ho i
    obtain ⟨ds, hO, hd, -⟩ := (execute_ok_iff _ _ _ _ _ _).mp h
    rw [limit_eq] at hO
    have hdl := (draws_fated.mp hd).1
    have := hans ds r0 hO hdl
    rw [h1] at this
    simp only [Prod.mk.injEq, Out.ok.injEq] at this
    exact ⟨ds, ⟨r0, hO, this.1 ▸ h2⟩, hdl⟩
  · rintro ⟨ds, ⟨r0, h1, h2⟩, h3⟩
    exact ⟨_, _, hans ds r0 h1 h3, h2⟩

end GoBCDice
