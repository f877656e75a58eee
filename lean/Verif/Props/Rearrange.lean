import Verif.Lemmas.Rearrange
import Verif.Props.Average

/-!
# Rearranging a command changes no probability (C100)

With perfect random numbers.  With given dice, on the other hand, the order of the rolls matters
(`C100_order_matters`).
-/

namespace GoBCDice
open MeasureTheory

variable {usage input body input' body' : Str} {secret secret' : Bool}

theorem countP_eq_count {α β : Type} [DecidableEq β] (L : List α) (F : α → β) (k : β) (q : α → Bool)
    (hq : ∀ x ∈ L, q x = true ↔ F x = k) : L.countP q = ((L.map F : List β) : Multiset β).count k := by
  rw [Multiset.coe_count, List.count_eq_countP, List.countP_map]
  apply List.countP_congr
  intro x hx
  rw [hq x hx]
  simp

theorem length_eq_card {α β : Type} (L : List α) (F : α → β) : L.length = ((L.map F : List β) : Multiset β).card := by
  simp

theorem total_eq {e : Expr} (hm : Marked input body secret) (ht : CommandText body (.dRollExpr e))
    (ho : Ordinary e) (i : ℕ) (t : Int64) :
    chance (Answered usage input i fun r => r.parts[2]? = some (intStr t)) =
      (e.values.count t : ENNReal) / (e.values.card : ENNReal) := by
  classical
  rw [C85_expression hm ht ho i t]
  unfold Expr.values
  rw [← length_eq_card, countP_eq_count _ e.worth t]
  intro vs hv
  obtain ⟨hval, hsid⟩ := diceShowing_values (length_of_mem_allFaces hv)
  rw [decide_eq_true_iff]
  constructor
  · intro h
    have := h.worth ho
    rw [hval] at this
    exact this.symm
  · rintro rfl
    have := ho.dval _ hsid
    rwa [hval] at this

/-- **C100.** Sums of rolls: however the expression is rearranged, every total is as likely as before. -/
theorem C100_total {e e' : Expr} (hm : Marked input body secret) (ht : CommandText body (.dRollExpr e))
    (hm' : Marked input' body' secret') (ht' : CommandText body' (.dRollExpr e'))
    (ho : Ordinary e) (ho' : Ordinary e') (h : Rearranged e e') (i i' : ℕ) (t : Int64) :
    chance (Answered usage input i fun r => r.parts[2]? = some (intStr t)) =
      chance (Answered usage input' i' fun r => r.parts[2]? = some (intStr t)) := by
  rw [total_eq hm ht ho, total_eq hm' ht' ho', h.values]

theorem dCompLeft_of {l : Expr} (ho : Ordinary l) (hn : 1 ≤ l.rands) : DCompLeft l := by
  cases ho with
  | int => simp [Expr.rands] at hn
  | _ => trivial

/-- The total and the verdict. -/
def verdict (op : CmpOp) (b a : Int64) : Int64 × SuccessCheck :=
  (a, if op.Rel a.toInt b.toInt then .success else .failure)

theorem verdict_eq {l r : Expr} {op : CmpOp} (hm : Marked input body secret)
    (ht : CommandText body (.dRollComp l op r)) (hl : Ordinary l) (hn : 1 ≤ l.rands) (hr : Ordinary r) (i : ℕ)
    (t : Int64) (s : SuccessCheck) :
    chance (ShowsVerdict usage input i t s) =
      ((both (verdict op) r.values l.values).count (t, s) : ENNReal) /
        ((both (verdict op) r.values l.values).card : ENNReal) := by
  classical
  unfold ShowsVerdict
  rw [C85_favourable hm ht (.dRollComp hl hn hr) rfl]
  unfold Expr.values
  rw [← map_faces_append, ← length_eq_card, countP_eq_count _ (fun vs => verdict op
    (r.worth (vs.take r.dice.length)) (l.worth (vs.drop r.dice.length))) (t, s)]
  intro vs hv
  obtain ⟨hval, hsid⟩ := diceShowing_values (length_of_mem_allFaces hv)
  rw [decide_eq_true_iff]
  constructor
  · rintro ⟨r0, h, hs1, hs2⟩
    generalize hds : diceShowing _ vs = ds at h hval hsid
    cases h with | @dRollComp _ l1 l2 _ _ as bs rs v target a0 a1 a2 a3 a4 =>
    have hv := (staged_iff_DVal ..).mp ⟨_, _, a1, a3, a4⟩
    obtain ⟨rfl, -⟩ := hv.dice hl
    rw [List.nil_append] at hval
    obtain ⟨h1, h2⟩ := take_sides (bs := rs) (a2.dice hr)
    rw [hval] at h1 h2
    rw [h1, h2, ← a2.worth hr, ← hv.worth hl]
    have : intStr v = intStr t := by simpa using hs1
    rw [verdict, ← intStr_inj this]
    exact Prod.ext rfl hs2
  · intro h
    obtain ⟨bs, rs, h0, h1, h2⟩ := List.map_eq_append_iff.mp hsid
    obtain ⟨t1, t2⟩ := take_sides (bs := rs) h1
    rw [h0] at hval ⊢
    rw [hval] at t1 t2
    rw [t1, t2] at h
    obtain ⟨l1, l2, g1, g2, g3⟩ := (staged_iff_DVal ..).mpr (hl.dval rs h2)
    refine ⟨_, .dRollComp (dCompLeft_of hl hn) g1 (hr.ev bs h1) g2 g3, ?_⟩
    simp only [verdict, Prod.mk.injEq] at h
    obtain ⟨h3, h4⟩ := h
    refine ⟨?_, h4⟩
    simp [h3]

/-- **C100.** The same for comparisons: every total and verdict is as likely as before, whichever side is
rearranged. -/
theorem C100_verdict {l l' r r' : Expr} {op : CmpOp} (hm : Marked input body secret)
    (ht : CommandText body (.dRollComp l op r)) (hm' : Marked input' body' secret')
    (ht' : CommandText body' (.dRollComp l' op r')) (hl : Ordinary l) (hn : 1 ≤ l.rands) (hr : Ordinary r)
    (hl' : Ordinary l') (hn' : 1 ≤ l'.rands) (hr' : Ordinary r') (h : Rearranged l l') (h' : Rearranged r r')
    (i i' : ℕ) (t : Int64) (s : SuccessCheck) :
    chance (ShowsVerdict usage input i t s) = chance (ShowsVerdict usage input' i' t s) := by
  rw [verdict_eq hm ht hl hn hr, verdict_eq hm' ht' hl' hn' hr', h.values, h'.values]

theorem count_perm (p : Int64 → Bool) {ss ts : List Int64} (h : ss.Perm ts) :
    ((allFaces ss).map (List.countP p) : Multiset ℕ) = ((allFaces ts).map (List.countP p) : List ℕ) := by
  have hadd : ∀ ss ts : List Int64, ((allFaces (ss ++ ts)).map (List.countP p) : Multiset ℕ) =
      both (· + ·) ((allFaces ss).map (List.countP p) : List ℕ) ((allFaces ts).map (List.countP p) : List ℕ) := by
    intro ss ts
    rw [← map_faces_append]
    congr 1
    apply List.map_congr_left
    intro vs _
    rw [← List.countP_append, List.take_append_drop]
  induction h with
  | nil => rfl
  | @cons s ss ts _ ih =>
    rw [← List.singleton_append, ← List.singleton_append (l := ts), hadd, hadd, ih]
  | swap a b ss =>
    rw [show b :: a :: ss = [b] ++ ([a] ++ ss) from rfl, show a :: b :: ss = [a] ++ ([b] ++ ss) from rfl,
      hadd, hadd, hadd, hadd, ← both_assoc Nat.add_assoc, ← both_assoc Nat.add_assoc]
    congr 1
    rw [both_comm]
    congr 1
    funext a b
    exact Nat.add_comm _ _
  | trans _ _ ih1 ih2 => exact ih1.trans ih2

/-- **C100.** B rolls: whatever the order in which the rolls are written, and in whatever portions dice of one
kind are rolled, every number of successes is as likely as before. -/
theorem C100_B {rolls rolls' : List Roll} {op : CmpOp} {t : Int64} (hm : Marked input body secret)
    (ht : CommandText body (.bRollComp rolls op (.int t))) (hm' : Marked input' body' secret')
    (ht' : CommandText body' (.bRollComp rolls' op (.int t))) (ho : ∀ r ∈ rolls, OrdinaryRoll r)
    (ho' : ∀ r ∈ rolls', OrdinaryRoll r) (h : (rolls.flatMap Roll.dice).Perm (rolls'.flatMap Roll.dice))
    (hn : (rolls.flatMap Roll.dice).length < 2 ^ 63) (i i' k : ℕ) (hk : k < 2 ^ 63) :
    chance (ShowsSuccesses usage input i k) = chance (ShowsSuccesses usage input' i' k) := by
  have hc := count_perm (fun v => decide (op.Rel v.toInt t.toInt)) h
  rw [successes_eq hm ht ho hn i k hk, successes_eq hm' ht' ho' (by rw [← h.length_eq]; exact hn) i' k hk]
  have hq : ∀ L : List (List Int64), L.countP (fun vs => decide ((vs.countP fun v => decide (op.Rel v.toInt t.toInt)) = k)) =
      ((L.map (List.countP fun v => decide (op.Rel v.toInt t.toInt)) : List ℕ) : Multiset ℕ).count k := fun L =>
    countP_eq_count L _ k _ (fun x _ => by rw [decide_eq_true_iff])
  rw [hq, hq, hc,
    length_eq_card (allFaces (rolls.flatMap Roll.dice)) (List.countP fun v => decide (op.Rel v.toInt t.toInt)), hc,
    ← length_eq_card]

/-! ### With given dice -/

variable {σ : Type}

/-- **C100.** Moving a number to the other side: with the same dice `l + n` compared with `t` and `l` compared with
`t - n` have the same verdict, if neither `l + n` nor `t - n` leaves the 64 bits. -/
theorem C100_move (E : Evaluator σ) (g : Str) (l : Expr) (hl : DCompLeft l) (op : CmpOp) (n t : Int64) (f f' : σ)
    (res : Result) (log : List Die)
    (h : E.execute g (.dRollComp (.bin .add l (.int n)) op (.int t)) ⟨f, []⟩ = (.ok res, ⟨f', log⟩))
    (htn : -2 ^ 63 ≤ t.toInt - n.toInt ∧ t.toInt - n.toInt < 2 ^ 63) :
    ∃ res' log' v, E.execute g (.dRollComp l op (.int (t - n))) ⟨f, []⟩ = (.ok res', ⟨f', log'⟩) ∧
      res'.rolledDice = res.rolledDice ∧ res'.parts[2]? = some (intStr v) ∧ res.parts[2]? = some (intStr (v + n)) ∧
      (-2 ^ 63 ≤ v.toInt + n.toInt ∧ v.toInt + n.toInt < 2 ^ 63 → res'.success = res.success) := by
  obtain ⟨ds, hO, hd⟩ := (C78_execute E g _ f f' res).mp ⟨log, h⟩
  cases hO with | @dRollComp _ l1 l2 _ _ as bs rs v target a0 a1 a2 a3 a4 =>
  have hv := (staged_iff_DVal ..).mp ⟨_, _, a1, a3, a4⟩
  cases a2
  cases hv with | @add _ _ as' rs' bs' ss' a b hva hvb =>
  cases hvb
  obtain ⟨l1', l2', g1, g2, g3⟩ := (staged_iff_DVal ..).mpr hva
  have hO' := Outcome.dRollComp (limit := loopCount E.maxRerolls) (gameID := g) (op := op) hl g1 (.int (t - n)) g2 g3
  simp only [List.append_nil] at hd hO'
  obtain ⟨log', h'⟩ := (C78_execute E g _ f f' _).mpr ⟨_, hO', hd⟩
  refine ⟨_, log', a, h', by simp, by simp, by simp, ?_⟩
  intro hb
  have e1 : (a + n).toInt = a.toInt + n.toInt := by
    rw [Int64.toInt_add, Int.bmod_eq_of_le (by omega) (by omega)]
  have e2 : (t - n).toInt = t.toInt - n.toInt := by
    rw [Int64.toInt_sub, Int.bmod_eq_of_le (by omega) (by omega)]
  have : op.Rel a.toInt (t - n).toInt ↔ op.Rel (a + n).toInt t.toInt := by
    rw [e1, e2]
    cases op <;> simp only [CmpOp.Rel] <;> omega
  simp only [this]

/-- Without the condition on the 64 bits `C100_move` is false: with the die 3, `1D6+9223372036854775807>=1` fails and
`1D6>=-9223372036854775806` succeeds. -/
theorem C100_move_bound_needed :
    (∃ res log, (newEvaluator queueFeeder).execute chars!"DiceBot"
      (.dRollComp (.bin .add (.var .d (.int 1) (.int 6)) (.int 9223372036854775807)) .ge (.int 1)) ⟨[⟨3, 6⟩], []⟩ =
        (.ok res, ⟨[], log⟩) ∧ res.success = .failure) ∧
    (∃ res log, (newEvaluator queueFeeder).execute chars!"DiceBot"
      (.dRollComp (.var .d (.int 1) (.int 6)) .ge (.int (1 - 9223372036854775807))) ⟨[⟨3, 6⟩], []⟩ =
        (.ok res, ⟨[], log⟩) ∧ res.success = .success) :=
  ⟨⟨_, _, rfl, rfl⟩, ⟨_, _, rfl, rfl⟩⟩

/-- With given dice the order of the rolls matters: `1D6*2+1D6` and `1D6+1D6*2` with the dice 1 and 6. -/
theorem C100_order_matters :
    Rearranged (.bin .add (.bin .mul (.var .d (.int 1) (.int 6)) (.int 2)) (.var .d (.int 1) (.int 6)))
      (.bin .add (.var .d (.int 1) (.int 6)) (.bin .mul (.var .d (.int 1) (.int 6)) (.int 2))) ∧
    (∃ res log, (newEvaluator queueFeeder).execute chars!"DiceBot"
      (.dRollExpr (.bin .add (.bin .mul (.var .d (.int 1) (.int 6)) (.int 2)) (.var .d (.int 1) (.int 6))))
        ⟨[⟨1, 6⟩, ⟨6, 6⟩], []⟩ = (.ok res, ⟨[], log⟩) ∧ res.parts[2]? = some chars!"8") ∧
    (∃ res log, (newEvaluator queueFeeder).execute chars!"DiceBot"
      (.dRollExpr (.bin .add (.var .d (.int 1) (.int 6)) (.bin .mul (.var .d (.int 1) (.int 6)) (.int 2))))
        ⟨[⟨1, 6⟩, ⟨6, 6⟩], []⟩ = (.ok res, ⟨[], log⟩) ∧ res.parts[2]? = some chars!"13") :=
  ⟨.add_comm _ _, ⟨_, _, rfl, rfl⟩, ⟨_, _, rfl, rfl⟩⟩

/-- A roll must not be written twice: `2*1D6` never shows 3, and `1D6+1D6` does with probability 2/36. -/
theorem C100_twice_refuted (usage : Str) (i : ℕ) :
    chance (Answered usage chars!"2*1D6" i fun r => r.parts[2]? = some (intStr 3)) = 0 ∧
    chance (Answered usage chars!"1D6+1D6" i fun r => r.parts[2]? = some (intStr 3)) = 2 / 36 := by
  have h1 := total_eq (usage := usage) (e := .bin .mul (.int 2) (.var .d (.int 1) (.int 6)))
    (Marked.plain (body := chars!"2*1D6") (by decide)) ((C27_language _ _).mp (by decide))
    (.bin .int (.roll (by decide) (by decide) (by decide))) i 3
  have h2 := total_eq (usage := usage) (e := .bin .add (.var .d (.int 1) (.int 6)) (.var .d (.int 1) (.int 6)))
    (Marked.plain (body := chars!"1D6+1D6") (by decide)) ((C27_language _ _).mp (by decide))
    (.bin (.roll (by decide) (by decide) (by decide)) (.roll (by decide) (by decide) (by decide))) i 3
  have c1 : (Expr.bin .mul (.int 2) (.var .d (.int 1) (.int 6))).values.count 3 = 0 := by decide +kernel
  have c2 : (Expr.bin .add (.var .d (.int 1) (.int 6)) (.var .d (.int 1) (.int 6))).values.count 3 = 2 := by
    decide +kernel
  have c3 : (Expr.bin .add (.var .d (.int 1) (.int 6)) (.var .d (.int 1) (.int 6))).values.card = 36 := by
    decide +kernel
  rw [c1] at h1
  rw [c2, c3] at h2
  exact ⟨by simpa using h1, by exact_mod_cast h2⟩

/-! ### Examples -/

/-- `3D6+2` and `S1D6+1+2D6+1`. -/
example (usage : Str) (i i' : ℕ) (t : Int64) :
    chance (Answered usage chars!"3D6+2" i fun r => r.parts[2]? = some (intStr t)) =
      chance (Answered usage chars!"S1D6+1+2D6+1" i' fun r => r.parts[2]? = some (intStr t)) := by
  refine C100_total (e := .bin .add (.var .d (.int 3) (.int 6)) (.int 2))
    (e' := .bin .add (.bin .add (.bin .add (.var .d (.int 1) (.int 6)) (.int 1)) (.var .d (.int 2) (.int 6))) (.int 1))
    (Marked.plain (by decide)) ((C27_language _ _).mp (by decide)) (Marked.secret (c := 'S') (.inl rfl))
    ((C27_language _ _).mp (by decide)) (.bin (.roll (by decide) (by decide) (by decide)) .int)
    (.bin (.bin (.bin (.roll (by decide) (by decide) (by decide)) .int) (.roll (by decide) (by decide) (by decide))) .int)
    ?_ i i' t
  have h1 : Rearranged (.var .d (.int 3) (.int 6))
      (.bin .add (.var .d (.int 1) (.int 6)) (.var .d (.int 2) (.int 6))) :=
    .split (x := 1) (x' := 2) (by decide) (by decide) (by decide)
  have h2 : Rearranged (.int 2) (.bin .add (.int 1) (.int 1)) := .symm (.num_add 1 1)
  refine (Rearranged.bin h1 h2).trans (.trans (.symm (.add_assoc _ _ _)) (.bin ?_ (.refl _)))
  refine .trans (.add_assoc _ _ _) (.trans (.bin (.refl _) (.add_comm _ _)) (.symm (.add_assoc _ _ _)))

/-- `2D6>=8` and `14-2D6>=8`: dice may be read upside down. -/
example (usage : Str) (i i' : ℕ) (t : Int64) (s : SuccessCheck) :
    chance (ShowsVerdict usage chars!"2D6>=8" i t s) = chance (ShowsVerdict usage chars!"14-2D6>=8" i' t s) :=
  C100_verdict (op := .ge) (l := .var .d (.int 2) (.int 6)) (l' := .bin .sub (.int 14) (.var .d (.int 2) (.int 6))) (r := .int 8)
    (r' := .int 8)
    (Marked.plain (by decide)) ((C27_language _ _).mp (by decide)) (Marked.plain (by decide))
    ((C27_language _ _).mp (by decide)) (.roll (by decide) (by decide) (by decide)) (by decide) .int
    (.bin .int (.roll (by decide) (by decide) (by decide))) (by decide) .int
    (.turn (x := 2) (y := 6) (by decide) (by decide) (by decide)) (.refl _) i i' t s

/-- `2B6+1B8>=5` and `1B8+1B6+1B6>=5`. -/
example (usage : Str) (i i' k : ℕ) (hk : k < 2 ^ 63) :
    chance (ShowsSuccesses usage chars!"2B6+1B8>=5" i k) = chance (ShowsSuccesses usage chars!"1B8+1B6+1B6>=5" i' k) := by
  have hx : ∀ n : Int64, 1 ≤ n → n.toInt ≤ 2 ^ 44 → ∀ m : Int64, 1 ≤ m → OrdinaryRoll ⟨.int n, .int m⟩ :=
    fun n a b m c => .mk a b c
  refine C100_B (op := .ge) (t := 5) (rolls := [⟨.int 2, .int 6⟩, ⟨.int 1, .int 8⟩]) (rolls' := [⟨.int 1, .int 8⟩, ⟨.int 1, .int 6⟩, ⟨.int 1, .int 6⟩])
    (Marked.plain (by decide)) ((C27_language _ _).mp (by decide)) (Marked.plain (by decide))
    ((C27_language _ _).mp (by decide)) ?_ ?_ (by decide) (by decide) i i' k hk
  · simp only [List.mem_cons, List.not_mem_nil, or_false, forall_eq_or_imp, forall_eq]
    exact ⟨hx 2 (by decide) (by decide) 6 (by decide), hx 1 (by decide) (by decide) 8 (by decide)⟩
  · simp only [List.mem_cons, List.not_mem_nil, or_false, forall_eq_or_imp, forall_eq]
    exact ⟨hx 1 (by decide) (by decide) 8 (by decide), hx 1 (by decide) (by decide) 6 (by decide),
      hx 1 (by decide) (by decide) 6 (by decide)⟩

/-- `2D6+3>=10` and `2D6>=7` with the dice 3 and 4. -/
example : ∃ res', ∃ log', (newEvaluator queueFeeder).execute chars!"DiceBot"
    (.dRollComp (.var .d (.int 2) (.int 6)) .ge (.int (10 - 3))) ⟨[⟨3, 6⟩, ⟨4, 6⟩], []⟩ = (.ok res', ⟨[], log'⟩) := by
  obtain ⟨res', log', v, h, -⟩ := C100_move (newEvaluator queueFeeder) chars!"DiceBot" (.var .d (.int 2) (.int 6)) trivial .ge
    3 10 [⟨3, 6⟩, ⟨4, 6⟩] [] _ _ rfl (by decide)
  exact ⟨res', log', h⟩

end GoBCDice
