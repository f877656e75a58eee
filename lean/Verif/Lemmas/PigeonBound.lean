import Verif.Lemmas.PigeonAnalysis
import Mathlib.Tactic.Ring
import Mathlib.Tactic.GCongr

/-!
# An upper bound on the work of the generated parser: the estimates are right

`run_bound`: every estimate `analyse` makes of an expression of the extracted table bounds every run of the interpreter of
`Verif.Pigeon` on it.
-/

namespace GoBCDice.Pigeon

/-! ## Nesting -/

/-- How deep parentheses are nested in what is left. -/
def hgt : List Sym → Nat
  | [] => 0
  | x :: s => if x.rn = '(' then hgt s + 1 else if x.rn = ')' then hgt s - 1 else hgt s

theorem hgt_tail {x : Sym} {s : List Sym} (h : x.rn ≠ ')') : hgt s ≤ hgt (x :: s) := by
  simp only [hgt, if_neg h]
  split <;> omega

theorem hgt_append {xs s : List Sym} (h : ∀ x ∈ xs, x.rn ≠ ')') : hgt s ≤ hgt (xs ++ s) := by
  induction xs with
  | nil => exact Nat.le_refl _
  | cons x xs ih =>
    exact Nat.le_trans (ih fun y hy => h y (List.mem_cons_of_mem _ hy)) (hgt_tail (h x List.mem_cons_self))

/-- What a level says. -/
def Sem (d : Nat) : Lv → List Sym → Prop
  | .inner, s => hgt s + 1 ≤ d
  | .base, s => hgt s ≤ d
  | .lost, _ => True

theorem Sem.mono {d : Nat} {lv : Lv} {s t : List Sym} (h : Sem d lv s) (ht : hgt t ≤ hgt s) : Sem d lv t := by
  cases lv <;> simp only [Sem] at * <;> omega

theorem Sem.joinLeft {d : Nat} {a b : Lv} {s : List Sym} (h : Sem d a s) : Sem d (a.join b) s := by
  cases a <;> cases b <;> simp only [Sem, Lv.join] at * <;> omega

theorem Sem.joinRight {d : Nat} {a b : Lv} {s : List Sym} (h : Sem d b s) : Sem d (a.join b) s := by
  cases a <;> cases b <;> simp only [Sem, Lv.join] at * <;> omega

/-- What a kind says. -/
def KindOk : Kind → List Sym → Prop
  | .any, _ => True
  | .plus, s => ∃ x t, s = x :: t ∧ x.rn = '+'
  | .minus, s => ∃ x t, s = x :: t ∧ x.rn = '-'
  | .other, s => ∀ x t, s = x :: t → x.rn ≠ '+' ∧ x.rn ≠ '-'

/-! ## Estimates -/

/-- The number an estimate stands for. -/
def Info.val (i : Info) (N Y : Nat) : Nat := i.a * N ^ i.k * Y + i.b * (primA * (N - 1) ^ primK * Y)

theorem pow_max_left {N : Nat} (hN : 1 ≤ N) (j k : Nat) : N ^ j ≤ N ^ max j k := Nat.pow_le_pow_right hN (Nat.le_max_left _ _)
theorem pow_max_right {N : Nat} (hN : 1 ≤ N) (j k : Nat) : N ^ k ≤ N ^ max j k := Nat.pow_le_pow_right hN (Nat.le_max_right _ _)

theorem Info.val_tick (i : Info) {N Y : Nat} (hN : 1 ≤ N) (hY : 1 ≤ Y) : i.val N Y + 1 ≤ i.tick.val N Y := by
  simp only [Info.val, Info.tick]
  have : 1 ≤ N ^ i.k * Y := Nat.mul_pos (Nat.pow_pos hN) hY
  have e : (i.a + 1) * N ^ i.k * Y = i.a * N ^ i.k * Y + N ^ i.k * Y := by ring
  omega

theorem sum_le {N Y a b j k c d : Nat} (hN : 1 ≤ N) :
    (a * N ^ j * Y + c * (primA * (N - 1) ^ primK * Y)) + (b * N ^ k * Y + d * (primA * (N - 1) ^ primK * Y)) ≤
      (a + b) * N ^ max j k * Y + (c + d) * (primA * (N - 1) ^ primK * Y) := by
  have h1 : a * N ^ j * Y ≤ a * N ^ max j k * Y := by gcongr; exact Nat.le_max_left _ _
  have h2 : b * N ^ k * Y ≤ b * N ^ max j k * Y := by gcongr; exact Nat.le_max_right _ _
  have e : (a + b) * N ^ max j k * Y + (c + d) * (primA * (N - 1) ^ primK * Y) =
      (a * N ^ max j k * Y + b * N ^ max j k * Y) + (c * (primA * (N - 1) ^ primK * Y) + d * (primA * (N - 1) ^ primK * Y)) := by ring
  omega

theorem Info.val_alt (x y : Info) {N Y : Nat} (hN : 1 ≤ N) : x.val N Y + y.val N Y ≤ (x.alt y).val N Y := sum_le hN

theorem Info.val_followedBy (x y : Info) {N Y : Nat} (hN : 1 ≤ N) :
    x.val N Y + y.val N Y ≤ (x.followedBy y).val N Y := sum_le hN

theorem Info.val_absorb (x : Info) {N Y : Nat} (hN : 1 ≤ N) : x.val N Y ≤ x.absorb.a * N ^ x.absorb.k * Y := by
  unfold Info.absorb
  split
  · rename_i h
    simp [Info.val, h]
  · simp only [Info.val]
    have h1 : x.b * (primA * (N - 1) ^ primK * Y) ≤ x.b * (primA * N ^ primK * Y) := by gcongr; omega
    have h2 : x.a * N ^ x.k * Y ≤ x.a * N ^ max x.k primK * Y := by gcongr; exact Nat.le_max_left _ _
    have h3 : x.b * (primA * N ^ primK * Y) ≤ x.b * (primA * N ^ max x.k primK * Y) := by
      gcongr; exact Nat.le_max_right _ _
    have e : (x.a + x.b * primA) * N ^ max x.k primK * Y =
      x.a * N ^ max x.k primK * Y + x.b * (primA * N ^ max x.k primK * Y) := by ring
    omega

theorem absorb_fields (x : Info) : x.absorb.b = 0 ∧ x.absorb.lv = x.lv ∧ x.absorb.ne = x.ne ∧ x.absorb.ok = x.ok := by
  unfold Info.absorb
  split
  · rename_i h; exact ⟨h, rfl, rfl, rfl⟩
  · exact ⟨rfl, rfl, rfl, rfl⟩

/-! ## Where the parser is, and what it does -/

/-- The factor of nesting. -/
def lift (N d : Nat) : Nat := (levelA * N ^ levelK) ^ d

/-- The position is as the estimate assumes. -/
structure Where (p0 : Pt) (d N : Nat) (lv : Lv) (kd : Kind) (adv : Bool) (pt : Pt) : Prop where
  reach : Reach p0 pt
  sem : Sem d lv pt.rest
  kind : KindOk kd pt.rest
  len : pt.rest.length + 1 ≤ N
  adv : adv = true → pt.rest.length + 2 ≤ N

theorem lift_pos {N d : Nat} (hN : 1 ≤ N) : 1 ≤ lift N d :=
  Nat.pow_pos (Nat.mul_pos (by decide) (Nat.pow_pos hN))

theorem Where.n {p0 : Pt} {d N : Nat} {lv : Lv} {kd : Kind} {adv : Bool} {pt : Pt} (h : Where p0 d N lv kd adv pt) :
    1 ≤ N := by have := h.len; omega

theorem Where.pos {p0 : Pt} {d N : Nat} {lv : Lv} {kd : Kind} {adv : Bool} {pt : Pt} (h : Where p0 d N lv kd adv pt) :
    1 ≤ lift N d := lift_pos h.n

/-- At most `B` calls were made; after success the parser is where the estimate says, after failure it is at `back`. -/
def After (p0 : Pt) (d : Nat) (lv : Lv) (ne ok : Bool) (B : Nat) (back : Pt) (len cnt : Nat) : PRes → Prop
  | .panic _ st => st.exprCnt ≤ cnt + B
  | .ret _ good st => st.exprCnt ≤ cnt + B ∧
      (good = false → st.pt = back) ∧
      (good = true → ok = true ∧ Reach p0 st.pt ∧ Sem d lv st.pt.rest ∧ st.pt.rest.length ≤ len ∧
        (ne = true → st.pt.rest.length + 1 ≤ len))

/-- `After` for an estimate. -/
abbrev Estimated (p0 : Pt) (d N : Nat) (i : Info) (st : PState) (r : PRes) : Prop :=
  After p0 d i.lv i.ne i.ok (i.val N (lift N d)) st.pt st.pt.rest.length st.exprCnt r

variable {env : PEnv} {p0 : Pt}

/-! ## Terminals -/

theorem cls_bound {d N : Nat} {lv : Lv} {kd : Kind} {adv : Bool} {st : PState} (h : Where p0 d N lv kd adv st.pt)
    (val : Str) (chars : List Char) (ranges : List (Char × Char)) (classes : List Str) (ic inv : Bool) :
    Estimated p0 d N ⟨1, 0, 0, if classHas chars ranges classes (if ic then toLowerRune ')' else ')') = inv then lv else .lost,
      true, true⟩ st (parseCharClass env val chars ranges classes ic inv st.tick) := by
  have one : 1 ≤ Info.val ⟨1, 0, 0, .lost, true, true⟩ N (lift N d) := by simp [Info.val]; exact h.pos
  have one' : ∀ lv', Info.val ⟨1, 0, 0, lv', true, true⟩ N (lift N d) = Info.val ⟨1, 0, 0, .lost, true, true⟩ N (lift N d) := fun _ => rfl
  unfold parseCharClass
  cases hs : st.tick.pt.rest with
  | nil =>
    refine ⟨?_, fun _ => (failAt_fields _ _ _ _).1, fun h => by cases h⟩
    rw [cnt_failAt, one']; exact Nat.add_le_add_left one _
  | cons x rest =>
    dsimp only
    by_cases hc : classHas chars ranges classes (if ic = true then toLowerRune x.rn else x.rn) = inv
    · rw [if_pos hc]
      refine ⟨?_, fun _ => (failAt_fields _ _ _ _).1, fun h => by cases h⟩
      rw [cnt_failAt, one']; exact Nat.add_le_add_left one _
    · rw [if_neg hc]
      have hr : ((st.tick.read env).failAt true st.tick.pt.pos val).pt = stepPt st.pt :=
        (failAt_fields _ _ _ _).1.trans (read_fields (env := env) st.tick h.reach).1
      have hs' : st.pt.rest = x :: rest := hs
      refine ⟨?_, fun h => (by cases h), fun _ => ⟨rfl, ?_, ?_, ?_, fun _ => ?_⟩⟩
      · rw [cnt_failAt, cnt_read, one']; exact Nat.add_le_add_left one _
      · rw [hr]; exact h.reach.step (by rw [hs']; simp)
      · rw [hr, stepPt_rest, hs', List.tail_cons]
        dsimp only
        by_cases hp : classHas chars ranges classes (if ic = true then toLowerRune ')' else ')') = inv
        · rw [if_pos hp]
          refine h.sem.mono ?_
          rw [hs']
          refine hgt_tail fun hx => hc ?_
          rw [hx]; exact hp
        · rw [if_neg hp]; trivial
      · rw [hr, stepPt_rest, hs']; simp
      · rw [hr, stepPt_rest, hs']; simp

theorem any_bound {d N : Nat} {lv : Lv} {kd : Kind} {adv : Bool} {st : PState} (h : Where p0 d N lv kd adv st.pt) :
    Estimated p0 d N ⟨1, 0, 0, .lost, true, true⟩ st (parseAny env st.tick) := by
  have one : 1 ≤ Info.val ⟨1, 0, 0, .lost, true, true⟩ N (lift N d) := by simp [Info.val]; exact h.pos
  unfold parseAny
  cases hs : st.tick.pt.rest with
  | nil =>
    refine ⟨?_, fun _ => (failAt_fields _ _ _ _).1, fun h => by cases h⟩
    rw [cnt_failAt]; exact Nat.add_le_add_left one _
  | cons x rest =>
    dsimp only
    have hr : ((st.tick.read env).failAt true st.tick.pt.pos chars!".").pt = stepPt st.pt :=
      (failAt_fields _ _ _ _).1.trans (read_fields (env := env) st.tick h.reach).1
    have hs' : st.pt.rest = x :: rest := hs
    refine ⟨?_, fun h => (by cases h), fun _ => ⟨rfl, ?_, trivial, ?_, fun _ => ?_⟩⟩
    · rw [cnt_failAt, cnt_read]; exact Nat.add_le_add_left one _
    · rw [hr]; exact h.reach.step (by rw [hs']; simp)
    · rw [hr, stepPt_rest, hs']; simp
    · rw [hr, stepPt_rest, hs']; simp

/-- The runes a literal takes. -/
theorem litLoop_takes (ic : Bool) : ∀ (val : Str), val.contains runeError = false → ∀ (st : PState), Reach p0 st.pt →
    Reach p0 (litLoop env ic val st).2.pt ∧
    ((litLoop env ic val st).1 = true → ∃ xs, st.pt.rest = xs ++ (litLoop env ic val st).2.pt.rest ∧
      xs.map (fun x => if ic then toLowerRune x.rn else x.rn) = val)
  | [], _, st, h => ⟨h, fun _ => ⟨[], rfl, rfl⟩⟩
  | w :: val, hc, st, h => by
    unfold litLoop
    dsimp only
    by_cases hcur : (if ic = true then toLowerRune st.rune else st.rune) ≠ w
    · rw [if_pos hcur]; exact ⟨h, fun h => by cases h⟩
    · rw [if_neg hcur]
      cases hs : st.pt.rest with
      | nil =>
        refine absurd ?_ hcur
        have hrune : st.rune = runeError := by unfold PState.rune; rw [hs]
        rw [hrune]
        intro hw
        have hw' : w = runeError := by
          rw [← hw]; cases ic <;> decide
        rw [hw'] at hc
        simp at hc
      | cons x rest =>
        have hrd := (read_fields (env := env) st h).1
        obtain ⟨h3, h4⟩ := litLoop_takes ic val (by
          rw [List.contains_cons, Bool.or_eq_false_iff] at hc; exact hc.2) (st.read env)
          (by rw [hrd]; exact h.step (by rw [hs]; simp))
        refine ⟨h3, fun hg => ?_⟩
        obtain ⟨xs, h5, h6⟩ := h4 hg
        refine ⟨x :: xs, ?_, ?_⟩
        · rw [hrd, stepPt_rest, hs, List.tail_cons] at h5
          rw [h5, List.cons_append]
        · have : st.rune = x.rn := by unfold PState.rune; rw [hs]
          rw [this] at hcur
          rw [List.map_cons, h6, Decidable.not_not.mp hcur]

theorem lower_paren : toLowerRune '(' = '(' ∧ toLowerRune ')' = ')' := by decide

theorem lit_bound (hw : Wide p0.rest) {d N : Nat} {lv : Lv} {kd : Kind} {adv : Bool} {st : PState}
    (h : Where p0 d N lv kd adv st.pt) (val : Str) (ic : Bool) (hc : val.contains runeError = false) :
    Estimated p0 d N ⟨1, 0, 0, litLv val ic lv, decide (val ≠ []), litOk val ic kd⟩ st (parseLit env val ic st.tick) := by
  have one : 1 ≤ Info.val ⟨1, 0, 0, litLv val ic lv, decide (val ≠ []), litOk val ic kd⟩ N (lift N d) := by simp [Info.val]; exact h.pos
  have ht := litLoop_takes (env := env) ic val hc st.tick h.reach
  have hn := cnt_litLoop (env := env) ic val st.tick
  unfold parseLit
  rcases hl : litLoop env ic val st.tick with ⟨good, st'⟩
  rw [hl] at ht hn
  dsimp only at ht hn
  cases good with
  | false =>
    dsimp only
    have hf := (failAt_fields st' false st.tick.pt.pos (litWant val ic)).1
    refine ⟨?_, fun _ => ?_, fun h => by cases h⟩
    · rw [cnt_restore, cnt_failAt, hn]; exact Nat.add_le_add_left one _
    · rw [restore_fields hw _ st.tick.pt (by rw [hf]; exact ht.1) h.reach]; rfl
  | true =>
    dsimp only
    have hf := (failAt_fields st' true st.tick.pt.pos (litWant val ic)).1
    obtain ⟨xs, h1, h2⟩ := ht.2 rfl
    have h1' : st.pt.rest = xs ++ st'.pt.rest := h1
    have hlen : xs.length = val.length := by rw [← h2]; simp
    refine ⟨?_, fun h => (by cases h), fun _ => ⟨?_, by rw [hf]; exact ht.1, ?_, ?_, ?_⟩⟩
    · rw [cnt_failAt, hn]; exact Nat.add_le_add_left one _
    · -- success is possible
      have one1 : ∀ c : Char, val = [c] → ic = false → ∃ x, xs = [x] ∧ x.rn = c := by
        rintro c rfl rfl
        match xs, hlen with
        | [x], _ => exact ⟨x, rfl, by simpa using h2⟩
      have hk := h.kind
      cases kd with
      | any => rfl
      | plus =>
        obtain ⟨y, t, hy, hy'⟩ := hk
        simp only [litOk, Bool.not_eq_true', Bool.and_eq_false_iff, decide_eq_false_iff_not, Bool.not_eq_false']
        rcases ic with _ | _
        · left; intro hv
          obtain ⟨x, hx, hx'⟩ := one1 _ hv rfl
          rw [h1', hx] at hy; cases hy
          rw [hx'] at hy'; exact absurd hy' (by decide)
        · right; rfl
      | minus =>
        obtain ⟨y, t, hy, hy'⟩ := hk
        simp only [litOk, Bool.not_eq_true', Bool.and_eq_false_iff, decide_eq_false_iff_not, Bool.not_eq_false']
        rcases ic with _ | _
        · left; intro hv
          obtain ⟨x, hx, hx'⟩ := one1 _ hv rfl
          rw [h1', hx] at hy; cases hy
          rw [hx'] at hy'; exact absurd hy' (by decide)
        · right; rfl
      | other =>
        simp only [litOk, Bool.not_eq_true', Bool.and_eq_false_iff, Bool.or_eq_false_iff, decide_eq_false_iff_not,
          Bool.not_eq_false']
        rcases ic with _ | _
        · left
          constructor <;> intro hv
          · obtain ⟨x, hx, hx'⟩ := one1 _ hv rfl
            exact (hk x _ (by rw [h1', hx]; rfl)).2 hx'
          · obtain ⟨x, hx, hx'⟩ := one1 _ hv rfl
            exact (hk x _ (by rw [h1', hx]; rfl)).1 hx'
        · right; rfl
    · -- the nesting
      rw [hf]
      have hsem := h.sem
      rw [h1'] at hsem
      unfold litLv
      split
      · rename_i hv
        obtain ⟨rfl, rfl⟩ := hv
        match xs, hlen with
        | [x], _ =>
          have hx : x.rn = '(' := by simpa using h2
          have e : hgt ([x] ++ st'.pt.rest) = hgt st'.pt.rest + 1 := by simp [hgt, hx]
          cases lv <;> simp only [Sem, e] at * <;> omega
      · split
        · rename_i hv
          obtain ⟨rfl, rfl⟩ := hv
          match xs, hlen with
          | [x], _ =>
            have hx : x.rn = ')' := by simpa using h2
            have e : hgt ([x] ++ st'.pt.rest) = hgt st'.pt.rest - 1 := by simp [hgt, hx]
            cases lv <;> simp only [Sem, e] at * <;> omega
        · split
          · rename_i hv
            refine hsem.mono (hgt_append fun x hx hx' => hv.2 ?_)
            rw [← h2]
            refine List.mem_map.mpr ⟨x, hx, ?_⟩
            rw [hx']; cases ic
            · rfl
            · exact lower_paren.2
          · trivial
    · rw [hf, h1']; simp
    · intro hv
      rw [hf, h1']
      have : val ≠ [] := by simpa using hv
      have : 0 < val.length := List.length_pos_iff.mpr this
      simp; omega

/-! ## Everything -/

theorem After.mono {d : Nat} {lv lv' : Lv} {ne ne' ok ok' : Bool} {B B' : Nat} {back : Pt} {len cnt cnt' : Nat} {r : PRes}
    (h : After p0 d lv ne ok B back len cnt r) (hB : cnt + B ≤ cnt' + B')
    (hlv : ok = true → ∀ s, Sem d lv s → Sem d lv' s) (hne : ok = true → ne' = true → ne = true)
    (hok : ok = true → ok' = true) : After p0 d lv' ne' ok' B' back len cnt' r := by
  cases r with
  | panic m st => exact Nat.le_trans h hB
  | ret v good st =>
    refine ⟨Nat.le_trans h.1 hB, h.2.1, fun hg => ?_⟩
    obtain ⟨h1, h2, h3, h4, h5⟩ := h.2.2 hg
    exact ⟨hok h1, h2, hlv h1 _ h3, h4, fun h6 => h5 (hne h1 h6)⟩

theorem andThen_inv {x : Option PRes} {k : Val → Bool → PState → Option PRes} {r : PRes}
    (h : PRes.andThen x k = some r) :
    (∃ m st, x = some (.panic m st) ∧ r = .panic m st) ∨ ∃ v ok st, x = some (.ret v ok st) ∧ k v ok st = some r := by
  match x, h with
  | some (.panic m st), h => left; exact ⟨m, st, rfl, by cases h; rfl⟩
  | some (.ret v ok st), h => right; exact ⟨v, ok, st, rfl, h⟩

theorem cnt_addErrAt (st : PState) (m : Str) (pos : Pos) : (st.addErrAt env m pos).exprCnt = st.exprCnt := rfl

theorem Where.weaken {d N : Nat} {lv : Lv} {kd : Kind} {adv : Bool} {pt : Pt} (h : Where p0 d N lv kd adv pt) :
    Where p0 d N .lost .any false pt := ⟨h.reach, trivial, trivial, h.len, fun h => by cases h⟩

/-- The claims of the proof, for runs with the fuel. -/
structure Bounds (env : PEnv) (p0 : Pt) (n : Nat) : Prop where
  expr : ∀ f lv kd adv e i d N st r, clean e = true → analyse goGrammar ruleEntry f lv kd adv e = some i →
    Where p0 d N lv kd adv st.pt → run env n (.expr e) st = some r → Estimated p0 d N i st r
  alts : ∀ f lv kd adv es i d N st r, cleanAll es = true → anAlts (analyse goGrammar ruleEntry f lv kd adv) es = some i →
    Where p0 d N lv kd adv st.pt → run env n (.alts es) st = some r → Estimated p0 d N i st r
  seq : ∀ f lv kd adv es i d N st r vals pt rc, cleanAll es = true →
    anSeq (analyse goGrammar ruleEntry f) lv kd adv es = some i →
    Where p0 d N lv kd adv st.pt → Reach p0 pt → run env n (.seq es vals pt rc) st = some r →
    After p0 d i.lv i.ne i.ok (i.val N (lift N d)) pt st.pt.rest.length st.exprCnt r
  many : ∀ f lv e i d N st r vals one, clean e = true → analyse goGrammar ruleEntry f lv .any false e = some i →
    i.ne = true → lv.join i.lv = lv → Where p0 d N lv .any false st.pt → run env n (.many e vals one) st = some r →
    After p0 d lv false true ((st.pt.rest.length + 1) * (i.absorb.a * N ^ i.absorb.k * lift N d)) st.pt
      st.pt.rest.length st.exprCnt r ∧ (vals ≠ [] → ∀ v g st', r = .ret v g st' → g = true)

theorem kind_exists (s : List Sym) : ∃ kd ∈ [Kind.plus, .minus, .other], KindOk kd s := by
  cases s with
  | nil => exact ⟨.other, by simp, fun _ _ h => by cases h⟩
  | cons x t =>
    by_cases h1 : x.rn = '+'
    · exact ⟨.plus, by simp, x, t, rfl, h1⟩
    · by_cases h2 : x.rn = '-'
      · exact ⟨.minus, by simp, x, t, rfl, h2⟩
      · exact ⟨.other, by simp, fun y u h => by cases h; exact ⟨h1, h2⟩⟩

theorem prim_step {i : Info} {N Y : Nat} (hN : 1 ≤ N) (h6 : i.b ≤ 1) (h7 : i.a ≤ primA) (h8 : i.k + 1 ≤ primK) :
    i.val N Y ≤ primA * N ^ primK * Y := by
  have h9 : i.a * N ^ i.k * Y ≤ primA * N ^ 1 * Y := by
    gcongr
    · have : primK = 2 := rfl
      omega
  have h10 : i.b * (primA * (N - 1) ^ primK * Y) ≤ 1 * (primA * (N - 1) ^ primK * Y) := by gcongr
  obtain ⟨M, rfl⟩ : ∃ M, N = M + 1 := ⟨N - 1, by omega⟩
  have h11 : primA * (M + 1) ^ 1 * Y + 1 * (primA * (M + 1 - 1) ^ primK * Y) ≤ primA * (M + 1) ^ primK * Y := by
    have e : primA * (M + 1) ^ primK * Y = primA * (M + 1) ^ 1 * Y + 1 * (primA * (M + 1 - 1) ^ primK * Y) + primA * M * Y := by
      simp only [primK, Nat.add_sub_cancel]; ring
    omega
  exact Nat.le_trans (Nat.add_le_add h9 h10) h11

theorem lift_mono {M N d : Nat} (h : M ≤ N) : lift M d ≤ lift N d := by unfold lift; gcongr

theorem lift_step {a k N d : Nat} (hN : 1 ≤ N) :
    a * N ^ k * lift N d ≤ (a / levelA + 1) * N ^ (k - levelK) * lift N (d + 1) := by
  have e : lift N (d + 1) = levelA * N ^ levelK * lift N d := by unfold lift; ring
  rw [e]
  have h1 : a ≤ (a / levelA + 1) * levelA := by
    have := Nat.div_add_mod a levelA
    have : a % levelA < levelA := Nat.mod_lt _ (by decide)
    rw [Nat.add_mul, Nat.mul_comm]; omega
  have h2 : N ^ k ≤ N ^ (k - levelK + levelK) := Nat.pow_le_pow_right hN (by omega)
  calc a * N ^ k * lift N d ≤ ((a / levelA + 1) * levelA) * N ^ (k - levelK + levelK) * lift N d := by gcongr
    _ = _ := by rw [Nat.pow_add]; ring

/-- The body of a rule keeps its promise. -/
theorem Bounds.body {n : Nat} (ih : Bounds env p0 n) {name : Str} {body : PExpr} (hb : (name, body) ∈ goGrammar)
    {st : PState} {r : PRes} (hreach : Reach p0 st.pt) (hr : run env n (.expr body) st = some r)
    (hin : (ruleEntry name).inline = false) :
    (∃ B, After p0 0 .lost false true B st.pt st.pt.rest.length st.exprCnt r) ∧
    ((ruleEntry name).flat = true → ∀ d N, st.pt.rest.length + 1 ≤ N →
      r.st.exprCnt ≤ st.exprCnt + (ruleEntry name).a * N ^ (ruleEntry name).k * lift N d) ∧
    ((ruleEntry name).flat = false → ∀ d N, hgt st.pt.rest ≤ d → st.pt.rest.length + 1 ≤ N →
      r.st.exprCnt ≤ st.exprCnt + (ruleEntry name).a * N ^ (ruleEntry name).k * lift N d) ∧
    ((ruleEntry name).keeps = true → ∀ v st', r = .ret v true st' → hgt st'.pt.rest ≤ hgt st.pt.rest) := by
  have hright := ruleTable_right _ hb
  have hcl := goGrammar_clean _ hb
  simp only [Entry.right, hin, Bool.false_or, Bool.and_eq_true] at hright
  obtain ⟨h1, h2⟩ := hright
  have hbase : ∀ d N, hgt st.pt.rest ≤ d → st.pt.rest.length + 1 ≤ N → Where p0 d N .base .any false st.pt :=
    fun d N h h' => ⟨hreach, h, trivial, h', fun h => by cases h⟩
  have hlost : ∀ d N, st.pt.rest.length + 1 ≤ N → Where p0 d N .lost .any false st.pt :=
    fun d N h' => ⟨hreach, trivial, trivial, h', fun h => by cases h⟩
  have cnt : ∀ {d : Nat} {lv ne ok B back len c}, After p0 d lv ne ok B back len c r → r.st.exprCnt ≤ c + B := by
    intro d lv ne ok B back len c h
    cases r with
    | panic m s => exact h
    | ret v g s => exact h.1
  refine ⟨?_, ?_, ?_, ?_⟩
  · -- where it ends
    have some_i : ∃ lv kd i d N, analyse goGrammar ruleEntry 20 lv kd false body = some i ∧
        Where p0 d N lv kd false st.pt := by
      by_cases hprim : (ruleEntry name).prim = true
      · rw [if_pos hprim, Bool.and_eq_true, List.all_eq_true] at h1
        obtain ⟨kd, hk, hk'⟩ : ∃ kd ∈ [Kind.plus, .minus, .other], KindOk kd st.pt.rest := kind_exists _
        have := h1.2 kd hk
        split at this
        · cases this
        · rename_i i hi
          exact ⟨_, _, i, hgt st.pt.rest, st.pt.rest.length + 1, hi, hreach, Nat.le_refl _, hk', Nat.le_refl _,
            fun h => by cases h⟩
      · rw [if_neg hprim] at h1
        split at h1
        · cases h1
        · rename_i i hi
          refine ⟨_, _, i, hgt st.pt.rest, st.pt.rest.length + 1, hi, ?_⟩
          by_cases hf : (ruleEntry name).flat = true
          · rw [if_pos hf]; exact hlost _ _ (Nat.le_refl _)
          · rw [if_neg hf]; exact hbase _ _ (Nat.le_refl _) (Nat.le_refl _)
    obtain ⟨lv, kd, i, d, N, hi, hp⟩ := some_i
    have := ih.expr _ _ _ _ _ _ d N _ _ hcl hi hp hr
    refine ⟨i.val N (lift N d), ?_⟩
    cases r with
    | panic m s => exact this
    | ret v g s =>
      refine ⟨this.1, this.2.1, fun hg => ?_⟩
      obtain ⟨-, h4, -, h6, -⟩ := this.2.2 hg
      exact ⟨rfl, h4, trivial, h6, fun h => (by cases h)⟩
  · -- a flat rule
    intro hf d N hN
    by_cases hprim : (ruleEntry name).prim = true
    · rw [if_pos hprim] at h1; simp [hf] at h1
    · rw [if_neg hprim, if_pos hf] at h1
      split at h1
      · cases h1
      · rename_i i hi
        have h3 := ih.expr _ _ _ _ _ _ d N _ _ hcl hi (hlost d N hN) hr
        refine Nat.le_trans (cnt h3) (Nat.add_le_add_left ?_ _)
        refine Nat.le_trans (i.val_absorb (by omega)) ?_
        simp only [decide_eq_true_eq] at h1
        have hN1 : 1 ≤ N := by omega
        gcongr
        · exact h1.1
        · exact h1.2
  · intro hf d N hd hN
    have hN1 : 1 ≤ N := by omega
    by_cases hprim : (ruleEntry name).prim = true
    · rw [if_pos hprim, Bool.and_eq_true, List.all_eq_true, Bool.and_eq_true] at h1
      obtain ⟨⟨h3, -⟩, h4⟩ := h1
      obtain ⟨kd, hk, hk'⟩ : ∃ kd ∈ [Kind.plus, .minus, .other], KindOk kd st.pt.rest := kind_exists _
      have h5 := h4 kd hk
      simp only [decide_eq_true_eq] at h3
      split at h5
      · cases h5
      · rename_i i hi
        simp only [decide_eq_true_eq] at h5
        obtain ⟨h6, h7, h8, -⟩ := h5
        have h9 := ih.expr _ _ _ _ _ _ d N _ _ hcl hi ⟨hreach, hd, hk', hN, fun h => by cases h⟩ hr
        refine Nat.le_trans (cnt h9) (Nat.add_le_add_left ?_ _)
        rw [h3.1, h3.2]
        exact prim_step hN1 h6 h7 h8
    · rw [if_neg hprim, if_neg (by rw [hf]; decide)] at h1
      split at h1
      · cases h1
      · rename_i i hi
        have h3 := ih.expr _ _ _ _ _ _ d N _ _ hcl hi (hbase d N hd hN) hr
        refine Nat.le_trans (cnt h3) (Nat.add_le_add_left ?_ _)
        refine Nat.le_trans (i.val_absorb (by omega)) ?_
        simp only [decide_eq_true_eq] at h1
        gcongr
        · exact h1.1
        · exact h1.2
  · rintro hk v st' rfl
    rw [hk, Bool.not_true, Bool.false_or] at h2
    split at h2
    · cases h2
    · rename_i i hi
      simp only [decide_eq_true_eq] at h2
      have h3 := ih.expr _ _ _ _ _ _ (hgt st.pt.rest) (st.pt.rest.length + 1) _ _ hcl hi
        (hbase _ _ (Nat.le_refl _) (Nat.le_refl _)) hr
      have h4 : Sem (hgt st.pt.rest) (Lv.base.join i.lv) st'.pt.rest := (h3.2.2 rfl).2.2.1.joinRight
      rw [h2] at h4
      exact h4

theorem Bounds.loop {n : Nat} (ih : Bounds env p0 n) {f : Nat} {lv : Lv} {kd : Kind} {adv : Bool} {e : PExpr} {i : Info} {d N : Nat}
    {st : PState} {r : PRes} {one : Bool} (hc : clean e = true) (ha : anLoop (analyse goGrammar ruleEntry f) lv e = some i)
    (hp : Where p0 d N lv kd adv st.pt) (h : run env n (.many e [] one) st = some r) : Estimated p0 d N i st r := by
  have key : ∀ lv' (x : Info), analyse goGrammar ruleEntry f lv' .any false e = some x → x.ne = true → lv'.join x.lv = lv' →
      Where p0 d N lv' .any false st.pt →
      Estimated p0 d N { x.absorb with k := x.absorb.k + 1, lv := lv', ne := false, ok := true } st r := by
    intro lv' x hx hne hlv hp
    have := (ih.many _ _ _ _ d N _ _ _ _ hc hx hne hlv hp h).1
    refine this.mono (Nat.add_le_add_left ?_ _) (fun _ _ h => h) (fun _ h => h) (fun h => h)
    simp only [Info.val, (absorb_fields x).1, Nat.zero_mul, Nat.add_zero]
    calc (st.pt.rest.length + 1) * (x.absorb.a * N ^ x.absorb.k * lift N d)
        ≤ N * (x.absorb.a * N ^ x.absorb.k * lift N d) := Nat.mul_le_mul_right _ hp.len
      _ = x.absorb.a * N ^ (x.absorb.k + 1) * lift N d := by ring
  unfold anLoop at ha
  split at ha
  · cases ha
  · rename_i x hx
    split at ha
    · rename_i hcond
      rw [Bool.and_eq_true, decide_eq_true_eq] at hcond
      cases ha
      exact key lv x hx hcond.1 hcond.2 ⟨hp.reach, hp.sem, trivial, hp.len, fun h => by cases h⟩
    · split at ha
      · cases ha
      · rename_i y hy
        split at ha
        · rename_i hne
          cases ha
          exact key .lost y hy hne (by cases y.lv <;> rfl) hp.weaken
        · cases ha

theorem run_bound (hrules : env.rules = goGrammar) (hw : Wide p0.rest) (n : Nat) : Bounds env p0 n := by
  induction n with
  | zero => constructor <;> intros <;> simp [run] at *
  | succ n ih =>
    constructor
    · intro f lv kd adv e i d N st r hc ha hp h
      have hN := hp.n
      have hY := hp.pos
      cases f with
      | zero => simp [analyse] at ha
      | succ f =>
      rw [run.eq_def] at h
      cases e with
      | action a e =>
        simp only [analyse, Option.map_eq_some_iff] at ha
        obtain ⟨i, ha, rfl⟩ := ha
        dsimp only at h
        have hv := i.val_tick hN hY
        rcases andThen_inv h with ⟨m, st2, h1, rfl⟩ | ⟨v, ok, st2, h1, h2⟩
        · have := ih.expr _ _ _ _ _ _ d N _ _ (by exact hc) ha (by exact hp) h1
          exact this.mono (by show st.exprCnt + 1 + _ ≤ _; omega) (fun _ _ h => h) (fun _ h => h) (fun h => h)
        · have := ih.expr _ _ _ _ _ _ d N _ _ (by exact hc) ha (by exact hp) h1
          have := this.mono (lv' := i.lv) (ne' := i.ne) (ok' := i.ok) (B' := i.tick.val N (lift N d)) (cnt' := st.exprCnt)
            (by show st.exprCnt + 1 + _ ≤ _; omega) (fun _ _ h => h) (fun _ h => h) (fun h => h)
          try dsimp only at h2
          split at h2
          · rename_i hok; subst hok
            split at h2
            · cases h2; exact this
            · cases h2; exact this
            · cases h2; exact this.1
          · rename_i hok
            rw [Bool.not_eq_true] at hok; subst hok
            cases h2; exact this
      | any => cases h; simp only [analyse, Option.some.injEq] at ha; subst ha; exact any_bound hp
      | charClass val chars ranges classes ic inv =>
        cases h; simp only [analyse, Option.some.injEq] at ha; subst ha; exact cls_bound hp _ _ _ _ _ _
      | choice es =>
        simp only [analyse, Option.map_eq_some_iff] at ha
        obtain ⟨i, ha, rfl⟩ := ha
        have hv := i.val_tick hN hY
        have := ih.alts _ _ _ _ _ _ d N _ _ (by exact hc) ha (show Where p0 d N lv kd adv st.tick.pt from hp) h
        exact this.mono (by show st.exprCnt + 1 + _ ≤ _; omega) (fun _ _ h => h) (fun _ h => h) (fun h => h)
      | labeled label e =>
        simp only [analyse, Option.map_eq_some_iff] at ha
        obtain ⟨i, ha, rfl⟩ := ha
        dsimp only at h
        have hv := i.val_tick hN hY
        rcases andThen_inv h with ⟨m, st2, h1, rfl⟩ | ⟨v, ok, st2, h1, h2⟩
        · have := ih.expr _ _ _ _ _ _ d N _ _ (by exact hc) ha (by exact hp) h1
          exact this.mono (by show st.exprCnt + 1 + _ ≤ _; omega) (fun _ _ h => h) (fun _ h => h) (fun h => h)
        · have := ih.expr _ _ _ _ _ _ d N _ _ (by exact hc) ha (by exact hp) h1
          have := this.mono (lv' := i.lv) (ne' := i.ne) (ok' := i.ok) (B' := i.tick.val N (lift N d)) (cnt' := st.exprCnt)
            (by show st.exprCnt + 1 + _ ≤ _; omega) (fun _ _ h => h) (fun _ h => h) (fun h => h)
          try dsimp only at h2
          split at h2
          · cases h2; exact this
          · cases h2; exact this
      | lit val ic =>
        cases h; simp only [analyse, Option.some.injEq] at ha; subst ha
        exact lit_bound hw hp _ _ (by simpa [clean] using hc)
      | not e =>
        simp only [analyse, Option.map_eq_some_iff] at ha
        obtain ⟨i, ha, rfl⟩ := ha
        dsimp only at h
        have hv := i.val_tick hN hY
        rcases andThen_inv h with ⟨m, st2, h1, rfl⟩ | ⟨v, ok, st2, h1, h2⟩
        · have := ih.expr _ _ _ _ _ _ d N _ _ (by exact hc) ha (by exact hp) h1
          exact Nat.le_trans this (by show st.exprCnt + 1 + i.val N (lift N d) ≤ st.exprCnt + i.tick.val N (lift N d); omega)
        · have := ih.expr _ _ _ _ _ _ d N _ _ (by exact hc) ha (by exact hp) h1
          have hr2 : Reach p0 st2.pt := by
            cases ok with
            | false => rw [this.2.1 rfl]; exact hp.reach
            | true => exact (this.2.2 rfl).2.1
          cases h2
          have hcnt : st2.exprCnt ≤ st.exprCnt + i.tick.val N (lift N d) := Nat.le_trans this.1 (by
            show st.exprCnt + 1 + i.val N (lift N d) ≤ st.exprCnt + i.tick.val N (lift N d); omega)
          rw [restore_fields hw _ st.pt (by exact hr2) hp.reach]
          exact ⟨hcnt, fun _ => rfl, fun _ => ⟨rfl, hp.reach, hp.sem, Nat.le_refl _, fun h => (by cases h)⟩⟩
      | oneOrMore e =>
        simp only [analyse, Option.map_eq_some_iff] at ha
        obtain ⟨i, ha, rfl⟩ := ha
        have hv := i.val_tick hN hY
        have := ih.loop (by exact hc) ha (show Where p0 d N lv kd adv st.tick.pt from hp) h
        exact this.mono (by show st.exprCnt + 1 + _ ≤ _; omega) (fun _ _ h => h) (fun _ h => h) (fun h => h)
      | zeroOrMore e =>
        simp only [analyse, Option.map_eq_some_iff] at ha
        obtain ⟨i, ha, rfl⟩ := ha
        have hv := i.val_tick hN hY
        have := ih.loop (by exact hc) ha (show Where p0 d N lv kd adv st.tick.pt from hp) h
        exact this.mono (by show st.exprCnt + 1 + _ ≤ _; omega) (fun _ _ h => h) (fun _ h => h) (fun h => h)
      | ruleRef name =>
        simp only [analyse] at ha
        rw [← hrules] at ha
        dsimp only at h
        cases hl : env.rules.lookup name with
        | none => rw [hl] at ha; cases ha
        | some body =>
        rw [hl] at ha h
        dsimp only at ha h
        have hb : (name, body) ∈ goGrammar := hrules ▸ lookup_mem hl
        -- what the call of the rule does, given what its body does
        have leave : ∀ i : Info, (∀ r', run env n (.expr body) { st.tick.pushV with rstack := name :: st.rstack } = some r' →
            After p0 d i.lv i.ne i.ok (i.val N (lift N d)) st.pt st.pt.rest.length st.exprCnt r') → Estimated p0 d N i st r := by
          intro i hi
          rcases andThen_inv h with ⟨m, st2, h1, rfl⟩ | ⟨v, ok, st2, h1, h2⟩
          · exact hi _ h1
          · cases h2
            have := hi (.ret v ok st2) h1
            exact this
        by_cases hin : (ruleEntry name).inline = true
        · rw [if_pos hin, Option.map_eq_some_iff] at ha
          obtain ⟨i, ha, rfl⟩ := ha
          have hv := i.val_tick hN hY
          refine leave _ fun r' hr' => ?_
          have := ih.expr _ _ _ _ _ _ d N _ _ (goGrammar_clean _ hb) (hrules ▸ ha) (by exact hp) hr'
          exact this.mono (by show st.exprCnt + 1 + _ ≤ _; omega) (fun _ _ h => h) (fun _ h => h) (fun h => h)
        · rw [if_neg hin] at ha
          have hin' : (ruleEntry name).inline = false := by simpa using hin
          -- the count decides
          have decide_by : ∀ B, (∀ r', run env n (.expr body) { st.tick.pushV with rstack := name :: st.rstack } = some r' →
              r'.st.exprCnt ≤ st.exprCnt + B) →
              ∀ i : Info, i.lv = (if (ruleEntry name).keeps then lv else .lost) → i.ne = false → i.ok = true →
              B ≤ i.val N (lift N d) → Estimated p0 d N i st r := by
            intro B hB i h1 h2 h3 h4
            refine leave _ fun r' hr' => ?_
            obtain ⟨⟨B', h5⟩, -, -, h6⟩ := ih.body hb (by exact hp.reach) hr' hin'
            have h7 := hB r' hr'
            cases r' with
            | panic m s => exact Nat.le_trans h7 (by omega)
            | ret v g s =>
              refine ⟨Nat.le_trans h7 (by omega), h5.2.1, fun hg => ?_⟩
              subst hg
              obtain ⟨-, h8, -, h9, -⟩ := h5.2.2 rfl
              refine ⟨h3, h8, ?_, h9, fun h => (by rw [h2] at h; cases h)⟩
              rw [h1]
              by_cases hk : (ruleEntry name).keeps = true
              · rw [if_pos hk]
                exact hp.sem.mono (h6 hk v s rfl)
              · rw [if_neg hk]; trivial
          have plain : ∀ a k, a * N ^ k * lift N d + 1 ≤ (a + 1) * N ^ k * lift N d := by
            intro a k
            have e : (a + 1) * N ^ k * lift N d = a * N ^ k * lift N d + N ^ k * lift N d := by ring
            have : 1 ≤ N ^ k * lift N d := Nat.mul_pos (Nat.pow_pos hN) hY
            omega
          by_cases hf : (ruleEntry name).flat = true
          · rw [if_pos hf] at ha
            simp only [Option.some.injEq] at ha
            subst ha
            refine decide_by ((ruleEntry name).a * N ^ (ruleEntry name).k * lift N d + 1) (fun r' hr' => ?_) _ rfl rfl rfl ?_
            · have := (ih.body hb (by exact hp.reach) hr' hin').2.1 hf d N hp.len
              exact Nat.le_trans this (by show st.exprCnt + 1 + _ ≤ _; omega)
            · simp only [Info.val]; have := plain (ruleEntry name).a (ruleEntry name).k; omega
          · rw [if_neg hf] at ha
            have hf' : (ruleEntry name).flat = false := by simpa using hf
            cases lv with
            | lost => cases ha
            | base =>
              dsimp only at ha
              split at ha
              · rename_i hpa
                rw [Bool.and_eq_true] at hpa
                simp only [Option.some.injEq] at ha
                subst ha
                have hlen := hp.adv hpa.2
                have hentry : (ruleEntry name).a = primA ∧ (ruleEntry name).k = primK := by
                  have h1 := ruleTable_right _ hb
                  simp only [Entry.right, hin', Bool.false_or, Bool.and_eq_true, if_pos hpa.1] at h1
                  simpa using h1.1.1.1
                refine decide_by (primA * (N - 1) ^ primK * lift (N - 1) d + 1) (fun r' hr' => ?_) _ rfl rfl rfl ?_
                · have := (ih.body hb (by exact hp.reach) hr' hin').2.2.1 hf' d (N - 1) hp.sem (by
                    show st.pt.rest.length + 1 ≤ N - 1; omega)
                  rw [hentry.1, hentry.2] at this
                  exact Nat.le_trans this (by show st.exprCnt + 1 + _ ≤ _; omega)
                · simp only [Info.val]
                  have h1 : primA * (N - 1) ^ primK * lift (N - 1) d ≤ primA * (N - 1) ^ primK * lift N d :=
                    Nat.mul_le_mul_left _ (lift_mono (by omega))
                  simp only [Nat.pow_zero, Nat.one_mul]
                  omega
              · simp only [Option.some.injEq] at ha
                subst ha
                refine decide_by ((ruleEntry name).a * N ^ (ruleEntry name).k * lift N d + 1) (fun r' hr' => ?_) _ rfl rfl rfl ?_
                · have := (ih.body hb (by exact hp.reach) hr' hin').2.2.1 hf' d N hp.sem hp.len
                  exact Nat.le_trans this (by show st.exprCnt + 1 + _ ≤ _; omega)
                · simp only [Info.val]; have := plain (ruleEntry name).a (ruleEntry name).k; omega
            | inner =>
              simp only [Option.some.injEq] at ha
              subst ha
              have hd : hgt st.pt.rest + 1 ≤ d := hp.sem
              obtain ⟨d, rfl⟩ : ∃ d', d = d' + 1 := ⟨d - 1, by omega⟩
              refine decide_by ((ruleEntry name).a * N ^ (ruleEntry name).k * lift N d + 1) (fun r' hr' => ?_) _ rfl rfl rfl ?_
              · have := (ih.body hb (by exact hp.reach) hr' hin').2.2.1 hf' d N (by show hgt st.pt.rest ≤ d; omega) hp.len
                exact Nat.le_trans this (by show st.exprCnt + 1 + _ ≤ _; omega)
              · simp only [Info.val]
                have h1 := lift_step (a := (ruleEntry name).a) (k := (ruleEntry name).k) (d := d) hN
                have h2 := plain ((ruleEntry name).a / levelA + 1) ((ruleEntry name).k - levelK)
                rw [show (ruleEntry name).a / levelA + 1 + 1 = (ruleEntry name).a / levelA + 2 from rfl] at h2
                omega
      | seq es =>
        simp only [analyse, Option.map_eq_some_iff] at ha
        obtain ⟨i, ha, rfl⟩ := ha
        have hv := i.val_tick hN hY
        have := ih.seq _ _ _ _ _ _ d N _ _ _ _ _ (by exact hc) ha (show Where p0 d N lv kd adv st.tick.pt from hp) hp.reach h
        exact this.mono (by show st.exprCnt + 1 + _ ≤ _; omega) (fun _ _ h => h) (fun _ h => h) (fun h => h)
      | stateCode a =>
        simp only [analyse, Option.some.injEq] at ha; subst ha
        have one : 1 ≤ Info.val ⟨1, 0, 0, lv, false, true⟩ N (lift N d) := by simp [Info.val]; exact hY
        have hin : ∀ v (st' : PState), st'.pt = st.pt → st'.exprCnt = st.exprCnt + 1 →
            Estimated p0 d N ⟨1, 0, 0, lv, false, true⟩ st (.ret v true st') := fun v st' h1 h2 =>
          ⟨by rw [h2]; omega, fun _ => h1, fun _ => by
            rw [h1]; exact ⟨rfl, hp.reach, hp.sem, Nat.le_refl _, fun h => (by cases h)⟩⟩
        cases h
        unfold parseStateCode
        split
        · exact hin _ _ rfl rfl
        · split
          · show st.exprCnt + 1 ≤ _; omega
          · exact hin _ _ rfl rfl
      | zeroOrOne e =>
        simp only [analyse, Option.map_eq_some_iff] at ha
        obtain ⟨i, ha, rfl⟩ := ha
        dsimp only at h
        have hv := i.val_tick hN hY
        rcases andThen_inv h with ⟨m, st2, h1, rfl⟩ | ⟨v, ok, st2, h1, h2⟩
        · have := ih.expr _ _ _ _ _ _ d N _ _ (by exact hc) ha (by exact hp) h1
          exact Nat.le_trans this (by show st.exprCnt + 1 + i.val N (lift N d) ≤ st.exprCnt + i.tick.val N (lift N d); omega)
        · have := ih.expr _ _ _ _ _ _ d N _ _ (by exact hc) ha (by exact hp) h1
          cases h2
          have hcnt : st2.exprCnt ≤ st.exprCnt + i.tick.val N (lift N d) := Nat.le_trans this.1 (by
            show st.exprCnt + 1 + i.val N (lift N d) ≤ st.exprCnt + i.tick.val N (lift N d); omega)
          refine ⟨hcnt, fun h => (by cases h), fun _ => ?_⟩
          cases ok with
          | false =>
            have h3 : st2.popV.pt = st.pt := this.2.1 rfl
            rw [h3]
            exact ⟨rfl, hp.reach, hp.sem.joinLeft, Nat.le_refl _, fun h => (by cases h)⟩
          | true =>
            obtain ⟨-, h4, h5, h6, -⟩ := this.2.2 rfl
            exact ⟨rfl, h4, h5.joinRight, h6, fun h => (by cases h)⟩
    · -- a choice
      intro f lv kd adv es i d N st r hc ha hp h
      have hN := hp.n
      have hY := hp.pos
      rw [run.eq_def] at h
      cases es with
      | nil =>
        simp only [anAlts, Option.some.injEq] at ha; subst ha
        cases h
        exact ⟨Nat.le_add_right _ _, fun _ => rfl, fun h => (by cases h)⟩
      | cons e es =>
        have hc' : clean e = true ∧ cleanAll es = true := (Bool.and_eq_true _ _).mp hc
        simp only [anAlts] at ha
        split at ha
        · rename_i x y hx hy
          cases ha
          have hv := x.val_alt y hN (Y := lift N d)
          dsimp only at h
          rcases andThen_inv h with ⟨m, st2, h1, rfl⟩ | ⟨v, ok, st2, h1, h2⟩
          · have := ih.expr _ _ _ _ _ _ d N _ _ hc'.1 hx (by exact hp) h1
            exact Nat.le_trans this (by show st.exprCnt + _ ≤ _; omega)
          · have h3 := ih.expr _ _ _ _ _ _ d N _ _ hc'.1 hx (by exact hp) h1
            cases ok with
            | true =>
              cases h2
              have h3' : After p0 d x.lv x.ne x.ok (x.val N (lift N d)) st.pt st.pt.rest.length st.exprCnt
                  (.ret v true st2.popV) := h3
              refine h3'.mono (by omega) (fun h s hs => ?_) (fun h h' => ?_) (fun h => ?_)
              · simp only [Info.alt, h, if_true]
                split
                · exact hs.joinLeft
                · exact hs
              · simp only [Info.alt, h, Bool.not_true, Bool.false_or, Bool.and_eq_true] at h'; exact h'.1
              · simp only [Info.alt, h, Bool.true_or]
            | false =>
              have h4 : st2.pt = st.pt := h3.2.1 rfl
              have h5 := ih.alts _ _ _ _ _ _ d N _ _ hc'.2 hy (by
                show Where p0 d N lv kd adv st2.pt
                rw [h4]; exact hp) h2
              have h6 : After p0 d y.lv y.ne y.ok (y.val N (lift N d)) st.pt st.pt.rest.length st2.exprCnt r := by
                rw [← h4]; exact h5
              have h7 : st2.exprCnt ≤ st.exprCnt + x.val N (lift N d) := h3.1
              refine h6.mono (by omega) (fun h s hs => ?_) (fun h h' => ?_) (fun h => ?_)
              · simp only [Info.alt, h, if_true]
                split
                · exact hs.joinRight
                · exact hs
              · simp only [Info.alt, h, Bool.not_true, Bool.false_or, Bool.and_eq_true] at h'; exact h'.2
              · simp only [Info.alt, h, Bool.or_true]
        · cases ha
    · -- a sequence
      intro f lv kd adv es i d N st r vals pt rc hc ha hp hpt h
      have hN := hp.n
      have hY := hp.pos
      rw [run.eq_def] at h
      cases es with
      | nil =>
        simp only [anSeq, Option.some.injEq] at ha; subst ha
        cases h
        exact ⟨Nat.le_add_right _ _, fun h => (by cases h),
          fun _ => ⟨rfl, hp.reach, hp.sem, Nat.le_refl _, fun h => (by cases h)⟩⟩
      | cons e es =>
        have hc' : clean e = true ∧ cleanAll es = true := (Bool.and_eq_true _ _).mp hc
        simp only [anSeq] at ha
        cases hx : analyse goGrammar ruleEntry f lv kd adv e with
        | none => rw [hx] at ha; cases ha
        | some x =>
        rw [hx] at ha
        dsimp only at ha h
        -- the first element suffices for the count
        have hfirst : x.val N (lift N d) ≤ i.val N (lift N d) := by
          split at ha
          · rw [Option.map_eq_some_iff] at ha
            obtain ⟨y, -, rfl⟩ := ha
            have := x.val_followedBy y hN (Y := lift N d)
            omega
          · cases ha; exact Nat.le_refl _
        rcases andThen_inv h with ⟨m, st2, h1, rfl⟩ | ⟨v, ok, st2, h1, h2⟩
        · have := ih.expr _ _ _ _ _ _ d N _ _ hc'.1 hx hp h1
          exact Nat.le_trans this (by omega)
        · have h3 := ih.expr _ _ _ _ _ _ d N _ _ hc'.1 hx hp h1
          cases ok with
          | false =>
            have h4 : st2.pt = st.pt := h3.2.1 rfl
            rw [if_neg (by decide), restore_fields hw _ pt (by show Reach p0 st2.pt; rw [h4]; exact hp.reach) hpt] at h2
            cases h2
            exact ⟨Nat.le_trans h3.1 (by omega), fun _ => rfl, fun h => (by cases h)⟩
          | true =>
            obtain ⟨h4, h5, h6, h7, h8⟩ := h3.2.2 rfl
            rw [if_pos rfl] at h2
            rw [if_pos h4, Option.map_eq_some_iff] at ha
            obtain ⟨y, hy, rfl⟩ := ha
            have h9 := ih.seq _ _ _ _ _ _ d N _ _ _ _ _ hc'.2 hy ⟨h5, h6, trivial, Nat.le_trans (Nat.succ_le_succ h7) hp.len, fun h => by
              rw [Bool.or_eq_true] at h
              rcases h with h | h
              · have := hp.adv h; omega
              · have := h8 h; have := hp.len; omega⟩ hpt h2
            have hv := x.val_followedBy y hN (Y := lift N d)
            have h10 := h3.1
            cases r with
            | panic m s => exact Nat.le_trans h9 (by omega)
            | ret v g s =>
              refine ⟨Nat.le_trans h9.1 (by omega), h9.2.1, fun hg => ?_⟩
              obtain ⟨h11, h12, h13, h14, h15⟩ := h9.2.2 hg
              refine ⟨h11, h12, h13, by omega, fun h => ?_⟩
              have h' : (x.ne || y.ne) = true := h
              rw [Bool.or_eq_true] at h'
              rcases h' with h' | h'
              · have := h8 h'; omega
              · have := h15 h'; omega
    · -- a repetition
      intro f lv e i d N st r vals one hc ha hne hlv hp h
      have hN := hp.n
      have hC := i.val_absorb hN (Y := lift N d)
      generalize hCe : i.absorb.a * N ^ i.absorb.k * lift N d = C at hC ⊢
      rw [run.eq_def] at h
      dsimp only at h
      have hone : C ≤ (st.pt.rest.length + 1) * C := Nat.le_mul_of_pos_left _ (by omega)
      rcases andThen_inv h with ⟨m, st2, h1, rfl⟩ | ⟨v, ok, st2, h1, h2⟩
      · have := ih.expr _ _ _ _ _ _ d N _ _ hc ha (by exact hp) h1
        exact ⟨Nat.le_trans this (by show st.exprCnt + _ ≤ _; omega), fun _ _ _ _ h => (by cases h)⟩
      · have h3 := ih.expr _ _ _ _ _ _ d N _ _ hc ha (by exact hp) h1
        have h3c : st2.exprCnt ≤ st.exprCnt + i.val N (lift N d) := h3.1
        cases ok with
        | false =>
          have h4 : st2.pt = st.pt := h3.2.1 rfl
          try dsimp only at h2
          rw [if_neg (by decide)] at h2
          split at h2
          · rename_i hv
            rw [Bool.and_eq_true, List.isEmpty_iff] at hv
            cases h2
            exact ⟨⟨by show st2.exprCnt ≤ _; omega, fun _ => h4, fun h => (by cases h)⟩, fun h => absurd hv.2 h⟩
          · cases h2
            refine ⟨⟨by show st2.exprCnt ≤ _; omega, fun h => (by cases h), fun _ => ?_⟩, fun _ _ _ _ h => by cases h; rfl⟩
            show _ ∧ Reach p0 st2.pt ∧ Sem d lv st2.pt.rest ∧ st2.pt.rest.length ≤ _ ∧ _
            rw [h4]
            exact ⟨rfl, hp.reach, hp.sem, Nat.le_refl _, fun h => (by cases h)⟩
        | true =>
          obtain ⟨h4, h5, h6, h7, h8⟩ := h3.2.2 rfl
          have h8' : st2.pt.rest.length + 1 ≤ st.pt.rest.length := h8 hne
          try dsimp only at h2
          rw [if_pos rfl] at h2
          have h9 := ih.many _ lv _ _ d N st2.popV _ _ _ hc ha hne hlv ⟨h5, by
            show Sem d lv st2.pt.rest
            rw [← hlv]; exact h6.joinRight, trivial, by show st2.pt.rest.length + 1 ≤ N; have := hp.len; omega,
            fun h => by cases h⟩ h2
          rw [hCe] at h9
          have hmul : C + (st2.pt.rest.length + 1) * C ≤ (st.pt.rest.length + 1) * C := by
            have e : C + (st2.pt.rest.length + 1) * C = (st2.pt.rest.length + 1 + 1) * C := by ring
            rw [e]
            exact Nat.mul_le_mul_right _ (by omega)
          have hgood := h9.2 (by simp)
          have h9' := h9.1
          cases r with
          | panic m s =>
            have h10 : s.exprCnt ≤ st2.exprCnt + (st2.pt.rest.length + 1) * C := h9'
            exact ⟨by show s.exprCnt ≤ _; omega, fun _ _ _ _ h => (by cases h)⟩
          | ret v g s =>
            have hg := hgood v g s rfl
            subst hg
            have h10 : s.exprCnt ≤ st2.exprCnt + (st2.pt.rest.length + 1) * C := h9'.1
            obtain ⟨-, h12, h13, h14, -⟩ := h9'.2.2 rfl
            have h14' : s.pt.rest.length ≤ st2.pt.rest.length := h14
            exact ⟨⟨by show s.exprCnt ≤ _; omega, fun h => (by cases h),
              fun _ => ⟨rfl, h12, h13, by show s.pt.rest.length ≤ _; omega, fun h => (by cases h)⟩⟩, fun _ _ _ _ h => by cases h; rfl⟩

end GoBCDice.Pigeon
