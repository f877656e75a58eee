import Verif.Spec.Calls
import Verif.Command
import Verif.Lemmas.Dice
import Verif.Lemmas.EvalRealize

/-!
# What any execution can do, successful or not

`Beh`: a computation takes logged dice from the feeder, then (only if it fails) makes some more
calls that are not logged; the number of calls is bounded; with a fair feeder the only panic is that
of `make`.
-/

namespace GoBCDice

theorem Calls.append {σ : Type} {F : DieFeeder σ} {s s' s'' : σ} {cs ds : List (Int64 × Out Die)}
    (h : Calls F s cs s') (h' : Calls F s' ds s'') : Calls F s (cs ++ ds) s'' := by
  induction h with
  | nil => simpa
  | cons hn _ ih => exact .cons hn (ih h')

theorem Draws.calls {σ : Type} {F : DieFeeder σ} {s s' : σ} {ds : List Die} (h : Draws F s ds s') :
    Calls F s (ds.map (fun d => (d.sides, .ok d))) s' := by
  induction h with
  | nil => exact .nil _
  | cons hn _ ih => exact .cons hn ih

/-- The limit of `make` as a number. -/
@[irreducible] def cap : Nat := 2 ^ 44

theorem cap_eq : cap = 17592186044416 := by unfold cap; rfl

theorem maxMakeCap_toInt : maxMakeCap.toInt = cap := by rw [cap_eq]; decide

/-- `I` is kept by the feeder; if `G`, its dice show faces and it does not panic. -/
def DieFeeder.Sane {σ : Type} (F : DieFeeder σ) (I : σ → Prop) (G : Prop) : Prop :=
  ∀ s sides, 1 ≤ sides → I s →
    I (F.next s sides).2 ∧
    (G → (∀ m, (F.next s sides).1 ≠ .panic m) ∧ ∀ d, (F.next s sides).1 = .ok d → d.Fair)

/-- Behaviour of a computation. -/
def Beh {σ α : Type} (F : DieFeeder σ) (I : σ → Prop) (B : Nat) (G S : Prop) (Q : α → Prop)
    (m : M σ α) : Prop :=
  F.Sane I G → (S → G) → ∀ s o s', I s.feeder → m s = (o, s') → I s'.feeder ∧
    ∃ ds fm lost, Draws F s.feeder ds fm ∧ Calls F fm lost s'.feeder ∧ s'.log = s.log ++ ds ∧
      ds.length + lost.length ≤ B ∧ (∀ a, o = .ok a → lost = [] ∧ Q a) ∧
      (∀ msg, o = .panic msg → (G → msg = makePanicMsg) ∧ ¬ S)

namespace Beh
variable {σ α β : Type} {F : DieFeeder σ} {I : σ → Prop} {B B' : Nat} {G S S' : Prop}
  {Q Q' : α → Prop} {m : M σ α}

theorem mono (h : Beh F I B G S Q m) (hB : B ≤ B') (hQ : ∀ a, Q a → Q' a) :
    Beh F I B' G S Q' m := by
  intro hF hS s o s' hi hm
  obtain ⟨h0, ds, fm, lost, h1, h2, h3, h4, h5, h6⟩ := h hF hS s o s' hi hm
  exact ⟨h0, ds, fm, lost, h1, h2, h3, by omega, fun a ha => ⟨(h5 a ha).1, hQ a (h5 a ha).2⟩, h6⟩

/-- `S → G` may be assumed. -/
theorem assume (h : (S → G) → Beh F I B G S Q m) : Beh F I B G S Q m :=
  fun hF hS => h hS hF hS

theorem pure (a : α) (ha : Q a) : Beh F I 0 G S Q (Pure.pure a) := by
  intro hF hS s o s' hi hm
  rw [M.pure_eq] at hm
  simp only [Prod.mk.injEq] at hm
  obtain ⟨rfl, rfl⟩ := hm
  refine ⟨hi, [], _, [], .nil _, .nil _, by simp, by simp, ?_, by simp⟩
  intro b hb
  cases hb
  exact ⟨rfl, ha⟩

theorem fail (msg : Str) : Beh F I 0 G S Q (M.fail msg : M σ α) := by
  intro hF hS s o s' hi hm
  simp only [M.fail, Prod.mk.injEq] at hm
  obtain ⟨rfl, rfl⟩ := hm
  exact ⟨hi, [], _, [], .nil _, .nil _, by simp, by simp, by simp, by simp⟩

theorem bind {f : α → M σ β} {Q2 : β → Prop} (hm : Beh F I B G S Q m)
    (hf : ∀ a, Q a → Beh F I B' G S Q2 (f a)) : Beh F I (B + B') G S Q2 (m >>= f) := by
  intro hF hS s o s' hi h
  rw [M.bind_eq] at h
  split at h
  · rename_i a s1 h1
    obtain ⟨g0, ds, fm, lost, g1, g2, g3, g4, g5, g6⟩ := hm hF hS _ _ _ hi h1
    obtain ⟨rfl, hq⟩ := g5 a rfl
    cases g2
    obtain ⟨k0, ds', fm', lost', k1, k2, k3, k4, k5, k6⟩ := hf a hq hF hS _ _ _ g0 h
    refine ⟨k0, ds ++ ds', fm', lost', g1.append k1, k2, by rw [k3, g3, List.append_assoc], ?_, k5, k6⟩
    simp at g4 ⊢; omega
  · rename_i e s1 h1
    simp only [Prod.mk.injEq] at h
    obtain ⟨rfl, rfl⟩ := h
    obtain ⟨g0, ds, fm, lost, g1, g2, g3, g4, g5, g6⟩ := hm hF hS _ _ _ hi h1
    exact ⟨g0, ds, fm, lost, g1, g2, g3, by omega, by simp, by simp⟩
  · rename_i e s1 h1
    simp only [Prod.mk.injEq] at h
    obtain ⟨rfl, rfl⟩ := h
    obtain ⟨g0, ds, fm, lost, g1, g2, g3, g4, g5, g6⟩ := hm hF hS _ _ _ hi h1
    refine ⟨g0, ds, fm, lost, g1, g2, g3, by omega, by simp, ?_⟩
    intro msg hmsg
    cases hmsg
    exact g6 _ rfl

/-- Binding with a total bound given in advance. -/
theorem bind' {f : α → M σ β} {Q2 : β → Prop} {C : Nat} (hm : Beh F I B G S Q m)
    (hf : ∀ a, Q a → Beh F I B' G S Q2 (f a)) (hC : B + B' ≤ C) : Beh F I C G S Q2 (m >>= f) :=
  (hm.bind hf).mono hC (fun _ h => h)

theorem map {g : α → β} {Q2 : β → Prop} (hm : Beh F I B G S Q m) (hg : ∀ a, Q a → Q2 (g a)) :
    Beh F I B G S Q2 (do let a ← m; Pure.pure (g a)) :=
  hm.bind' (fun a ha => Beh.pure _ (hg a ha)) (Nat.le_refl _)

end Beh

/-! ## The roller -/

theorem rollLoop_fail {σ : Type} {F : DieFeeder σ} {num sides : Int64} {n : Nat} {acc : List Die}
    {f f' : σ} {o : Out (List Die)} (h : rollLoop F num sides n acc f = (o, f')) (hn : o.isOk = false) :
    ∃ cs, Calls F f cs f' ∧ cs.length ≤ n := by
  induction n generalizing acc f with
  | zero => simp only [rollLoop, Prod.mk.injEq] at h; rw [← h.1] at hn; simp [Out.isOk] at hn
  | succ n ih =>
    simp only [rollLoop] at h
    split at h
    · rename_i hx
      simp only [Prod.mk.injEq] at h
      obtain ⟨-, rfl⟩ := h
      exact ⟨_, .cons hx (.nil _), by simp⟩
    · rename_i hx
      simp only [Prod.mk.injEq] at h
      obtain ⟨-, rfl⟩ := h
      exact ⟨_, .cons hx (.nil _), by simp⟩
    · rename_i hx
      split at h
      · simp only [Prod.mk.injEq] at h
        obtain ⟨-, rfl⟩ := h
        exact ⟨_, .cons hx (.nil _), by simp⟩
      · obtain ⟨cs, h1, h2⟩ := ih h
        exact ⟨_, .cons hx h1, by simp; omega⟩

theorem rollLoop_fair {σ : Type} {F : DieFeeder σ} {I : σ → Prop} {G : Prop} (hF : F.Sane I G)
    {num sides : Int64} (hs : 1 ≤ sides) {n : Nat} {acc : List Die}
    {f f' : σ} {o : Out (List Die)} (hI : I f) (h : rollLoop F num sides n acc f = (o, f')) :
    I f' ∧ (G → o.isPanic = false ∧
      ∀ ds, o = .ok ds → ∀ d ∈ ds, d ∈ acc ∨ (d.Fair ∧ d.sides = sides)) := by
  induction n generalizing acc f with
  | zero =>
    simp only [rollLoop, Prod.mk.injEq] at h
    obtain ⟨rfl, rfl⟩ := h
    refine ⟨hI, fun _ => ⟨rfl, ?_⟩⟩
    intro ds hds d hd
    cases hds
    exact .inl hd
  | succ n ih =>
    have hx := hF f sides hs hI
    simp only [rollLoop] at h
    split at h
    · rename_i hy
      rw [hy] at hx
      simp only [Prod.mk.injEq] at h
      obtain ⟨rfl, rfl⟩ := h
      exact ⟨hx.1, fun _ => ⟨rfl, by simp⟩⟩
    · rename_i m s1 hy
      rw [hy] at hx
      simp only [Prod.mk.injEq] at h
      obtain ⟨rfl, rfl⟩ := h
      exact ⟨hx.1, fun hG => absurd rfl ((hx.2 hG).1 m)⟩
    · rename_i d s1 hy
      rw [hy] at hx
      split at h
      · simp only [Prod.mk.injEq] at h
        obtain ⟨rfl, rfl⟩ := h
        exact ⟨hx.1, fun _ => ⟨rfl, by simp⟩⟩
      · rename_i hds
        obtain ⟨h1, h2⟩ := ih hx.1 h
        refine ⟨h1, fun hG => ⟨(h2 hG).1, ?_⟩⟩
        intro ds hds' e he
        rcases (h2 hG).2 ds hds' e he with h4 | h4
        · rcases List.mem_append.mp h4 with h5 | h5
          · exact .inl h5
          · simp only [List.mem_singleton] at h5
            subst h5
            exact .inr ⟨(hx.2 hG).2 _ rfl, Classical.not_not.mp hds⟩
        · exact .inr h4

variable {σ : Type} {I : σ → Prop} {G S : Prop} (E : Evaluator σ)

theorem not_lt_iff (a b : Int64) : ¬ a < b ↔ b ≤ a := by
  rw [Int64.lt_iff_toInt_lt, Int64.le_iff_toInt_le]; omega

/-- Behaviour of `Evaluator.RollDice`. -/
theorem beh_rollDice (num sides : Int64) (hS : S → num.toInt ≤ cap) :
    Beh E.F I (min cap num.toInt.toNat) G S
      (fun ds => Rolled num sides ds ∧ (G → ∀ d ∈ ds, d.Fair))
      (E.rollDice num sides) := by
  intro hF hSG s o s' hi h
  unfold Evaluator.rollDice at h
  have hroll : ∀ o' f', GoBCDice.rollDice E.F num sides s.feeder = (o', f') → I f' ∧
      ((∃ ds, o' = .ok ds ∧ Draws E.F s.feeder ds f' ∧ Rolled num sides ds ∧ (G → ∀ d ∈ ds, d.Fair)) ∨
      (o'.isOk = false ∧ ∃ cs, Calls E.F s.feeder cs f' ∧ cs.length ≤ min cap num.toInt.toNat)) ∧
      (∀ msg, o' = .panic msg → (G → msg = makePanicMsg) ∧ ¬ S) := by
    intro o' f' hr
    unfold GoBCDice.rollDice at hr
    split at hr
    · simp only [Prod.mk.injEq] at hr
      obtain ⟨rfl, rfl⟩ := hr
      exact ⟨hi, .inr ⟨rfl, [], .nil _, by simp⟩, by simp⟩
    · split at hr
      · simp only [Prod.mk.injEq] at hr
        obtain ⟨rfl, rfl⟩ := hr
        exact ⟨hi, .inr ⟨rfl, [], .nil _, by simp⟩, by simp⟩
      · split at hr
        · rename_i h3
          simp only [Prod.mk.injEq] at hr
          obtain ⟨rfl, rfl⟩ := hr
          refine ⟨hi, .inr ⟨rfl, [], .nil _, by simp⟩, ?_⟩
          intro msg hm
          cases hm
          refine ⟨fun _ => rfl, fun hs => ?_⟩
          rw [Int64.lt_iff_toInt_lt, maxMakeCap_toInt] at h3
          have := hS hs
          omega
        · rename_i h1 h2 h3
          obtain ⟨k1, k2⟩ := rollLoop_fair hF ((not_lt_iff _ _).mp h1) hi hr
          rw [not_lt_iff] at h1 h2 h3
          have e3 := h3
          have e2 := h2
          rw [Int64.le_iff_toInt_le, maxMakeCap_toInt] at e3
          rw [Int64.le_iff_toInt_le] at e2
          have e1 : (1 : Int64).toInt = 1 := by decide
          rw [e1] at e2
          refine ⟨k1, ?_, ?_⟩
          · cases o' with
            | ok ds =>
              obtain ⟨es, g1, g2, g3, g4⟩ := rollLoop_ok.mp hr
              rw [List.nil_append] at g1
              subst g1
              refine .inl ⟨_, rfl, g4, ⟨h1, h2, h3, by omega, g3⟩, fun hG d hd => ?_⟩
              rcases (k2 hG).2 _ rfl d hd with hn | hn
              · simp at hn
              · exact hn.1
            | err =>
              obtain ⟨cs, g1, g2⟩ := rollLoop_fail hr rfl
              exact .inr ⟨rfl, cs, g1, by omega⟩
            | panic =>
              obtain ⟨cs, g1, g2⟩ := rollLoop_fail hr rfl
              exact .inr ⟨rfl, cs, g1, by omega⟩
          · intro msg hm
            have : ¬ G := by
              intro hG
              have := (k2 hG).1
              rw [hm] at this
              simp [Out.isPanic] at this
            exact ⟨fun hG => absurd hG this, fun hs => this (hSG hs)⟩
  split at h
  · rename_i ds f' hr
    simp only [Prod.mk.injEq] at h
    obtain ⟨rfl, rfl⟩ := h
    obtain ⟨k0, k1, k2⟩ := hroll _ _ hr
    rcases k1 with ⟨ds', g1, g2, g3, g4⟩ | ⟨g1, -⟩
    · cases g1
      refine ⟨k0, ds, f', [], g2, .nil _, rfl, ?_, ?_, by simp⟩
      · have := g3.2.2.2.1
        have h2 := g3.2.2.1
        rw [Int64.le_iff_toInt_le, maxMakeCap_toInt] at h2
        simp only [List.length_nil, Nat.add_zero]; omega
      · intro a ha
        cases ha
        exact ⟨rfl, g3, g4⟩
    · simp [Out.isOk] at g1
  · rename_i e f' hr
    simp only [Prod.mk.injEq] at h
    obtain ⟨rfl, rfl⟩ := h
    obtain ⟨k0, k1, k2⟩ := hroll _ _ hr
    rcases k1 with ⟨ds', g1, -⟩ | ⟨-, cs, g2, g3⟩
    · simp at g1
    · exact ⟨k0, [], s.feeder, cs, .nil _, g2, by simp, by simpa using g3, by simp, by simp⟩
  · rename_i e f' hr
    simp only [Prod.mk.injEq] at h
    obtain ⟨rfl, rfl⟩ := h
    obtain ⟨k0, k1, k2⟩ := hroll _ _ hr
    rcases k1 with ⟨ds', g1, -⟩ | ⟨-, cs, g2, g3⟩
    · simp at g1
    · refine ⟨k0, [], s.feeder, cs, .nil _, g2, by simp, by simpa using g3, by simp, ?_⟩
      intro msg hm
      cases hm
      exact k2 _ rfl

theorem Rolled.length_le {a b : Int64} {ds : List Die} (h : Rolled a b ds) : ds.length ≤ cap := by
  have h1 := h.2.2.2.1
  have h2 := h.2.2.1
  rw [Int64.le_iff_toInt_le, maxMakeCap_toInt] at h2
  omega

theorem beh_rollDice_cap (num sides : Int64) (hS : S → num.toInt ≤ cap) :
    Beh E.F I cap G S (fun ds => Rolled num sides ds ∧ (G → ∀ d ∈ ds, d.Fair))
      (E.rollDice num sides) :=
  (beh_rollDice E num sides hS).mono (by omega) (fun _ h => h)

/-- One die. -/
theorem beh_rollOne (sides : Int64) :
    Beh E.F I 1 G S (fun ds => ds.length = 1 ∧ Rolled 1 sides ds ∧ (G → ∀ d ∈ ds, d.Fair))
      (E.rollDice 1 sides) :=
  (beh_rollDice E 1 sides (fun _ => by rw [cap_eq]; decide)).mono
    (by have : (1 : Int64).toInt.toNat = 1 := by decide
        omega) (fun ds h => by
      have : (1 : Int64).toInt = 1 := by decide
      have h' := h.1.2.2.2.1
      rw [this] at h'
      exact ⟨by omega, h⟩)

theorem beh_firstDie (ds : List Die) (h : ds.length = 1) :
    Beh E.F I 0 G S (fun d => ds = [d]) (Evaluator.firstDie ds : M σ Die) := by
  match ds, h with
  | [d], _ => exact Beh.pure d rfl

/-! ## Expressions -/

/-- `v` is a value of `e` for some faces of its dice. -/
def FairVal (e : Expr) (v : Int64) : Prop := ∃ ds, (∀ d ∈ ds, d.Fair) ∧ Ev e ds v

theorem fair_append {as bs : List Die} (ha : ∀ d ∈ as, d.Fair) (hb : ∀ d ∈ bs, d.Fair) :
    ∀ d ∈ as ++ bs, d.Fair := by
  intro d hd
  rcases List.mem_append.mp hd with h | h
  · exact ha d h
  · exact hb d h

theorem FairVal.bin {op : BinOp} {l r : Expr} {a b : Int64} (h1 : FairVal l a) (h2 : FairVal r b) :
    FairVal (.bin op l r) (op.apply a b) := by
  obtain ⟨as, ha, ea⟩ := h1
  obtain ⟨bs, hb, eb⟩ := h2
  cases op
  · exact ⟨_, fair_append ha hb, .add ea eb⟩
  · exact ⟨_, fair_append ha hb, .sub ea eb⟩
  · exact ⟨_, fair_append ha hb, .mul ea eb⟩

theorem FairVal.d {l r : Expr} {a b : Int64} {ds : List Die} (h1 : FairVal l a) (h2 : FairVal r b)
    (h3 : Rolled a b ds) (h4 : ∀ d ∈ ds, d.Fair) :
    FairVal (.var .d l r) (ds.map Die.value).sum := by
  obtain ⟨as, ha, ea⟩ := h1
  obtain ⟨bs, hb, eb⟩ := h2
  exact ⟨_, fair_append (fair_append ha hb) h4, .d ea eb h3⟩

theorem sumDice_eq_sum (ds : List Die) : (ds.map Die.value).sum = sumDice ds := by
  rw [sumDice, sumInts_eq]

theorem beh_eval (e : Expr) (hS : S → e.SmallCounts) :
    Beh E.F I (e.rands * cap) G S (fun v => G → FairVal e v) (E.eval e) := by
  induction e with
  | int v => exact (Beh.pure v (fun _ => ⟨[], by simp, .int v⟩)).mono (Nat.zero_le _) (fun _ h => h)
  | sumRoll ds =>
    exact (Beh.pure (Q := fun v => G → FairVal (.sumRoll ds) v) (sumDice ds)
      (fun _ => ⟨[], by simp, sumDice_eq_sum ds ▸ .sumRoll ds⟩)).mono (Nat.zero_le _) (fun _ h => h)
  | neg r ih =>
    exact (ih hS).map (Q2 := fun v => G → FairVal (.neg r) v) (fun a ha hG => by
      obtain ⟨ds, h1, h2⟩ := ha hG
      exact ⟨ds, h1, .neg h2⟩)
  | bin op l r ihl ihr =>
    refine (ihl (fun h => (hS h).1)).bind' (fun a ha => (ihr (fun h => (hS h).2)).map
      (Q2 := fun v => G → FairVal (.bin op l r) v) (fun b hb hG => (ha hG).bin (hb hG))) ?_
    simp only [Expr.rands, Nat.add_mul]; omega
  | div m l r ihl ihr =>
    refine (ihl (fun h => (hS h).1)).bind' (fun a ha => (ihr (fun h => (hS h).2)).bind'
      (Q2 := fun v => G → FairVal (.div m l r) v) (C := r.rands * cap) (B' := 0) (fun b hb => ?_)
      (Nat.le_refl _)) ?_
    · unfold Evaluator.evalIntegerDivide
      split
      · exact Beh.fail _
      · rename_i hne
        refine Beh.pure _ (fun hG => ?_)
        obtain ⟨as, h1, h2⟩ := ha hG
        obtain ⟨bs, h3, h4⟩ := hb hG
        exact ⟨_, fair_append h1 h3, .div h2 h4 hne⟩
    · simp only [Expr.rands, Nat.add_mul]; omega
  | var k l r ihl ihr =>
    cases k with
    | d =>
      refine Beh.bind' (B' := r.rands * cap + cap) (ihl (fun h => (hS h).2.1)) (fun a ha =>
        (ihr (fun h => (hS h).2.2)).bind'
        (Q2 := fun v => G → FairVal (.var .d l r) v) (C := r.rands * cap + cap) (B' := cap)
        (fun b hb => ?_) (Nat.le_refl _)) ?_
      · intro hF hSG
        exact (beh_rollDice_cap E a b (fun h => by
          obtain ⟨ds, hf, he⟩ := ha (hSG h)
          rw [cap_eq]; exact (hS h).1 ds a hf he)).map (Q2 := fun v => G → FairVal (.var .d l r) v)
            (fun ds hd hG => sumDice_eq_sum ds ▸ (ha hG).d (hb hG) hd.1 (hd.2 hG)) hF hSG
      · simp only [Expr.rands, Nat.add_mul]; omega
    | rand =>
      refine (ihl (fun h => (hS h).1)).bind' (B' := r.rands * cap + 1) (fun a ha => (ihr (fun h => (hS h).2)).bind'
        (Q2 := fun v => G → FairVal (.var .rand l r) v) (C := r.rands * cap + 1) (B' := 1)
        (fun b hb => ?_) (Nat.le_refl _)) ?_
      · unfold Evaluator.evalRandomNumber
        split
        · exact (Beh.fail _).mono (Nat.zero_le _) (fun _ h => h)
        · rename_i hlt
          refine (beh_rollOne E _).bind' (B' := 0) (fun ds hds => ?_) (Nat.le_refl 1)
          refine (beh_firstDie E ds hds.1).map (fun d hd hG => ?_)
          subst hd
          obtain ⟨as, h1, h2⟩ := ha hG
          obtain ⟨bs, h3, h4⟩ := hb hG
          refine ⟨_, fair_append (fair_append h1 h3) (hds.2.2 hG), .rand h2 h4 ?_ hds.2.1⟩
          rw [Int64.lt_iff_toInt_lt]
          rw [Int64.le_iff_toInt_le] at hlt
          omega
      · simp only [Expr.rands, Nat.add_mul]; have := cap_eq; omega

end GoBCDice
