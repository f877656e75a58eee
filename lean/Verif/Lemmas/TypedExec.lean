import Verif.Lemmas.TypedText
import Verif.RawCommand

/-! # Execution of nodes that make sense -/

namespace GoBCDice.Raw

variable {σ α β : Type} {I : σ → Prop}

/-! ## Writing -/

theorem NP.write {h : Heap} {r : Ref} {o' : Obj} (hl : Le h (h.set r o')) :
    NP I h (write (some r) o' : H σ Unit) (fun _ h' => h' = h.set r o') := fun _ hi => ⟨hl, hi, rfl⟩

theorem NP.setLeft {h : Heap} {r q : Ref} {k : InfixKind} {l y : Ptr} (hr : h[r]? = some (.binary k l y))
    (hq : IsLiteral h q) (hl : ∀ op, k = .compare op → ∀ n τ, HasType h n l τ → τ = .integer) :
    NP I h (Raw.setLeft (some r) (some q) : H σ Unit) (fun _ _ => True) :=
  At.deref hr (NP.write (le_setLeft hr hq hl)).any

theorem NP.setRight {h : Heap} {r q : Ref} {k : InfixKind} {l y : Ptr} (hr : h[r]? = some (.binary k l y))
    (hq : IsLiteral h q) : NP I h (Raw.setRight (some r) (some q) : H σ Unit) (fun _ _ => True) :=
  At.deref hr (NP.write (le_setRight hr hq)).any

theorem NP.setMinus {h : Heap} {r q : Ref} {y : Ptr} (hr : h[r]? = some (.unary y))
    (hq : IsLiteral h q) : NP I h (Raw.setRight (some r) (some q) : H σ Unit) (fun _ _ => True) :=
  At.deref hr (NP.write (le_setMinus hr hq)).any

theorem NP.intNode {h : Heap} (x : Int64) {f : Ptr → H σ β} {R : β → Heap → Prop}
    (hf : ∀ q, IsLiteral (h ++ [.int x]) q → NP I (h ++ [.int x]) (f (some q)) R) :
    NP I h (Raw.objectToIntNode (.integer x) >>= f) R := by
  refine At.bind (Q := fun p h' => p = some h.length ∧ h' = h ++ [.int x]) (At.alloc ⟨rfl, rfl⟩) ?_
  rintro _ _ _ ⟨rfl, rfl⟩
  exact hf _ (.inl ⟨x, by simp⟩)

theorem binary_up {h h' : Heap} {r : Ref} {k : InfixKind} {x y : Ptr} (l : Le h h')
    (hr : h[r]? = some (.binary k x y)) : ∃ x' y', h'[r]? = some (.binary k x' y') := by
  obtain ⟨o, ho, hk⟩ := l.2 r _ hr
  obtain ⟨x', y', rfl⟩ := skeleton_binary hk
  exact ⟨x', y', ho⟩

section
variable {E : Evaluator σ} (hF : E.F.FairOn I)
include hF

/-- Evaluating a node that makes sense. -/
theorem NP.eval {h : Heap} {n d : Nat} {p : Ptr} {τ : Ty} (hp : HasType h n p τ) (hτ : τ.HasValue) (hd : n ≤ d) :
    NP I h (Raw.eval E d p) (fun v _ => τ.Fits v) :=
  evalAt hF (fun _ _ => trivial) d n hd hp hτ

theorem NP.evalInt {h : Heap} {n d : Nat} {p : Ptr} (hp : HasType h n p .integer) (hd : n ≤ d)
    {f : Value → H σ β} {R : β → Heap → Prop} (hf : ∀ x h', Le h h' → NP I h' (f (.integer x)) R) :
    NP I h (Raw.eval E d p >>= f) R := by
  refine At.bind (NP.eval hF hp hasValue_integer hd) ?_
  rintro _ h' l ⟨x, rfl⟩
  exact hf x h' l

omit hF in
theorem NP.isVariable (d : Nat) : ∀ {h : Heap} {n : Nat} {p : Ptr} {τ : Ty}, HasType h n p τ → n ≤ d →
    NP I h (Raw.isVariable d p : H σ Bool) (fun _ h' => h' = h) := by
  induction d with
  | zero => intro h n p τ hp hd; have := hp.pos; omega
  | succ d ih =>
    intro h n p τ hp hd
    obtain ⟨m, r, o, rfl, rfl, hr, ho⟩ := hp.rule
    unfold Raw.isVariable
    refine At.deref hr ?_
    cases o with
    | int v => exact At.pure rfl
    | sumRoll ds => exact At.pure rfl
    | unary x => exact ih ho.2 (by omega)
    | binary k x y =>
      refine At.ite (fun _ => At.pure rfl) (fun _ => ?_)
      have hx : ∃ ρ, HasType h m x ρ := by
        obtain ⟨-, ⟨-, -, hx⟩ | ⟨-, -, hx⟩ | ⟨-, -, hx⟩ | ⟨-, -, hx⟩ | ⟨_, _, -, -, -, -, -, hx⟩⟩ := ho <;>
          exact ⟨_, hx⟩
      obtain ⟨ρ, hx⟩ := hx
      refine At.bind (ih hx (by omega)) ?_
      rintro b _ _ rfl
      exact At.ite (fun _ => At.pure rfl) (fun _ => ih ho.1 (by omega))
    | command ty e =>
      rcases ho with ⟨-, -, -, he⟩ | ⟨-, -, he⟩ | ⟨-, -, he⟩ | ⟨-, -, he⟩ <;> exact ih he (by omega)
    | bRollList ps => exact At.pure rfl
    | rRollList ps t => exact At.pure rfl
    | uRollExpr l b => exact At.pure rfl
    | choice items => exact At.pure rfl
    | string s => cases ho
    | nilNode => cases ho

/-! ## Stage 1 -/

theorem NP.varArgsOfRoll {h : Heap} {n d : Nat} {r : Ref} {k : InfixKind} {x y : Ptr}
    (hr : h[r]? = some (.binary k x y)) (hk : ∀ op, k ≠ .compare op) (hx : HasType h n x .integer)
    (hy : HasType h n y .integer) (hd : n ≤ d) :
    NP I h (evalVarArgsOfRoll E d (some r) x y) (fun _ _ => True) := by
  unfold evalVarArgsOfRoll
  refine NP.evalInt hF hx hd (fun a h1 l1 => ?_)
  refine NP.evalInt hF (hy.up l1) hd (fun b h2 l2 => ?_)
  refine NP.intNode a (fun q hq => ?_)
  obtain ⟨x', y', hr'⟩ := binary_up ((l1.trans l2).trans (Le.append _ _)) hr
  refine NP.bind (NP.setLeft hr' hq (fun op e => absurd e (hk op))) (fun _ h3 l3 => ?_)
  refine NP.intNode b (fun q hq => ?_)
  obtain ⟨x'', y'', hr''⟩ := binary_up (l3.trans (Le.append _ _)) hr'
  exact NP.setRight hr'' hq

theorem NP.varArgsOfVariableExpr {h : Heap} {n d : Nat} {p : Ptr} {τ : Ty} (hp : HasType h n p τ) (hd : n ≤ d + 1) :
    NP I h (evalVarArgsOfVariableExpr E d p) (fun _ _ => True) := by
  obtain ⟨m, r, o, rfl, rfl, hr, ho⟩ := hp.rule
  unfold evalVarArgsOfVariableExpr
  refine At.deref hr ?_
  cases o with
  | binary k x y =>
    have key : (∀ op, k ≠ .compare op) → NP I h (evalVarArgsOfRoll E d (some r) x y) (fun _ _ => True) := by
      intro hk
      have hx : HasType h m x .integer := by
        obtain ⟨-, ⟨-, -, hx⟩ | ⟨-, -, hx⟩ | ⟨-, -, hx⟩ | ⟨-, -, hx⟩ | ⟨op, _, -, e, -, -, -, hx⟩⟩ := ho
        all_goals first | exact hx | exact absurd e (hk op)
      exact NP.varArgsOfRoll hF hr hk hx ho.1 (by omega)
    cases k with
    | dRoll => exact key (by simp)
    | bRoll => exact key (by simp)
    | rRoll => exact key (by simp)
    | uRoll => exact key (by simp)
    | _ => exact NP.fail
  | _ => exact NP.fail

theorem NP.varArgsInRolls {h : Heap} {n d : Nat} {ps : List Ptr} {τ : Ty} (hps : ∀ p ∈ ps, HasType h n p τ)
    (hd : n ≤ d + 1) : NP I h (evalVarArgsInRolls E d ps) (fun _ _ => True) := by
  induction ps generalizing h with
  | nil => exact At.pure trivial
  | cons p ps ih =>
    refine NP.bind (NP.varArgsOfVariableExpr hF (hps p (by simp)) hd) (fun _ h1 l1 => ?_)
    exact ih (fun q hq => (hps q (by simp [hq])).up l1)

omit hF in
theorem rRollList_up {h h' : Heap} {r : Ref} {ps : List Ptr} {t : Ptr} (l : Le h h')
    (hr : h[r]? = some (.rRollList ps t)) : ∃ t', h'[r]? = some (.rRollList ps t') := by
  obtain ⟨o, ho, hk⟩ := l.2 r _ hr
  obtain ⟨t', rfl⟩ := skeleton_rRollList hk
  exact ⟨t', ho⟩

theorem NP.varArgsInRRollList {h : Heap} {n d : Nat} {r : Ref} {ps : List Ptr} {t : Ptr} {τ : Ty}
    (hr : h[r]? = some (.rRollList ps t)) (ht : ¬ IsAbsent h t → HasType h n t .integer)
    (hps : ∀ p ∈ ps, HasType h n p τ) (hd : n ≤ d) :
    NP I h (evalVarArgsInRRollList E d (some r)) (fun _ _ => True) := by
  unfold evalVarArgsInRRollList
  refine At.deref hr ?_
  refine At.threshold ht (fun q o hq ho hor => ?_)
  rcases hor with hn | ⟨hn, hi⟩
  · rw [if_pos hn]
    exact NP.varArgsInRolls hF hps (by omega)
  · rw [if_neg (by simp [hn])]
    refine NP.evalInt hF hi hd (fun x h1 l1 => ?_)
    refine NP.intNode x (fun q hq => ?_)
    have l2 := l1.trans (Le.append h1 [.int x])
    obtain ⟨t', hr'⟩ := rRollList_up l2 hr
    refine NP.bind (NP.write (le_setThreshold hr' hq)) (fun _ h3 l3 => ?_)
    exact NP.varArgsInRolls hF (fun p hp => ((hps p hp).up l2).up l3) (by omega)

omit hF in
theorem uRollExpr_up {h h' : Heap} {r : Ref} {list b : Ptr} (l : Le h h')
    (hr : h[r]? = some (.uRollExpr list b)) : ∃ b', h'[r]? = some (.uRollExpr list b') := by
  obtain ⟨o, ho, hk⟩ := l.2 r _ hr
  obtain ⟨t', rfl⟩ := skeleton_uRollExpr hk
  exact ⟨t', ho⟩

theorem NP.varArgsInURollExpr {h : Heap} {n d : Nat} {r : Ref} {list bonus : Ptr}
    (hp : HasType h (n + 1) (some r) .uResult) (hr : h[r]? = some (.uRollExpr list bonus)) (hd : n ≤ d) :
    NP I h (evalVarArgsInURollExpr E d (some r) list bonus) (fun _ _ => True) := by
  obtain ⟨m, hm, -, hl, hb, hb'⟩ := hp.ruleAt hr
  cases hm
  obtain ⟨m, rl, ol, rfl, rfl, hrl, hol⟩ := hl.rule
  unfold evalVarArgsInURollExpr
  refine NP.bind (Q := fun _ _ => True) ?_ (fun _ h1 l1 => ?_)
  · cases hl with
    | uRolls hr' hps ht hn => exact NP.varArgsInRRollList hF hr' ht hps (by omega)
    | command _ _ hτ hτ' _ => simp [Ty.HasValue] at hτ hτ'
  · refine At.ite (fun _ => At.pure trivial) (fun hne => ?_)
    obtain ⟨rb, k, x, y, rfl, hrb, hk⟩ := hb hne
    have htb := (hb' hne).up l1
    obtain ⟨x1, y1, hrb1⟩ := binary_up l1 hrb
    obtain ⟨m', hm', hrule⟩ := htb.ruleAt hrb1
    cases hm'
    refine At.deref hrb1 ?_
    obtain ⟨hy, hx⟩ := hrule
    have hx : k.operator ∈ numberOperators ∧ HasType h1 m x1 .integer := by
      rcases hx with ⟨-, h1 | ⟨_, rfl⟩, hx⟩ | ⟨h1, -⟩ | ⟨h1, -⟩ | ⟨h1, -⟩ | ⟨_, _, h1, -⟩
      · exact ⟨h1, hx⟩
      · cases hk
      all_goals cases h1
    have hev : NP I h1 (evalInfix E (Raw.eval E d) k x1 y1) (fun v _ => Ty.integer.Fits v) := by
      refine At.infix (evalAt hF (fun _ _ => trivial) d m (by omega)) hx.2 hy ?_ ?_
      · rintro a b h' md rfl
        cases hk
      · intro a b h' _
        exact At.integerInfix hF (fun _ _ => trivial) hx.1 a b
    refine At.bind hev ?_
    rintro _ h2 l2 ⟨v, rfl⟩
    refine At.bind (Q := fun x h' => x = v ∧ h' = h2) (At.pure ⟨rfl, rfl⟩) ?_
    rintro v h2 _ ⟨rfl, rfl⟩
    obtain ⟨b', hr2⟩ := uRollExpr_up (l1.trans l2) hr
    have build : ∀ (k : InfixKind) (a : Int64), k.isBasicInfix = true → k.operator ∈ numberOperators →
        NP I h2 (do
          let b ← (do
            let z ← alloc (.int 0)
            let n ← alloc (.int a)
            alloc (.binary k z n))
          Raw.write (some r) (.uRollExpr (some rl) b)) (fun _ _ => True) := by
      intro k a hk1 hk2
      let h3 : Heap := h2 ++ [.int 0] ++ [.int a] ++ [.binary k (some h2.length) (some (h2.length + 1))]
      refine At.bind (Q := fun b h' => b = some (h2.length + 2) ∧ h' = h3) ?_ ?_
      · refine At.bind (Q := fun b h' => b = some h2.length ∧ h' = h2 ++ [.int 0]) (At.alloc ⟨rfl, rfl⟩) ?_
        rintro _ _ _ ⟨rfl, rfl⟩
        refine At.bind (Q := fun b h' => b = some (h2.length + 1) ∧ h' = h2 ++ [.int 0] ++ [.int a])
          (At.alloc ⟨by simp, rfl⟩) ?_
        rintro _ _ _ ⟨rfl, rfl⟩
        exact At.alloc ⟨by simp, rfl⟩
      · rintro _ _ l ⟨rfl, rfl⟩
        refine (NP.write (le_setBonus (x := h2.length) (y := h2.length + 1) (k := k) (b := b') ?_ ?_ hk1 hk2 ?_ ?_)).any
        · exact get_append (get_append (get_append hr2))
        · simp [h3]
        · exact .inl ⟨0, by simp [h3]⟩
        · exact .inl ⟨a, by simp [h3]⟩
    unfold newBonus
    by_cases h0 : v = 0
    · rw [if_pos h0]
      exact (NP.write (le_setNoBonus hr2)).any
    · rw [if_neg h0]
      by_cases h1 : v > 0
      · rw [if_pos h1]
        exact build .add v rfl (by decide)
      · rw [if_neg h1]
        exact build .sub (-v) rfl (by decide)

theorem NP.varArgsOperand {d : Nat} {go : Ptr → H σ Unit}
    (hgo : ∀ {h n p τ}, HasType h n p τ → n ≤ d → NP I h (go p) (fun _ _ => True))
    {h : Heap} {n : Nat} {p : Ptr} {τ : Ty} (hp : HasType h n p τ) (hd : n ≤ d) :
    NP I h (evalVarArgsOperand E d go p) (fun _ _ => True) := by
  obtain ⟨m, r, o, rfl, rfl, hr, ho⟩ := hp.rule
  unfold evalVarArgsOperand
  refine At.deref hr (At.ite (fun _ => ?_) (fun _ => hgo hp hd))
  refine At.bind (NP.isVariable d hp hd) ?_
  rintro b _ _ rfl
  exact At.ite (fun _ => NP.varArgsOfVariableExpr hF hp (by omega)) (fun _ => At.pure trivial)

omit hF in
theorem Rule.left {h : Heap} {m : Nat} {τ : Ty} {k : InfixKind} {x y : Ptr} (ho : Rule h m τ (.binary k x y)) :
    ∃ ρ, HasType h m x ρ := by
  obtain ⟨-, ⟨-, -, hx⟩ | ⟨-, -, hx⟩ | ⟨-, -, hx⟩ | ⟨-, -, hx⟩ | ⟨_, _, -, -, -, -, -, hx⟩⟩ := ho <;>
    exact ⟨_, hx⟩

omit hF in
theorem Rule.expression {h : Heap} {m : Nat} {τ : Ty} {ty : CommandType} {e : Ptr} (ho : Rule h m τ (.command ty e)) :
    ∃ ρ, HasType h m e ρ := by
  rcases ho with ⟨-, -, -, he⟩ | ⟨-, -, he⟩ | ⟨-, -, he⟩ | ⟨-, -, he⟩ <;> exact ⟨_, he⟩

/-- `EvalVarArgs` on a node that makes sense. -/
theorem NP.evalVarArgs (d : Nat) : ∀ {h : Heap} {n : Nat} {p : Ptr} {τ : Ty}, HasType h n p τ → n ≤ d →
    NP I h (Raw.evalVarArgs E d p) (fun _ _ => True) := by
  induction d with
  | zero => intro h n p τ hp hd; have := hp.pos; omega
  | succ d ih =>
    intro h n p τ hp hd
    obtain ⟨m, r, o, rfl, rfl, hr, ho⟩ := hp.rule
    unfold Raw.evalVarArgs evalVarArgsStep
    refine At.deref hr ?_
    cases o with
    | int v => exact NP.fail
    | sumRoll ds => exact NP.fail
    | unary x => exact NP.varArgsOperand hF ih ho.2 (by omega)
    | binary k x y =>
      obtain ⟨ρ, hx⟩ := ho.left
      have other : NP I h (do
          evalVarArgsOperand E d (Raw.evalVarArgs E d) x
          evalVarArgsOperand E d (Raw.evalVarArgs E d) y) (fun _ _ => True) :=
        NP.bind (NP.varArgsOperand hF ih hx (by omega)) (fun _ h1 l1 =>
          NP.varArgsOperand hF ih (ho.1.up l1) (by omega))
      cases k with
      | compare op =>
        show NP I h (evalVarArgsInCompare E d (Raw.evalVarArgs E d) (some r) x y) _
        unfold evalVarArgsInCompare
        refine NP.bind (ih hx (by omega)) (fun _ h1 l1 => ?_)
        refine NP.evalInt hF (ho.1.up l1) (by omega) (fun v h2 l2 => ?_)
        refine NP.intNode v (fun q hq => ?_)
        obtain ⟨x', y', hr'⟩ := binary_up ((l1.trans l2).trans (Le.append _ _)) hr
        exact NP.setRight hr' hq
      | _ => exact other
    | bRollList ps => exact NP.varArgsInRolls hF ho.2 (by omega)
    | rRollList ps t =>
      obtain ⟨-, ht, ⟨-, hps⟩ | ⟨-, hps⟩⟩ := ho
      · exact NP.varArgsInRRollList hF hr ht hps (by omega)
      · exact NP.varArgsInRRollList hF hr ht hps (by omega)
    | uRollExpr l b =>
      obtain ⟨rfl, -⟩ := ho
      exact NP.varArgsInURollExpr hF hp hr (by omega)
    | choice items => exact NP.fail
    | command ty e =>
      obtain ⟨ρ, he⟩ := ho.expression
      exact NP.varArgsOperand hF ih he (by omega)
    | string s => cases ho
    | nilNode => cases ho

/-! ## Stage 2 -/

omit hF in
theorem At.lift {h : Heap} {m : St σ → Out α × St σ} {Err : Str → Prop} {Q : α → Heap → Prop}
    (hm : At I Err h (H.lift m) Q) : At I Err h (H.lift m) (fun a h' => Q a h' ∧ h' = h) := by
  intro st hi
  have := hm st hi
  unfold H.lift at this ⊢
  rcases hx : m st with ⟨o, s'⟩
  rw [hx] at this
  cases o with
  | ok a => exact ⟨this.1, this.2.1, this.2.2, rfl⟩
  | err e => exact this
  | panic x => exact this

omit hF in
theorem Rule.dRoll {h : Heap} {m : Nat} {τ : Ty} {x y : Ptr} (ho : Rule h m τ (.binary .dRoll x y)) :
    τ = .integer ∧ HasType h m x .integer := by
  obtain ⟨-, ⟨e, -, hx⟩ | ⟨-, hk, hx⟩ | ⟨-, hk, hx⟩ | ⟨-, hk, hx⟩ | ⟨_, _, -, hk, -⟩⟩ := ho
  · exact ⟨e, hx⟩
  · revert hk; simp [comparisonOperators, InfixKind.operator]
  · simp at hk
  · cases hk
  · cases hk

/-- The roll is replaced by its result; nothing else changes. -/
theorem NP.valueOfVariableExpr {h : Heap} {n : Nat} {p : Ptr} {τ : Ty} (hp : HasType h n p τ) :
    NP I h (determineValueOfVariableExpr E p) (fun q h' => ∃ x r, h' = h ++ x ∧ q = some r ∧ IsLiteral h' r ∧
      ∀ n τ, HasType h' n p τ → τ = .integer) := by
  obtain ⟨m, r, o, rfl, rfl, hr, ho⟩ := hp.rule
  unfold determineValueOfVariableExpr
  refine At.deref hr ?_
  cases o with
  | binary k x y =>
    cases k with
    | dRoll =>
      obtain ⟨-, hx⟩ := ho.dRoll
      obtain ⟨_, rx, ox, -, rfl, hrx, -⟩ := hx.rule
      obtain ⟨_, ry, oy, -, rfl, hry, -⟩ := ho.1.rule
      refine At.deref hrx ?_
      cases ox with
      | int num =>
        refine At.deref hry ?_
        cases oy with
        | int sides =>
          refine At.bind (At.lift (At.rollDice hF (fun _ _ => trivial) num sides)) ?_
          rintro ds _ _ ⟨-, rfl⟩
          refine At.alloc ⟨_, _, rfl, rfl, .inr ⟨ds, by simp⟩, ?_⟩
          intro n τ hp
          obtain ⟨_, _, hrule⟩ := hp.ruleAt (get_append hr)
          exact hrule.dRoll.1
        | _ => exact NP.fail
      | _ => exact NP.fail
    | _ => exact NP.fail
  | _ => exact NP.fail

theorem NP.valuesOperand {d : Nat} {go : Ptr → H σ Unit}
    (hgo : ∀ {h n p τ}, HasType h n p τ → n ≤ d → NP I h (go p) (fun _ _ => True))
    {h : Heap} {n : Nat} {p : Ptr} {τ : Ty} (hp : HasType h n p τ) (hd : n ≤ d) {setter : Ptr → H σ Unit}
    (hs : ∀ x q, IsLiteral (h ++ x) q → (∀ n τ, HasType (h ++ x) n p τ → τ = .integer) →
      NP I (h ++ x) (setter (some q)) (fun _ _ => True)) :
    NP I h (determineValuesOperand E d go p setter) (fun _ _ => True) := by
  obtain ⟨m, r, o, rfl, rfl, hr, ho⟩ := hp.rule
  unfold determineValuesOperand
  refine At.deref hr (At.ite (fun _ => ?_) (fun _ => hgo hp hd))
  unfold replaceVariablePrimaryExpr
  refine At.bind (NP.isVariable d hp hd) ?_
  rintro b _ _ rfl
  refine At.ite (fun _ => ?_) (fun _ => At.pure trivial)
  refine At.bind (NP.valueOfVariableExpr hF hp) ?_
  rintro _ _ _ ⟨x, q, rfl, rfl, hq, hi⟩
  exact hs x q hq hi

/-- `DetermineValues` on a node that makes sense. -/
theorem NP.determineValues (d : Nat) : ∀ {h : Heap} {n : Nat} {p : Ptr} {τ : Ty}, HasType h n p τ → n ≤ d →
    NP I h (Raw.determineValues E d p) (fun _ _ => True) := by
  induction d with
  | zero => intro h n p τ hp hd; have := hp.pos; omega
  | succ d ih =>
    intro h n p τ hp hd
    obtain ⟨m, r, o, rfl, rfl, hr, ho⟩ := hp.rule
    unfold Raw.determineValues determineValuesStep
    refine At.deref hr ?_
    cases o with
    | unary x =>
      refine NP.valuesOperand hF ih ho.2 (by omega) (fun _ q hq _ => ?_)
      exact NP.setMinus (get_append hr) hq
    | binary k x y =>
      obtain ⟨ρ, hx⟩ := ho.left
      refine NP.bind (NP.valuesOperand hF ih hx (by omega) (fun _ q hq hi => ?_)) (fun _ h1 l1 => ?_)
      · exact NP.setLeft (get_append hr) hq (fun _ _ => hi)
      · obtain ⟨x', y', hr1⟩ := binary_up l1 hr
        obtain ⟨_, hm, ho1⟩ := (hp.up l1).ruleAt hr1
        cases hm
        refine At.bind (Q := fun q h' => q = y' ∧ h' = h1) (At.deref hr1 (At.pure ⟨rfl, rfl⟩)) ?_
        rintro _ _ _ ⟨rfl, rfl⟩
        refine NP.valuesOperand hF ih ho1.1 (by omega) (fun _ q hq _ => ?_)
        exact NP.setRight (get_append hr1) hq
    | command ty e =>
      obtain ⟨ρ, he⟩ := ho.expression
      refine NP.valuesOperand hF ih he (by omega) (fun _ q hq hi => ?_)
      exact At.deref (get_append hr) (NP.write (le_setExpression (get_append hr) hq hi)).any
    | _ => exact NP.fail

/-! ## The parts of `Execute` -/

theorem NP.evalVarArgsAndShow {h : Heap} {n d : Nat} {p : Ptr} {τ : Ty} (hp : HasType h n p τ) (hd : n < d) :
    NP I h (Raw.evalVarArgsAndShow E d p) (fun _ _ => True) :=
  NP.bind (NP.evalVarArgs hF d hp (by omega)) (fun _ _ l =>
    NP.infixNotation d true (hp.up l) (by have := τ.extra_le; omega))

theorem NP.determineValuesAndShow {h : Heap} {n d : Nat} {p : Ptr} {τ : Ty} (hp : HasType h n p τ) (hd : n < d) :
    NP I h (Raw.determineValuesAndShow E d p) (fun _ _ => True) :=
  NP.bind (NP.determineValues hF d hp (by omega)) (fun _ _ l =>
    NP.infixNotation d true (hp.up l) (by have := τ.extra_le; omega))

omit hF in
theorem Rule.compareLeft {h : Heap} {m : Nat} {τ : Ty} {k : InfixKind} {x y : Ptr}
    (ho : Rule h m τ (.binary k x y)) (hτ : τ.HasValue) : HasType h m x .integer := by
  obtain ⟨-, ⟨-, -, hx⟩ | ⟨-, -, hx⟩ | ⟨-, -, hx⟩ | ⟨-, -, hx⟩ | ⟨_, _, e, -, -, -, -, hx⟩⟩ := ho
  · exact hx
  · exact hx
  · exact hx
  · exact hx
  · exact absurd e (hτ.2.2 _)

theorem NP.evalCompareLeft {h : Heap} {n d : Nat} {r : Ref} {τ : Ty} {k : InfixKind} {x y : Ptr}
    (hp : HasType h n (some r) τ) (hr : h[r]? = some (.binary k x y)) (hτ : τ.HasValue) (hd : n ≤ d) :
    NP I h (Raw.evalCompareLeft E d (some r)) (fun _ _ => True) := by
  obtain ⟨m, rfl, ho⟩ := hp.ruleAt hr
  unfold Raw.evalCompareLeft
  refine At.deref hr ?_
  refine NP.evalInt hF (ho.compareLeft hτ) (by omega) (fun v h1 l1 => ?_)
  refine NP.intNode v (fun q hq => ?_)
  have l2 := l1.trans (Le.append h1 [.int v])
  obtain ⟨x', y', hr1⟩ := binary_up l2 hr
  obtain ⟨_, hm, ho1⟩ := (hp.up l2).ruleAt hr1
  refine NP.bind (NP.setLeft hr1 hq (fun _ _ _ _ hu => (ho1.compareLeft hτ).unique hu)) (fun _ _ _ => At.pure trivial)

omit hF in
/-- The list of rolls at `p`. -/
theorem asRRollList_at {h : Heap} {r : Ref} {ps : List Ptr} {t : Ptr} {f : List Ptr × Ptr → H σ β}
    {R : β → Heap → Prop} (hr : h[r]? = some (.rRollList ps t)) (hf : NP I h (f (ps, t)) R) :
    NP I h (Raw.asRRollList (some r) >>= f) R := by
  refine At.bind (Q := fun q h' => q = (ps, t) ∧ h' = h) (At.deref hr (At.pure ⟨rfl, rfl⟩)) ?_
  rintro _ _ _ ⟨rfl, rfl⟩
  exact hf

theorem NP.checkThreshold {h : Heap} {n d : Nat} {r : Ref} {ps : List Ptr} {t : Ptr} (msg : Str)
    (hr : h[r]? = some (.rRollList ps t)) (ht : ¬ IsAbsent h t → HasType h n t .integer) (hd : n ≤ d) :
    NP I h (Raw.checkThreshold E d msg (some r)) (fun _ _ => True) := by
  unfold Raw.checkThreshold
  refine asRRollList_at hr ?_
  refine At.threshold ht (fun q o hq ho hor => ?_)
  refine At.ite (fun _ => At.pure trivial) (fun hc => ?_)
  rcases hor with hn | ⟨hn, hi⟩
  · exact absurd hn hc
  · intro st hs
    have := NP.eval hF hi hasValue_integer hd st hs
    dsimp only
    rcases hx : Raw.eval E d t ⟨st, h⟩ with ⟨o, S⟩
    rw [hx] at this
    cases o with
    | ok v =>
      obtain ⟨h1, h2, x, rfl⟩ := this
      exact ⟨h1, h2, trivial⟩
    | err e => exact ⟨this.1, this.2.1, trivial⟩
    | panic x => exact this

omit hF in
theorem HasType.groupsList {h : Heap} {n : Nat} {p : Ptr} (hp : HasType h n p .groups) (hi : IsRolls h p) :
    ∃ m r ps t, n = m + 1 ∧ p = some r ∧ h[r]? = some (.rRollList ps t) ∧ (¬ IsAbsent h t → HasType h m t .integer) := by
  obtain ⟨r, o, rfl, hr, ho⟩ := hi
  obtain ⟨m, rfl, hrule⟩ := hp.ruleAt hr
  cases o <;> try cases ho
  · cases hrule.1
  · exact ⟨m, _, _, _, rfl, rfl, hr, hrule.2.1⟩
  · cases hrule.1

omit hF in
theorem HasType.uResultExpr {h : Heap} {n : Nat} {p : Ptr} (hp : HasType h n p .uResult) (hi : IsRolls h p) :
    ∃ m r list b, n = m + 1 ∧ p = some r ∧ h[r]? = some (.uRollExpr list b) ∧ HasType h m list .uList := by
  obtain ⟨r, o, rfl, hr, ho⟩ := hi
  obtain ⟨m, rfl, hrule⟩ := hp.ruleAt hr
  cases o <;> try cases ho
  · cases hrule.1
  · obtain ⟨-, -, h | h⟩ := hrule <;> cases h.1
  · exact ⟨m, _, _, _, rfl, rfl, hr, hrule.2.1⟩

omit hF in
theorem HasType.comparedInv {h : Heap} {n : Nat} {p : Ptr} {τ : Ty} (hp : HasType h n p (.compared τ)) :
    ∃ m r op x y, n = m + 1 ∧ p = some r ∧ h[r]? = some (.binary (.compare op) x y) ∧ IsRolls h x ∧
      HasType h m x τ ∧ HasType h m y .integer := by
  cases hp with
  | compared hr _ _ hi hx hy => exact ⟨_, _, _, _, _, rfl, rfl, hr, hi, hx, hy⟩
  | command _ _ hτ hτ' _ => simp [Ty.HasValue] at hτ hτ'

theorem NP.setRerollThreshold {h : Heap} {n d : Nat} {e : Ptr} (he : HasType h n e (.compared .groups)) (hd : n ≤ d) :
    NP I h (Raw.setRerollThreshold E d e) (fun _ _ => True) := by
  obtain ⟨m, r, op, x, y, rfl, rfl, hr, hi, hx, hy⟩ := he.comparedInv
  obtain ⟨m', rl, ps, t, rfl, rfl, hrl, ht⟩ := hx.groupsList hi
  unfold Raw.setRerollThreshold
  refine At.asBasicInfix hr ?_
  refine asRRollList_at hrl ?_
  refine At.threshold ht (fun q o hq ho hor => ?_)
  rcases hor with hn | ⟨hn, -⟩
  · rw [if_neg (by simp [hn])]
    refine NP.evalInt hF hy (by omega) (fun v h1 l1 => ?_)
    refine NP.intNode v (fun q hq => ?_)
    obtain ⟨t', hr'⟩ := rRollList_up (l1.trans (Le.append h1 [.int v])) hrl
    exact (NP.write (le_setThreshold hr' hq)).any
  · rw [if_pos (by simp [hn])]
    exact At.pure trivial

omit hF in
theorem NP.rolledDice {h : Heap} : NP I h (Raw.rolledDice : H σ _) (fun _ h' => h' = h) :=
  fun _ hs => ⟨Le.refl h, hs, rfl⟩

omit hF in
theorem NP.formatRRollValues (isPrint : Char → Bool) {h : Heap} {gs : List Value} (hg : Groups gs) :
    NP I h (Raw.formatRRollValues isPrint gs : H σ _) (fun _ _ => True) := by
  induction gs generalizing h with
  | nil => exact At.pure trivial
  | cons g gs ih =>
    obtain ⟨⟨vs, rfl, -⟩, hg'⟩ := hg.tail
    exact NP.bind (Q := fun _ _ => True) (At.pure trivial) (fun _ _ _ => NP.bind (ih hg') (fun _ _ _ => At.pure trivial))

omit hF in
theorem NP.formatUGroups (isPrint : Char → Bool) {h : Heap} {gs sums : List Value} (hg : Groups gs)
    (hl : sums.length = gs.length) : NP I h (Raw.formatUGroups isPrint gs sums : H σ _) (fun _ _ => True) := by
  induction gs generalizing h sums with
  | nil => exact At.pure trivial
  | cons g gs ih =>
    obtain ⟨⟨vs, rfl, -⟩, hg'⟩ := hg.tail
    cases sums with
    | nil => simp at hl
    | cons s sums =>
      exact NP.bind (Q := fun _ _ => True) (At.pure trivial) (fun _ _ _ =>
        NP.bind (ih hg' (by simpa using hl)) (fun _ _ _ => At.pure trivial))

omit hF in
theorem NP.formatURollExpr (isPrint : Char → Bool) {h : Heap} {gs : List Value} (hg : Groups gs) (m : Int64) :
    NP I h (Raw.formatURollExpr isPrint gs m : H σ _) (fun _ _ => True) := by
  unfold Raw.formatURollExpr
  refine At.bind (At.sumOfGroups hg) (fun sums h1 _ hs => ?_)
  exact NP.bind (NP.formatUGroups isPrint hg hs.2) (fun _ _ _ => At.pure trivial)

omit hF in
theorem maxLoop_numbers {vs : List Value} (h : Numbers vs) (acc : Int64) : ∃ s, Value.maxLoop acc vs = some s := by
  induction vs generalizing acc with
  | nil => exact ⟨_, rfl⟩
  | cons v vs ih =>
    obtain ⟨⟨x, rfl⟩, h'⟩ := h.tail
    exact ih h' _

omit hF in
theorem maxInteger_numbers {vs : List Value} (h : Numbers vs) : ∃ s, Value.maxInteger vs = some s := by
  cases vs with
  | nil => exact ⟨_, rfl⟩
  | cons v vs =>
    obtain ⟨⟨x, rfl⟩, h'⟩ := h.tail
    exact maxLoop_numbers h' _

omit hF in
theorem NP.formatMaxAndSum {h : Heap} {gs : List Value} (hg : Groups gs) (m : Int64) :
    NP I h (Raw.formatMaxAndSum gs m : H σ _) (fun _ _ => True) := by
  unfold Raw.formatMaxAndSum
  refine At.bind (At.sumOfGroups hg) (fun sums h1 _ hs => ?_)
  obtain ⟨a, ha⟩ := maxInteger_numbers hs.1
  obtain ⟨b, hb⟩ := sumLoop_numbers hs.1 0
  unfold Value.sumOfIntegers
  rw [ha, hb]
  exact At.pure trivial

/-! ## `Execute` -/

section
variable (isPrint : Char → Bool) (gameID : Str)

theorem NP.executeDRollExpr {h : Heap} {n d : Nat} {p : Ptr} {τ : Ty} (hp : HasType h n p τ) (hτ : τ.HasValue)
    (hd : n < d) : NP I h (Raw.executeDRollExpr isPrint E d gameID p) (fun _ _ => True) := by
  unfold Raw.executeDRollExpr
  refine NP.bind (NP.evalVarArgsAndShow hF hp hd) (fun _ h1 l1 => ?_)
  refine NP.bind (NP.determineValuesAndShow hF (hp.up l1) hd) (fun _ h2 l2 => ?_)
  refine NP.bind (NP.eval hF ((hp.up l1).up l2) hτ (by omega)) (fun _ h3 l3 => ?_)
  exact NP.bind NP.rolledDice (fun _ _ _ => At.pure trivial)

theorem NP.executeCalc {h : Heap} {n d : Nat} {p : Ptr} {τ : Ty} (hp : HasType h n p τ) (hτ : τ.HasValue)
    (hd : n < d) : NP I h (Raw.executeCalc isPrint E d gameID p) (fun _ _ => True) := by
  unfold Raw.executeCalc
  refine NP.bind (NP.infixNotation d true hp (by have := τ.extra_le; omega)) (fun _ h1 l1 => ?_)
  exact NP.bind (NP.eval hF (hp.up l1) hτ (by omega)) (fun _ _ _ => At.pure trivial)

theorem NP.executeChoice {h : Heap} {n d : Nat} {p : Ptr} (hp : HasType h n p .text)
    (hd : n < d) : NP I h (Raw.executeChoice E d gameID p) (fun _ _ => True) := by
  unfold Raw.executeChoice
  refine NP.bind (NP.infixNotation d true hp (by simp only [Ty.extra]; omega)) (fun _ h1 l1 => ?_)
  refine At.bind (NP.eval hF (hp.up l1) ⟨by simp, by simp, by simp⟩ (by omega)) ?_
  rintro _ h2 _ ⟨s, rfl⟩
  exact NP.bind NP.rolledDice (fun _ _ _ => At.pure trivial)

theorem NP.executeDRollComp {h : Heap} {n d : Nat} {ty : CommandType} {e : Ptr} {τ : Ty} (he : HasType h n e τ)
    (hτ : τ.HasValue) (hd : n < d) :
    NP I h (Raw.executeDRollComp isPrint E d gameID ty e) (fun _ _ => True) := by
  obtain ⟨m, r, o, rfl, rfl, hr, ho⟩ := he.rule
  unfold Raw.executeDRollComp
  refine At.deref hr (At.ite (fun hc => ?_) (fun _ => NP.fail))
  obtain ⟨k, x, y, rfl⟩ : ∃ k x y, o = .binary k x y := by
    cases o <;> simp [isCompare] at hc
    exact ⟨_, _, _, rfl⟩
  refine NP.bind (NP.evalVarArgsAndShow hF he hd) (fun _ h1 l1 => ?_)
  refine NP.bind (NP.determineValues hF d (he.up l1) (by omega)) (fun _ h2 l2 => ?_)
  have he2 := (he.up l1).up l2
  obtain ⟨x2, y2, hr2⟩ := binary_up (l1.trans l2) hr
  obtain ⟨_, hm, ho2⟩ := he2.ruleAt hr2
  cases hm
  refine At.bind (Q := fun q h' => q = x2 ∧ h' = h2) (At.deref hr2 (At.pure ⟨rfl, rfl⟩)) ?_
  rintro _ h2 _ ⟨rfl, rfl⟩
  refine NP.bind (NP.infixNotation d true (ho2.compareLeft hτ) (by simp only [Ty.extra]; omega)) (fun _ h3 l3 => ?_)
  obtain ⟨x3, y3, hr3⟩ := binary_up l3 hr2
  refine NP.bind (NP.evalCompareLeft hF (he2.up l3) hr3 hτ (by omega)) (fun _ h4 l4 => ?_)
  refine NP.bind (NP.eval hF ((he2.up l3).up l4) hτ (by omega)) (fun v h5 l5 => ?_)
  refine NP.bind NP.rolledDice (fun _ _ _ => ?_)
  cases v with
  | boolean b => exact At.pure trivial
  | _ => exact NP.fail

theorem NP.executeBRollList {h : Heap} {n d : Nat} {p : Ptr} (hp : HasType h n p .values)
    (hd : n < d) : NP I h (Raw.executeBRollList isPrint E d gameID p) (fun _ _ => True) := by
  unfold Raw.executeBRollList
  refine NP.bind (NP.evalVarArgsAndShow hF hp hd) (fun _ h1 l1 => ?_)
  refine At.bind (NP.eval hF (hp.up l1) ⟨by simp, by simp, by simp⟩ (by omega)) ?_
  rintro _ h2 _ ⟨vs, rfl, -⟩
  refine NP.bind (Q := fun _ _ => True) (At.pure trivial) (fun _ _ _ => ?_)
  exact NP.bind NP.rolledDice (fun _ _ _ => At.pure trivial)

theorem NP.executeBRollComp {h : Heap} {n d : Nat} {p e : Ptr} (hp : HasType h (n + 1) p .bSuccesses)
    (he : HasType h n e (.compared .values)) (hd : n + 1 < d) :
    NP I h (Raw.executeBRollComp isPrint E d gameID p e) (fun _ _ => True) := by
  obtain ⟨m, r, op, x, y, rfl, rfl, hr, hi, hx, hy⟩ := he.comparedInv
  unfold Raw.executeBRollComp
  refine At.asBasicInfix hr ?_
  refine NP.bind (NP.evalVarArgsAndShow hF he (by omega)) (fun _ h1 l1 => ?_)
  refine At.bind (NP.eval hF (hp.up l1) ⟨by simp, by simp, by simp⟩ (by omega)) ?_
  rintro _ h2 _ ⟨vs, k, rfl, -⟩
  exact NP.bind NP.rolledDice (fun _ _ _ => At.pure trivial)

theorem NP.executeRRollList {h : Heap} {n d : Nat} {r : Ref} {ps : List Ptr} {t : Ptr}
    (hp : HasType h n (some r) .groups) (hr : h[r]? = some (.rRollList ps t)) (hd : n < d) :
    NP I h (Raw.executeRRollList isPrint E d gameID (some r)) (fun _ _ => True) := by
  unfold Raw.executeRRollList
  refine NP.bind (NP.evalVarArgsAndShow hF hp hd) (fun _ h1 l1 => ?_)
  obtain ⟨t1, hr1⟩ := rRollList_up l1 hr
  obtain ⟨m, rfl, ho1⟩ := (hp.up l1).ruleAt hr1
  refine NP.bind (NP.checkThreshold hF _ hr1 ho1.2.1 (by omega)) (fun c h2 l2 => ?_)
  cases c with
  | some msg => exact At.pure trivial
  | none =>
    refine At.bind (NP.eval hF ((hp.up l1).up l2) ⟨by simp, by simp, by simp⟩ (by omega)) ?_
    rintro _ h3 _ ⟨gs, rfl, hg⟩
    refine At.bind (Q := fun a _ => a = gs) (At.pure rfl) ?_
    rintro _ _ _ rfl
    refine NP.bind NP.rolledDice (fun _ _ _ => ?_)
    exact NP.bind (NP.formatRRollValues isPrint hg) (fun _ _ _ => At.pure trivial)

theorem NP.executeRRollComp {h : Heap} {n d : Nat} {p e : Ptr} (hp : HasType h (n + 1) p .rSuccesses)
    (he : HasType h n e (.compared .groups)) (hd : n + 1 < d) :
    NP I h (Raw.executeRRollComp isPrint E d gameID p e) (fun _ _ => True) := by
  obtain ⟨m, r, op, x, y, rfl, rfl, hr, hi, hx, hy⟩ := he.comparedInv
  unfold Raw.executeRRollComp
  refine At.asBasicInfix hr ?_
  refine NP.bind (NP.evalVarArgs hF d he (by omega)) (fun _ h1 l1 => ?_)
  refine NP.bind (NP.setRerollThreshold hF (he.up l1) (by omega)) (fun _ h2 l2 => ?_)
  refine NP.bind (NP.infixNotation d true ((hp.up l1).up l2) (by simp only [Ty.extra]; omega)) (fun _ h3 l3 => ?_)
  have he3 := ((he.up l1).up l2).up l3
  have hp3 := ((hp.up l1).up l2).up l3
  obtain ⟨m3, r3, op3, x3, y3, hm3, e3, hr3, hi3, hx3, hy3⟩ := he3.comparedInv
  cases e3
  refine At.bind (Q := fun q h' => q = x3 ∧ h' = h3) (At.deref hr3 (At.pure ⟨rfl, rfl⟩)) ?_
  rintro _ h3 _ ⟨rfl, rfl⟩
  obtain ⟨m', rl, ps, t, rfl, rfl, hrl, ht⟩ := hx3.groupsList hi3
  refine NP.bind (NP.checkThreshold hF _ hrl ht (by omega)) (fun c h4 l4 => ?_)
  cases c with
  | some msg => exact At.pure trivial
  | none =>
    refine At.bind (NP.eval hF (hp3.up l4) ⟨by simp, by simp, by simp⟩ (by omega)) ?_
    rintro _ h3 _ ⟨gs, k, rfl, hg⟩
    refine NP.bind NP.rolledDice (fun _ _ _ => ?_)
    exact NP.bind (NP.formatRRollValues isPrint hg) (fun _ _ _ => At.pure trivial)

theorem NP.executeURollExpr {h : Heap} {n d : Nat} {p list : Ptr}
    (hp : HasType h (n + 1) p .uResult) (hl : HasType h n list .uList) (hd : n + 1 < d) :
    NP I h (Raw.executeURollExpr isPrint E d gameID p list) (fun _ _ => True) := by
  unfold Raw.executeURollExpr
  refine NP.bind (NP.evalVarArgsAndShow hF hp hd) (fun _ h1 l1 => ?_)
  obtain ⟨m, r, ps, t, rfl, rfl, hr, -, ht⟩ := (hl.up l1).uList_inv
  refine NP.bind (NP.checkThreshold hF _ hr ht (by omega)) (fun c h2 l2 => ?_)
  cases c with
  | some msg => exact At.pure trivial
  | none =>
    refine At.bind (NP.eval hF ((hp.up l1).up l2) ⟨by simp, by simp, by simp⟩ (by omega)) ?_
    rintro _ h3 _ ⟨gs, k, rfl, hg⟩
    refine NP.bind NP.rolledDice (fun _ _ _ => ?_)
    refine NP.bind (NP.formatURollExpr isPrint hg _) (fun _ _ _ => ?_)
    exact NP.bind (NP.formatMaxAndSum hg _) (fun _ _ _ => At.pure trivial)

theorem NP.executeURollComp {h : Heap} {n d : Nat} {p e : Ptr} (hp : HasType h (n + 1) p .uSuccesses)
    (he : HasType h n e (.compared .uResult)) (hd : n + 1 < d) :
    NP I h (Raw.executeURollComp isPrint E d gameID p e) (fun _ _ => True) := by
  obtain ⟨m, r, op, x, y, rfl, rfl, hr, hi, hx, hy⟩ := he.comparedInv
  unfold Raw.executeURollComp
  refine At.asBasicInfix hr ?_
  refine NP.bind (NP.evalVarArgs hF d he (by omega)) (fun _ h1 l1 => ?_)
  refine NP.bind (NP.infixNotation d true (hp.up l1) (by simp only [Ty.extra]; omega)) (fun _ h3 l3 => ?_)
  have he3 := (he.up l1).up l3
  have hp3 := (hp.up l1).up l3
  obtain ⟨m3, r3, op3, x3, y3, hm3, e3, hr3, hi3, hx3, hy3⟩ := he3.comparedInv
  cases e3
  refine At.bind (Q := fun q h' => q = x3 ∧ h' = h3) (At.deref hr3 (At.pure ⟨rfl, rfl⟩)) ?_
  rintro _ h3 _ ⟨rfl, rfl⟩
  obtain ⟨m', ru, list, b, rfl, rfl, hru, hl⟩ := hx3.uResultExpr hi3
  refine At.bind (Q := fun q h' => q = list ∧ h' = h3) (At.deref hru (At.pure ⟨rfl, rfl⟩)) ?_
  rintro _ h3 _ ⟨rfl, rfl⟩
  obtain ⟨m, rl, ps, t, rfl, rfl, hrl, -, ht⟩ := hl.uList_inv
  refine NP.bind (NP.checkThreshold hF _ hrl ht (by omega)) (fun c h4 l4 => ?_)
  cases c with
  | some msg => exact At.pure trivial
  | none =>
    refine At.bind (NP.eval hF (hp3.up l4) ⟨by simp, by simp, by simp⟩ (by omega)) ?_
    rintro _ h3 _ ⟨gs, k, w, rfl, hg⟩
    refine NP.bind NP.rolledDice (fun _ _ _ => ?_)
    exact NP.bind (NP.formatURollExpr isPrint hg _) (fun _ _ _ => At.pure trivial)

/-- `Execute` on a node that makes sense and has a value. -/
theorem NP.execute {h : Heap} {n d : Nat} {p : Ptr} {τ : Ty} (hp : HasType h n p τ) (hτ : τ.HasValue) (hd : n < d) :
    NP I h (Raw.execute isPrint E d gameID p) (fun _ _ => True) := by
  obtain ⟨m, r, o, rfl, rfl, hr, ho⟩ := hp.rule
  unfold Raw.execute
  refine At.deref hr ?_
  cases o with
  | bRollList ps =>
    obtain ⟨rfl, -⟩ := ho
    exact NP.executeBRollList hF isPrint gameID hp hd
  | rRollList ps t =>
    obtain ⟨-, -, ⟨rfl, -⟩ | ⟨rfl, -⟩⟩ := ho
    · exact NP.executeRRollList hF isPrint gameID hp hr hd
    · exact absurd rfl hτ.2.1
  | uRollExpr list b =>
    obtain ⟨rfl, hl, -⟩ := ho
    exact NP.executeURollExpr hF isPrint gameID hp hl hd
  | choice items =>
    obtain ⟨rfl, -⟩ := ho
    exact NP.executeChoice hF gameID hp hd
  | command ty e =>
    rcases ho with ⟨hty, h2, h3, he⟩ | ⟨rfl, rfl, he⟩ | ⟨rfl, rfl, he⟩ | ⟨rfl, rfl, he⟩
    · rcases hty with rfl | rfl | rfl
      · exact NP.executeCalc hF isPrint gameID hp hτ hd
      · exact NP.executeDRollExpr hF isPrint gameID hp hτ hd
      · exact NP.executeDRollComp hF isPrint gameID he hτ (by omega)
    · exact NP.executeBRollComp hF isPrint gameID hp he hd
    · exact NP.executeRRollComp hF isPrint gameID hp he hd
    · exact NP.executeURollComp hF isPrint gameID hp he hd
  | _ => exact NP.fail

end

end

end GoBCDice.Raw
