import Verif.Lemmas.TypedWrite
import Verif.RawNotation

/-! # Texts of nodes that make sense -/

namespace GoBCDice.Raw

variable {σ α β : Type} {I : σ → Prop}

/-- Any error may be returned. -/
abbrev AnyErr : Str → Prop := fun _ => True

/-- What is shown about a computation, errors aside. -/
abbrev NP (I : σ → Prop) (h : Heap) (m : H σ α) (Q : α → Heap → Prop) : Prop := At I AnyErr h m Q

theorem NP.fail {h : Heap} {e : Str} {Q : α → Heap → Prop} : NP I h (H.fail e : H σ α) Q := At.fail trivial

theorem NP.any {h : Heap} {m : H σ α} {Q : α → Heap → Prop} (hm : NP I h m Q) : NP I h m (fun _ _ => True) :=
  hm.mono (fun _ _ _ _ => trivial)

theorem NP.bind {h : Heap} {m : H σ α} {f : α → H σ β} {Q : α → Heap → Prop} {R : β → Heap → Prop}
    (hm : NP I h m Q) (hf : ∀ a h', Le h h' → NP I h' (f a) R) : NP I h (m >>= f) R :=
  At.bind hm (fun a h' l _ => hf a h' l)

/-- What is shown about a computation that returns no error. -/
abbrev TX (I : σ → Prop) (h : Heap) (m : H σ α) (Q : α → Heap → Prop) : Prop := At I (fun _ => False) h m Q

theorem TX.bind {h : Heap} {m : H σ α} {f : α → H σ β} {Q : α → Heap → Prop} {R : β → Heap → Prop}
    (hm : TX I h m Q) (hf : ∀ a h', Le h h' → TX I h' (f a) R) : TX I h (m >>= f) R :=
  At.bind hm (fun a h' l _ => hf a h' l)

theorem TX.np {h : Heap} {m : H σ α} {Q : α → Heap → Prop} (hm : TX I h m Q) : NP I h m Q := by
  intro st hs
  have := hm st hs
  rcases hx : m ⟨st, h⟩ with ⟨o, S⟩
  rw [hx] at this
  cases o with
  | ok a => exact this
  | err e => exact this.2.2.elim
  | panic x => exact this

/-- The levels that displaying a U roll with its bonus needs in addition. -/
def Ty.extra : Ty → Nat
  | .uResult => 1
  | .compared _ => 1
  | .bSuccesses => 1
  | .rSuccesses => 1
  | .uSuccesses => 1
  | .text => 1
  | _ => 0

/-- The recursive calls are known not to panic. -/
def GoOK (I : σ → Prop) (go : Bool → Ptr → H σ Str) (d : Nat) : Prop :=
  ∀ {h n p τ} (wl : Bool), HasType h n p τ → n + τ.extra ≤ d → TX I h (go wl p) (fun _ _ => True)

variable {go : Bool → Ptr → H σ Str} {d : Nat}

theorem TX.notations (hgo : GoOK I go d) {h : Heap} {n : Nat} {ps : List Ptr} {τ : Ty}
    (hps : ∀ p ∈ ps, HasType h n p τ) (hd : n + τ.extra ≤ d) : TX I h (notations go ps) (fun _ _ => True) := by
  induction ps generalizing h with
  | nil => exact At.pure trivial
  | cons p ps ih =>
    refine TX.bind (hgo true (hps p (by simp)) hd) (fun s h1 l1 => ?_)
    refine TX.bind (ih (fun q hq => (hps q (by simp [hq])).up l1)) (fun ss h2 l2 => At.pure trivial)

theorem TX.prefixNotation (hgo : GoOK I go d) {h : Heap} {n : Nat} {p : Ptr} (hp : HasType h n p .integer)
    (hd : n ≤ d) (wl : Bool) : TX I h (Raw.prefixNotation go wl p) (fun _ _ => True) := by
  obtain ⟨m, r, o, rfl, rfl, hr, ho⟩ := hp.rule
  unfold Raw.prefixNotation
  refine At.deref hr (At.ite (fun _ => ?_) (fun _ => ?_))
  · exact TX.bind (hgo wl hp hd) (fun s h1 l1 => At.pure trivial)
  · exact TX.bind (hgo true hp hd) (fun s h1 l1 => At.pure trivial)

theorem TX.childNotation (hgo : GoOK I go d) {h : Heap} {n : Nat} {p : Ptr} {τ : Ty} (hp : HasType h n p τ)
    (hd : n + τ.extra ≤ d) (k : InfixKind) (assoc wl : Bool) :
    TX I h (Raw.childNotation go k p assoc wl) (fun _ _ => True) := by
  obtain ⟨m, r, o, rfl, rfl, hr, ho⟩ := hp.rule
  unfold Raw.childNotation
  refine At.deref hr ?_
  cases o with
  | unary x => exact TX.bind (hgo wl hp hd) (fun s h1 l1 => At.pure trivial)
  | binary c x y =>
    refine At.ite (fun _ => ?_) (fun _ => hgo wl hp hd)
    exact TX.bind (hgo true hp hd) (fun s h1 l1 => At.pure trivial)
  | _ => exact hgo wl hp hd

theorem TX.childrenNotations (hgo : GoOK I go d) {h : Heap} {n : Nat} {x y : Ptr} {τ : Ty} (hx : HasType h n x τ)
    (hy : HasType h n y .integer) (hd : n + τ.extra ≤ d) (k : InfixKind) (wl : Bool) :
    TX I h (Raw.childrenNotations go k x y wl) (fun _ _ => True) := by
  obtain ⟨m, r, o, rfl, rfl, hr, ho⟩ := hx.rule
  unfold Raw.childrenNotations
  refine At.deref hr ?_
  have tail : ∀ (ls : Str) h1, Le h h1 → TX I h1 (do
      let rs ← Raw.childNotation go k y k.rightAssoc false
      Pure.pure (ls, rs)) (fun _ _ => True) := fun ls h1 l1 =>
    TX.bind (TX.childNotation hgo (hy.up l1) (by simp only [Ty.extra]; omega) _ _ _)
      (fun rs h2 l2 => At.pure trivial)
  cases o with
  | unary right =>
    refine At.ite (fun _ => ?_) (fun _ => TX.bind (TX.childNotation hgo hx hd _ _ _) tail)
    exact TX.bind (TX.prefixNotation hgo ho.2 (by omega) wl) tail
  | _ => exact TX.bind (TX.childNotation hgo hx hd _ _ _) tail

theorem TX.rRollListNotation (hgo : GoOK I go d) {h : Heap} {n : Nat} {ps : List Ptr} {t : Ptr} {τ : Ty}
    (hps : ∀ p ∈ ps, HasType h n p τ) (hτ : τ.extra = 0) (ht : ¬ IsAbsent h t → HasType h n t .integer)
    (hd : n ≤ d) : TX I h (Raw.rRollListNotation go ps t) (fun _ _ => True) := by
  unfold Raw.rRollListNotation
  refine At.bind (Q := fun _ h' => ¬ IsAbsent h' t → HasType h' n t .integer) ?_ ?_
  · refine (TX.notations hgo hps (by omega)).mono ?_
    intro _ h' l _ hn
    exact (ht (fun ha => hn (ha.same l.2))).up l
  · intro ss h1 l1 ht1
    refine At.threshold ht1 (fun r o hr ho hor => ?_)
    rcases hor with hn | ⟨hn, hi⟩
    · rw [if_pos hn]; exact At.pure trivial
    · rw [if_neg (by simp [hn])]
      exact TX.bind (hgo true hi (by simp only [Ty.extra]; omega)) (fun s h2 l2 => At.pure trivial)

theorem TX.itemValues {h : Heap} {items : List Ptr} (hi : ∀ p ∈ items, IsString h p) :
    TX I h (Raw.itemValues items : H σ _) (fun _ _ => True) := by
  induction items with
  | nil => exact At.pure trivial
  | cons p ps ih =>
    obtain ⟨r, s, rfl, hr⟩ := hi p (by simp)
    unfold Raw.itemValues
    refine At.deref hr ?_
    exact TX.bind (ih (fun q hq => hi q (by simp [hq]))) (fun _ _ _ => At.pure trivial)

/-- The copy of the bonus with another left operand. -/
theorem TX.copy {h : Heap} {k : InfixKind} {l y new : Ptr} {f : Ptr → H σ α} {Q : α → Heap → Prop}
    (hf : TX I (h ++ [.binary k new y]) (f (some h.length)) Q) :
    TX I h (do let c ← alloc (.binary k l y); setLeft c new; f c) Q := by
  intro st hi
  have : (do let c ← alloc (.binary k l y); setLeft c new; f c : H σ α) ⟨st, h⟩
      = f (some h.length) ⟨st, h ++ [.binary k new y]⟩ := by
    show H.bnd _ _ _ = _
    simp only [H.bnd, alloc]
    show H.bnd (setLeft (some h.length) new) _ _ = _
    have h1 : (setLeft (some h.length) new : H σ Unit) ⟨st, h ++ [.binary k l y]⟩ =
        (.ok (), ⟨st, h ++ [.binary k new y]⟩) := by
      show H.bnd (Raw.deref _) _ _ = _
      simp only [H.bnd, Raw.deref]
      simp [write]
    simp only [H.bnd, h1]
  rw [this]
  have := hf st hi
  exact ⟨(Le.append _ _).trans this.1, this.2⟩

/-- The notation of an infix node, its operands having one. -/
theorem TX.infixStep (hgo : GoOK I go d) {h : Heap} {n : Nat} {r : Ref} {k : InfixKind} {x y : Ptr} {τ : Ty}
    (hr : h[r]? = some (.binary k x y)) (hx : HasType h n x τ) (hy : HasType h n y .integer)
    (hd : n + τ.extra ≤ d) (wl : Bool) : TX I h (notationStep go wl (some r)) (fun _ _ => True) := by
  unfold notationStep
  refine At.deref hr ?_
  cases k with
  | div m => exact TX.bind (TX.childrenNotations hgo hx hy hd _ _) (fun _ _ _ => At.pure trivial)
  | compare op =>
    refine TX.bind (hgo true hx hd) (fun _ h1 l1 => ?_)
    exact TX.bind (hgo true (hy.up l1) (by simp only [Ty.extra]; omega)) (fun _ _ _ => At.pure trivial)
  | _ => exact TX.bind (TX.childrenNotations hgo hx hy hd _ _) (fun _ _ _ => At.pure trivial)

/-- `InfixNotation` on a node that makes sense. -/
theorem TX.infixNotation (d : Nat) : GoOK I (Raw.infixNotation d : Bool → Ptr → H σ Str) d := by
  induction d using Nat.strongRecOn with
  | _ D IH =>
    intro h n p τ wl hp hd
    obtain ⟨d, rfl⟩ : ∃ d, D = d + 1 := ⟨D - 1, by have := hp.pos; omega⟩
    have ih : GoOK I (Raw.infixNotation d : Bool → Ptr → H σ Str) d := IH d (by omega)
    obtain ⟨m, r, o, rfl, rfl, hr, ho⟩ := hp.rule
    clear hp
    unfold Raw.infixNotation
    cases o with
    | int v => exact At.deref hr (At.pure trivial)
    | sumRoll ds => exact At.deref hr (At.pure trivial)
    | unary x =>
      obtain ⟨rfl, hx⟩ := ho
      exact At.deref hr (TX.prefixNotation ih hx (by omega) wl)
    | binary k x y =>
      obtain ⟨hy, ⟨rfl, hk, hx⟩ | ⟨rfl, hk, hx⟩ | ⟨rfl, hk, hx⟩ | ⟨rfl, rfl, hx⟩ | ⟨op, ρ, rfl, rfl, ho, hρ, hi, hx⟩⟩ := ho
      · exact TX.infixStep ih hr hx hy (by simp only [Ty.extra] at hd ⊢; omega) wl
      · exact TX.infixStep ih hr hx hy (by simp only [Ty.extra] at hd ⊢; omega) wl
      · exact TX.infixStep ih hr hx hy (by simp only [Ty.extra] at hd ⊢; omega) wl
      · exact TX.infixStep ih hr hx hy (by simp only [Ty.extra] at hd ⊢; omega) wl
      · exact TX.infixStep ih hr hx hy (by
          rcases hρ with rfl | rfl | rfl <;> simp only [Ty.extra] at hd ⊢ <;> omega) wl
    | bRollList ps =>
      obtain ⟨rfl, hp⟩ := ho
      exact At.deref hr (TX.bind (TX.notations ih hp (by simp only [Ty.extra] at hd ⊢; omega))
        (fun _ _ _ => At.pure trivial))
    | rRollList ps t =>
      obtain ⟨hn, ht, ⟨rfl, hp⟩ | ⟨rfl, hp⟩⟩ := ho
      · exact At.deref hr (TX.rRollListNotation ih hp rfl ht (by omega))
      · exact At.deref hr (TX.rRollListNotation ih hp rfl ht (by omega))
    | uRollExpr list bonus =>
      obtain ⟨rfl, hl, hb, hb'⟩ := ho
      refine At.deref hr ?_
      show TX I h (Raw.uRollExprNotation _ list bonus) _
      unfold Raw.uRollExprNotation
      simp only [Ty.extra] at hd
      refine At.ite (fun _ => ih true hl (by simp only [Ty.extra]; omega)) (fun hn => ?_)
      obtain ⟨rb, k, x, y, rfl, hrb, hk⟩ := hb hn
      obtain ⟨m', rfl, hrule⟩ := (hb' hn).ruleAt hrb
      refine At.deref hrb ?_
      show TX I h (if k.isBasicInfix = true then _ else _) _
      rw [if_pos hk]
      refine TX.copy ?_
      obtain ⟨d, rfl⟩ : ∃ d', d = d' + 1 := ⟨d - 1, by omega⟩
      have hgo : GoOK I (Raw.infixNotation d : Bool → Ptr → H σ Str) d := IH d (by omega)
      exact TX.infixStep hgo (k := k) (x := list) (y := y) (by simp) hl.append (hrule.1.deeper (by omega)).append
        (by simp only [Ty.extra]; omega) true
    | choice items =>
      obtain ⟨rfl, hi, hl⟩ := ho
      exact At.deref hr (TX.bind (TX.itemValues hi) (fun _ _ _ => At.pure trivial))
    | command ty e =>
      have key : ∀ ρ, HasType h m e ρ → m + ρ.extra ≤ d →
          TX I h (notationStep (Raw.infixNotation d) wl (some r)) (fun _ _ => True) := by
        intro ρ he hd
        refine At.deref hr ?_
        cases ty with
        | «calc» => exact TX.bind (ih true he hd) (fun _ _ _ => At.pure trivial)
        | _ => exact ih wl he hd
      rcases ho with ⟨-, -, -, he⟩ | ⟨rfl, -, he⟩ | ⟨rfl, -, he⟩ | ⟨rfl, -, he⟩
      · exact key _ he (by omega)
      all_goals exact key _ he (by simp only [Ty.extra] at hd ⊢; omega)
    | string s => cases ho
    | nilNode => cases ho

/-! ## S-expressions -/

section
variable {isPrint : Char → Bool}

/-- The recursive calls are known not to panic. -/
def SOK (I : σ → Prop) (go : Ptr → H σ Str) (d : Nat) : Prop :=
  ∀ {h n p τ}, HasType h n p τ → n + τ.extra ≤ d → TX I h (go p) (fun _ _ => True)

variable {go : Ptr → H σ Str}

theorem TX.sexps {h : Heap} {ps : List Ptr} (hps : ∀ p ∈ ps, ∀ h', Le h h' → TX I h' (go p) (fun _ _ => True)) :
    TX I h (Raw.sexps go ps) (fun _ _ => True) := by
  induction ps generalizing h with
  | nil => exact At.pure trivial
  | cons p ps ih =>
    refine TX.bind (hps p (by simp) h (Le.refl h)) (fun s h1 l1 => ?_)
    refine TX.bind (ih (fun q hq h' l' => hps q (by simp [hq]) h' (l1.trans l'))) (fun ss h2 l2 => At.pure trivial)

theorem TX.operandSExp (hgo : SOK I go d) {h : Heap} {n : Nat} {p : Ptr} {τ : Ty} (hp : HasType h n p τ)
    (hd : n + τ.extra ≤ d) : TX I h (Raw.operandSExp go p) (fun _ _ => True) := by
  unfold Raw.operandSExp
  rw [if_neg hp.ne_none]
  exact hgo hp hd

theorem TX.infixSExp (hgo : SOK I go d) {h : Heap} {n : Nat} {r : Ref} {k : InfixKind} {x y : Ptr} {τ : Ty}
    (hr : h[r]? = some (.binary k x y)) (hx : HasType h n x τ) (hy : HasType h n y .integer)
    (hd : n + τ.extra ≤ d) : TX I h (sexpStep isPrint go (some r)) (fun _ _ => True) := by
  unfold sexpStep
  refine At.deref hr ?_
  refine TX.bind (TX.operandSExp hgo hx hd) (fun _ h1 l1 => ?_)
  exact TX.bind (TX.operandSExp hgo (hy.up l1) (by simp only [Ty.extra]; omega)) (fun _ _ _ => At.pure trivial)

/-- `SExp` on a node that makes sense. -/
theorem TX.sexp (d : Nat) : SOK I (Raw.sexp isPrint d : Ptr → H σ Str) d := by
  induction d using Nat.strongRecOn with
  | _ D IH =>
    intro h n p τ hp hd
    obtain ⟨d, rfl⟩ : ∃ d, D = d + 1 := ⟨D - 1, by have := hp.pos; omega⟩
    have ih : SOK I (Raw.sexp isPrint d : Ptr → H σ Str) d := IH d (by omega)
    obtain ⟨m, r, o, rfl, rfl, hr, ho⟩ := hp.rule
    clear hp
    unfold Raw.sexp
    cases o with
    | int v => exact At.deref hr (At.pure trivial)
    | sumRoll ds => exact At.deref hr (At.pure trivial)
    | unary x =>
      obtain ⟨rfl, hx⟩ := ho
      exact At.deref hr (TX.bind (TX.operandSExp ih hx (by simp only [Ty.extra]; omega)) (fun _ _ _ => At.pure trivial))
    | binary k x y =>
      obtain ⟨hy, ⟨rfl, hk, hx⟩ | ⟨rfl, hk, hx⟩ | ⟨rfl, hk, hx⟩ | ⟨rfl, rfl, hx⟩ | ⟨op, ρ, rfl, rfl, ho, hρ, hi, hx⟩⟩ := ho
      · exact TX.infixSExp ih hr hx hy (by simp only [Ty.extra] at hd ⊢; omega)
      · exact TX.infixSExp ih hr hx hy (by simp only [Ty.extra] at hd ⊢; omega)
      · exact TX.infixSExp ih hr hx hy (by simp only [Ty.extra] at hd ⊢; omega)
      · exact TX.infixSExp ih hr hx hy (by simp only [Ty.extra] at hd ⊢; omega)
      · exact TX.infixSExp ih hr hx hy (by
          rcases hρ with rfl | rfl | rfl <;> simp only [Ty.extra] at hd ⊢ <;> omega)
    | bRollList ps =>
      obtain ⟨rfl, hp⟩ := ho
      exact At.deref hr (TX.bind (TX.sexps (fun p h h' l => ih ((hp p h).up l) (by simp only [Ty.extra] at hd ⊢; omega)))
        (fun _ _ _ => At.pure trivial))
    | rRollList ps t =>
      obtain ⟨hn, ht, hps⟩ := ho
      refine At.deref hr ?_
      refine TX.bind (TX.sexps (go := Raw.sexp isPrint d) ?_) (fun _ h1 l1 => ?_)
      · rcases hps with ⟨rfl, hp⟩ | ⟨rfl, hp⟩
        · exact fun p h h' l => ih ((hp p h).up l) (by simp only [Ty.extra] at hd ⊢; omega)
        · exact fun p h h' l => ih ((hp p h).up l) (by simp only [Ty.extra] at hd ⊢; omega)
      · refine TX.bind (Q := fun _ _ => True) ?_ (fun _ _ _ => At.pure trivial)
        by_cases ha : IsAbsent h t
        · obtain ⟨q, rfl, hq⟩ := ha.same l1.2
          obtain ⟨d, rfl⟩ : ∃ d', d = d' + 1 := ⟨d - 1, by omega⟩
          exact At.deref hq (At.pure trivial)
        · exact ih ((ht ha).up l1) (by simp only [Ty.extra]; omega)
    | uRollExpr list bonus =>
      obtain ⟨rfl, hl, hb, hb'⟩ := ho
      refine At.deref hr ?_
      show TX I h (Raw.uRollExprSExp _ list bonus) _
      unfold Raw.uRollExprSExp
      simp only [Ty.extra] at hd
      refine At.ite (fun _ => TX.bind (ih hl (by simp only [Ty.extra]; omega)) (fun _ _ _ => At.pure trivial)) (fun hn => ?_)
      obtain ⟨rb, k, x, y, rfl, hrb, hk⟩ := hb hn
      obtain ⟨m', rfl, hrule⟩ := (hb' hn).ruleAt hrb
      refine At.deref hrb ?_
      show TX I h (if k.isBasicInfix = true then _ else _) _
      rw [if_pos hk]
      refine TX.copy ?_
      obtain ⟨d, rfl⟩ : ∃ d', d = d' + 1 := ⟨d - 1, by omega⟩
      have hgo : SOK I (Raw.sexp isPrint d : Ptr → H σ Str) d := IH d (by omega)
      refine TX.bind (Q := fun _ _ => True) ?_ (fun _ _ _ => At.pure trivial)
      exact TX.infixSExp hgo (k := k) (x := list) (y := y) (by simp) hl.append (hrule.1.deeper (by omega)).append
        (by simp only [Ty.extra]; omega)
    | choice items =>
      obtain ⟨rfl, hi, hl⟩ := ho
      refine At.deref hr (TX.bind (TX.sexps ?_) (fun _ _ _ => At.pure trivial))
      intro p hp h' l
      obtain ⟨q, s, rfl, hq⟩ := (hi p hp).same l.2
      obtain ⟨d, rfl⟩ : ∃ d', d = d' + 1 := ⟨d - 1, by simp only [Ty.extra] at hd; omega⟩
      exact At.deref hq (At.pure trivial)
    | command ty e =>
      have key : ∀ ρ, HasType h m e ρ → m + ρ.extra ≤ d →
          TX I h (sexpStep isPrint (Raw.sexp isPrint d) (some r)) (fun _ _ => True) := by
        intro ρ he hd
        exact At.deref hr (TX.bind (ih he hd) (fun _ _ _ => At.pure trivial))
      rcases ho with ⟨-, -, -, he⟩ | ⟨rfl, -, he⟩ | ⟨rfl, -, he⟩ | ⟨rfl, -, he⟩
      · exact key _ he (by omega)
      all_goals exact key _ he (by simp only [Ty.extra] at hd ⊢; omega)
    | string s => cases ho
    | nilNode => cases ho

end

theorem NP.infixNotation {h : Heap} {n : Nat} {p : Ptr} {τ : Ty} (d : Nat) (wl : Bool) (hp : HasType h n p τ)
    (hd : n + τ.extra ≤ d) : NP I h (Raw.infixNotation d wl p : H σ Str) (fun _ _ => True) :=
  (TX.infixNotation d wl hp hd).np

/-! ## No allocation of slices -/

/-- The computation does not panic for want of memory. -/
def Tame (m : H σ α) : Prop := ∀ S, (m S).1 ≠ .panic makePanicMsg

theorem Tame.pure {a : α} : Tame (Pure.pure a : H σ α) := fun _ h => by cases h

theorem Tame.fail {e : Str} : Tame (H.fail e : H σ α) := fun _ h => by cases h

theorem Tame.crash {x : Str} (hx : x ≠ makePanicMsg) : Tame (H.crash x : H σ α) := by
  intro S h
  cases h
  exact hx rfl

theorem Tame.bind {m : H σ α} {f : α → H σ β} (hm : Tame m) (hf : ∀ a, Tame (f a)) : Tame (m >>= f) := by
  intro S
  show (H.bnd m f S).1 ≠ _
  unfold H.bnd
  have h1 := hm S
  rcases hx : m S with ⟨o, S'⟩
  rw [hx] at h1
  cases o with
  | ok a => exact hf a S'
  | err e => intro h; cases h
  | panic x => intro h; cases h; exact h1 rfl

theorem Tame.deref (p : Ptr) : Tame (Raw.deref p : H σ Obj) := by
  intro S h
  unfold Raw.deref at h
  cases p with
  | none => revert h; simp [nilDereference, makePanicMsg]
  | some r =>
    simp only at h
    cases hr : S.heap[r]? with
    | none => rw [hr] at h; revert h; simp [nilDereference, makePanicMsg]
    | some o => rw [hr] at h; cases h

theorem Tame.ite {c : Prop} [Decidable c] {x y : H σ α} (hx : Tame x) (hy : Tame y) : Tame (if c then x else y) := by
  by_cases hc : c
  · rw [if_pos hc]; exact hx
  · rw [if_neg hc]; exact hy

theorem Tame.conversion : Tame (H.crash interfaceConversion : H σ α) :=
  Tame.crash (by simp [interfaceConversion, makePanicMsg])

theorem Tame.alloc (o : Obj) : Tame (Raw.alloc o : H σ Ptr) := fun _ h => by cases h

theorem Tame.setLeft (p q : Ptr) : Tame (Raw.setLeft p q : H σ Unit) := by
  unfold Raw.setLeft
  refine Tame.bind (Tame.deref p) (fun o => ?_)
  cases o with
  | binary k l r =>
    intro S h
    cases p with
    | none => revert h; simp [write, nilDereference, makePanicMsg]
    | some r => cases h
  | _ => exact Tame.conversion

theorem Tame.notations {go : Bool → Ptr → H σ Str} (hgo : ∀ wl p, Tame (go wl p)) (ps : List Ptr) :
    Tame (Raw.notations go ps) := by
  induction ps with
  | nil => exact Tame.pure
  | cons p ps ih => exact Tame.bind (hgo _ _) (fun _ => Tame.bind ih (fun _ => Tame.pure))

theorem Tame.itemValues (ps : List Ptr) : Tame (Raw.itemValues ps : H σ _) := by
  induction ps with
  | nil => exact Tame.pure
  | cons p ps ih =>
    refine Tame.bind (Tame.deref p) (fun o => ?_)
    cases o with
    | string s => exact Tame.bind ih (fun _ => Tame.pure)
    | _ => exact Tame.conversion

theorem Tame.prefixNotation {go : Bool → Ptr → H σ Str} (hgo : ∀ wl p, Tame (go wl p)) (wl : Bool) (p : Ptr) :
    Tame (Raw.prefixNotation go wl p) :=
  Tame.bind (Tame.deref p) (fun _ => Tame.ite (Tame.bind (hgo _ _) (fun _ => Tame.pure))
    (Tame.bind (hgo _ _) (fun _ => Tame.pure)))

theorem Tame.childNotation {go : Bool → Ptr → H σ Str} (hgo : ∀ wl p, Tame (go wl p)) (k : InfixKind) (p : Ptr)
    (a wl : Bool) : Tame (Raw.childNotation go k p a wl) := by
  refine Tame.bind (Tame.deref p) (fun o => ?_)
  cases o with
  | unary x => exact Tame.bind (hgo _ _) (fun _ => Tame.pure)
  | binary k x y => exact Tame.ite (Tame.bind (hgo _ _) (fun _ => Tame.pure)) (hgo _ _)
  | _ => exact hgo _ _

theorem Tame.childrenNotations {go : Bool → Ptr → H σ Str} (hgo : ∀ wl p, Tame (go wl p)) (k : InfixKind) (x y : Ptr)
    (wl : Bool) : Tame (Raw.childrenNotations go k x y wl) := by
  unfold Raw.childrenNotations
  refine Tame.bind (Tame.deref x) (fun o => ?_)
  have tail : ∀ ls : Str, Tame (do
      let rs ← Raw.childNotation go k y k.rightAssoc false
      Pure.pure (ls, rs)) := fun ls => Tame.bind (Tame.childNotation hgo _ _ _ _) (fun _ => Tame.pure)
  cases o with
  | unary right =>
    exact Tame.ite (Tame.bind (Tame.prefixNotation hgo _ _) tail) (Tame.bind (Tame.childNotation hgo _ _ _ _) tail)
  | _ => exact Tame.bind (Tame.childNotation hgo _ _ _ _) tail

theorem Tame.infixNotation (d : Nat) : ∀ wl p, Tame (Raw.infixNotation d wl p : H σ Str) := by
  induction d with
  | zero => exact fun _ _ => Tame.crash (by simp [stackOverflow, makePanicMsg])
  | succ d ih =>
    intro wl p
    refine Tame.bind (Tame.deref p) (fun o => ?_)
    cases o with
    | int v => exact Tame.pure
    | sumRoll ds => exact Tame.pure
    | string s => exact Tame.fail
    | nilNode => exact Tame.fail
    | unary x => exact Tame.prefixNotation ih _ _
    | binary k x y =>
      cases k with
      | compare op => exact Tame.bind (ih _ _) (fun _ => Tame.bind (ih _ _) (fun _ => Tame.pure))
      | _ => exact Tame.bind (Tame.childrenNotations ih _ _ _ _) (fun _ => Tame.pure)
    | bRollList ps => exact Tame.bind (Tame.notations ih _) (fun _ => Tame.pure)
    | rRollList ps t =>
      exact Tame.bind (Tame.notations ih _) (fun _ => Tame.bind (Tame.deref _) (fun _ => Tame.ite Tame.pure
        (Tame.bind (ih _ _) (fun _ => Tame.pure))))
    | uRollExpr l b =>
      refine Tame.ite (ih _ _) (Tame.bind (Tame.deref _) (fun o => ?_))
      cases o with
      | binary k x y =>
        exact Tame.ite (Tame.bind (Tame.alloc _) (fun _ => Tame.bind (Tame.setLeft _ _) (fun _ => ih _ _)))
          Tame.conversion
      | _ => exact Tame.conversion
    | choice items => exact Tame.bind (Tame.itemValues _) (fun _ => Tame.pure)
    | command ty e =>
      cases ty with
      | «calc» => exact Tame.bind (ih _ _) (fun _ => Tame.pure)
      | _ => exact ih _ _

theorem Tame.sexps {go : Ptr → H σ Str} (hgo : ∀ p, Tame (go p)) (ps : List Ptr) : Tame (Raw.sexps go ps) := by
  induction ps with
  | nil => exact Tame.pure
  | cons p ps ih => exact Tame.bind (hgo _) (fun _ => Tame.bind ih (fun _ => Tame.pure))

theorem Tame.operandSExp {go : Ptr → H σ Str} (hgo : ∀ p, Tame (go p)) (p : Ptr) : Tame (Raw.operandSExp go p) :=
  Tame.ite Tame.pure (hgo _)

theorem Tame.sexp (isPrint : Char → Bool) (d : Nat) : ∀ p, Tame (Raw.sexp isPrint d p : H σ Str) := by
  induction d with
  | zero => exact fun _ => Tame.crash (by simp [stackOverflow, makePanicMsg])
  | succ d ih =>
    intro p
    refine Tame.bind (Tame.deref p) (fun o => ?_)
    cases o with
    | int v => exact Tame.pure
    | sumRoll ds => exact Tame.pure
    | string s => exact Tame.pure
    | nilNode => exact Tame.pure
    | unary x => exact Tame.bind (Tame.operandSExp ih _) (fun _ => Tame.pure)
    | binary k x y =>
      exact Tame.bind (Tame.operandSExp ih _) (fun _ => Tame.bind (Tame.operandSExp ih _) (fun _ => Tame.pure))
    | bRollList ps => exact Tame.bind (Tame.sexps ih _) (fun _ => Tame.pure)
    | rRollList ps t => exact Tame.bind (Tame.sexps ih _) (fun _ => Tame.bind (ih _) (fun _ => Tame.pure))
    | uRollExpr l b =>
      refine Tame.ite (Tame.bind (ih _) (fun _ => Tame.pure)) (Tame.bind (Tame.deref _) (fun o => ?_))
      cases o with
      | binary k x y =>
        exact Tame.ite (Tame.bind (Tame.alloc _) (fun _ => Tame.bind (Tame.setLeft _ _) (fun _ =>
          Tame.bind (ih _) (fun _ => Tame.pure)))) Tame.conversion
      | _ => exact Tame.conversion
    | choice items => exact Tame.bind (Tame.sexps ih _) (fun _ => Tame.pure)
    | command ty e => exact Tame.bind (ih _) (fun _ => Tame.pure)

theorem Ty.extra_le (τ : Ty) : τ.extra ≤ 1 := by cases τ <;> simp [Ty.extra]

end GoBCDice.Raw
