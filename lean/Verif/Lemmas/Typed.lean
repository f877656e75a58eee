import Verif.Spec.Typed
import Verif.Lemmas.Behave
import Verif.Lemmas.RawAppend

/-! # Lemmas on nodes that make sense -/

namespace GoBCDice.Raw

variable {σ α β : Type}

theorem get_append {h x : Heap} {r : Ref} {o : Obj} (hr : h[r]? = some o) : (h ++ x)[r]? = some o := by
  have : r < h.length := by
    apply Nat.lt_of_not_le
    intro hle
    rw [List.getElem?_eq_none hle] at hr
    cases hr
  rw [List.getElem?_append_left this, hr]

theorem IsAbsent.append {h x : Heap} {p : Ptr} (hp : IsAbsent h p) : IsAbsent (h ++ x) p := by
  obtain ⟨r, rfl, hr⟩ := hp
  exact ⟨r, rfl, get_append hr⟩

theorem IsString.append {h x : Heap} {p : Ptr} (hp : IsString h p) : IsString (h ++ x) p := by
  obtain ⟨r, s, rfl, hr⟩ := hp
  exact ⟨r, s, rfl, get_append hr⟩

theorem IsBasicInfix.append {h x : Heap} {p : Ptr} (hp : IsBasicInfix h p) : IsBasicInfix (h ++ x) p := by
  obtain ⟨r, k, a, b, rfl, hr, hk⟩ := hp
  exact ⟨r, k, a, b, rfl, get_append hr, hk⟩

theorem IsRolls.append {h x : Heap} {p : Ptr} (hp : IsRolls h p) : IsRolls (h ++ x) p := by
  obtain ⟨r, o, rfl, hr, ho⟩ := hp
  exact ⟨r, o, rfl, get_append hr, ho⟩

theorem HasType.append {h x : Heap} {n : Nat} {p : Ptr} {τ : Ty} (hp : HasType h n p τ) :
    HasType (h ++ x) n p τ := by
  induction hp with
  | int hr => exact .int (get_append hr)
  | sumRoll hr => exact .sumRoll (get_append hr)
  | minus hr _ ih => exact .minus (get_append hr) ih
  | number hr hk _ _ ih1 ih2 => exact .number (get_append hr) hk ih1 ih2
  | division hr _ _ ih1 ih2 => exact .division (get_append hr) ih1 ih2
  | comparison hr hk _ _ ih1 ih2 => exact .comparison (get_append hr) hk ih1 ih2
  | roll hr hk _ _ ih1 ih2 => exact .roll (get_append hr) hk ih1 ih2
  | uRoll hr _ _ ih1 ih2 => exact .uRoll (get_append hr) ih1 ih2
  | bRolls hr _ ih => exact .bRolls (get_append hr) ih
  | rRolls hr _ _ hn ih1 ih2 => exact .rRolls (get_append hr) ih1 (fun hn => ih2 (fun ha => hn ha.append)) hn
  | uRolls hr _ _ hn ih1 ih2 => exact .uRolls (get_append hr) ih1 (fun hn => ih2 (fun ha => hn ha.append)) hn
  | uExpr hr _ hb _ ih1 ih2 => exact .uExpr (get_append hr) ih1 (fun hn => (hb hn).append) ih2
  | choice hr hi hl => exact .choice (get_append hr) (fun p hp => (hi p hp).append) hl
  | command hr ht hτ hτ' _ ih => exact .command (get_append hr) ht hτ hτ' ih
  | compared hr ho hτ hx _ _ ih1 ih2 => exact .compared (get_append hr) ho hτ hx.append ih1 ih2
  | bSuccesses hr _ ih => exact .bSuccesses (get_append hr) ih
  | rSuccesses hr _ ih => exact .rSuccesses (get_append hr) ih
  | uSuccesses hr _ ih => exact .uSuccesses (get_append hr) ih

theorem HasType.deeper {h : Heap} {n : Nat} {p : Ptr} {τ : Ty} (hp : HasType h n p τ) :
    ∀ {m}, n ≤ m → HasType h m p τ := by
  induction hp with
  | int hr => intro m hm; obtain ⟨m, rfl⟩ : ∃ k, m = k + 1 := ⟨m - 1, by omega⟩; exact .int hr
  | sumRoll hr => intro m hm; obtain ⟨m, rfl⟩ : ∃ k, m = k + 1 := ⟨m - 1, by omega⟩; exact .sumRoll hr
  | minus hr _ ih =>
    intro m hm; obtain ⟨m, rfl⟩ : ∃ k, m = k + 1 := ⟨m - 1, by omega⟩
    exact .minus hr (ih (by omega))
  | number hr hk _ _ ih1 ih2 =>
    intro m hm; obtain ⟨m, rfl⟩ : ∃ k, m = k + 1 := ⟨m - 1, by omega⟩
    exact .number hr hk (ih1 (by omega)) (ih2 (by omega))
  | division hr _ _ ih1 ih2 =>
    intro m hm; obtain ⟨m, rfl⟩ : ∃ k, m = k + 1 := ⟨m - 1, by omega⟩
    exact .division hr (ih1 (by omega)) (ih2 (by omega))
  | comparison hr hk _ _ ih1 ih2 =>
    intro m hm; obtain ⟨m, rfl⟩ : ∃ k, m = k + 1 := ⟨m - 1, by omega⟩
    exact .comparison hr hk (ih1 (by omega)) (ih2 (by omega))
  | roll hr hk _ _ ih1 ih2 =>
    intro m hm; obtain ⟨m, rfl⟩ : ∃ k, m = k + 1 := ⟨m - 1, by omega⟩
    exact .roll hr hk (ih1 (by omega)) (ih2 (by omega))
  | uRoll hr _ _ ih1 ih2 =>
    intro m hm; obtain ⟨m, rfl⟩ : ∃ k, m = k + 1 := ⟨m - 1, by omega⟩
    exact .uRoll hr (ih1 (by omega)) (ih2 (by omega))
  | bRolls hr _ ih =>
    intro m hm; obtain ⟨m, rfl⟩ : ∃ k, m = k + 1 := ⟨m - 1, by omega⟩
    exact .bRolls hr (fun p hp => ih p hp (by omega))
  | rRolls hr _ _ hn ih1 ih2 =>
    intro m hm; obtain ⟨m, rfl⟩ : ∃ k, m = k + 1 := ⟨m - 1, by omega⟩
    exact .rRolls hr (fun p hp => ih1 p hp (by omega)) (fun hn => ih2 hn (by omega)) (by omega)
  | uRolls hr _ _ hn ih1 ih2 =>
    intro m hm; obtain ⟨m, rfl⟩ : ∃ k, m = k + 1 := ⟨m - 1, by omega⟩
    exact .uRolls hr (fun p hp => ih1 p hp (by omega)) (fun hn => ih2 hn (by omega)) (by omega)
  | uExpr hr _ hb _ ih1 ih2 =>
    intro m hm; obtain ⟨m, rfl⟩ : ∃ k, m = k + 1 := ⟨m - 1, by omega⟩
    exact .uExpr hr (ih1 (by omega)) hb (fun hn => ih2 hn (by omega))
  | choice hr hi hl =>
    intro m hm; obtain ⟨m, rfl⟩ : ∃ k, m = k + 1 := ⟨m - 1, by omega⟩
    exact .choice hr hi hl
  | command hr ht hτ hτ' _ ih =>
    intro m hm; obtain ⟨m, rfl⟩ : ∃ k, m = k + 1 := ⟨m - 1, by omega⟩
    exact .command hr ht hτ hτ' (ih (by omega))
  | compared hr ho hτ hx _ _ ih1 ih2 =>
    intro m hm; obtain ⟨m, rfl⟩ : ∃ k, m = k + 1 := ⟨m - 1, by omega⟩
    exact .compared hr ho hτ hx (ih1 (by omega)) (ih2 (by omega))
  | bSuccesses hr _ ih =>
    intro m hm; obtain ⟨m, rfl⟩ : ∃ k, m = k + 1 := ⟨m - 1, by omega⟩
    exact .bSuccesses hr (ih (by omega))
  | rSuccesses hr _ ih =>
    intro m hm; obtain ⟨m, rfl⟩ : ∃ k, m = k + 1 := ⟨m - 1, by omega⟩
    exact .rSuccesses hr (ih (by omega))
  | uSuccesses hr _ ih =>
    intro m hm; obtain ⟨m, rfl⟩ : ∃ k, m = k + 1 := ⟨m - 1, by omega⟩
    exact .uSuccesses hr (ih (by omega))

/-- Everything that made sense still does. -/
def Le (h h' : Heap) : Prop :=
  (∀ n p τ, HasType h n p τ → HasType h' n p τ) ∧
    ∀ (r : Ref) (o : Obj), h[r]? = some o → ∃ o' : Obj, h'[r]? = some o' ∧ o'.skeleton = o.skeleton

theorem HasType.up {h h' : Heap} {n : Nat} {p : Ptr} {τ : Ty} (hp : HasType h n p τ) (hl : Le h h') :
    HasType h' n p τ := hl.1 n p τ hp

theorem Le.refl (h : Heap) : Le h h := ⟨fun _ _ _ h => h, fun _ o ho => ⟨o, ho, rfl⟩⟩

theorem Le.trans {h h' h'' : Heap} (a : Le h h') (b : Le h' h'') : Le h h'' :=
  ⟨fun n p τ x => b.1 n p τ (a.1 n p τ x), fun r o ho => by
    obtain ⟨o1, h1, e1⟩ := a.2 r o ho
    obtain ⟨o2, h2, e2⟩ := b.2 r o1 h1
    exact ⟨o2, h2, e2.trans e1⟩⟩

theorem Le.append (h x : Heap) : Le h (h ++ x) :=
  ⟨fun _ _ _ h => h.append, fun _ o ho => ⟨o, get_append ho, rfl⟩⟩

section
variable (I : σ → Prop) (Err : Str → Prop)

/-- What is shown about a computation started with the memory `h`. -/
def At (h : Heap) (m : H σ α) (Q : α → Heap → Prop) : Prop :=
  ∀ st, I st.feeder → Le h (m ⟨st, h⟩).2.heap ∧ I (m ⟨st, h⟩).2.st.feeder ∧
    match (m ⟨st, h⟩).1 with
    | .ok a => Q a (m ⟨st, h⟩).2.heap
    | .err e => Err e
    | .panic x => x = makePanicMsg

variable {I Err}

theorem At.pure {h : Heap} {a : α} {Q : α → Heap → Prop} (hq : Q a h) :
    At I Err h (pure a : H σ α) Q := fun _ hi => ⟨Le.refl h, hi, hq⟩

theorem At.fail {h : Heap} {e : Str} {Q : α → Heap → Prop} (he : Err e) :
    At I Err h (H.fail e : H σ α) Q := fun _ hi => ⟨Le.refl h, hi, he⟩

theorem At.make {h : Heap} {Q : α → Heap → Prop} : At I Err h (H.crash makePanicMsg : H σ α) Q :=
  fun _ hi => ⟨Le.refl h, hi, rfl⟩

theorem At.bind {h : Heap} {m : H σ α} {f : α → H σ β} {Q : α → Heap → Prop} {R : β → Heap → Prop}
    (hm : At I Err h m Q) (hf : ∀ a h', Le h h' → Q a h' → At I Err h' (f a) R) :
    At I Err h (m >>= f) R := by
  intro st hi
  have h1 := hm st hi
  show Le h (H.bnd m f _).2.heap ∧ I (H.bnd m f _).2.st.feeder ∧ _
  have : (m >>= f) = H.bnd m f := rfl
  rw [this]
  unfold H.bnd
  rcases hx : m ⟨st, h⟩ with ⟨o, S⟩
  rw [hx] at h1
  cases o with
  | ok a =>
    have h2 := hf a S.heap h1.1 h1.2.2 S.st h1.2.1
    exact ⟨h1.1.trans h2.1, h2.2.1, h2.2.2⟩
  | err e => exact h1
  | panic x => exact h1

theorem At.mono {h : Heap} {m : H σ α} {Q R : α → Heap → Prop} (hm : At I Err h m Q)
    (hf : ∀ a h', Le h h' → Q a h' → R a h') : At I Err h m R := by
  intro st hi
  have h1 := hm st hi
  rcases hx : m ⟨st, h⟩ with ⟨o, S⟩
  rw [hx] at h1
  cases o with
  | ok a => exact ⟨h1.1, h1.2.1, hf a _ h1.1 h1.2.2⟩
  | err e => exact h1
  | panic x => exact h1

theorem At.deref {h : Heap} {r : Ref} {o : Obj} {f : Obj → H σ β} {R : β → Heap → Prop}
    (hr : h[r]? = some o) (hf : At I Err h (f o) R) : At I Err h (deref (some r) >>= f) R := by
  intro st hi
  have : (Raw.deref (some r) >>= f) ⟨st, h⟩ = f o ⟨st, h⟩ := by
    show H.bnd _ _ _ = _
    simp only [H.bnd, Raw.deref, hr]
  rw [this]
  exact hf st hi

theorem At.alloc {h : Heap} {o : Obj} {Q : Ptr → Heap → Prop}
    (hq : Q (some h.length) (h ++ [o])) : At I Err h (alloc o : H σ Ptr) Q :=
  fun _ hi => ⟨Le.append _ _, hi, hq⟩

theorem At.ite {h : Heap} {c : Prop} [Decidable c] {x y : H σ α} {Q : α → Heap → Prop}
    (hx : c → At I Err h x Q) (hy : ¬ c → At I Err h y Q) : At I Err h (if c then x else y) Q := by
  by_cases hc : c
  · rw [if_pos hc]; exact hx hc
  · rw [if_neg hc]; exact hy hc

/-- Rolling dice with a fair feeder. -/
theorem At.rollDice {E : Evaluator σ} (hF : E.F.FairOn I) (hE : ∀ e, SensibleError E.F e → Err e)
    {h : Heap} (num sides : Int64) :
    At I Err h (H.lift (E.rollDice num sides)) (fun ds _ => Rolled num sides ds ∧ ∀ d ∈ ds, d.Fair) := by
  intro st hi
  unfold H.lift
  rcases hx : E.rollDice num sides st with ⟨o, st'⟩
  obtain ⟨h0, _, _, _, _, _, _, _, h5, h6⟩ := beh_rollDice (I := I) (G := True) (S := False) E num sides (fun h => h.elim)
    (fun s sides hs hi => ⟨(hF s sides hs hi).1, fun _ => (hF s sides hs hi).2⟩) (fun h => h.elim) st o st' hi hx
  refine ⟨Le.refl h, h0, ?_⟩
  cases o with
  | ok ds => exact ⟨(h5 ds rfl).2.1, (h5 ds rfl).2.2 trivial⟩
  | panic m => exact (h6 m rfl).1 trivial
  | err e =>
    refine hE e ?_
    unfold Evaluator.rollDice at hx
    rcases hy : GoBCDice.rollDice E.F num sides st.feeder with ⟨o', f'⟩
    rw [hy] at hx
    cases o' with
    | ok => simp at hx
    | panic => simp at hx
    | err e' =>
      simp only [Prod.mk.injEq, Out.err.injEq] at hx
      rw [← hx.1]
      exact .roll hy

theorem At.firstDie {h : Heap} {ds : List Die} {sides : Int64} {f : Die → H σ β} {R : β → Heap → Prop}
    (hr : Rolled 1 sides ds) (hf : ∀ d, ds = [d] → At I Err h (f d) R) :
    At I Err h (H.lift (Evaluator.firstDie ds) >>= f) R := by
  obtain ⟨d, rfl⟩ : ∃ d, ds = [d] := by
    have hl : ds.length = 1 := by
      have h1 : (ds.length : Int) = 1 := by simpa using hr.2.2.2.1
      omega
    match ds, hl with
    | [d], _ => exact ⟨d, rfl⟩
  exact hf d rfl


/-! ## Values -/

theorem Numbers.nil : Numbers [] := ⟨[], rfl⟩

theorem Numbers.append {vs ws : List Value} (h1 : Numbers vs) (h2 : Numbers ws) : Numbers (vs ++ ws) := by
  obtain ⟨a, rfl⟩ := h1
  obtain ⟨b, rfl⟩ := h2
  exact ⟨a ++ b, by simp⟩

theorem Numbers.snoc {vs : List Value} (h1 : Numbers vs) (v : Int64) : Numbers (vs ++ [.integer v]) :=
  h1.append ⟨[v], rfl⟩

theorem Groups.nil : Groups [] := ⟨[], rfl⟩

theorem Groups.append {vs ws : List Value} (h1 : Groups vs) (h2 : Groups ws) : Groups (vs ++ ws) := by
  obtain ⟨a, rfl⟩ := h1
  obtain ⟨b, rfl⟩ := h2
  exact ⟨a ++ b, by simp⟩

theorem Groups.snoc {vs ws : List Value} (h1 : Groups vs) (h2 : Numbers ws) : Groups (vs ++ [.array ws]) := by
  obtain ⟨b, rfl⟩ := h2
  exact h1.append ⟨[b], rfl⟩

theorem Groups.tail {v : Value} {vs : List Value} (h : Groups (v :: vs)) :
    (∃ ws, v = .array ws ∧ Numbers ws) ∧ Groups vs := by
  obtain ⟨a, ha⟩ := h
  cases a with
  | nil => simp at ha
  | cons x a =>
    simp only [List.map_cons, List.cons.injEq] at ha
    exact ⟨⟨_, ha.1, _, rfl⟩, _, ha.2⟩

theorem Numbers.tail {v : Value} {vs : List Value} (h : Numbers (v :: vs)) :
    (∃ x, v = .integer x) ∧ Numbers vs := by
  obtain ⟨a, ha⟩ := h
  cases a with
  | nil => simp at ha
  | cons x a =>
    simp only [List.map_cons, List.cons.injEq] at ha
    exact ⟨⟨_, ha.1⟩, _, ha.2⟩

/-! ## `Eval` -/

section
variable {E : Evaluator σ} (hF : E.F.FairOn I) (hE : ∀ e, SensibleError E.F e → Err e)

theorem At.objectToIntNode {h : Heap} (x : Int64) :
    At I Err h (objectToIntNode (.integer x) : H σ Ptr) (fun p h' => ∃ r, p = some r ∧ h'[r]? = some (.int x)) :=
  At.alloc ⟨_, rfl, by simp⟩

include hF hE in
theorem At.integerInfix {h : Heap} {op : Str} (hop : op ∈ numberOperators) (a b : Int64) :
    At I Err h (evalIntegerInfix E op a b) (fun v _ => ∃ x, v = .integer x) := by
  simp only [numberOperators, List.mem_cons, List.not_mem_nil, or_false] at hop
  rcases hop with rfl | rfl | rfl | rfl | rfl
  · exact At.pure ⟨_, rfl⟩
  · exact At.pure ⟨_, rfl⟩
  · exact At.pure ⟨_, rfl⟩
  · exact (At.rollDice hF hE a b).bind (fun ds h' _ _ => At.pure ⟨_, rfl⟩)
  · show At I Err h (if a ≥ b then H.fail (Evaluator.randomNumberMsg a b) else _) _
    refine At.ite (fun hc => At.fail (hE _ (.interval hc))) (fun hc => ?_)
    refine (At.rollDice hF hE _ _).bind (fun ds h' _ hr => ?_)
    exact At.firstDie hr.1 (fun d _ => At.pure ⟨_, rfl⟩)

theorem At.integerCompare {h : Heap} {op : Str} (hop : op ∈ comparisonOperators) (a b : Int64) :
    At I Err h (evalIntegerInfix E op a b) (fun v _ => ∃ x, v = .boolean x) := by
  simp only [comparisonOperators, List.mem_cons, List.not_mem_nil, or_false] at hop
  rcases hop with rfl | rfl | rfl | rfl | rfl | rfl <;> exact At.pure ⟨_, rfl⟩

include hE in
theorem At.integerDivide {h : Heap} (m : Rounding) (a b : Int64) :
    At I Err h (evalIntegerDivide m a b : H σ Value) (fun v _ => ∃ x, v = .integer x) :=
  At.ite (fun _ => At.fail (hE _ (.division a))) (fun _ => At.pure ⟨_, rfl⟩)

/-- What is known about evaluating the nodes below a node. -/
def EvalAt (I : σ → Prop) (Err : Str → Prop) (ev : Ptr → H σ Value) (n : Nat) : Prop :=
  ∀ {h p τ}, HasType h n p τ → τ.HasValue → At I Err h (ev p) (fun v _ => τ.Fits v)

theorem HasType.ne_none {h : Heap} {n : Nat} {p : Ptr} {τ : Ty} (hp : HasType h n p τ) : p ≠ none := by
  cases hp <;> simp

theorem HasType.pos {h : Heap} {n : Nat} {p : Ptr} {τ : Ty} (hp : HasType h n p τ) : 1 ≤ n := by
  cases hp <;> omega

theorem hasValue_integer : Ty.integer.HasValue := ⟨by simp, by simp, by simp⟩

theorem At.operands {h : Heap} {ev : Ptr → H σ Value} {n : Nat} {op : Str} {l r : Ptr} {τ ρ : Ty}
    (hev : EvalAt I Err ev n) (hl : HasType h n l τ) (hr : HasType h n r ρ) (hτ : τ.HasValue) (hρ : ρ.HasValue) :
    At I Err h (evalOperands ev op l r) (fun ab _ => τ.Fits ab.1 ∧ ρ.Fits ab.2) := by
  unfold evalOperands
  rw [if_neg hl.ne_none, if_neg hr.ne_none]
  refine (hev hl hτ).bind (fun a h1 l1 ha => ?_)
  refine (hev (hr.up l1) hρ).bind (fun b h2 l2 hb => ?_)
  exact At.pure ⟨ha, hb⟩

theorem At.infix {h : Heap} {ev : Ptr → H σ Value} {n : Nat} {k : InfixKind} {l r : Ptr} {τ : Ty}
    (hev : EvalAt I Err ev n) (hl : HasType h n l .integer) (hr : HasType h n r .integer)
    (hd : ∀ a b h' m, k = .div m → At I Err h' (evalIntegerDivide m a b) (fun v _ => τ.Fits v))
    (hk : ∀ a b h', (∀ m, k ≠ .div m) → At I Err h' (evalIntegerInfix E k.operator a b) (fun v _ => τ.Fits v)) :
    At I Err h (evalInfix E ev k l r) (fun v _ => τ.Fits v) := by
  unfold evalInfix
  refine (At.operands hev hl hr hasValue_integer hasValue_integer).bind ?_
  rintro ⟨a, b⟩ h1 l1 ⟨⟨x, rfl⟩, ⟨y, rfl⟩⟩
  cases k with
  | div m => exact hd x y h1 m rfl
  | _ => exact hk x y h1 (by simp)

/-- The node of a comparison made for counting. -/
theorem At.countSuccesses {h : Heap} {ev : Ptr → H σ Value} {n : Nat} {op : Str} {target : Int64} {vs : List Value}
    (hev : EvalAt I Err ev (n + 2)) (hop : op ∈ comparisonOperators) (hvs : Numbers vs) (c : Int64) :
    At I Err h (Raw.countSuccesses ev op target vs c) (fun _ _ => True) := by
  induction vs generalizing h c with
  | nil => exact At.pure trivial
  | cons v vs ih =>
    obtain ⟨⟨x, rfl⟩, hvs'⟩ := hvs.tail
    unfold Raw.countSuccesses
    refine (At.objectToIntNode x).bind ?_
    rintro _ h1 l1 ⟨a, rfl, ha⟩
    refine (At.bind (Q := fun p h' => ∃ b, p = some b ∧ h'[b]? = some (.int target) ∧ h'[a]? = some (.int x))
      (At.alloc ⟨_, rfl, by simp, get_append ha⟩) ?_)
    rintro _ h2 l2 ⟨b, rfl, hb, ha⟩
    refine (At.bind (Q := fun p h' => HasType h' (n + 2) p .boolean) (At.alloc ?_) ?_)
    · refine .comparison (k := .compare op) (x := some a) (y := some b) (by simp) hop ?_ ?_
      · exact .int (get_append ha)
      · exact .int (get_append hb)
    intro c' h3 l3 hc
    refine (hev hc ⟨by simp, by simp, by simp⟩).bind ?_
    rintro _ h4 l4 ⟨b', rfl⟩
    cases b' <;> exact ih hvs' _

/-! ### Lists of rolls -/

theorem At.bRolls {h : Heap} {ev : Ptr → H σ Value} {n : Nat} (hev : EvalAt I Err ev n) {ps : List Ptr}
    (hps : ∀ p ∈ ps, HasType h n p .roll) :
    At I Err h (evalBRollList ev ps) (fun vs _ => Numbers vs) := by
  induction ps generalizing h with
  | nil => exact At.pure .nil
  | cons p ps ih =>
    unfold evalBRollList
    refine (hev (hps p (by simp)) ⟨by simp, by simp, by simp⟩).bind ?_
    rintro _ h1 l1 ⟨vs, rfl, hvs⟩
    show At I Err h1 (evalBRollList ev ps >>= _) _
    refine (ih (fun q hq => (hps q (by simp [hq])).up l1)).bind ?_
    intro ws h2 l2 hws
    exact At.pure (hvs.append hws)

theorem At.countReaching {h : Heap} {t : Int64} {vs : List Value} (hvs : Numbers vs) (c : Nat) :
    At I Err h (Raw.countReaching t vs c : H σ Nat) (fun _ _ => True) := by
  induction vs generalizing c with
  | nil => exact At.pure trivial
  | cons v vs ih =>
    obtain ⟨⟨x, rfl⟩, hvs'⟩ := hvs.tail
    exact ih hvs' _

theorem HasType.roll_inv {h : Heap} {n : Nat} {p : Ptr} (hp : HasType h n p .roll) :
    ∃ m r k x y, n = m + 1 ∧ p = some r ∧ h[r]? = some (.binary k x y) ∧ (k = .bRoll ∨ k = .rRoll) ∧
      HasType h m x .integer ∧ HasType h m y .integer := by
  cases hp with
  | roll hr hk hx hy => exact ⟨_, _, _, _, _, rfl, rfl, hr, hk, hx, hy⟩
  | command _ _ hτ hτ' _ => simp [Ty.HasValue] at hτ hτ'

theorem At.rRollLoop {h : Heap} {ev : Ptr → H σ Value} {n : Nat} (hev : EvalAt I Err ev n) {t : Int64}
    (k : Nat) {ps : List Ptr} (hps : ∀ p ∈ ps, HasType h n p .roll) {acc : List Value} (hacc : Groups acc) :
    At I Err h (Raw.rRollLoop ev t k ps acc) (fun gs _ => Groups gs) := by
  induction k generalizing h ps acc with
  | zero => unfold Raw.rRollLoop; exact At.pure hacc
  | succ k ih =>
    cases ps with
    | nil => exact At.pure hacc
    | cons p ps =>
      unfold Raw.rRollLoop
      refine (hev (hps p (by simp)) ⟨by simp, by simp, by simp⟩).bind ?_
      rintro _ h1 l1 ⟨vs, rfl, hvs⟩
      refine At.bind (Q := fun ws _ => ws = vs) (At.pure rfl) ?_
      rintro _ h2 l2 rfl
      refine (At.countReaching hvs 0).bind ?_
      intro c h3 l3 _
      have l13 := (l1.trans l2).trans l3
      refine At.ite (fun _ => ?_) (fun _ => ?_)
      · refine At.bind (Q := fun q h' => ∃ r, q = some r ∧ h'[r]? = some (.int (Int64.ofNat c)))
          (At.alloc ⟨_, rfl, by simp⟩) ?_
        rintro _ h4 l4 ⟨a, rfl, ha⟩
        have hp4 := (hps p (by simp)).up (l13.trans l4)
        obtain ⟨m, r, k', x, y, rfl, rfl, hr, hk', hx, hy⟩ := hp4.roll_inv
        refine At.bind (Q := fun s h' => s = y ∧ h'[a]? = some (.int (Int64.ofNat c)) ∧ HasType h' m y .integer)
          (At.deref hr (At.pure ⟨rfl, ha, hy⟩)) ?_
        rintro _ h5 l5 ⟨rfl, ha, hy⟩
        refine At.bind (Q := fun q h' => HasType h' (m + 1) q .roll) (At.alloc ?_) ?_
        · refine .roll (k := .rRoll) (x := some a) (by simp) (.inr rfl) ?_ hy.append
          have := hy.pos
          obtain ⟨m, rfl⟩ : ∃ m', m = m' + 1 := ⟨m - 1, by omega⟩
          exact .int (get_append ha)
        intro new h6 l6 hnew
        refine ih ?_ (hacc.snoc hvs)
        intro q hq
        rcases List.mem_append.mp hq with hq | hq
        · exact (hps q (by simp [hq])).up (((l13.trans l4).trans l5).trans l6)
        · simp only [List.mem_singleton] at hq
          exact hq ▸ hnew
      · exact ih (fun q hq => (hps q (by simp [hq])).up l13) (hacc.snoc hvs)

theorem At.threshold {h : Heap} {n : Nat} {t : Ptr} (ht : ¬ IsAbsent h t → HasType h n t .integer)
    {f : Obj → H σ β} {R : β → Heap → Prop}
    (hf : ∀ r o, t = some r → h[r]? = some o → (o.isNil = true ∨ o.isNil = false ∧ HasType h n t .integer) →
      At I Err h (f o) R) :
    At I Err h (Raw.deref t >>= f) R := by
  by_cases ha : IsAbsent h t
  · obtain ⟨r, rfl, hr⟩ := ha
    exact At.deref hr (hf r _ rfl hr (.inl rfl))
  · have hi := ht ha
    obtain ⟨r, rfl⟩ : ∃ r, t = some r := by
      cases t with
      | none => exact absurd rfl hi.ne_none
      | some r => exact ⟨r, rfl⟩
    obtain ⟨o, ho⟩ : ∃ o, h[r]? = some o := by cases hi <;> exact ⟨_, ‹h[r]? = _›⟩
    refine At.deref ho (hf r o rfl ho (.inr ⟨?_, hi⟩))
    cases o with
    | nilNode => exact absurd ⟨r, rfl, ho⟩ ha
    | _ => rfl

include hE in
theorem At.rRollList {h : Heap} {ev : Ptr → H σ Value} {n : Nat} (hev : EvalAt I Err ev n) {ps : List Ptr} {t : Ptr}
    (hps : ∀ p ∈ ps, HasType h n p .roll) (ht : ¬ IsAbsent h t → HasType h n t .integer) :
    At I Err h (evalRRollList E ev ps t) (fun gs _ => Groups gs) := by
  unfold evalRRollList
  refine At.threshold ht (fun r o hr ho hor => ?_)
  rcases hor with hn | ⟨hn, hi⟩
  · rw [if_pos hn]; exact At.fail (hE _ .thresholdR)
  · rw [if_neg (by simp [hn])]
    refine (hev hi hasValue_integer).bind ?_
    rintro _ h1 l1 ⟨x, rfl⟩
    exact At.rRollLoop hev _ (fun p hp => (hps p hp).up l1) .nil

theorem At.countInGroups {h : Heap} {ev : Ptr → H σ Value} {n : Nat} {op : Str} {target : Int64} {gs : List Value}
    (hev : EvalAt I Err ev (n + 2)) (hop : op ∈ comparisonOperators) (hgs : Groups gs) (c : Int64) :
    At I Err h (Raw.countInGroups ev op target gs c) (fun _ _ => True) := by
  induction gs generalizing h c with
  | nil => exact At.pure trivial
  | cons g gs ih =>
    obtain ⟨⟨vs, rfl, hvs⟩, hgs'⟩ := hgs.tail
    unfold Raw.countInGroups
    refine At.bind (Q := fun ws _ => ws = vs) (At.pure rfl) ?_
    rintro _ h2 l2 rfl
    refine (At.countSuccesses hev hop hvs 0).bind ?_
    intro k h3 _ _
    exact ih hgs' _

/-! ### U rolls -/

include hF hE in
theorem At.uGroup {h : Heap} {sides t : Int64} (k : Nat) {acc : List Value} (hacc : Numbers acc) :
    At I Err h (Raw.uGroup E sides t k acc) (fun vs _ => Numbers vs) := by
  induction k generalizing h acc with
  | zero => exact At.pure hacc
  | succ k ih =>
    unfold Raw.uGroup
    refine (At.rollDice hF hE 1 sides).bind (fun ds h' _ hr => ?_)
    refine At.firstDie hr.1 (fun d _ => ?_)
    exact At.ite (fun _ => At.pure (hacc.snoc _)) (fun _ => ih (hacc.snoc _))

include hF hE in
theorem At.uGroups {h : Heap} {sides t : Int64} (k : Nat) {acc : List Value} (hacc : Groups acc) :
    At I Err h (Raw.uGroups E sides t k acc) (fun vs _ => Groups vs) := by
  induction k generalizing h acc with
  | zero => exact At.pure hacc
  | succ k ih =>
    unfold Raw.uGroups
    refine (At.uGroup hF hE _ .nil).bind (fun g h' _ hg => ?_)
    exact ih (hacc.snoc hg)

theorem HasType.uRoll_inv {h : Heap} {n : Nat} {p : Ptr} (hp : HasType h n p .uRoll) :
    ∃ m r x y, n = m + 1 ∧ p = some r ∧ h[r]? = some (.binary .uRoll x y) ∧
      HasType h m x .integer ∧ HasType h m y .integer := by
  cases hp with
  | uRoll hr hx hy => exact ⟨_, _, _, _, rfl, rfl, hr, hx, hy⟩
  | command _ _ hτ hτ' _ => simp [Ty.HasValue] at hτ hτ'

include hF hE in
theorem At.compoundingRoll {h : Heap} {ev : Ptr → H σ Value} {n : Nat} (hev : EvalAt I Err ev n) {p : Ptr}
    (hp : HasType h n p .uRoll) (t : Int64) :
    At I Err h (evalCompoundingRoll E ev p t) (fun gs _ => Groups gs) := by
  obtain ⟨m, r, x, y, rfl, rfl, hr, hx, hy⟩ := hp.uRoll_inv
  unfold evalCompoundingRoll
  refine At.deref hr ?_
  refine (At.operands hev (hx.deeper (by omega)) (hy.deeper (by omega)) hasValue_integer hasValue_integer).bind ?_
  rintro ⟨a, b⟩ h1 l1 ⟨⟨num, rfl⟩, ⟨sides, rfl⟩⟩
  refine At.ite (fun hc => At.fail (hE _ (.compounding num sides _ (.inl ⟨hc, rfl⟩)))) (fun _ => ?_)
  refine At.ite (fun hc => At.fail (hE _ (.compounding num sides _ (.inr ⟨hc, rfl⟩)))) (fun _ => ?_)
  exact At.ite (fun _ => At.make) (fun _ => At.uGroups hF hE _ .nil)

include hF hE in
theorem At.compoundingRolls {h : Heap} {ev : Ptr → H σ Value} {n : Nat} (hev : EvalAt I Err ev n) {ps : List Ptr}
    (hps : ∀ p ∈ ps, HasType h n p .uRoll) (t : Int64) :
    At I Err h (evalCompoundingRolls E ev t ps) (fun gs _ => Groups gs) := by
  induction ps generalizing h with
  | nil => exact At.pure .nil
  | cons p ps ih =>
    unfold evalCompoundingRolls
    refine (At.compoundingRoll hF hE hev (hps p (by simp)) t).bind (fun gs h1 l1 hgs => ?_)
    refine (ih (fun q hq => (hps q (by simp [hq])).up l1)).bind (fun gs' h2 _ hgs' => ?_)
    exact At.pure (hgs.append hgs')

theorem HasType.uList_inv {h : Heap} {n : Nat} {p : Ptr} (hp : HasType h n p .uList) :
    ∃ m r ps t, n = m + 1 ∧ p = some r ∧ h[r]? = some (.rRollList ps t) ∧
      (∀ p ∈ ps, HasType h m p .uRoll) ∧ (¬ IsAbsent h t → HasType h m t .integer) := by
  cases hp with
  | uRolls hr hp ht _ => exact ⟨_, _, _, _, rfl, rfl, hr, hp, ht⟩
  | command _ _ hτ hτ' _ => simp [Ty.HasValue] at hτ hτ'

include hF hE in
theorem At.uRollList {h : Heap} {ev : Ptr → H σ Value} {n : Nat} (hev : EvalAt I Err ev n) {list : Ptr}
    (hl : HasType h n list .uList) :
    At I Err h (evalURollList E ev list) (fun gs _ => Groups gs) := by
  obtain ⟨m, r, ps, t, rfl, rfl, hr, hps, ht⟩ := hl.uList_inv
  unfold evalURollList
  refine At.deref hr ?_
  refine At.threshold ht (fun r o hr ho hor => ?_)
  rcases hor with hn | ⟨hn, hi⟩
  · rw [if_pos hn]; exact At.fail (hE _ .thresholdU)
  · rw [if_neg (by simp [hn])]
    refine (hev (hi.deeper (by omega)) hasValue_integer).bind ?_
    rintro _ h1 l1 ⟨x, rfl⟩
    exact At.compoundingRolls hF hE hev (fun p hp => ((hps p hp).up l1).deeper (by omega)) x

include hF hE in
theorem At.uRollExpr {h : Heap} {ev : Ptr → H σ Value} {n : Nat} (hev : EvalAt I Err ev n) {list bonus : Ptr}
    (hl : HasType h n list .uList) (hb : bonus ≠ none → HasType h n bonus .integer) :
    At I Err h (evalURollExpr E ev list bonus) (fun v _ => Ty.uResult.Fits v) := by
  unfold evalURollExpr
  refine At.bind (Q := fun _ _ => True) ?_ ?_
  · unfold evalModifier
    refine At.ite (fun _ => At.pure trivial) (fun hn => ?_)
    refine (hev (hb hn) hasValue_integer).bind ?_
    rintro _ h1 _ ⟨x, rfl⟩
    exact At.pure trivial
  · intro m h1 l1 _
    refine (At.uRollList hF hE hev ((hl.up l1).deeper (by omega))).bind (fun gs h2 _ hgs => ?_)
    exact At.pure ⟨_, _, rfl, hgs⟩

theorem sumLoop_numbers {vs : List Value} (h : Numbers vs) (acc : Int64) : ∃ s, Value.sumLoop acc vs = some s := by
  induction vs generalizing acc with
  | nil => exact ⟨_, rfl⟩
  | cons v vs ih =>
    obtain ⟨⟨x, rfl⟩, h'⟩ := h.tail
    exact ih h' _

theorem At.sumOfGroups {h : Heap} {gs : List Value} (hgs : Groups gs) :
    At I Err h (Raw.sumOfGroups gs : H σ _) (fun vs _ => Numbers vs ∧ vs.length = gs.length) := by
  induction gs generalizing h with
  | nil => exact At.pure ⟨.nil, rfl⟩
  | cons g gs ih =>
    obtain ⟨⟨vs, rfl, hvs⟩, hgs'⟩ := hgs.tail
    unfold Raw.sumOfGroups
    refine At.bind (Q := fun ws _ => ws = vs) (At.pure rfl) ?_
    rintro _ h2 l2 rfl
    obtain ⟨s, hs⟩ := sumLoop_numbers hvs 0
    unfold Value.sumOfIntegers
    rw [hs]
    refine (ih hgs').bind (fun ws h3 _ hws => At.pure ?_)
    obtain ⟨⟨ns, rfl⟩, hl⟩ := hws
    exact ⟨⟨s :: ns, rfl⟩, by simp at hl; simp [hl]⟩

theorem At.addModifier {h : Heap} {m : Int64} {vs : List Value} (hvs : Numbers vs) :
    At I Err h (Raw.addModifier m vs : H σ _) (fun vs _ => Numbers vs) := by
  induction vs generalizing h with
  | nil => exact At.pure .nil
  | cons v vs ih =>
    obtain ⟨⟨x, rfl⟩, hvs'⟩ := hvs.tail
    unfold Raw.addModifier
    refine At.bind (Q := fun y _ => y = x) (At.pure rfl) ?_
    rintro _ h2 l2 rfl
    refine (ih hvs').bind (fun ws h3 _ hws => At.pure ?_)
    obtain ⟨ns, rfl⟩ := hws
    exact ⟨(_ + m) :: ns, rfl⟩

/-! ### Comparisons of rolls, choices -/

theorem HasType.compared_inv {h : Heap} {n : Nat} {p : Ptr} {τ : Ty} (hp : HasType h n p (.compared τ)) :
    ∃ m r op x y, n = m + 1 ∧ p = some r ∧ h[r]? = some (.binary (.compare op) x y) ∧ op ∈ comparisonOperators ∧
      (τ = .values ∨ τ = .groups ∨ τ = .uResult) ∧ HasType h m x τ ∧ HasType h m y .integer := by
  cases hp with
  | compared hr ho hτ _ hx hy => exact ⟨_, _, _, _, _, rfl, rfl, hr, ho, hτ, hx, hy⟩
  | command _ _ hτ hτ' _ => simp [Ty.HasValue] at hτ hτ'

theorem EvalAt.two {ev : Ptr → H σ Value} {n : Nat} (hev : EvalAt I Err ev n) (hn : 2 ≤ n) :
    ∃ m, EvalAt I Err ev (m + 2) := ⟨n - 2, by rwa [Nat.sub_add_cancel hn]⟩

theorem At.asBasicInfix {h : Heap} {r : Ref} {op : Str} {x y : Ptr} {f : InfixKind × Ptr × Ptr → H σ β}
    {R : β → Heap → Prop} (hr : h[r]? = some (.binary (.compare op) x y))
    (hf : At I Err h (f (.compare op, x, y)) R) : At I Err h (Raw.asBasicInfix (some r) >>= f) R := by
  refine At.bind (Q := fun a h' => a = (.compare op, x, y) ∧ h' = h) ?_ ?_
  · exact At.deref hr (At.pure ⟨rfl, rfl⟩)
  · rintro _ _ _ ⟨rfl, rfl⟩
    exact hf

theorem At.bRollComp {h : Heap} {ev : Ptr → H σ Value} {n : Nat} (hev : EvalAt I Err ev n) {e : Ptr}
    (he : HasType h n e (.compared .values)) :
    At I Err h (evalBRollComp ev e) (fun v _ => Ty.bSuccesses.Fits v) := by
  obtain ⟨m, r, op, x, y, rfl, rfl, hr, ho, -, hx, hy⟩ := he.compared_inv
  obtain ⟨k, hev2⟩ := hev.two (by have := hx.pos; omega)
  unfold evalBRollComp
  refine At.asBasicInfix hr ?_
  refine (At.operands hev (hx.deeper (by omega)) (hy.deeper (by omega)) ⟨by simp, by simp, by simp⟩
    hasValue_integer).bind ?_
  rintro ⟨a, b⟩ h1 l1 ⟨⟨vs, rfl, hvs⟩, ⟨t, rfl⟩⟩
  refine (At.countSuccesses hev2 ho hvs 0).bind (fun c h2 _ _ => At.pure ⟨_, _, rfl, hvs⟩)

theorem At.rRollComp {h : Heap} {ev : Ptr → H σ Value} {n : Nat} (hev : EvalAt I Err ev n) {e : Ptr}
    (he : HasType h n e (.compared .groups)) :
    At I Err h (evalRRollComp ev e) (fun v _ => Ty.rSuccesses.Fits v) := by
  obtain ⟨m, r, op, x, y, rfl, rfl, hr, ho, -, hx, hy⟩ := he.compared_inv
  obtain ⟨k, hev2⟩ := hev.two (by have := hx.pos; omega)
  unfold evalRRollComp
  refine At.asBasicInfix hr ?_
  refine (At.operands hev (hx.deeper (by omega)) (hy.deeper (by omega)) ⟨by simp, by simp, by simp⟩
    hasValue_integer).bind ?_
  rintro ⟨a, b⟩ h1 l1 ⟨⟨vs, rfl, hvs⟩, ⟨t, rfl⟩⟩
  refine (At.countInGroups hev2 ho hvs 0).bind (fun c h2 _ _ => At.pure ⟨_, _, rfl, hvs⟩)

theorem At.uRollComp {h : Heap} {ev : Ptr → H σ Value} {n : Nat} (hev : EvalAt I Err ev n) {e : Ptr}
    (he : HasType h n e (.compared .uResult)) :
    At I Err h (evalURollComp ev e) (fun v _ => Ty.uSuccesses.Fits v) := by
  obtain ⟨m, r, op, x, y, rfl, rfl, hr, ho, -, hx, hy⟩ := he.compared_inv
  obtain ⟨k, hev2⟩ := hev.two (by have := hx.pos; omega)
  unfold evalURollComp
  refine At.asBasicInfix hr ?_
  refine (At.operands hev (hx.deeper (by omega)) (hy.deeper (by omega)) ⟨by simp, by simp, by simp⟩
    hasValue_integer).bind ?_
  rintro ⟨a, b⟩ h1 l1 ⟨⟨gs, m, rfl, hgs⟩, ⟨t, rfl⟩⟩
  refine (At.sumOfGroups hgs).bind (fun sums h2 _ hs => ?_)
  refine (At.addModifier hs.1).bind (fun ms h3 _ hms => ?_)
  refine At.bind (Q := fun x _ => x = t) (At.pure rfl) ?_
  rintro _ h4 _ rfl
  refine (At.countSuccesses hev2 ho hms 0).bind (fun c h2 _ _ => At.pure ⟨_, _, _, rfl, hgs⟩)

include hF hE in
theorem At.choice {h : Heap} {items : List Ptr} (hl : items.length < 2 ^ 63) (hi : ∀ p ∈ items, IsString h p) :
    At I Err h (evalChoice E items) (fun v _ => Ty.text.Fits v) := by
  unfold evalChoice
  refine At.bind (Q := fun ds h' => (Rolled 1 (Int64.ofNat items.length) ds ∧ ∀ d ∈ ds, d.Fair) ∧ h' = h) ?_ ?_
  · intro st hs
    have := At.rollDice (Err := Err) (h := h) hF hE 1 (Int64.ofNat items.length) st hs
    refine ⟨this.1, this.2.1, ?_⟩
    have h2 := this.2.2
    unfold H.lift at h2 ⊢
    rcases hx : E.rollDice 1 (Int64.ofNat items.length) st with ⟨o, st'⟩
    rw [hx] at h2
    cases o with
    | ok ds => exact ⟨h2, rfl⟩
    | err e => exact h2
    | panic m => exact h2
  rintro ds _ _ ⟨⟨hr, hfair⟩, rfl⟩
  refine At.firstDie hr (fun d hd => ?_)
  subst hd
  have hd := hfair d (by simp)
  have hs : d.sides = Int64.ofNat items.length := by
    have := hr.2.2.2.2
    simpa using this
  have h1 : 1 ≤ d.value.toInt := by
    have := Int64.le_iff_toInt_le.mp hd.1
    simpa using this
  have h2 : d.value.toInt ≤ items.length := by
    have := Int64.le_iff_toInt_le.mp hd.2
    rw [hs, Int64.toInt_ofNat_of_lt hl] at this
    exact this
  have h3 : (d.value - 1).toInt = d.value.toInt - 1 := by
    rw [Int64.toInt_sub]
    have : (1 : Int64).toInt = 1 := by decide
    rw [this]
    apply Int.bmod_eq_of_le <;> have := d.value.toInt_lt <;> omega
  refine At.ite (fun hc => ?_) (fun _ => ?_)
  · rw [Int64.lt_iff_toInt_lt, h3] at hc
    have : (0 : Int64).toInt = 0 := by decide
    omega
  · obtain ⟨p, hp⟩ : ∃ p, items[(d.value - 1).toInt.toNat]? = some p := by
      refine ⟨_, List.getElem?_eq_getElem (by rw [h3]; omega)⟩
    simp only [hp]
    obtain ⟨r, s, rfl, hr⟩ := hi p (List.mem_of_getElem? hp)
    exact At.deref hr (At.pure ⟨s, rfl⟩)


/-! ### All nodes -/

include hF hE in
theorem At.rollInfix {h : Heap} (op : Str) (hop : op = chars!"B" ∨ op = chars!"R") (a b : Int64) :
    At I Err h (evalIntegerInfix E op a b) (fun v _ => Ty.roll.Fits v) := by
  have key : At I Err h (do
      let ds ← H.lift (E.rollDice a b)
      Pure.pure (Value.array (ds.map (fun d => Value.integer d.value)))) (fun v _ => Ty.roll.Fits v) :=
    (At.rollDice hF hE a b).bind (fun ds h' _ _ => At.pure ⟨_, rfl, ds.map (·.value), by simp⟩)
  rcases hop with rfl | rfl <;> exact key

include hF hE in
/-- Evaluating a node that makes sense. -/
theorem evalAt (d : Nat) : ∀ n, n ≤ d → EvalAt I Err (eval E d) n := by
  induction d with
  | zero =>
    intro n hn h p τ hp
    have := hp.pos
    omega
  | succ d ih =>
    intro n hn h p τ hp hτ
    unfold eval evalStep
    cases hp with
    | int hr => exact At.deref hr (At.pure ⟨_, rfl⟩)
    | sumRoll hr => exact At.deref hr (At.pure ⟨_, rfl⟩)
    | minus hr hx =>
      refine At.deref hr ?_
      show At I Err h (evalPrefix (eval E d) _) _
      unfold evalPrefix
      rw [if_neg hx.ne_none]
      refine (ih _ (by omega) hx hasValue_integer).bind ?_
      rintro _ h1 _ ⟨x, rfl⟩
      exact At.pure ⟨_, rfl⟩
    | number hr hk hx hy =>
      refine At.deref hr (At.infix (ih _ (by omega)) hx hy ?_ ?_)
      · rintro a b h' m rfl
        simp [numberOperators, InfixKind.operator] at hk
      · intro a b h' _
        exact At.integerInfix hF hE hk a b
    | division hr hx hy =>
      refine At.deref hr (At.infix (ih _ (by omega)) hx hy ?_ ?_)
      · rintro a b h' m _
        exact At.integerDivide hE m a b
      · intro a b h' hc
        exact absurd rfl (hc _)
    | comparison hr hk hx hy =>
      refine At.deref hr (At.infix (ih _ (by omega)) hx hy ?_ ?_)
      · rintro a b h' m rfl
        simp [comparisonOperators, InfixKind.operator] at hk
      · intro a b h' _
        exact At.integerCompare hk a b
    | roll hr hk hx hy =>
      refine At.deref hr (At.infix (ih _ (by omega)) hx hy ?_ ?_)
      · rintro a b h' m rfl
        simp at hk
      · intro a b h' _
        exact At.rollInfix hF hE _ (by rcases hk with rfl | rfl <;> simp [InfixKind.operator]) a b
    | uRoll => exact absurd rfl hτ.1
    | bRolls hr hps =>
      refine At.deref hr ?_
      exact (At.bRolls (ih _ (by omega)) hps).bind (fun vs _ _ hvs => At.pure ⟨_, rfl, hvs⟩)
    | rRolls hr hps ht _ =>
      refine At.deref hr ?_
      exact (At.rRollList hE (ih _ (by omega)) hps ht).bind (fun vs _ _ hvs => At.pure ⟨_, rfl, hvs⟩)
    | uRolls => exact absurd rfl hτ.2.1
    | uExpr hr hl _ hb =>
      exact At.deref hr (At.uRollExpr hF hE (ih _ (by omega)) hl hb)
    | choice hr hi hl => exact At.deref hr (At.choice hF hE hl hi)
    | command hr ht _ _ he =>
      refine At.deref hr ?_
      rcases ht with rfl | rfl | rfl <;> exact ih _ (by omega) he hτ
    | compared => exact absurd rfl (hτ.2.2 _)
    | bSuccesses hr he => exact At.deref hr (At.bRollComp (ih _ (by omega)) he)
    | rSuccesses hr he => exact At.deref hr (At.rRollComp (ih _ (by omega)) he)
    | uSuccesses hr he => exact At.deref hr (At.uRollComp (ih _ (by omega)) he)

end
end

end GoBCDice.Raw
