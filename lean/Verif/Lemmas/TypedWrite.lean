import Verif.Lemmas.Typed

/-! # Overwriting links of nodes that make sense -/

namespace GoBCDice.Raw

variable {σ α β : Type}

/-- The rules of `HasType`, read from the object. -/
def Rule (h : Heap) (n : Nat) (τ : Ty) : Obj → Prop
  | .int _ => τ = .integer
  | .sumRoll _ => τ = .integer
  | .unary x => τ = .integer ∧ HasType h n x .integer
  | .binary k x y => HasType h n y .integer ∧
      ((τ = .integer ∧ (k.operator ∈ numberOperators ∨ ∃ m, k = .div m) ∧ HasType h n x .integer) ∨
       (τ = .boolean ∧ k.operator ∈ comparisonOperators ∧ HasType h n x .integer) ∨
       (τ = .roll ∧ (k = .bRoll ∨ k = .rRoll) ∧ HasType h n x .integer) ∨
       (τ = .uRoll ∧ k = .uRoll ∧ HasType h n x .integer) ∨
       ∃ op ρ, τ = .compared ρ ∧ k = .compare op ∧ op ∈ comparisonOperators ∧
         (ρ = .values ∨ ρ = .groups ∨ ρ = .uResult) ∧ IsRolls h x ∧ HasType h n x ρ)
  | .bRollList ps => τ = .values ∧ ∀ p ∈ ps, HasType h n p .roll
  | .rRollList ps t => 0 < n ∧ (¬ IsAbsent h t → HasType h n t .integer) ∧
      ((τ = .groups ∧ ∀ p ∈ ps, HasType h n p .roll) ∨ (τ = .uList ∧ ∀ p ∈ ps, HasType h n p .uRoll))
  | .uRollExpr list bonus => τ = .uResult ∧ HasType h n list .uList ∧
      (bonus ≠ none → IsBasicInfix h bonus) ∧ (bonus ≠ none → HasType h n bonus .integer)
  | .choice items => τ = .text ∧ (∀ p ∈ items, IsString h p) ∧ items.length < 2 ^ 63
  | .command ty e =>
      ((ty = .calc ∨ ty = .dRollExpr ∨ ty = .dRollComp) ∧ τ.HasValue ∧ τ ≠ .roll ∧ HasType h n e τ) ∨
      (τ = .bSuccesses ∧ ty = .bRollComp ∧ HasType h n e (.compared .values)) ∨
      (τ = .rSuccesses ∧ ty = .rRollComp ∧ HasType h n e (.compared .groups)) ∨
      (τ = .uSuccesses ∧ ty = .uRollComp ∧ HasType h n e (.compared .uResult))
  | .string _ => False
  | .nilNode => False

theorem HasType.rule {h : Heap} {n : Nat} {p : Ptr} {τ : Ty} (hp : HasType h n p τ) :
    ∃ m r o, n = m + 1 ∧ p = some r ∧ h[r]? = some o ∧ Rule h m τ o := by
  cases hp with
  | int hr => exact ⟨_, _, _, rfl, rfl, hr, rfl⟩
  | sumRoll hr => exact ⟨_, _, _, rfl, rfl, hr, rfl⟩
  | minus hr hx => exact ⟨_, _, _, rfl, rfl, hr, rfl, hx⟩
  | number hr hk hx hy => exact ⟨_, _, _, rfl, rfl, hr, hy, .inl ⟨rfl, .inl hk, hx⟩⟩
  | division hr hx hy => exact ⟨_, _, _, rfl, rfl, hr, hy, .inl ⟨rfl, .inr ⟨_, rfl⟩, hx⟩⟩
  | comparison hr hk hx hy => exact ⟨_, _, _, rfl, rfl, hr, hy, .inr (.inl ⟨rfl, hk, hx⟩)⟩
  | roll hr hk hx hy => exact ⟨_, _, _, rfl, rfl, hr, hy, .inr (.inr (.inl ⟨rfl, hk, hx⟩))⟩
  | uRoll hr hx hy => exact ⟨_, _, _, rfl, rfl, hr, hy, .inr (.inr (.inr (.inl ⟨rfl, rfl, hx⟩)))⟩
  | bRolls hr hp => exact ⟨_, _, _, rfl, rfl, hr, rfl, hp⟩
  | rRolls hr hp ht hn => exact ⟨_, _, _, rfl, rfl, hr, hn, ht, .inl ⟨rfl, hp⟩⟩
  | uRolls hr hp ht hn => exact ⟨_, _, _, rfl, rfl, hr, hn, ht, .inr ⟨rfl, hp⟩⟩
  | uExpr hr hl hb hb' => exact ⟨_, _, _, rfl, rfl, hr, rfl, hl, hb, hb'⟩
  | choice hr hi hl => exact ⟨_, _, _, rfl, rfl, hr, rfl, hi, hl⟩
  | command hr ht hv hτ he => exact ⟨_, _, _, rfl, rfl, hr, .inl ⟨ht, hv, hτ, he⟩⟩
  | compared hr ho hτ hi hx hy =>
    exact ⟨_, _, _, rfl, rfl, hr, hy, .inr (.inr (.inr (.inr ⟨_, _, rfl, rfl, ho, hτ, hi, hx⟩)))⟩
  | bSuccesses hr he => exact ⟨_, _, _, rfl, rfl, hr, .inr (.inl ⟨rfl, rfl, he⟩)⟩
  | rSuccesses hr he => exact ⟨_, _, _, rfl, rfl, hr, .inr (.inr (.inl ⟨rfl, rfl, he⟩))⟩
  | uSuccesses hr he => exact ⟨_, _, _, rfl, rfl, hr, .inr (.inr (.inr ⟨rfl, rfl, he⟩))⟩

theorem Rule.hasType {h : Heap} {n : Nat} {r : Ref} {o : Obj} {τ : Ty} (hr : h[r]? = some o) (ho : Rule h n τ o) :
    HasType h (n + 1) (some r) τ := by
  cases o with
  | int v => cases ho; exact .int hr
  | sumRoll ds => cases ho; exact .sumRoll hr
  | unary x => obtain ⟨rfl, hx⟩ := ho; exact .minus hr hx
  | binary k x y =>
    obtain ⟨hy, ⟨rfl, hk, hx⟩ | ⟨rfl, hk, hx⟩ | ⟨rfl, hk, hx⟩ | ⟨rfl, rfl, hx⟩ | ⟨op, ρ, rfl, rfl, ho, hρ, hi, hx⟩⟩ := ho
    · rcases hk with hk | ⟨m, rfl⟩
      · exact .number hr hk hx hy
      · exact .division hr hx hy
    · exact .comparison hr hk hx hy
    · exact .roll hr hk hx hy
    · exact .uRoll hr hx hy
    · exact .compared hr ho hρ hi hx hy
  | bRollList ps => obtain ⟨rfl, hp⟩ := ho; exact .bRolls hr hp
  | rRollList ps t =>
    obtain ⟨hn, ht, ⟨rfl, hp⟩ | ⟨rfl, hp⟩⟩ := ho
    · exact .rRolls hr hp ht hn
    · exact .uRolls hr hp ht hn
  | uRollExpr list bonus => obtain ⟨rfl, hl, hb, hb'⟩ := ho; exact .uExpr hr hl hb hb'
  | choice items => obtain ⟨rfl, hi, hl⟩ := ho; exact .choice hr hi hl
  | command ty e =>
    rcases ho with ⟨ht, hv, hτ, he⟩ | ⟨rfl, rfl, he⟩ | ⟨rfl, rfl, he⟩ | ⟨rfl, rfl, he⟩
    · exact .command hr ht hv hτ he
    · exact .bSuccesses hr he
    · exact .rSuccesses hr he
    · exact .uSuccesses hr he
  | string s => cases ho
  | nilNode => cases ho

/-- The rule of the node at `r`. -/
theorem HasType.ruleAt {h : Heap} {n : Nat} {r : Ref} {o : Obj} {τ : Ty} (hp : HasType h n (some r) τ)
    (hr : h[r]? = some o) : ∃ m, n = m + 1 ∧ Rule h m τ o := by
  obtain ⟨m, r', o', rfl, hr', ho', hrule⟩ := hp.rule
  cases hr'
  rw [hr] at ho'
  cases ho'
  exact ⟨m, rfl, hrule⟩

/-- A number has no other type. -/
theorem HasType.unique {h : Heap} {n : Nat} {p : Ptr} (hp : HasType h n p .integer) :
    ∀ {m τ}, HasType h m p τ → τ = .integer := by
  induction n generalizing p with
  | zero => have := hp.pos; omega
  | succ n ih =>
    intro m τ hq
    obtain ⟨n', r, o, hn, rfl, hr, ho⟩ := hp.rule
    obtain ⟨m', rfl, ho'⟩ := hq.ruleAt hr
    cases hn
    cases o with
    | int v => exact ho'
    | sumRoll ds => exact ho'
    | unary x => exact ho'.1
    | binary k x y =>
      obtain ⟨-, ⟨-, hk, -⟩ | h1 | h1 | h1 | ⟨_, _, h1, _⟩⟩ := ho
      · obtain ⟨-, ⟨h2, -⟩ | ⟨-, h2, -⟩ | ⟨-, h2, -⟩ | ⟨-, h2, -⟩ | ⟨op, ρ, -, h2, h3, -⟩⟩ := ho'
        · exact h2
        · exfalso
          rcases hk with hk | ⟨m, rfl⟩
          · simp only [numberOperators, comparisonOperators, List.mem_cons, List.not_mem_nil, or_false] at hk h2
            rcases hk with e | e | e | e | e <;> rw [e] at h2 <;> revert h2 <;> decide
          · simp [comparisonOperators, InfixKind.operator] at h2
        · exfalso
          rcases h2 with rfl | rfl <;> revert hk <;> simp [numberOperators, InfixKind.operator]
        · exfalso
          subst h2
          revert hk; simp [numberOperators, InfixKind.operator]
        · exfalso
          subst h2
          rcases hk with hk | ⟨m, hk⟩
          · simp only [numberOperators, comparisonOperators, InfixKind.operator, List.mem_cons, List.not_mem_nil,
              or_false] at hk h3
            rcases hk with e | e | e | e | e <;> rw [e] at h3 <;> revert h3 <;> decide
          · cases hk
      · cases h1.1
      · cases h1.1
      · cases h1.1
      · cases h1
    | bRollList ps => cases ho.1
    | rRollList ps t => obtain ⟨-, -, h | h⟩ := ho <;> cases h.1
    | uRollExpr l b => cases ho.1
    | choice items => cases ho.1
    | command ty e =>
      rcases ho with ⟨hty, -, -, he⟩ | ⟨h1, -⟩ | ⟨h1, -⟩ | ⟨h1, -⟩
      · rcases ho' with ⟨-, -, -, he'⟩ | ⟨-, rfl, -⟩ | ⟨-, rfl, -⟩ | ⟨-, rfl, -⟩
        · exact ih he he'
        all_goals simp at hty
      all_goals cases h1
    | string s => cases ho
    | nilNode => cases ho

/-! ## Writing -/

theorem skeleton_nil {o : Obj} (h : o.skeleton = Obj.nilNode.skeleton) : o = .nilNode := by
  cases o <;> simp [Obj.skeleton] at h ⊢

theorem skeleton_string {o : Obj} {s : Str} (h : o.skeleton = (Obj.string s).skeleton) : o = .string s := by
  cases o <;> simp [Obj.skeleton] at h ⊢
  exact h

theorem skeleton_binary {o : Obj} {k : InfixKind} {x y : Ptr} (h : o.skeleton = (Obj.binary k x y).skeleton) :
    ∃ x' y', o = .binary k x' y' := by
  cases o <;> simp [Obj.skeleton] at h ⊢
  exact h

theorem skeleton_unary {o : Obj} {x : Ptr} (h : o.skeleton = (Obj.unary x).skeleton) : ∃ x', o = .unary x' := by
  cases o <;> simp [Obj.skeleton] at h ⊢

theorem skeleton_command {o : Obj} {ty : CommandType} {x : Ptr} (h : o.skeleton = (Obj.command ty x).skeleton) :
    ∃ x', o = .command ty x' := by
  cases o <;> simp [Obj.skeleton] at h ⊢
  exact h

theorem skeleton_rRollList {o : Obj} {ps : List Ptr} {t : Ptr} (h : o.skeleton = (Obj.rRollList ps t).skeleton) :
    ∃ t', o = .rRollList ps t' := by
  cases o <;> simp [Obj.skeleton] at h ⊢
  exact h

theorem skeleton_uRollExpr {o : Obj} {l b : Ptr} (h : o.skeleton = (Obj.uRollExpr l b).skeleton) :
    ∃ b', o = .uRollExpr l b' := by
  cases o <;> simp [Obj.skeleton] at h ⊢
  exact h

theorem skeleton_bRollList {o : Obj} {ps : List Ptr} (h : o.skeleton = (Obj.bRollList ps).skeleton) :
    o = .bRollList ps := by
  cases o <;> simp [Obj.skeleton] at h ⊢
  exact h

/-- All objects keep their skeletons. -/
def SameSkeletons (h h' : Heap) : Prop :=
  ∀ (r : Ref) (o : Obj), h[r]? = some o → ∃ o' : Obj, h'[r]? = some o' ∧ o'.skeleton = o.skeleton

theorem IsAbsent.same {h h' : Heap} {p : Ptr} (hs : SameSkeletons h h') (hp : IsAbsent h p) : IsAbsent h' p := by
  obtain ⟨r, rfl, hr⟩ := hp
  obtain ⟨o, ho, hk⟩ := hs r _ hr
  exact ⟨r, rfl, by rw [ho, skeleton_nil hk]⟩

theorem IsString.same {h h' : Heap} {p : Ptr} (hs : SameSkeletons h h') (hp : IsString h p) : IsString h' p := by
  obtain ⟨r, s, rfl, hr⟩ := hp
  obtain ⟨o, ho, hk⟩ := hs r _ hr
  exact ⟨r, s, rfl, by rw [ho, skeleton_string hk]⟩

theorem IsBasicInfix.same {h h' : Heap} {p : Ptr} (hs : SameSkeletons h h') (hp : IsBasicInfix h p) :
    IsBasicInfix h' p := by
  obtain ⟨r, k, x, y, rfl, hr, hb⟩ := hp
  obtain ⟨o, ho, hk⟩ := hs r _ hr
  obtain ⟨x', y', rfl⟩ := skeleton_binary hk
  exact ⟨r, k, x', y', rfl, ho, hb⟩

theorem IsRolls.same {h h' : Heap} {p : Ptr} (hs : SameSkeletons h h') (hp : IsRolls h p) : IsRolls h' p := by
  obtain ⟨r, o, rfl, hr, hb⟩ := hp
  obtain ⟨o', ho, hk⟩ := hs r _ hr
  refine ⟨r, o', rfl, ho, ?_⟩
  cases o <;> cases hb <;> cases o' <;> simp [Obj.skeleton] at hk ⊢

/-- A rule goes over to another memory when the types of children and the skeletons do. -/
theorem Rule.mono {h h' : Heap} {n : Nat} {τ : Ty} {o : Obj} (hs : SameSkeletons h h')
    (ht : ∀ p τ, HasType h n p τ → HasType h' n p τ) (ho : Rule h n τ o) : Rule h' n τ o := by
  cases o with
  | int v => exact ho
  | sumRoll ds => exact ho
  | unary x => exact ⟨ho.1, ht _ _ ho.2⟩
  | binary k x y =>
    obtain ⟨hy, ⟨e, hk, hx⟩ | ⟨e, hk, hx⟩ | ⟨e, hk, hx⟩ | ⟨e, e', hx⟩ | ⟨op, ρ, e, e', ho, hρ, hi, hx⟩⟩ := ho
    · exact ⟨ht _ _ hy, .inl ⟨e, hk, ht _ _ hx⟩⟩
    · exact ⟨ht _ _ hy, .inr (.inl ⟨e, hk, ht _ _ hx⟩)⟩
    · exact ⟨ht _ _ hy, .inr (.inr (.inl ⟨e, hk, ht _ _ hx⟩))⟩
    · exact ⟨ht _ _ hy, .inr (.inr (.inr (.inl ⟨e, e', ht _ _ hx⟩)))⟩
    · exact ⟨ht _ _ hy, .inr (.inr (.inr (.inr ⟨op, ρ, e, e', ho, hρ, hi.same hs, ht _ _ hx⟩)))⟩
  | bRollList ps => exact ⟨ho.1, fun p hp => ht _ _ (ho.2 p hp)⟩
  | rRollList ps t =>
    obtain ⟨hn, h1, ⟨e, hp⟩ | ⟨e, hp⟩⟩ := ho
    · exact ⟨hn, fun ha => ht _ _ (h1 (fun hb => ha (hb.same hs))), .inl ⟨e, fun p h => ht _ _ (hp p h)⟩⟩
    · exact ⟨hn, fun ha => ht _ _ (h1 (fun hb => ha (hb.same hs))), .inr ⟨e, fun p h => ht _ _ (hp p h)⟩⟩
  | uRollExpr list bonus =>
    obtain ⟨e, hl, hb, hb'⟩ := ho
    exact ⟨e, ht _ _ hl, fun hn => (hb hn).same hs, fun hn => ht _ _ (hb' hn)⟩
  | choice items => exact ⟨ho.1, fun p hp => (ho.2.1 p hp).same hs, ho.2.2⟩
  | command ty e =>
    rcases ho with ⟨h1, h2, h3, he⟩ | ⟨e, h1, he⟩ | ⟨e, h1, he⟩ | ⟨e, h1, he⟩
    · exact .inl ⟨h1, h2, h3, ht _ _ he⟩
    · exact .inr (.inl ⟨e, h1, ht _ _ he⟩)
    · exact .inr (.inr (.inl ⟨e, h1, ht _ _ he⟩))
    · exact .inr (.inr (.inr ⟨e, h1, ht _ _ he⟩))
  | string s => exact ho
  | nilNode => exact ho

theorem get_lt {h : Heap} {r : Ref} {o : Obj} (hr : h[r]? = some o) : r < h.length := by
  apply Nat.lt_of_not_le
  intro hle
  rw [List.getElem?_eq_none hle] at hr
  cases hr

theorem get_set {h : Heap} {r : Ref} {o o' : Obj} (hr : h[r]? = some o) : (h.set r o')[r]? = some o' := by
  rw [List.getElem?_set_self (get_lt hr)]

theorem get_set_ne {h : Heap} {r q : Ref} {o' : Obj} (hne : q ≠ r) : (h.set r o')[q]? = h[q]? := by
  rw [List.getElem?_set_ne (fun e => hne e.symm)]

theorem same_set {h : Heap} {r : Ref} {o o' : Obj} (hr : h[r]? = some o) (hs : o'.skeleton = o.skeleton) :
    SameSkeletons h (h.set r o') := by
  intro q p hq
  by_cases hqr : q = r
  · subst hqr
    rw [hr] at hq
    cases hq
    exact ⟨o', get_set hr, hs⟩
  · exact ⟨p, by rw [get_set_ne hqr, hq], rfl⟩

/-- Overwriting a node so that it keeps all its types. -/
theorem Le.set {h : Heap} {r : Ref} {o o' : Obj} (hr : h[r]? = some o) (hs : o'.skeleton = o.skeleton)
    (hk : ∀ n τ, (∀ p τ, HasType h n p τ → HasType (h.set r o') n p τ) → Rule h n τ o →
      Rule (h.set r o') n τ o → Rule (h.set r o') n τ o') : Le h (h.set r o') := by
  have hss := same_set hr hs
  refine ⟨?_, hss⟩
  intro n
  induction n with
  | zero => intro p τ hp; have := hp.pos; omega
  | succ n ih =>
    intro p τ hp
    obtain ⟨m, q, x, hm, rfl, hq, hx⟩ := hp.rule
    cases hm
    by_cases hqr : q = r
    · subst hqr
      rw [hr] at hq
      cases hq
      exact Rule.hasType (get_set hr) (hk n τ ih hx (hx.mono hss ih))
    · exact Rule.hasType (by rw [get_set_ne hqr, hq]) (hx.mono hss ih)

/-- A number or the result of a roll. -/
def IsLiteral (h : Heap) (q : Ref) : Prop := (∃ v, h[q]? = some (.int v)) ∨ ∃ ds, h[q]? = some (.sumRoll ds)

theorem IsLiteral.typed {h : Heap} {q : Ref} (hq : IsLiteral h q) {n : Nat} (hn : 1 ≤ n) :
    HasType h n (some q) .integer := by
  obtain ⟨n, rfl⟩ : ∃ m, n = m + 1 := ⟨n - 1, by omega⟩
  rcases hq with ⟨v, hv⟩ | ⟨ds, hd⟩
  · exact .int hv
  · exact .sumRoll hd

theorem IsLiteral.set {h : Heap} {q r : Ref} {o o' : Obj} (hq : IsLiteral h q) (hr : h[r]? = some o)
    (hn : (∀ v, o ≠ .int v) ∧ ∀ ds, o ≠ .sumRoll ds) : IsLiteral (h.set r o') q := by
  have hne : q ≠ r := by
    rintro rfl
    rcases hq with ⟨v, hv⟩ | ⟨ds, hd⟩
    · rw [hr] at hv; cases hv; exact hn.1 _ rfl
    · rw [hr] at hd; cases hd; exact hn.2 _ rfl
  unfold IsLiteral
  rw [get_set_ne hne]
  exact hq

theorem IsLiteral.append {h x : Heap} {q : Ref} (hq : IsLiteral h q) : IsLiteral (h ++ x) q := by
  rcases hq with ⟨v, hv⟩ | ⟨ds, hd⟩
  · exact .inl ⟨v, get_append hv⟩
  · exact .inr ⟨ds, get_append hd⟩

theorem le_setRight {h : Heap} {r q : Ref} {k : InfixKind} {l y : Ptr} (hr : h[r]? = some (.binary k l y))
    (hq : IsLiteral h q) : Le h (h.set r (.binary k l (some q))) := by
  refine Le.set hr rfl ?_
  intro n τ ih ho ho'
  have hq' := hq.set (o' := .binary k l (some q)) hr ⟨by simp, by simp⟩
  exact ⟨hq'.typed ho.1.pos, ho'.2⟩

theorem le_setMinus {h : Heap} {r q : Ref} {y : Ptr} (hr : h[r]? = some (.unary y)) (hq : IsLiteral h q) :
    Le h (h.set r (.unary (some q))) := by
  refine Le.set hr rfl ?_
  intro n τ ih ho ho'
  have hq' := hq.set (o' := .unary (some q)) hr ⟨by simp, by simp⟩
  exact ⟨ho'.1, hq'.typed ho.2.pos⟩

theorem le_setLeft {h : Heap} {r q : Ref} {k : InfixKind} {l y : Ptr} (hr : h[r]? = some (.binary k l y))
    (hq : IsLiteral h q) (hl : ∀ op, k = .compare op → ∀ n τ, HasType h n l τ → τ = .integer) :
    Le h (h.set r (.binary k (some q) y)) := by
  refine Le.set hr rfl ?_
  intro n τ ih ho ho'
  have hq' := hq.set (o' := .binary k (some q) y) hr ⟨by simp, by simp⟩
  have hn := ho.1.pos
  obtain ⟨-, ⟨e, hk, hx⟩ | ⟨e, hk, hx⟩ | ⟨e, hk, hx⟩ | ⟨e, e', hx⟩ | ⟨op, ρ, e, e', ho, hρ, hi, hx⟩⟩ := ho
  · exact ⟨ho'.1, .inl ⟨e, hk, hq'.typed hn⟩⟩
  · exact ⟨ho'.1, .inr (.inl ⟨e, hk, hq'.typed hn⟩)⟩
  · exact ⟨ho'.1, .inr (.inr (.inl ⟨e, hk, hq'.typed hn⟩))⟩
  · exact ⟨ho'.1, .inr (.inr (.inr (.inl ⟨e, e', hq'.typed hn⟩)))⟩
  · have := hl op e' n ρ hx
    subst this
    simp at hρ

theorem le_setExpression {h : Heap} {r q : Ref} {ty : CommandType} {e : Ptr} (hr : h[r]? = some (.command ty e))
    (hq : IsLiteral h q) (he : ∀ n τ, HasType h n e τ → τ = .integer) : Le h (h.set r (.command ty (some q))) := by
  refine Le.set hr rfl ?_
  intro n τ ih ho ho'
  have hq' := hq.set (o' := .command ty (some q)) hr ⟨by simp, by simp⟩
  rcases ho with ⟨h1, h2, h3, hx⟩ | ⟨-, -, hx⟩ | ⟨-, -, hx⟩ | ⟨-, -, hx⟩
  · have := he _ _ hx
    subst this
    exact .inl ⟨h1, h2, h3, hq'.typed hx.pos⟩
  all_goals cases he _ _ hx

theorem le_setThreshold {h : Heap} {r q : Ref} {ps : List Ptr} {t : Ptr} (hr : h[r]? = some (.rRollList ps t))
    (hq : IsLiteral h q) : Le h (h.set r (.rRollList ps (some q))) := by
  refine Le.set hr rfl ?_
  intro n τ ih ho ho'
  have hq' := hq.set (o' := .rRollList ps (some q)) hr ⟨by simp, by simp⟩
  exact ⟨ho'.1, fun _ => hq'.typed ho.1, ho'.2.2⟩

theorem le_setNoBonus {h : Heap} {r : Ref} {list b : Ptr} (hr : h[r]? = some (.uRollExpr list b)) :
    Le h (h.set r (.uRollExpr list none)) := by
  refine Le.set hr rfl ?_
  intro n τ ih ho ho'
  exact ⟨ho'.1, ho'.2.1, fun hn => absurd rfl hn, fun hn => absurd rfl hn⟩

theorem le_setBonus {h : Heap} {r q x y : Ref} {k : InfixKind} {list b : Ptr} (hr : h[r]? = some (.uRollExpr list b))
    (hq : h[q]? = some (.binary k (some x) (some y))) (hk : k.isBasicInfix = true)
    (hk' : k.operator ∈ numberOperators) (hx : IsLiteral h x) (hy : IsLiteral h y) :
    Le h (h.set r (.uRollExpr list (some q))) := by
  refine Le.set hr rfl ?_
  intro n τ ih ho ho'
  have hne : q ≠ r := by
    rintro rfl
    rw [hr] at hq
    cases hq
  have hq' : (h.set r (.uRollExpr list (some q)))[q]? = some (.binary k (some x) (some y)) := by
    rw [get_set_ne hne, hq]
  have hx' := hx.set (o' := .uRollExpr list (some q)) hr ⟨by simp, by simp⟩
  have hy' := hy.set (o' := .uRollExpr list (some q)) hr ⟨by simp, by simp⟩
  refine ⟨ho'.1, ho'.2.1, fun _ => ⟨q, k, _, _, rfl, hq', hk⟩, fun _ => ?_⟩
  have hn : 2 ≤ n := by
    cases ho.2.1 with
    | uRolls _ _ _ hn => omega
    | command _ _ hτ _ _ => simp [Ty.HasValue] at hτ
  obtain ⟨m, rfl⟩ : ∃ m, n = m + 2 := ⟨n - 2, by omega⟩
  exact .number hq' hk' (hx'.typed (by omega)) (hy'.typed (by omega))

end GoBCDice.Raw
