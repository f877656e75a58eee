import Verif.Lemmas.Typed
import Verif.Spec.Raw

/-! # Only nodes that make sense have numbers and truth values -/

namespace GoBCDice.Raw

variable {σ α β : Type}

theorem bind_ok_inv {m : H σ α} {f : α → H σ β} {S T : HSt σ} {b : β} (h : (m >>= f) S = (.ok b, T)) :
    ∃ a S', m S = (.ok a, S') ∧ f a S' = (.ok b, T) := by
  have h' : H.bnd m f S = (.ok b, T) := h
  unfold H.bnd at h'
  rcases hx : m S with ⟨o, S'⟩
  rw [hx] at h'
  cases o with
  | ok a => exact ⟨a, S', rfl, h'⟩
  | err e => cases h'
  | panic e => cases h'

theorem pure_ok_inv {S T : HSt σ} {a b : α} (h : (pure a : H σ α) S = (.ok b, T)) : a = b ∧ S = T := by
  cases h
  exact ⟨rfl, rfl⟩

theorem deref_ok_inv {p : Ptr} {S T : HSt σ} {o : Obj} (h : (deref p : H σ Obj) S = (.ok o, T)) :
    ∃ r, p = some r ∧ S.heap[r]? = some o ∧ T = S := by
  cases p with
  | none => cases h
  | some r =>
    unfold deref at h
    rcases hx : S.heap[r]? with _ | o'
    · simp only [hx] at h; cases h
    · simp only [hx] at h
      cases h
      exact ⟨r, rfl, hx, rfl⟩

theorem ite_ok_inv {c : Prop} [Decidable c] {x y : H σ α} {S : HSt σ} {r : Out α × HSt σ}
    (h : (if c then x else y) S = r) : c ∧ x S = r ∨ ¬ c ∧ y S = r := by
  by_cases hc : c
  · rw [if_pos hc] at h; exact .inl ⟨hc, h⟩
  · rw [if_neg hc] at h; exact .inr ⟨hc, h⟩

/-- Numbers and truth values. -/
def Value.isScalar : Value → Bool
  | .integer _ => true
  | .boolean _ => true
  | _ => false

/-- The type of a number or truth value. -/
def Value.ty : Value → Ty
  | .boolean _ => .boolean
  | _ => .integer

/-- The first `m` nodes refer to one another only. -/
def ClosedBelow (h : Heap) (m : Nat) : Prop :=
  m ≤ h.length ∧ NoDangling (h.take m)

theorem ClosedBelow.grow {h h' : Heap} {m : Nat} (hc : ClosedBelow h m) (hx : ∃ x, h' = h ++ x) :
    ClosedBelow h' m ∧ h'.take m = h.take m := by
  obtain ⟨x, rfl⟩ := hx
  have ht : (h ++ x).take m = h.take m := by rw [List.take_append_of_le_length hc.1]
  refine ⟨⟨?_, by rw [ht]; exact hc.2⟩, ht⟩
  have := hc.1
  simp only [List.length_append]
  omega

theorem evalIntegerInfix_scalar {E : Evaluator σ} {op : Str} {a b : Int64} {S T : HSt σ} {v : Value}
    (h : evalIntegerInfix E op a b S = (.ok v, T)) (hv : v.isScalar = true) :
    op ∈ numberOperators ∧ v.ty = .integer ∨ op ∈ comparisonOperators ∧ v.ty = .boolean := by
  unfold evalIntegerInfix at h
  rcases ite_ok_inv h with ⟨hop, h⟩ | ⟨_, h⟩
  · obtain ⟨rfl, _⟩ := pure_ok_inv h; exact .inl ⟨by simp [numberOperators, hop], rfl⟩
  rcases ite_ok_inv h with ⟨hop, h⟩ | ⟨_, h⟩
  · obtain ⟨rfl, _⟩ := pure_ok_inv h; exact .inl ⟨by simp [numberOperators, hop], rfl⟩
  rcases ite_ok_inv h with ⟨hop, h⟩ | ⟨_, h⟩
  · obtain ⟨rfl, _⟩ := pure_ok_inv h; exact .inl ⟨by simp [numberOperators, hop], rfl⟩
  rcases ite_ok_inv h with ⟨hop, h⟩ | ⟨_, h⟩
  · obtain ⟨_, _, _, h⟩ := bind_ok_inv h
    obtain ⟨rfl, _⟩ := pure_ok_inv h; exact .inl ⟨by simp [numberOperators, hop], rfl⟩
  rcases ite_ok_inv h with ⟨hop, h⟩ | ⟨_, h⟩
  · obtain ⟨_, _, _, h⟩ := bind_ok_inv h
    obtain ⟨rfl, _⟩ := pure_ok_inv h
    cases hv
  rcases ite_ok_inv h with ⟨hop, h⟩ | ⟨_, h⟩
  · rcases ite_ok_inv h with ⟨_, h⟩ | ⟨_, h⟩
    · cases h
    obtain ⟨_, _, _, h⟩ := bind_ok_inv h
    obtain ⟨_, _, _, h⟩ := bind_ok_inv h
    obtain ⟨rfl, _⟩ := pure_ok_inv h; exact .inl ⟨by simp [numberOperators, hop], rfl⟩
  rcases ite_ok_inv h with ⟨hop, h⟩ | ⟨_, h⟩
  · obtain ⟨rfl, _⟩ := pure_ok_inv h; exact .inr ⟨by simp [comparisonOperators, hop], rfl⟩
  rcases ite_ok_inv h with ⟨hop, h⟩ | ⟨_, h⟩
  · obtain ⟨rfl, _⟩ := pure_ok_inv h; exact .inr ⟨by simp [comparisonOperators, hop], rfl⟩
  rcases ite_ok_inv h with ⟨hop, h⟩ | ⟨_, h⟩
  · obtain ⟨rfl, _⟩ := pure_ok_inv h; exact .inr ⟨by simp [comparisonOperators, hop], rfl⟩
  rcases ite_ok_inv h with ⟨hop, h⟩ | ⟨_, h⟩
  · obtain ⟨rfl, _⟩ := pure_ok_inv h; exact .inr ⟨by simp [comparisonOperators, hop], rfl⟩
  rcases ite_ok_inv h with ⟨hop, h⟩ | ⟨_, h⟩
  · obtain ⟨rfl, _⟩ := pure_ok_inv h; exact .inr ⟨by simp [comparisonOperators, hop], rfl⟩
  rcases ite_ok_inv h with ⟨hop, h⟩ | ⟨_, h⟩
  · obtain ⟨rfl, _⟩ := pure_ok_inv h; exact .inr ⟨by simp [comparisonOperators, hop], rfl⟩
  cases h

theorem take_get {h : Heap} {m : Nat} {r : Ref} {o : Obj} (hr : r < m) (ho : h[r]? = some o) :
    (h.take m)[r]? = some o := by
  rw [List.getElem?_take_of_lt hr, ho]

theorem eval_scalar (E : Evaluator σ) (d : Nat) : ∀ (h : Heap) (m : Nat) (p : Ptr) (st : St σ) (v : Value) (T : HSt σ),
    ClosedBelow h m → (∀ r, p = some r → r < m) → eval E d p ⟨st, h⟩ = (.ok v, T) → v.isScalar = true →
    HasType (h.take m) d p v.ty := by
  induction d with
  | zero => intro h m p st v T _ _ he; cases he
  | succ d ih =>
    intro h m p st v T hc hp he hv
    unfold eval evalStep at he
    obtain ⟨o, S', h1, h2⟩ := bind_ok_inv he
    obtain ⟨r, rfl, ho, rfl⟩ := deref_ok_inv h1
    have hrm := hp r rfl
    have ho' := take_get hrm ho
    have hlen : (h.take m).length = m := by simp [hc.1]
    have hd := hc.2 r o ho'
    rw [hlen] at hd
    cases o with
    | bRollList ps =>
      obtain ⟨_, _, _, h2⟩ := bind_ok_inv h2
      obtain ⟨rfl, _⟩ := pure_ok_inv h2
      cases hv
    | rRollList ps t =>
      obtain ⟨_, _, _, h2⟩ := bind_ok_inv h2
      obtain ⟨rfl, _⟩ := pure_ok_inv h2
      cases hv
    | uRollExpr l b =>
      obtain ⟨_, _, _, h2⟩ := bind_ok_inv h2
      obtain ⟨_, _, _, h2⟩ := bind_ok_inv h2
      obtain ⟨rfl, _⟩ := pure_ok_inv h2
      cases hv
    | choice items =>
      obtain ⟨_, _, _, h2⟩ := bind_ok_inv h2
      obtain ⟨dd, _, _, h2⟩ := bind_ok_inv h2
      rcases ite_ok_inv h2 with ⟨_, h2⟩ | ⟨_, h2⟩
      · cases h2
      · rcases hx : items[(dd.value - 1).toInt.toNat]? with _ | q
        · simp only [hx] at h2
          cases h2
        · simp only [hx] at h2
          obtain ⟨o, _, _, h2⟩ := bind_ok_inv h2
          cases o <;> first | (obtain ⟨rfl, _⟩ := pure_ok_inv h2; cases hv) | cases h2
    | command ty e =>
      have key : eval E d e ⟨st, h⟩ = (.ok v, T) → (ty = .calc ∨ ty = .dRollExpr ∨ ty = .dRollComp) →
          HasType (h.take m) (d + 1) (some r) v.ty := by
        intro h3 hty
        refine .command ho' hty ?_ ?_ (ih h m e st v T hc hd h3 hv)
        · cases v <;> first | (cases hv; done) | exact ⟨by simp [Value.ty], by simp [Value.ty], by simp [Value.ty]⟩
        · cases v <;> first | (cases hv; done) | simp [Value.ty]
      cases ty with
      | «calc» => exact key h2 (by simp)
      | dRollExpr => exact key h2 (by simp)
      | dRollComp => exact key h2 (by simp)
      | bRollComp =>
        obtain ⟨⟨_, _, _⟩, _, _, h2⟩ := bind_ok_inv h2
        obtain ⟨⟨_, _⟩, _, _, h2⟩ := bind_ok_inv h2
        obtain ⟨_, _, _, h2⟩ := bind_ok_inv h2
        obtain ⟨_, _, _, h2⟩ := bind_ok_inv h2
        obtain ⟨_, _, _, h2⟩ := bind_ok_inv h2
        obtain ⟨rfl, _⟩ := pure_ok_inv h2
        cases hv
      | rRollComp =>
        obtain ⟨⟨_, _, _⟩, _, _, h2⟩ := bind_ok_inv h2
        obtain ⟨⟨_, _⟩, _, _, h2⟩ := bind_ok_inv h2
        obtain ⟨_, _, _, h2⟩ := bind_ok_inv h2
        obtain ⟨_, _, _, h2⟩ := bind_ok_inv h2
        obtain ⟨_, _, _, h2⟩ := bind_ok_inv h2
        obtain ⟨rfl, _⟩ := pure_ok_inv h2
        cases hv
      | uRollComp =>
        obtain ⟨⟨_, _, _⟩, _, _, h2⟩ := bind_ok_inv h2
        obtain ⟨⟨a, _⟩, _, _, h2⟩ := bind_ok_inv h2
        cases a with
        | uRollExpr gs m =>
          obtain ⟨_, _, _, h2⟩ := bind_ok_inv h2
          obtain ⟨_, _, _, h2⟩ := bind_ok_inv h2
          obtain ⟨_, _, _, h2⟩ := bind_ok_inv h2
          obtain ⟨_, _, _, h2⟩ := bind_ok_inv h2
          obtain ⟨rfl, _⟩ := pure_ok_inv h2
          cases hv
        | _ => cases h2
    | unary x =>
      have h3 : evalPrefix (eval E d) x ⟨st, h⟩ = (.ok v, T) := h2
      unfold evalPrefix at h3
      rcases ite_ok_inv h3 with ⟨_, h3⟩ | ⟨_, h3⟩
      · cases h3
      · obtain ⟨w, S2, hw, h4⟩ := bind_ok_inv h3
        cases w with
        | integer w =>
          obtain ⟨rfl, _⟩ := pure_ok_inv h4
          exact .minus ho' (ih h m x st (.integer w) S2 hc hd hw rfl)
        | _ => cases h4
    | binary k x y =>
      have h3 : evalInfix E (eval E d) k x y ⟨st, h⟩ = (.ok v, T) := h2
      unfold evalInfix at h3
      obtain ⟨⟨a, b⟩, S2, hab, h4⟩ := bind_ok_inv h3
      unfold evalOperands at hab
      rcases ite_ok_inv hab with ⟨_, hab⟩ | ⟨_, hab⟩
      · cases hab
      rcases ite_ok_inv hab with ⟨_, hab⟩ | ⟨_, hab⟩
      · cases hab
      obtain ⟨a', S3, ha, hab⟩ := bind_ok_inv hab
      obtain ⟨b', S4, hb, hab⟩ := bind_ok_inv hab
      obtain ⟨hab, rfl⟩ := pure_ok_inv hab
      cases hab
      cases a with
      | integer a' =>
        cases b with
        | integer b' =>
          have hx := ih h m x st _ S3 hc hd.1 ha rfl
          obtain ⟨st3, h3'⟩ := S3
          have hg : ∃ z, h3' = h ++ z := by
            have := eval_keeps E d x ⟨st, h⟩
            rw [ha] at this
            obtain ⟨z, hz⟩ := this
            exact ⟨z, hz⟩
          obtain ⟨hc3, ht3⟩ := hc.grow hg
          have hy := ih h3' m y st3 _ _ hc3 hd.2 hb rfl
          rw [ht3] at hy
          cases k with
          | div md =>
            have h5 : evalIntegerDivide md a' b' S4 = (.ok v, T) := h4
            unfold evalIntegerDivide at h5
            rcases ite_ok_inv h5 with ⟨_, h5⟩ | ⟨_, h5⟩
            · cases h5
            · obtain ⟨rfl, _⟩ := pure_ok_inv h5
              exact .division ho' hx hy
          | _ =>
            rcases evalIntegerInfix_scalar h4 hv with ⟨hop, hty⟩ | ⟨hop, hty⟩
            · rw [hty]; exact .number ho' hop hx hy
            · rw [hty]; exact .comparison ho' hop hx hy
        | _ => cases h4
      | _ => cases h4
    | int w =>
      obtain ⟨rfl, _⟩ := pure_ok_inv h2
      exact .int ho'
    | sumRoll ds =>
      obtain ⟨rfl, _⟩ := pure_ok_inv h2
      exact .sumRoll ho'
    | string s => cases h2
    | nilNode => cases h2

end GoBCDice.Raw
