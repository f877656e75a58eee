import Verif.Lemmas.Dice
import Verif.Props.Dice
import Verif.Spec.Eval
import Verif.Eval

/-!
# Relating evaluator functions to dice-consumption relations
-/

namespace GoBCDice

namespace M
variable {σ α β : Type}

theorem bind_eq (x : M σ α) (f : α → M σ β) (s : St σ) :
    (x >>= f) s = match x s with
      | (.ok a, s') => f a s'
      | (.err e, s') => (.err e, s')
      | (.panic m, s') => (.panic m, s') := rfl

theorem pure_eq (a : α) (s : St σ) : (pure a : M σ α) s = (.ok a, s) := rfl

instance : LawfulMonad (M σ) := LawfulMonad.mk' (M σ)
  (id_map := by
    intro α x; funext s
    show bnd x (fun a => ret (id a)) s = x s
    unfold bnd
    rcases x s with ⟨_ | _ | _, _⟩ <;> rfl)
  (pure_bind := by intros; rfl)
  (bind_assoc := by
    intro α β γ x f g; funext s
    show bnd (bnd x f) g s = bnd x (fun a => bnd (f a) g) s
    unfold bnd
    rcases x s with ⟨_ | _ | _, _⟩ <;> rfl)

theorem bind_ok {x : M σ α} {f : α → M σ β} {s s' : St σ} {b : β} :
    (x >>= f) s = (.ok b, s') ↔ ∃ a s₁, x s = (.ok a, s₁) ∧ f a s₁ = (.ok b, s') := by
  rw [bind_eq]
  rcases h : x s with ⟨a | _ | _, s₁⟩
  · constructor
    · intro h'; exact ⟨a, s₁, rfl, h'⟩
    · rintro ⟨a', s', he, h'⟩
      cases he
      exact h'
  · simp
  · simp

end M

/-- `m`, run against the feeder `F`, succeeds with `a` exactly when `F` can deliver dice `ds` with
`R ds a`; they are then consumed and appended to the log.  `R` mentions neither feeder nor log. -/
def Realizes {σ α : Type} (F : DieFeeder σ) (m : M σ α) (R : List Die → α → Prop) : Prop :=
  ∀ (s s' : St σ) (a : α),
    m s = (.ok a, s') ↔
      ∃ ds, R ds a ∧ Draws F s.feeder ds s'.feeder ∧ s'.log = s.log ++ ds

namespace Realizes
variable {σ α β : Type} {F : DieFeeder σ}

theorem pure (a : α) : Realizes F (Pure.pure a) (fun ds b => ds = [] ∧ b = a) := by
  intro s s' b
  rw [M.pure_eq]
  simp only [Prod.mk.injEq, Out.ok.injEq]
  constructor
  · rintro ⟨rfl, rfl⟩
    exact ⟨[], ⟨rfl, rfl⟩, .nil _, by simp⟩
  · rintro ⟨ds, ⟨rfl, rfl⟩, hd, hl⟩
    refine ⟨rfl, ?_⟩
    obtain ⟨f, l⟩ := s
    obtain ⟨f', l'⟩ := s'
    cases hd
    simp_all

theorem fail (e : Str) : Realizes F (M.fail e : M _ α) (fun _ _ => False) := by
  intro s s' b
  simp [M.fail]

theorem crash (e : Str) : Realizes F (M.crash e : M _ α) (fun _ _ => False) := by
  intro s s' b
  simp [M.crash]

theorem bind {m : M σ α} {f : α → M σ β} {R : List Die → α → Prop}
    {S : α → List Die → β → Prop} (hm : Realizes F m R) (hf : ∀ a, Realizes F (f a) (S a)) :
    Realizes F (m >>= f) (fun ds b => ∃ d1 d2 a, ds = d1 ++ d2 ∧ R d1 a ∧ S a d2 b) := by
  intro s s' b
  rw [M.bind_ok]
  constructor
  · rintro ⟨a, s₁, h1, h2⟩
    obtain ⟨d1, hR, hd1, hl1⟩ := (hm s s₁ a).mp h1
    obtain ⟨d2, hS, hd2, hl2⟩ := (hf a s₁ s' b).mp h2
    exact ⟨d1 ++ d2, ⟨d1, d2, a, rfl, hR, hS⟩, hd1.append hd2, by simp [hl2, hl1]⟩
  · rintro ⟨ds, ⟨d1, d2, a, rfl, hR, hS⟩, hd, hl⟩
    obtain ⟨f₁, hd1, hd2⟩ := hd.split
    refine ⟨a, ⟨f₁, s.log ++ d1⟩, (hm s _ a).mpr ⟨d1, hR, hd1, rfl⟩,
      (hf a _ s' b).mpr ⟨d2, hS, hd2, by simp [hl]⟩⟩

/-- replace the relation by an equivalent one -/
theorem congr {m : M σ α} {R S : List Die → α → Prop} (hm : Realizes F m R)
    (h : ∀ ds a, R ds a ↔ S ds a) : Realizes F m S := by
  intro s s' a
  rw [hm s s' a]
  simp only [h]

/-- the relation of a computation is determined -/
theorem unique {m : M σ α} {R S : List Die → α → Prop} (hm : Realizes F m R)
    (h : Realizes F m S) {f f' : σ} {ds : List Die} {a : α} (hR : R ds a)
    (hd : Draws F f ds f') : ∃ es, S es a ∧ es = ds := by
  have := (hm ⟨f, []⟩ ⟨f', ds⟩ a).mpr ⟨ds, hR, hd, by simp⟩
  obtain ⟨es, hS, _, hl⟩ := (h _ _ _).mp this
  exact ⟨es, hS, by simpa using hl.symm⟩

end Realizes

/-- The evaluator with a given feeder and reroll limit. -/
abbrev Evaluator.of {σ : Type} (mr : Int64) (F : DieFeeder σ) : Evaluator σ :=
  { F := F, maxRerolls := mr }

theorem realizes_rollDice {σ : Type} (E : Evaluator σ) (num sides : Int64) :
    Realizes E.F (E.rollDice num sides) (fun ds a => a = ds ∧ Rolled num sides ds) := by
  intro s s' a
  unfold Evaluator.rollDice
  have key := C01_rollDice_ok_iff E.F num sides s.feeder
  constructor
  · intro h
    split at h
    · rename_i ds f' hr
      simp only [Prod.mk.injEq, Out.ok.injEq] at h
      obtain ⟨rfl, rfl⟩ := h
      obtain ⟨h1, h2, h3, h4, h5, h6⟩ := (key _ _).mp hr
      exact ⟨ds, ⟨rfl, h1, h2, h3, h4, h5⟩, h6, rfl⟩
    · simp at h
    · simp at h
  · rintro ⟨ds, ⟨rfl, h1, h2, h3, h4, h5⟩, hd, hl⟩
    have := (key s'.feeder _).mpr ⟨h1, h2, h3, h4, h5, hd⟩
    rw [this]
    simp only [Prod.mk.injEq, true_and]
    cases s'; simp_all

end GoBCDice
