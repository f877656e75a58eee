import Verif.Spec.Dice

namespace GoBCDice
variable {σ : Type}

theorem Draws.append {F : DieFeeder σ} {s s' s'' : σ} {ds es : List Die}
    (h : Draws F s ds s') (h' : Draws F s' es s'') : Draws F s (ds ++ es) s'' := by
  induction h with
  | nil s => simpa
  | cons hn _ ih => exact .cons hn (ih h')

theorem Draws.split {F : DieFeeder σ} {s s'' : σ} {ds es : List Die}
    (h : Draws F s (ds ++ es) s'') : ∃ s', Draws F s ds s' ∧ Draws F s' es s'' := by
  induction ds generalizing s with
  | nil => exact ⟨s, .nil s, h⟩
  | cons d ds ih =>
    cases h with
    | cons hn h =>
      obtain ⟨s', h1, h2⟩ := ih h
      exact ⟨s', .cons hn h1, h2⟩

theorem Draws.det {F : DieFeeder σ} {s s' s'' : σ} {ds : List Die}
    (h : Draws F s ds s') (h' : Draws F s ds s'') : s' = s'' := by
  induction h with
  | nil s => cases h'; rfl
  | cons hn _ ih =>
    cases h' with
    | cons hn' h'' =>
      rw [hn] at hn'
      cases hn'
      exact ih h''

theorem draws_queue {q q' ds : List Die} :
    Draws queueFeeder q ds q' ↔ q = ds ++ q' := by
  constructor
  · intro h
    induction h with
    | nil s => rfl
    | @cons s s₁ s₂ d ds hn _ ih =>
      cases s with
      | nil => simp [queueFeeder, queueNext] at hn
      | cons x xs =>
        simp only [queueFeeder, queueNext, Prod.mk.injEq, Out.ok.injEq] at hn
        obtain ⟨rfl, rfl⟩ := hn
        simp [ih]
  · rintro rfl
    induction ds with
    | nil => exact .nil _
    | cons d ds ih => exact .cons (s₁ := ds ++ q') rfl ih

/-- Success of the loop. -/
theorem rollLoop_ok {F : DieFeeder σ} {num sides : Int64} {n : Nat} {acc ds : List Die} {s s' : σ} :
    rollLoop F num sides n acc s = (.ok ds, s') ↔
      ∃ es, ds = acc ++ es ∧ es.length = n ∧ (∀ d ∈ es, d.sides = sides) ∧ Draws F s es s' := by
  induction n generalizing acc s with
  | zero =>
    simp only [rollLoop, Prod.mk.injEq, Out.ok.injEq]
    constructor
    · rintro ⟨rfl, rfl⟩
      exact ⟨[], by simp, rfl, by simp, .nil _⟩
    · rintro ⟨es, rfl, hl, -, hd⟩
      obtain rfl := List.length_eq_zero_iff.mp hl
      cases hd
      simp
  | succ n ih =>
    unfold rollLoop
    split
    · rename_i e s₁ hn
      constructor
      · intro h; simp at h
      · rintro ⟨es, rfl, hl, hs, hd⟩
        cases hd with
        | nil => simp at hl
        | cons hn' _ =>
          rw [hs _ (by simp)] at hn'
          rw [hn'] at hn
          simp at hn
    · rename_i e s₁ hn
      constructor
      · intro h; simp at h
      · rintro ⟨es, rfl, hl, hs, hd⟩
        cases hd with
        | nil => simp at hl
        | cons hn' _ =>
          rw [hs _ (by simp)] at hn'
          rw [hn'] at hn
          simp at hn
    · rename_i d s₁ hn
      split
      · rename_i hne
        constructor
        · intro h; simp at h
        · rintro ⟨es, rfl, hl, hs, hd⟩
          cases hd with
          | nil => simp at hl
          | @cons _ _ _ d' _ hn' _ =>
            have := hs d' (by simp)
            rw [this] at hn'
            rw [hn'] at hn
            simp only [Prod.mk.injEq, Out.ok.injEq] at hn
            obtain ⟨rfl, -⟩ := hn
            exact absurd this hne
      · rename_i heq
        have heq : d.sides = sides := by simpa using heq
        rw [ih]
        constructor
        · rintro ⟨es, rfl, hl, hs, hd⟩
          refine ⟨d :: es, by simp, by simp [hl], ?_, .cons (by rw [heq]; exact hn) hd⟩
          intro x hx
          rcases List.mem_cons.mp hx with rfl | hx
          · exact heq
          · exact hs x hx
        · rintro ⟨es, rfl, hl, hs, hd⟩
          cases hd with
          | nil => simp at hl
          | @cons _ s₂ _ d' es hn' hd =>
            rw [hs _ (by simp)] at hn'
            rw [hn'] at hn
            simp only [Prod.mk.injEq, Out.ok.injEq] at hn
            obtain ⟨rfl, rfl⟩ := hn
            exact ⟨es, by simp, by simpa using hl, fun x hx => hs x (by simp [hx]), hd⟩

end GoBCDice
