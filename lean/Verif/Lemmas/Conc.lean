import Verif.Conc

/-!
# Dictionaries a goroutine owns
-/

namespace GoBCDice.Conc

open Pigeon (Sym Val PExpr PEnv PState Pt Pos Frame Action StateAction)

/-- The dictionaries a goroutine owns, with their contents. -/
abbrev Own := Ref → Option Dict

/-- Change what is owned at one address. -/
def Own.upd (L : Own) (r : Ref) (d : Option Dict) : Own := fun x => if x = r then d else L x

theorem Own.upd_same (L : Own) (r : Ref) (d : Option Dict) : L.upd r d r = d := if_pos rfl

theorem Own.upd_other (L : Own) {r x : Ref} (d : Option Dict) (h : x ≠ r) : L.upd r d x = L x := if_neg h

/-- `WP p Q L`: owning `L`, the program only touches what it owns, gives to the pool only empty
dictionaries, and ends with a result in `Q`. -/
def WP {α : Type} : Prog α → (α → Own → Prop) → Own → Prop
  | .ret a, Q, L => Q a L
  | .make k, Q, L => ∀ r, L r = none → WP (k r) Q (L.upd r (some none))
  | .get k, Q, L => ∀ r, L r = none → WP (k r) Q (L.upd r (some none))
  | .put r k, Q, L => L r = some none ∧ WP k Q (L.upd r none)
  | .load r k, Q, L => ∃ d, L r = some d ∧ WP (k d) Q L
  | .store r d k, Q, L => (∃ d', L r = some d') ∧ WP k Q (L.upd r (some d))

theorem WP.mono {α : Type} {p : Prog α} {Q Q' : α → Own → Prop} (hq : ∀ a L, Q a L → Q' a L) :
    ∀ {L : Own}, WP p Q L → WP p Q' L := by
  induction p with
  | ret a => exact fun h => hq _ _ h
  | make k ih => exact fun h r hr => ih r (h r hr)
  | get k ih => exact fun h r hr => ih r (h r hr)
  | put r k ih => exact fun h => ⟨h.1, ih h.2⟩
  | load r k ih => exact fun ⟨d, h1, h2⟩ => ⟨d, h1, ih d h2⟩
  | store r d k ih => exact fun h => ⟨h.1, ih h.2⟩

theorem WP.bind {α β : Type} {p : Prog α} {f : α → Prog β} {Q : β → Own → Prop} :
    ∀ {L : Own}, WP p (fun a L' => WP (f a) Q L') L → WP (p.bind f) Q L := by
  induction p with
  | ret a => exact fun h => h
  | make k ih => exact fun h r hr => ih r (h r hr)
  | get k ih => exact fun h r hr => ih r (h r hr)
  | put r k ih => exact fun h => ⟨h.1, ih h.2⟩
  | load r k ih => exact fun ⟨d, h1, h2⟩ => ⟨d, h1, ih d h2⟩
  | store r d k ih => exact fun h => ⟨h.1, ih h.2⟩

/-! ### Schedules -/

section
variable {ι : Type} [DecidableEq ι] {α : ι → Type}

/-- What holds at any time: each goroutine owns dictionaries of its own, and the pool has the others
that it may hand out, all empty. -/
structure Inv (Q : (i : ι) → α i → Prop) (c : Config α) (L : ι → Own) : Prop where
  wp : ∀ i, WP (c.threads i) (fun a _ => Q i a) (L i)
  sep : ∀ i j r, i ≠ j → L i r ≠ none → L j r = none
  mem : ∀ i r d, L i r = some d → c.shared.dicts[r]? = some d
  nodup : c.shared.pool.Nodup
  pool : ∀ r ∈ c.shared.pool, c.shared.dicts[r]? = some none
  free : ∀ r ∈ c.shared.pool, ∀ i, L i r = none

/-- Give one goroutine other dictionaries. -/
def setOwn (L : ι → Own) (i : ι) (O : Own) : ι → Own := fun j => if j = i then O else L j

theorem setOwn_same (L : ι → Own) (i : ι) (O : Own) : setOwn L i O i = O := if_pos rfl

theorem setOwn_other (L : ι → Own) {i j : ι} (O : Own) (h : j ≠ i) : setOwn L i O j = L j := if_neg h

theorem owned_lt {Q : (i : ι) → α i → Prop} {c : Config α} {L : ι → Own} (h : Inv Q c L) {i : ι} {r : Ref}
    (hr : L i r ≠ none) : r < c.shared.dicts.length := by
  cases hl : L i r with
  | none => exact absurd hl hr
  | some d =>
    have := h.mem i r d hl
    exact (List.getElem?_eq_some_iff.1 this).1

/-- A goroutine takes a dictionary nobody owns, which is empty. -/
theorem Inv.take {Q : (i : ι) → α i → Prop} {c c' : Config α} {L : ι → Own} (h : Inv Q c L) {i : ι} {r : Ref}
    (hfree : ∀ j, L j r = none)
    (hw : WP (c'.threads i) (fun a _ => Q i a) ((L i).upd r (some none)))
    (ho : ∀ j, j ≠ i → c'.threads j = c.threads j)
    (hmem : ∀ x : Ref, x < c.shared.dicts.length → c'.shared.dicts[x]? = c.shared.dicts[x]?)
    (hr : c'.shared.dicts[r]? = some none)
    (hnd : c'.shared.pool.Nodup)
    (hpool : ∀ x ∈ c'.shared.pool, x ∈ c.shared.pool ∧ x ≠ r) :
    Inv Q c' (setOwn L i ((L i).upd r (some none))) := by
  constructor
  · intro j
    by_cases hj : j = i
    · subst hj
      rw [setOwn_same]
      exact hw
    · rw [setOwn_other _ _ hj, ho j hj]
      exact h.wp j
  · intro a b x hab hx
    by_cases ha : a = i
    · subst ha
      rw [setOwn_same] at hx
      rw [setOwn_other _ _ (Ne.symm hab)]
      by_cases hxr : x = r
      · rw [hxr]; exact hfree b
      · rw [Own.upd_other _ _ hxr] at hx
        exact h.sep _ _ _ hab hx
    · rw [setOwn_other _ _ ha] at hx
      by_cases hb : b = i
      · subst hb
        rw [setOwn_same]
        have hxr : x ≠ r := by rintro rfl; exact hx (hfree a)
        rw [Own.upd_other _ _ hxr]
        exact h.sep _ _ _ hab hx
      · rw [setOwn_other _ _ hb]
        exact h.sep _ _ _ hab hx
  · intro j x d hx
    by_cases hj : j = i
    · subst hj
      rw [setOwn_same] at hx
      by_cases hxr : x = r
      · subst hxr
        rw [Own.upd_same] at hx
        cases hx
        exact hr
      · rw [Own.upd_other _ _ hxr] at hx
        rw [hmem x (owned_lt h (i := j) (by rw [hx]; intro h; cases h))]
        exact h.mem _ _ _ hx
    · rw [setOwn_other _ _ hj] at hx
      rw [hmem x (owned_lt h (i := j) (by rw [hx]; intro h; cases h))]
      exact h.mem _ _ _ hx
  · exact hnd
  · intro x hx
    obtain ⟨h1, h2⟩ := hpool x hx
    have := h.pool x h1
    rw [hmem x (List.getElem?_eq_some_iff.1 this).1]
    exact this
  · intro x hx j
    obtain ⟨h1, h2⟩ := hpool x hx
    by_cases hj : j = i
    · subst hj
      rw [setOwn_same, Own.upd_other _ _ h2]
      exact h.free x h1 j
    · rw [setOwn_other _ _ hj]
      exact h.free x h1 j

theorem Inv.step {Q : (i : ι) → α i → Prop} {c c' : Config α} {L : ι → Own} {o : Option ι} (h : Inv Q c L)
    (hs : CStep o c c') : ∃ L', Inv Q c' L' := by
  cases hs with
  | collect r =>
    refine ⟨L, h.wp, h.sep, h.mem, ?_, ?_, ?_⟩
    · exact h.nodup.erase r
    · exact fun x hx => h.pool x (List.mem_of_mem_erase hx)
    · exact fun x hx => h.free x (List.mem_of_mem_erase hx)
  | thread i hst ho =>
    have hw := h.wp i
    obtain ⟨th, sh⟩ := c
    obtain ⟨th', sh'⟩ := c'
    simp only at hst ho hw
    generalize hp : th i = p at hst hw
    generalize hp' : th' i = p' at hst
    have hnew : ∀ (k : Ref → Prog (α i)),
        (∀ r, L i r = none → WP (k r) (fun a _ => Q i a) ((L i).upd r (some none))) →
        th' i = k sh.dicts.length → sh' = { sh with dicts := sh.dicts ++ [none] } →
        ∃ L', Inv Q (⟨th', sh'⟩ : Config α) L' := by
      intro k hk hth hsh
      have hf : ∀ j, L j sh.dicts.length = none := by
        intro j
        cases hl : L j sh.dicts.length with
        | none => rfl
        | some d =>
          have := owned_lt h (i := j) (r := sh.dicts.length) (by rw [hl]; intro h; cases h)
          exact absurd this (Nat.lt_irrefl _)
      refine ⟨_, h.take (i := i) (r := sh.dicts.length) hf ?_ ho ?_ ?_ ?_ ?_⟩
      · show WP (th' i) _ _
        rw [hth]
        exact hk _ (hf i)
      · intro x hx
        rw [hsh]
        exact List.getElem?_append_left hx
      · rw [hsh]
        show (sh.dicts ++ [none])[sh.dicts.length]? = _
        rw [List.getElem?_append_right (Nat.le_refl _), Nat.sub_self]
        rfl
      · rw [hsh]; exact h.nodup
      · rw [hsh]
        intro x hx
        refine ⟨hx, ?_⟩
        rintro rfl
        have := h.pool _ hx
        have := (List.getElem?_eq_some_iff.1 this).1
        exact absurd this (Nat.lt_irrefl _)
    cases hst with
    | make => exact hnew _ hw hp' rfl
    | getNew => exact hnew _ hw hp' rfl
    | @getOld k _ r hr =>
      refine ⟨_, h.take (i := i) (r := r) (h.free r hr) ?_ ho (fun _ _ => rfl) (h.pool r hr) ?_ ?_⟩
      · show WP (th' i) _ _
        rw [hp']
        exact hw r (h.free r hr i)
      · exact h.nodup.erase r
      · intro x hx
        refine ⟨List.mem_of_mem_erase hx, ?_⟩
        rintro rfl
        exact h.nodup.not_mem_erase hx
    | @put r k _ =>
      obtain ⟨h1, h2⟩ := hw
      refine ⟨setOwn L i ((L i).upd r none), ?_, ?_, ?_, ?_, ?_, ?_⟩
      · intro j
        by_cases hj : j = i
        · subst hj
          rw [setOwn_same]
          show WP (th' j) _ _
          rw [hp']
          exact h2
        · rw [setOwn_other _ _ hj]
          show WP (th' j) _ _
          rw [ho j hj]
          exact h.wp j
      · intro a b x hab hx
        have hx' : L a x ≠ none := by
          by_cases ha : a = i
          · subst ha
            rw [setOwn_same] at hx
            by_cases hxr : x = r
            · subst hxr; rw [Own.upd_same] at hx; exact absurd rfl hx
            · rwa [Own.upd_other _ _ hxr] at hx
          · rwa [setOwn_other _ _ ha] at hx
        have hb' := h.sep a b x hab hx'
        by_cases hb : b = i
        · subst hb
          rw [setOwn_same]
          by_cases hxr : x = r
          · subst hxr; exact Own.upd_same ..
          · rw [Own.upd_other _ _ hxr]; exact hb'
        · rw [setOwn_other _ _ hb]; exact hb'
      · intro j x d hx
        have hx' : L j x = some d := by
          by_cases hj : j = i
          · subst hj
            rw [setOwn_same] at hx
            by_cases hxr : x = r
            · subst hxr; rw [Own.upd_same] at hx; cases hx
            · rwa [Own.upd_other _ _ hxr] at hx
          · rwa [setOwn_other _ _ hj] at hx
        exact h.mem j x d hx'
      · refine List.nodup_cons.2 ⟨?_, h.nodup⟩
        intro hr
        have := h.free r hr i
        rw [this] at h1
        cases h1
      · intro x hx
        rcases List.mem_cons.1 hx with rfl | hx
        · exact h.mem i _ _ h1
        · exact h.pool x hx
      · intro x hx j
        by_cases hxr : x = r
        · subst hxr
          by_cases hj : j = i
          · subst hj; rw [setOwn_same]; exact Own.upd_same ..
          · rw [setOwn_other _ _ hj]
            exact h.sep i j x (Ne.symm hj) (by rw [h1]; intro h; cases h)
        · have hx' : x ∈ sh.pool := (List.mem_cons.1 hx).resolve_left hxr
          by_cases hj : j = i
          · subst hj; rw [setOwn_same, Own.upd_other _ _ hxr]; exact h.free x hx' j
          · rw [setOwn_other _ _ hj]; exact h.free x hx' j
    | @load r k _ d hd =>
      obtain ⟨d', h1, h2⟩ := hw
      have := h.mem i r d' h1
      simp only at this
      rw [hd] at this
      cases this
      refine ⟨L, ?_, h.sep, h.mem, h.nodup, h.pool, h.free⟩
      intro j
      by_cases hj : j = i
      · subst hj
        show WP (th' j) _ _
        rw [hp']
        exact h2
      · show WP (th' j) _ _
        rw [ho j hj]
        exact h.wp j
    | @store r d k _ hr =>
      obtain ⟨⟨d', h1⟩, h2⟩ := hw
      refine ⟨setOwn L i ((L i).upd r (some d)), ?_, ?_, ?_, h.nodup, ?_, ?_⟩
      · intro j
        by_cases hj : j = i
        · subst hj
          rw [setOwn_same]
          show WP (th' j) _ _
          rw [hp']
          exact h2
        · rw [setOwn_other _ _ hj]
          show WP (th' j) _ _
          rw [ho j hj]
          exact h.wp j
      · intro a b x hab hx
        have hx' : L a x ≠ none := by
          by_cases ha : a = i
          · subst ha
            by_cases hxr : x = r
            · subst hxr; rw [h1]; intro h; cases h
            · rwa [setOwn_same, Own.upd_other _ _ hxr] at hx
          · rwa [setOwn_other _ _ ha] at hx
        have hb' := h.sep a b x hab hx'
        by_cases hb : b = i
        · subst hb
          have hxr : x ≠ r := by rintro rfl; rw [h1] at hb'; cases hb'
          rw [setOwn_same, Own.upd_other _ _ hxr]; exact hb'
        · rw [setOwn_other _ _ hb]; exact hb'
      · intro j x e hx
        show (sh.dicts.set r d)[x]? = some e
        by_cases hj : j = i
        · subst hj
          rw [setOwn_same] at hx
          by_cases hxr : x = r
          · subst hxr
            rw [Own.upd_same] at hx
            cases hx
            exact List.getElem?_set_self hr
          · rw [Own.upd_other _ _ hxr] at hx
            rw [List.getElem?_set_ne (Ne.symm hxr)]
            exact h.mem j x e hx
        · rw [setOwn_other _ _ hj] at hx
          have hxr : x ≠ r := by
            rintro rfl
            have := h.sep i j x (Ne.symm hj) (by rw [h1]; intro h; cases h)
            rw [this] at hx
            cases hx
          rw [List.getElem?_set_ne (Ne.symm hxr)]
          exact h.mem j x e hx
      · intro x hx
        have hxr : x ≠ r := by
          rintro rfl
          have := h.free x hx i
          rw [this] at h1
          cases h1
        show (sh.dicts.set r d)[x]? = some none
        rw [List.getElem?_set_ne (Ne.symm hxr)]
        exact h.pool x hx
      · intro x hx j
        have hxr : x ≠ r := by
          rintro rfl
          have := h.free x hx i
          rw [this] at h1
          cases h1
        by_cases hj : j = i
        · subst hj; rw [setOwn_same, Own.upd_other _ _ hxr]; exact h.free x hx j
        · rw [setOwn_other _ _ hj]; exact h.free x hx j

theorem Inv.reaches {Q : (i : ι) → α i → Prop} {c c' : Config α} {L : ι → Own} (h : Inv Q c L)
    (hs : Reaches c c') : ∃ L', Inv Q c' L' := by
  induction hs with
  | refl => exact ⟨L, h⟩
  | step _ hst ih =>
    obtain ⟨L', h'⟩ := ih
    exact h'.step hst

/-- Owning nothing. -/
def Own.none : Own := fun _ => Option.none

theorem Inv.start {Q : (i : ι) → α i → Prop} {p : (i : ι) → Prog (α i)}
    (h : ∀ i, WP (p i) (fun a _ => Q i a) Own.none) : Inv Q (⟨p, Shared.empty⟩ : Config α) (fun _ => Own.none) :=
  ⟨h, fun _ _ _ _ _ => rfl, fun _ _ _ h => (nomatch h), List.nodup_nil, fun _ h => (nomatch h), fun _ h => (nomatch h)⟩

/-- A goroutine that has not finished can go on. -/
theorem Inv.progress {Q : (i : ι) → α i → Prop} {c : Config α} {L : ι → Own} (h : Inv Q c L) (i : ι) :
    (∃ a, c.threads i = .ret a) ∨ ∃ c', CStep (some i) c c' := by
  have key : ∀ p' s', Step (c.threads i) c.shared p' s' → ∃ c', CStep (some i) c c' := by
    intro p' s' hs
    refine ⟨⟨fun j => if hj : j = i then hj ▸ p' else c.threads j, s'⟩, .thread i ?_ ?_⟩
    · show Step _ _ (if hj : i = i then hj ▸ p' else c.threads i) s'
      rw [dif_pos rfl]
      exact hs
    · intro j hj
      exact dif_neg hj
  have hw := h.wp i
  generalize c.threads i = p at hw key ⊢
  cases p with
  | ret a => exact .inl ⟨a, rfl⟩
  | make k => exact .inr (key _ _ .make)
  | get k => exact .inr (key _ _ .getNew)
  | put r k => exact .inr (key _ _ .put)
  | load r k =>
    obtain ⟨d, h1, -⟩ := hw
    exact .inr (key _ _ (.load (h.mem i r d h1)))
  | store r d k =>
    obtain ⟨⟨d', h1⟩, -⟩ := hw
    exact .inr (key _ _ (.store (owned_lt h (i := i) (by rw [h1]; intro h; cases h))))

theorem Inv.touches {Q : (i : ι) → α i → Prop} {c : Config α} {L : ι → Own} (h : Inv Q c L) {i : ι} {r : Ref}
    (ht : (c.threads i).touches = some r) : L i r ≠ none := by
  have hw := h.wp i
  generalize c.threads i = p at hw ht
  cases p with
  | ret a => cases ht
  | make k => cases ht
  | get k => cases ht
  | put r' k => cases ht; rw [hw.1]; intro h; cases h
  | load r' k => cases ht; obtain ⟨d, h1, -⟩ := hw; rw [h1]; intro h; cases h
  | store r' d k => cases ht; obtain ⟨⟨d', h1⟩, -⟩ := hw; rw [h1]; intro h; cases h

end

end GoBCDice.Conc
