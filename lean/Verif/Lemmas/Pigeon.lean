import Verif.PigeonGrammar
import Verif.Lemmas.ParserSound

/-!
# The generated parser against the rule functions: generic part
-/

namespace GoBCDice.Pigeon

variable {env : PEnv}

/-! ## Fuel -/

/-- A continuation that is monotone in the fuel. -/
theorem andThen_mono {r : Option PRes} {k k' : Val → Bool → PState → Option PRes} {x : PRes}
    (hk : ∀ v ok st, k v ok st = some x → k' v ok st = some x)
    {r' : Option PRes} (hr : ∀ y, r = some y → r' = some y)
    (h : PRes.andThen r k = some x) : PRes.andThen r' k' = some x := by
  unfold PRes.andThen at h ⊢
  cases r with
  | none => simp at h
  | some y =>
    rw [hr y rfl]
    cases y with
    | ret v ok st => exact hk _ _ _ h
    | panic m st => exact h

theorem run_succ (n : Nat) : ∀ (t : Task) (st : PState) (r : PRes),
    run env n t st = some r → run env (n + 1) t st = some r := by
  induction n with
  | zero => intro t st r h; simp [run] at h
  | succ n ih =>
    intro t st r h
    rw [run.eq_def] at h ⊢
    dsimp only at h ⊢
    have hcomb : ∀ {c : Prop} [Decidable c] {a a' b b' : Option PRes}, (a = some r → a' = some r) →
        (b = some r → b' = some r) → (if c then a else b) = some r →
        (if c then a' else b') = some r := by
      intro c _ a a' b b' h1 h2 h3
      by_cases hc : c
      · rw [if_pos hc] at h3 ⊢; exact h1 h3
      · rw [if_neg hc] at h3 ⊢; exact h2 h3
    split at h <;> first
      | exact h
      | exact ih _ _ _ h
      | exact andThen_mono (fun _ _ _ hk => hk) (fun y hy => ih _ _ _ hy) h
      | exact andThen_mono (fun _ _ _ hk => hcomb (fun x => x) (ih _ _ _) hk) (fun y hy => ih _ _ _ hy) h
      | exact andThen_mono (fun _ _ _ hk => hcomb (ih _ _ _) (fun x => x) hk) (fun y hy => ih _ _ _ hy) h
      | skip
    split at h
    · exact h
    · exact andThen_mono (fun _ _ _ hk => hk) (fun y hy => ih _ _ _ hy) h

theorem run_mono {n m : Nat} (hnm : n ≤ m) {t : Task} {st : PState} {r : PRes}
    (h : run env n t st = some r) : run env m t st = some r := by
  induction hnm with
  | refl => exact h
  | step _ ih => exact run_succ _ _ _ _ ih

/-- The machine, started on a task, returns a result. -/
def Runs (env : PEnv) (t : Task) (st : PState) (r : PRes) : Prop := ∃ n, run env n t st = some r

theorem Runs.unique {t : Task} {st : PState} {r r' : PRes} (h : Runs env t st r)
    (h' : Runs env t st r') : r = r' := by
  obtain ⟨n, hn⟩ := h
  obtain ⟨m, hm⟩ := h'
  have h1 := run_mono (Nat.le_max_left n m) hn
  have h2 := run_mono (Nat.le_max_right n m) hm
  exact Option.some.inj (h1.symm.trans h2)

theorem Runs.now {t : Task} {st : PState} {r : PRes} (h : ∀ n, run env (n + 1) t st = some r) :
    Runs env t st r := ⟨1, h 0⟩

theorem Runs.step {t t1 : Task} {st st1 : PState} {r : PRes}
    (h : ∀ n, run env (n + 1) t st = run env n t1 st1) (h1 : Runs env t1 st1 r) : Runs env t st r := by
  obtain ⟨n, hn⟩ := h1
  exact ⟨n + 1, (h n).trans hn⟩

theorem Runs.call {t t1 : Task} {st st1 st2 : PState} {r : PRes} {v : Val} {ok : Bool}
    {k : Nat → Val → Bool → PState → Option PRes}
    (h : ∀ n, run env (n + 1) t st = PRes.andThen (run env n t1 st1) (k n))
    (h1 : Runs env t1 st1 (.ret v ok st2)) (h2 : ∀ n, k n v ok st2 = some r) : Runs env t st r := by
  obtain ⟨n, hn⟩ := h1
  exact ⟨n + 1, by rw [h n, hn]; exact h2 n⟩

theorem Runs.callThen {t t1 t2 : Task} {st st1 st2 st3 : PState} {r : PRes} {v : Val} {ok : Bool}
    {k : Nat → Val → Bool → PState → Option PRes}
    (h : ∀ n, run env (n + 1) t st = PRes.andThen (run env n t1 st1) (k n))
    (h1 : Runs env t1 st1 (.ret v ok st2)) (h2 : ∀ n, k n v ok st2 = run env n t2 st3)
    (h3 : Runs env t2 st3 r) : Runs env t st r := by
  obtain ⟨n, hn⟩ := h1
  obtain ⟨m, hm⟩ := h3
  refine ⟨max n m + 1, ?_⟩
  rw [h, run_mono (Nat.le_max_left n m) hn]
  show k _ v ok st2 = some r
  rw [h2]
  exact run_mono (Nat.le_max_right n m) hm

/-! ## Positions -/

/-- The position and data after reading one rune. -/
def stepPt (pt : Pt) : Pt :=
  let offset := pt.pos.offset + (match pt.rest with | [] => 0 | s :: _ => s.w)
  ⟨match pt.rest.tail.head? with
    | some ⟨'\n', _⟩ => ⟨pt.pos.line + 1, 0, offset⟩
    | _ => ⟨pt.pos.line, pt.pos.col + 1, offset⟩, pt.rest.tail⟩

theorem stepPt_rest (pt : Pt) : (stepPt pt).rest = pt.rest.tail := rfl

theorem stepPt_offset (pt : Pt) : (stepPt pt).pos.offset =
    pt.pos.offset + (match pt.rest with | [] => 0 | s :: _ => s.w) := by
  unfold stepPt
  dsimp only
  split <;> rfl

/-- `k` reads. -/
def walk (p0 : Pt) : Nat → Pt
  | 0 => p0
  | k + 1 => stepPt (walk p0 k)

theorem walk_rest (p0 : Pt) (k : Nat) : (walk p0 k).rest = p0.rest.drop k := by
  induction k with
  | zero => simp [walk]
  | succ k ih => rw [walk, stepPt_rest, ih, List.tail_drop]

/-- Every rune of the data has a width. -/
def Wide (l : List Sym) : Prop := ∀ s ∈ l, 0 < s.w

theorem walk_lt {p0 : Pt} (hw : Wide p0.rest) {k l : Nat} (hkl : k < l) (hl : l ≤ p0.rest.length) :
    (walk p0 k).pos.offset < (walk p0 l).pos.offset := by
  have one : ∀ k, k < p0.rest.length → (walk p0 k).pos.offset < (walk p0 (k + 1)).pos.offset := by
    intro k hk
    rw [walk, stepPt_offset]
    have hr := walk_rest p0 k
    have hd : p0.rest.drop k = p0.rest[k] :: p0.rest.drop (k + 1) := List.drop_eq_getElem_cons hk
    rw [hd] at hr
    rw [hr]
    have := hw p0.rest[k] (List.getElem_mem hk)
    dsimp only
    omega
  induction hkl with
  | refl => exact one k (by omega)
  | step h ih => exact Nat.lt_trans (ih (by omega)) (one _ (by omega))

/-- A position of the parser on the data it was started on. -/
def Reach (p0 pt : Pt) : Prop := ∃ k, k ≤ p0.rest.length ∧ pt = walk p0 k

theorem Reach.step {p0 pt : Pt} (h : Reach p0 pt) (hr : pt.rest ≠ []) : Reach p0 (stepPt pt) := by
  obtain ⟨k, hk, rfl⟩ := h
  refine ⟨k + 1, ?_, rfl⟩
  rw [walk_rest] at hr
  have : ¬ p0.rest.length ≤ k := fun h => hr (List.drop_eq_nil_of_le h)
  omega

theorem Reach.eq {p0 pt pt' : Pt} (hw : Wide p0.rest) (h : Reach p0 pt) (h' : Reach p0 pt')
    (ho : pt.pos.offset = pt'.pos.offset) : pt = pt' := by
  obtain ⟨k, hk, rfl⟩ := h
  obtain ⟨l, hl, rfl⟩ := h'
  rcases Nat.lt_trichotomy k l with h | h | h
  · have := walk_lt hw h hl; omega
  · rw [h]
  · have := walk_lt hw h hk; omega

/-- Valid text as the parser sees it. -/
def syms (s : Str) : List Sym := s.map Sym.ofChar

/-- The runes of the data. -/
def runes (l : List Sym) : Str := l.map Sym.rn

theorem runes_syms (s : Str) : runes (syms s) = s := by
  unfold runes syms
  rw [List.map_map]
  exact List.map_id' s

/-- An invalid byte. -/
def Sym.bad : Sym := ⟨runeError, 1⟩

/-- The data is valid UTF-8. -/
def Valid (l : List Sym) : Prop := ∀ x ∈ l, x ≠ Sym.bad

theorem valid_syms (s : Str) : Valid (syms s) := by
  intro x hx hc
  obtain ⟨c, _, rfl⟩ := List.mem_map.1 hx
  simp only [Sym.ofChar, Sym.bad, Sym.mk.injEq] at hc
  obtain ⟨rfl, h2⟩ := hc
  revert h2
  decide

theorem wide_syms (s : Str) : Wide (syms s) := by
  intro x hx
  obtain ⟨c, _, rfl⟩ := List.mem_map.1 hx
  exact c.utf8Size_pos

/-! ## Invariants -/

/-- The parser is at text `s` with count `c`, on the data that starts at `p0`. -/
structure Ok (p0 : Pt) (st : PState) (s : Str) (c : Nat) : Prop where
  reach : Reach p0 st.pt
  rest : runes st.pt.rest = s
  count : st.randCount = some (c : Int)

/-- No invalid byte is reported: there is none, or they are allowed. -/
def Silent (env : PEnv) (l : List Sym) : Prop := env.allowInvalid = true ∨ Valid l

/-- How the list of errors changes: valid text gives no error by itself, and errors stay. -/
structure Grow (env : PEnv) (p0 : Pt) (e e' : List Str) : Prop where
  valid : Silent env p0.rest → e' = e
  stay : e ≠ [] → e' ≠ []

theorem Grow.refl (env : PEnv) (p0 : Pt) (e : List Str) : Grow env p0 e e := ⟨fun _ => rfl, fun h => h⟩

theorem Grow.of_eq {p0 : Pt} {e e' : List Str} (h : e' = e) : Grow env p0 e e' := h ▸ .refl env p0 e

theorem Grow.trans {p0 : Pt} {a b c : List Str} (h : Grow env p0 a b) (h' : Grow env p0 b c) : Grow env p0 a c :=
  ⟨fun hv => (h'.valid hv).trans (h.valid hv), fun ha => h'.stay (h.stay ha)⟩

/-- What a parsing function leaves alone. -/
structure Keep (st st' : PState) : Prop where
  rstack : st'.rstack = st.rstack
  invert : st'.invert = st.invert

theorem Keep.refl (st : PState) : Keep st st := ⟨rfl, rfl⟩

theorem Keep.trans {a b c : PState} (h : Keep a b) (h' : Keep b c) : Keep a c :=
  ⟨h'.rstack.trans h.rstack, h'.invert.trans h.invert⟩

theorem Keep.untick {st st' : PState} (h : Keep st.tick st') : Keep st st' := ⟨h.rstack, h.invert⟩

/-- `failAt` touches the record of failures only. -/
theorem failAt_fields (st : PState) (b : Bool) (pos : Pos) (w : Str) :
    (st.failAt b pos w).pt = st.pt ∧ (st.failAt b pos w).randCount = st.randCount ∧
    (st.failAt b pos w).vstack = st.vstack ∧ (st.failAt b pos w).rstack = st.rstack ∧
    (st.failAt b pos w).errs = st.errs ∧ (st.failAt b pos w).invert = st.invert := by
  unfold PState.failAt
  split
  · split
    · exact ⟨rfl, rfl, rfl, rfl, rfl, rfl⟩
    · dsimp only; split <;> exact ⟨rfl, rfl, rfl, rfl, rfl, rfl⟩
  · exact ⟨rfl, rfl, rfl, rfl, rfl, rfl⟩

theorem Reach.sub {p0 pt : Pt} (h : Reach p0 pt) : ∀ x ∈ pt.rest, x ∈ p0.rest := by
  obtain ⟨k, hk, rfl⟩ := h
  rw [walk_rest]
  exact fun x hx => List.mem_of_mem_drop hx

theorem addErrAt_errs (st : PState) (m : Str) (pos : Pos) : (st.addErrAt env m pos).errs ≠ [] := by
  unfold PState.addErrAt
  simp

theorem read_fields {p0 : Pt} (st : PState) (hr : Reach p0 st.pt) :
    (st.read env).pt = stepPt st.pt ∧ (st.read env).randCount = st.randCount ∧
    (st.read env).vstack = st.vstack ∧ (st.read env).rstack = st.rstack ∧
    Grow env p0 st.errs (st.read env).errs ∧ (st.read env).invert = st.invert := by
  unfold PState.read PState.enter
  dsimp only
  by_cases hb : st.pt.rest.tail.head? = some ⟨runeError, 1⟩ ∧ env.allowInvalid = false
  · rw [if_pos hb]
    refine ⟨rfl, rfl, rfl, rfl, ⟨fun hv => ?_, fun _ => addErrAt_errs _ _ _⟩, rfl⟩
    rcases hv with hv | hv
    · rw [hb.2] at hv; cases hv
    · exact absurd rfl (hv _ (hr.sub _ (List.mem_of_mem_tail (List.mem_of_mem_head? hb.1))))
  · rw [if_neg hb]
    exact ⟨rfl, rfl, rfl, rfl, .refl _ _ _, rfl⟩

theorem restore_fields {p0 : Pt} (hw : Wide p0.rest) (st : PState) (pt : Pt) (h : Reach p0 st.pt)
    (h' : Reach p0 pt) : st.restore pt = { st with pt := pt } := by
  unfold PState.restore
  split
  · rename_i ho
    rw [Reach.eq hw h' h ho]
  · rfl

/-! ## What an expression does -/

section Does
variable {α β : Type}

/-- The state after success with a value related by `V`, or after failure. -/
def Post (p0 : Pt) (V : α → Val → Prop) (s : Str) (c : Nat) (o : Option (α × Str × Nat)) (v : Val)
    (st' : PState) : Prop :=
  match o with
  | none => v = .nil ∧ Ok p0 st' s c
  | some (a, s', c') => V a v ∧ Ok p0 st' s' c'

/-- On text `s` with count `c` the task ends as `o` says: it fails and leaves everything as it was,
or it succeeds with a value `V` relates to the result.  `X` relates the errors recorded before and
after. -/
def DoesX (X : Option α → List Str → List Str → Prop) (env : PEnv) (p0 : Pt) (t : Task)
    (V : α → Val → Prop) (s : Str) (c : Nat) (o : Option (α × Str × Nat)) : Prop :=
  ∀ st, Ok p0 st s c → ∃ v st', Runs env t st (.ret v o.isSome st') ∧ Keep st st' ∧
    st'.vstack = st.vstack ∧ X (o.map (·.1)) st.errs st'.errs ∧ Post p0 V s c o v st'

/-- No error is recorded, unless the data is not valid. -/
def Same (env : PEnv) (p0 : Pt) : Option α → List Str → List Str → Prop := fun _ e e' => Grow env p0 e e'

/-- `DoesX` for an expression that records no error. -/
abbrev Cl (env : PEnv) (p0 : Pt) (e : PExpr) (V : α → Val → Prop) (s : Str) (c : Nat)
    (o : Option (α × Str × Nat)) : Prop := DoesX (Same env p0) env p0 (.expr e) V s c o

variable {p0 : Pt}

theorem DoesX.imp {X : Option α → List Str → List Str → Prop} {t : Task} {V V' : α → Val → Prop}
    {s : Str} {c : Nat} {o : Option (α × Str × Nat)} (h : DoesX X env p0 t V s c o)
    (hV : ∀ a v, V a v → V' a v) : DoesX X env p0 t V' s c o := by
  intro st hok
  obtain ⟨v, st', h1, h2, h3, h4, h5⟩ := h st hok
  refine ⟨v, st', h1, h2, h3, h4, ?_⟩
  cases o with
  | none => exact h5
  | some r => exact ⟨hV _ _ h5.1, h5.2⟩

theorem DoesX.congr {X : Option α → List Str → List Str → Prop} {t : Task} {V : α → Val → Prop}
    {s : Str} {c : Nat} {o o' : Option (α × Str × Nat)} (h : DoesX X env p0 t V s c o)
    (ho : o' = o) : DoesX X env p0 t V s c o' := ho ▸ h

theorem Cl.map {e : PExpr} {V : α → Val → Prop} {V' : β → Val → Prop} {s : Str} {c : Nat} {p : P α}
    (g : α → β) (h : Cl env p0 e V s c (p s c)) (hV : ∀ a v, V a v → V' (g a) v) :
    Cl env p0 e V' s c ((do let a ← p; pure (g a) : P β) s c) := by
  intro st hok
  obtain ⟨v, st', h1, h2, h3, h4, h5⟩ := h st hok
  cases hp : p s c with
  | none =>
    rw [P.bind_none hp]
    rw [hp] at h1 h4 h5
    exact ⟨v, st', h1, h2, h3, h4, h5⟩
  | some r =>
    obtain ⟨a, s', c'⟩ := r
    rw [P.bind_some hp]
    rw [hp] at h1 h4 h5
    exact ⟨v, st', h1, h2, h3, h4, hV _ _ h5.1, h5.2⟩

theorem Ok.withStack {st : PState} {s : Str} {c : Nat} (h : Ok p0 st s c) (vs : List Frame)
    (rs : List Str) : Ok p0 { st with vstack := vs, rstack := rs } s c := ⟨h.reach, h.rest, h.count⟩

theorem Ok.tick {st : PState} {s : Str} {c : Nat} (h : Ok p0 st s c) : Ok p0 st.tick s c :=
  ⟨h.reach, h.rest, h.count⟩

/-- An expression without parts. -/
theorem DoesX.leaf {X : Option α → List Str → List Str → Prop} {e : PExpr} {V : α → Val → Prop}
    {s : Str} {c : Nat} {o : Option (α × Str × Nat)}
    (h : ∀ st, Ok p0 st s c → ∃ v st', (∀ st0 n, st0.tick = st →
        run env (n + 1) (.expr e) st0 = some (.ret v o.isSome st')) ∧ Keep st st' ∧
      st'.vstack = st.vstack ∧ X (o.map (·.1)) st.errs st'.errs ∧ Post p0 V s c o v st') :
    DoesX X env p0 (.expr e) V s c o := by
  intro st hok
  obtain ⟨v, st', h1, h2, h3⟩ := h st.tick hok.tick
  exact ⟨v, st', Runs.now (fun n => h1 st n rfl), h2.untick, h3⟩

/-! ### Choice -/

theorem alts_cons' {X X1 : Option α → List Str → List Str → Prop} {e : PExpr} {es : List PExpr}
    {V : α → Val → Prop} {s : Str} {c : Nat} {p q : P α}
    (hX : ∀ o x y z, Grow env p0 x y → X o y z → X o x z)
    (hf : ∀ x y, X1 none x y → Grow env p0 x y)
    (hs : ∀ r x y, p s c = some r → X1 (some r.1) x y → X (some r.1) x y)
    (h : DoesX X1 env p0 (.expr e) V s c (p s c))
    (h' : p s c = none → DoesX X env p0 (.alts es) V s c (q s c)) :
    DoesX X env p0 (.alts (e :: es)) V s c ((p <|> q) s c) := by
  intro st hok
  obtain ⟨v, st1, h1, h2, h3, h4, h5⟩ := h st.pushV ⟨hok.reach, hok.rest, hok.count⟩
  cases hp : p s c with
  | some r =>
    rw [P.alt_left hp]
    rw [hp] at h1 h4 h5
    refine ⟨v, st1.popV, Runs.call (fun n => rfl) h1 (fun n => rfl), ⟨h2.rstack, h2.invert⟩, ?_,
      hs _ _ _ hp h4, h5.1, ⟨h5.2.reach, h5.2.rest, h5.2.count⟩⟩
    simp [PState.popV, h3, PState.pushV]
  | none =>
    rw [P.alt_right hp]
    rw [hp] at h1 h4 h5
    have hok' : Ok p0 { st1.popV with randCount := st.randCount } s c :=
      ⟨h5.2.reach, h5.2.rest, hok.count⟩
    obtain ⟨v', st2, k1, k2, k3, k4, k5⟩ := h' hp _ hok'
    refine ⟨v', st2, Runs.callThen (fun n => rfl) h1 (fun n => rfl) k1,
      ⟨k2.rstack.trans h2.rstack, k2.invert.trans h2.invert⟩, ?_, ?_, k5⟩
    · rw [k3]; simp [PState.popV, h3, PState.pushV]
    · exact hX _ _ _ _ (hf _ _ h4) k4

theorem alts_cons {X X1 : Option α → List Str → List Str → Prop} {e : PExpr} {es : List PExpr}
    {V : α → Val → Prop} {s : Str} {c : Nat} {p q : P α}
    (hX : ∀ o x y z, Grow env p0 x y → X o y z → X o x z)
    (hf : ∀ x y, X1 none x y → Grow env p0 x y) (hs : ∀ a x y, X1 (some a) x y → X (some a) x y)
    (h : DoesX X1 env p0 (.expr e) V s c (p s c)) (h' : DoesX X env p0 (.alts es) V s c (q s c)) :
    DoesX X env p0 (.alts (e :: es)) V s c ((p <|> q) s c) :=
  alts_cons' hX hf (fun _ _ _ _ h => hs _ _ _ h) h (fun _ => h')

theorem alts_one {X : Option α → List Str → List Str → Prop} {e : PExpr} {V : α → Val → Prop}
    {s : Str} {c : Nat} {o : Option (α × Str × Nat)}
    (h : DoesX X env p0 (.expr e) V s c o) : DoesX X env p0 (.alts [e]) V s c o := by
  intro st hok
  obtain ⟨v, st1, h1, h2, h3, h4, h5⟩ := h st.pushV ⟨hok.reach, hok.rest, hok.count⟩
  have h3' : st1.popV.vstack = st.vstack := by simp [PState.popV, h3, PState.pushV]
  cases o with
  | some r =>
    exact ⟨v, st1.popV, Runs.call (fun n => rfl) h1 (fun n => rfl), ⟨h2.rstack, h2.invert⟩, h3',
      h4, h5.1, ⟨h5.2.reach, h5.2.rest, h5.2.count⟩⟩
  | none =>
    exact ⟨.nil, { st1.popV with randCount := st.randCount },
      Runs.callThen (fun n => rfl) h1 (fun n => rfl) (Runs.now (fun n => rfl)),
      ⟨h2.rstack, h2.invert⟩, h3', h4, rfl, ⟨h5.2.reach, h5.2.rest, hok.count⟩⟩

theorem Cl.alt {e : PExpr} {es : List PExpr} {V : α → Val → Prop} {s : Str} {c : Nat} {p q : P α}
    (h : Cl env p0 e V s c (p s c)) (h' : DoesX (Same env p0) env p0 (.alts es) V s c (q s c)) :
    DoesX (Same env p0) env p0 (.alts (e :: es)) V s c ((p <|> q) s c) :=
  alts_cons (fun _ _ _ _ h h' => h.trans h') (fun _ _ h => h) (fun _ _ _ h => h) h h'

theorem choice_intro {X : Option α → List Str → List Str → Prop} {es : List PExpr}
    {V : α → Val → Prop} {s : Str} {c : Nat} {o : Option (α × Str × Nat)}
    (h : DoesX X env p0 (.alts es) V s c o) : DoesX X env p0 (.expr (.choice es)) V s c o := by
  intro st hok
  obtain ⟨v, st1, h1, h2, h3⟩ := h st.tick hok.tick
  exact ⟨v, st1, Runs.step (fun n => rfl) h1, h2.untick, h3⟩

/-! ### References to rules -/

theorem rule_plain {X : Option α → List Str → List Str → Prop} {name : Str} {e : PExpr}
    {V : α → Val → Prop} {s : Str} {c : Nat} {o : Option (α × Str × Nat)}
    (hl : env.rules.lookup name = some e) (h : DoesX X env p0 (.expr e) V s c o) :
    DoesX X env p0 (.expr (.ruleRef name)) V s c o := by
  intro st hok
  obtain ⟨v, st1, h1, h2, h3, h4, h5⟩ :=
    h { st.tick.pushV with rstack := name :: st.rstack } ⟨hok.reach, hok.rest, hok.count⟩
  refine ⟨v, { st1.popV with rstack := st1.rstack.tail }, Runs.call (k := fun _ v ok st' =>
      some (.ret v ok { st'.popV with rstack := st'.rstack.tail })) (fun n => ?_) h1 (fun n => rfl),
    ⟨by rw [h2.rstack]; rfl, h2.invert⟩, ?_, h4, ?_⟩
  · rw [run.eq_def]; dsimp only; rw [hl]
  · simp [PState.popV, h3, PState.pushV, PState.tick]
  · cases o with
    | none => exact ⟨h5.1, h5.2.reach, h5.2.rest, h5.2.count⟩
    | some r => exact ⟨h5.1, h5.2.reach, h5.2.rest, h5.2.count⟩

/-! ### Optional -/

/-- The value of an optional expression: nil if absent. -/
def OptV (V : α → Val → Prop) (o : Option α) (v : Val) : Prop :=
  match o with
  | none => v = .nil
  | some a => V a v

theorem Cl.opt {e : PExpr} {V : α → Val → Prop} {s : Str} {c : Nat} {p : P α}
    (h : Cl env p0 e V s c (p s c)) : Cl env p0 (.zeroOrOne e) (OptV V) s c (P.opt p s c) := by
  intro st hok
  obtain ⟨v, st1, h1, h2, h3, h4, h5⟩ := h st.tick.pushV ⟨hok.reach, hok.rest, hok.count⟩
  have h3' : st1.popV.vstack = st.vstack := by simp [PState.popV, h3, PState.pushV, PState.tick]
  unfold P.opt
  cases hp : p s c with
  | none =>
    rw [hp] at h1 h4 h5
    exact ⟨v, st1.popV, Runs.call (fun n => rfl) h1 (fun n => rfl), ⟨h2.rstack, h2.invert⟩, h3',
      h4, h5.1, ⟨h5.2.reach, h5.2.rest, h5.2.count⟩⟩
  | some r =>
    rw [hp] at h1 h4 h5
    exact ⟨v, st1.popV, Runs.call (fun n => rfl) h1 (fun n => rfl), ⟨h2.rstack, h2.invert⟩, h3',
      h4, h5.1, ⟨h5.2.reach, h5.2.rest, h5.2.count⟩⟩

/-! ### Repetition -/

/-- Values related one by one. -/
def AllV (V : α → Val → Prop) : List α → List Val → Prop
  | [], [] => True
  | a :: as, v :: vs => V a v ∧ AllV V as vs
  | _, _ => False

/-- The value of a repetition. -/
def ListV (V : α → Val → Prop) (as : List α) (v : Val) : Prop := ∃ vs, v = .list vs ∧ AllV V as vs

theorem many_aux {e : PExpr} {V : α → Val → Prop} {p : P α} {L : Nat}
    (hp : ∀ s c, s.length < L → Cl env p0 e V s c (p s c))
    (hc : ∀ s c a s' c', p s c = some (a, s', c') → s'.length < s.length) (b : Bool) (k : Nat) :
    ∀ (s : Str) (c : Nat) (vals : List Val) (st : PState), s.length < L → s.length ≤ k →
      Ok p0 st s c → (b = true → vals = [] → (P.manyAux p k s c).1 ≠ []) →
      ∃ vs st', Runs env (.many e vals b) st (.ret (.list (vals ++ vs)) true st') ∧ Keep st st' ∧
        st'.vstack = st.vstack ∧ Grow env p0 st.errs st'.errs ∧ AllV V (P.manyAux p k s c).1 vs ∧
        Ok p0 st' (P.manyAux p k s c).2.1 (P.manyAux p k s c).2.2 := by
  induction k with
  | zero =>
    intro s c vals st hL hk hok hb
    have hs : s = [] := List.length_eq_zero_iff.1 (by omega)
    subst hs
    have hn : p [] c = none := by
      cases h : p [] c with
      | none => rfl
      | some r => exact absurd (hc _ _ _ _ _ h) (by simp)
    obtain ⟨v, st1, h1, h2, h3, h4, h5⟩ := hp [] c hL st.pushV ⟨hok.reach, hok.rest, hok.count⟩
    rw [hn] at h1 h4 h5
    refine ⟨[], st1.popV, Runs.call (fun n => rfl) h1 (fun n => ?_), ⟨h2.rstack, h2.invert⟩, ?_, h4,
      trivial, ⟨h5.2.reach, h5.2.rest, h5.2.count⟩⟩
    · dsimp only
      rw [if_neg (by simp), if_neg ?_, List.append_nil]
      intro hc
      simp only [Bool.and_eq_true, List.isEmpty_iff] at hc
      exact hb hc.1 hc.2 rfl
    · simp [PState.popV, h3, PState.pushV]
  | succ k ih =>
    intro s c vals st hL hk hok hb
    obtain ⟨v, st1, h1, h2, h3, h4, h5⟩ := hp s c hL st.pushV ⟨hok.reach, hok.rest, hok.count⟩
    have h3' : st1.popV.vstack = st.vstack := by simp [PState.popV, h3, PState.pushV]
    unfold P.manyAux at hb ⊢
    cases hn : p s c with
    | none =>
      rw [hn] at h1 h4 h5 hb
      refine ⟨[], st1.popV, Runs.call (fun n => rfl) h1 (fun n => ?_), ⟨h2.rstack, h2.invert⟩, h3',
        h4, trivial, ⟨h5.2.reach, h5.2.rest, h5.2.count⟩⟩
      dsimp only
      rw [if_neg (by simp), if_neg ?_, List.append_nil]
      intro hc
      simp only [Bool.and_eq_true, List.isEmpty_iff] at hc
      exact hb hc.1 hc.2 rfl
    | some r =>
      obtain ⟨a, s', c'⟩ := r
      rw [hn] at h1 h4 h5 hb
      have hlt := hc _ _ _ _ _ hn
      obtain ⟨vs, st2, k1, k2, k3, k4, k5, k6⟩ := ih s' c' (vals ++ [v]) st1.popV (by omega) (by omega)
        ⟨h5.2.reach, h5.2.rest, h5.2.count⟩ (by intro _ h; simp at h)
      refine ⟨v :: vs, st2, Runs.callThen (fun n => rfl) h1 (fun n => rfl) ?_,
        ⟨k2.rstack.trans h2.rstack, k2.invert.trans h2.invert⟩, k3.trans h3', h4.trans k4,
        ⟨h5.1, k5⟩, k6⟩
      rw [List.append_assoc] at k1
      exact k1

theorem Cl.many {e : PExpr} {V : α → Val → Prop} {s : Str} {c : Nat} {p : P α} {L : Nat}
    (hp : ∀ s c, s.length < L → Cl env p0 e V s c (p s c))
    (hc : ∀ s c a s' c', p s c = some (a, s', c') → s'.length < s.length) (hL : s.length < L) :
    Cl env p0 (.zeroOrMore e) (ListV V) s c (P.many p s c) := by
  intro st hok
  obtain ⟨vs, st', h1, h2, h3, h4, h5, h6⟩ := many_aux hp hc false s.length s c [] st.tick hL (by omega)
    ⟨hok.reach, hok.rest, hok.count⟩ (by intro h; cases h)
  exact ⟨.list vs, st', Runs.step (fun n => rfl) h1, h2.untick, h3, h4, ⟨vs, rfl, h5⟩, h6⟩

/-- `p+` in terms of `p*`. -/
def many1 (p : P α) : P (List α) := fun s c =>
  match P.manyAux p s.length s c with
  | ([], _, _) => none
  | r => some r

theorem Cl.many1 {e : PExpr} {V : α → Val → Prop} {s : Str} {c : Nat} {p : P α} {L : Nat}
    (hp : ∀ s c, s.length < L → Cl env p0 e V s c (p s c))
    (hc : ∀ s c a s' c', p s c = some (a, s', c') → s'.length < s.length) (hL : s.length < L) :
    Cl env p0 (.oneOrMore e) (ListV V) s c (many1 p s c) := by
  intro st hok
  unfold Pigeon.many1
  cases hm : P.manyAux p s.length s c with
  | mk as r =>
  obtain ⟨s', c'⟩ := r
  cases as with
  | cons a as =>
    obtain ⟨vs, st', h1, h2, h3, h4, h5, h6⟩ := many_aux hp hc true s.length s c [] st.tick hL (by omega)
      ⟨hok.reach, hok.rest, hok.count⟩ (by intro _ _; rw [hm]; simp)
    rw [hm] at h5 h6
    exact ⟨.list vs, st', Runs.step (fun n => rfl) h1, h2.untick, h3, h4, ⟨vs, rfl, h5⟩, h6⟩
  | nil =>
    have hn : p s c = none := by
      cases h : p s c with
      | none => rfl
      | some r =>
        obtain ⟨a, s1, c1⟩ := r
        have hlt := hc _ _ _ _ _ h
        cases hs : s.length with
        | zero => omega
        | succ k =>
          rw [hs] at hm
          unfold P.manyAux at hm
          rw [h] at hm
          simp at hm
    obtain ⟨v, st1, h1, h2, h3, h4, h5⟩ := hp s c hL st.tick.pushV ⟨hok.reach, hok.rest, hok.count⟩
    rw [hn] at h1 h4 h5
    refine ⟨.nil, st1.popV, Runs.step (fun n => rfl) (Runs.call (fun n => rfl) h1 (fun n => rfl)),
      ⟨h2.rstack, h2.invert⟩, ?_, h4, rfl, ⟨h5.2.reach, h5.2.rest, h5.2.count⟩⟩
    simp [PState.popV, h3, PState.pushV, PState.tick]

/-! ### Sequences whose list of values is used -/

/-- The rest of a sequence without labels; `W` relates the result to the values still to come. -/
def SeqDoes (env : PEnv) (p0 : Pt) (es : List PExpr) (W : β → List Val → Prop) (s : Str) (c : Nat)
    (o : Option (β × Str × Nat)) : Prop :=
  ∀ (st : PState) (vals : List Val) (pt : Pt) (rc : Option Int), Ok p0 st s c → Reach p0 pt →
    ∃ v st', Runs env (.seq es vals pt rc) st (.ret v o.isSome st') ∧ Keep st st' ∧
      st'.vstack = st.vstack ∧ Grow env p0 st.errs st'.errs ∧
      match o with
      | none => v = .nil ∧ st'.pt = pt ∧ st'.randCount = rc
      | some (b, s', c') => ∃ vs, v = .list (vals ++ vs) ∧ W b vs ∧ Ok p0 st' s' c'

theorem SeqDoes.done {W : β → List Val → Prop} {s : Str} {c : Nat} {b : β} (h : W b []) :
    SeqDoes env p0 [] W s c ((pure b : P β) s c) := by
  intro st vals pt rc hok hr
  exact ⟨.list vals, st, Runs.now (fun n => rfl), Keep.refl _, rfl, .refl _ _ _, [], by simp, h, hok⟩

theorem SeqDoes.next (hw : Wide p0.rest) {e : PExpr} {es : List PExpr} {V : α → Val → Prop}
    {W : β → List Val → Prop} {s : Str} {c : Nat} {p : P α} {k : α → P β}
    (h : Cl env p0 e V s c (p s c))
    (hk : ∀ a s' c' v, p s c = some (a, s', c') → V a v →
      SeqDoes env p0 es (fun b vs => W b (v :: vs)) s' c' (k a s' c')) :
    SeqDoes env p0 (e :: es) W s c ((p >>= k) s c) := by
  intro st vals pt rc hok hr
  obtain ⟨v, st1, h1, h2, h3, h4, h5⟩ := h st hok
  cases hp : p s c with
  | none =>
    rw [P.bind_none hp]
    rw [hp] at h1 h4 h5
    have hre := restore_fields hw { st1 with randCount := rc } pt h5.2.reach hr
    refine ⟨.nil, { st1 with randCount := rc, pt := pt }, Runs.call (fun n => rfl) h1 (fun n => ?_),
      ⟨h2.rstack, h2.invert⟩, h3, h4, rfl, rfl, rfl⟩
    exact congrArg (fun x => some (PRes.ret .nil false x)) hre
  | some r =>
    obtain ⟨a, s', c'⟩ := r
    rw [P.bind_some hp]
    rw [hp] at h1 h4 h5
    obtain ⟨v', st2, k1, k2, k3, k4, k5⟩ := hk a s' c' v hp h5.1 st1 (vals ++ [v]) pt rc h5.2 hr
    refine ⟨v', st2, Runs.callThen (fun n => rfl) h1 (fun n => rfl) k1, h2.trans k2, k3.trans h3,
      h4.trans k4, ?_⟩
    cases ho : k a s' c' with
    | none => rw [ho] at k5; exact k5
    | some r =>
      obtain ⟨b, s2, c2⟩ := r
      rw [ho] at k5
      obtain ⟨vs, e1, e2, e3⟩ := k5
      exact ⟨v :: vs, by rw [e1]; simp, e2, e3⟩

theorem SeqDoes.last (hw : Wide p0.rest) {e : PExpr} {V : α → Val → Prop}
    {W : α → List Val → Prop} {s : Str} {c : Nat} {p : P α}
    (h : Cl env p0 e V s c (p s c)) (hk : ∀ a v, V a v → W a [v]) :
    SeqDoes env p0 [e] W s c (p s c) := by
  have hb : (p >>= fun a => (pure a : P α)) s c = p s c := by
    cases hp : p s c with
    | none => rw [P.bind_none hp]
    | some r => rw [P.bind_some hp]; rfl
  rw [← hb]
  exact SeqDoes.next hw h (fun a s' c' v _ hv => SeqDoes.done (hk a v hv))

theorem Cl.seq {es : List PExpr} {W : β → List Val → Prop} {s : Str} {c : Nat}
    {o : Option (β × Str × Nat)} (h : SeqDoes env p0 es W s c o) :
    Cl env p0 (.seq es) (fun b v => ∃ vs, v = .list vs ∧ W b vs) s c o := by
  intro st hok
  obtain ⟨v, st', h1, h2, h3, h4, h5⟩ := h st.tick [] st.pt st.randCount ⟨hok.reach, hok.rest, hok.count⟩ hok.reach
  refine ⟨v, st', Runs.step (fun n => rfl) h1, h2.untick, h3, h4, ?_⟩
  cases o with
  | none => exact ⟨h5.1, by rw [h5.2.1]; exact hok.reach, by rw [h5.2.1]; exact hok.rest,
      by rw [h5.2.2]; exact hok.count⟩
  | some r =>
    obtain ⟨vs, e1, e2, e3⟩ := h5
    exact ⟨⟨vs, by simpa using e1, e2⟩, e3⟩

/-! ### Sequences whose labels are used by an action -/

/-- The rest of a sequence whose values go to an action through labels; `f` are the labels so far,
and the action makes of them a value related to the result. -/
def Steps (env : PEnv) (p0 : Pt) (a : Action) (es : List PExpr) (f : Frame) (V : β → Val → Prop)
    (s : Str) (c : Nat) (o : Option (β × Str × Nat)) : Prop :=
  ∀ (st : PState) (vals : List Val) (pt : Pt) (rc : Option Int) (stk : List Frame), Ok p0 st s c →
    Reach p0 pt → st.vstack = f :: stk →
    ∃ v st' f', Runs env (.seq es vals pt rc) st (.ret v o.isSome st') ∧ Keep st st' ∧
      st'.vstack = f' :: stk ∧ Grow env p0 st.errs st'.errs ∧
      match o with
      | none => v = .nil ∧ st'.pt = pt ∧ st'.randCount = rc
      | some (b, s', c') => Ok p0 st' s' c' ∧
        ∀ text count, ∃ w, runAction a f' text (some count) = .ok w ∧ V b w

theorem Steps.done {a : Action} {f : Frame} {V : β → Val → Prop} {s : Str} {c : Nat} {b : β}
    (h : ∀ text count, ∃ w, runAction a f text (some count) = .ok w ∧ V b w) :
    Steps env p0 a [] f V s c ((pure b : P β) s c) := by
  intro st vals pt rc stk hok hr hs
  exact ⟨.list vals, st, f, Runs.now (fun n => rfl), Keep.refl _, hs, .refl _ _ _, hok, h⟩

theorem Steps.item (hw : Wide p0.rest) {a : Action} {e : PExpr} {es : List PExpr} {f : Frame}
    {U : α → Val → Prop} {V : β → Val → Prop} {s : Str} {c : Nat} {p : P α} {k : α → P β}
    (h : Cl env p0 e U s c (p s c))
    (hk : ∀ x s' c', p s c = some (x, s', c') → Steps env p0 a es f V s' c' (k x s' c')) :
    Steps env p0 a (e :: es) f V s c ((p >>= k) s c) := by
  intro st vals pt rc stk hok hr hs
  obtain ⟨v, st1, h1, h2, h3, h4, h5⟩ := h st hok
  cases hp : p s c with
  | none =>
    rw [P.bind_none hp]
    rw [hp] at h1 h4 h5
    have hre := restore_fields hw { st1 with randCount := rc } pt h5.2.reach hr
    refine ⟨.nil, { st1 with randCount := rc, pt := pt }, f, Runs.call (fun n => rfl) h1 (fun n => ?_),
      ⟨h2.rstack, h2.invert⟩, h3.trans hs, h4, rfl, rfl, rfl⟩
    exact congrArg (fun x => some (PRes.ret .nil false x)) hre
  | some r =>
    obtain ⟨x, s', c'⟩ := r
    rw [P.bind_some hp]
    rw [hp] at h1 h4 h5
    obtain ⟨v', st2, f', k1, k2, k3, k4, k5⟩ :=
      hk x s' c' hp st1 (vals ++ [v]) pt rc stk h5.2 hr (h3.trans hs)
    exact ⟨v', st2, f', Runs.callThen (fun n => rfl) h1 (fun n => rfl) k1, h2.trans k2, k3,
      h4.trans k4, k5⟩

theorem Steps.label (hw : Wide p0.rest) {a : Action} {l : Str} {e : PExpr} {es : List PExpr}
    {f : Frame} {U : α → Val → Prop} {V : β → Val → Prop} {s : Str} {c : Nat} {p : P α}
    {k : α → P β} (hl : l ≠ []) (h : Cl env p0 e U s c (p s c))
    (hk : ∀ x s' c' v, p s c = some (x, s', c') → U x v →
      Steps env p0 a es ((l, v) :: f) V s' c' (k x s' c')) :
    Steps env p0 a (.labeled l e :: es) f V s c ((p >>= k) s c) := by
  intro st vals pt rc stk hok hr hs
  obtain ⟨v, st1, h1, h2, h3, h4, h5⟩ := h st.tick.pushV ⟨hok.reach, hok.rest, hok.count⟩
  have h3' : st1.popV.vstack = f :: stk := by simp [PState.popV, h3, PState.pushV, PState.tick, hs]
  cases hp : p s c with
  | none =>
    rw [P.bind_none hp]
    rw [hp] at h1 h4 h5
    have hre := restore_fields hw { st1.popV with randCount := rc } pt h5.2.reach hr
    have hrun : Runs env (.expr (.labeled l e)) st (.ret v false st1.popV) :=
      Runs.call (fun n => rfl) h1 (fun n => rfl)
    refine ⟨.nil, { st1.popV with randCount := rc, pt := pt }, f,
      Runs.call (fun n => rfl) hrun (fun n => ?_),
      ⟨h2.rstack, h2.invert⟩, h3', h4, rfl, rfl, rfl⟩
    exact congrArg (fun x => some (PRes.ret .nil false x)) hre
  | some r =>
    obtain ⟨x, s', c'⟩ := r
    rw [P.bind_some hp]
    rw [hp] at h1 h4 h5
    have hrun : Runs env (.expr (.labeled l e)) st (.ret v true
        { st1.popV with vstack := ((l, v) :: f) :: stk }) := by
      refine Runs.call (fun n => rfl) h1 (fun n => ?_)
      dsimp only
      rw [if_pos (by simp [hl]), h3']
      rfl
    obtain ⟨v', st2, f', k1, k2, k3, k4, k5⟩ :=
      hk x s' c' v hp h5.1 { st1.popV with vstack := ((l, v) :: f) :: stk } (vals ++ [v]) pt rc stk
        ⟨h5.2.reach, h5.2.rest, h5.2.count⟩ hr rfl
    exact ⟨v', st2, f', Runs.callThen (fun n => rfl) hrun (fun n => rfl) k1,
      ⟨k2.rstack.trans h2.rstack, k2.invert.trans h2.invert⟩, k3, h4.trans k4, k5⟩

/-- A rule whose body is an action on a sequence. -/
theorem rule_steps {name : Str} {a : Action} {es : List PExpr} {V : β → Val → Prop} {s : Str}
    {c : Nat} {o : Option (β × Str × Nat)}
    (hl : env.rules.lookup name = some (.action a (.seq es)))
    (h : Steps env p0 a es [] V s c o) : Cl env p0 (.ruleRef name) V s c o := by
  intro st hok
  obtain ⟨v, st1, f', h1, h2, h3, h4, h5⟩ :=
    h ({ st.tick.pushV with rstack := name :: st.rstack } : PState).tick.tick [] st.pt st.randCount st.vstack
      ⟨hok.reach, hok.rest, hok.count⟩ hok.reach rfl
  have hseq : Runs env (.expr (.seq es)) ({ st.tick.pushV with rstack := name :: st.rstack } : PState).tick
      (.ret v o.isSome st1) := Runs.step (fun n => rfl) h1
  have fin : ∀ w ok, Runs env (.expr (.action a (.seq es))) { st.tick.pushV with rstack := name :: st.rstack }
      (.ret w ok st1) →
      Runs env (.expr (.ruleRef name)) st (.ret w ok { st1.popV with rstack := st1.rstack.tail }) := by
    intro w ok hr
    refine Runs.call (k := fun _ v ok st' =>
      some (.ret v ok { st'.popV with rstack := st'.rstack.tail })) (fun n => ?_) hr (fun n => rfl)
    rw [run.eq_def]; dsimp only; rw [hl]
  have hk : Keep st { st1.popV with rstack := st1.rstack.tail } :=
    ⟨by rw [h2.rstack]; rfl, h2.invert⟩
  have hv : ({ st1.popV with rstack := st1.rstack.tail } : PState).vstack = st.vstack := by
    simp [PState.popV, h3]
  cases o with
  | none =>
    refine ⟨v, _, fin _ _ (Runs.call (fun n => rfl) hseq (fun n => rfl)), hk, hv, h4, h5.1, ?_⟩
    exact ⟨by show Reach p0 st1.pt; rw [h5.2.1]; exact hok.reach,
      by show runes st1.pt.rest = _; rw [h5.2.1]; exact hok.rest,
      by show st1.randCount = _; rw [h5.2.2]; exact hok.count⟩
  | some r =>
    obtain ⟨b, s', c'⟩ := r
    obtain ⟨hok', hact⟩ := h5
    obtain ⟨w, hw1, hw2⟩ := hact (slice st.pt st1.pt) c'
    refine ⟨w, _, fin _ _ (Runs.call (fun n => rfl) hseq (fun n => ?_)), hk, hv, h4, hw2,
      ⟨hok'.reach, hok'.rest, hok'.count⟩⟩
    dsimp only [PState.pushV, PState.tick]
    rw [if_pos (by rfl), h3, hok'.count, List.headD_cons, hw1]
    rfl

/-- The text consumed. -/
def took (s s' : Str) : Str := s.take (s.length - s'.length)

theorem slice_took {st st' : PState} {s s' : Str} (h : runes st.pt.rest = s)
    (h' : runes st'.pt.rest = s') : slice st.pt st'.pt = took s s' := by
  unfold slice took
  rw [← h, ← h']
  simp [runes, ← List.map_take]

/-- A rule whose body is an action on the text. -/
theorem rule_text {name : Str} {a : Action} {e : PExpr} {U : α → Val → Prop} {V : β → Val → Prop}
    {s : Str} {c : Nat} {o : Option (α × Str × Nat)} {g : α × Str × Nat → β}
    (hl : env.rules.lookup name = some (.action a e)) (h : Cl env p0 e U s c o)
    (ha : ∀ x s' c' v, o = some (x, s', c') → U x v →
      ∃ w, runAction a [] (took s s') (some (c' : Int)) = .ok w ∧ V (g (x, s', c')) w) :
    Cl env p0 (.ruleRef name) V s c (o.map fun r => (g r, r.2.1, r.2.2)) := by
  intro st hok
  obtain ⟨v, st1, h1, h2, h3, h4, h5⟩ :=
    h ({ st.tick.pushV with rstack := name :: st.rstack } : PState).tick ⟨hok.reach, hok.rest, hok.count⟩
  have fin : ∀ w ok, Runs env (.expr (.action a e)) { st.tick.pushV with rstack := name :: st.rstack }
      (.ret w ok st1) →
      Runs env (.expr (.ruleRef name)) st (.ret w ok { st1.popV with rstack := st1.rstack.tail }) := by
    intro w ok hr
    refine Runs.call (k := fun _ v ok st' =>
      some (.ret v ok { st'.popV with rstack := st'.rstack.tail })) (fun n => ?_) hr (fun n => rfl)
    rw [run.eq_def]; dsimp only; rw [hl]
  have hk : Keep st { st1.popV with rstack := st1.rstack.tail } :=
    ⟨by rw [h2.rstack]; rfl, h2.invert⟩
  have hv : ({ st1.popV with rstack := st1.rstack.tail } : PState).vstack = st.vstack := by
    simp [PState.popV, h3, PState.pushV, PState.tick]
  cases o with
  | none =>
    exact ⟨v, _, fin _ _ (Runs.call (fun n => rfl) h1 (fun n => rfl)), hk, hv, h4, h5.1,
      ⟨h5.2.reach, h5.2.rest, h5.2.count⟩⟩
  | some r =>
    obtain ⟨x, s', c'⟩ := r
    obtain ⟨w, hw1, hw2⟩ := ha x s' c' v rfl h5.1
    refine ⟨w, _, fin _ _ (Runs.call (fun n => rfl) h1 (fun n => ?_)), hk, hv, h4, hw2,
      ⟨h5.2.reach, h5.2.rest, h5.2.count⟩⟩
    have hsl : slice st.pt st1.pt = took s s' := slice_took hok.rest h5.2.rest
    dsimp only [PState.pushV, PState.tick] at h3 ⊢
    rw [if_pos (by rfl), h3, h5.2.count, List.headD_cons, hsl, hw1]
    rfl

/-! ### Matchers -/

/-- A literal, matched with or without regard to case. -/
def litG (ic : Bool) (val : Str) : P Unit := if ic then litI val else lit val

/-- One rune of a literal. -/
def chrG (ic : Bool) (x : Char) : P Unit := if ic then chrI x else chr x

theorem litG_cons (ic : Bool) (x : Char) (xs : Str) :
    litG ic (x :: xs) = (chrG ic x >>= fun _ => litG ic xs) := by
  cases ic <;> rfl

theorem chrG_cons (ic : Bool) (x y : Char) (s : Str) (c : Nat) : chrG ic x (y :: s) c =
    if (if ic then toLowerRune y else y) = x then some ((), s, c) else none := by
  cases ic
  · by_cases h : y = x
    · subst h; simpa [chrG] using chr_cons y s c
    · simpa [chrG, h] using chr_none x (y :: s) c (by simpa using h)
  · by_cases h : toLowerRune y = x
    · simpa [chrG, h] using chrI_cons x y s c h
    · simpa [chrG, h] using chrI_none x (y :: s) c (by simpa using h)

theorem chrG_nil (ic : Bool) (x : Char) (c : Nat) : chrG ic x [] c = none := by
  cases ic
  · exact chr_none x [] c (by simp)
  · exact chrI_none x [] c (by simp)

theorem runes_cons {l : List Sym} {y : Char} {s : Str} (h : runes l = y :: s) :
    ∃ x t, l = x :: t ∧ x.rn = y ∧ runes t = s := by
  cases l with
  | nil => simp [runes] at h
  | cons x t =>
    simp only [runes, List.map_cons, List.cons.injEq] at h
    exact ⟨x, t, rfl, h.1, h.2⟩

theorem runes_nil {l : List Sym} (h : runes l = []) : l = [] := by
  simpa [runes] using h

theorem rune_cons {st : PState} {y : Char} {s : Str} (h : runes st.pt.rest = y :: s) :
    st.rune = y := by
  obtain ⟨x, t, h1, h2, -⟩ := runes_cons h
  unfold PState.rune; rw [h1]; exact h2

theorem rune_nil {st : PState} (h : runes st.pt.rest = []) : st.rune = runeError := by
  unfold PState.rune; rw [runes_nil h]

theorem Ok.read {st : PState} {x : Char} {s : Str} {c : Nat} (h : Ok p0 st (x :: s) c) :
    Ok p0 (st.read env) s c := by
  have hf := read_fields (env := env) st h.reach
  obtain ⟨y, t, h1, h2, h3⟩ := runes_cons h.rest
  refine ⟨?_, ?_, hf.2.1.trans h.count⟩
  · rw [hf.1]; exact h.reach.step (by rw [h1]; simp)
  · rw [hf.1, stepPt_rest, h1]; exact h3

theorem litLoop_spec (ic : Bool) (val : Str) (hv : runeError ∉ val) : ∀ (st : PState) (s : Str) (c : Nat),
    Ok p0 st s c → ∃ st', litLoop env ic val st = ((litG ic val s c).isSome, st') ∧ Keep st st' ∧
      st'.vstack = st.vstack ∧ Grow env p0 st.errs st'.errs ∧ st'.randCount = st.randCount ∧ Reach p0 st'.pt ∧
      ∀ u s' c', litG ic val s c = some (u, s', c') → Ok p0 st' s' c' := by
  induction val with
  | nil =>
    intro st s c hok
    have hl : litG ic [] s c = some ((), s, c) := by cases ic <;> rfl
    refine ⟨st, by rw [hl]; rfl, Keep.refl _, rfl, .refl _ _ _, rfl, hok.reach, ?_⟩
    intro u s' c' h
    rw [hl] at h
    cases h
    exact hok
  | cons x xs ih =>
    intro st s c hok
    have hx : runeError ≠ x := fun h => hv (h ▸ List.mem_cons_self)
    cases s with
    | nil =>
      have hl : litG ic (x :: xs) [] c = none := by
        rw [litG_cons]; exact P.bind_none (chrG_nil ic x c)
      refine ⟨st, ?_, Keep.refl _, rfl, .refl _ _ _, rfl, hok.reach, ?_⟩
      · unfold litLoop
        rw [rune_nil hok.rest, hl]
        dsimp only
        rw [if_pos]
        · rfl
        · cases ic
          · exact hx
          · exact hx
      · intro u s' c' h; rw [hl] at h; cases h
    | cons y s =>
      unfold litLoop
      rw [rune_cons hok.rest, litG_cons]
      dsimp only
      by_cases hy : (if ic = true then toLowerRune y else y) = x
      · have hc : chrG ic x (y :: s) c = some ((), s, c) := by rw [chrG_cons, if_pos hy]
        rw [P.bind_some hc, if_neg (by simpa using hy)]
        obtain ⟨st', h1, h2, h3, h4, h5, h6, h7⟩ :=
          ih (fun h => hv (List.mem_cons_of_mem _ h)) (st.read env) s c hok.read
        have hf := read_fields (env := env) st hok.reach
        exact ⟨st', h1, ⟨h2.rstack.trans hf.2.2.2.1, h2.invert.trans hf.2.2.2.2.2⟩,
          h3.trans hf.2.2.1, hf.2.2.2.2.1.trans h4, h5.trans hf.2.1, h6, h7⟩
      · have hc : chrG ic x (y :: s) c = none := by rw [chrG_cons, if_neg hy]
        rw [P.bind_none hc, if_pos hy]
        refine ⟨st, rfl, Keep.refl _, rfl, .refl _ _ _, rfl, hok.reach, ?_⟩
        intro u s' c' h; cases h

theorem failAt_keep (st : PState) (b : Bool) (pos : Pos) (w : Str) : Keep st (st.failAt b pos w) :=
  ⟨(failAt_fields st b pos w).2.2.2.1, (failAt_fields st b pos w).2.2.2.2.2⟩

theorem Ok.failAt {st : PState} {s : Str} {c : Nat} (h : Ok p0 st s c) (b : Bool) (pos : Pos) (w : Str) :
    Ok p0 (st.failAt b pos w) s c := by
  have hf := failAt_fields st b pos w
  exact ⟨hf.1 ▸ h.reach, by rw [hf.1]; exact h.rest, hf.2.1.trans h.count⟩

/-- A literal; its value is the text matched. -/
theorem Cl.litG (hw : Wide p0.rest) (ic : Bool) (val : Str) (hv : runeError ∉ val) (s : Str) (c : Nat) :
    Cl env p0 (.lit val ic) (fun _ v => ∃ s', v = .bytes (took s s') ∧ ∃ c', litG ic val s c = some ((), s', c'))
      s c (litG ic val s c) := by
  refine DoesX.leaf fun st hok => ?_
  obtain ⟨st', h1, h2, h3, h4, h5, h6, h7⟩ := litLoop_spec (env := env) ic val hv st s c hok
  cases ho : Pigeon.litG ic val s c with
  | none =>
    rw [ho] at h1
    have hf := failAt_fields st' false st.pt.pos (litWant val ic)
    have hre := restore_fields hw (st'.failAt false st.pt.pos (litWant val ic)) st.pt
      (hf.1 ▸ h6) hok.reach
    refine ⟨.nil, { st'.failAt false st.pt.pos (litWant val ic) with pt := st.pt },
      fun st0 n h0 => ?_, ⟨hf.2.2.2.1.trans h2.rstack, hf.2.2.2.2.2.trans h2.invert⟩,
      hf.2.2.1.trans h3, h4.trans (.of_eq hf.2.2.2.2.1), rfl,
      ⟨hok.reach, hok.rest, hf.2.1.trans (h5.trans hok.count)⟩⟩
    rw [run.eq_def]; dsimp only; rw [h0]
    unfold parseLit
    rw [h1]
    dsimp only [Option.isSome]
    rw [hre]
  | some r =>
    obtain ⟨u, s', c'⟩ := r
    rw [ho] at h1
    have hf := failAt_fields st' true st.pt.pos (litWant val ic)
    have hok' := (h7 u s' c' ho).failAt true st.pt.pos (litWant val ic)
    refine ⟨.bytes (took s s'), st'.failAt true st.pt.pos (litWant val ic), fun st0 n h0 => ?_,
      ⟨hf.2.2.2.1.trans h2.rstack, hf.2.2.2.2.2.trans h2.invert⟩,
      hf.2.2.1.trans h3, h4.trans (.of_eq hf.2.2.2.2.1), ⟨s', rfl, c', rfl⟩, hok'⟩
    rw [run.eq_def]; dsimp only; rw [h0]
    unfold parseLit
    rw [h1]
    dsimp only [Option.isSome]
    rw [slice_took hok.rest hok'.rest]

theorem took_append (t s : Str) : took (t ++ s) s = t := by
  unfold took
  simp

theorem Cl.lit (hw : Wide p0.rest) (val : Str) (hv : runeError ∉ val) (s : Str) (c : Nat) :
    Cl env p0 (.lit val false) (fun _ v => v = .bytes val) s c (lit val s c) :=
  (Cl.litG hw false val hv s c).imp (by
    rintro _ v ⟨s', rfl, c', h⟩
    rw [(lit_ok (show GoBCDice.lit val s c = some ((), s', c') from h)).1, took_append])

theorem Cl.chr (hw : Wide p0.rest) (x : Char) (hv : runeError ≠ x) (s : Str) (c : Nat) :
    Cl env p0 (.lit [x] false) (fun _ v => v = .bytes [x]) s c (chr x s c) := by
  refine (Cl.lit hw [x] (by simpa using hv) s c).congr ?_
  show GoBCDice.chr x s c = (GoBCDice.chr x >>= fun _ => pure ()) s c
  cases h : GoBCDice.chr x s c with
  | none => rw [P.bind_none h]
  | some r => rw [P.bind_some h]; rfl

theorem Cl.litI (hw : Wide p0.rest) (val : Str) (hv : runeError ∉ val) (s : Str) (c : Nat) :
    Cl env p0 (.lit val true) (fun _ _ => True) s c (litI val s c) :=
  (Cl.litG hw true val hv s c).imp (fun _ _ _ => trivial)

theorem Cl.chrI (hw : Wide p0.rest) (x : Char) (hv : runeError ≠ x) (s : Str) (c : Nat) :
    Cl env p0 (.lit [x] true) (fun _ _ => True) s c (chrI x s c) := by
  refine (Cl.litI hw [x] (by simpa using hv) s c).congr ?_
  show GoBCDice.chrI x s c = (GoBCDice.chrI x >>= fun _ => pure ()) s c
  cases h : GoBCDice.chrI x s c with
  | none => rw [P.bind_none h]
  | some r => rw [P.bind_some h]; rfl

/-- A class of characters; its value is the character. -/
theorem Cl.cls (val : Str) (chars : List Char) (ranges : List (Char × Char)) (classes : List Str)
    (ic inv : Bool) (f : Char → Bool)
    (hf : ∀ x, f x = (classHas chars ranges classes (if ic then toLowerRune x else x) != inv))
    (s : Str) (c : Nat) :
    Cl env p0 (.charClass val chars ranges classes ic inv) (fun x v => v = .bytes [x] ∧ f x = true) s c
      (P.sat f s c) := by
  refine DoesX.leaf fun st hok => ?_
  cases s with
  | nil =>
    refine ⟨.nil, st.failAt false st.pt.pos val, fun st0 n h0 => ?_, failAt_keep _ _ _ _,
      (failAt_fields st _ _ _).2.2.1, .of_eq (failAt_fields st _ _ _).2.2.2.2.1, rfl, hok.failAt _ _ _⟩
    rw [run.eq_def]; dsimp only; rw [h0]
    unfold parseCharClass
    rw [runes_nil hok.rest]
    rfl
  | cons x s =>
    obtain ⟨y, l, hyl, rfl, hl⟩ := runes_cons hok.rest
    unfold P.sat
    dsimp only
    by_cases hx : f y.rn = true
    · rw [if_pos hx]
      have hrf := read_fields (env := env) st hok.reach
      have hff := failAt_fields (st.read env) true st.pt.pos val
      have hok' : Ok p0 ((st.read env).failAt true st.pt.pos val) s c := hok.read.failAt _ _ _
      refine ⟨.bytes [y.rn], (st.read env).failAt true st.pt.pos val, fun st0 n h0 => ?_,
        ⟨hff.2.2.2.1.trans hrf.2.2.2.1, hff.2.2.2.2.2.trans hrf.2.2.2.2.2⟩,
        hff.2.2.1.trans hrf.2.2.1, hrf.2.2.2.2.1.trans (.of_eq hff.2.2.2.2.1), ⟨rfl, hx⟩, hok'⟩
      rw [run.eq_def]; dsimp only; rw [h0]
      unfold parseCharClass
      rw [hyl]
      dsimp only
      rw [if_neg, slice_took hok.rest hok'.rest, show took (y.rn :: s) s = [y.rn] from took_append [y.rn] s]
      · rfl
      · have := hf y.rn
        rw [hx] at this
        intro hc
        rw [hc] at this
        simp at this
    · rw [if_neg hx]
      refine ⟨.nil, st.failAt false st.pt.pos val, fun st0 n h0 => ?_, failAt_keep _ _ _ _,
        (failAt_fields st _ _ _).2.2.1, .of_eq (failAt_fields st _ _ _).2.2.2.2.1, rfl, hok.failAt _ _ _⟩
      rw [run.eq_def]; dsimp only; rw [h0]
      unfold parseCharClass
      rw [hyl]
      dsimp only
      rw [if_pos]
      · rfl
      · have := hf y.rn
        have hx' : f y.rn = false := by simpa using hx
        rw [hx'] at this
        simpa using this.symm

/-- `!.` -/
theorem Cl.eot (hw : Wide p0.rest) (s : Str) (c : Nat) :
    Cl env p0 (.not .any) (fun _ _ => True) s c (eot s c) := by
  intro st hok
  cases s with
  | nil =>
    have hff := failAt_fields (PState.tick { st.tick.pushV with invert := !st.invert }) false st.pt.pos chars!"."
    have hany : Runs env (.expr .any) { st.tick.pushV with invert := !st.invert }
        (.ret .nil false (PState.failAt (PState.tick { st.tick.pushV with invert := !st.invert }) false st.pt.pos chars!".")) := by
      refine Runs.now (fun n => ?_)
      rw [run.eq_def]; dsimp only
      unfold parseAny
      dsimp only [PState.pushV, PState.tick]
      rw [runes_nil hok.rest]
    generalize PState.failAt (PState.tick { st.tick.pushV with invert := !st.invert }) false st.pt.pos chars!"." = st1 at hff hany
    have hre := restore_fields hw { (({ st1 with invert := !st1.invert } : PState).popV) with
      randCount := st.randCount } st.pt (hff.1 ▸ hok.reach) hok.reach
    refine ⟨.nil, _, Runs.call (fun n => rfl) hany (fun n => rfl), ?_⟩
    rw [hre]
    refine ⟨⟨hff.2.2.2.1, ?_⟩, ?_, .of_eq hff.2.2.2.2.1, trivial, ⟨hok.reach, hok.rest, hok.count⟩⟩
    · show (!st1.invert) = st.invert
      rw [hff.2.2.2.2.2]; simp [PState.tick]
    · show st1.vstack.tail = st.vstack
      rw [hff.2.2.1]; rfl
  | cons x s =>
    obtain ⟨y, l, hyl, -, -⟩ := runes_cons hok.rest
    have hok1 : Ok p0 (PState.tick { st.tick.pushV with invert := !st.invert }) (x :: s) c := ⟨hok.reach, hok.rest, hok.count⟩
    have hrf := read_fields (env := env) (PState.tick { st.tick.pushV with invert := !st.invert }) hok1.reach
    have hff := failAt_fields (PState.read env (PState.tick { st.tick.pushV with invert := !st.invert })) true st.pt.pos chars!"."
    have hok2 : Ok p0 (PState.failAt (PState.read env (PState.tick { st.tick.pushV with invert := !st.invert })) true st.pt.pos chars!".") s c :=
      hok1.read.failAt _ _ _
    have hany : ∃ v, Runs env (.expr .any) { st.tick.pushV with invert := !st.invert }
        (.ret v true (PState.failAt (PState.read env (PState.tick { st.tick.pushV with invert := !st.invert })) true st.pt.pos chars!".")) := by
      refine ⟨.bytes (slice st.pt (PState.failAt (PState.read env (PState.tick { st.tick.pushV with invert := !st.invert })) true st.pt.pos chars!".").pt),
        Runs.now (fun n => ?_)⟩
      rw [run.eq_def]; dsimp only
      unfold parseAny
      rw [show ((PState.tick { st.tick.pushV with invert := !st.invert }) : PState).pt.rest = y :: l from hyl]
      rfl
    obtain ⟨v, hany⟩ := hany
    generalize PState.failAt (PState.read env (PState.tick { st.tick.pushV with invert := !st.invert })) true st.pt.pos chars!"." = st1 at hff hany hok2
    have hre := restore_fields hw { (({ st1 with invert := !st1.invert } : PState).popV) with
      randCount := st.randCount } st.pt hok2.reach hok.reach
    refine ⟨.nil, _, Runs.call (fun n => rfl) hany (fun n => rfl), ?_⟩
    rw [hre]
    refine ⟨⟨hff.2.2.2.1.trans hrf.2.2.2.1, ?_⟩, ?_, hrf.2.2.2.2.1.trans (.of_eq hff.2.2.2.2.1), rfl,
      ⟨hok.reach, hok.rest, hok.count⟩⟩
    · show (!st1.invert) = st.invert
      rw [hff.2.2.2.2.2, hrf.2.2.2.2.2]; simp [PState.tick]
    · show st1.vstack.tail = st.vstack
      rw [hff.2.2.1, hrf.2.2.1]; rfl

/-- `IncRandCount`. -/
theorem Cl.inc (s : Str) (c : Nat) :
    Cl env p0 (.stateCode .onIncRandCount1) (fun _ _ => True) s c (incRandCount s c) := by
  refine DoesX.leaf fun st hok => ?_
  refine ⟨.nil, { st with randCount := some (c + 1) }, fun st0 n h0 => ?_, ⟨rfl, rfl⟩, rfl, .refl _ _ _,
    trivial, ⟨hok.reach, hok.rest, rfl⟩⟩
  rw [run.eq_def]; dsimp only; rw [h0]
  unfold parseStateCode
  rw [hok.count]
  rfl

end Does

end GoBCDice.Pigeon
