import Verif.Lemmas.PigeonTop

/-!
# The generated parser: where it is and what it reports, for every table and data

Every position the parser visits or reports is one of the input, and no invalid byte is passed
unreported.  The table is arbitrary, except that no literal contains U+FFFD (which the interpreter
cannot tell from the end of the input).
-/

namespace GoBCDice.Pigeon

mutual
/-- No literal contains U+FFFD. -/
def clean : PExpr → Bool
  | .action _ e => clean e
  | .any => true
  | .charClass .. => true
  | .choice es => cleanAll es
  | .labeled _ e => clean e
  | .lit val _ => !val.contains runeError
  | .not e => clean e
  | .oneOrMore e => clean e
  | .ruleRef _ => true
  | .seq es => cleanAll es
  | .stateCode _ => true
  | .zeroOrMore e => clean e
  | .zeroOrOne e => clean e
/-- `clean` for each. -/
def cleanAll : List PExpr → Bool
  | [] => true
  | e :: es => clean e && cleanAll es
end

/-- The parser may be at `pt`: a position of the input such that every invalid byte up to it has
been reported. -/
def At (env : PEnv) (p0 : Pt) (pt : Pt) (errs : List Str) : Prop :=
  ∃ k, k ≤ p0.rest.length ∧ pt = walk p0 k ∧
    ∀ i, i ≤ k → p0.rest[i]? = some Sym.bad → env.allowInvalid = false → errs ≠ []

theorem At.mono {env : PEnv} {p0 pt : Pt} {e e' : List Str} (h : At env p0 pt e) (he : e ≠ [] → e' ≠ []) :
    At env p0 pt e' := by
  obtain ⟨k, h1, h2, h3⟩ := h
  exact ⟨k, h1, h2, fun i hi hb hal => he (h3 i hi hb hal)⟩

/-- The invariant. -/
structure Inv (env : PEnv) (p0 : Pt) (st : PState) : Prop where
  pt : At env p0 st.pt st.errs
  fail : st.maxFailPos = ⟨1, 1, 0⟩ ∨ ∃ k, k ≤ p0.rest.length ∧ st.maxFailPos = (walk p0 k).pos
  errs : ∀ e ∈ st.errs, ∃ k rule msg, k ≤ p0.rest.length ∧
    e = located env.filename (walk p0 k).pos rule msg

/-- Errors stay. -/
def Stay (st st' : PState) : Prop := st.errs ≠ [] → st'.errs ≠ []

variable {env : PEnv} {p0 : Pt}

theorem Inv.addErrAt {st : PState} (h : Inv env p0 st) (m : Str) (k : Nat) (hk : k ≤ p0.rest.length)
    (pos : Pos) (hp : pos = (walk p0 k).pos) : Inv env p0 (st.addErrAt env m pos) := by
  refine ⟨h.pt.mono (fun _ => addErrAt_errs _ _ _), h.fail, ?_⟩
  intro e he
  rw [addErrAt_eq] at he
  rcases List.mem_append.1 he with he | he
  · exact h.errs e he
  · rw [List.mem_singleton] at he
    exact ⟨k, _, _, hk, hp ▸ he⟩

theorem Inv.addErr {st : PState} (h : Inv env p0 st) (m : Str) : Inv env p0 (st.addErr env m) := by
  obtain ⟨k, h1, h2, -⟩ := h.pt
  exact h.addErrAt m k h1 _ (by rw [h2])

theorem Inv.failAt {st : PState} (h : Inv env p0 st) (b : Bool) (k : Nat) (hk : k ≤ p0.rest.length)
    (pos : Pos) (hp : pos = (walk p0 k).pos) (w : Str) : Inv env p0 (st.failAt b pos w) := by
  unfold PState.failAt
  split
  · split
    · exact h
    · dsimp only
      split
      · exact ⟨h.pt, .inr ⟨k, hk, hp⟩, h.errs⟩
      · exact ⟨h.pt, h.fail, h.errs⟩
  · exact h

theorem Inv.read {st : PState} (h : Inv env p0 st) (hr : st.pt.rest ≠ []) :
    Inv env p0 (st.read env) ∧ Stay st (st.read env) := by
  obtain ⟨k, h1, h2, h3⟩ := h.pt
  have hreach : Reach p0 st.pt := ⟨k, h1, h2⟩
  have hf := read_fields (env := env) st hreach
  have hk : k + 1 ≤ p0.rest.length := by
    rw [h2, walk_rest] at hr
    have : ¬ p0.rest.length ≤ k := fun h => hr (List.drop_eq_nil_of_le h)
    omega
  have htail : st.pt.rest.tail = p0.rest.drop (k + 1) := by
    rw [h2, walk_rest, List.tail_drop]
  have hpt : (st.read env).pt = walk p0 (k + 1) := by rw [hf.1, h2]; rfl
  refine ⟨?_, hf.2.2.2.2.1.stay⟩
  unfold PState.read PState.enter at hpt ⊢
  dsimp only at hpt ⊢
  by_cases hb : st.pt.rest.tail.head? = some ⟨runeError, 1⟩ ∧ env.allowInvalid = false
  · rw [if_pos hb] at hpt ⊢
    refine ⟨⟨k + 1, hk, hpt, fun _ _ _ _ => addErrAt_errs _ _ _⟩, h.fail, ?_⟩
    intro e he
    unfold PState.addErr at he
    rw [addErrAt_eq] at he
    rcases List.mem_append.1 he with he | he
    · exact h.errs e he
    · rw [List.mem_singleton] at he
      refine ⟨k + 1, st.rstack.head?, chars!"invalid encoding", hk, he.trans ?_⟩
      exact congrArg (fun p : Pt => located env.filename p.pos st.rstack.head? chars!"invalid encoding") hpt
  · rw [if_neg hb] at hpt ⊢
    refine ⟨⟨k + 1, hk, hpt, fun i hi hbad hal => ?_⟩, h.fail, h.errs⟩
    show st.errs ≠ []
    by_cases hik : i ≤ k
    · exact h3 i hik hbad hal
    · have : i = k + 1 := by omega
      subst this
      refine absurd ⟨?_, hal⟩ hb
      rw [htail, List.head?_drop, hbad]
      rfl

theorem litLoop_inv (ic : Bool) : ∀ (val : Str), val.contains runeError = false → ∀ (st : PState),
    Inv env p0 st → Inv env p0 (litLoop env ic val st).2 ∧ Stay st (litLoop env ic val st).2
  | [], _, st, h => ⟨h, fun x => x⟩
  | w :: val, hc, st, h => by
    unfold litLoop
    dsimp only
    by_cases hcur : (if ic = true then toLowerRune st.rune else st.rune) ≠ w
    · rw [if_pos hcur]; exact ⟨h, fun x => x⟩
    · rw [if_neg hcur]
      have hne : st.pt.rest ≠ [] := by
        intro hr
        apply hcur
        have hrune : st.rune = runeError := by unfold PState.rune; rw [hr]
        rw [hrune]
        intro hw
        have hw' : w = runeError := by
          rw [← hw]; cases ic <;> decide
        rw [hw'] at hc
        simp [List.contains_cons] at hc
      obtain ⟨h1, h2⟩ := h.read hne
      obtain ⟨h3, h4⟩ := litLoop_inv ic val (by
        rw [List.contains_cons, Bool.or_eq_false_iff] at hc; exact hc.2) _ h1
      exact ⟨h3, fun x => h4 (h2 x)⟩

/-- The state in a result. -/
def PRes.st : PRes → PState
  | .ret _ _ st => st
  | .panic _ st => st

/-- What a task may be. -/
def TaskOk (env : PEnv) (p0 : Pt) (errs : List Str) : Task → Prop
  | .expr e => clean e = true
  | .alts es => cleanAll es = true
  | .seq es _ pt _ => cleanAll es = true ∧ At env p0 pt errs
  | .many e _ _ => clean e = true

theorem Inv.restore {st : PState} (h : Inv env p0 st) {pt : Pt} (hp : At env p0 pt st.errs) :
    Inv env p0 (st.restore pt) := by
  unfold PState.restore
  split
  · exact h
  · exact ⟨hp, h.fail, h.errs⟩

theorem restore_stay (st : PState) (pt : Pt) : Stay st (st.restore pt) := by
  intro h
  rw [(restore_keep st pt).2]
  exact h

theorem Inv.of {st st' : PState} (h : Inv env p0 st) (h1 : st'.pt = st.pt) (h2 : st'.errs = st.errs)
    (h3 : st'.maxFailPos = st.maxFailPos) : Inv env p0 st' :=
  ⟨by rw [h1, h2]; exact h.pt, by rw [h3]; exact h.fail, by rw [h2]; exact h.errs⟩

theorem cls_inv {st : PState} (h : Inv env p0 st) (val : Str) (chars : List Char)
    (ranges : List (Char × Char)) (classes : List Str) (ic inv : Bool) :
    Inv env p0 (parseCharClass env val chars ranges classes ic inv st).st ∧
      Stay st (parseCharClass env val chars ranges classes ic inv st).st := by
  obtain ⟨k, hk, hpt, -⟩ := h.pt
  have hf : ∀ st1 : PState, Inv env p0 st1 → Stay st st1 → ∀ b, Inv env p0 (st1.failAt b st.pt.pos val) ∧
      Stay st (st1.failAt b st.pt.pos val) := fun st1 h1 h2 b =>
    ⟨h1.failAt b k hk _ (by rw [hpt]) val, fun x => by
      rw [(failAt_fields st1 b st.pt.pos val).2.2.2.2.1]; exact h2 x⟩
  unfold parseCharClass
  split
  · exact hf st h (fun x => x) false
  · rename_i s l hr
    dsimp only
    by_cases hcl : classHas chars ranges classes (if ic = true then toLowerRune s.rn else s.rn) = inv
    · rw [if_pos hcl]
      exact hf st h (fun x => x) false
    · rw [if_neg hcl]
      have := h.read (by rw [hr]; simp)
      exact hf _ this.1 this.2 true

theorem any_inv {st : PState} (h : Inv env p0 st) :
    Inv env p0 (parseAny env st).st ∧ Stay st (parseAny env st).st := by
  obtain ⟨k, hk, hpt, -⟩ := h.pt
  have hf : ∀ st1 : PState, Inv env p0 st1 → Stay st st1 → ∀ b, Inv env p0 (st1.failAt b st.pt.pos chars!".") ∧
      Stay st (st1.failAt b st.pt.pos chars!".") := fun st1 h1 h2 b =>
    ⟨h1.failAt b k hk _ (by rw [hpt]) _, fun x => by
      rw [(failAt_fields st1 b st.pt.pos _).2.2.2.2.1]; exact h2 x⟩
  unfold parseAny
  split
  · exact hf st h (fun x => x) false
  · rename_i s l hr
    have := h.read (by rw [hr]; simp)
    exact hf _ this.1 this.2 true

theorem lit_inv {st : PState} (h : Inv env p0 st) (val : Str) (ic : Bool)
    (hc : val.contains runeError = false) :
    Inv env p0 (parseLit env val ic st).st ∧ Stay st (parseLit env val ic st).st := by
  obtain ⟨k, hk, hpt, hb⟩ := h.pt
  have hl := litLoop_inv (env := env) (p0 := p0) ic val hc st h
  unfold parseLit
  cases hll : litLoop env ic val st with
  | mk b st1 =>
    rw [hll] at hl
    have hf : ∀ b, Inv env p0 (st1.failAt b st.pt.pos (litWant val ic)) ∧
        Stay st (st1.failAt b st.pt.pos (litWant val ic)) := fun b =>
      ⟨hl.1.failAt b k hk _ (by rw [hpt]) _, fun x => by
        rw [(failAt_fields st1 b st.pt.pos _).2.2.2.2.1]; exact hl.2 x⟩
    cases b
    · refine ⟨(hf false).1.restore ?_, fun x => restore_stay _ _ ((hf false).2 x)⟩
      exact h.pt.mono (hf false).2
    · exact hf true

theorem lookup_mem {α : Type} {name : Str} {e : α} : ∀ {l : List (Str × α)}, l.lookup name = some e →
    (name, e) ∈ l
  | [], h => by simp at h
  | (a, b) :: l, h => by
    rw [List.lookup_cons] at h
    split at h
    · rename_i hab
      have : name = a := by simpa using hab
      subst this
      cases h
      exact List.mem_cons_self ..
    · exact List.mem_cons_of_mem _ (lookup_mem h)

/-- Whatever the table and the data, the parser keeps to the input. -/
theorem run_inv (hg : ∀ r ∈ env.rules, clean r.2 = true) (n : Nat) : ∀ (t : Task) (st : PState) (r : PRes),
    Inv env p0 st → TaskOk env p0 st.errs t → run env n t st = some r →
    Inv env p0 r.st ∧ Stay st r.st := by
  induction n with
  | zero => intro t st r _ _ h; simp [run] at h
  | succ n ih =>
    intro t st r hi ht h
    have hti : Inv env p0 st.tick := hi.of rfl rfl rfl
    -- after a call
    have call : ∀ (t1 : Task) (st1 : PState) (k : Val → Bool → PState → Option PRes),
        Inv env p0 st1 → TaskOk env p0 st1.errs t1 → st1.errs = st.errs →
        (∀ v ok st2, Inv env p0 st2 → Stay st st2 → k v ok st2 = some r →
          Inv env p0 r.st ∧ Stay st r.st) →
        PRes.andThen (run env n t1 st1) k = some r → Inv env p0 r.st ∧ Stay st r.st := by
      intro t1 st1 k h1 h2 he hk h
      cases hrun : run env n t1 st1 with
      | none => rw [hrun] at h; cases h
      | some r1 =>
        rw [hrun] at h
        have h3 := ih t1 st1 r1 h1 h2 hrun
        have hs : Stay st r1.st := fun x => h3.2 (he ▸ x)
        cases r1 with
        | panic m st2 => cases h; exact ⟨h3.1, hs⟩
        | ret v ok st2 => exact hk v ok st2 h3.1 hs h
    rw [run.eq_def] at h
    dsimp only at h
    split at h
    · -- action
      rename_i a e
      refine call (.expr e) st.tick _ hti (show clean e = true from ht) rfl ?_ h
      intro v ok st2 h1 h2 h3
      try dsimp only at h3
      split at h3
      · split at h3
        · cases h3; exact ⟨h1, h2⟩
        · cases h3
          obtain ⟨k, hk, hpt, -⟩ := hi.pt
          exact ⟨h1.addErrAt _ k hk _ (by rw [hpt]), fun _ => addErrAt_errs _ _ _⟩
        · cases h3; exact ⟨h1, h2⟩
      · cases h3; exact ⟨h1, h2⟩
    · cases h; exact any_inv hti
    · cases h; exact cls_inv hti _ _ _ _ _ _
    · rename_i es
      exact ih (.alts es) st.tick r hti ht h
    · cases h; exact ⟨hi, fun x => x⟩
    · -- alts
      rename_i e es
      have ht' : clean e = true ∧ cleanAll es = true := (Bool.and_eq_true _ _).mp ht
      refine call (.expr e) st.pushV _ (hi.of rfl rfl rfl) ht'.1 rfl ?_ h
      intro v ok st2 h1 h2 h3
      try dsimp only at h3
      split at h3
      · cases h3; exact ⟨h1.of rfl rfl rfl, h2⟩
      · have := ih (.alts es) _ r (h1.of (st' := { st2.popV with randCount := st.randCount }) rfl rfl rfl) ht'.2 h3
        exact ⟨this.1, fun x => this.2 (h2 x)⟩
    · -- labeled
      rename_i label e
      refine call (.expr e) st.tick.pushV _ (hi.of rfl rfl rfl) (show clean e = true from ht) rfl ?_ h
      intro v ok st2 h1 h2 h3
      try dsimp only at h3
      split at h3
      · cases h3; exact ⟨h1.of rfl rfl rfl, h2⟩
      · cases h3; exact ⟨h1.of rfl rfl rfl, h2⟩
    · cases h
      exact lit_inv hti _ _ (by simpa [TaskOk, clean] using ht)
    · -- not
      rename_i e
      refine call (.expr e) { st.tick.pushV with invert := !st.invert } _ (hi.of rfl rfl rfl) ht rfl ?_ h
      intro v ok st2 h1 h2 h3
      try dsimp only at h3
      cases h3
      let st3 : PState := { { st2 with invert := !st2.invert }.popV with randCount := st.randCount }
      have h4 : Inv env p0 st3 := h1.of rfl rfl rfl
      exact ⟨h4.restore (hi.pt.mono h2), fun x => restore_stay st3 _ (h2 x)⟩
    · rename_i e
      exact ih (.many e [] true) st.tick r hti ht h
    · rename_i e
      exact ih (.many e [] false) st.tick r hti ht h
    · -- many
      rename_i e vals one
      refine call (.expr e) st.pushV _ (hi.of rfl rfl rfl) ht rfl ?_ h
      intro v ok st2 h1 h2 h3
      try dsimp only at h3
      split at h3
      · have := ih (.many e (vals ++ [v]) one) _ r (h1.of (st' := st2.popV) rfl rfl rfl) ht h3
        exact ⟨this.1, fun x => this.2 (h2 x)⟩
      · split at h3
        · cases h3; exact ⟨h1.of rfl rfl rfl, h2⟩
        · cases h3; exact ⟨h1.of rfl rfl rfl, h2⟩
    · -- ruleRef
      rename_i name
      split at h
      · cases h
        exact ⟨hti.addErr _, fun _ => addErrAt_errs _ _ _⟩
      · rename_i e hl
        refine call (.expr e) { st.tick.pushV with rstack := name :: st.rstack } _ (hi.of rfl rfl rfl)
          (hg _ (lookup_mem hl)) rfl ?_ h
        intro v ok st2 h1 h2 h3
        try dsimp only at h3
        cases h3
        exact ⟨h1.of rfl rfl rfl, h2⟩
    · rename_i es
      exact ih (.seq es [] st.pt st.randCount) st.tick r hti ⟨ht, hi.pt⟩ h
    · cases h; exact ⟨hi, fun x => x⟩
    · -- seq
      rename_i e es vals pt rc
      have ht' : clean e = true ∧ cleanAll es = true := (Bool.and_eq_true _ _).mp ht.1
      refine call (.expr e) st _ hi ht'.1 rfl ?_ h
      intro v ok st2 h1 h2 h3
      try dsimp only at h3
      split at h3
      · have := ih (.seq es (vals ++ [v]) pt rc) _ r h1 ⟨ht'.2, ht.2.mono h2⟩ h3
        exact ⟨this.1, fun x => this.2 (h2 x)⟩
      · cases h3
        refine ⟨(h1.of (st' := { st2 with randCount := rc }) rfl rfl rfl).restore (ht.2.mono h2),
          fun x => restore_stay _ _ (h2 x)⟩
    · -- stateCode
      rename_i a
      cases h
      unfold parseStateCode
      split
      · exact ⟨hi.of rfl rfl rfl, fun x => x⟩
      · split
        · exact ⟨hti, fun x => x⟩
        · exact ⟨hi.of rfl rfl rfl, fun x => x⟩
    · -- zeroOrOne
      rename_i e
      refine call (.expr e) st.tick.pushV _ (hi.of rfl rfl rfl) ht rfl ?_ h
      intro v ok st2 h1 h2 h3
      try dsimp only at h3
      cases h3
      exact ⟨h1.of rfl rfl rfl, h2⟩

theorem goGrammar_clean : ∀ r ∈ goGrammar, clean r.2 = true := by
  have : (goGrammar.all fun r => clean r.2) = true := by decide
  exact List.all_eq_true.1 this

/-! ## Positions as the specification has them -/

theorem initState_pt (l : List Sym) : (initState env l).pt =
    ⟨match l.head? with | some ⟨'\n', _⟩ => ⟨2, 0, 0⟩ | _ => ⟨1, 1, 0⟩, l⟩ := by
  unfold initState PState.enter
  dsimp only
  by_cases hb : l.head? = some ⟨runeError, 1⟩ ∧ env.allowInvalid = false
  · rw [if_pos hb]; rfl
  · rw [if_neg hb]; rfl

theorem take_succ' {α : Type} (l : List α) (k : Nat) : l.take (k + 1) = l.take k ++ l[k]?.toList :=
  List.take_add_one

theorem newline_cases (o : Option Sym) (a b : Pos) :
    (match o with | some ⟨'\n', _⟩ => a | _ => b) = if o.map Sym.rn = some '\n' then a else b := by
  split
  · rfl
  · rename_i h
    rw [if_neg]
    intro hc
    cases o with
    | none => cases hc
    | some x =>
      obtain ⟨c, w⟩ := x
      simp only [Option.map_some, Option.some.injEq] at hc
      exact h w (by rw [hc])

theorem lineAt_succ (l : List Sym) (k : Nat) :
    lineAt l (k + 1) = lineAt l k + if l[k + 1]?.map Sym.rn = some '\n' then 1 else 0 := by
  unfold lineAt
  rw [take_succ' _ (k + 1), List.filter_append, List.length_append]
  have : (runesOf l)[k + 1]? = l[k + 1]?.map Sym.rn := by simp [runesOf]
  rw [this]
  cases l[k + 1]? with
  | none => simp
  | some x =>
    by_cases hx : x.rn = '\n'
    · simp [hx]; omega
    · simp [hx]

theorem colAt_succ (l : List Sym) (k : Nat) (hk : k + 1 ≤ l.length) :
    colAt l (k + 1) = if l[k + 1]?.map Sym.rn = some '\n' then 0 else colAt l k + 1 := by
  unfold colAt
  rw [take_succ' _ (k + 1)]
  have : ((runesOf l).map some ++ [none])[k + 1]? = some (l[k + 1]?.map Sym.rn) := by
    by_cases h : k + 1 < l.length
    · rw [List.getElem?_append_left (by simpa [runesOf] using h)]
      simp [runesOf, h]
    · have : k + 1 = l.length := by omega
      rw [List.getElem?_append_right (by simp [runesOf, this])]
      simp [runesOf, this]
  rw [this]
  simp only [Option.toList_some, List.reverse_append, List.reverse_cons, List.reverse_nil, List.nil_append,
    List.singleton_append]
  by_cases hx : l[k + 1]?.map Sym.rn = some '\n'
  · rw [if_pos hx, List.takeWhile_cons_of_neg (by simpa using hx)]
    rfl
  · rw [if_neg hx, List.takeWhile_cons_of_pos (by simpa using hx)]
    rfl

theorem offsetAt_succ (l : List Sym) (k : Nat) :
    offsetAt l (k + 1) = offsetAt l k + (match l.drop k with | [] => 0 | s :: _ => s.w) := by
  unfold offsetAt
  rw [take_succ']
  rw [List.map_append, List.sum_append]
  congr 1
  rw [← List.head?_drop]
  cases l.drop k with
  | nil => rfl
  | cons x t => simp

theorem walk_pos' (l : List Sym) (pos : Pos) (hp : pos = posAt l 0) (k : Nat) (hk : k ≤ l.length) :
    (walk ⟨pos, l⟩ k).pos = posAt l k := by
  induction k with
  | zero => exact hp
  | succ k ih =>
    have ih' := ih (by omega)
    have hr : (walk ⟨pos, l⟩ k).rest = l.drop k := walk_rest _ k
    rw [walk]
    generalize walk ⟨pos, l⟩ k = q at ih' hr
    unfold stepPt
    dsimp only
    refine (newline_cases q.rest.tail.head? _ _).trans ?_
    rw [ih', hr, List.tail_drop, List.head?_drop]
    unfold posAt
    rw [lineAt_succ, colAt_succ l k hk, offsetAt_succ]
    by_cases hx : l[k + 1]?.map Sym.rn = some '\n'
    · simp only [hx, if_true]; rfl
    · simp only [hx, if_false, Nat.add_zero]; rfl

theorem walk_pos (l : List Sym) (k : Nat) (hk : k ≤ l.length) :
    (walk (initState env l).pt k).pos = posAt l k := by
  rw [initState_pt]
  refine walk_pos' l _ ?_ k hk
  rw [newline_cases]
  cases l with
  | nil => rfl
  | cons x l =>
    by_cases hx : x.rn = '\n' <;> simp [posAt, lineAt, colAt, offsetAt, runesOf, hx]

theorem initState_inv (l : List Sym) : Inv env (initState env l).pt (initState env l) := by
  have h0 : ∀ e ∈ (initState env l).errs, e = located env.filename (initState env l).pt.pos none
      chars!"invalid encoding" := by
    unfold initState PState.enter
    dsimp only
    by_cases hb : l.head? = some ⟨runeError, 1⟩ ∧ env.allowInvalid = false
    · rw [if_pos hb]
      intro e he
      unfold PState.addErr at he
      rw [addErrAt_eq] at he
      simp only [List.nil_append, List.mem_singleton] at he
      exact he
    · rw [if_neg hb]
      intro e he
      cases he
  have hf : (initState env l).maxFailPos = ⟨1, 1, 0⟩ := by
    unfold initState PState.enter
    dsimp only
    by_cases hb : l.head? = some ⟨runeError, 1⟩ ∧ env.allowInvalid = false
    · rw [if_pos hb]; rfl
    · rw [if_neg hb]
  refine ⟨⟨0, Nat.zero_le _, rfl, ?_⟩, .inl hf, fun e he => ⟨0, none, _, Nat.zero_le _, h0 e he⟩⟩
  intro i hi hb hal
  have : i = 0 := by omega
  subst this
  rw [(initState_fields (env := env) l).1] at hb
  have hb' : l.head? = some ⟨runeError, 1⟩ := by
    rw [List.head?_eq_getElem?]; exact hb
  unfold initState PState.enter
  dsimp only
  rw [if_pos ⟨hb', hal⟩]
  exact addErrAt_errs _ _ _

end GoBCDice.Pigeon
