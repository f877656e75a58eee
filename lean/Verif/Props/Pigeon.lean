import Verif.Lemmas.PigeonInv
import Verif.Lemmas.ParserTop

/-!
# The generated parser (C64, C65)

The interpreter of the table extracted from parser.go (`Verif.Pigeon`, `Verif.PigeonGrammar`) against
the grammar of `Verif.Spec.Grammar` and the rule functions of `Verif.Parser`, for every input.
-/

namespace GoBCDice

open Pigeon (Sym Pos Val)

namespace Pigeon

/-- All that the proofs below need of a run of `Parse`. -/
theorem parse_run (filename : Str) (data : List Sym) (hd : Decoded data) :
    ∃ v ok st', (∀ r, Parses filename data r ↔ r = finish ⟨filename, goGrammar, false⟩ (.ret v ok st')) ∧
      st'.rstack = [] ∧
      TopPost (command ((runesOf data).length + 1) (runesOf data) 0) v ok st' ∧
      XE ⟨filename, goGrammar, false⟩ (initState ⟨filename, goGrammar, false⟩ data).pt
        (randomErr filename (posAt data 0) ((runesOf data).length + 1) (runesOf data) 0)
        ((tried ((runesOf data).length + 1) (runesOf data) 0).map (·.1))
        (initState ⟨filename, goGrammar, false⟩ data).errs st'.errs ∧
      Inv ⟨filename, goGrammar, false⟩ (initState ⟨filename, goGrammar, false⟩ data).pt st' := by
  let env : PEnv := ⟨filename, goGrammar, false⟩
  obtain ⟨v, ok, st', h1, h2, h3, h4⟩ := top_run (env := env) rfl data hd
  have hp0 : (initState env data).pt.pos = posAt data 0 := walk_pos (env := env) data 0 (Nat.zero_le _)
  rw [hp0] at h4
  refine ⟨v, ok, st', ?_, h2, h3, h4, ?_⟩
  · intro r
    constructor
    · rintro ⟨fuel, h⟩
      have h' : (run env fuel (.expr (.ruleRef chars!"Command")) (initState env data)).map (finish env) =
        some r := h
      cases hrun : run env fuel (.expr (.ruleRef chars!"Command")) (initState env data) with
      | none => rw [hrun] at h'; cases h'
      | some x =>
        rw [hrun] at h'
        have := Runs.unique ⟨fuel, hrun⟩ h1
        rw [this] at h'
        exact (Option.some.inj h').symm
    · rintro rfl
      obtain ⟨fuel, h⟩ := h1
      refine ⟨fuel, ?_⟩
      show (run env fuel (.expr (.ruleRef chars!"Command")) (initState env data)).map (finish env) = _
      rw [h]
      rfl
  · obtain ⟨fuel, h⟩ := h1
    exact (run_inv (p0 := (initState env data).pt) goGrammar_clean fuel (.expr (.ruleRef chars!"Command")) _ _
      (initState_inv data) rfl h).1

theorem decoded_utf8 (s : Str) : Decoded (utf8 s) := wide_syms s

theorem runesOf_utf8 (s : Str) : runesOf (utf8 s) = s := runes_syms s

theorem valid_initState (env : PEnv) (s : Str) : Silent env (initState env (utf8 s)).pt.rest := by
  rw [(initState_fields (env := env) (utf8 s)).1]
  exact .inr (valid_syms s)

theorem initState_errs (env : PEnv) (s : Str) : (initState env (utf8 s)).errs = [] :=
  (initState_fields (env := env) (utf8 s)).2.2 (.inr (valid_syms s))

/-- If a command is found, no D command without a random element was. -/
theorem tried_of_command {n : Nat} {s : Str} {c : Nat} {x : Option Node} {s' : Str} {c' : Nat}
    (h : command n s c = some (x, s', c')) : (tried n s c).map (·.1) = some x := by
  rw [command_inner] at h
  unfold tried
  rcases P.alt_ok h with h | ⟨h0, h⟩
  · rw [P.alt_left h]; rfl
  rcases P.alt_ok h with h | ⟨h1, h⟩
  · rw [P.alt_right h0, P.alt_left h]; rfl
  rw [P.alt_right h0, P.alt_right h1]
  rw [P.bind_ok] at h
  obtain ⟨y, s1, c1, h, h2⟩ := h
  rw [P.bind_ok] at h2
  obtain ⟨_, s2, c2, -, h3⟩ := h2
  simp only [P.pure_def, Option.some.injEq, Prod.mk.injEq] at h3
  rw [h, ← h3.1]
  rfl

/-- A value is returned only if the rule functions find a command. -/
theorem ok_command {filename : Str} {data : List Sym} (hd : Decoded data) {v : Val}
    (h : Parses filename data (.ok v)) : ∃ node s' c' st',
      command ((runesOf data).length + 1) (runesOf data) 0 = some (some node, s', c') ∧
      v.toNode = some node ∧ runes st'.pt.rest = s' ∧ st'.errs = [] ∧
      Inv ⟨filename, goGrammar, false⟩ (initState ⟨filename, goGrammar, false⟩ data).pt st' := by
  obtain ⟨w, ok, st', h1, h2, h3, h4, h5⟩ := parse_run filename data hd
  have h6 := (h1 _).1 h
  cases ok with
  | false =>
    unfold finish at h6
    dsimp only at h6
    cases h6
  | true =>
    unfold finish at h6
    dsimp only at h6
    split at h6
    · rename_i he
      cases h6
      cases hc : command ((runesOf data).length + 1) (runesOf data) 0 with
      | none => rw [hc] at h3; cases h3
      | some r =>
        obtain ⟨x, s', c'⟩ := r
        rw [hc] at h3
        cases x with
        | none =>
          rw [tried_of_command hc] at h4
          exact absurd he h4.1
        | some node => exact ⟨node, s', c', st', rfl, h3.2.1, h3.2.2, he, h5⟩
    · cases h6

theorem errText_one (x : Str) : errText [x] = x := by
  simp [errText, dedupe]

theorem choiceCmd_shape {s s' : Str} {c c' : Nat} {node : Node}
    (h : choiceCmd s c = some (node, s', c')) : ∃ items, node = .choice items := by
  unfold choiceCmd at h
  rw [P.bind_ok] at h
  obtain ⟨_, _, _, -, h⟩ := h
  rw [P.bind_ok] at h
  obtain ⟨items, _, _, -, h⟩ := h
  rw [P.bind_ok] at h
  obtain ⟨_, _, _, -, h⟩ := h
  rw [P.bind_ok] at h
  obtain ⟨_, _, _, -, h⟩ := h
  simp only [P.pure_def, Option.some.injEq, Prod.mk.injEq] at h
  exact ⟨items, h.1.symm⟩

theorem calcCmd_shape {n : Nat} {s s' : Str} {c c' : Nat} {node : Node}
    (h : calcCmd n s c = some (node, s', c')) : ∃ e, node = .calc e := by
  unfold calcCmd at h
  rw [P.bind_ok] at h
  obtain ⟨_, _, _, -, h⟩ := h
  rw [P.bind_ok] at h
  obtain ⟨_, _, _, -, h⟩ := h
  rw [P.bind_ok] at h
  obtain ⟨e, _, _, -, h⟩ := h
  rw [P.bind_ok] at h
  obtain ⟨_, _, _, -, h⟩ := h
  simp only [P.pure_def, Option.some.injEq, Prod.mk.injEq] at h
  exact ⟨e, h.1.symm⟩

end Pigeon

/-! ### C64 -/

/-- **C64.** `Parse` ends on every input, and its result is determined. -/
theorem C64_total (filename : Str) (data : List Sym) (hd : Decoded data) :
    ∃ r, Parses filename data r ∧ ∀ r', Parses filename data r' → r' = r := by
  obtain ⟨v, ok, st', h1, -⟩ := Pigeon.parse_run filename data hd
  exact ⟨_, (h1 _).2 rfl, fun r' h => (h1 r').1 h⟩

/-- **C64.** What `Parse` returns is always the tree of a command the input spells; so no other kind
of value, in particular no nil, is returned without an error. -/
theorem C64_sound (filename : Str) (data : List Sym) (hd : Decoded data) (v : Val)
    (h : Parses filename data (.ok v)) :
    ∃ node, v.toNode = some node ∧ CommandText (runesOf data) node := by
  obtain ⟨node, s', c', st', h1, h2, -⟩ := Pigeon.ok_command hd h
  exact ⟨node, h2, command_ok h1⟩

/-- **C64.** `Parse` accepts exactly the texts of the grammar and returns the tree they denote. -/
theorem C64_language (filename : Str) (s : Str) (node : Node) :
    (∃ v, Parses filename (utf8 s) (.ok v) ∧ v.toNode = some node) ↔ CommandText s node := by
  constructor
  · rintro ⟨v, h, hv⟩
    obtain ⟨node', h1, h2⟩ := C64_sound filename (utf8 s) (Pigeon.decoded_utf8 s) v h
    rw [Pigeon.runesOf_utf8] at h2
    rw [hv] at h1
    cases h1
    exact h2
  · intro h
    obtain ⟨v, ok, st', h1, h2, h3, h4, h5⟩ := Pigeon.parse_run filename (utf8 s) (Pigeon.decoded_utf8 s)
    rw [Pigeon.runesOf_utf8] at h3 h4
    obtain ⟨rest, c', hc⟩ := command_accepts h (s.length + 1) (Nat.le_succ _)
    rw [Pigeon.tried_of_command hc] at h4
    rw [hc] at h3
    refine ⟨v, (h1 _).2 ?_, h3.2.1⟩
    have he : st'.errs = [] := (h4.valid (Pigeon.valid_initState _ s)).trans (Pigeon.initState_errs _ s)
    rw [h3.1]
    unfold Pigeon.finish
    dsimp only
    rw [if_pos he]

/-- **C64.** The rule functions, on which the other properties are stated, and `Parse` agree. -/
theorem C64_rule_functions (filename : Str) (s : Str) (node : Node) :
    (∃ v, Parses filename (utf8 s) (.ok v) ∧ v.toNode = some node) ↔ parse s = some node :=
  (C64_language filename s node).trans (parse_iff s node).symm

/-- **C64.** Roll commands are accepted from valid UTF-8 only: every byte of the input counts, those
that are not part of a character too. -/
theorem C64_invalid_bytes (filename : Str) (data : List Sym) (hd : Decoded data) (v : Val) (node : Node)
    (h : Parses filename data (.ok v)) (hv : v.toNode = some node)
    (hc : ∀ items, node ≠ .choice items) (hk : ∀ e, node ≠ .calc e) :
    ∀ x ∈ data, x ≠ invalidByte := by
  obtain ⟨node', s', c', st', h1, h2, h3, h4, h5⟩ := Pigeon.ok_command hd h
  rw [hv] at h2
  cases h2
  have hs' : s' = [] := by
    unfold command at h1
    rcases P.alt_ok h1 with h | ⟨-, h⟩
    · obtain ⟨x, hx, h⟩ := noErr_ok h
      cases hx
      obtain ⟨items, hq⟩ := Pigeon.choiceCmd_shape h
      exact absurd hq (hc items)
    rcases P.alt_ok h with h | ⟨-, h⟩
    · obtain ⟨x, hx, h⟩ := noErr_ok h
      cases hx
      obtain ⟨e, hq⟩ := Pigeon.calcCmd_shape h
      exact absurd hq (hk e)
    unfold commandWithExpression at h
    rw [P.bind_ok] at h
    obtain ⟨x, s1, c1, h, h2⟩ := h
    rw [P.bind_ok] at h2
    obtain ⟨_, s2, c2, h2, h3⟩ := h2
    simp only [P.pure_def, Option.some.injEq, Prod.mk.injEq] at h3
    rw [← h3.2.1]
    cases s1 with
    | nil => cases h2; rfl
    | cons x s => simp [eot] at h2
  rw [hs'] at h3
  obtain ⟨k, hk1, hk2, hk3⟩ := h5.pt
  rw [(Pigeon.initState_fields _).1] at hk1 hk3
  rw [hk2, Pigeon.walk_rest, (Pigeon.initState_fields _).1] at h3
  have hlen : data.length ≤ k := by
    have := congrArg List.length h3
    simp only [Pigeon.runes, List.length_map, List.length_drop, List.length_nil] at this
    omega
  intro x hx hbad
  obtain ⟨i, hi, hget⟩ := List.getElem_of_mem hx
  refine hk3 i (by omega) ?_ rfl h4
  rw [List.getElem?_eq_getElem hi, hget, hbad]
  rfl

/-- `2d6+1` and its tree, through the extracted table. -/
example : ∃ v, Parses [] (utf8 chars!"2d6+1") (.ok v) ∧
    v.toNode = some (.dRollExpr (.bin .add (.var .d (.int 2) (.int 6)) (.int 1))) :=
  (C64_rule_functions [] _ _).2 (by decide)

/-! ### C65 -/

/-- The text of the error when there is no die and no random number. -/
def noRandomText (filename rule : Str) : Str :=
  located filename ⟨1, 1, 0⟩ (some rule) chars!"random element not found"

/-- **C65.** Every error `Parse` reports is a list of messages, each of which gives a position of the
input: that of one of its runes, of its end, or of its beginning. -/
theorem C65_located (filename : Str) (data : List Sym) (hd : Decoded data) (m : Str)
    (h : Parses filename data (.error m)) :
    ∃ es, es ≠ [] ∧ m = List.intercalate chars!"\n" es ∧
      ∀ e ∈ es, ∃ pos rule msg, e = located filename pos rule msg ∧
        (pos = ⟨1, 1, 0⟩ ∨ ∃ k, k ≤ data.length ∧ pos = posAt data k) := by
  obtain ⟨v, ok, st', h1, h2, h3, h4, h5⟩ := Pigeon.parse_run filename data hd
  have h6 := (h1 _).1 h
  have hded : ∀ l : List Str, l ≠ [] → Pigeon.dedupe l ≠ [] := by
    intro l hl
    cases l with
    | nil => exact absurd rfl hl
    | cons x xs => simp [Pigeon.dedupe]
  have hsub : ∀ (l : List Str) (x : Str), x ∈ Pigeon.dedupe l → x ∈ l := by
    intro l
    induction l with
    | nil => intro x hx; exact hx
    | cons y ys ih =>
      intro x hx
      unfold Pigeon.dedupe at hx
      rcases List.mem_cons.1 hx with rfl | hx
      · exact List.mem_cons_self ..
      · exact List.mem_cons_of_mem _ (ih x (List.mem_filter.1 hx).1)
  have hrest : (Pigeon.initState ⟨filename, Pigeon.goGrammar, false⟩ data).pt.rest = data :=
    (Pigeon.initState_fields data).1
  have herr : ∀ e ∈ st'.errs, ∃ pos rule msg, e = located filename pos rule msg ∧
        (pos = ⟨1, 1, 0⟩ ∨ ∃ k, k ≤ data.length ∧ pos = posAt data k) := by
    intro e he
    obtain ⟨k, rule, msg, hk, heq⟩ := h5.errs e he
    rw [hrest] at hk
    exact ⟨_, rule, msg, heq, .inr ⟨k, hk, Pigeon.walk_pos data k hk⟩⟩
  cases ok with
  | true =>
    unfold Pigeon.finish at h6
    dsimp only at h6
    split at h6
    · cases h6
    · rename_i hne
      cases h6
      exact ⟨_, hded _ hne, rfl, fun e he => herr e (hsub _ _ he)⟩
  | false =>
    unfold Pigeon.finish at h6
    dsimp only at h6
    cases h6
    by_cases he : st'.errs = []
    · rw [if_pos he]
      refine ⟨_, hded _ (Pigeon.addErrAt_errs _ _ _), rfl, fun e hm => ?_⟩
      have hm' := hsub _ _ hm
      rw [Pigeon.addErrAt_eq, he, List.nil_append, List.mem_singleton] at hm'
      refine ⟨_, _, _, hm', ?_⟩
      rcases h5.fail with hf | ⟨k, hk, hf⟩
      · exact .inl hf
      · rw [hrest] at hk
        exact .inr ⟨k, hk, hf.trans (Pigeon.walk_pos data k hk)⟩
    · rw [if_neg he]
      exact ⟨_, hded _ he, rfl, fun e hm => herr e (hsub _ _ hm)⟩

/-- **C65.** For valid UTF-8 there is one message, and it is of one of two kinds: a D command without
a random element, or no match with what was expected at the farthest position reached. -/
theorem C65_kinds (filename : Str) (s : Str) (m : Str) (h : Parses filename (utf8 s) (.error m)) :
    (∃ rule, (rule = chars!"DRollExprCommand" ∨ rule = chars!"DRollCompCommand") ∧
      m = located filename (posAt (utf8 s) 0) (some rule) chars!"random element not found") ∨
    (∃ pos expected, m = located filename pos none (chars!"no match found, expected: " ++ expected) ∧
      (pos = ⟨1, 1, 0⟩ ∨ ∃ k, k ≤ s.length ∧ pos = posAt (utf8 s) k)) := by
  obtain ⟨v, ok, st', h1, h2, h3, h4, h5⟩ := Pigeon.parse_run filename (utf8 s) (Pigeon.decoded_utf8 s)
  have h6 := (h1 _).1 h
  rw [Pigeon.runesOf_utf8] at h3 h4
  rw [Pigeon.initState_errs] at h4
  have hval := Pigeon.valid_initState ⟨filename, Pigeon.goGrammar, false⟩ s
  have hrest : (Pigeon.initState ⟨filename, Pigeon.goGrammar, false⟩ (utf8 s)).pt.rest = utf8 s :=
    (Pigeon.initState_fields (utf8 s)).1
  by_cases he : st'.errs = []
  · right
    cases ok with
    | true =>
      unfold Pigeon.finish at h6
      dsimp only at h6
      rw [if_pos he] at h6
      cases h6
    | false =>
      unfold Pigeon.finish at h6
      dsimp only at h6
      rw [if_pos he] at h6
      cases h6
      refine ⟨st'.maxFailPos, Pigeon.listJoin (Pigeon.expectedList st'.maxFailExpected), ?_, ?_⟩
      · rw [Pigeon.addErrAt_eq, he, h2, List.nil_append, Pigeon.errText_one]
        rfl
      · rcases h5.fail with hf | ⟨k, hk, hf⟩
        · exact .inl hf
        · rw [hrest] at hk
          refine .inr ⟨k, by simpa [utf8] using hk, hf.trans (Pigeon.walk_pos _ k hk)⟩
  · left
    have hone : ∃ rule, (rule = chars!"DRollExprCommand" ∨ rule = chars!"DRollCompCommand") ∧
        st'.errs = [located filename (posAt (utf8 s) 0) (some rule) chars!"random element not found"] := by
      generalize ho : (Pigeon.tried (s.length + 1) s 0).map (·.1) = o at h4
      match o, h4 with
      | none, h4 => exact absurd (h4.valid hval) he
      | some (some _), h4 => exact absurd (h4.valid hval) he
      | some none, h4 =>
        refine ⟨_, ?_, h4.2 hval⟩
        split
        · exact .inr rfl
        · exact .inl rfl
    obtain ⟨rule, hr, herrs⟩ := hone
    refine ⟨rule, hr, ?_⟩
    cases ok with
    | true =>
      unfold Pigeon.finish at h6
      dsimp only at h6
      rw [if_neg he] at h6
      cases h6
      rw [herrs, Pigeon.errText_one]
    | false =>
      unfold Pigeon.finish at h6
      dsimp only at h6
      rw [if_neg he] at h6
      cases h6
      rw [herrs, Pigeon.errText_one]

namespace Pigeon

/-- If only the action of a D command reports an error, that is what `Parse` reports. -/
theorem random_error (filename s : Str) (rest : Str) (c' : Nat)
    (h : tried (s.length + 1) s 0 = some (none, rest, c')) :
    Parses filename (utf8 s) (.error (randomErr filename (posAt (utf8 s) 0) (s.length + 1) s 0)) := by
  obtain ⟨v, ok, st', h1, h2, h3, h4, h5⟩ := parse_run filename (utf8 s) (decoded_utf8 s)
  rw [runesOf_utf8, h, initState_errs] at h4
  have he := h4.2 (valid_initState _ s)
  refine (h1 _).2 ?_
  have hne : st'.errs ≠ [] := h4.1
  cases ok with
  | true =>
    unfold finish
    dsimp only
    rw [if_neg hne, he, List.nil_append, errText_one]
  | false =>
    unfold finish
    dsimp only
    rw [if_neg hne, he, List.nil_append, errText_one]

theorem posAt_start {t : Str} (h : ∃ x t', t = x :: t' ∧ isStart x = true) :
    posAt (utf8 t) 0 = ⟨1, 1, 0⟩ := by
  obtain ⟨x, t', rfl, hx⟩ := h
  have : x ≠ '\n' := by rintro rfl; revert hx; decide
  simp [posAt, lineAt, colAt, offsetAt, runesOf, utf8, Sym.ofChar, this]

theorem tried_expr {n : Nat} {s : Str} {c : Nat} (h : ∃ x s', s = x :: s' ∧ isStart x = true) :
    tried n s c = inner n s c := by
  obtain ⟨x, s', rfl, hx⟩ := h
  have hc : ∀ y ∈ (x :: s').head?, toLowerRune y ≠ 'c' := by
    intro y hy
    simp only [List.head?_cons, Option.mem_def, Option.some.injEq] at hy
    subst hy
    exact isStart_c hx
  unfold tried
  rw [P.alt_right, P.alt_right]
  · exact noErr_none (P.bind_none (chrI_none _ _ _ hc))
  · refine noErr_none (P.bind_none ?_)
    exact P.bind_none (chrI_none _ _ _ hc)

theorem compareOp_stops {rest : Str} (h : Stops isCmp rest) (c : Nat) : compareOp rest c = none := by
  cases hc : compareOp rest c with
  | none => rfl
  | some r =>
    obtain ⟨op, r', c'⟩ := r
    have := (compareOp_ok hc).1
    rw [this] at h
    cases op <;> simp [Stops, CmpOp.str, isCmp] at h

/-- The D commands on an arithmetic expression followed by something else. -/
theorem tried_stops {t rest : Str} {e : Expr} (ht : Der (.add .dice) t e) (n : Nat) (hn : t.length ≤ n)
    (h1 : Stops fSum rest) (h2 : Stops fLetter rest) (h3 : Stops isCmp rest) :
    tried n (t ++ rest) 0 =
      some (if e.rands < 1 then none else some (.dRollExpr e), rest, e.rands) ∧
    dRollCompCommand n (t ++ rest) 0 = none := by
  have g1 := dRollExpr_accepts ht n 0 hn h1
  rw [Nat.zero_add] at g1
  have hb := b_fail (rollList_expr .b 0 ht hn h2)
  have hr := r_fail (rollList_expr .r 0 ht hn h2)
  have hu := u_fail (rollList_expr .u 0 ht hn h2)
  have hd : dRollCompCommand n (t ++ rest) 0 = none :=
    (P.bind_some g1).trans (P.bind_none (compareOp_stops h3 _))
  refine ⟨?_, hd⟩
  rw [tried_expr (start_append ht.start)]
  unfold inner
  rw [P.alt_right hb.1, P.alt_right hb.2, P.alt_right hr.1, P.alt_right hr.2, P.alt_right hu.1,
      P.alt_right hu.2, P.alt_right hd]
  unfold dRollExprCommand
  rw [P.bind_some g1]
  rfl

theorem tried_compare {t u : Str} {l r : Expr} {op : CmpOp} (ht : Der (.add .dice) t l)
    (hc : CompareText u op r) (n : Nat) (hn : (t ++ u).length ≤ n) :
    tried n (t ++ u) 0 = some (if l.rands < 1 then none else some (.dRollComp l op r), [], l.rands) ∧
    dRollCompCommand n (t ++ u) 0 =
      some (if l.rands < 1 then none else some (.dRollComp l op r), [], l.rands) := by
  simp only [List.length_append] at hn
  have hst : ∀ {f : Char → Bool}, f '=' = false → f '<' = false → f '>' = false → Stops f u :=
    fun h1 h2 h3 => isCmp_stops (.inr hc.head) (isCmp_cases h1 h2 h3)
  have h1 := dRollExpr_accepts ht n 0 (by omega) (hst (by decide) (by decide) (by decide))
  rw [Nat.zero_add] at h1
  have hf : Stops fLetter u := hst (by decide) (by decide) (by decide)
  have hb := b_fail (rollList_expr (n := n) .b 0 ht (by omega) hf)
  have hr := r_fail (rollList_expr (n := n) .r 0 ht (by omega) hf)
  have hu := u_fail (rollList_expr (n := n) .u 0 ht (by omega) hf)
  obtain ⟨s1, h2, h3⟩ := hc.accepts n l.rands (by omega)
  have hd : dRollCompCommand n (t ++ u) 0 =
      some (if l.rands < 1 then none else some (.dRollComp l op r), [], l.rands) := by
    unfold dRollCompCommand
    rw [P.bind_some h1, P.bind_some h2, P.bind_some h3]
    rfl
  refine ⟨?_, hd⟩
  rw [tried_expr (start_append ht.start)]
  unfold inner
  rw [P.alt_right hb.1, P.alt_right hb.2, P.alt_right hr.1, P.alt_right hr.2, P.alt_right hu.1,
    P.alt_right hu.2]
  exact P.alt_left hd

end Pigeon

/-- Does a character continue an arithmetic expression or make it a roll or a comparison? -/
def continues (c : Char) : Bool := chars!"0123456789dDbBuUrR+-*/=<>".contains c

namespace Pigeon

theorem continues_stops {f : Char → Bool} {rest : Str} (hr : ∀ c ∈ rest.head?, continues c = false)
    (hf : ∀ c, f c = true → continues c = true) : Stops f rest := by
  intro c hc
  cases h : f c with
  | false => rfl
  | true =>
    have h1 := hr c hc
    rw [hf c h] at h1
    cases h1

theorem isDigit_continues (c : Char) (h : isDigit c = true) : continues c = true := by
  simp only [isDigit, Bool.and_eq_true, decide_eq_true_eq] at h
  have h1 : 48 ≤ c.toNat := h.1
  have h2 : c.toNat ≤ 57 := h.2
  have hc : c = Char.ofNat c.toNat := (Char.ofNat_toNat c).symm
  generalize c.toNat = n at h1 h2 hc
  have : n = 48 ∨ n = 49 ∨ n = 50 ∨ n = 51 ∨ n = 52 ∨ n = 53 ∨ n = 54 ∨ n = 55 ∨ n = 56 ∨ n = 57 := by
    omega
  rcases this with rfl | rfl | rfl | rfl | rfl | rfl | rfl | rfl | rfl | rfl <;> subst hc <;> rfl

theorem continues_sum {rest : Str} (hr : ∀ c ∈ rest.head?, continues c = false) : Stops fSum rest :=
  continues_stops hr (by
    intro c hc
    simp only [fSum, fTerm, fFactor, fPrim, Bool.or_eq_true, beq_iff_eq] at hc
    rcases hc with ((((((((((h | rfl) | rfl) | rfl) | rfl) | rfl) | rfl) | rfl) | rfl) | rfl) | rfl)
    · exact isDigit_continues c h
    all_goals rfl)

theorem continues_letter {rest : Str} (hr : ∀ c ∈ rest.head?, continues c = false) : Stops fLetter rest :=
  continues_stops hr (by
    intro c hc
    simp only [fLetter, Bool.or_eq_true, beq_iff_eq] at hc
    rcases hc with ((((((h | rfl) | rfl) | rfl) | rfl) | rfl) | rfl)
    · exact isDigit_continues c h
    all_goals rfl)

theorem continues_cmp {rest : Str} (hr : ∀ c ∈ rest.head?, continues c = false) : Stops isCmp rest :=
  continues_stops hr (by
    intro c hc
    simp only [isCmp, Bool.or_eq_true, beq_iff_eq] at hc
    rcases hc with ((rfl | rfl) | rfl) <;> rfl)

end Pigeon

/-- **C65.** An expression without dice and random numbers is reported as such, whatever follows it:
`1+2`, and `1+2xyz` too. -/
theorem C65_no_random (filename t rest : Str) (e : Expr) (ht : Der (.add .dice) t e)
    (he : e.rands = 0) (hr : ∀ c ∈ rest.head?, continues c = false) :
    Parses filename (utf8 (t ++ rest)) (.error (noRandomText filename chars!"DRollExprCommand")) := by
  obtain ⟨h1, h2⟩ := Pigeon.tried_stops ht ((t ++ rest).length + 1) (by simp; omega)
    (Pigeon.continues_sum hr) (Pigeon.continues_letter hr) (Pigeon.continues_cmp hr)
  rw [he, if_pos (by omega)] at h1
  have := Pigeon.random_error filename _ _ _ h1
  unfold Pigeon.randomErr at this
  rw [h2, Pigeon.posAt_start (start_append ht.start)] at this
  exact this

/-- **C65.** An expression with dice or random numbers followed by something else is not a command;
the error says that there is no match. -/
theorem C65_trailing (filename t rest : Str) (e : Expr) (ht : Der (.add .dice) t e)
    (he : 1 ≤ e.rands) (hne : rest ≠ []) (hr : ∀ c ∈ rest.head?, continues c = false) :
    ∃ pos expected, (pos = ⟨1, 1, 0⟩ ∨ ∃ k, k ≤ (t ++ rest).length ∧ pos = posAt (utf8 (t ++ rest)) k) ∧
      Parses filename (utf8 (t ++ rest))
        (.error (located filename pos none (chars!"no match found, expected: " ++ expected))) := by
  have hst := Pigeon.tried_stops ht ((t ++ rest).length + 1) (by simp; omega)
    (Pigeon.continues_sum hr) (Pigeon.continues_letter hr) (Pigeon.continues_cmp hr)
  obtain ⟨v, ok, st', h1, h2, h3, h4, h5⟩ :=
    Pigeon.parse_run filename (utf8 (t ++ rest)) (Pigeon.decoded_utf8 _)
  have hcmd : command ((t ++ rest).length + 1) (t ++ rest) 0 = none := by
    have hs := ht.start
    rw [command_expr (start_append hs)]
    have hin := hst.1
    rw [Pigeon.tried_expr (start_append hs), if_neg (by omega)] at hin
    show (do let x ← Pigeon.inner _; let _ ← eot; pure x : P (Option Node)) _ _ = none
    rw [P.bind_some hin]
    refine P.bind_none ?_
    cases rest with
    | nil => exact absurd rfl hne
    | cons x rest => rfl
  rw [Pigeon.runesOf_utf8] at h3 h4
  rw [hst.1, if_neg (by omega), Pigeon.initState_errs] at h4
  rw [hcmd] at h3
  have h3' : ok = false := h3
  have hnil : st'.errs = [] := h4.valid (Pigeon.valid_initState _ _)
  have hrest : (Pigeon.initState ⟨filename, Pigeon.goGrammar, false⟩ (utf8 (t ++ rest))).pt.rest = utf8 (t ++ rest) :=
    (Pigeon.initState_fields _).1
  refine ⟨st'.maxFailPos, Pigeon.listJoin (Pigeon.expectedList st'.maxFailExpected), ?_, (h1 _).2 ?_⟩
  · rcases h5.fail with hf | ⟨k, hk, hf⟩
    · exact .inl hf
    · rw [hrest] at hk
      refine .inr ⟨k, by simpa [utf8] using hk, hf.trans (Pigeon.walk_pos _ k hk)⟩
  · rw [h3']
    unfold Pigeon.finish
    dsimp only
    rw [if_pos hnil, Pigeon.addErrAt_eq, hnil, h2, List.nil_append, Pigeon.errText_one]
    rfl

/-- **C65.** The same for a comparison. -/
theorem C65_no_random_compare (filename t u : Str) (l r : Expr) (op : CmpOp)
    (ht : Der (.add .dice) t l) (hl : l.rands = 0) (hc : CompareText u op r) :
    Parses filename (utf8 (t ++ u)) (.error (noRandomText filename chars!"DRollCompCommand")) := by
  obtain ⟨h1, h2⟩ := Pigeon.tried_compare ht hc ((t ++ u).length + 1) (Nat.le_succ _)
  rw [hl, if_pos (by omega)] at h1
  have := Pigeon.random_error filename _ _ _ h1
  unfold Pigeon.randomErr at this
  rw [h2, Pigeon.posAt_start (start_append ht.start)] at this
  exact this

/-! Texts of errors, computed on the extracted table. -/

namespace Pigeon

/-- The error in a result. -/
def errorOf : Option (Except Str Val) → Option Str
  | some (.error m) => some m
  | _ => none

theorem of_errorOf {x : Option (Except Str Val)} {m : Str} (h : errorOf x = some m) :
    x = some (.error m) := by
  unfold errorOf at h
  split at h
  · cases h; rfl
  · cases h

end Pigeon

set_option maxRecDepth 20000 in
example : Parses [] (utf8 chars!"1+2xyz")
    (.error chars!"1:1 (0): rule DRollExprCommand: random element not found") := ⟨120, Pigeon.of_errorOf (by decide +kernel)⟩

set_option maxRecDepth 20000 in
example : Parses chars!"REPL" (utf8 chars!"2d6+") (.error
    chars!"REPL:1:5 (4): no match found, expected: \"(\", \"+\", \"-\", \"[\" or [0-9]") :=
  ⟨120, Pigeon.of_errorOf (by decide +kernel)⟩

set_option maxRecDepth 20000 in
/-- An invalid byte. -/
example : Parses [] (utf8 chars!"2d6" ++ [invalidByte])
    (.error chars!"1:4 (3): rule Integer: invalid encoding") := ⟨120, Pigeon.of_errorOf (by decide +kernel)⟩

end GoBCDice
