import Verif.Spec.PigeonOpt
import Verif.Lemmas.PigeonOpt
import Verif.Props.PigeonCost
import Verif.Lemmas.PigeonClosed
import Mathlib.Data.List.Induction

/-!
# C86: `parser.Parse` with options
-/

namespace GoBCDice

open Pigeon (Sym Val ParseOption Called Settings)

namespace Pigeon

theorem lastSet_snoc {α : Type} (d : α) (set : ParseOption → Option α) (opts : List ParseOption)
    (o : ParseOption) : lastSet d set (opts ++ [o]) = (set o).getD (lastSet d set opts) := by
  unfold lastSet
  rw [List.filterMap_append]
  cases h : set o with
  | none => simp [h]
  | some a => simp [h]

theorem lookup_command : goGrammar.lookup chars!"Command" = some ruleCommand := rfl

theorem finish_up (env : PEnv) (k : Nat) (v : Val) (ok : Bool) (st : PState) :
    finish env (.ret v ok (up k st)) = finish env (.ret v ok st) := by
  unfold finish
  cases ok
  · dsimp only
    split <;> rfl
  · rfl

theorem mem_dedupe' (x : Str) : ∀ l : List Str, x ∈ l → x ∈ dedupe l
  | [], h => by cases h
  | y :: ys, h => by
    unfold dedupe
    by_cases hxy : x = y
    · subst hxy; exact List.mem_cons_self ..
    · refine List.mem_cons_of_mem _ (List.mem_filter.2 ⟨mem_dedupe' x ys ?_, by simpa using hxy⟩)
      rcases List.mem_cons.1 h with h | h
      · exact absurd h hxy
      · exact h

theorem infix_intercalate (sep x : Str) : ∀ l : List Str, x ∈ l → x <:+: List.intercalate sep l
  | [], h => by cases h
  | [y], h => by
    rw [List.mem_singleton] at h
    subst h
    simp [List.intercalate]
  | y :: z :: ys, h => by
    have hc : List.intercalate sep (y :: z :: ys) = y ++ sep ++ List.intercalate sep (z :: ys) := by
      simp [List.intercalate, List.intersperse]
    rw [hc]
    rcases List.mem_cons.1 h with h | h
    · subst h
      rw [List.append_assoc]
      exact ⟨[], _, rfl⟩
    · exact (infix_intercalate sep x (z :: ys) h).trans (List.suffix_append _ _).isInfix

/-- A run of `Parse` with settings that do not ask for memory. -/
theorem plain_call {s : Settings} (hm : s.memoize = false) (he : s.entrypoint = chars!"Command")
    (filename : Str) (data : List Sym) (hd : Decoded data) :
    ∃ v ok st', Runs ⟨filename, goGrammar, s.allowInvalidUTF8⟩ (.expr (.ruleRef chars!"Command"))
        (initState ⟨filename, goGrammar, s.allowInvalidUTF8⟩ data) (.ret v ok st') ∧
      st'.exprCnt - 1 = exprCalls s.allowInvalidUTF8 filename data ∧
      TopPost (command ((runesOf data).length + 1) (runesOf data) 0) v ok st' ∧
      XE ⟨filename, goGrammar, s.allowInvalidUTF8⟩ (initState ⟨filename, goGrammar, s.allowInvalidUTF8⟩ data).pt
        (randomErr filename (initState ⟨filename, goGrammar, s.allowInvalidUTF8⟩ data).pt.pos
          ((runesOf data).length + 1) (runesOf data) 0)
        ((tried ((runesOf data).length + 1) (runesOf data) 0).map (·.1))
        (initState ⟨filename, goGrammar, s.allowInvalidUTF8⟩ data).errs st'.errs ∧
      (s.exceeded (exprCalls s.allowInvalidUTF8 filename data) = false → ∃ fuel,
        parseFuelO s fuel filename goGrammar data =
          some (returned (finish ⟨filename, goGrammar, s.allowInvalidUTF8⟩ (.ret v ok st')))) ∧
      (s.exceeded (exprCalls s.allowInvalidUTF8 filename data) = true → ∃ fuel st2,
        parseFuelO s fuel filename goGrammar data = some
          (if s.recover then .error (errText (PState.addErr ⟨filename, goGrammar, s.allowInvalidUTF8⟩ st2 maxExprMsg).errs)
            else .panic maxExprMsg)) := by
  generalize henv : (⟨filename, goGrammar, s.allowInvalidUTF8⟩ : PEnv) = env
  have hrules : env.rules = goGrammar := by rw [← henv]
  have hfn : env.filename = filename := by rw [← henv]
  obtain ⟨v, ok, st', h1, h2, h3, h4⟩ := top_run (env := env) hrules data hd
  rw [hfn] at h4
  have hcalls : st'.exprCnt - 1 = exprCalls s.allowInvalidUTF8 filename data := by
    have ht : run env (parseDepth data) (.expr (.ruleRef chars!"Command")) (initState env data) ≠ none := by
      subst henv
      have ha : Analysed ⟨filename, goGrammar, s.allowInvalidUTF8⟩ goNull goRank 16 10 := goGrammar_analysed_with _ _
      refine run_total ha _ _ _ 10 (Nat.le_refl _) rfl rfl (by decide) ?_
      have : (initState ⟨filename, goGrammar, s.allowInvalidUTF8⟩ data).left = data.length := by
        unfold PState.left
        rw [(initState_fields data).1]
      rw [this]
      simp only [sizeT, sizeE]
      unfold parseDepth
      omega
    cases hr : run env (parseDepth data) (.expr (.ruleRef chars!"Command")) (initState env data) with
    | none => exact absurd hr ht
    | some r =>
      have := Runs.unique ⟨_, hr⟩ h1
      subst this
      unfold exprCalls
      rw [henv, hr]
  refine ⟨v, ok, st', h1, hcalls, h3, h4, ?_⟩
  have hl : env.rules.lookup chars!"Command" = some ruleCommand := by rw [hrules]; exact lookup_command
  obtain ⟨n, v1, ok1, st2, h5, h6⟩ := Runs.back' (t1 := .expr ruleCommand) (hr := h1)
    (st1 := { (initState env data).tick.pushV with rstack := chars!"Command" :: (initState env data).rstack })
    (k := fun _ v ok st' => some (.ret v ok { st'.popV with rstack := st'.rstack.tail })) (by
      intro n; rw [run.eq_def]; dsimp only; rw [hl])
  cases h6
  obtain ⟨n, hn⟩ := h5
  let p1 : PState := { (initState env data).pushV with rstack := chars!"Command" :: (initState env data).rstack }
  have hup := run_up (env := env) 1 n (.expr ruleCommand) p1
  have hn' : run env n (.expr ruleCommand) (up 1 p1) = some (.ret v ok st2) := hn
  rw [hn'] at hup
  obtain ⟨r0, h7, h8⟩ := Option.map_eq_some_iff.1 hup.symm
  cases r0 with
  | panic m st => cases h8
  | ret v0 ok0 st0 =>
    have h9 : v0 = v ∧ ok0 = ok ∧ up 1 st0 = st2 := by
      unfold PRes.up at h8
      dsimp only at h8
      injection h8 with a b c
      exact ⟨a, b, c⟩
    obtain ⟨rfl, rfl, rfl⟩ := h9
    have hcnt0 : p1.exprCnt = 0 := by
      show (initState env data).exprCnt = 0
      unfold initState PState.enter
      dsimp only
      split <;> rfl
    have hex0 : s.exceeded p1.exprCnt = false := by
      rw [hcnt0]
      unfold Settings.exceeded
      simp
    have hlim := runO_plain (env := env) hm n (.expr chars!"Command" [] ruleCommand) p1 [] _ h7 hex0
    have hst0 : st0.exprCnt = exprCalls s.allowInvalidUTF8 filename data := by
      rw [← hcalls]; rfl
    have hrec : OState.recall s ⟨initState env data, []⟩ (.rule chars!"Command") = none := by
      unfold OState.recall; rw [hm]; rfl
    have hlook : goGrammar.lookup s.entrypoint = some ruleCommand := by rw [he]; exact lookup_command
    constructor
    · intro hb
      refine ⟨n, ?_⟩
      have hx := hlim.below (by show s.exceeded st0.exprCnt = false; rw [hst0]; exact hb)
      unfold parseFuelO
      dsimp only
      rw [hlook]
      dsimp only
      rw [henv, he]
      unfold parseRuleO
      rw [hrec]
      dsimp only
      rw [show (runO env s n (.expr chars!"Command" [] ruleCommand)
        (OState.upd ⟨initState env data, []⟩ fun p => { p.pushV with rstack := chars!"Command" :: p.rstack })) = _ from hx]
      unfold PRes.lift ORes.andThen
      dsimp only
      have hrem : ∀ (st : OState) (pt : Pt) (nd : NodeId) (v : Val) (b : Bool), st.remember s pt nd v b = st := by
        intro st pt nd v b; unfold OState.remember; rw [hm]; rfl
      rw [hrem]
      show some _ = some _
      refine congrArg some ?_
      show (match finish env (.ret v0 ok0 { st0.popV with rstack := st0.rstack.tail }) with
        | .ok v => Called.value v | .error m => Called.error m) = _
      have := finish_up env 1 v0 ok0 { st0.popV with rstack := st0.rstack.tail }
      rw [← this]
      show _ = returned (finish env (.ret v0 ok0 (up 1 { st0.popV with rstack := st0.rstack.tail })))
      generalize finish env (.ret v0 ok0 (up 1 { st0.popV with rstack := st0.rstack.tail })) = f
      cases f <;> rfl
    · intro ha
      obtain ⟨st2, hx, -⟩ := hlim.above (by show s.exceeded st0.exprCnt = true; rw [hst0]; exact ha)
      refine ⟨n, st2.p, ?_⟩
      unfold parseFuelO
      dsimp only
      rw [hlook]
      dsimp only
      rw [henv, he]
      unfold parseRuleO
      rw [hrec]
      dsimp only
      rw [show (runO env s n (.expr chars!"Command" [] ruleCommand)
        (OState.upd ⟨initState env data, []⟩ fun p => { p.pushV with rstack := chars!"Command" :: p.rstack })) = _ from hx]
      rfl

theorem CallsWith.unique {filename : Str} {data : List Sym} {opts : List ParseOption} {c c' : Called}
    (h : CallsWith filename data opts c) (h' : CallsWith filename data opts c') : c = c' := by
  obtain ⟨n, hn⟩ := h
  obtain ⟨m, hm⟩ := h'
  have h1 := parseFuelO_mono (Nat.le_max_left n m) hn
  have h2 := parseFuelO_mono (Nat.le_max_right n m) hm
  exact Option.some.inj (h1.symm.trans h2)

theorem parses_of_runs {filename : Str} {data : List Sym} {v : Val} {ok : Bool} {st' : PState}
    (h1 : Runs ⟨filename, goGrammar, false⟩ (.expr (.ruleRef chars!"Command"))
      (initState ⟨filename, goGrammar, false⟩ data) (.ret v ok st')) (r : Except Str Val) :
    Parses filename data r ↔ r = finish ⟨filename, goGrammar, false⟩ (.ret v ok st') := by
  constructor
  · rintro ⟨fuel, h⟩
    have h' : (run ⟨filename, goGrammar, false⟩ fuel (.expr (.ruleRef chars!"Command"))
        (initState ⟨filename, goGrammar, false⟩ data)).map (finish ⟨filename, goGrammar, false⟩) = some r := h
    cases hrun : run ⟨filename, goGrammar, false⟩ fuel (.expr (.ruleRef chars!"Command"))
        (initState ⟨filename, goGrammar, false⟩ data) with
    | none => rw [hrun] at h'; cases h'
    | some x =>
      rw [hrun] at h'
      have := Runs.unique ⟨fuel, hrun⟩ h1
      rw [this] at h'
      exact (Option.some.inj h').symm
  · rintro rfl
    obtain ⟨fuel, h⟩ := h1
    refine ⟨fuel, ?_⟩
    show (run ⟨filename, goGrammar, false⟩ fuel (.expr (.ruleRef chars!"Command"))
        (initState ⟨filename, goGrammar, false⟩ data)).map (finish ⟨filename, goGrammar, false⟩) = _
    rw [h]
    rfl

/-- The message of `addErr` is in the text of the errors. -/
theorem addErr_text (env : PEnv) (st : PState) (m : Str) : m <:+: errText (st.addErr env m).errs := by
  unfold PState.addErr PState.addErrAt errText
  dsimp only
  refine List.IsInfix.trans ?_ (infix_intercalate _ _ _ (mem_dedupe' _ _ (List.mem_append_right _ (List.mem_singleton.2 rfl))))
  exact (List.suffix_append _ _).isInfix

end Pigeon

/-! ### C86 -/

/-- **C86.** Options are set one after the other: the last one of each kind counts, and what is not
set has its default. -/
theorem C86_settings (opts : List ParseOption) : Pigeon.settingsOf Pigeon.goGrammar opts =
    { maxExprCnt := limitOf opts, entrypoint := entryOf opts, memoize := memoOf opts,
      allowInvalidUTF8 := allowOf opts, recover := recoverOf opts } := by
  induction opts using List.reverseRecOn with
  | nil => rfl
  | append_singleton opts o ih =>
    unfold Pigeon.settingsOf at ih ⊢
    rw [List.foldl_append, ih]
    unfold limitOf entryOf memoOf allowOf recoverOf
    simp only [Pigeon.lastSet_snoc]
    cases o <;> rfl

/-- The settings of `opts` (with the default rule and without memory) in a call. -/
theorem exceeded_limit (opts : List ParseOption) (n : Nat) :
    (Pigeon.settingsOf Pigeon.goGrammar opts).exceeded n = true ↔ limitOf opts ≠ 0 ∧ limitOf opts < n := by
  rw [C86_settings]
  unfold Pigeon.Settings.exceeded
  simp

/-- **C86.** A call ends in one way only. -/
theorem C86_unique (filename : Str) (data : List Sym) (opts : List ParseOption) (c c' : Called)
    (h : CallsWith filename data opts c) (h' : CallsWith filename data opts c') : c = c' :=
  Pigeon.CallsWith.unique h h'

/-- **C86.** With options that set neither the memory, nor the acceptance of invalid bytes, nor the
rule, nor a limit below the work there is to do, `Parse` does what it does without options; whether
panics are caught or not does not matter, as there are none. -/
theorem C86_defaults (filename : Str) (data : List Sym) (hd : Decoded data) (opts : List ParseOption)
    (hm : memoOf opts = false) (ha : allowOf opts = false) (he : entryOf opts = chars!"Command")
    (hl : limitOf opts = 0 ∨ exprCalls false filename data ≤ limitOf opts) (c : Called) :
    CallsWith filename data opts c ↔ ∃ r, Parses filename data r ∧ c = returned r := by
  have hs := C86_settings opts
  have hex := exceeded_limit opts (exprCalls false filename data)
  obtain ⟨v, ok, st', h1, h2, h3, h4, h5, h6⟩ := Pigeon.plain_call (s := Pigeon.settingsOf Pigeon.goGrammar opts)
    (by rw [hs]; exact hm) (by rw [hs]; exact he) filename data hd
  have hal : (Pigeon.settingsOf Pigeon.goGrammar opts).allowInvalidUTF8 = false := by rw [hs]; exact ha
  rw [hal] at h1 h5
  have hno : (Pigeon.settingsOf Pigeon.goGrammar opts).exceeded (exprCalls false filename data) = false := by
    rw [Bool.eq_false_iff, ne_eq, hex]
    omega
  have hc : CallsWith filename data opts (returned (Pigeon.finish ⟨filename, Pigeon.goGrammar, false⟩ (.ret v ok st'))) :=
    h5 hno
  have hp := Pigeon.parses_of_runs h1
  constructor
  · intro h
    exact ⟨_, (hp _).2 rfl, C86_unique _ _ _ _ _ h hc⟩
  · rintro ⟨r, hr, rfl⟩
    rw [(hp r).1 hr]
    exact hc

/-- **C86.** With a limit, `Parse` does what it does without one as long as the work is within the
limit. -/
theorem C86_limit_kept (filename : Str) (data : List Sym) (hd : Decoded data) (opts : List ParseOption)
    (hm : memoOf opts = false) (he : entryOf opts = chars!"Command")
    (hl : exprCalls (allowOf opts) filename data ≤ limitOf opts) (c : Called) :
    CallsWith filename data opts c ↔ CallsWith filename data (opts ++ [.maxExpressions 0]) c := by
  have hs := C86_settings opts
  have hs0 := C86_settings (opts ++ [.maxExpressions 0])
  have hm0 : memoOf (opts ++ [.maxExpressions 0]) = memoOf opts := Pigeon.lastSet_snoc _ _ _ _
  have he0 : entryOf (opts ++ [.maxExpressions 0]) = entryOf opts := Pigeon.lastSet_snoc _ _ _ _
  have ha0 : allowOf (opts ++ [.maxExpressions 0]) = allowOf opts := Pigeon.lastSet_snoc _ _ _ _
  have hl0 : limitOf (opts ++ [.maxExpressions 0]) = 0 := Pigeon.lastSet_snoc _ _ _ _
  have hex := exceeded_limit opts (exprCalls (allowOf opts) filename data)
  have hex0 := exceeded_limit (opts ++ [.maxExpressions 0]) (exprCalls (allowOf opts) filename data)
  obtain ⟨v, ok, st', h1, -, -, -, h5, -⟩ := Pigeon.plain_call (s := Pigeon.settingsOf Pigeon.goGrammar opts)
    (by rw [hs]; exact hm) (by rw [hs]; exact he) filename data hd
  obtain ⟨v0, ok0, st0', h10, -, -, -, h50, -⟩ := Pigeon.plain_call
    (s := Pigeon.settingsOf Pigeon.goGrammar (opts ++ [.maxExpressions 0]))
    (by rw [hs0]; exact hm0.trans hm) (by rw [hs0]; exact he0.trans he) filename data hd
  have hal : (Pigeon.settingsOf Pigeon.goGrammar opts).allowInvalidUTF8 = allowOf opts := by rw [hs]
  have hal0 : (Pigeon.settingsOf Pigeon.goGrammar (opts ++ [.maxExpressions 0])).allowInvalidUTF8 = allowOf opts := by
    rw [hs0]; exact ha0
  rw [hal] at h1 h5
  rw [hal0] at h10 h50
  cases Pigeon.Runs.unique h1 h10
  have hc : CallsWith filename data opts _ := h5 (by
    rw [Bool.eq_false_iff, ne_eq, hex]; omega)
  have hc0 : CallsWith filename data (opts ++ [.maxExpressions 0]) _ := h50 (by
    rw [Bool.eq_false_iff, ne_eq, hex0]; omega)
  constructor
  · intro h; rw [C86_unique _ _ _ _ _ h hc]; exact hc0
  · intro h; rw [C86_unique _ _ _ _ _ h hc0]; exact hc

/-- **C86.** Work beyond the limit is refused: an error that says so is returned or, if panics are not
caught, that panic comes out of `Parse`. -/
theorem C86_limit_exceeded (filename : Str) (data : List Sym) (hd : Decoded data) (opts : List ParseOption)
    (hm : memoOf opts = false) (he : entryOf opts = chars!"Command") (hl0 : limitOf opts ≠ 0)
    (hl : limitOf opts < exprCalls (allowOf opts) filename data) :
    (recoverOf opts = false → CallsWith filename data opts (.panic chars!"max number of expresssions parsed")) ∧
    (recoverOf opts = true → ∃ m, CallsWith filename data opts (.error m) ∧
      chars!"max number of expresssions parsed" <:+: m) := by
  have hs := C86_settings opts
  have hex := exceeded_limit opts (exprCalls (allowOf opts) filename data)
  obtain ⟨v, ok, st', -, -, -, -, -, h6⟩ := Pigeon.plain_call (s := Pigeon.settingsOf Pigeon.goGrammar opts)
    (by rw [hs]; exact hm) (by rw [hs]; exact he) filename data hd
  have hal : (Pigeon.settingsOf Pigeon.goGrammar opts).allowInvalidUTF8 = allowOf opts := by rw [hs]
  have hre : (Pigeon.settingsOf Pigeon.goGrammar opts).recover = recoverOf opts := by rw [hs]
  rw [hal, hre] at h6
  obtain ⟨fuel, st2, h7⟩ := h6 (hex.2 ⟨hl0, hl⟩)
  constructor
  · intro hr
    rw [hr] at h7
    exact ⟨fuel, h7⟩
  · intro hr
    rw [hr] at h7
    exact ⟨_, ⟨fuel, h7⟩, Pigeon.addErr_text _ _ _⟩

/-- **C86.** If invalid bytes are accepted, each counts as the rune U+FFFD: the input is a command if
its runes are, and the tree is that of its runes. -/
theorem C86_invalid_bytes (filename : Str) (data : List Sym) (hd : Decoded data) (opts : List ParseOption)
    (hm : memoOf opts = false) (ha : allowOf opts = true) (he : entryOf opts = chars!"Command")
    (hl : limitOf opts = 0 ∨ exprCalls true filename data ≤ limitOf opts) (node : Node) :
    (∃ v, CallsWith filename data opts (.value v) ∧ v.toNode = some node) ↔
      CommandText (runesOf data) node := by
  have hs := C86_settings opts
  have hex := exceeded_limit opts (exprCalls true filename data)
  obtain ⟨v, ok, st', h1, -, h3, h4, h5, -⟩ := Pigeon.plain_call (s := Pigeon.settingsOf Pigeon.goGrammar opts)
    (by rw [hs]; exact hm) (by rw [hs]; exact he) filename data hd
  have hal : (Pigeon.settingsOf Pigeon.goGrammar opts).allowInvalidUTF8 = true := by rw [hs]; exact ha
  rw [hal] at h1 h4 h5
  have hc : CallsWith filename data opts _ := h5 (by rw [Bool.eq_false_iff, ne_eq, hex]; omega)
  have hsil : ∀ l, Pigeon.Silent ⟨filename, Pigeon.goGrammar, true⟩ l := fun l => .inl rfl
  have hie := (Pigeon.initState_fields (env := ⟨filename, Pigeon.goGrammar, true⟩) data).2.2 (hsil _)
  constructor
  · rintro ⟨w, hw, hn⟩
    have := C86_unique _ _ _ _ _ hw hc
    cases ok with
    | false => cases this
    | true =>
      unfold Pigeon.finish at this
      dsimp only at this
      by_cases hee : st'.errs = []
      · rw [if_pos hee] at this
        cases this
        cases hcm : command ((runesOf data).length + 1) (runesOf data) 0 with
        | none => rw [hcm] at h3; cases h3
        | some r =>
          obtain ⟨x, s', c'⟩ := r
          rw [hcm] at h3
          cases x with
          | none =>
            rw [Pigeon.tried_of_command hcm] at h4
            exact absurd hee h4.1
          | some node' =>
            have := h3.2.1
            rw [hn] at this
            cases this
            exact command_ok hcm
      · rw [if_neg hee] at this
        cases this
  · intro h
    obtain ⟨rest, c', hcm⟩ := command_accepts h ((runesOf data).length + 1) (Nat.le_succ _)
    rw [Pigeon.tried_of_command hcm] at h4
    rw [hcm] at h3
    refine ⟨v, ?_, h3.2.1⟩
    have hee : st'.errs = [] := (h4.valid (hsil _)).trans hie
    have hok := h3.1
    subst hok
    have : returned (Pigeon.finish ⟨filename, Pigeon.goGrammar, true⟩ (.ret v true st')) = .value v := by
      unfold Pigeon.finish
      dsimp only
      rw [if_pos hee]
      rfl
    rw [← this]
    exact hc

/-- **C86.** An unknown rule as entry point is an error, whatever the data and the other options. -/
theorem C86_unknown_entry (filename : Str) (data : List Sym) (opts : List ParseOption)
    (he : ∀ r ∈ Pigeon.goGrammar, r.1 ≠ entryOf opts) :
    CallsWith filename data opts (.error (located filename ⟨1, 0, 0⟩ none chars!"invalid entrypoint")) := by
  refine ⟨0, ?_⟩
  have hs := C86_settings opts
  have hlook : Pigeon.goGrammar.lookup (entryOf opts) = none := by
    rw [List.lookup_eq_none_iff]
    intro p hp
    rw [bne_iff_ne]
    exact fun h => he p hp h.symm
  unfold parseWithFuel Pigeon.parseFuelO
  rw [hs]
  dsimp only
  rw [hlook]
  dsimp only
  unfold Pigeon.PState.addErr
  rw [Pigeon.addErrAt_eq]
  exact congrArg (fun x => some (Called.error x)) (Pigeon.errText_one _)

/-- How a call ended, without the value. -/
def endOf : Option Called → Option (Bool × Str)
  | some (.error m) => some (false, m)
  | some (.panic m) => some (true, m)
  | _ => none

theorem of_endOf_error {x : Option Called} {m : Str} (h : endOf x = some (false, m)) : x = some (.error m) := by
  unfold endOf at h
  split at h <;> simp_all

theorem of_endOf_panic {x : Option Called} {m : Str} (h : endOf x = some (true, m)) : x = some (.panic m) := by
  unfold endOf at h
  split at h <;> simp_all

/-- **C86.** Remembering results is not transparent (finding 22): `2D6` is a command, but with
`Memoize(true)` it is refused, since the remembered operand does not count its dice again. -/
theorem C86_memoize_refuses : (∃ v, CallsWith [] (utf8 chars!"2D6") [] (.value v) ∧
      v.toNode = some (.dRollExpr (.var .d (.int 2) (.int 6)))) ∧
    CallsWith [] (utf8 chars!"2D6") [.memoize true]
      (.error (located [] ⟨1, 1, 0⟩ (some chars!"DRollExprCommand") chars!"random element not found")) := by
  constructor
  · obtain ⟨v, h1, h2⟩ := (C64_rule_functions [] chars!"2D6" (.dRollExpr (.var .d (.int 2) (.int 6)))).2 (by decide)
    refine ⟨v, (C86_defaults [] _ (Pigeon.decoded_utf8 _) [] rfl rfl rfl (.inl rfl) _).2 ⟨_, h1, rfl⟩, h2⟩
  · refine ⟨60, of_endOf_error ?_⟩
    decide +kernel

/-- **C86.** Rules other than the first do not set the counter of dice: started with one of them, a die
is a failed type assertion, which comes out as a panic if panics are not caught. -/
theorem C86_entry_without_counter :
    CallsWith [] (utf8 chars!"2D6") [.entrypoint chars!"DRollExpr", .recover false]
      (.panic chars!"interface conversion") := by
  refine ⟨60, of_endOf_panic ?_⟩
  decide +kernel

theorem calls_2D6 : exprCalls false [] (utf8 chars!"2D6") = 252 := by decide +kernel

/-- `2D6` takes 252 expressions: with a limit of 252 it is accepted, with 251 it is not. -/
example : (∃ v, CallsWith [] (utf8 chars!"2D6") [.recover false, .maxExpressions 252] (.value v)) ∧
    CallsWith [] (utf8 chars!"2D6") [.recover false, .maxExpressions 251]
      (.panic chars!"max number of expresssions parsed") := by
  constructor
  · obtain ⟨v, h1, h2⟩ := (C64_rule_functions [] chars!"2D6" (.dRollExpr (.var .d (.int 2) (.int 6)))).2 (by decide)
    refine ⟨v, (C86_defaults [] _ (Pigeon.decoded_utf8 _) _ rfl rfl rfl (.inr ?_) _).2 ⟨_, h1, rfl⟩⟩
    rw [calls_2D6]; decide
  · refine (C86_limit_exceeded [] _ (Pigeon.decoded_utf8 _) [.recover false, .maxExpressions 251] rfl rfl (by decide) ?_).1 rfl
    show _ < exprCalls false [] _
    rw [calls_2D6]; decide

/-- An invalid byte in a list of choices, accepted as U+FFFD. -/
example : ∃ v, CallsWith [] (utf8 chars!"choice[a" ++ [invalidByte] ++ utf8 chars!",b]") [.allowInvalidUTF8 true] (.value v) ∧
    v.toNode = some (.choice [['a', '\ufffd'], ['b']]) :=
  (C86_invalid_bytes [] _ (show ∀ x ∈ _, _ by decide) [.allowInvalidUTF8 true] rfl rfl rfl (.inl rfl) _).2
    ((parse_iff _ _).1 (by decide))

example : CallsWith [] [] [.entrypoint chars!"Commands"]
    (.error chars!"1:0 (0): invalid entrypoint") :=
  C86_unknown_entry [] [] [.entrypoint chars!"Commands"] (by decide)

end GoBCDice
