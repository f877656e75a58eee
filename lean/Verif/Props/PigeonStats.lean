import Verif.Spec.PigeonStats
import Verif.Props.PigeonOpt

/-!
# C108: calls of `parser.Parse` that share a `Stats`
-/

namespace GoBCDice

open Pigeon (Sym Val ParseOption Called Settings)

namespace Pigeon

theorem parseFuelS_mono {s : Settings} {n m : Nat} (hnm : n ≤ m) {filename : Str}
    {rules : List (Str × PExpr)} {data : List Sym} {count : Nat} {c : Called × Nat}
    (h : parseFuelS s n filename rules data count = some c) : parseFuelS s m filename rules data count = some c := by
  unfold parseFuelS at h ⊢
  dsimp only at h ⊢
  split at h
  · exact h
  · obtain ⟨y, h1, h2⟩ := Option.map_eq_some_iff.1 h
    exact Option.map_eq_some_iff.2 ⟨y, parseRuleO_mono (fun _ _ _ => runO_mono hnm) h1, h2⟩

theorem CountedCall.unique {filename : Str} {data : List Sym} {opts : List ParseOption} {count n n' : Nat} {c c' : Called}
    (h : CountedCall filename data opts count c n) (h' : CountedCall filename data opts count c' n') : c = c' ∧ n = n' := by
  obtain ⟨k, hk⟩ := h
  obtain ⟨l, hl⟩ := h'
  have h1 := parseFuelS_mono (Nat.le_max_left k l) hk
  have h2 := parseFuelS_mono (Nat.le_max_right k l) hl
  have := Option.some.inj (h1.symm.trans h2)
  exact ⟨congrArg Prod.fst this, congrArg Prod.snd this⟩

/-- As `plain_call`, with a count to begin with. -/
theorem counted_call {s : Settings} (hm : s.memoize = false) (he : s.entrypoint = chars!"Command")
    (filename : Str) (data : List Sym) (hd : Decoded data) (count : Nat) :
    ∃ v ok st', Runs ⟨filename, goGrammar, s.allowInvalidUTF8⟩ (.expr (.ruleRef chars!"Command"))
        (initState ⟨filename, goGrammar, s.allowInvalidUTF8⟩ data) (.ret v ok st') ∧
      (s.exceeded (count + exprCalls s.allowInvalidUTF8 filename data) = false → ∃ fuel,
        parseFuelS s fuel filename goGrammar data count =
          some (returned (finish ⟨filename, goGrammar, s.allowInvalidUTF8⟩ (.ret v ok st')),
            count + exprCalls s.allowInvalidUTF8 filename data)) ∧
      (s.exceeded (count + exprCalls s.allowInvalidUTF8 filename data) = true → ∃ fuel st2,
        parseFuelS s fuel filename goGrammar data count = some
          (if s.recover then .error (errText (PState.addErr ⟨filename, goGrammar, s.allowInvalidUTF8⟩ st2 maxExprMsg).errs)
            else .panic maxExprMsg, max count s.maxExprCnt + 1)) := by
  generalize henv : (⟨filename, goGrammar, s.allowInvalidUTF8⟩ : PEnv) = env
  have hrules : env.rules = goGrammar := by rw [← henv]
  obtain ⟨v, ok, st', h1, hcalls, -⟩ := plain_call hm he filename data hd
  rw [henv] at h1
  refine ⟨v, ok, st', h1, ?_⟩
  have hl : env.rules.lookup chars!"Command" = some ruleCommand := by rw [hrules]; exact lookup_command
  obtain ⟨n, v1, ok1, st2, h5, h6⟩ := Runs.back' (t1 := .expr ruleCommand) (hr := h1)
    (st1 := { (initState env data).tick.pushV with rstack := chars!"Command" :: (initState env data).rstack })
    (k := fun _ v ok st' => some (.ret v ok { st'.popV with rstack := st'.rstack.tail })) (by
      intro n; rw [run.eq_def]; dsimp only; rw [hl])
  cases h6
  obtain ⟨n, hn⟩ := h5
  let p1 : PState := { (initState env data).pushV with rstack := chars!"Command" :: (initState env data).rstack }
  have hup := run_up (env := env) 1 n (.expr ruleCommand) p1
  have hn' : run env n (.expr ruleCommand) (up 1 p1) = some (.ret v ok st2) := hn
  rw [hn'] at hup
  obtain ⟨r0, h7, h8⟩ := Option.map_eq_some_iff.1 hup.symm
  cases r0 with
  | panic m st => cases h8
  | ret v0 ok0 st0 =>
    have h9 : v0 = v ∧ ok0 = ok ∧ up 1 st0 = st2 := by
      unfold PRes.up at h8
      dsimp only at h8
      injection h8 with a b c
      exact ⟨a, b, c⟩
    obtain ⟨rfl, rfl, rfl⟩ := h9
    have hcnt0 : p1.exprCnt = 0 := initState_cnt (env := env) data
    have hst0 : st0.exprCnt = exprCalls s.allowInvalidUTF8 filename data := by
      rw [← hcalls]; rfl
    let p2 : PState := up count p1
    have hp2 : p2.exprCnt = count := by
      show p1.exprCnt + count = count
      omega
    have h10 : run env n (.expr ruleCommand) p2 = some (.ret v0 ok0 (up count st0)) := by
      have := run_up (env := env) count n (.expr ruleCommand) p1
      rw [h7] at this
      exact this
    have hcnt2 : (up count st0).exprCnt = count + exprCalls s.allowInvalidUTF8 filename data := by
      show st0.exprCnt + count = _
      omega
    have hrec : OState.recall s ⟨{ initState env data with exprCnt := count }, []⟩ (.rule chars!"Command") = none := by
      unfold OState.recall; rw [hm]; rfl
    have hrec' : ∀ st nd, OState.recall s st nd = none := by
      intro st nd; unfold OState.recall; rw [hm]; rfl
    have hlook : goGrammar.lookup s.entrypoint = some ruleCommand := by rw [he]; exact lookup_command
    have hstart : (OState.upd ⟨{ initState env data with exprCnt := count }, []⟩ fun p =>
        { p.pushV with rstack := chars!"Command" :: p.rstack }) = ⟨p2, []⟩ := by
      show (⟨_, []⟩ : OState) = _
      refine congrArg (fun p => (⟨p, []⟩ : OState)) ?_
      show (⟨_, _, _, _, _, _, _, _, _⟩ : PState) = ⟨_, _, _, _, _, _, _, _, _⟩
      congr 1
      exact hp2.symm
    constructor
    · intro hb
      refine ⟨n, ?_⟩
      have hex0 : s.exceeded p2.exprCnt = false := by
        rw [hp2]
        unfold Settings.exceeded at hb ⊢
        simp only [Bool.and_eq_false_iff, decide_eq_false_iff_not] at hb ⊢
        rcases hb with hb | hb
        · exact .inl hb
        · right; omega
      have hlim := runO_plain (env := env) hm n (.expr chars!"Command" [] ruleCommand) p2 [] _ h10 hex0
      have hx := hlim.below (by show s.exceeded (up count st0).exprCnt = false; rw [hcnt2]; exact hb)
      unfold parseFuelS
      dsimp only
      rw [hlook]
      dsimp only
      rw [henv, he]
      unfold parseRuleO
      rw [hrec]
      dsimp only
      rw [hstart, hx]
      unfold PRes.lift ORes.andThen
      dsimp only
      have hrem : ∀ (st : OState) (pt : Pt) (nd : NodeId) (v : Val) (b : Bool), st.remember s pt nd v b = st := by
        intro st pt nd v b; unfold OState.remember; rw [hm]; rfl
      rw [hrem]
      show some _ = some _
      refine congrArg some ?_
      show (_, (up count st0).exprCnt) = _
      rw [hcnt2]
      refine congrArg (fun c => (c, _)) ?_
      show (match finish env (.ret v0 ok0 (up count { st0.popV with rstack := st0.rstack.tail })) with
        | .ok v => Called.value v | .error m => Called.error m) = _
      rw [finish_up, ← finish_up env 1]
      show _ = returned (finish env (.ret v0 ok0 (up 1 { st0.popV with rstack := st0.rstack.tail })))
      generalize finish env (.ret v0 ok0 (up 1 { st0.popV with rstack := st0.rstack.tail })) = f
      cases f <;> rfl
    · intro ha
      have key : ∃ m st2, runO env s m (.expr chars!"Command" [] ruleCommand) ⟨p2, []⟩ = some (.panic maxExprMsg st2) ∧
          st2.p.exprCnt = max count s.maxExprCnt + 1 := by
        have hmax : s.maxExprCnt ≠ 0 := by
          intro h
          unfold Settings.exceeded at ha
          simp [h] at ha
        by_cases hex0 : s.exceeded p2.exprCnt = true
        · refine ⟨1, OState.upd ⟨p2, []⟩ (·.tick), ?_, ?_⟩
          · rw [runO.eq_def]
            dsimp only
            rw [hrec']
            dsimp only
            rw [if_pos]
            · show s.exceeded (p2.exprCnt + 1) = true
              unfold Settings.exceeded at hex0 ⊢
              simp only [Bool.and_eq_true, decide_eq_true_eq] at hex0 ⊢
              exact ⟨hex0.1, by omega⟩
          · show p2.exprCnt + 1 = _
            rw [hp2] at hex0 ⊢
            unfold Settings.exceeded at hex0
            simp only [Bool.and_eq_true, decide_eq_true_eq] at hex0
            omega
        · have hex0 : s.exceeded p2.exprCnt = false := by simpa using hex0
          have hlim := runO_plain (env := env) hm n (.expr chars!"Command" [] ruleCommand) p2 [] _ h10 hex0
          obtain ⟨st2, hx, hc⟩ := hlim.above (by show s.exceeded (up count st0).exprCnt = true; rw [hcnt2]; exact ha)
          refine ⟨n, st2, hx, ?_⟩
          rw [hc]
          rw [hp2] at hex0
          unfold Settings.exceeded at hex0
          simp only [Bool.and_eq_false_iff, decide_eq_false_iff_not, bne_eq_false_iff_eq] at hex0
          omega
      obtain ⟨n, st2, hx, hc⟩ := key
      refine ⟨n, st2.p, ?_⟩
      unfold parseFuelS
      dsimp only
      rw [hlook]
      dsimp only
      rw [henv, he]
      unfold parseRuleO
      rw [hrec]
      dsimp only
      rw [hstart, hx, ← hc]
      rfl

end Pigeon

/-- **C108.** A call with a `Stats` given by the caller: as long as the expressions counted before and those of the call
are within the limit, `Parse` does what it does without `Statistics`, and the count grows by the work done. Beyond that the
call is refused, however little the text itself needs. -/
theorem C108_call (filename : Str) (data : List Sym) (hd : Decoded data) (opts : List ParseOption)
    (hm : memoOf opts = false) (he : entryOf opts = chars!"Command") (count : Nat) :
    (limitOf opts = 0 ∨ count + exprCalls (allowOf opts) filename data ≤ limitOf opts →
      ∃ c, CallsWith filename data opts c ∧
        CountedCall filename data opts count c (count + exprCalls (allowOf opts) filename data)) ∧
    (limitOf opts ≠ 0 → limitOf opts < count + exprCalls (allowOf opts) filename data →
      (recoverOf opts = true → ∃ m, chars!"max number of expresssions parsed" <:+: m ∧
        CountedCall filename data opts count (.error m) (max count (limitOf opts) + 1)) ∧
      (recoverOf opts = false →
        CountedCall filename data opts count (.panic chars!"max number of expresssions parsed") (max count (limitOf opts) + 1))) := by
  have hs := C86_settings opts
  have hex := exceeded_limit opts (count + exprCalls (allowOf opts) filename data)
  have hal : (Pigeon.settingsOf Pigeon.goGrammar opts).allowInvalidUTF8 = allowOf opts := by rw [hs]
  have hre : (Pigeon.settingsOf Pigeon.goGrammar opts).recover = recoverOf opts := by rw [hs]
  have hli : (Pigeon.settingsOf Pigeon.goGrammar opts).maxExprCnt = limitOf opts := by rw [hs]
  obtain ⟨v, ok, st', h1, h2, h3⟩ := Pigeon.counted_call (s := Pigeon.settingsOf Pigeon.goGrammar opts)
    (by rw [hs]; exact hm) (by rw [hs]; exact he) filename data hd count
  obtain ⟨v', ok', st'', h1', -, -, -, h5, -⟩ := Pigeon.plain_call (s := Pigeon.settingsOf Pigeon.goGrammar opts)
    (by rw [hs]; exact hm) (by rw [hs]; exact he) filename data hd
  have heq := Pigeon.Runs.unique h1 h1'
  cases heq
  rw [hal] at h2 h3 h5
  rw [hre, hli] at h3
  constructor
  · intro hl
    have hno : (Pigeon.settingsOf Pigeon.goGrammar opts).exceeded (count + exprCalls (allowOf opts) filename data) = false := by
      rw [Bool.eq_false_iff, ne_eq, hex]
      omega
    have hno' : (Pigeon.settingsOf Pigeon.goGrammar opts).exceeded (exprCalls (allowOf opts) filename data) = false := by
      rw [Bool.eq_false_iff, ne_eq, exceeded_limit]
      omega
    obtain ⟨f, hf⟩ := h2 hno
    obtain ⟨g, hg⟩ := h5 hno'
    exact ⟨_, ⟨g, hg⟩, ⟨f, hf⟩⟩
  · intro h0 hl
    obtain ⟨f, st2, hf⟩ := h3 (hex.2 ⟨h0, hl⟩)
    constructor
    · intro hr
      rw [hr, if_pos rfl] at hf
      exact ⟨_, Pigeon.addErr_text _ _ _, f, hf⟩
    · intro hr
      rw [hr, if_neg (by decide)] at hf
      exact ⟨f, hf⟩

/-- **C108.** Calls that share a `Stats`, one after the other, with a limit: the limit is one for all of them. A call does
what it does alone if the work of the calls up to it, itself included, is within the limit; all calls after that are
refused. Every list of texts can be parsed like that, in one way only. -/
theorem C108_shared (filename : Str) (opts : List ParseOption) (hm : memoOf opts = false)
    (he : entryOf opts = chars!"Command") (hr : recoverOf opts = true) (hl : limitOf opts ≠ 0) :
    ∀ (datas : List (List Sym)), (∀ data ∈ datas, Decoded data) → ∀ count : Nat,
    ∃ cs count', CountedCalls filename opts count datas cs count' ∧
      (∀ cs' n, CountedCalls filename opts count datas cs' n → cs' = cs ∧ n = count') ∧
      cs.length = datas.length ∧
      ∀ (i : Nat) data c, datas[i]? = some data → cs[i]? = some c →
        (count + workOf (allowOf opts) filename (datas.take (i + 1)) ≤ limitOf opts → CallsWith filename data opts c) ∧
        (limitOf opts < count + workOf (allowOf opts) filename (datas.take (i + 1)) →
          ∃ m, chars!"max number of expresssions parsed" <:+: m ∧ c = .error m)
  | [], _, count => ⟨[], count, .none, fun cs' n h => by cases h; exact ⟨rfl, rfl⟩, rfl, fun i data c h => by simp at h⟩
  | data :: datas, hd, count => by
    have hcall := C108_call filename data (hd data List.mem_cons_self) opts hm he count
    have hd' : ∀ data ∈ datas, Decoded data := fun d h => hd d (List.mem_cons_of_mem _ h)
    have pick : ∃ c n, CountedCall filename data opts count c n ∧
        ((count + exprCalls (allowOf opts) filename data ≤ limitOf opts → CallsWith filename data opts c) ∧
          (limitOf opts < count + exprCalls (allowOf opts) filename data →
            ∃ m, chars!"max number of expresssions parsed" <:+: m ∧ c = .error m)) ∧
        (∀ w, n + w ≤ limitOf opts ↔ count + (exprCalls (allowOf opts) filename data + w) ≤ limitOf opts) := by
      by_cases hin : count + exprCalls (allowOf opts) filename data ≤ limitOf opts
      · obtain ⟨c, h1, h2⟩ := hcall.1 (.inr hin)
        exact ⟨c, _, h2, ⟨fun _ => h1, fun h => absurd hin (by omega)⟩, fun w => by omega⟩
      · obtain ⟨m, h1, h2⟩ := (hcall.2 hl (by omega)).1 hr
        exact ⟨.error m, _, h2, ⟨fun h => absurd h hin, fun _ => ⟨m, h1, rfl⟩⟩, fun w => by omega⟩
    obtain ⟨c, n, h1, h2, h3⟩ := pick
    obtain ⟨cs, n', h4, h5, h6, h7⟩ := C108_shared filename opts hm he hr hl datas hd' n
    refine ⟨c :: cs, n', .more h1 h4, fun cs' k h => ?_, by simp [h6], fun i data' c' hi hc => ?_⟩
    · cases h with
      | more a b =>
        obtain ⟨rfl, rfl⟩ := Pigeon.CountedCall.unique h1 a
        obtain ⟨rfl, rfl⟩ := h5 _ _ b
        exact ⟨rfl, rfl⟩
    · cases i with
      | zero =>
        simp only [List.getElem?_cons_zero, Option.some.injEq] at hi hc
        subst hi hc
        simpa [workOf] using h2
      | succ i =>
        simp only [List.getElem?_cons_succ] at hi hc
        have h8 := h7 i data' c' hi hc
        have h9 := h3 (workOf (allowOf opts) filename (datas.take (i + 1)))
        have e : workOf (allowOf opts) filename ((data :: datas).take (i + 1 + 1)) =
            exprCalls (allowOf opts) filename data + workOf (allowOf opts) filename (datas.take (i + 1)) := by
          simp [workOf]
        rw [e]
        exact ⟨fun h => h8.1 (h9.2 h), fun h => h8.2 (by omega)⟩

/-- **C108.** Without a limit nothing is refused, and the `Stats` counts the work of all calls. -/
theorem C108_count (filename : Str) (opts : List ParseOption) (hm : memoOf opts = false)
    (he : entryOf opts = chars!"Command") (hl : limitOf opts = 0) :
    ∀ (datas : List (List Sym)), (∀ data ∈ datas, Decoded data) → ∀ (count : Nat) (cs : List Called) (count' : Nat),
    CountedCalls filename opts count datas cs count' →
      count' = count + workOf (allowOf opts) filename datas ∧
      ∀ (i : Nat) data c, datas[i]? = some data → cs[i]? = some c → CallsWith filename data opts c
  | [], _, count, cs, count', h => by
    cases h
    exact ⟨by simp [workOf], fun i data c h => by simp at h⟩
  | data :: datas, hd, count, cs, count', h => by
    cases h with
    | @more _ n' _ _ _ c cs a b =>
    obtain ⟨c0, h1, h2⟩ := (C108_call filename data (hd data List.mem_cons_self) opts hm he count).1 (.inl hl)
    obtain ⟨rfl, rfl⟩ := Pigeon.CountedCall.unique h2 a
    obtain ⟨h3, h4⟩ := C108_count filename opts hm he hl datas (fun d h => hd d (List.mem_cons_of_mem _ h)) _ _ _ b
    refine ⟨by rw [h3]; simp [workOf]; omega, fun i data' c' hi hc => ?_⟩
    cases i with
    | zero =>
      simp only [List.getElem?_cons_zero, Option.some.injEq] at hi hc
      subst hi hc
      exact h1
    | succ i =>
      simp only [List.getElem?_cons_succ] at hi hc
      exact h4 i data' c' hi hc

-- a concrete case: `2D6` takes 252 calls, so that with a limit of 600 the third of three calls is refused
example : ∃ c1 c2 m n, CountedCalls [] [.maxExpressions 600] 0 [utf8 chars!"2D6", utf8 chars!"2D6", utf8 chars!"2D6"]
      [c1, c2, .error m] n ∧ chars!"max number of expresssions parsed" <:+: m ∧
    CallsWith [] (utf8 chars!"2D6") [.maxExpressions 600] c1 := by
  obtain ⟨cs, n, h1, -, h3, h4⟩ := C108_shared [] [.maxExpressions 600] rfl rfl rfl (by decide)
    [utf8 chars!"2D6", utf8 chars!"2D6", utf8 chars!"2D6"] (by
      intro data h
      simp only [List.mem_cons, List.not_mem_nil, or_false, or_self] at h
      subst h; exact Pigeon.decoded_utf8 _) 0
  match cs, h3 with
  | [c1, c2, c3], _ =>
    have hw : exprCalls (allowOf [.maxExpressions 600]) [] (utf8 chars!"2D6") = 252 := calls_2D6
    have hl : limitOf [.maxExpressions 600] = 600 := rfl
    obtain ⟨m, hm, rfl⟩ := (h4 2 _ c3 rfl rfl).2 (by
      simp only [workOf, List.take, List.map_cons, List.map_nil, hw, hl]; decide)
    exact ⟨c1, c2, m, n, h1, hm, (h4 0 _ c1 rfl rfl).1 (by
      simp only [workOf, List.take, List.map_cons, List.map_nil, hw, hl]; decide)⟩

end GoBCDice
