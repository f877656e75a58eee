import Verif.Spec.Server
import Verif.Lemmas.Str
import Mathlib.Data.List.Induction

/-!
# C88: starting the web server, and its logs
-/

namespace GoBCDice

theorem logFileName_eq (tmp : Str) (t : Int64) : logFileName tmp chars!"production" t = logPath tmp t := by
  simp [logFileName, joinPath, logPath]

theorem logPath_inj {tmp : Str} {t u : Int64} (h : logPath tmp t = logPath tmp u) : t = u := by
  unfold logPath at h
  exact intStr_inj (List.append_cancel_left (List.append_cancel_right h))

theorem environment_production {e : Str} : environmentOf e = chars!"production" ↔ e = chars!"production" := by
  unfold environmentOf
  split
  · rename_i h; subst h; decide
  · rfl

theorem startsOf_append (a b : List ServerEvent) : startsOf (a ++ b) = startsOf a ++ startsOf b :=
  List.filterMap_append ..

theorem linesOf_append (i : Nat) (a b : List ServerEvent) : linesOf i (a ++ b) = linesOf i a ++ linesOf i b := by
  unfold linesOf
  rw [List.filterMap_append, List.flatten_append]

theorem causal_append : ∀ (a b : List ServerEvent) (n : Nat),
    Causal (a ++ b) n ↔ Causal a n ∧ Causal b (n + (startsOf a).length)
  | [], b, n => by simp [Causal, startsOf]
  | .start e t c :: a, b, n => by
    have := causal_append a b (n + 1)
    simp only [List.cons_append, Causal, this]
    rw [show (startsOf (.start e t c :: a)).length = (startsOf a).length + 1 from rfl]
    rw [show n + ((startsOf a).length + 1) = n + 1 + (startsOf a).length by omega]
  | .line i x :: a, b, n => by
    have := causal_append a b n
    simp only [List.cons_append, Causal, this]
    rw [show (startsOf (.line i x :: a)).length = (startsOf a).length from rfl]
    exact and_assoc.symm

/-- A server that has not been started has not written. -/
theorem linesOf_unstarted : ∀ (evs : List ServerEvent) (n i : Nat), Causal evs n →
    n + (startsOf evs).length ≤ i → linesOf i evs = []
  | [], _, _, _, _ => rfl
  | .start e t c :: evs, n, i, h, hi => by
    have := linesOf_unstarted evs (n + 1) i h (by
      rw [show (startsOf (.start e t c :: evs)).length = (startsOf evs).length + 1 from rfl] at hi
      omega)
    exact this
  | .line j x :: evs, n, i, h, hi => by
    have hl : (startsOf (.line j x :: evs)).length = (startsOf evs).length := rfl
    rw [hl] at hi
    have hji : j ≠ i := by have := h.1; omega
    have := linesOf_unstarted evs n i h.2 hi
    have h2 : linesOf i (.line j x :: evs) = linesOf i evs := by
      simp [linesOf, hji]
    rw [h2, this]

/-- The output of a server with the given start. -/
def sinkOk (tmp : Str) (start : Str × Int64 × Bool) (lines : Str) : LogSink → Prop
  | .file path _ => start.1 = chars!"production" ∧ start.2.2 = true ∧ path = logPath tmp start.2.1
  | .stdout text => start.1 ≠ chars!"production" ∧ text = lines
  | .dead => start.1 = chars!"production" ∧ start.2.2 = false

/-- All servers write to where they should. -/
structure MachineOk (tmp : Str) (evs : List ServerEvent) (m : Machine) : Prop where
  length : m.servers.length = (startsOf evs).length
  sinks : ∀ i start sink, (startsOf evs)[i]? = some start → m.servers[i]? = some sink →
    sinkOk tmp start (linesOf i evs) sink

theorem writeAt_end (s t : Str) : writeAt s s.length t = s ++ t := by
  unfold writeAt
  simp

theorem line_lines (i j : Nat) (x : Str) (evs : List ServerEvent) :
    linesOf i (evs ++ [.line j x]) = linesOf i evs ++ (if j = i then x else []) := by
  rw [linesOf_append]
  congr 1
  by_cases h : j = i <;> simp [linesOf, h]

theorem start_lines (i : Nat) (e : Str) (t : Int64) (c : Bool) (evs : List ServerEvent) :
    linesOf i (evs ++ [.start e t c]) = linesOf i evs := by
  rw [linesOf_append]
  exact List.append_nil _

theorem run_snoc (tmp : Str) (m : Machine) (evs : List ServerEvent) (e : ServerEvent) :
    m.run tmp (evs ++ [e]) = (m.run tmp evs).step tmp e := by
  unfold Machine.run
  rw [List.foldl_append]
  rfl

theorem setup_servers (tmp : Str) (m : Machine) (e : Str) (t : Int64) (c : Bool) :
    ∃ sink, (m.setup tmp e t c).servers = m.servers ++ [sink] ∧ sinkOk tmp (e, t, c) [] sink := by
  unfold Machine.setup
  dsimp only
  by_cases he : environmentOf e = chars!"production"
  · rw [if_pos he, he, logFileName_eq]
    have he' := environment_production.1 he
    cases c
    · exact ⟨.dead, rfl, he', rfl⟩
    · exact ⟨.file (logPath tmp t) 0, rfl, he', rfl, rfl⟩
  · rw [if_neg he]
    exact ⟨.stdout [], rfl, fun h => he (environment_production.2 h), rfl⟩

/-- After any history the servers write to where they should. -/
theorem machine_ok (tmp : Str) (files : Str → Option Str) (evs : List ServerEvent) (hc : Causal evs 0) :
    MachineOk tmp evs ((Machine.fresh files).run tmp evs) := by
  induction evs using List.reverseRecOn with
  | nil => exact ⟨rfl, fun i start sink h => by simp [startsOf] at h⟩
  | append_singleton evs e ih =>
    have hc0 := (causal_append evs [e] 0).1 hc
    have ih := ih hc0.1
    rw [run_snoc]
    generalize (Machine.fresh files).run tmp evs = m at ih ⊢
    cases e with
    | start e t c =>
      obtain ⟨sink, hs, hok⟩ := setup_servers tmp m e t c
      have hst : startsOf (evs ++ [.start e t c]) = startsOf evs ++ [(e, t, c)] := startsOf_append ..
      refine ⟨?_, ?_⟩
      · show (m.setup tmp e t c).servers.length = _
        rw [hs, hst, List.length_append, List.length_append, ih.length]; rfl
      · intro i start s h1 h2
        replace h2 : (m.setup tmp e t c).servers[i]? = some s := h2
        rw [hs] at h2
        rw [hst] at h1
        rw [start_lines]
        by_cases hi : i < (startsOf evs).length
        · rw [List.getElem?_append_left hi] at h1
          rw [List.getElem?_append_left (by rw [ih.length]; exact hi)] at h2
          exact ih.sinks i start s h1 h2
        · have hle : (startsOf evs).length ≤ i := Nat.le_of_not_lt hi
          rw [List.getElem?_append_right hle] at h1
          rw [List.getElem?_append_right (by rw [ih.length]; exact hle), ih.length] at h2
          have h0 : i - (startsOf evs).length = 0 := by
            cases hk : i - (startsOf evs).length with
            | zero => rfl
            | succ k => rw [hk] at h1; simp at h1
          rw [h0] at h1 h2
          cases h1
          cases h2
          rw [linesOf_unstarted evs 0 i hc0.1 (by omega)]
          exact hok
    | line j x =>
      have hst : startsOf (evs ++ [.line j x]) = startsOf evs := by
        rw [startsOf_append]; exact List.append_nil _
      show MachineOk tmp _ (m.log j x)
      unfold Machine.log
      cases hj : m.servers[j]? with
      | none =>
        refine ⟨by rw [hst]; exact ih.length, ?_⟩
        intro i start s h1 h2
        have hij : j ≠ i := by rintro rfl; rw [hj] at h2; cases h2
        rw [line_lines, if_neg hij, List.append_nil]
        rw [hst] at h1
        exact ih.sinks i start s h1 h2
      | some sink =>
        have hlt : j < m.servers.length := (List.getElem?_eq_some_iff.1 hj).1
        have key : ∀ (m' : Machine) (sink' : LogSink), m'.servers = m.servers.set j sink' →
            (∀ start, (startsOf evs)[j]? = some start → sinkOk tmp start (linesOf j evs) sink →
              sinkOk tmp start (linesOf j evs ++ x) sink') → MachineOk tmp (evs ++ [.line j x]) m' := by
          intro m' sink' hs hk
          refine ⟨by rw [hs, List.length_set, hst]; exact ih.length, ?_⟩
          intro i start s h1 h2
          rw [hst] at h1
          rw [line_lines]
          rw [hs] at h2
          by_cases hij : j = i
          · subst hij
            rw [if_pos rfl]
            rw [List.getElem?_set_self hlt] at h2
            cases h2
            exact hk start h1 (ih.sinks j start sink h1 hj)
          · rw [List.getElem?_set_ne hij] at h2
            rw [if_neg hij, List.append_nil]
            exact ih.sinks i start s h1 h2
        cases sink with
        | file path off => exact key _ (.file path (off + x.length)) rfl (fun start _ h => h)
        | stdout old =>
          exact key _ (.stdout (old ++ x)) rfl (fun start _ h => ⟨h.1, by rw [h.2]⟩)
        | dead => 
          refine key m .dead ?_ (fun start _ h => h)
          obtain ⟨h1, h2⟩ := List.getElem?_eq_some_iff.1 hj
          rw [← h2, List.set_getElem_self]

/-- **C88.** The log of a production server consists of its lines, in order, and nothing else, whatever
other servers did before, since and meanwhile, and whatever was in the file before — as long as no other
production server was started in the same second. -/
theorem C88_log_kept (tmp : Str) (files : Str → Option Str) (evs : List ServerEvent) (hc : Causal evs 0)
    (i : Nat) (t : Int64) (hi : (startsOf evs)[i]? = some (chars!"production", t, true))
    (hu : ∀ j, j ≠ i → (startsOf evs)[j]? ≠ some (chars!"production", t, true)) :
    ((Machine.fresh files).run tmp evs).files (logPath tmp t) = some (linesOf i evs) := by
  suffices h : ((Machine.fresh files).run tmp evs).files (logPath tmp t) = some (linesOf i evs) ∧
      ((Machine.fresh files).run tmp evs).servers[i]? = some (.file (logPath tmp t) (linesOf i evs).length) from h.1
  induction evs using List.reverseRecOn with
  | nil => simp [startsOf] at hi
  | append_singleton evs e ih =>
    have hc0 := (causal_append evs [e] 0).1 hc
    have hok := machine_ok tmp files evs hc0.1
    rw [run_snoc]
    cases e with
    | start e u c =>
      have hst : startsOf (evs ++ [.start e u c]) = startsOf evs ++ [(e, u, c)] := startsOf_append ..
      rw [hst] at hi hu
      rw [start_lines]
      by_cases hlt : i < (startsOf evs).length
      · rw [List.getElem?_append_left hlt] at hi
        have ih := ih hc0.1 hi (by
          intro j hj h
          refine hu j hj ?_
          rw [List.getElem?_append_left (List.getElem?_eq_some_iff.1 h).1]; exact h)
        generalize (Machine.fresh files).run tmp evs = m at ih hok ⊢
        constructor
        · rw [← ih.1]
          show (m.setup tmp e u c).files _ = _
          unfold Machine.setup
          dsimp only
          by_cases he : environmentOf e = chars!"production"
          · rw [if_pos he, he, logFileName_eq]
            cases c
            · rfl
            · have hne : t ≠ u := by
                rintro rfl
                refine hu (startsOf evs).length (by omega) ?_
                rw [List.getElem?_append_right (Nat.le_refl _), Nat.sub_self]
                rw [environment_production.1 he]
                rfl
              show (if logPath tmp t = logPath tmp u then some [] else m.files (logPath tmp t)) = _
              rw [if_neg (fun h => hne (logPath_inj h))]
          · rw [if_neg he]
        · obtain ⟨sink, hs, -⟩ := setup_servers tmp m e u c
          show (m.setup tmp e u c).servers[i]? = _
          rw [hs, List.getElem?_append_left (by rw [hok.length]; exact hlt)]
          exact ih.2
      · have hle : (startsOf evs).length ≤ i := Nat.le_of_not_lt hlt
        rw [List.getElem?_append_right hle] at hi
        have h0 : i - (startsOf evs).length = 0 := by
          cases hk : i - (startsOf evs).length with
          | zero => rfl
          | succ k => rw [hk] at hi; simp at hi
        rw [h0] at hi
        cases hi
        rw [linesOf_unstarted evs 0 i hc0.1 (by omega)]
        generalize (Machine.fresh files).run tmp evs = m at hok ⊢
        dsimp only [Machine.step]
        unfold Machine.setup
        dsimp only
        rw [if_pos (environment_production.2 rfl), environment_production.2 rfl, logFileName_eq]
        rw [if_pos rfl]
        constructor
        · show (if logPath tmp t = logPath tmp t then some [] else _) = _
          rw [if_pos rfl]
        · show (m.servers ++ [LogSink.file (logPath tmp t) 0])[i]? = _
          rw [List.getElem?_append_right (by rw [hok.length]; exact hle), hok.length, h0]
          rfl
    | line j x =>
      have hst : startsOf (evs ++ [.line j x]) = startsOf evs := by
        rw [startsOf_append]; exact List.append_nil _
      rw [hst] at hi hu
      have ih := ih hc0.1 hi hu
      rw [line_lines]
      generalize (Machine.fresh files).run tmp evs = m at ih hok ⊢
      show (m.log j x).files _ = _ ∧ (m.log j x).servers[i]? = _
      by_cases hij : j = i
      · subst hij
        rw [if_pos rfl]
        unfold Machine.log
        rw [ih.2]
        dsimp only
        constructor
        · show (if logPath tmp t = logPath tmp t then some _ else _) = _
          rw [if_pos rfl, ih.1]
          simp only [Option.getD_some]
          rw [writeAt_end]
        · show (m.servers.set j _)[j]? = _
          rw [List.getElem?_set_self (List.getElem?_eq_some_iff.1 ih.2).1, List.length_append]
      · rw [if_neg hij, List.append_nil]
        unfold Machine.log
        cases hj : m.servers[j]? with
        | none => exact ih
        | some sink =>
          cases sink with
          | dead => exact ih
          | stdout old =>
            refine ⟨ih.1, ?_⟩
            show (m.servers.set j _)[i]? = _
            rw [List.getElem?_set_ne hij]
            exact ih.2
          | file path off =>
            constructor
            · have hlt : j < (startsOf evs).length := by
                rw [← hok.length]; exact (List.getElem?_eq_some_iff.1 hj).1
              obtain ⟨h1, h2, h3⟩ := hok.sinks j _ _ (List.getElem?_eq_getElem hlt) hj
              have hne : logPath tmp t ≠ path := by
                rw [h3]
                intro h
                have ht := logPath_inj h
                refine hu j hij ?_
                rw [List.getElem?_eq_getElem hlt]
                generalize (startsOf evs)[j] = st at h1 h2 ht
                obtain ⟨a, b, c⟩ := st
                dsimp only at h1 h2 ht
                rw [h1, h2, ht]
              show (if logPath tmp t = path then _ else m.files (logPath tmp t)) = _
              rw [if_neg hne]
              exact ih.1
            · show (m.servers.set j _)[i]? = _
              rw [List.getElem?_set_ne hij]
              exact ih.2

/-- **C88.** A server that is not in production writes its lines to its standard output and touches no
file: only production servers create files, each the one named after the second of its start. -/
theorem C88_files (tmp : Str) (files : Str → Option Str) (evs : List ServerEvent) (hc : Causal evs 0) (p : Str)
    (hp : ∀ t, (chars!"production", t, true) ∈ startsOf evs → p ≠ logPath tmp t) :
    ((Machine.fresh files).run tmp evs).files p = files p := by
  induction evs using List.reverseRecOn with
  | nil => rfl
  | append_singleton evs e ih =>
    have hc0 := (causal_append evs [e] 0).1 hc
    have hok := machine_ok tmp files evs hc0.1
    have ih := ih hc0.1 (fun t ht => hp t (by rw [startsOf_append]; exact List.mem_append_left _ ht))
    rw [run_snoc]
    generalize (Machine.fresh files).run tmp evs = m at ih hok ⊢
    cases e with
    | start e u c =>
      rw [← ih]
      show (m.setup tmp e u c).files _ = _
      unfold Machine.setup
      dsimp only
      by_cases he : environmentOf e = chars!"production"
      · rw [if_pos he, he, logFileName_eq]
        cases c
        · rfl
        · show (if p = logPath tmp u then _ else m.files p) = _
          rw [if_neg (hp u (by
            rw [startsOf_append, environment_production.1 he]
            exact List.mem_append_right _ (List.mem_singleton.2 rfl)))]
      · rw [if_neg he]
    | line j x =>
      rw [← ih]
      show (m.log j x).files p = _
      unfold Machine.log
      cases hj : m.servers[j]? with
      | none => rfl
      | some sink =>
        cases sink with
        | dead => rfl
        | stdout old => rfl
        | file path off =>
          have hlt : j < (startsOf evs).length := by
            rw [← hok.length]; exact (List.getElem?_eq_some_iff.1 hj).1
          obtain ⟨h1, h2, h3⟩ := hok.sinks j _ _ (List.getElem?_eq_getElem hlt) hj
          have hmem : (chars!"production", (startsOf evs)[j].2.1, true) ∈ startsOf evs := by
            have := List.getElem_mem hlt
            generalize (startsOf evs)[j] = st at h1 h2 this
            obtain ⟨a, b, c⟩ := st
            dsimp only at h1 h2
            rw [h1, h2] at this
            exact this
          show (if p = path then _ else m.files p) = _
          rw [if_neg (by
            rw [h3]
            exact hp _ (by rw [startsOf_append]; exact List.mem_append_left _ hmem))]

/-- **C88.** What a server that is not in production wrote to its standard output: its lines. -/
theorem C88_stdout (tmp : Str) (files : Str → Option Str) (evs : List ServerEvent) (hc : Causal evs 0)
    (i : Nat) (e : Str) (t : Int64) (c : Bool) (hi : (startsOf evs)[i]? = some (e, t, c))
    (he : e ≠ chars!"production") :
    ((Machine.fresh files).run tmp evs).servers[i]? = some (.stdout (linesOf i evs)) := by
  have hok := machine_ok tmp files evs hc
  generalize (Machine.fresh files).run tmp evs = m at hok ⊢
  have hlt : i < m.servers.length := by rw [hok.length]; exact (List.getElem?_eq_some_iff.1 hi).1
  have := hok.sinks i _ _ hi (List.getElem?_eq_getElem hlt)
  rw [List.getElem?_eq_getElem hlt]
  generalize m.servers[i] = s at this
  cases s with
  | file p o => exact absurd this.1 he
  | dead => exact absurd this.1 he
  | stdout x => rw [this.2]

/-- **C88.** A production server whose log file cannot be created does not come up, whatever it is asked
to write; all servers that did start are unaffected by it (the theorems above). -/
theorem C88_not_created (tmp : Str) (files : Str → Option Str) (evs : List ServerEvent) (hc : Causal evs 0)
    (i : Nat) (t : Int64) (hi : (startsOf evs)[i]? = some (chars!"production", t, false)) :
    ((Machine.fresh files).run tmp evs).servers[i]? = some .dead := by
  have hok := machine_ok tmp files evs hc
  generalize (Machine.fresh files).run tmp evs = m at hok ⊢
  have hlt : i < m.servers.length := by rw [hok.length]; exact (List.getElem?_eq_some_iff.1 hi).1
  have := hok.sinks i _ _ hi (List.getElem?_eq_getElem hlt)
  rw [List.getElem?_eq_getElem hlt]
  generalize m.servers[i] = s at this
  cases s with
  | file p o => cases this.2.1
  | dead => rfl
  | stdout x => exact absurd rfl this.1

/-- **C88.** Restarting a production server within a second destroys the log written so far. -/
theorem C88_log_lost (tmp : Str) (files : Str → Option Str) (t : Int64) (x : Str) :
    ((Machine.fresh files).run tmp [.start chars!"production" t true, .line 0 x,
      .start chars!"production" t true]).files (logPath tmp t) = some [] := by
  simp only [Machine.run, List.foldl_cons, List.foldl_nil, Machine.step]
  generalize Machine.log _ _ _ = m
  unfold Machine.setup
  dsimp only
  rw [if_pos (environment_production.2 rfl), environment_production.2 rfl, logFileName_eq]
  show (if logPath tmp t = logPath tmp t then some [] else _) = _
  rw [if_pos rfl]

/-- **C88.** The server listens on the port asked for, or on 4000; it is in production exactly if
`ECHO_ENV` says so. -/
theorem C88_port (port e : Str) :
    (port ≠ [] → listenAddress port = chars!":" ++ port) ∧ listenAddress [] = chars!":4000" ∧
    (environmentOf e = chars!"production" ↔ e = chars!"production") ∧ environmentOf [] = chars!"development" := by
  refine ⟨fun h => ?_, rfl, environment_production, rfl⟩
  unfold listenAddress getPort
  rw [if_neg h]

/-- Two servers side by side, started in different seconds: each has its own lines. -/
example (files : Str → Option Str) : let evs : List ServerEvent := [.start chars!"production" 100 true,
      .line 0 chars!"a\n", .start chars!"production" 101 true, .line 1 chars!"b\n", .line 0 chars!"c\n"]
    ((Machine.fresh files).run chars!"/tmp" evs).files chars!"/tmp/GoBCDiceAPI/production-100.log" =
      some chars!"a\nc\n" := by
  intro evs
  exact C88_log_kept chars!"/tmp" files evs (by simp [evs, Causal]) 0 100 rfl (by
    intro j hj
    match j with
    | 0 => exact absurd rfl hj
    | 1 => decide
    | j + 2 => simp [evs, startsOf])

end GoBCDice
