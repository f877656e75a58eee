import Verif.Lemmas.MemParseRun
import Verif.Lemmas.PigeonInv

/-! # The machine on memory against the machine on trees -/

namespace GoBCDice.Mem

open Pigeon (Sym PExpr PEnv PState PRes Action Pt slice Val Task)
open Raw (Heap Ref Ptr Obj Frame)

/-! ## Where actions stand -/

mutual
/-- No action in the expression. -/
def flat : PExpr → Bool
  | .action _ _ => false
  | .any => true
  | .charClass .. => true
  | .choice es => flats es
  | .labeled _ e => flat e
  | .lit .. => true
  | .not e => flat e
  | .oneOrMore e => flat e
  | .ruleRef _ => true
  | .seq es => flats es
  | .stateCode _ => true
  | .zeroOrMore e => flat e
  | .zeroOrOne e => flat e
/-- The same for lists. -/
def flats : List PExpr → Bool
  | [] => true
  | e :: es => flat e && flats es
end

/-- At most one action, at the top. -/
def topFlat : PExpr → Bool
  | .action _ e => flat e
  | e => flat e

set_option maxRecDepth 20000 in
theorem goGrammar_topFlat : ∀ r ∈ Pigeon.goGrammar, topFlat r.2 = true := by
  have : (Pigeon.goGrammar.all fun r => topFlat r.2) = true := by decide
  exact fun r hr => List.all_eq_true.1 this r hr

/-- The task is without actions, or an action with no labels yet. -/
def TaskOk : Task → List Ref → Prop
  | .expr (.action _ e), f0 => flat e = true ∧ f0 = []
  | .expr e, _ => flat e = true
  | .alts es, _ => flats es = true
  | .seq es _ _ _, _ => flats es = true
  | .many e _ _, _ => flat e = true

theorem TaskOk.of_flat {e : PExpr} (h : flat e = true) (f0 : List Ref) : TaskOk (.expr e) f0 := by
  cases e <;> first | exact h | cases h

theorem TaskOk.of_top {e : PExpr} (h : topFlat e = true) : TaskOk (.expr e) [] := by
  cases e <;> first | exact h | exact ⟨h, rfl⟩

/-- The values collected by a task are in memory. -/
inductive TaskRel (h : Heap) : Task → MTask → List Ref → Prop
  | expr {e} : TaskRel h (.expr e) (.expr e) []
  | alts {es} : TaskRel h (.alts es) (.alts es) []
  | seq {es vals mvals pt rc fv} : RepVals h vals mvals fv →
      TaskRel h (.seq es vals pt rc) (.seq es mvals pt rc) fv
  | many {e vals mvals one fv} : RepVals h vals mvals fv →
      TaskRel h (.many e vals one) (.many e mvals one) fv

/-- The outcome on memory is the outcome on trees: the value has nodes of its own, apart from those
in `fv`, and so have the current labels, apart from those in `f0`; memory has only grown. -/
def Post (h : Heap) (f0 fv : List Ref) (T : List Pigeon.Frame) (MT : List MFrame) (v : Val) (ok : Bool)
    (st' : PState) (mr : Option MRes) : Prop :=
  ∃ m h' c' F' M' f' fr, mr = some (.ret m ok ⟨c', M' :: MT, h'⟩) ∧ st' = withV c' (F' :: T) ∧
    RepVal h' v m fr ∧ fr.Nodup ∧ (∀ x ∈ fr, x ∈ fv ∨ h.length ≤ x) ∧
    RepFrame h' F' M' f' ∧ f'.Nodup ∧ (∀ x ∈ f', x ∈ f0 ∨ h.length ≤ x) ∧ Frame h [] h'

theorem andThen_ret {r : Option PRes} {k : Val → Bool → PState → Option PRes} {x : PRes}
    (h : PRes.andThen r k = some x) (hx : ∃ v ok st, x = .ret v ok st) :
    ∃ v1 ok1 st1, r = some (.ret v1 ok1 st1) ∧ k v1 ok1 st1 = some x := by
  obtain ⟨v, ok, st, rfl⟩ := hx
  cases r with
  | none => cases h
  | some r =>
    cases r with
    | panic m s => cases h
    | ret v1 ok1 st1 => exact ⟨v1, ok1, st1, rfl, h⟩

theorem mandThen_ret {v : MVal} {ok : Bool} {st : MState} (k : MVal → Bool → MState → Option MRes) :
    MRes.andThen (some (.ret v ok st)) k = k v ok st := rfl

/-- A matcher. -/
theorem leaf_post {r : PRes} {v : Val} {ok : Bool} {st' : PState} {F T M MT h f0 fv}
    {c : PState} (hv : ∀ v ok st, r = .ret v ok st → v = .nil ∨ ∃ s, v = .bytes s)
    (he : resV (F :: T) r = .ret v ok st') (hF : RepFrame h F M f0) (hn : f0.Nodup) :
    Post h f0 fv T MT v ok st' (some (MState.leaf ⟨c, M :: MT, h⟩ r)) := by
  cases r with
  | panic m st => cases he
  | ret v1 ok1 st1 =>
    cases he
    refine ⟨leafVal v, h, st1, F, M, f0, [], rfl, rfl, ?_, by simp, by simp, hF, hn,
      fun x hx => .inl hx, Frame.refl _ _⟩
    rcases hv _ _ _ rfl with h1 | ⟨s, h1⟩
    · subst h1; exact .nil
    · subst h1; exact .bytes

theorem any_val {env : PEnv} {c : PState} (v ok st) (h : Pigeon.parseAny env c = .ret v ok st) :
    v = .nil ∨ ∃ s, v = .bytes s := by
  unfold Pigeon.parseAny at h
  split at h
  · cases h; exact .inl rfl
  · cases h; exact .inr ⟨_, rfl⟩

theorem class_val {env : PEnv} {val chars ranges classes ic inv} {c : PState} (v ok st)
    (h : Pigeon.parseCharClass env val chars ranges classes ic inv c = .ret v ok st) :
    v = .nil ∨ ∃ s, v = .bytes s := by
  unfold Pigeon.parseCharClass at h
  split at h
  · cases h; exact .inl rfl
  · simp only at h
    split at h
    all_goals split at h
    all_goals first | (cases h; exact .inl rfl) | (cases h; exact .inr ⟨_, rfl⟩)

theorem lit_val {env : PEnv} {val ic} {c : PState} (v ok st)
    (h : Pigeon.parseLit env val ic c = .ret v ok st) : v = .nil ∨ ∃ s, v = .bytes s := by
  unfold Pigeon.parseLit at h
  split at h
  · cases h; exact .inl rfl
  · cases h; exact .inr ⟨_, rfl⟩

theorem stateCode_val {a} {c : PState} (v ok st) (h : Pigeon.parseStateCode a c = .ret v ok st) :
    v = .nil ∨ ∃ s, v = .bytes s := by
  cases a with
  | onResetRandCount1 => cases h; exact .inl rfl
  | onIncRandCount1 =>
    unfold Pigeon.parseStateCode at h
    simp only at h
    split at h
    · cases h
    · cases h; exact .inl rfl

theorem nodup_fresh {h : Heap} {f g : List Ref} (hf : f.Nodup) (hg : g.Nodup)
    (h1 : ∀ x ∈ f, x < h.length) (h2 : ∀ x ∈ g, h.length ≤ x) : (f ++ g).Nodup :=
  List.nodup_append.mpr ⟨hf, hg, fun x hx y hy hxy =>
    absurd (h1 x hx) (Nat.not_lt.mpr (hxy ▸ h2 y hy))⟩

theorem run_sim {env : PEnv} {nilInstance : Ref} (hg : ∀ r ∈ env.rules, topFlat r.2 = true) (n : Nat) :
    ∀ (t : Task) (mt : MTask) (c : PState) (F : Pigeon.Frame) (T : List Pigeon.Frame) (M : MFrame)
      (MT : List MFrame) (h : Heap) (f0 fv : List Ref) (v : Val) (ok : Bool) (st' : PState),
      Pigeon.run env n t (withV c (F :: T)) = some (.ret v ok st') → TaskRel h t mt fv → fv.Nodup →
      TaskOk t f0 → RepFrame h F M f0 → f0.Nodup → h[nilInstance]? = some .nilNode →
      Post h f0 fv T MT v ok st' (run env nilInstance n mt ⟨c, M :: MT, h⟩) := by
  induction n with
  | zero => intro t mt c F T M MT h f0 fv v ok st' hrun; simp [Pigeon.run] at hrun
  | succ n ih =>
    intro t mt c F T M MT h f0 fv v ok st' hrun ht hnv hok hF hn hnil
    -- a call with new labels
    have push : ∀ (e : PExpr) (c1 : PState) (v1 : Val) (ok1 : Bool) (st1 : PState),
        topFlat e = true →
        Pigeon.run env n (.expr e) (withV c1 ([] :: F :: T)) = some (.ret v1 ok1 st1) →
        ∃ m h' c' F' M' fr, run env nilInstance n (.expr e) ⟨c1, [] :: M :: MT, h⟩ =
          some (.ret m ok1 ⟨c', M' :: M :: MT, h'⟩) ∧ st1 = withV c' (F' :: F :: T) ∧
          RepVal h' v1 m fr ∧ fr.Nodup ∧ (∀ x ∈ fr, h.length ≤ x) ∧ Frame h [] h' := by
      intro e c1 v1 ok1 st1 he h1
      obtain ⟨m, h', c', F', M', f', fr, g1, g2, g3, g4, g5, -, -, -, g9⟩ :=
        ih (.expr e) (.expr e) c1 [] (F :: T) [] (M :: MT) h [] [] v1 ok1 st1 h1 .expr (by simp)
          (TaskOk.of_top he) .nil (by simp) hnil
      exact ⟨m, h', c', F', M', fr, g1, g2, g3, g4, fun x hx => (g5 x hx).resolve_left (by simp), g9⟩
    have top : ∀ {e}, flat e = true → topFlat e = true := by
      intro e he; cases e <;> first | exact he | cases he
    have nilAt : ∀ {h'}, Frame h [] h' → h'[nilInstance]? = some .nilNode :=
      fun hf => Raw.parent_kept hf hnil (by simp)
    cases ht with
    | alts =>
      rename_i es
      cases es with
      | nil =>
        simp only [Pigeon.run] at hrun
        cases hrun
        exact ⟨.nil, h, c, F, M, f0, [], rfl, rfl, .nil, by simp, by simp, hF, hn, fun x hx => .inl hx,
          Frame.refl _ _⟩
      | cons e es =>
        have hfl : flat e = true ∧ flats es = true := by
          have : flats (e :: es) = true := hok
          rwa [flats, Bool.and_eq_true] at this
        simp only [Pigeon.run] at hrun
        obtain ⟨v1, ok1, st1, h1, h2⟩ := andThen_ret hrun ⟨_, _, _, rfl⟩
        obtain ⟨m, h', c', F', M', fr, g1, g2, g3, g4, g5, g6⟩ := push e c v1 ok1 st1 (top hfl.1) h1
        subst g2
        have e1 : run env nilInstance (n + 1) (.alts (e :: es)) ⟨c, M :: MT, h⟩ =
            if ok1 then some (.ret m true ⟨c', M :: MT, h'⟩)
            else run env nilInstance n (.alts es) ⟨{ c' with randCount := c.randCount }, M :: MT, h'⟩ := by
          rw [run]
          simp only [MState.pushV]
          rw [g1, mandThen_ret]
          rfl
        rw [e1]
        cases ok1 with
        | true =>
          cases h2
          exact ⟨m, h', c', F, M, f0, fr, rfl, rfl, g3, g4, fun x hx => .inr (g5 x hx), hF.frame0 g6, hn,
            fun x hx => .inl hx, g6⟩
        | false =>
          obtain ⟨m', h'', c'', F'', M'', f'', fr'', k1, k2, k3, k4, k5, k6, k7, k8, k9⟩ :=
            ih (.alts es) (.alts es) { c' with randCount := c.randCount } F T M MT h' f0 [] v ok st' h2
              .alts (by simp) hfl.2 (hF.frame0 g6) hn (nilAt g6)
          exact ⟨m', h'', c'', F'', M'', f'', fr'', k1, k2, k3, k4,
            fun x hx => (k5 x hx).imp id (Nat.le_trans g6.1), k6, k7,
            fun x hx => (k8 x hx).imp id (Nat.le_trans g6.1), g6.trans k9 (by simp)⟩
    | @seq es vals mvals pt rc fv hvals =>
      cases es with
      | nil =>
        simp only [Pigeon.run] at hrun
        cases hrun
        exact ⟨.list mvals, h, c, F, M, f0, fv, rfl, rfl, .list hvals, hnv, fun x hx => .inl hx, hF, hn,
          fun x hx => .inl hx, Frame.refl _ _⟩
      | cons e es =>
        have hfl : flat e = true ∧ flats es = true := by
          have : flats (e :: es) = true := hok
          rwa [flats, Bool.and_eq_true] at this
        simp only [Pigeon.run] at hrun
        obtain ⟨v1, ok1, st1, h1, h2⟩ := andThen_ret hrun ⟨_, _, _, rfl⟩
        obtain ⟨m, h', c', F', M', f', fr, g1, g2, g3, g4, g5, g6, g7, g8, g9⟩ :=
          ih (.expr e) (.expr e) c F T M MT h f0 [] v1 ok1 st1 h1 .expr (by simp)
            (TaskOk.of_flat hfl.1 f0) hF hn hnil
        subst g2
        have hfr : ∀ x ∈ fr, h.length ≤ x := fun x hx => (g5 x hx).resolve_left (by simp)
        have e1 : run env nilInstance (n + 1) (.seq (e :: es) mvals pt rc) ⟨c, M :: MT, h⟩ =
            if ok1 then run env nilInstance n (.seq es (mvals ++ [m]) pt rc) ⟨c', M' :: MT, h'⟩
            else some (.ret .nil false ⟨{ c' with randCount := rc }.restore pt, M' :: MT, h'⟩) := by
          rw [run, g1, mandThen_ret]
          rfl
        rw [e1]
        cases ok1 with
        | true =>
          obtain ⟨m', h'', c'', F'', M'', f'', fr'', k1, k2, k3, k4, k5, k6, k7, k8, k9⟩ :=
            ih (.seq es (vals ++ [v1]) pt rc) (.seq es (mvals ++ [m]) pt rc) c' F' T M' MT h' f'
              (fv ++ fr) v ok st' h2 (.seq ((hvals.frame0 g9).snoc g3))
              (nodup_fresh hnv g4 hvals.lt hfr) hfl.2 g6 g7 (nilAt g9)
          refine ⟨m', h'', c'', F'', M'', f'', fr'', k1, k2, k3, k4, fun x hx => ?_, k6, k7,
            fun x hx => ?_, g9.trans k9 (by simp)⟩
          · rcases k5 x hx with h3 | h3
            · exact (List.mem_append.mp h3).imp id (hfr x)
            · exact .inr (Nat.le_trans g9.1 h3)
          · rcases k8 x hx with h3 | h3
            · exact g8 x h3
            · exact .inr (Nat.le_trans g9.1 h3)
        | false =>
          have h2' : some (PRes.ret .nil false
              ((withV { c' with randCount := rc } (F' :: T)).restore pt)) = some (.ret v ok st') := h2
          rw [restore_withV] at h2'
          cases h2'
          exact ⟨.nil, h', _, F', M', f', [], rfl, rfl, .nil, by simp, by simp, g6, g7, g8, g9⟩
    | @many e vals mvals one fv hvals =>
      have hfl : flat e = true := hok
      simp only [Pigeon.run] at hrun
      obtain ⟨v1, ok1, st1, h1, h2⟩ := andThen_ret hrun ⟨_, _, _, rfl⟩
      obtain ⟨m, h', c', F', M', fr, g1, g2, g3, g4, g5, g6⟩ := push e c v1 ok1 st1 (top hfl) h1
      subst g2
      have hemp : mvals.isEmpty = vals.isEmpty := by cases hvals <;> rfl
      have e1 : run env nilInstance (n + 1) (.many e mvals one) ⟨c, M :: MT, h⟩ =
          if ok1 then run env nilInstance n (.many e (mvals ++ [m]) one) ⟨c', M :: MT, h'⟩
          else if one && mvals.isEmpty then some (.ret .nil false ⟨c', M :: MT, h'⟩)
          else some (.ret (.list mvals) true ⟨c', M :: MT, h'⟩) := by
        rw [run]
        simp only [MState.pushV]
        rw [g1, mandThen_ret]
        rfl
      rw [e1]
      cases ok1 with
      | true =>
        obtain ⟨m', h'', c'', F'', M'', f'', fr'', k1, k2, k3, k4, k5, k6, k7, k8, k9⟩ :=
          ih (.many e (vals ++ [v1]) one) (.many e (mvals ++ [m]) one) c' F T M MT h' f0
            (fv ++ fr) v ok st' h2 (.many ((hvals.frame0 g6).snoc g3))
            (nodup_fresh hnv g4 hvals.lt g5) hfl (hF.frame0 g6) hn (nilAt g6)
        refine ⟨m', h'', c'', F'', M'', f'', fr'', k1, k2, k3, k4, fun x hx => ?_, k6, k7,
          fun x hx => (k8 x hx).imp id (Nat.le_trans g6.1), g6.trans k9 (by simp)⟩
        rcases k5 x hx with h3 | h3
        · exact (List.mem_append.mp h3).imp id (g5 x)
        · exact .inr (Nat.le_trans g6.1 h3)
      | false =>
        have h2' : (if one && vals.isEmpty then some (PRes.ret .nil false (withV c' (F :: T)))
          else some (.ret (.list vals) true (withV c' (F :: T)))) = some (.ret v ok st') := h2
        rw [hemp]
        simp only [Bool.false_eq_true, if_false]
        by_cases hb : (one && vals.isEmpty) = true
        · rw [if_pos hb] at h2' ⊢
          cases h2'
          exact ⟨.nil, h', c', F, M, f0, [], rfl, rfl, .nil, by simp, by simp, hF.frame0 g6, hn,
            fun x hx => .inl hx, g6⟩
        · rw [if_neg hb] at h2' ⊢
          cases h2'
          exact ⟨.list mvals, h', c', F, M, f0, fv, rfl, rfl, .list (hvals.frame0 g6), hnv,
            fun x hx => .inl hx, hF.frame0 g6, hn, fun x hx => .inl hx, g6⟩
    | @expr e =>
      cases e with
      | any =>
        simp only [Pigeon.run, Option.some.injEq] at hrun
        rw [show (withV c (F :: T)).tick = withV c.tick (F :: T) from rfl, parseAny_withV] at hrun
        exact leaf_post any_val hrun hF hn
      | charClass val chars ranges classes ic inv =>
        simp only [Pigeon.run, Option.some.injEq] at hrun
        rw [show (withV c (F :: T)).tick = withV c.tick (F :: T) from rfl, parseCharClass_withV] at hrun
        exact leaf_post class_val hrun hF hn
      | lit val ic =>
        simp only [Pigeon.run, Option.some.injEq] at hrun
        rw [show (withV c (F :: T)).tick = withV c.tick (F :: T) from rfl, parseLit_withV] at hrun
        exact leaf_post lit_val hrun hF hn
      | stateCode a =>
        simp only [Pigeon.run, Option.some.injEq] at hrun
        rw [show (withV c (F :: T)).tick = withV c.tick (F :: T) from rfl, parseStateCode_withV] at hrun
        exact leaf_post stateCode_val hrun hF hn
      | choice es =>
        simp only [Pigeon.run] at hrun
        exact ih (.alts es) (.alts es) c.tick F T M MT h f0 [] v ok st' hrun .alts (by simp) hok hF hn hnil
      | seq es =>
        simp only [Pigeon.run] at hrun
        exact ih (.seq es [] c.pt c.randCount) (.seq es [] c.pt c.randCount) c.tick F T M MT h f0 [] v ok
          st' hrun (.seq .nil) (by simp) hok hF hn hnil
      | oneOrMore e =>
        simp only [Pigeon.run] at hrun
        exact ih (.many e [] true) (.many e [] true) c.tick F T M MT h f0 [] v ok
          st' hrun (.many .nil) (by simp) hok hF hn hnil
      | zeroOrMore e =>
        simp only [Pigeon.run] at hrun
        exact ih (.many e [] false) (.many e [] false) c.tick F T M MT h f0 [] v ok
          st' hrun (.many .nil) (by simp) hok hF hn hnil
      | zeroOrOne e =>
        simp only [Pigeon.run] at hrun
        obtain ⟨v1, ok1, st1, h1, h2⟩ := andThen_ret hrun ⟨_, _, _, rfl⟩
        obtain ⟨m, h', c', F', M', fr, g1, g2, g3, g4, g5, g6⟩ :=
          push e c.tick v1 ok1 st1 (top hok) h1
        subst g2
        have e1 : run env nilInstance (n + 1) (.expr (.zeroOrOne e)) ⟨c, M :: MT, h⟩ =
            some (.ret m true ⟨c', M :: MT, h'⟩) := by
          rw [run]
          simp only [MState.pushV, MState.onCore]
          rw [g1, mandThen_ret]
          rfl
        rw [e1]
        cases h2
        exact ⟨m, h', c', F, M, f0, fr, rfl, rfl, g3, g4, fun x hx => .inr (g5 x hx), hF.frame0 g6, hn,
          fun x hx => .inl hx, g6⟩
      | not e =>
        simp only [Pigeon.run] at hrun
        obtain ⟨v1, ok1, st1, h1, h2⟩ := andThen_ret hrun ⟨_, _, _, rfl⟩
        obtain ⟨m, h', c', F', M', fr, g1, g2, g3, g4, g5, g6⟩ :=
          push e { c.tick with invert := !c.invert } v1 ok1 st1 (top hok) h1
        subst g2
        have e1 : run env nilInstance (n + 1) (.expr (.not e)) ⟨c, M :: MT, h⟩ =
            some (.ret .nil (!ok1) ⟨PState.restore { c' with
              invert := !c'.invert, randCount := c.randCount } c.pt, M :: MT, h'⟩) := by
          rw [run]
          simp only [MState.pushV, MState.onCore]
          rw [g1, mandThen_ret]
          rfl
        rw [e1]
        have h2' : some (PRes.ret .nil (!ok1) ((withV { c' with
          invert := !c'.invert, randCount := c.randCount } (F :: T)).restore c.pt)) =
            some (.ret v ok st') := h2
        rw [restore_withV] at h2'
        cases h2'
        exact ⟨.nil, h', _, F, M, f0, [], rfl, rfl, .nil, by simp, by simp, hF.frame0 g6, hn,
          fun x hx => .inl hx, g6⟩
      | ruleRef name =>
        simp only [Pigeon.run] at hrun
        rw [run]
        cases hl : env.rules.lookup name with
        | none =>
          rw [hl] at hrun
          cases hrun
          exact ⟨.nil, h, _, F, M, f0, [], rfl, rfl, .nil, by simp, by simp, hF, hn, fun x hx => .inl hx,
            Frame.refl _ _⟩
        | some e =>
          rw [hl] at hrun
          simp only at hrun ⊢
          obtain ⟨v1, ok1, st1, h1, h2⟩ := andThen_ret hrun ⟨_, _, _, rfl⟩
          obtain ⟨m, h', c', F', M', fr, g1, g2, g3, g4, g5, g6⟩ :=
            push e { c.tick with rstack := name :: c.rstack } v1 ok1 st1 (hg _ (Pigeon.lookup_mem hl)) h1
          subst g2
          simp only [MState.pushV, MState.onCore]
          have g1' := g1
          rw [show (({ c.tick with rstack := name :: c.rstack } : PState)) =
            { c.tick with rstack := name :: c.rstack } from rfl] at g1'
          rw [g1', mandThen_ret]
          cases h2
          exact ⟨m, h', { c' with rstack := c'.rstack.tail }, F, M, f0, fr, rfl, rfl, g3, g4,
            fun x hx => .inr (g5 x hx), hF.frame0 g6, hn, fun x hx => .inl hx, g6⟩
      | labeled label e =>
        simp only [Pigeon.run] at hrun
        obtain ⟨v1, ok1, st1, h1, h2⟩ := andThen_ret hrun ⟨_, _, _, rfl⟩
        obtain ⟨m, h', c', F', M', fr, g1, g2, g3, g4, g5, g6⟩ :=
          push e c.tick v1 ok1 st1 (top hok) h1
        subst g2
        have e1 : run env nilInstance (n + 1) (.expr (.labeled label e)) ⟨c, M :: MT, h⟩ =
            if ok1 && decide (label ≠ []) then
              some (.ret m ok1 ⟨c', ((label, m) :: M) :: MT, h'⟩)
            else some (.ret m ok1 ⟨c', M :: MT, h'⟩) := by
          rw [run]
          simp only [MState.pushV, MState.onCore]
          rw [g1, mandThen_ret]
          rfl
        rw [e1]
        have h2' : (if ok1 && decide (label ≠ []) then
            some (PRes.ret v1 ok1 (withV c' (((label, v1) :: F) :: T)))
          else some (.ret v1 ok1 (withV c' (F :: T)))) = some (.ret v ok st') := h2
        by_cases hb : (ok1 && decide (label ≠ [])) = true
        · rw [if_pos hb] at h2' ⊢
          cases h2'
          refine ⟨m, h', c', (label, v) :: F, (label, m) :: M, fr ++ f0, fr, rfl, rfl, g3, g4,
            fun x hx => .inr (g5 x hx), .cons g3 (hF.frame0 g6), ?_, fun x hx => ?_, g6⟩
          · exact nodup_swap (nodup_fresh hn g4 hF.lt g5)
          · exact (List.mem_append.mp hx).symm.imp id (g5 x)
        · rw [if_neg hb] at h2' ⊢
          cases h2'
          exact ⟨m, h', c', F, M, f0, fr, rfl, rfl, g3, g4, fun x hx => .inr (g5 x hx), hF.frame0 g6, hn,
            fun x hx => .inl hx, g6⟩
      | action a e =>
        obtain ⟨hfl, rfl⟩ := hok
        simp only [Pigeon.run] at hrun
        obtain ⟨v1, ok1, st1, h1, h2⟩ := andThen_ret hrun ⟨_, _, _, rfl⟩
        obtain ⟨m, h', c', F', M', f', fr, g1, g2, g3, g4, g5, g6, g7, g8, g9⟩ :=
          ih (.expr e) (.expr e) c.tick F T M MT h [] [] v1 ok1 st1 h1 .expr (by simp)
            (TaskOk.of_flat hfl []) hF hn hnil
        subst g2
        have e1 : run env nilInstance (n + 1) (.expr (.action a e)) ⟨c, M :: MT, h⟩ =
            if ok1 then
              match runAction nilInstance a M' (slice c.pt c'.pt) c'.randCount h' with
              | (.ok v, h2) => some (.ret v true ⟨c', M' :: MT, h2⟩)
              | (.err e, h2) => some (.ret .nil true ⟨c'.addErrAt env e c.pt.pos, M' :: MT, h2⟩)
              | (.panic e, h2) => some (.panic e ⟨c', M' :: MT, h2⟩)
            else some (.ret m false ⟨c', M' :: MT, h'⟩) := by
          rw [run]
          simp only [MState.onCore]
          rw [g1, mandThen_ret]
          rfl
        rw [e1]
        have h2' : (if ok1 then
            match Pigeon.runAction a F' (slice c.pt c'.pt) c'.randCount with
            | .ok v => some (PRes.ret v true (withV c' (F' :: T)))
            | .err m => some (.ret .nil true ((withV c' (F' :: T)).addErrAt env m c.pt.pos))
            | .panic m => some (.panic m (withV c' (F' :: T)))
          else some (.ret v1 false (withV c' (F' :: T)))) = some (.ret v ok st') := h2
        cases ok1 with
        | false =>
          cases h2'
          exact ⟨m, h', c', F', M', f', fr, rfl, rfl, g3, g4, g5, g6, g7, g8, g9⟩
        | true =>
          simp only [if_true] at h2' ⊢
          cases hact : Pigeon.runAction a F' (slice c.pt c'.pt) c'.randCount with
          | panic m => rw [hact] at h2'; cases h2'
          | err e =>
            rw [hact] at h2'
            cases h2'
            rw [runAction_err g6 hact]
            exact ⟨.nil, h', _, F', M', f', [], rfl, rfl, .nil, by simp, by simp, g6, g7, g8, g9⟩
          | ok w =>
            rw [hact] at h2'
            cases h2'
            obtain ⟨m2, h2, f2, k1, k2, k3, k4, k5⟩ := runAction_ok (nilAt g9) g6 g7 hact
            rw [k1]
            refine ⟨m2, h2, c', F', M', f', f2, rfl, rfl, k2, k3, fun x hx => .inr ?_, g6.frame0 k5, g7, g8,
              g9.trans k5 (by simp)⟩
            rcases k4 x hx with h3 | h3
            · exact (g8 x h3).resolve_left (by simp)
            · exact Nat.le_trans g9.1 h3

end GoBCDice.Mem
