import Verif.Lemmas.MemParseSim
import Verif.Props.PigeonCost
import Verif.Props.Raw

/-!
# C72: commands parsed into memory

`Mem.parse nil filename data h` is `parser.Parse(filename, data)` with memory `h`, in which `nil` is
the address of the one node of type `ast.Nil`; its result is the value or the text of the error, and
memory afterwards.  `Mem.executeBasicCommand` and `Mem.executeCommand` parse and execute in memory.
-/

namespace GoBCDice

open Pigeon (Sym Val)
open Raw (Heap Ref Ptr Obj RepNode Frame NotNil)

variable {σ : Type}

namespace Mem

theorem finish_withV (env : Pigeon.PEnv) (v : Val) (ok : Bool) (c : Pigeon.PState) (V : List Pigeon.Frame) :
    Pigeon.finish env (.ret v ok (withV c V)) =
      match Pigeon.finish env (.ret .nil ok c) with
      | .ok _ => .ok v
      | .error e => .error e := by
  unfold Pigeon.finish
  cases ok with
  | true =>
    simp only
    by_cases h : c.errs = []
    · rw [if_pos h, if_pos h]
    · rw [if_neg h, if_neg h]
  | false =>
    simp only
    split <;> rfl

/-- The result of the parser on memory. -/
theorem parse_sim {nilInstance : Ref} (filename : Str) (data : List Sym) {h : Heap}
    (hnil : h[nilInstance]? = some .nilNode) {v : Val} {ok : Bool} {st' : Pigeon.PState}
    (hrun : Pigeon.run ⟨filename, Pigeon.goGrammar, false⟩ (parseDepth data) (.expr (.ruleRef chars!"Command"))
      (Pigeon.initState ⟨filename, Pigeon.goGrammar, false⟩ data) = some (.ret v ok st')) :
    ∃ m h' fr, parse nilInstance filename data h =
        (match Pigeon.finish ⟨filename, Pigeon.goGrammar, false⟩ (.ret v ok st') with
          | .ok _ => .ok m
          | .error e => .error e, h') ∧
      RepVal h' v m fr ∧ fr.Nodup ∧ (∀ x ∈ fr, h.length ≤ x) ∧ Frame h [] h' := by
  have hv0 : (Pigeon.initState ⟨filename, Pigeon.goGrammar, false⟩ data).vstack = [] := by
    unfold Pigeon.initState Pigeon.PState.enter
    simp only
    split <;> rfl
  unfold parse
  simp only
  generalize hst : Pigeon.initState ⟨filename, Pigeon.goGrammar, false⟩ data = c at hrun hv0 ⊢
  generalize parseDepth data = n at hrun ⊢
  cases n with
  | zero => simp [Pigeon.run] at hrun
  | succ n =>
    simp only [Pigeon.run] at hrun
    rw [run]
    cases hl : List.lookup chars!"Command" Pigeon.goGrammar with
    | none => exact absurd hl (by decide)
    | some e =>
      rw [hl] at hrun
      simp only at hrun ⊢
      obtain ⟨v1, ok1, st1, h1, h2⟩ := andThen_ret hrun ⟨_, _, _, rfl⟩
      have he : c.tick.pushV = withV c.tick ([] :: []) := by
        unfold Pigeon.PState.pushV Pigeon.PState.tick
        simp only [hv0]
      rw [he] at h1
      obtain ⟨m, h', c', F', M', f', fr, g1, g2, g3, g4, g5, -, -, -, g9⟩ :=
        run_sim (nilInstance := nilInstance) goGrammar_topFlat n (.expr e) (.expr e)
          { c.tick with rstack := chars!"Command" :: c.rstack } [] [] [] [] h [] [] v1 ok1 st1 h1 .expr (by simp)
          (TaskOk.of_top (goGrammar_topFlat _ (Pigeon.lookup_mem hl))) .nil (by simp) hnil
      subst g2
      simp only [MState.pushV, MState.onCore]
      refine ⟨m, h', fr, ?_, ?_, g4, fun x hx => (g5 x hx).resolve_left (by simp), g9⟩
      · rw [g1, mandThen_ret]
        simp only [MState.popV]
        cases h2
        have hf := finish_withV ⟨filename, Pigeon.goGrammar, false⟩ v ok { c' with rstack := c'.rstack.tail } []
        rw [show ({ (withV c' [F']).popV with rstack := (withV c' [F']).rstack.tail } : Pigeon.PState) =
          withV { c' with rstack := c'.rstack.tail } [] from rfl, hf]
        cases Pigeon.finish ⟨filename, Pigeon.goGrammar, false⟩ (.ret .nil ok { c' with rstack := c'.rstack.tail }) <;>
          rfl
      · cases h2; exact g3

end Mem

/-! ## Height of parsed trees -/

theorem Der.height_le {nt : NT} {s : Str} {e : Expr} (h : Der nt s e) : e.height ≤ s.length := by
  induction h with
  | number hne =>
    rename_i ds _
    cases ds with
    | nil => exact absurd rfl hne
    | cons => simp [Expr.height]
  | _ =>
    try simp only [Expr.height, List.length_append, List.length_cons, List.length_nil] at *
    omega

theorem RollText.height_le {l : Char × Char} {s : Str} {r : Roll} (h : RollText l s r) :
    r.height ≤ s.length := by
  obtain ⟨a, b, c, rfl, -, ha, hb⟩ := h
  have := ha.height_le
  have := hb.height_le
  simp only [Roll.height, List.length_append, List.length_cons, List.length_nil]
  omega

theorem RollsText.height_le {l : Char × Char} {s : Str} {rs : List Roll} (h : RollsText l s rs) :
    rollsHeight rs ≤ s.length := by
  induction h with
  | one h =>
    have := h.height_le
    simp only [rollsHeight]
    omega
  | cons h _ ih =>
    have := h.height_le
    simp only [rollsHeight, List.length_append, List.length_cons, List.length_nil]
    omega

theorem RRollsText.height_le {l : Char × Char} {s : Str} {rl : RRollList} (h : RRollsText l s rl) :
    rl.height ≤ s.length + 2 := by
  obtain ⟨a, b, rfl, h1, h2⟩ := h
  have h3 := h1.height_le
  unfold RRollList.height
  have h4 : thresholdHeight rl.threshold ≤ b.length + 1 := by
    generalize rl.threshold = t at h2
    cases h2 with
    | absent => simp [thresholdHeight]
    | given h =>
      have := h.height_le
      simp only [thresholdHeight, List.length_append]
      omega
  simp only [List.length_append]
  omega

theorem URollText.height_le {s : Str} {u : URollExpr} (h : URollText s u) :
    u.height ≤ s.length + 3 := by
  obtain ⟨a, b, rfl, h1, h2⟩ := h
  have h3 := h1.height_le
  unfold URollExpr.height
  generalize u.bonus = bo at h2
  simp only [List.length_append]
  cases h2 with
  | absent => simp only; omega
  | plus h =>
    have := h.height_le
    simp only [bonusExpr, Expr.height, List.length_append, List.length_cons, List.length_nil]
    omega
  | minus h =>
    have := h.height_le
    simp only [bonusExpr, Expr.height, List.length_append, List.length_cons, List.length_nil]
    omega

/-- Trees of commands are not higher than their texts are long, but for a constant. -/
theorem CommandText.height_le {s : Str} {n : Node} (h : CommandText s n) : n.height ≤ s.length + 4 := by
  have hc : ∀ {t : Str} {op : CmpOp} {e : Expr}, CompareText t op e → e.height + 1 ≤ t.length := by
    intro t op e h
    cases h with
    | mk h =>
      have := h.height_le
      rw [List.length_append]
      have : 1 ≤ op.str.length := by cases op <;> decide
      omega
  cases h with
  | choice => simp only [Node.height]; omega
  | «calc» _ h =>
    have := h.height_le
    simp only [Node.height, List.length_append, List.length_cons, List.length_nil]; omega
  | bRollList h => have := h.height_le; simp only [Node.height]; omega
  | bRollComp h h2 =>
    have := h.height_le; have := hc h2; simp only [Node.height, List.length_append]; omega
  | rRollList h => have := h.height_le; simp only [Node.height]; omega
  | rRollComp h h2 =>
    have := h.height_le; have := hc h2; simp only [Node.height, List.length_append]; omega
  | uRollExpr h => have := h.height_le; simp only [Node.height]; omega
  | uRollComp h h2 =>
    have := h.height_le; have := hc h2; simp only [Node.height, List.length_append]; omega
  | dRollExpr h => have := h.height_le; simp only [Node.height]; omega
  | dRollComp h _ h2 =>
    have := h.height_le; have := hc h2; simp only [Node.height, List.length_append]; omega

/-! ## C72 -/

/-- **C72.**  `Parse` on memory, for any data: it fails exactly when, and with the text with which,
the parser on trees fails; what it returns otherwise is the address of the tree the other returns,
made of new nodes, none of which is shared; all nodes there were are left as they were. -/
theorem C72_parse (nilInstance : Ref) (filename : Str) (data : List Sym) (hd : Decoded data) (h : Heap)
    (hnil : h[nilInstance]? = some .nilNode) :
    let out := Mem.parse nilInstance filename data h
    (∀ e, Parses filename data (.error e) ↔ out.1 = .error e) ∧
    (∀ m, out.1 = .ok m → ∃ v n r fp, Parses filename data (.ok v) ∧ v.toNode = some n ∧
      m = .node r ∧ RepNode out.2 (some r) n fp ∧ fp.Nodup ∧ ∀ q ∈ fp, h.length ≤ q) ∧
    h.length ≤ out.2.length ∧ ∀ q, q < h.length → out.2[q]? = h[q]? := by
  simp only
  cases hrun : Pigeon.run ⟨filename, Pigeon.goGrammar, false⟩ (parseDepth data)
      (.expr (.ruleRef chars!"Command")) (Pigeon.initState ⟨filename, Pigeon.goGrammar, false⟩ data) with
  | none => exact absurd hrun (Pigeon.run_command_total filename data)
  | some x =>
    obtain ⟨v, ok, st', h1, -⟩ := Pigeon.top_run (env := ⟨filename, Pigeon.goGrammar, false⟩) rfl data hd
    have hx := Pigeon.Runs.unique ⟨_, hrun⟩ h1
    subst hx
    have hp : ∀ r, Parses filename data r ↔
        Pigeon.finish ⟨filename, Pigeon.goGrammar, false⟩ (.ret v ok st') = r := by
      intro r
      rw [goParse_iff]
      have hg : goParse filename data = Pigeon.finish ⟨filename, Pigeon.goGrammar, false⟩ (.ret v ok st') := by
        show (Option.map (Pigeon.finish ⟨filename, Pigeon.goGrammar, false⟩) (Pigeon.run
          ⟨filename, Pigeon.goGrammar, false⟩ (parseDepth data) (.expr (.ruleRef chars!"Command"))
            (Pigeon.initState ⟨filename, Pigeon.goGrammar, false⟩ data))).getD (.error []) = _
        rw [hrun]
        rfl
      rw [hg]
    obtain ⟨m, h', fr, g1, g2, g3, g4, g5⟩ := Mem.parse_sim (nilInstance := nilInstance) filename data hnil hrun
    rw [g1]
    have hval : ∀ w, Pigeon.finish ⟨filename, Pigeon.goGrammar, false⟩ (.ret v ok st') = .ok w → w = v := by
      intro w hw
      unfold Pigeon.finish at hw
      cases ok with
      | true => simp only at hw; split at hw <;> cases hw; rfl
      | false => cases hw
    refine ⟨?_, ?_, g5.1, fun q hq => g5.2 q hq (by simp)⟩
    · intro e
      rw [hp]
      cases hf : Pigeon.finish ⟨filename, Pigeon.goGrammar, false⟩ (.ret v ok st') with
      | error e' => simp
      | ok w => simp
    · intro m' hm
      cases hf : Pigeon.finish ⟨filename, Pigeon.goGrammar, false⟩ (.ret v ok st') with
      | error e' => rw [hf] at hm; cases hm
      | ok w =>
        rw [hf] at hm
        cases hm
        have hw := hval w hf
        subst hw
        obtain ⟨n, hn, -⟩ := C64_sound filename data hd w ((hp _).2 hf)
        have hrep : ∃ r, m = .node r ∧ RepNode h' (some r) n fr := by
          cases w with
          | node n' =>
            cases hn
            exact g2.node_ref
          | rRollList k rl =>
            cases k with
            | r =>
              cases hn
              cases g2 with
              | rRollList hs => exact ⟨_, rfl, .rRollList hs⟩
            | b => cases hn
            | u => cases hn
          | _ => cases hn
        obtain ⟨r, hr, hrep⟩ := hrep
        exact ⟨w, n, r, fr, (hp _).2 hf, hn, hr, hrep, g3, g4⟩

/-- **C72.**  The same for texts, in the terms of the grammar: exactly the texts of commands are
accepted, and memory then holds the tree the grammar says. -/
theorem C72_text (nilInstance : Ref) (filename s : Str) (h : Heap)
    (hnil : h[nilInstance]? = some .nilNode) :
    let out := Mem.parse nilInstance filename (utf8 s) h
    (∀ n, CommandText s n → ∃ r fp, out.1 = .ok (.node r) ∧ RepNode out.2 (some r) n fp ∧ fp.Nodup ∧
      ∀ q ∈ fp, h.length ≤ q) ∧
    ((∀ n, ¬ CommandText s n) → out.1 = .error (parseErrorText filename s)) := by
  obtain ⟨h1, h2, -⟩ := C72_parse nilInstance filename (utf8 s) (Pigeon.decoded_utf8 s) h hnil
  simp only at h1 h2 ⊢
  constructor
  · intro n hn
    obtain ⟨v, hv, hvn⟩ := (C64_language filename s n).2 hn
    cases ho : (Mem.parse nilInstance filename (utf8 s) h).1 with
    | error e =>
      have := (h1 e).2 ho
      cases this.unique hv
    | ok m =>
      obtain ⟨v', n', r, fp, q1, q2, q3, q4, q5, q6⟩ := h2 m ho
      cases q1.unique hv
      rw [hvn] at q2
      cases q2
      exact ⟨r, fp, by rw [q3], q4, q5, q6⟩
  · intro hn
    have hp : parse s = none := by
      cases hp : parse s with
      | none => rfl
      | some n => exact absurd ((parse_iff s n).1 hp) (hn n)
    exact (h1 _).1 (parses_error filename s hp)

namespace Raw

theorem RepThreshold.not_nil {h p t fp} (hr : RepThreshold h p t fp) : NotNil h fp := by
  cases hr with
  | none => simp [NotNil]
  | some hs => exact hs.not_nil

theorem RepURollExpr.not_nil {h p u fp} (hr : RepURollExpr h p u fp) : NotNil h fp := by
  cases hr with
  | mk hx hl hb =>
    intro x hm
    simp only [List.mem_cons, List.mem_append] at hm
    rcases hm with rfl | hm | hm
    · rw [hx]; simp
    · exact hl.not_nil x hm
    · cases hb with
      | none => cases hm
      | some hs => exact hs.not_nil x hm

theorem RepItems.not_nil {h ps items fp} (hr : RepItems h ps items fp) : NotNil h fp := by
  induction hr with
  | nil => simp [NotNil]
  | cons hx _ ih =>
    intro x hm
    rcases List.mem_cons.mp hm with rfl | hm
    · rw [hx]; simp
    · exact ih x hm

/-- No node of a command is the node `Nil`. -/
theorem RepNode.not_nil {h p n fp} (hr : RepNode h p n fp) : NotNil h fp := by
  intro x hm
  cases hr with
  | choice hx hs =>
    rcases List.mem_cons.mp hm with rfl | hm
    · rw [hx]; simp
    · exact hs.not_nil x hm
  | «calc» hx hs =>
    rcases List.mem_cons.mp hm with rfl | hm
    · rw [hx]; simp
    · exact hs.not_nil x hm
  | dRollExpr hx hs =>
    rcases List.mem_cons.mp hm with rfl | hm
    · rw [hx]; simp
    · exact hs.not_nil x hm
  | bRollList hx hs =>
    rcases List.mem_cons.mp hm with rfl | hm
    · rw [hx]; simp
    · exact hs.not_nil x hm
  | dRollComp hx hc hl hr =>
    simp only [List.mem_cons, List.mem_append] at hm
    rcases hm with rfl | rfl | hm | hm
    · rw [hx]; simp
    · rw [hc]; simp
    · exact hl.not_nil x hm
    · exact hr.not_nil x hm
  | rRollComp hx hc hl hr =>
    simp only [List.mem_cons, List.mem_append] at hm
    rcases hm with rfl | rfl | hm | hm
    · rw [hx]; simp
    · rw [hc]; simp
    · exact hl.not_nil x hm
    · exact hr.not_nil x hm
  | uRollComp hx hc hl hr =>
    simp only [List.mem_cons, List.mem_append] at hm
    rcases hm with rfl | rfl | hm | hm
    · rw [hx]; simp
    · rw [hc]; simp
    · exact hl.not_nil x hm
    · exact hr.not_nil x hm
  | bRollComp hx hc hq hl hr =>
    simp only [List.mem_cons, List.mem_append] at hm
    rcases hm with rfl | rfl | rfl | hm | hm
    · rw [hx]; simp
    · rw [hc]; simp
    · rw [hq]; simp
    · exact hl.not_nil x hm
    · exact hr.not_nil x hm
  | rRollList hs => exact hs.not_nil x hm
  | uRollExpr hs => exact hs.not_nil x hm

end Raw

/-- Executing touches no node of another command. -/
theorem execute_keeps_other (isPrint : Char → Bool) (E : Evaluator σ) (g : Str) {h : Heap} {p q : Ptr}
    {n m : Node} {fp fq : List Ref} (hr : RepNode h p n fp) (hn : fp.Nodup) {d : Nat}
    (hd : n.height ≤ d) (s : St σ) (hq : RepNode h q m fq) (hdis : ∀ x ∈ fq, x ∉ fp) :
    RepNode (Raw.execute isPrint E d g p ⟨s, h⟩).2.heap q m fq := by
  have hs := Raw.execute_sim isPrint E (g := g) (s := s) hr hn hd
  exact hq.frame hs.2.1 hdis hr.not_nil

/-- **C72.**  Two trees parsed one after the other, from the same text or not, have no node in common:
executing the first, with whatever outcome, leaves the second the tree of its text, without sharing,
and so its execution is what execution on trees says; and conversely. -/
theorem C72_independent (isPrint : Char → Bool) (nilInstance : Ref) (filename s1 s2 : Str) (h : Heap)
    (hnil : h[nilInstance]? = some .nilNode) {n1 n2 : Node} (h1 : CommandText s1 n1)
    (h2 : CommandText s2 n2) :
    let out1 := Mem.parse nilInstance filename (utf8 s1) h
    let out2 := Mem.parse nilInstance filename (utf8 s2) out1.2
    ∃ r1 r2, out1.1 = .ok (.node r1) ∧ out2.1 = .ok (.node r2) ∧
      (∀ (E : Evaluator σ) (g g' : Str) (d : Nat) (s t : St σ), s1.length + 4 ≤ d → s2.length + 4 ≤ d →
        (let S := (Raw.execute isPrint E d g (some r1) ⟨s, out2.2⟩).2
         let run := Raw.execute isPrint E d g' (some r2) ⟨t, S.heap⟩
         (run.1, run.2.st) = E.execute g' n2 t) ∧
        (let S := (Raw.execute isPrint E d g' (some r2) ⟨t, out2.2⟩).2
         let run := Raw.execute isPrint E d g (some r1) ⟨s, S.heap⟩
         (run.1, run.2.st) = E.execute g n1 s)) := by
  simp only
  obtain ⟨r1, f1, a1, a2, a3, a4⟩ := (C72_text nilInstance filename s1 h hnil).1 n1 h1
  obtain ⟨-, -, b1, b2⟩ := C72_parse nilInstance filename (utf8 s1) (Pigeon.decoded_utf8 s1) h hnil
  have hlt : nilInstance < h.length := Raw.lt_of_get hnil
  have hnil' : (Mem.parse nilInstance filename (utf8 s1) h).2[nilInstance]? = some .nilNode := by
    rw [b2 _ hlt]; exact hnil
  obtain ⟨r2, f2, c1, c2, c3, c4⟩ := (C72_text nilInstance filename s2 _ hnil').1 n2 h2
  obtain ⟨-, -, d1, d2⟩ := C72_parse nilInstance filename (utf8 s2) (Pigeon.decoded_utf8 s2) _ hnil'
  have a2' := a2.frame0 ⟨d1, fun q hq _ => d2 q hq⟩
  have hdis : ∀ x ∈ f2, x ∉ f1 := fun x hx hm => Nat.not_lt.mpr (c4 x hx) (a2.lt x hm)
  refine ⟨r1, r2, a1, c1, ?_⟩
  intro E g g' d s t hd1 hd2
  have e1 := Nat.le_trans h1.height_le hd1
  have e2 := Nat.le_trans h2.height_le hd2
  exact ⟨(C68_execute isPrint E g' (execute_keeps_other isPrint E g a2' a3 e1 s c2 hdis) c3 e2 t).1,
    (C68_execute isPrint E g (execute_keeps_other isPrint E g' c2 c3 e2 t a2'
      (fun x hx hm => hdis x hm hx)) a3 e1 s).1⟩

/-- **C72.**  A basic command parsed and executed in memory, with as much room for nested calls as its
text is long (and four more): outcome and feeder are those of `executeBasicCommand`, to which the
other theorems apply, and no node there was is touched. -/
theorem C72_basic (isPrint : Char → Bool) (nilInstance : Ref) (F : DieFeeder σ) (gameID c : Str) (f : σ)
    (h : Heap) (hnil : h[nilInstance]? = some .nilNode) {d : Nat} (hd : c.length + 4 ≤ d) :
    let out := Mem.executeBasicCommand isPrint d nilInstance F gameID c f h
    (out.1, out.2.1) = executeBasicCommand F gameID c f ∧
    h.length ≤ out.2.2.length ∧ ∀ q, q < h.length → out.2.2[q]? = h[q]? := by
  simp only
  obtain ⟨a1, a2⟩ := C72_text nilInstance chars!"input" c h hnil
  obtain ⟨-, -, b1, b2⟩ := C72_parse nilInstance chars!"input" (utf8 c) (Pigeon.decoded_utf8 c) h hnil
  unfold Mem.executeBasicCommand executeBasicCommand
  rw [show c.map Sym.ofChar = utf8 c from rfl]
  generalize hp : Mem.parse nilInstance chars!"input" (utf8 c) h = out at a1 a2 b1 b2 ⊢
  obtain ⟨o, h'⟩ := out
  simp only at a1 a2 b1 b2 ⊢
  cases hparse : parse c with
  | none =>
    have := a2 (fun n hn => by
      have := (parse_iff c n).2 hn
      rw [hparse] at this
      cases this)
    subst this
    exact ⟨rfl, b1, b2⟩
  | some n =>
    have hn := (parse_iff c n).1 hparse
    obtain ⟨r, fp, q1, q2, q3, q4⟩ := a1 n hn
    subst q1
    simp only [Mem.MVal.ptr]
    have hs := Raw.execute_sim isPrint (newEvaluator F) (g := gameID) (s := ⟨f, []⟩) q2 q3
      (Nat.le_trans hn.height_le hd)
    have e1 := (C68_execute isPrint (newEvaluator F) gameID q2 q3
      (Nat.le_trans hn.height_le hd) ⟨f, []⟩).1
    refine ⟨?_, Nat.le_trans b1 hs.2.1.1, ?_⟩
    · unfold runFresh
      rw [← e1]
    · intro q hq
      rw [hs.2.1.2 q (Nat.lt_of_lt_of_le hq b1) (fun hm => Nat.not_lt.mpr (q4 q hm) hq)]
      exact b2 q hq

/-- **C72.**  `ExecuteCommand` likewise, whatever the dice bot. -/
theorem C72_command (isPrint : Char → Bool) (nilInstance : Ref) (F : DieFeeder σ) (bot : DiceBot σ)
    (input : Str) (f : σ) (h : Heap) (hnil : h[nilInstance]? = some .nilNode) {d : Nat}
    (hd : input.length + 4 ≤ d) :
    let out := Mem.executeCommand isPrint d nilInstance F bot input f h
    (out.1, out.2.1) = executeCommand F bot input f ∧
    h.length ≤ out.2.2.length ∧ ∀ q, q < h.length → out.2.2[q]? = h[q]? := by
  simp only
  have l1 := checkSecret_length input
  have l2 := firstPart_length (checkSecret input).1
  unfold Mem.executeCommand executeCommand
  generalize checkSecret input = x at l1 l2 ⊢
  obtain ⟨cmd, secret⟩ := x
  simp only at l1 l2 ⊢
  rcases executeDiceBotCommand F bot (firstPart cmd) f with ⟨o, f1⟩
  cases o with
  | ok r => exact ⟨rfl, Nat.le_refl _, fun _ _ => rfl⟩
  | panic m => exact ⟨rfl, Nat.le_refl _, fun _ _ => rfl⟩
  | err m =>
    simp only
    obtain ⟨a1, a2, a3⟩ := C72_basic isPrint nilInstance F bot.info.gameID cmd f1 h hnil (d := d) (by omega)
    rcases hx : Mem.executeBasicCommand isPrint d nilInstance F bot.info.gameID cmd f1 h with ⟨o, f2, h2⟩
    rw [hx] at a1 a2 a3
    simp only at a1 a2 a3
    rw [← a1]
    cases o with
    | ok r => exact ⟨rfl, a2, a3⟩
    | panic m => exact ⟨rfl, a2, a3⟩
    | err m =>
      simp only
      have hnil2 : h2[nilInstance]? = some .nilNode := by
        rw [a3 _ (Raw.lt_of_get hnil)]; exact hnil
      obtain ⟨b1, b2, b3⟩ := C72_basic isPrint nilInstance F bot.info.gameID (firstPart cmd) f2 h2 hnil2
        (d := d) (by omega)
      rcases hy : Mem.executeBasicCommand isPrint d nilInstance F bot.info.gameID (firstPart cmd) f2 h2 with
        ⟨o, f3, h3⟩
      rw [hy] at b1 b2 b3
      simp only at b1 b2 b3
      rw [← b1]
      have hle : h.length ≤ h3.length := Nat.le_trans a2 b2
      have hsame : ∀ q, q < h.length → h3[q]? = h[q]? := fun q hq => by
        rw [b3 q (Nat.lt_of_lt_of_le hq a2), a3 q hq]
      cases o <;> exact ⟨rfl, hle, hsame⟩

/-- A session in memory: the outcomes of commands one after the other. -/
def Mem.session (isPrint : Char → Bool) (d : Nat) (nilInstance : Ref) (F : DieFeeder σ)
    (bot : DiceBot σ) : List Str → σ → Heap → List (Out Result)
  | [], _, _ => []
  | c :: cs, f, h =>
    let out := Mem.executeCommand isPrint d nilInstance F bot c f h
    out.1 :: Mem.session isPrint d nilInstance F bot cs out.2.1 out.2.2

/-- A session on trees. -/
def sessionOutcomes (F : DieFeeder σ) (bot : DiceBot σ) : List Str → σ → List (Out Result)
  | [], _ => []
  | c :: cs, f =>
    let out := executeCommand F bot c f
    out.1 :: sessionOutcomes F bot cs out.2

/-- **C72.**  In a session of any length the commands behave as if each had memory to itself. -/
theorem C72_session (isPrint : Char → Bool) (nilInstance : Ref) (F : DieFeeder σ) (bot : DiceBot σ)
    (inputs : List Str) (f : σ) (h : Heap) (hnil : h[nilInstance]? = some .nilNode) {d : Nat}
    (hd : ∀ c ∈ inputs, c.length + 4 ≤ d) :
    Mem.session isPrint d nilInstance F bot inputs f h = sessionOutcomes F bot inputs f := by
  induction inputs generalizing f h with
  | nil => rfl
  | cons c cs ih =>
    obtain ⟨a1, a2, a3⟩ := C72_command isPrint nilInstance F bot c f h hnil (hd c (by simp))
    simp only [Mem.session, sessionOutcomes]
    rw [← a1]
    simp only [List.cons.injEq, true_and]
    exact ih _ _ (by rw [a3 _ (Raw.lt_of_get hnil)]; exact hnil) (fun c hc => hd c (by simp [hc]))

/-! ## Cases -/

/-- The address returned and the memory afterwards. -/
def parsedAt (out : Except Str Mem.MVal × Heap) : Option Ref × Heap :=
  (match out.1 with | .ok (.node r) => some r | _ => none, out.2)

/-- `2R6[6]`, with the node `Nil` at 0 and another node at 1.  The rules for D and B rolls and for the
comparison were tried first and left nodes 2 to 8 behind. -/
example : parsedAt (Mem.parse 0 chars!"input" (utf8 chars!"2R6[6]") [.nilNode, .int 9]) =
    (some 13, [.nilNode, .int 9, .int 2, .int 2, .int 2, .int 6, .binary .rRoll (some 4) (some 5), .int 6,
      .rRollList [some 6] (some 7), .int 2, .int 6, .binary .rRoll (some 9) (some 10), .int 6,
      .rRollList [some 11] (some 12)]) := by decide +kernel

/-- A choice: `Append` overwrites node 4 once. -/
example : parsedAt (Mem.parse 0 chars!"input" (utf8 chars!"choice[a,b]") [.nilNode, .int 9]) =
    (some 4, [.nilNode, .int 9, .string chars!"a", .string chars!"b", .choice [some 2, some 3]]) := by
  decide +kernel

example : (fun out : Out Result × List Die × Heap => (out.1, out.2.1))
    (Mem.executeBasicCommand (fun _ => true) 7 0 queueFeeder chars!"DiceBot" chars!"1D6" [⟨3, 6⟩] [.nilNode]) =
    (.ok (mkResult chars!"DiceBot" [chars!"(1D6)", chars!"3[3]", chars!"3"] [⟨3, 6⟩]), []) := by
  decide +kernel

end GoBCDice
