import Verif.Lemmas.Peg
import Verif.Props.PigeonCost

/-!
# What parse errors list (C65)
-/

namespace GoBCDice

open Pigeon (PExpr Sym Pos Val)

namespace Pigeon

/-! ## The list of what was expected -/

theorem listJoin_orList : ∀ l : List Str, listJoin l = orList l
  | [] => rfl
  | [x] => rfl
  | [x, y] => by simp [listJoin, orList]
  | x :: y :: z :: l => by
    have ih := listJoin_orList (y :: z :: l)
    rw [orList, ← ih]
    · unfold listJoin
      have hne : (y :: z :: l).reverse ≠ [] := by simp
      cases hr : (y :: z :: l).reverse with
      | nil => exact absurd hr hne
      | cons last front =>
        have hlen : front ≠ [] := by
          intro hf
          have := congrArg List.length hr
          rw [hf] at this
          simp at this
        have hxs : (x :: y :: z :: l).reverse = last :: (front ++ [x]) := by
          rw [List.reverse_cons, hr]; rfl
        rw [hxs]
        cases front with
        | nil => exact absurd rfl hlen
        | cons a b =>
          dsimp only [List.cons_append]
          rw [← List.cons_append, List.reverse_append]
          simp only [List.reverse_cons, List.reverse_nil, List.nil_append, List.singleton_append]
          cases hb : b.reverse ++ [a] with
          | nil => simp at hb
          | cons p q => simp [List.intercalate]
    · intro h; cases h
    · intro _ h; cases h

theorem mem_dedupe (x : Str) : ∀ l : List Str, x ∈ dedupe l ↔ x ∈ l
  | [] => Iff.rfl
  | y :: l => by
    unfold dedupe
    rw [List.mem_cons, List.mem_cons, List.mem_filter, mem_dedupe x l]
    by_cases h : x = y <;> simp [h]

theorem nodup_dedupe : ∀ l : List Str, (dedupe l).Nodup
  | [] => List.nodup_nil
  | y :: l => by
    unfold dedupe
    rw [List.nodup_cons]
    exact ⟨by simp, (nodup_dedupe l).filter _⟩

theorem strLe_iff : ∀ a b : Str, strLe a b = true ↔ a = b ∨ a < b
  | [], [] => by simp [strLe]
  | [], _ :: _ => by simp [strLe]
  | _ :: _, [] => by simp [strLe]
  | a :: s, b :: t => by
    unfold strLe
    rw [Bool.or_eq_true, Bool.and_eq_true, decide_eq_true_eq, decide_eq_true_eq, strLe_iff s t,
      List.cons_lt_cons_iff]
    have : a.toNat < b.toNat ↔ a < b := by rw [Char.lt_def]; exact UInt32.lt_iff_toNat_lt.symm
    rw [this]
    grind

theorem mem_insertSorted (x y : Str) : ∀ l, y ∈ insertSorted x l ↔ y = x ∨ y ∈ l
  | [] => by simp [insertSorted]
  | z :: l => by
    unfold insertSorted
    split
    · simp
    · rw [List.mem_cons, mem_insertSorted x y l, List.mem_cons]
      grind

theorem str_total : ∀ a b : Str, a = b ∨ a < b ∨ b < a
  | [], [] => .inl rfl
  | [], _ :: _ => .inr (.inl (by simp))
  | _ :: _, [] => .inr (.inr (by simp))
  | a :: s, b :: t => by
    rw [List.cons_lt_cons_iff, List.cons_lt_cons_iff]
    have h1 : a < b ∨ a = b ∨ b < a := by
      rw [Char.lt_def, Char.lt_def, UInt32.lt_iff_toNat_lt, UInt32.lt_iff_toNat_lt]
      rcases Nat.lt_trichotomy a.val.toNat b.val.toNat with h | h | h
      · exact .inl h
      · exact .inr (.inl (Char.ext (UInt32.toNat_inj.1 h)))
      · exact .inr (.inr h)
    have := str_total s t
    grind

theorem str_lt_of_not_le {a b : Str} (h : ¬ (a = b ∨ a < b)) : b < a := by
  rcases str_total a b with h1 | h1 | h1
  · exact absurd (.inl h1) h
  · exact absurd (.inr h1) h
  · exact h1

theorem pairwise_insertSorted (x : Str) : ∀ l : List Str, l.Pairwise (· < ·) → x ∉ l →
    (insertSorted x l).Pairwise (· < ·)
  | [], _, _ => by simp [insertSorted]
  | y :: l, h, hx => by
    rw [List.pairwise_cons] at h
    unfold insertSorted
    split
    · rename_i hle
      rw [strLe_iff] at hle
      have hxy : x < y := hle.resolve_left (fun he => hx (he ▸ List.mem_cons_self ..))
      rw [List.pairwise_cons, List.pairwise_cons]
      refine ⟨fun z hz => ?_, h⟩
      rcases List.mem_cons.1 hz with rfl | hz
      · exact hxy
      · exact List.lt_trans hxy (h.1 z hz)
    · rename_i hle
      rw [strLe_iff] at hle
      rw [List.pairwise_cons]
      refine ⟨fun z hz => ?_, pairwise_insertSorted x l h.2 (fun hm => hx (List.mem_cons_of_mem _ hm))⟩
      rcases (mem_insertSorted x z l).1 hz with rfl | hz
      · exact str_lt_of_not_le hle
      · exact h.1 z hz

theorem foldr_sorted : ∀ l : List Str, l.Nodup → (l.foldr insertSorted []).Pairwise (· < ·) ∧
    ∀ x, x ∈ l.foldr insertSorted [] ↔ x ∈ l
  | [], _ => ⟨by simp, fun _ => Iff.rfl⟩
  | y :: l, h => by
    rw [List.nodup_cons] at h
    obtain ⟨h1, h2⟩ := foldr_sorted l h.2
    rw [List.foldr_cons]
    refine ⟨pairwise_insertSorted y _ h1 (fun hm => h.1 ((h2 y).1 hm)), fun x => ?_⟩
    rw [mem_insertSorted, h2, List.mem_cons]

theorem expectedList_at (ms : List (Nat × Str)) (k : Nat) :
    ExpectedAt ms k (expectedList ((ms.filter (fun m => m.1 == k)).map (·.2))) := by
  have hmem : ∀ w, w ∈ (ms.filter (fun m => m.1 == k)).map (·.2) ↔ (k, w) ∈ ms := by
    intro w
    rw [List.mem_map]
    constructor
    · rintro ⟨m, hm, rfl⟩
      rw [List.mem_filter, beq_iff_eq] at hm
      obtain ⟨a, b⟩ := m
      have : a = k := hm.2
      subst this
      exact hm.1
    · intro h
      exact ⟨(k, w), List.mem_filter.2 ⟨h, beq_self_eq_true _⟩, rfl⟩
  generalize (ms.filter (fun m => m.1 == k)).map (·.2) = l at hmem
  unfold expectedList
  dsimp only
  have hn : ((dedupe l).filter (· ≠ chars!"!.")).Nodup := (nodup_dedupe l).filter _
  obtain ⟨h1, h2⟩ := foldr_sorted _ hn
  refine ⟨_, ?_, h1, fun w => ?_⟩
  · congr 1
    by_cases hc : (k, chars!"!.") ∈ ms
    · rw [if_pos hc, if_pos ((mem_dedupe _ _).2 ((hmem _).2 hc))]
    · rw [if_neg hc, if_neg (fun h => hc ((hmem _).1 ((mem_dedupe _ _).1 h)))]
  · rw [h2, List.mem_filter, mem_dedupe, hmem]
    simp

/-! ## The table -/

theorem goGrammar_plain : ∀ r ∈ goGrammar, plain r.2 = true := by
  have : (goGrammar.all fun r => plain r.2) = true := by decide
  exact List.all_eq_true.1 this

mutual
/-- Choices have alternatives, only the end of the text is negated, and rules exist. -/
def loud (has : Str → Bool) : PExpr → Bool
  | .action _ e => loud has e
  | .any => true
  | .charClass val .. => val != chars!"!."
  | .choice es => !es.isEmpty && loudAll has es
  | .labeled _ e => loud has e
  | .lit .. => true
  | .not .any => true
  | .not _ => false
  | .oneOrMore e => loud has e
  | .ruleRef name => has name
  | .seq es => loudAll has es
  | .stateCode _ => true
  | .zeroOrMore e => loud has e
  | .zeroOrOne e => loud has e
/-- `loud` for each. -/
def loudAll (has : Str → Bool) : List PExpr → Bool
  | [] => true
  | e :: es => loud has e && loudAll has es
end

theorem goGrammar_loud : ∀ r ∈ goGrammar, loud (fun name => (goGrammar.lookup name).isSome) r.2 = true := by
  have : (goGrammar.all fun r => loud (fun name => (goGrammar.lookup name).isSome) r.2) = true := by decide
  exact List.all_eq_true.1 this

theorem loud_any {has : Str → Bool} {e : PExpr} (h : loud has (.not e) = true) : e = .any := by
  cases e <;> first | rfl | (simp [loud] at h)

/-- Loud, but a choice may be without alternatives. -/
def Loud (has : Str → Bool) (e : PExpr) : Prop :=
  loud has e = true ∨ ∃ es, e = .choice es ∧ loudAll has es = true

theorem Loud.head {has : Str → Bool} {e : PExpr} {es : List PExpr} (h : Loud has (.choice (e :: es))) :
    loud has e = true ∧ loudAll has es = true := by
  rcases h with h | ⟨es', h1, h2⟩
  · simp only [loud, loudAll, Bool.and_eq_true] at h
    exact h.2
  · cases h1
    simpa [loudAll] using h2

theorem Loud.seq {has : Str → Bool} {e : PExpr} {es : List PExpr} (h : Loud has (.seq (e :: es))) :
    loud has e = true ∧ loud has (.seq es) = true := by
  rcases h with h | ⟨es', h1, h2⟩
  · simpa [loud, loudAll] using h
  · cases h1

/-- The expression a transparent one is about. -/
def inside : PExpr → Option PExpr
  | .action _ e => some e
  | .labeled _ e => some e
  | .oneOrMore e => some e
  | _ => none

theorem loud_inner {has : Str → Bool} {e e' : PExpr} (h : loud has e = true) (hi : inside e = some e') :
    loud has e' = true := by
  cases e <;> simp only [inside, Option.some.injEq, reduceCtorEq] at hi <;> (subst hi; exact h)

/-- What is said of a miss of a loud table. -/
def LoudMiss (text : Str) (m : Nat × Str) : Prop :=
  (m.2 = chars!"!." ∧ text.drop m.1 ≠ []) ∨
    (m.2 ≠ chars!"!." ∧ ∃ t, isTerminal t = true ∧ m.2 = termShown t ∧ termMatch t (text.drop m.1) = none)

/-- An expression of a loud table that does not match misses something. -/
theorem peg_loud {rules : List (Str × PExpr)} {text : Str}
    (hg : ∀ r ∈ rules, loud (fun name => (rules.lookup name).isSome) r.2 = true) {neg : Bool} {e : PExpr}
    {k : Nat} {r : Option Nat} {ms : List (Nat × Str)} (h : Peg rules text neg e k r ms) (hneg : neg = false)
    (he : Loud (fun name => (rules.lookup name).isSome) e) :
    (r = none → e = .choice [] ∨ ms ≠ []) ∧ ∀ m ∈ ms, LoudMiss text m := by
  have app : ∀ {a b : List (Nat × Str)}, (∀ m ∈ a, LoudMiss text m) → (∀ m ∈ b, LoudMiss text m) →
      ∀ m ∈ a ++ b, LoudMiss text m := by
    intro a b ha hb m hm
    rcases List.mem_append.1 hm with h | h
    · exact ha m h
    · exact hb m h
  have one : ∀ {e : PExpr} {m : List (Nat × Str)}, loud (fun name => (rules.lookup name).isSome) e = true →
      (e = .choice [] ∨ m ≠ []) → m ≠ [] := by
    intro e m hl h
    rcases h with h | h
    · rw [h] at hl; simp [loud] at hl
    · exact h
  have mono : ∀ {a b : List (Nat × Str)}, a ≠ [] → a ++ b ≠ [] := by
    intro a b h hc
    exact h (List.append_eq_nil_iff.1 hc).1
  have ne2 : ∀ {e : PExpr}, Loud (fun name => (rules.lookup name).isSome) e → (∀ es, e ≠ .choice es) →
      loud (fun name => (rules.lookup name).isSome) e = true := by
    intro e h hne
    rcases h with h | ⟨es, h, -⟩
    · exact h
    · exact absurd h (hne es)
  induction h with
  | @hit neg t k n ht =>
    subst hneg
    exact ⟨fun h => (by cases h), fun m hm => (by cases hm)⟩
  | @miss neg t k hterm ht =>
    subst hneg
    refine ⟨fun _ => .inr (by simp), fun m hm => ?_⟩
    rw [if_neg (by simp), List.mem_singleton] at hm
    subst hm
    refine .inr ⟨?_, t, hterm, rfl, ht⟩
    have hl := ne2 he (fun es h => by rw [h] at hterm; cases hterm)
    cases t <;> simp [isTerminal] at hterm <;> simp [termShown]
    simpa [loud] using hl
  | action _ ih =>
    have hl := loud_inner (ne2 he (fun es h => by cases h)) rfl
    have := ih hneg (.inl hl)
    exact ⟨fun h => .inr (one hl (this.1 h)), this.2⟩
  | labeled _ ih =>
    have hl := loud_inner (ne2 he (fun es h => by cases h)) rfl
    have := ih hneg (.inl hl)
    exact ⟨fun h => .inr (one hl (this.1 h)), this.2⟩
  | rule hlk _ ih =>
    have hl := hg _ (lookup_mem hlk)
    have := ih hneg (.inl hl)
    exact ⟨fun h => .inr (one hl (this.1 h)), this.2⟩
  | noRule hlk =>
    have hl := ne2 he (fun es h => by cases h)
    simp only [loud, hlk] at hl
    cases hl
  | stateCode => exact ⟨fun h => (by cases h), fun m hm => (by cases hm)⟩
  | choiceNil => exact ⟨fun _ => .inl rfl, fun m hm => (by cases hm)⟩
  | choiceHit _ ih => exact ⟨fun h => (by cases h), (ih hneg (.inl he.head.1)).2⟩
  | choiceNext _ _ ih1 ih2 =>
    have h1 := ih1 hneg (.inl he.head.1)
    have h2 := ih2 hneg (.inr ⟨_, rfl, he.head.2⟩)
    exact ⟨fun _ => .inr (mono (one he.head.1 (h1.1 rfl))), app h1.2 h2.2⟩
  | seqNil => exact ⟨fun h => (by cases h), fun m hm => (by cases hm)⟩
  | seqMiss _ ih =>
    have h1 := ih hneg (.inl he.seq.1)
    exact ⟨fun _ => .inr (one he.seq.1 (h1.1 rfl)), h1.2⟩
  | seqNext _ _ ih1 ih2 =>
    have h1 := ih1 hneg (.inl he.seq.1)
    have h2 := ih2 hneg (.inl he.seq.2)
    refine ⟨fun h => .inr (fun hc => ?_), app h1.2 h2.2⟩
    rcases h2.1 h with h3 | h3
    · cases h3
    · exact h3 (List.append_eq_nil_iff.1 hc).2
  | starEnd _ ih =>
    have hl := ne2 he (fun es h => by cases h)
    exact ⟨fun h => (by cases h), (ih hneg (.inl hl)).2⟩
  | starNext _ h2 ih1 ih2 =>
    have hl := ne2 he (fun es h => by cases h)
    obtain ⟨k', hk'⟩ := star_some h2
    exact ⟨fun h => (by rw [hk'] at h; cases h), app (ih1 hneg (.inl hl)).2 (ih2 hneg (.inl hl)).2⟩
  | plusMiss _ ih =>
    have hl := loud_inner (ne2 he (fun es h => by cases h)) rfl
    have := ih hneg (.inl hl)
    exact ⟨fun h => .inr (one hl (this.1 h)), this.2⟩
  | plusNext _ h2 ih1 ih2 =>
    have hl := ne2 he (fun es h => by cases h)
    obtain ⟨k', hk'⟩ := star_some h2
    exact ⟨fun h => (by rw [hk'] at h; cases h), app (ih1 hneg (.inl hl)).2 (ih2 hneg (.inl hl)).2⟩
  | optHit _ ih =>
    have hl := ne2 he (fun es h => by cases h)
    exact ⟨fun h => (by cases h), (ih hneg (.inl hl)).2⟩
  | optMiss _ ih =>
    have hl := ne2 he (fun es h => by cases h)
    exact ⟨fun h => (by cases h), (ih hneg (.inl hl)).2⟩
  | @notHit neg e k k' m h _ =>
    have hany := loud_any (ne2 he (fun es h => by cases h))
    subst hany hneg
    cases h with
    | @hit _ _ _ n ht =>
      refine ⟨fun _ => .inr (by simp), fun m hm => ?_⟩
      rw [if_pos (by simp), List.mem_singleton] at hm
      subst hm
      refine .inl ⟨rfl, fun hc => ?_⟩
      dsimp only at hc
      rw [hc] at ht
      cases ht
  | @notMiss neg e k m h _ =>
    have hany := loud_any (ne2 he (fun es h => by cases h))
    subst hany hneg
    cases h with
    | miss _ ht => exact ⟨fun h => (by cases h), fun m hm => (by cases hm)⟩

theorem initState_far (env : PEnv) (data : List Sym) : (initState env data).maxFailPos = ⟨1, 1, 0⟩ ∧
    (initState env data).maxFailExpected = [] ∧ (initState env data).invert = false := by
  unfold initState PState.enter
  dsimp only
  split <;> exact ⟨rfl, rfl, rfl⟩

/-- The run of `Parse` as the grammar has it. -/
theorem peg_command {filename : Str} {data : List Sym} (hd : Decoded data) {v : Val} {ok : Bool} {st' : PState}
    (h : Runs ⟨filename, goGrammar, false⟩ (.expr (.ruleRef chars!"Command")) (initState ⟨filename, goGrammar, false⟩ data)
        (.ret v ok st')) :
    ∃ r ms, Peg goGrammar (runesOf data) false (.ruleRef chars!"Command") 0 r ms ∧
      ok = r.isSome ∧ ∃ k, k ≤ data.length ∧ Farthest ms k ∧ st'.maxFailPos = farPos data k ∧
        st'.maxFailExpected = (ms.filter (fun m => m.1 == k)).map (·.2) := by
  obtain ⟨n, hn⟩ := h
  let env : PEnv := ⟨filename, goGrammar, false⟩
  have hrest := (initState_fields (env := env) data).1
  have hif := initState_far env data
  have hw : Wide (initState env data).pt.rest := by rw [hrest]; exact hd
  have h0 : (initState env data).pt.pos.offset = 0 := by
    rw [initState_pt]
    dsimp only
    split <;> rfl
  have hfar : Far (initState env data).pt [] (initState env data) :=
    ⟨0, Nat.zero_le _, ⟨fun m hm => (by cases hm), .inl rfl⟩, hif.1, hif.2.1⟩
  obtain ⟨r, ms, h1, h2⟩ := run_peg hw h0 goGrammar_plain n (.expr (.ruleRef chars!"Command")) _ 0 [] v ok st'
    (Nat.zero_le _) rfl hfar rfl hn
  rw [hif.2.2, hrest] at h1
  obtain ⟨k, hk, hf, hp, he⟩ := h2.far
  rw [List.nil_append] at hf he
  rw [hrest] at hk
  refine ⟨r, ms, h1, h2.ok, k, hk, hf, ?_, he⟩
  rw [hp]
  unfold farPos
  split
  · rfl
  · exact walk_pos data k hk

theorem parses_finish {filename : Str} {data : List Sym} {x : PRes} {r : Except Str Val}
    (h : Runs ⟨filename, goGrammar, false⟩ (.expr (.ruleRef chars!"Command")) (initState ⟨filename, goGrammar, false⟩ data) x)
    (hp : Parses filename data r) : r = finish ⟨filename, goGrammar, false⟩ x := by
  obtain ⟨fuel, hp⟩ := hp
  have hp' : (run ⟨filename, goGrammar, false⟩ fuel (.expr (.ruleRef chars!"Command"))
    (initState ⟨filename, goGrammar, false⟩ data)).map (finish ⟨filename, goGrammar, false⟩) = some r := hp
  obtain ⟨y, h1, h2⟩ := Option.map_eq_some_iff.1 hp'
  have := Runs.unique ⟨fuel, h1⟩ h
  rw [← h2, this]

end Pigeon

/-! ### C65 -/

/-- **C65.** The table has one meaning on every text: it matches a beginning of it or not, with
certain misses. -/
theorem C65_meaning (s : Str) : ∃ r ms, Peg Pigeon.goGrammar s false (.ruleRef chars!"Command") 0 r ms ∧
    ∀ r' ms', Peg Pigeon.goGrammar s false (.ruleRef chars!"Command") 0 r' ms' → r' = r ∧ ms' = ms := by
  obtain ⟨v, ok, st', h, -⟩ := Pigeon.top_run (env := ⟨[], Pigeon.goGrammar, false⟩) rfl (utf8 s) (Pigeon.decoded_utf8 s)
  obtain ⟨r, ms, h1, -⟩ := Pigeon.peg_command (Pigeon.decoded_utf8 s) h
  rw [Pigeon.runesOf_utf8] at h1
  exact ⟨r, ms, h1, fun r' ms' h2 => h2.det h1⟩

/-- **C65.** The exact text of the error for valid UTF-8: a D command without a random element; or the
farthest position at which something was missed, with the list of all that was missed there. -/
theorem C65_exact (filename : Str) (s : Str) (m : Str) (h : Parses filename (utf8 s) (.error m)) :
    (∃ rule, (rule = chars!"DRollExprCommand" ∨ rule = chars!"DRollCompCommand") ∧
      m = located filename (posAt (utf8 s) 0) (some rule) chars!"random element not found") ∨
    (∃ ms k items, Peg Pigeon.goGrammar s false (.ruleRef chars!"Command") 0 none ms ∧
      Farthest ms k ∧ k ≤ s.length ∧ ExpectedAt ms k items ∧
      m = located filename (farPos (utf8 s) k) none (chars!"no match found, expected: " ++ orList items)) := by
  obtain ⟨v, ok, st', h1, h2, h3, h4⟩ :=
    Pigeon.top_run (env := ⟨filename, Pigeon.goGrammar, false⟩) rfl (utf8 s) (Pigeon.decoded_utf8 s)
  have h6 := Pigeon.parses_finish h1 h
  have hval := Pigeon.valid_initState ⟨filename, Pigeon.goGrammar, false⟩ s
  obtain ⟨r, ms, hp, hok, k, hk, hf, hpos, hexp⟩ := Pigeon.peg_command (Pigeon.decoded_utf8 s) h1
  rw [Pigeon.runesOf_utf8] at hp
  by_cases he : st'.errs = []
  · right
    cases ok with
    | true =>
      unfold Pigeon.finish at h6
      dsimp only at h6
      rw [if_pos he] at h6
      cases h6
    | false =>
      unfold Pigeon.finish at h6
      dsimp only at h6
      rw [if_pos he] at h6
      cases h6
      cases r with
      | some x => cases hok
      | none =>
        refine ⟨ms, k, Pigeon.expectedList st'.maxFailExpected, hp, hf, by simpa [utf8] using hk, ?_, ?_⟩
        · rw [hexp]; exact Pigeon.expectedList_at ms k
        · rw [Pigeon.addErrAt_eq, he, h2, List.nil_append, Pigeon.errText_one, hpos, Pigeon.listJoin_orList]
          rfl
  · left
    rw [Pigeon.initState_errs] at h4
    have hone : ∃ rule, (rule = chars!"DRollExprCommand" ∨ rule = chars!"DRollCompCommand") ∧
        st'.errs = [located filename (Pigeon.initState ⟨filename, Pigeon.goGrammar, false⟩ (utf8 s)).pt.pos (some rule)
          chars!"random element not found"] := by
      generalize ho : (Pigeon.tried ((Pigeon.runes (utf8 s)).length + 1) (Pigeon.runes (utf8 s)) 0).map (·.1) = o at h4
      match o, h4 with
      | none, h4 => exact absurd (h4.valid hval) he
      | some (some _), h4 => exact absurd (h4.valid hval) he
      | some none, h4 =>
        refine ⟨_, ?_, h4.2 hval⟩
        split
        · exact .inr rfl
        · exact .inl rfl
    obtain ⟨rule, hr, herrs⟩ := hone
    have hpos0 : (Pigeon.initState ⟨filename, Pigeon.goGrammar, false⟩ (utf8 s)).pt.pos = posAt (utf8 s) 0 :=
      Pigeon.walk_pos (env := ⟨filename, Pigeon.goGrammar, false⟩) (utf8 s) 0 (Nat.zero_le _)
    rw [hpos0] at herrs
    refine ⟨rule, hr, ?_⟩
    cases ok with
    | true =>
      unfold Pigeon.finish at h6
      dsimp only at h6
      rw [if_neg he] at h6
      cases h6
      rw [herrs, Pigeon.errText_one]
    | false =>
      unfold Pigeon.finish at h6
      dsimp only at h6
      rw [if_neg he] at h6
      cases h6
      rw [herrs, Pigeon.errText_one]

/-- **C65.** The list is never empty and never lies: what it names does not match at the position
given, and if it names the end of the text, the text does not end there. -/
theorem C65_truthful (s : Str) (ms : List (Nat × Str)) (k : Nat) (items : List Str)
    (h : Peg Pigeon.goGrammar s false (.ruleRef chars!"Command") 0 none ms) (hk : Farthest ms k)
    (hi : ExpectedAt ms k items) :
    items ≠ [] ∧ ∀ w ∈ items, (w = chars!"EOF" ∧ k < s.length) ∨
      ∃ t, isTerminal t = true ∧ w = termShown t ∧ termMatch t (s.drop k) = none := by
  have hl := Pigeon.peg_loud Pigeon.goGrammar_loud h rfl (.inl (by decide))
  obtain ⟨front, hitems, -, hfront⟩ := hi
  have hne : ms ≠ [] := (hl.1 rfl).resolve_left (by simp)
  constructor
  · intro hc
    have hat : ∃ m ∈ ms, m.1 = k := by
      rcases hk.2 with h0 | h0
      · cases ms with
        | nil => exact absurd rfl hne
        | cons x ms =>
          refine ⟨x, List.mem_cons_self .., ?_⟩
          have := hk.1 x (List.mem_cons_self ..)
          omega
      · exact h0
    obtain ⟨⟨k', w⟩, hm, rfl⟩ := hat
    rw [hc] at hitems
    by_cases hw : w = chars!"!."
    · subst hw
      rw [if_pos hm] at hitems
      simp at hitems
    · have := (hfront w).2 ⟨hm, hw⟩
      have hfe := (List.append_eq_nil_iff.1 hitems.symm).1
      rw [hfe] at this
      cases this
  · intro w hw
    rw [hitems] at hw
    rcases List.mem_append.1 hw with hw | hw
    · obtain ⟨hm, hne'⟩ := (hfront w).1 hw
      rcases hl.2 _ hm with h1 | h1
      · exact absurd h1.1 hne'
      · exact .inr h1.2
    · by_cases hc : (k, chars!"!.") ∈ ms
      · rw [if_pos hc, List.mem_singleton] at hw
        left
        refine ⟨hw, ?_⟩
        rcases hl.2 _ hc with h1 | h1
        · have := h1.2
          dsimp only at this
          rw [Ne, List.drop_eq_nil_iff] at this
          omega
        · exact absurd rfl h1.1
      · rw [if_neg hc] at hw
        cases hw

/-- **C65.** What `Parse` accepts, the table matches. -/
theorem C65_accepted (filename s : Str) (v : Val) (h : Parses filename (utf8 s) (.ok v)) :
    ∃ k ms, k ≤ s.length ∧ Peg Pigeon.goGrammar s false (.ruleRef chars!"Command") 0 (some k) ms := by
  obtain ⟨v, ok, st', h1, h2, h3, h4⟩ :=
    Pigeon.top_run (env := ⟨filename, Pigeon.goGrammar, false⟩) rfl (utf8 s) (Pigeon.decoded_utf8 s)
  have h6 := Pigeon.parses_finish h1 h
  obtain ⟨r, ms, hp, hok, -⟩ := Pigeon.peg_command (Pigeon.decoded_utf8 s) h1
  rw [Pigeon.runesOf_utf8] at hp
  cases r with
  | none =>
    cases hok
    unfold Pigeon.finish at h6
    cases h6
  | some k =>
    refine ⟨k, ms, ?_, hp⟩
    have hb : ∀ {neg e j r m}, Peg Pigeon.goGrammar s neg e j r m → j ≤ s.length → ∀ j', r = some j' →
        j' ≤ s.length := by
      intro neg e j r m h
      induction h with
      | @hit neg t k n ht =>
        intro hj j' hj'
        cases hj'
        have hlen : n ≤ (s.drop k).length := by
          cases t <;> simp only [termMatch] at ht
          case any => split at ht <;> simp_all <;> omega
          case lit val ic =>
            by_cases heq : ((s.drop k).take val.length).map (fun c => if ic = true then toLowerRune c else c) = val
            · rw [if_pos heq] at ht
              cases ht
              have := congrArg List.length heq
              simp only [List.length_map, List.length_take] at this
              omega
            · rw [if_neg heq] at ht; cases ht
          case charClass =>
            cases hd : s.drop k with
            | nil => rw [hd] at ht; cases ht
            | cons c l =>
              rw [hd] at ht
              have : n = 1 := by grind
              subst this
              simp
          all_goals (cases ht)
        rw [List.length_drop] at hlen
        omega
      | miss => intro _ _ h; cases h
      | action _ ih => exact ih
      | labeled _ ih => exact ih
      | rule _ _ ih => exact ih
      | noRule => intro _ _ h; cases h
      | stateCode => intro hj j' h; cases h; exact hj
      | choiceNil => intro _ _ h; cases h
      | choiceHit _ ih => exact ih
      | choiceNext _ _ _ ih => exact ih
      | seqNil => intro hj j' h; cases h; exact hj
      | seqMiss => intro _ _ h; cases h
      | seqNext _ _ ih1 ih2 => intro hj; exact ih2 (ih1 hj _ rfl)
      | starEnd => intro hj j' h; cases h; exact hj
      | starNext _ _ ih1 ih2 => intro hj; exact ih2 (ih1 hj _ rfl)
      | plusMiss => intro _ _ h; cases h
      | plusNext _ _ ih1 ih2 => intro hj; exact ih2 (ih1 hj _ rfl)
      | optHit _ ih => exact ih
      | optMiss => intro hj j' h; cases h; exact hj
      | notHit => intro _ _ h; cases h
      | notMiss => intro hj j' h; cases h; exact hj
    exact hb hp (Nat.zero_le _) k rfl

-- non-vacuity: the empty text is an error of the second kind, with a list
set_option maxRecDepth 20000 in
example : ∃ ms k items, Peg Pigeon.goGrammar [] false (.ruleRef chars!"Command") 0 none ms ∧
    Farthest ms k ∧ ExpectedAt ms k items ∧
    orList items = chars!"\"(\", \"+\", \"-\", \"[\", \"c\"i, \"choice[\"i or [0-9]" := by
  have h : Parses [] (utf8 []) (.error chars!"1:1 (0): no match found, expected: \"(\", \"+\", \"-\", \"[\", \"c\"i, \"choice[\"i or [0-9]") :=
    ⟨171, Pigeon.of_errorOf (by decide +kernel)⟩
  rcases C65_exact _ _ _ h with ⟨rule, hr, h1⟩ | ⟨ms, k, items, h1, h2, h3, h4, h5⟩
  · rcases hr with rfl | rfl <;> exact absurd h1 (by decide)
  · refine ⟨ms, k, items, h1, h2, h4, ?_⟩
    have hk : k = 0 := by simpa using h3
    subst hk
    have h6 : located [] (farPos (utf8 []) 0) none (chars!"no match found, expected: " ++ orList items) =
        chars!"1:1 (0): no match found, expected: " ++ orList items := rfl
    rw [h6] at h5
    exact (List.append_cancel_left (as := chars!"1:1 (0): no match found, expected: ") h5).symm

end GoBCDice
