import Verif.Lemmas.PigeonBound
import Verif.Spec.Nesting
import Verif.Props.PigeonOpt
import Verif.Props.Bytes

/-!
# The generated parser: only nested parentheses make it slow (C107)

C67 shows commands on which the work of `Parse` doubles with each further level of parentheses. Here is the other side: for
texts in which at most `d` parentheses are open at any place, accepted or not, the work is bounded by a polynomial in the
length whose degree is `3·d + 4`.
-/

namespace GoBCDice

open Pigeon (Sym ParseOption Called)

theorem Pigeon.hgt_le : ∀ (data : List Sym) (d : Nat), NestedAtMost d data → Pigeon.hgt data ≤ d
  | [], _, _ => Nat.zero_le _
  | x :: s, d, h => by
    have step : ∀ c read, occurrences c (x :: read) = (if x.rn = c then 1 else 0) + occurrences c read := by
      intro c read
      unfold occurrences
      rw [List.map_cons, List.count_cons]
      by_cases hx : x.rn = c
      · simp [hx]; omega
      · simp [hx]
    have h' : ∀ read rest, s = read ++ rest → occurrences '(' (x :: read) ≤ occurrences ')' (x :: read) + d :=
      fun read rest e => h (x :: read) rest (by rw [e, List.cons_append])
    simp only [step] at h'
    unfold Pigeon.hgt
    split
    · rename_i hx
      have hd : 1 ≤ d := by
        have := h' [] s rfl
        simp [hx, occurrences] at this
        exact this
      have := Pigeon.hgt_le s (d - 1) (fun read rest e => by
        have := h' read rest e
        simp [hx] at this
        omega)
      omega
    · split
      · rename_i hx
        have := Pigeon.hgt_le s (d + 1) (fun read rest e => by
          have := h' read rest e
          simp [hx] at this
          omega)
        omega
      · rename_i h1 h2
        exact Pigeon.hgt_le s d (fun read rest e => by
          have := h' read rest e
          simp [h1, h2] at this
          omega)

/-- **C107.** On a text in which at most `d` parentheses are open at any place `Parse` calls its expression matcher at most
`17351·N⁴·(1300·N³)ᵈ` times, where `N` is the number of runes plus one: for any bound on the nesting the work is polynomial
in the length, whatever the text says, whether it is a command or not, and whether invalid bytes are accepted or not. -/
theorem C107_polynomial (allowInvalid : Bool) (filename : Str) (data : List Sym) (hd : Decoded data) (d : Nat)
    (hn : NestedAtMost d data) :
    exprCalls allowInvalid filename data ≤ 17351 * (data.length + 1) ^ 4 * (1300 * (data.length + 1) ^ 3) ^ d := by
  unfold exprCalls
  let env : Pigeon.PEnv := ⟨filename, Pigeon.goGrammar, allowInvalid⟩
  have hrest := (Pigeon.initState_fields (env := env) data).1
  have hcnt := Pigeon.initState_cnt (env := env) data
  have key : ∀ r, Pigeon.run env (parseDepth data) (.expr (.ruleRef chars!"Command")) (Pigeon.initState env data) = some r →
      r.st.exprCnt ≤ 17351 * (data.length + 1) ^ 4 * (1300 * (data.length + 1) ^ 3) ^ d := by
    intro r hr
    have hb := Pigeon.run_bound (env := env) (p0 := (Pigeon.initState env data).pt) rfl (by rw [hrest]; exact hd) (parseDepth data)
    have := hb.expr 1 .base .any false _ _ d (data.length + 1) _ _ rfl
      (show Pigeon.analyse Pigeon.goGrammar Pigeon.ruleEntry 1 .base .any false (.ruleRef chars!"Command") =
        some ⟨17351, 4, 0, .lost, false, true⟩ from by decide +kernel)
      ⟨⟨0, Nat.zero_le _, rfl⟩, by rw [hrest]; exact Pigeon.hgt_le data d hn, trivial, by rw [hrest], fun h => by cases h⟩ hr
    have hv : Pigeon.Info.val ⟨17351, 4, 0, .lost, false, true⟩ (data.length + 1) (Pigeon.lift (data.length + 1) d) =
        17351 * (data.length + 1) ^ 4 * (1300 * (data.length + 1) ^ 3) ^ d := by
      simp only [Pigeon.Info.val, Nat.zero_mul, Nat.add_zero]
      rfl
    cases r with
    | ret v ok st =>
      have h1 := this.1
      rw [hcnt, Nat.zero_add] at h1
      exact hv ▸ h1
    | panic m st =>
      have h1 : st.exprCnt ≤ _ := this
      rw [hcnt, Nat.zero_add] at h1
      exact hv ▸ h1
  split
  · rename_i hr
    exact Nat.le_trans (Nat.sub_le _ _) (key _ hr)
  · rename_i hr
    exact Nat.le_trans (Nat.sub_le _ _) (key _ hr)
  · exact Nat.zero_le _

/-- **C107.** Without parentheses the degree is 4. -/
theorem C107_no_parentheses (filename : Str) (s : Str) (h : '(' ∉ s) :
    parseExprCalls filename (utf8 s) ≤ 17351 * (s.length + 1) ^ 4 := by
  have hl : (utf8 s).length = s.length := by unfold utf8; simp
  have := C107_polynomial false filename (utf8 s) (Pigeon.decoded_utf8 s) 0 (by
    intro read rest e
    have h1 : (utf8 s).map Sym.rn = s := Pigeon.runes_syms s
    have h2 : '(' ∉ read.map Sym.rn := fun hm => h (by rw [← h1, e, List.map_append]; exact List.mem_append_left _ hm)
    unfold occurrences
    rw [List.count_eq_zero.mpr h2]
    exact Nat.zero_le _)
  rw [hl, Nat.pow_zero, Nat.mul_one] at this
  exact this

/-- **C107.** So a limit can be set that is met by every text of at most `n` runes nested at most `d` deep: with
`MaxExpressions(m)`, `m` at least the bound, `Parse` does what it does without options. -/
theorem C107_limit (filename : Str) (data : List Sym) (hd : Decoded data) (n d m : Nat) (hl : data.length ≤ n)
    (hn : NestedAtMost d data) (hm : 17351 * (n + 1) ^ 4 * (1300 * (n + 1) ^ 3) ^ d ≤ m) (c : Called) :
    CallsWith filename data [.maxExpressions m] c ↔ ∃ r, Parses filename data r ∧ c = returned r := by
  refine C86_defaults filename data hd [.maxExpressions m] rfl rfl rfl (.inr ?_) c
  show _ ≤ m
  refine Nat.le_trans (C107_polynomial false filename data hd d hn) (Nat.le_trans ?_ hm)
  gcongr

-- concrete cases: the bound is met with room to spare, and texts of each depth exist
example : NestedAtMost 1 (utf8 chars!"2D6+(1+2)*(3)>=7") ∧ ¬ NestedAtMost 0 (utf8 chars!"2D6+(1+2)*(3)>=7") := by
  constructor
  · intro read rest e
    have h1 : read = (utf8 chars!"2D6+(1+2)*(3)>=7").take read.length := by rw [e]; simp
    have h2 : read.length < 17 := by
      have := congrArg List.length e
      have h3 : (utf8 chars!"2D6+(1+2)*(3)>=7").length = 16 := by decide
      rw [h3, List.length_append] at this
      omega
    have h4 : ∀ k ∈ List.range 17, occurrences '(' ((utf8 chars!"2D6+(1+2)*(3)>=7").take k) ≤
        occurrences ')' ((utf8 chars!"2D6+(1+2)*(3)>=7").take k) + 1 := by decide +kernel
    rw [h1]
    exact h4 _ (List.mem_range.mpr h2)
  · intro h
    exact absurd (h (utf8 chars!"2D6+(") (utf8 chars!"1+2)*(3)>=7") (by decide)) (by decide +kernel)

set_option maxRecDepth 20000 in
example : parseExprCalls [] (utf8 chars!"2D6+10-3>=7") = 313 := by decide +kernel

end GoBCDice
