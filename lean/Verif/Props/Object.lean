import Verif.Lemmas.ObjCache
import Verif.Lemmas.ObjFit

/-!
# C73–C76: result objects (package `object`)

`Denotes m r v`: the object at address `r` is a finite tree of objects without nil that stands for
the value `v`.  `Reachable` worlds are those a client of the package can produce, by any sequence of
calls and assignments.
-/

namespace GoBCDice.ObjMem

open Raw (Value nilDereference interfaceConversion stackOverflow)

/-! ## Auxiliary facts -/

theorem mem_denoteAll {m : Mem} {r : Ref} : ∀ {ps : List Ptr} {vs : List Value}, DenoteAll m ps vs →
    some r ∈ ps → ∃ v ∈ vs, Denotes m r v := by
  intro ps
  induction ps with
  | nil => intro vs _ h; cases h
  | cons p ps ih =>
    intro vs h hm
    cases h with
    | cons h1 h2 =>
      rcases List.mem_cons.1 hm with h3 | h3
      · cases h3; exact ⟨_, by simp, h1⟩
      · obtain ⟨v, hv, h4⟩ := ih h2 h3
        exact ⟨v, by simp [hv], h4⟩

theorem denoteAll_mem {m : Mem} {r : Ref} {ps : List Ptr} {vs : List Value} (h : DenoteAll m ps vs)
    (hr : some r ∈ ps) : ∃ v ∈ vs, Denotes m r v := mem_denoteAll h hr

theorem contains_lt {m : Mem} {r c : Ref} (h : Contains m r c) {v : Value} (hv : Denotes m r v) :
    ∃ v', Denotes m c v' ∧ sizeOf v' < sizeOf v := by
  have pos : ∀ n : Int64, 0 < sizeOf n := by
    rintro ⟨⟨⟨⟨a, b⟩⟩⟩⟩
    simp
    omega
  have posl : ∀ l : List Value, 0 < sizeOf l := by
    intro l; cases l <;> simp <;> omega
  cases h with
  | array h1 h2 =>
    cases hv with
    | array k1 k2 =>
      rw [h1] at k1; cases k1
      obtain ⟨x, hx, h5⟩ := denoteAll_mem k2 h2
      refine ⟨x, h5, ?_⟩
      have := List.sizeOf_lt_of_mem hx
      simp only [Value.array.sizeOf_spec]
      omega
    | _ => grind
  | bRollComp h1 h2 =>
    cases hv with
    | bRollComp k1 k2 k3 =>
      rename_i vs n
      rw [h1] at k1; cases k1
      have := pos n
      have := posl vs
      rcases h2 with h2 | h2 <;> cases h2
      · exact ⟨_, k2, by simp; omega⟩
      · exact ⟨_, k3, by simp; omega⟩
    | _ => grind
  | rRollComp h1 h2 =>
    cases hv with
    | rRollComp k1 k2 k3 =>
      rename_i vs n
      rw [h1] at k1; cases k1
      have := pos n
      have := posl vs
      rcases h2 with h2 | h2 <;> cases h2
      · exact ⟨_, k2, by simp; omega⟩
      · exact ⟨_, k3, by simp; omega⟩
    | _ => grind
  | uRollExpr h1 h2 =>
    cases hv with
    | uRollExpr k1 k2 k3 =>
      rename_i vs n
      rw [h1] at k1; cases k1
      have := pos n
      have := posl vs
      rcases h2 with h2 | h2 <;> cases h2
      · exact ⟨_, k2, by simp; omega⟩
      · exact ⟨_, k3, by simp; omega⟩
    | _ => grind
  | uRollComp h1 h2 =>
    cases hv with
    | uRollComp k1 k2 k3 =>
      rename_i vs md n
      rw [h1] at k1; cases k1
      have := pos n
      have := posl vs
      rcases h2 with h2 | h2 <;> cases h2
      · exact ⟨_, k2, by simp; omega⟩
      · exact ⟨_, k3, by simp; omega⟩
    | _ => grind

theorem contains_trans {m : Mem} {r c : Ref} (h : Relation.TransGen (Contains m) r c) :
    ∀ v, Denotes m r v → ∃ v', Denotes m c v' ∧ sizeOf v' < sizeOf v := by
  induction h with
  | single h => intro v hv; exact contains_lt h hv
  | tail _ h ih =>
    intro v hv
    obtain ⟨v1, h1, h2⟩ := ih v hv
    obtain ⟨v2, h3, h4⟩ := contains_lt h h1
    exact ⟨v2, h3, by omega⟩

theorem natStr_no_space (n : Nat) : (natStr n).filter (· ≠ ' ') = natStr n := by
  rw [List.filter_eq_self]
  intro c hc
  have := natStr_isDigit n c hc
  simp only [ne_eq, decide_not, Bool.not_eq_eq_eq_not, Bool.not_true, decide_eq_false_iff_not]
  rintro rfl
  revert this; decide

theorem intStr_no_space (v : Int64) : (intStr v).filter (· ≠ ' ') = intStr v := by
  unfold intStr
  split
  · rw [List.filter_cons_of_pos (by decide), natStr_no_space]
  · exact natStr_no_space _

mutual
theorem tight_plain (isPrint : Char → Bool) : (v : Value) → Plain v →
    v.inspectTight isPrint = (v.inspect isPrint).filter (· ≠ ' ')
  | .integer v, _ => by simp only [Value.inspectTight, Value.inspect, intStr_no_space]
  | .boolean b, _ => by cases b <;> rfl
  | .string s, h => by cases h
  | .array vs, h => by
    cases h with
    | array _ h =>
      simp only [Value.inspectTight, Value.inspect, List.filter_append, joinedTight_plain isPrint vs h]
      rfl
  | .bRollComp _ _, h => by cases h
  | .rRollComp _ _, h => by cases h
  | .uRollExpr _ _, h => by cases h
  | .uRollComp _ _ _, h => by cases h
theorem joinedTight_plain (isPrint : Char → Bool) : (vs : List Value) → (∀ v ∈ vs, Plain v) →
    Value.joinedTight isPrint chars!"," vs = (Value.joined isPrint chars!", " vs).filter (· ≠ ' ')
  | [], _ => rfl
  | [v], h => by
    simp only [Value.joinedTight, Value.joined]
    exact tight_plain isPrint v (h v (by simp))
  | v :: w :: vs, h => by
    simp only [Value.joinedTight, Value.joined, List.filter_append,
      tight_plain isPrint v (h v (by simp)),
      joinedTight_plain isPrint (w :: vs) (fun x hx => h x (by simp [hx]))]
    rfl
end

theorem not_ints {m : Mem} : ∀ {es : List Ptr} {vs : List Value}, DenoteAll m es vs →
    (¬ ∃ g : List Int64, vs = g.map .integer) → ∀ acc, m.sumLoop acc es = none := by
  intro es vs h hn acc
  cases hs : m.sumLoop acc es with
  | none => rfl
  | some s =>
    exfalso
    obtain ⟨g, h1, -⟩ := Mem.sumLoop_some m es acc s hs
    refine hn ⟨g, ?_⟩
    clear hn hs
    induction es generalizing vs g with
    | nil => cases h; cases g with
      | nil => rfl
      | cons _ _ => cases h1
    | cons p es ih =>
      cases h with
      | cons h2 h3 =>
        cases g with
        | nil => cases h1
        | cons a g =>
          simp only [List.map_cons, List.cons.injEq] at h1
          obtain ⟨r, hr, h4⟩ := Mem.integerAt_iff.1 h1.1
          cases hr
          rw [ih h3 g h1.2, Denotes.unique h2 (.integer h4), List.map_cons]

theorem groupSums_bad : ∀ (pre : List Value) (v : Value) (post : List Value) (ps : List Ptr) (m : Mem),
    ArrOk m → DenoteAll m ps (pre ++ v :: post) → (∀ x ∈ pre, IsIntArray x) → ¬ IsIntArray v →
    ∃ m1, m.groupSums ps = (.panic (badGroupMsg v), m1) := by
  intro pre
  induction pre with
  | nil =>
    intro v post ps m ok h _ hv
    cases h with
    | cons h1 h2 =>
      rename_i r ps
      unfold Mem.groupSums
      cases h1 with
      | array k1 k2 =>
        have he : m.elementsAt (some r) = some _ := Mem.elementsAt_iff.2 ⟨_, _, rfl, k1, rfl⟩
        simp only [he]
        have hno := not_ints k2 (fun ⟨g, hg⟩ => hv ⟨g, by rw [hg]⟩) 0
        have : m.sumOfIntegers (some r) = (.ok none, m) := by
          simp only [Mem.sumOfIntegers, he, hno]
        rw [this]
        exact ⟨_, rfl⟩
      | integer k => simp only [Mem.elementsAt, cell_some, k]; exact ⟨_, rfl⟩
      | boolean k => simp only [Mem.elementsAt, cell_some, k]; exact ⟨_, rfl⟩
      | string k => simp only [Mem.elementsAt, cell_some, k]; exact ⟨_, rfl⟩
      | bRollComp k _ _ => simp only [Mem.elementsAt, cell_some, k]; exact ⟨_, rfl⟩
      | rRollComp k _ _ => simp only [Mem.elementsAt, cell_some, k]; exact ⟨_, rfl⟩
      | uRollExpr k _ _ => simp only [Mem.elementsAt, cell_some, k]; exact ⟨_, rfl⟩
      | uRollComp k _ _ => simp only [Mem.elementsAt, cell_some, k]; exact ⟨_, rfl⟩
  | cons x pre ih =>
    intro v post ps m ok h hpre hv
    cases h with
    | cons h1 h2 =>
      rename_i r ps
      obtain ⟨g, rfl⟩ := hpre x (by simp)
      unfold Mem.groupSums
      obtain ⟨es, he, hi⟩ := ints_of_denotes h1
      have hs := sumOfIntegers_some he (Mem.sumLoop_ints m es g 0 hi)
      have e := sumOfIntegers_ext (P := fun _ => True) m (some r)
      simp only [he]
      rw [hs] at e ⊢
      simp only at e ⊢
      obtain ⟨m2, h3⟩ := ih v post ps _ (e.arrOk ok) (e.denoteAll ok h2)
        (fun y hy => hpre y (by simp [hy])) hv
      rw [h3]
      exact ⟨_, rfl⟩

end GoBCDice.ObjMem

namespace GoBCDice

open ObjMem
open Raw (Value)

/-! ## C73: the text of an object -/

/-- C73: values with the same `Inspect` text are equal, and so are values with the same text
without spaces, whatever the table of printable characters. -/
theorem C73_text_identifies (isPrint : Char → Bool) (v w : Value) :
    (v.inspect isPrint = w.inspect isPrint → v = w) ∧
    (v.inspectTight isPrint = w.inspectTight isPrint → v = w) :=
  ⟨fun h => (Value.inspect_split isPrint v w [] [] (by intro c hc; cases hc) (by intro c hc; cases hc)
      (by rw [h])).1,
   fun h => (Value.tight_split isPrint v w [] [] (by intro c hc; cases hc) (by intro c hc; cases hc)
      (by rw [h])).1⟩

/-- C73: in every reachable world, `Inspect` returns exactly on finite trees without nil, given
enough stack, and then returns the text of the value; so does `InspectWithoutSpaces`. -/
theorem C73_inspect (isPrint : Char → Bool) (grow : Nat → Nat) (w : ObjMem.World) (hw : Reachable grow w)
    (p : Ptr) (t : Str) :
    ((∃ d, w.mem.inspect isPrint d p = .ok t) →
      ∃ r v, p = some r ∧ Denotes w.mem r v ∧ t = v.inspect isPrint) ∧
    ((∃ r v, p = some r ∧ Denotes w.mem r v ∧ t = v.inspect isPrint) →
      ∃ d, ∀ d' ≥ d, w.mem.inspect isPrint d' p = .ok t) ∧
    ((∃ d, w.mem.inspectTight isPrint d p = .ok t) →
      ∃ r v, p = some r ∧ Denotes w.mem r v ∧ t = v.inspectTight isPrint) ∧
    ((∃ r v, p = some r ∧ Denotes w.mem r v ∧ t = v.inspectTight isPrint) →
      ∃ d, ∀ d' ≥ d, w.mem.inspectTight isPrint d' p = .ok t) := by
  refine ⟨?_, ?_, ?_, ?_⟩
  · rintro ⟨d, h⟩; exact denotes_of_inspect isPrint hw.inv.typed d p t h
  · rintro ⟨r, v, rfl, h1, rfl⟩
    exact inspect_of_denotes isPrint h1
  · rintro ⟨d, h⟩; exact denotes_of_tight isPrint hw.inv.typed d p t h
  · rintro ⟨r, v, rfl, h1, rfl⟩
    exact tight_of_denotes isPrint h1

/-- An array of the integers 3 and 4, the result of a B roll with it, and an array that contains
itself. -/
def exampleOps : List Op :=
  [.newInteger 3, .newInteger 4, .make [some 0, some 1] 2, .newArray 0, .newInteger 1,
   .newBRollComp (some 2) (some 3), .make [none] 1, .newArrayByMove 1, .write 1 0 (some 5)]

/-- Non-vacuity: the world is reachable, the texts are those of the unit tests
(b_roll_comp_result_test.go), and the array that contains itself overflows the stack. -/
example :
    let w := ObjMem.World.empty.run (· + 1) exampleOps
    Reachable (· + 1) w ∧
    w.mem.inspect (fun _ => true) 3 (some 4) =
      .ok chars!"<BRollCompResult Values=[3, 4], NumOfSuccesses=1>" ∧
    w.mem.inspectTight (fun _ => true) 2 (some 2) = .ok chars!"[3,4]" ∧
    w.mem.inspect (fun _ => true) 1 (some 2) = .panic Raw.stackOverflow ∧
    w.mem.elementsAt (some 5) = some [some 5] ∧
    w.mem.inspect (fun _ => true) 20 (some 5) = .panic Raw.stackOverflow :=
  ⟨⟨_, rfl⟩, by decide, by decide, by decide, by decide, by decide⟩

/-- Non-vacuity: what the objects of this world stand for. -/
example : Denotes (ObjMem.World.empty.run (· + 1) exampleOps).mem 4
    (.bRollComp [.integer 3, .integer 4] 1) :=
  .bRollComp (a := 2) (i := 3) (by decide)
    (.array (s := ⟨1, 0, 2, 2⟩) (by decide)
      (show DenoteAll _ [some 0, some 1] _ from
        .cons (.integer (by decide)) (.cons (.integer (by decide)) .nil)))
    (.integer (by decide))

/-- Texts differ although the digits are the same. -/
example : Value.inspect (fun _ => true) (.array [.integer 1, .integer 2]) = chars!"[1, 2]" ∧
    Value.inspect (fun _ => true) (.array [.array [.integer 1], .integer 2]) = chars!"[[1], 2]" ∧
    Value.inspect (fun _ => true) (.array [.string chars!"1, 2"]) = chars!"[\"1, 2\"]" :=
  ⟨by decide, by decide, by decide⟩

/-- C73: in every reachable world, two objects whose `Inspect` returns the same text stand for the
same value. -/
theorem C73_same_text (isPrint : Char → Bool) (grow : Nat → Nat) (w : ObjMem.World) (hw : Reachable grow w)
    (p q : Ptr) (d d' : Nat) (t : Str) (hp : w.mem.inspect isPrint d p = .ok t)
    (hq : w.mem.inspect isPrint d' q = .ok t) :
    ∃ r r' v, p = some r ∧ q = some r' ∧ Denotes w.mem r v ∧ Denotes w.mem r' v := by
  obtain ⟨r, v, h1, h2, h3⟩ := denotes_of_inspect isPrint hw.inv.typed d p t hp
  obtain ⟨r', v', h4, h5, h6⟩ := denotes_of_inspect isPrint hw.inv.typed d' q t hq
  have := (C73_text_identifies isPrint v v').1 (by rw [← h3, ← h6])
  subst this
  exact ⟨r, r', v, h1, h4, h2, h5⟩

/-- C73: on values made of integers, Booleans and arrays, the text without spaces is the text with
its spaces removed. -/
theorem C73_without_spaces (isPrint : Char → Bool) (v : Value) (h : Plain v) :
    v.inspectTight isPrint = (v.inspect isPrint).filter (· ≠ ' ') :=
  tight_plain isPrint v h

/-- The restriction is needed: spaces inside strings and roll results stay. -/
example : Value.inspectTight (fun _ => true) (.array [.string chars!"a b", .integer 1]) =
    chars!"[\"a b\",1]" ∧
    Plain (.array [.integer 1, .array [.boolean true]]) := by
  refine ⟨by decide, .array _ ?_⟩
  intro v hv
  simp only [List.mem_cons, List.not_mem_nil, or_false] at hv
  rcases hv with rfl | rfl
  · exact .integer _
  · refine .array _ ?_
    intro v hv
    simp only [List.mem_cons, List.not_mem_nil, or_false] at hv
    subst hv
    exact .boolean _

/-- C73: the type of an object that stands for a value is printed as in the table. -/
theorem C73_type (m : Mem) (r : Ref) (v : Value) (h : Denotes m r v) :
    m.typeName (some r) = .ok (typeText v).toList ∧ v.typeName = (typeText v).toList := by
  cases h with
  | integer h =>
    have e : chars!"INTEGER" = "INTEGER".toList := by decide
    exact ⟨by simp only [Mem.typeName, cell_some, h]; exact congrArg Out.ok e, e⟩
  | boolean h =>
    have e : chars!"BOOLEAN" = "BOOLEAN".toList := by decide
    exact ⟨by simp only [Mem.typeName, cell_some, h]; exact congrArg Out.ok e, e⟩
  | string h =>
    have e : chars!"STRING" = "STRING".toList := by decide
    exact ⟨by simp only [Mem.typeName, cell_some, h]; exact congrArg Out.ok e, e⟩
  | array h _ =>
    have e : chars!"ARRAY" = "ARRAY".toList := by decide
    exact ⟨by simp only [Mem.typeName, cell_some, h]; exact congrArg Out.ok e, e⟩
  | bRollComp h _ _ =>
    have e : chars!"B_ROLL_COMP_RESULT" = "B_ROLL_COMP_RESULT".toList := by decide
    exact ⟨by simp only [Mem.typeName, cell_some, h]; exact congrArg Out.ok e, e⟩
  | rRollComp h _ _ =>
    have e : chars!"R_ROLL_COMP_RESULT" = "R_ROLL_COMP_RESULT".toList := by decide
    exact ⟨by simp only [Mem.typeName, cell_some, h]; exact congrArg Out.ok e, e⟩
  | uRollExpr h _ _ =>
    have e : chars!"U_ROLL_EXPR_RESULT" = "U_ROLL_EXPR_RESULT".toList := by decide
    exact ⟨by simp only [Mem.typeName, cell_some, h]; exact congrArg Out.ok e, e⟩
  | uRollComp h _ _ =>
    have e : chars!"U_ROLL_COMP_RESULT" = "U_ROLL_COMP_RESULT".toList := by decide
    exact ⟨by simp only [Mem.typeName, cell_some, h]; exact congrArg Out.ok e, e⟩

/-- C73: an object that contains itself, directly or through others, has no text: `Inspect` never
returns one, however large the stack. -/
theorem C73_cycle (isPrint : Char → Bool) (grow : Nat → Nat) (w : ObjMem.World) (hw : Reachable grow w)
    (r : Ref) (h : Relation.TransGen (Contains w.mem) r r) (d : Nat) (t : Str) :
    w.mem.inspect isPrint d (some r) ≠ .ok t ∧ w.mem.inspectTight isPrint d (some r) ≠ .ok t := by
  have key : ∀ v, ¬ Denotes w.mem r v := by
    intro v hv
    obtain ⟨v', h1, h2⟩ := contains_trans h v hv
    have := Denotes.unique h1 hv
    subst this
    omega
  refine ⟨?_, ?_⟩
  · intro hi
    obtain ⟨r', v, he, hd, -⟩ := denotes_of_inspect isPrint hw.inv.typed d _ t hi
    cases he
    exact key v hd
  · intro hi
    obtain ⟨r', v, he, hd, -⟩ := denotes_of_tight isPrint hw.inv.typed d _ t hi
    cases he
    exact key v hd

/-- Non-vacuity: the array above, and two arrays that contain each other. -/
example :
    Relation.TransGen (Contains (ObjMem.World.empty.run (· + 1) exampleOps).mem) 5 5 ∧
    Relation.TransGen (Contains (ObjMem.World.empty.run (· + 1) [.make [none] 1, .newArrayByMove 0,
      .make [some 0] 1, .newArrayByMove 1, .write 0 0 (some 1)]).mem) 0 0 :=
  ⟨.single (.array (s := ⟨2, 0, 1, 1⟩) (by decide) (by decide)),
   .tail (.single (.array (c := 1) (s := ⟨0, 0, 1, 1⟩) (by decide) (by decide)))
     (.array (s := ⟨1, 0, 1, 1⟩) (by decide) (by decide))⟩

/-! ## C74: greatest element and sum of an array -/

/-- C74: `MaxInteger` of a non-empty array of integers returns the element object itself that holds
the greatest value, the first of them if there are several, and changes nothing. -/
theorem C74_max (m : Mem) (a : Ptr) (els : List Ptr) (vs : List Int64) (ha : m.elementsAt a = some els)
    (hne : els ≠ []) (hv : els.map m.integerAt = vs.map some) :
    ∃ i r v, els[i]? = some (some r) ∧ vs[i]? = some v ∧ m.maxInteger a = (.ok (some r), m) ∧
      ∀ (j : Nat) (x : Int64), vs[j]? = some x →
        x.toInt ≤ v.toInt ∧ (j < i → x.toInt < v.toInt) := by
  cases els with
  | nil => exact absurd rfl hne
  | cons p els =>
    cases vs with
    | nil => cases hv
    | cons v vs =>
      simp only [List.map_cons, List.cons.injEq] at hv
      cases p with
      | none => cases hv.1
      | some q =>
        obtain ⟨i, r, x, h1, h2, h3, h4⟩ := Mem.maxLoop_ints m els vs q v hv.2
        exact ⟨i, r, x, h1, h2, by simp only [Mem.maxInteger, ha, hv.1, h3], h4⟩

/-- C74: `SumOfIntegers` of an array of integers returns a new object that holds the sum modulo
2^64, and changes nothing else; the sum of no elements is 0. -/
theorem C74_sum (m : Mem) (a : Ptr) (els : List Ptr) (vs : List Int64) (ha : m.elementsAt a = some els)
    (hv : els.map m.integerAt = vs.map some) :
    m.sumOfIntegers a = (.ok (some m.objs.length),
      { m with objs := m.objs ++ [.integer (Int64.ofInt (vs.map Int64.toInt).sum)] }) := by
  rw [sumOfIntegers_some ha (Mem.sumLoop_ints m els vs 0 hv), Int64.zero_add, int64_sum]
  rfl

/-- C74: `MaxInteger` of an empty array is a new object that holds 0. -/
theorem C74_max_empty (m : Mem) (a : Ptr) (ha : m.elementsAt a = some []) :
    m.maxInteger a = (.ok (some m.objs.length), { m with objs := m.objs ++ [.integer 0] }) := by
  simp only [Mem.maxInteger, ha]; rfl

/-- C74: both report failure (nil, false) and change nothing as soon as one element is nil or no
integer. -/
theorem C74_other (m : Mem) (a : Ptr) (els : List Ptr) (ha : m.elementsAt a = some els)
    (h : ∃ p ∈ els, m.integerAt p = none) :
    m.maxInteger a = (.ok none, m) ∧ m.sumOfIntegers a = (.ok none, m) := by
  refine ⟨?_, by simp only [Mem.sumOfIntegers, ha, Mem.sumLoop_other m els 0 h]⟩
  obtain ⟨q, hq, hn⟩ := h
  cases els with
  | nil => cases hq
  | cons p els =>
    cases p with
    | none => simp only [Mem.maxInteger, ha]
    | some r =>
      cases hr : m.integerAt (some r) with
      | none => simp only [Mem.maxInteger, ha, hr]
      | some v =>
        have : ∃ p ∈ els, m.integerAt p = none := by
          rcases List.mem_cons.1 hq with rfl | h
          · rw [hr] at hn; cases hn
          · exact ⟨q, h, hn⟩
        simp only [Mem.maxInteger, ha, hr, Mem.maxLoop_other m els r v this]

/-- Non-vacuity: the greatest element is returned itself, the first of two equal ones (`object 1`,
not `object 2`), so an assignment to the answer changes the array; the sum is a new object. -/
example :
    let w := ObjMem.World.empty.run (· + 1)
      [.newInteger (-3), .newInteger 5, .newInteger 5, .make [some 0, some 1, some 2] 3, .newArray 0]
    (w.mem.maxInteger (some 3)).1 = .ok (some 1) ∧
    ((w.mem.sumOfIntegers (some 3)).2.objs[4]?) = some (.integer 7) ∧
    ((w.step (· + 1) (.setInteger (some 1) 0)).mem.inspect (fun _ => true) 2 (some 3)) =
      .ok chars!"[-3, 0, 5]" :=
  ⟨by decide, by decide, by decide⟩

/-- Non-vacuity: the sum wraps around; a Boolean among the elements is reported. -/
example :
    let w := ObjMem.World.empty.run (· + 1)
      [.newInteger Int64.maxValue, .newInteger 1, .newBoolean true, .make [some 0, some 1] 2,
       .newArray 0, .make [some 0, some 2] 2, .newArray 1]
    ((w.mem.sumOfIntegers (some 3)).2.objs[5]?) = some (.integer Int64.minValue) ∧
    w.mem.sumOfIntegers (some 4) = (.ok none, w.mem) ∧ w.mem.maxInteger (some 4) = (.ok none, w.mem) :=
  ⟨by decide, by decide, by decide⟩

/-! ## C75: constructors of arrays -/

/-- C75: an array made by `NewArray` has elements of its own: in every history the array keeps the
elements passed, as long as the field `Elements` of this very array is neither read nor assigned. -/
theorem C75_newArray_copies (grow : Nat → Nat) (w : ObjMem.World) (hw : Reachable grow w) (i : Nat) (s : Slice)
    (hs : w.slices[i]? = some s) (ops : List Op)
    (h1 : .elements (some w.mem.objs.length) ∉ ops)
    (h2 : ∀ j, .setElements (some w.mem.objs.length) j ∉ ops) :
    (w.mem.newArray s).1 = w.mem.objs.length ∧
    ((w.step grow (.newArray i)).run grow ops).mem.elementsAt (some w.mem.objs.length) =
      some (w.mem.contents s) := by
  refine ⟨rfl, ?_⟩
  obtain ⟨t, ht⟩ := newArray_iso grow hw.inv hs
  have h := ht.run grow ops h1 h2
  exact Mem.elementsAt_iff.2 ⟨_, t, rfl, h.cell, h.contents⟩

/-- C75: an array made by `NewArrayByMove` shares its elements with the slice passed: in every
history the elements of the array are what that slice shows at the end, as long as the field of
this very array is not assigned. -/
theorem C75_newArrayByMove_shares (grow : Nat → Nat) (w : ObjMem.World) (hw : Reachable grow w) (i : Nat)
    (s : Slice) (hs : w.slices[i]? = some s) (ops : List Op)
    (h2 : ∀ j, .setElements (some w.mem.objs.length) j ∉ ops) :
    (w.mem.newArrayByMove s).1 = w.mem.objs.length ∧
    ((w.step grow (.newArrayByMove i)).run grow ops).mem.elementsAt (some w.mem.objs.length) =
      some (((w.step grow (.newArrayByMove i)).run grow ops).mem.contents s) := by
  refine ⟨rfl, ?_⟩
  have hc : (w.step grow (.newArrayByMove i)).mem.objs[w.mem.objs.length]? = some (.array s) := by
    simp only [ObjMem.World.step, hs]
    exact w.mem.objs_alloc_new _
  have h := array_run grow (step_inv grow hw.inv _) hc ops h2
  exact Mem.elementsAt_iff.2 ⟨_, s, rfl, h, rfl⟩

/-- C75: `slice[k] = p` replaces the element and nothing else of this slice. -/
theorem C75_write (grow : Nat → Nat) (w : ObjMem.World) (hw : Reachable grow w) (i : Nat) (s : Slice)
    (hs : w.slices[i]? = some s) (k : Nat) (hk : k < s.len) (p : Ptr) (hp : w.mem.isObject p = true) :
    (w.step grow (.write i k p)).slices = w.slices ∧
    (w.step grow (.write i k p)).mem.contents s = (w.mem.contents s).set k p ∧ k < (w.mem.contents s).length := by
  have hf := hw.fit.slices s (List.mem_of_getElem? hs)
  refine ⟨?_, ?_, by rw [contents_length hf]; exact hk⟩
  · simp [ObjMem.World.step, hs, hk, hp]
  · simp only [ObjMem.World.step, hs, hk, hp, decide_true, Bool.and_true, if_true]
    exact contents_writeBack hf k p

/-- C75: `slice = append(slice, p)` gives the elements of the slice followed by `p`, wherever it puts
them; slices and arrays whose elements are in other memory keep theirs. -/
theorem C75_append (grow : Nat → Nat) (w : ObjMem.World) (hw : Reachable grow w) (i : Nat) (s : Slice)
    (hs : w.slices[i]? = some s) (p : Ptr) (hp : w.mem.isObject p = true) :
    (∃ t, (w.step grow (.extend i p)).slices = w.slices.set i t ∧
      (w.step grow (.extend i p)).mem.contents t = w.mem.contents s ++ [p]) ∧
    ∀ u : Slice, u.arr < w.mem.backs.length → u.arr ≠ s.arr →
      (w.step grow (.extend i p)).mem.contents u = w.mem.contents u := by
  have hf := hw.fit.slices s (List.mem_of_getElem? hs)
  have hstep : w.step grow (.extend i p) =
      { mem := (w.mem.append1 grow s p).2, slices := w.slices.set i (w.mem.append1 grow s p).1 } := by
    simp [ObjMem.World.step, hs, hp]
  rw [hstep]
  refine ⟨⟨_, rfl, contents_append1 grow hf p⟩, fun u hu hne => ?_⟩
  have := (append1_props grow w.mem s p (hw.inv.slices s (List.mem_of_getElem? hs))).2.2.2.2 u.arr hu hne
  simp only [Mem.contents, List.getD, this]

/-- C75: `append` with room to spare writes behind the slice: what another slice of the same memory
shows there changes. -/
theorem C75_append_shows :
    let w := ObjMem.World.empty.run (· + 1) [.newInteger 1, .newInteger 2, .make [some 0, some 0] 2, .reslice 0 0 1 2]
    let w' := w.step (· + 1) (.extend 1 (some 1))
    w.slices.map w.mem.contents = [[some 0, some 0], [some 0]] ∧
    w'.slices.map w'.mem.contents = [[some 0, some 1], [some 0, some 1]] := by decide

/-- Non-vacuity: after `slice[0] = …` the array made by `NewArray` is as before, the array made by
`NewArrayByMove` has changed. -/
example :
    let w := ObjMem.World.empty.run (· + 1)
      [.newInteger 1, .newInteger 2, .make [some 0] 4, .newArray 0, .newArrayByMove 0,
       .write 0 0 (some 1), .extend 0 (some 0)]
    w.mem.elementsAt (some 2) = some [some 0] ∧ w.mem.elementsAt (some 3) = some [some 1] :=
  ⟨by decide, by decide⟩

/-! ## C76: results of U rolls -/

/-- C76: calls of the package never change the value of an object: in every history without
assignments an object keeps its value, hence its texts. -/
theorem C76_calls_do_not_modify (grow : Nat → Nat) (w : ObjMem.World) (hw : Reachable grow w) (ops : List Op)
    (h : ∀ op ∈ ops, op.assigns = false) (r : Ref) (v : Value) (hv : Denotes w.mem r v) :
    Denotes (w.run grow ops).mem r v :=
  (run_ext grow hw.inv ops h).denotes hw.inv.arr hv

/-- C76: however many calls come between, in every history without assignments since its
construction the result of a U roll answers `SumOfGroups` with the array of the sums of its groups,
`SumOfValues` with their sum plus the modifier, and `MaxValue` with the greatest of them plus the
modifier (0 plus the modifier without groups), modulo 2^64; the answers of the latter two are new
objects. -/
theorem C76_values (grow : Nat → Nat) (w : ObjMem.World) (hw : Reachable grow w) (g md : Ptr) (r : Ref)
    (groups : List (List Int64)) (n : Int64) (hr : r = w.mem.objs.length)
    (hv : Denotes (w.step grow (.newURollExpr g md)).mem r
      (.uRollExpr (groups.map fun g => .array (g.map .integer)) n))
    (ops : List Op) (h : ∀ op ∈ ops, op.assigns = false) :
    let m := ((w.step grow (.newURollExpr g md)).run grow ops).mem
    (∃ c m1, m.sumOfGroups (some r) = (.ok (some c), m1) ∧
      Denotes m1 c (.array ((groups.map List.sum).map .integer))) ∧
    (∃ x m1, m.sumOfValues (some r) = (.ok x, m1) ∧ m.objs[x]? = none ∧
      Denotes m1 x (.integer ((groups.map List.sum).sum + n))) ∧
    (∃ x m1 mx, m.maxValue (some r) = (.ok x, m1) ∧ m.objs[x]? = none ∧
      Denotes m1 x (.integer (mx + n)) ∧
      (groups = [] ∧ mx = 0 ∨
        mx ∈ groups.map List.sum ∧ ∀ y ∈ groups.map List.sum, y.toInt ≤ mx.toInt)) := by
  intro m
  have hw1 := step_inv grow hw.inv (.newURollExpr g md)
  have u0 : UOk (w.step grow (.newURollExpr g md)).mem r groups n := by
    refine ⟨hw1.arr, hv, ?_⟩
    intro g' md' k hk
    exfalso
    subst hr
    simp only [ObjMem.World.step] at hk
    split at hk
    · simp only at hk
      have := Mem.objs_alloc_new w.mem (.uRollExpr g md none)
      rw [show (w.mem.alloc (.uRollExpr g md none)).1 = w.mem.objs.length from rfl] at this
      rw [this] at hk
      cases hk
    · rw [List.getElem?_eq_none (Nat.le_refl _)] at hk; cases hk
  have u : UOk m r groups n := u0.ext (run_ext grow hw1 ops h)
  refine ⟨?_, ?_, ?_⟩
  · obtain ⟨c, m1, qs, h1, h2, h3, h4⟩ := u.sumOfGroups
    refine ⟨c, m1, h1, ?_⟩
    obtain ⟨_, s, he, h5, h6⟩ := Mem.elementsAt_iff.1 h3
    cases he
    refine .array h5 ?_
    rw [h6]
    clear h3 h6 h5 h1
    generalize groups.map List.sum = xs at h4
    induction qs generalizing xs with
    | nil => cases xs with
      | nil => exact .nil
      | cons _ _ => cases h4
    | cons q qs ih =>
      cases xs with
      | nil => cases h4
      | cons x xs =>
        simp only [List.map_cons, List.cons.injEq] at h4
        obtain ⟨y, hy, h7⟩ := Mem.integerAt_iff.1 h4.1
        subst hy
        exact .cons (.integer h7) (ih xs h4.2)
  · obtain ⟨x, m1, h1, h2, h3, h4⟩ := u.sumOfValues
    obtain ⟨_, he, h5⟩ := Mem.integerAt_iff.1 h4
    cases he
    exact ⟨x, m1, h1, List.getElem?_eq_none h3, .integer h5⟩
  · obtain ⟨x, m1, mx, h1, h2, h3, h4, h5⟩ := u.maxValue
    obtain ⟨_, he, h6⟩ := Mem.integerAt_iff.1 h4
    cases he
    exact ⟨x, m1, mx, h1, List.getElem?_eq_none h3, .integer h6, h5⟩

/-- C76: the sums are computed once.  After a successful `SumOfGroups`, in every history, with
whatever assignments, `SumOfGroups` returns the same array object, without computing anything, even
if the groups have changed since. -/
theorem C76_computed_once (grow : Nat → Nat) (w : ObjMem.World) (hw : Reachable grow w) (p c : Ptr)
    (h : (w.mem.sumOfGroups p).1 = .ok c) (ops : List Op) :
    let m := ((w.step grow (.sumOfGroups p)).run grow ops).mem
    m.sumOfGroups p = (.ok c, m) := by
  intro m
  cases p with
  | none => cases h
  | some r =>
    have hcell : ∃ g md k, (w.step grow (.sumOfGroups (some r))).mem.objs[r]? =
        some (.uRollExpr g md (some k)) ∧ c = some k := by
      simp only [ObjMem.World.step, Mem.sumOfGroups] at h ⊢
      split at h
      · next g md k hk =>
        cases h
        exact ⟨g, md, k, hk, rfl⟩
      · next g md hk =>
        have e := calculate_ext (P := fun _ => True) hw.inv.arr hk
        generalize w.mem.calculateSumOfGroups r g md = y at e h ⊢
        obtain ⟨o, m1⟩ := y
        rcases o with x | msg | msg
        · simp only [Out.ok.injEq] at h
          subst h
          exact ⟨g, md, x, (e.2 x m1 rfl).2.1, rfl⟩
        · cases h
        · cases h
      · cases h
    obtain ⟨g, md, k, hk, rfl⟩ := hcell
    obtain ⟨k', h1, h2⟩ := uRoll_run grow (step_inv grow hw.inv _) hk ops
    have := h2 (by simp)
    subst this
    show m.sumOfGroups (some r) = _
    simp only [Mem.sumOfGroups]
    have h1' : m.objs[r]? = some (.uRollExpr g md (some k)) := h1
    rw [h1']

/-- Two groups (3, 4) and (5), modifier 1. -/
def exampleGroups : List Op :=
  [.newInteger 3, .newInteger 4, .newInteger 5, .make [some 0, some 1] 2, .newArray 0,
   .make [some 2] 1, .newArray 1, .make [some 3, some 4] 2, .newArray 2, .newInteger 1,
   .newURollExpr (some 5) (some 6)]

/-- Non-vacuity: the greatest group has the sum 7, the total is 12; both plus 1.  After a call and
an assignment to a die the text shows the new die, but the sums stay those of before; without the
call they would be the new ones. -/
example :
    let w := ObjMem.World.empty.run (· + 1) exampleGroups
    let changed := w.step (· + 1) (.setInteger (some 0) 100)
    let called := (w.step (· + 1) (.maxValue (some 7))).step (· + 1) (.setInteger (some 0) 100)
    (w.mem.maxValue (some 7)).2.objs.getLast? = some (.integer 8) ∧
    (w.mem.sumOfValues (some 7)).2.objs.getLast? = some (.integer 13) ∧
    (changed.mem.maxValue (some 7)).2.objs.getLast? = some (.integer 105) ∧
    (called.mem.maxValue (some 7)).2.objs.getLast? = some (.integer 8) ∧
    called.mem.inspect (fun _ => true) 4 (some 7) =
      .ok chars!"<URollExprResult ValueGroups=[[100, 4], [5]], Modifier=1>" :=
  ⟨by decide, by decide, by decide, by decide, by decide⟩

/-- Non-vacuity: this is a result of a U roll as `C76_values` requires. -/
example :
    let w := ObjMem.World.empty.run (· + 1) (exampleGroups.take 10)
    Reachable (· + 1) w ∧ w.mem.objs.length = 7 ∧
    Denotes (w.step (· + 1) (.newURollExpr (some 5) (some 6))).mem 7
      (.uRollExpr ([[3, 4], [5]].map fun g => .array (g.map .integer)) 1) := by
  refine ⟨⟨_, rfl⟩, by decide, ?_⟩
  refine .uRollExpr (a := 5) (i := 6) (cache := none) (by decide)
    (.array (s := ⟨5, 0, 2, 2⟩) (by decide)
      (show DenoteAll _ [some 3, some 4] _ from .cons ?_ (.cons ?_ .nil))) (.integer (by decide))
  · exact .array (s := ⟨1, 0, 2, 2⟩) (by decide)
      (show DenoteAll _ [some 0, some 1] _ from
        .cons (.integer (by decide)) (.cons (.integer (by decide)) .nil))
  · exact .array (s := ⟨3, 0, 1, 1⟩) (by decide)
      (show DenoteAll _ [some 2] _ from .cons (.integer (by decide)) .nil)

/-- Non-vacuity: groups that are not arrays of integers. -/
example :
    let w := ObjMem.World.empty.run (· + 1)
      [.newInteger 3, .newBoolean true, .make [some 1] 1, .newArray 0, .make [some 2] 1, .newArray 1,
       .newURollExpr (some 3) (some 0), .newURollExpr (some 2) (some 0)]
    (w.mem.sumOfGroups (some 4)).1 = .panic chars!"valueGroups contain non-Integer elements" ∧
    (w.mem.sumOfGroups (some 5)).1 = .panic Raw.interfaceConversion :=
  ⟨by decide, by decide⟩

/-- C76: if some group is not an array of integers, the first call of `SumOfGroups`, `MaxValue` or
`SumOfValues` panics, and the first such group decides the message. -/
theorem C76_bad_groups (grow : Nat → Nat) (w : ObjMem.World) (hw : Reachable grow w) (g md : Ptr) (r : Ref)
    (pre : List Value) (v : Value) (post : List Value) (n : Int64)
    (hc : w.mem.objs[r]? = some (.uRollExpr g md none))
    (hv : Denotes w.mem r (.uRollExpr (pre ++ v :: post) n)) (hpre : ∀ x ∈ pre, IsIntArray x)
    (hbad : ¬ IsIntArray v) :
    ∃ m1, w.mem.sumOfGroups (some r) = (.panic (badGroupMsg v), m1) ∧
      w.mem.maxValue (some r) = (.panic (badGroupMsg v), m1) ∧
      w.mem.sumOfValues (some r) = (.panic (badGroupMsg v), m1) := by
  have key : ∃ m1, w.mem.sumOfGroups (some r) = (.panic (badGroupMsg v), m1) := by
    cases hv with
    | uRollExpr h1 h2 h3 =>
      rw [hc] at h1; cases h1
      rename_i i
      cases h2 with
      | array h4 h5 =>
        have he : w.mem.elementsAt (some _) = some _ := Mem.elementsAt_iff.2 ⟨_, _, rfl, h4, rfl⟩
        obtain ⟨m1, h6⟩ := groupSums_bad pre v post _ w.mem hw.inv.arr h5 hpre hbad
        have := calculate_eq w.mem r _ (some i) he
        rw [h6] at this
        exact ⟨m1, by simp only [Mem.sumOfGroups, hc]; rw [this]⟩
  obtain ⟨m1, h⟩ := key
  exact ⟨m1, h, by simp only [Mem.maxValue, h], by simp only [Mem.sumOfValues, h]⟩

end GoBCDice
