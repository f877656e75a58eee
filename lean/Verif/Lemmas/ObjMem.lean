import Verif.Spec.Object

/-!
# Result objects in memory: maxima, sums, what the calls of the package leave unchanged
-/

namespace GoBCDice.ObjMem

open Raw (Value nilDereference interfaceConversion stackOverflow)

/-! ## Maxima and sums -/

namespace Mem

theorem integerAt_none (m : Mem) : m.integerAt none = none := rfl

theorem maxLoop_ints (m : Mem) : ∀ (rest : List Ptr) (vs : List Int64) (best : Ref) (max : Int64),
    rest.map m.integerAt = vs.map some →
    ∃ i r v, (some best :: rest)[i]? = some (some r) ∧ (max :: vs)[i]? = some v ∧
      m.maxLoop best max rest = some r ∧
      ∀ (j : Nat) (x : Int64), (max :: vs)[j]? = some x →
        x.toInt ≤ v.toInt ∧ (j < i → x.toInt < v.toInt) := by
  intro rest
  induction rest with
  | nil =>
    intro vs best max h
    cases vs with
    | cons v vs => cases h
    | nil =>
      refine ⟨0, best, max, rfl, rfl, rfl, fun j x hx => ?_⟩
      cases j with
      | zero => simp at hx; subst hx; exact ⟨Int.le_refl _, by omega⟩
      | succ j => simp at hx
  | cons p rest ih =>
    intro vs best max h
    cases vs with
    | nil => cases h
    | cons v vs =>
      simp only [List.map_cons, List.cons.injEq] at h
      obtain ⟨hp, hrest⟩ := h
      cases p with
      | none => cases hp
      | some q =>
        by_cases hgt : v > max
        · obtain ⟨i, r, y, h1, h2, h3, h4⟩ := ih vs q v hrest
          have hlt : max.toInt < v.toInt := Int64.lt_iff_toInt_lt.1 hgt
          have hvy := (h4 0 v rfl).1
          refine ⟨i + 1, r, y, by simpa using h1, by simpa using h2, ?_, fun j x hx => ?_⟩
          · simp only [maxLoop, hp, if_pos hgt]; exact h3
          · cases j with
            | zero => simp at hx; subst hx; exact ⟨by omega, fun _ => by omega⟩
            | succ j =>
              have := h4 j x (by simpa using hx)
              exact ⟨this.1, fun h => this.2 (by omega)⟩
        · obtain ⟨i, r, y, h1, h2, h3, h4⟩ := ih vs best max hrest
          have hle : v.toInt ≤ max.toInt := by
            have := mt Int64.lt_iff_toInt_lt.2 hgt; omega
          have hres : m.maxLoop best max (some q :: rest) = some r := by
            simp only [maxLoop, hp, if_neg hgt]; exact h3
          have hmy := (h4 0 max rfl).1
          cases i with
          | zero =>
            simp at h1 h2
            refine ⟨0, r, y, by simp [h1], by simp [h2], hres, fun j x hx => ?_⟩
            refine ⟨?_, by omega⟩
            cases j with
            | zero => exact (h4 0 x hx).1
            | succ j =>
              cases j with
              | zero => simp at hx; subst hx; omega
              | succ j => exact (h4 (j + 1) x (by simpa using hx)).1
          | succ i =>
            refine ⟨i + 2, r, y, by simpa using h1, by simpa using h2, hres, fun j x hx => ?_⟩
            have hm : max.toInt < y.toInt := (h4 0 max rfl).2 (by omega)
            cases j with
            | zero => simp at hx; subst hx; exact ⟨by omega, fun _ => hm⟩
            | succ j =>
              cases j with
              | zero => simp at hx; subst hx; exact ⟨by omega, fun _ => by omega⟩
              | succ j =>
                have := h4 (j + 1) x (by simpa using hx)
                exact ⟨this.1, fun h => this.2 (by omega)⟩

theorem maxLoop_other (m : Mem) : ∀ (rest : List Ptr) (best : Ref) (max : Int64),
    (∃ p ∈ rest, m.integerAt p = none) → m.maxLoop best max rest = none := by
  intro rest
  induction rest with
  | nil => rintro best max ⟨p, hp, -⟩; cases hp
  | cons p rest ih =>
    rintro best max ⟨q, hq, hn⟩
    cases p with
    | none => rfl
    | some r =>
      cases hr : m.integerAt (some r) with
      | none => simp [maxLoop, hr]
      | some v =>
        have hrest : ∃ p ∈ rest, m.integerAt p = none := by
          rcases List.mem_cons.1 hq with rfl | h
          · rw [hr] at hn; cases hn
          · exact ⟨q, h, hn⟩
        simp only [maxLoop, hr]
        split
        · exact ih _ _ hrest
        · exact ih _ _ hrest

theorem sumLoop_ints (m : Mem) : ∀ (els : List Ptr) (vs : List Int64) (acc : Int64),
    els.map m.integerAt = vs.map some → m.sumLoop acc els = some (acc + vs.sum) := by
  intro els
  induction els with
  | nil =>
    intro vs acc h
    cases vs with
    | nil => simp [sumLoop]
    | cons v vs => cases h
  | cons p els ih =>
    intro vs acc h
    cases vs with
    | nil => cases h
    | cons v vs =>
      simp only [List.map_cons, List.cons.injEq] at h
      simp only [sumLoop, h.1, ih vs _ h.2, List.sum_cons, Int64.add_assoc]

theorem sumLoop_other (m : Mem) : ∀ (els : List Ptr) (acc : Int64),
    (∃ p ∈ els, m.integerAt p = none) → m.sumLoop acc els = none := by
  intro els
  induction els with
  | nil => rintro acc ⟨p, hp, -⟩; cases hp
  | cons p els ih =>
    rintro acc ⟨q, hq, hn⟩
    cases hr : m.integerAt p with
    | none => simp [sumLoop, hr]
    | some v =>
      simp only [sumLoop, hr]
      refine ih _ ?_
      rcases List.mem_cons.1 hq with rfl | h
      · rw [hr] at hn; cases hn
      · exact ⟨q, h, hn⟩

theorem sumLoop_some (m : Mem) : ∀ (els : List Ptr) (acc s : Int64), m.sumLoop acc els = some s →
    ∃ vs : List Int64, els.map m.integerAt = vs.map some ∧ s = acc + vs.sum := by
  intro els
  induction els with
  | nil => intro acc s h; simp [sumLoop] at h; exact ⟨[], rfl, by simp [h]⟩
  | cons p els ih =>
    intro acc s h
    simp only [sumLoop] at h
    split at h
    · cases h
    · next v hv =>
      obtain ⟨vs, h1, h2⟩ := ih _ _ h
      exact ⟨v :: vs, by simp [hv, h1], by simp [h2, Int64.add_assoc]⟩

theorem objs_alloc_new (m : Mem) (c : Cell) :
    (m.alloc c).2.objs[(m.alloc c).1]? = some c := by simp [alloc]

theorem objs_alloc_old (m : Mem) (c : Cell) {r : Ref} {x : Cell} (h : m.objs[r]? = some x) :
    (m.alloc c).2.objs[r]? = some x := by
  simp only [alloc]
  rw [List.getElem?_append_left (List.getElem?_eq_some_iff.1 h).1]; exact h

end Mem

/-- A sum modulo 2^64 of machine integers is the machine integer of the mathematical sum. -/
theorem int64_sum (vs : List Int64) : vs.sum = Int64.ofInt ((vs.map Int64.toInt).sum) := by
  induction vs with
  | nil => rfl
  | cons v vs ih =>
    rw [List.sum_cons, List.map_cons, List.sum_cons, Int64.ofInt_add, Int64.ofInt_toInt, ih]

/-! ## Types -/

/-- The fields of an object have the types Go requires. -/
def CellTyped (m : Mem) : Cell → Prop
  | .bRollComp a n => m.isArray a = true ∧ m.isInteger n = true
  | .rRollComp a n => m.isArray a = true ∧ m.isInteger n = true
  | .uRollExpr a n _ => m.isArray a = true ∧ m.isInteger n = true
  | .uRollComp u n => m.isURollExpr u = true ∧ m.isInteger n = true
  | _ => True

/-- All fields have the types Go requires. -/
def Typed (m : Mem) : Prop := ∀ (r : Ref) (c : Cell), m.objs[r]? = some c → CellTyped m c

/-- The Go type of an object. -/
def Cell.kind : Cell → Nat
  | .integer _ => 0
  | .boolean _ => 1
  | .string _ => 2
  | .array _ => 3
  | .bRollComp _ _ => 4
  | .rRollComp _ _ => 5
  | .uRollExpr _ _ _ => 6
  | .uRollComp _ _ => 7

/-- Objects stay, with their types. -/
def Kinds (m m' : Mem) : Prop :=
  ∀ (r : Ref) (c : Cell), m.objs[r]? = some c → ∃ c', m'.objs[r]? = some c' ∧ c'.kind = c.kind

theorem isArray_iff {m : Mem} {p : Ptr} :
    m.isArray p = true ↔ ∀ r, p = some r → ∃ c, m.objs[r]? = some c ∧ c.kind = 3 := by
  cases p with
  | none => simp [Mem.isArray]
  | some r =>
    simp only [Mem.isArray, Option.isNone_some, Bool.false_or, Mem.elementsAt, Mem.cell,
      Option.bind_some, Option.some.injEq, forall_eq']
    constructor
    · intro h
      split at h
      · next s hs => exact ⟨_, hs, rfl⟩
      · cases h
    · rintro ⟨c, h1, h2⟩
      cases c <;> first | (rw [h1]; rfl) | cases h2

theorem isInteger_iff {m : Mem} {p : Ptr} :
    m.isInteger p = true ↔ ∀ r, p = some r → ∃ c, m.objs[r]? = some c ∧ c.kind = 0 := by
  cases p with
  | none => simp [Mem.isInteger]
  | some r =>
    simp only [Mem.isInteger, Option.isNone_some, Bool.false_or, Mem.integerAt, Mem.cell,
      Option.bind_some, Option.some.injEq, forall_eq']
    constructor
    · intro h
      split at h
      · next s hs => exact ⟨_, hs, rfl⟩
      · cases h
    · rintro ⟨c, h1, h2⟩
      cases c <;> first | (rw [h1]; rfl) | cases h2

theorem isURollExpr_iff {m : Mem} {p : Ptr} :
    m.isURollExpr p = true ↔ ∀ r, p = some r → ∃ c, m.objs[r]? = some c ∧ c.kind = 6 := by
  cases p with
  | none => simp [Mem.isURollExpr]
  | some r =>
    simp only [Mem.isURollExpr, Mem.cell, Option.bind_some, Option.some.injEq, forall_eq']
    constructor
    · intro h
      split at h
      · next hx => cases hx
      · next hs _ => exact ⟨_, hs, rfl⟩
      · cases h
    · rintro ⟨c, h1, h2⟩
      cases c <;> first | (rw [h1]; done) | cases h2

theorem Kinds.lift {m m' : Mem} (k : Kinds m m') {p : Ptr} {n : Nat}
    (h : ∀ r, p = some r → ∃ c, m.objs[r]? = some c ∧ c.kind = n) :
    ∀ r, p = some r → ∃ c, m'.objs[r]? = some c ∧ c.kind = n := by
  intro r hr
  obtain ⟨c, h1, h2⟩ := h r hr
  obtain ⟨c', h3, h4⟩ := k r c h1
  exact ⟨c', h3, by rw [h4, h2]⟩

theorem Kinds.cellTyped {m m' : Mem} (k : Kinds m m') {c : Cell} (h : CellTyped m c) :
    CellTyped m' c := by
  cases c with
  | bRollComp a n =>
    exact ⟨isArray_iff.2 (k.lift (isArray_iff.1 h.1)), isInteger_iff.2 (k.lift (isInteger_iff.1 h.2))⟩
  | rRollComp a n =>
    exact ⟨isArray_iff.2 (k.lift (isArray_iff.1 h.1)), isInteger_iff.2 (k.lift (isInteger_iff.1 h.2))⟩
  | uRollExpr a n _ =>
    exact ⟨isArray_iff.2 (k.lift (isArray_iff.1 h.1)), isInteger_iff.2 (k.lift (isInteger_iff.1 h.2))⟩
  | uRollComp a n =>
    exact ⟨isURollExpr_iff.2 (k.lift (isURollExpr_iff.1 h.1)),
      isInteger_iff.2 (k.lift (isInteger_iff.1 h.2))⟩
  | _ => trivial

theorem kinds_alloc (m : Mem) (c : Cell) : Kinds m (m.alloc c).2 :=
  fun _ x h => ⟨x, m.objs_alloc_old c h, rfl⟩

/-- A new object with fields of the right types. -/
theorem typed_alloc {m : Mem} {c : Cell} (t : Typed m) (hc : CellTyped m c) :
    Typed (m.alloc c).2 := by
  intro r x h
  refine (kinds_alloc m c).cellTyped ?_
  simp only [Mem.alloc] at h
  rcases Nat.lt_or_ge r m.objs.length with hr | hr
  · rw [List.getElem?_append_left hr] at h; exact t r x h
  · rw [List.getElem?_append_right hr] at h
    rcases Nat.eq_zero_or_pos (r - m.objs.length) with h0 | h0
    · rw [h0] at h; simp at h; rw [← h]; exact hc
    · obtain ⟨n, hn⟩ : ∃ n, r - m.objs.length = n + 1 := ⟨_, (Nat.succ_pred_eq_of_pos h0).symm⟩
      rw [hn] at h; simp at h

/-- An object overwritten by one of the same type. -/
theorem kinds_set {objs : List Cell} {backs backs' : List (List Ptr)} {r : Ref} {c c' : Cell}
    (hr : objs[r]? = some c) (hk : c'.kind = c.kind) :
    Kinds ⟨objs, backs⟩ ⟨objs.set r c', backs'⟩ := by
  intro x y h
  by_cases hx : x = r
  · subst hx
    simp only at h
    rw [hr] at h; cases h
    exact ⟨c', by simp only; rw [List.getElem?_set_self (List.getElem?_eq_some_iff.1 hr).1], hk⟩
  · exact ⟨y, by simp only; rw [List.getElem?_set_ne (Ne.symm hx)]; exact h, rfl⟩

theorem typed_set {objs : List Cell} {backs backs' : List (List Ptr)} {r : Ref} {c c' : Cell}
    (t : Typed ⟨objs, backs⟩) (hr : objs[r]? = some c) (hk : c'.kind = c.kind)
    (hc : CellTyped ⟨objs, backs⟩ c') : Typed ⟨objs.set r c', backs'⟩ := by
  have k := kinds_set (backs := backs) (backs' := backs') hr hk
  intro x y h
  refine k.cellTyped ?_
  by_cases hx : x = r
  · subst hx
    simp only at h
    rw [List.getElem?_set_self (List.getElem?_eq_some_iff.1 hr).1] at h
    cases h; exact hc
  · simp only at h
    rw [List.getElem?_set_ne (Ne.symm hx)] at h
    exact t x y h

theorem typed_backs {m m' : Mem} (t : Typed m) (h : m'.objs = m.objs) : Typed m' := by
  have k : Kinds m m' := fun r c hr => ⟨c, by rw [h]; exact hr, rfl⟩
  intro r c hr
  rw [h] at hr
  exact k.cellTyped (t r c hr)

/-! ## Extensions of the memory -/

/-- Every array has its elements in memory. -/
def ArrOk (m : Mem) : Prop := ∀ (r : Ref) (s : Slice), m.objs[r]? = some (.array s) → s.arr < m.backs.length

/-- `q` is the address of an integer that is the sum of the integers in the array at `p`. -/
def SumIs (m : Mem) (p q : Ptr) : Prop :=
  ∃ es v, m.elementsAt p = some es ∧ m.sumLoop 0 es = some v ∧ m.integerAt q = some v

/-- Addresses of integers that are the sums of these groups, one by one. -/
inductive SumsAre (m : Mem) : List Ptr → List Ptr → Prop
  | nil : SumsAre m [] []
  | cons {p q ps qs} : SumIs m p q → SumsAre m ps qs → SumsAre m (p :: ps) (q :: qs)

/-- The array at `k` holds the sums of the groups in the array at `g`. -/
def CacheGood (m : Mem) (g : Ptr) (k : Ref) : Prop :=
  ∃ gs sums, m.elementsAt g = some gs ∧ m.elementsAt (some k) = some sums ∧
    SumsAre m gs sums

/-- Nothing changed but new objects and sums computed for the first time.  The elements of new
arrays are in new memory, or in a slice with property `P`. -/
structure Ext (P : Slice → Prop) (m m' : Mem) : Prop where
  objs : ∀ (r : Ref) (c : Cell), m.objs[r]? = some c → ∃ c', m'.objs[r]? = some c' ∧ (c' = c ∨ ∃ g md k,
    c = .uRollExpr g md none ∧ c' = .uRollExpr g md (some k) ∧ CacheGood m' g k)
  backs : ∀ (a : Nat) (xs : List Ptr), m.backs[a]? = some xs → m'.backs[a]? = some xs
  arrays : ∀ (r : Ref) (s : Slice), m'.objs[r]? = some (.array s) →
    m.objs[r]? = some (.array s) ∨ m.objs.length ≤ r ∧ s.arr < m'.backs.length ∧
      (m.backs.length ≤ s.arr ∨ P s)
  typed : Typed m → Typed m'

variable {P : Slice → Prop}

theorem Ext.refl (m : Mem) : Ext P m m :=
  ⟨fun _ c h => ⟨c, h, Or.inl rfl⟩, fun _ _ h => h, fun _ _ h => Or.inl h, id⟩

theorem Ext.back_len {m m' : Mem} (e : Ext P m m') : m.backs.length ≤ m'.backs.length := by
  by_cases h : m.backs.length ≤ m'.backs.length
  · exact h
  · have hlt : m'.backs.length < m.backs.length := by omega
    have := e.backs _ _ (List.getElem?_eq_getElem hlt)
    rw [List.getElem?_eq_none (Nat.le_refl _)] at this; cases this

theorem Ext.obj_len {m m' : Mem} (e : Ext P m m') : m.objs.length ≤ m'.objs.length := by
  by_cases h : m.objs.length ≤ m'.objs.length
  · exact h
  · have hlt : m'.objs.length < m.objs.length := by omega
    obtain ⟨c', h1, -⟩ := e.objs _ _ (List.getElem?_eq_getElem hlt)
    rw [List.getElem?_eq_none (Nat.le_refl _)] at h1; cases h1

theorem Ext.arrOk {m m' : Mem} (e : Ext P m m') (h : ArrOk m) : ArrOk m' := by
  intro r s hs
  rcases e.arrays r s hs with h1 | h1
  · exact Nat.lt_of_lt_of_le (h r s h1) e.back_len
  · exact h1.2.1

theorem Ext.contents {m m' : Mem} (e : Ext P m m') {s : Slice} (h : s.arr < m.backs.length) :
    m'.contents s = m.contents s := by
  have h1 := e.backs _ _ (List.getElem?_eq_getElem h)
  simp only [Mem.contents, List.getD_eq_getElem?_getD, h1, List.getElem?_eq_getElem h]

theorem Ext.array {m m' : Mem} (e : Ext P m m') {r : Ref} {s : Slice}
    (h : m.objs[r]? = some (.array s)) : m'.objs[r]? = some (.array s) := by
  obtain ⟨c', h1, h2 | ⟨_, _, _, h2, -⟩⟩ := e.objs r _ h
  · rw [h1, h2]
  · cases h2

theorem Mem.integerAt_iff {m : Mem} {p : Ptr} {v : Int64} :
    m.integerAt p = some v ↔ ∃ r, p = some r ∧ m.objs[r]? = some (.integer v) := by
  cases p with
  | none => simp [Mem.integerAt, Mem.cell]
  | some r =>
    simp only [Mem.integerAt, Mem.cell, Option.bind_some]
    split
    · next w h => simp [h]
    · next h =>
      simp only [reduceCtorEq, Option.some.injEq, exists_eq_left', false_iff]
      exact fun e => h v e

theorem Mem.elementsAt_iff {m : Mem} {p : Ptr} {es : List Ptr} :
    m.elementsAt p = some es ↔ ∃ r s, p = some r ∧ m.objs[r]? = some (.array s) ∧ m.contents s = es := by
  cases p with
  | none => simp [Mem.elementsAt, Mem.cell]
  | some r =>
    simp only [Mem.elementsAt, Mem.cell, Option.bind_some]
    split
    · next w h => simp [h]
    · next h =>
      simp only [reduceCtorEq, Option.some.injEq, false_iff]
      rintro ⟨_, s, rfl, h1, -⟩
      exact h s h1

theorem Ext.integerAt {m m' : Mem} (e : Ext P m m') {p : Ptr} {v : Int64}
    (h : m.integerAt p = some v) : m'.integerAt p = some v := by
  obtain ⟨r, rfl, hr⟩ := Mem.integerAt_iff.1 h
  obtain ⟨c', h1, h2 | ⟨_, _, _, h2, -⟩⟩ := e.objs r _ hr
  · exact Mem.integerAt_iff.2 ⟨r, rfl, by rw [h1, h2]⟩
  · cases h2

theorem Ext.elementsAt {m m' : Mem} (e : Ext P m m') (ok : ArrOk m) {p : Ptr} {es : List Ptr}
    (h : m.elementsAt p = some es) : m'.elementsAt p = some es := by
  obtain ⟨r, s, rfl, h1, h2⟩ := Mem.elementsAt_iff.1 h
  exact Mem.elementsAt_iff.2 ⟨r, s, rfl, e.array h1, by rw [e.contents (ok r s h1), h2]⟩

theorem Ext.sumLoop {m m' : Mem} (e : Ext P m m') : ∀ (es : List Ptr) (acc v : Int64),
    m.sumLoop acc es = some v → m'.sumLoop acc es = some v := by
  intro es
  induction es with
  | nil => intro acc v h; exact h
  | cons p es ih =>
    intro acc v h
    simp only [Mem.sumLoop] at h ⊢
    split at h
    · cases h
    · next x hx => rw [e.integerAt hx]; exact ih _ _ h

theorem Ext.sumIs {m m' : Mem} (e : Ext P m m') (ok : ArrOk m) {p q : Ptr} (h : SumIs m p q) :
    SumIs m' p q := by
  obtain ⟨es, v, h1, h2, h3⟩ := h
  exact ⟨es, v, e.elementsAt ok h1, e.sumLoop _ _ _ h2, e.integerAt h3⟩

theorem Ext.sumsAre {m m' : Mem} (e : Ext P m m') (ok : ArrOk m) {gs sums : List Ptr}
    (h : SumsAre m gs sums) : SumsAre m' gs sums := by
  induction h with
  | nil => exact .nil
  | cons a _ ih => exact .cons (e.sumIs ok a) ih

theorem Ext.cacheGood {m m' : Mem} (e : Ext P m m') (ok : ArrOk m) {g : Ptr} {k : Ref}
    (h : CacheGood m g k) : CacheGood m' g k := by
  obtain ⟨gs, sums, h1, h2, h3⟩ := h
  exact ⟨gs, sums, e.elementsAt ok h1, e.elementsAt ok h2, e.sumsAre ok h3⟩

theorem Ext.trans {m m' m'' : Mem} (ok : ArrOk m) (e : Ext P m m') (f : Ext P m' m'') : Ext P m m'' where
  objs := by
    intro r c h
    obtain ⟨c', h1, h2⟩ := e.objs r c h
    obtain ⟨c'', h3, h4⟩ := f.objs r c' h1
    refine ⟨c'', h3, ?_⟩
    rcases h2 with rfl | ⟨g, md, k, rfl, rfl, hk⟩
    · exact h4
    · rcases h4 with rfl | ⟨_, _, _, h5, -⟩
      · exact Or.inr ⟨g, md, k, rfl, rfl, f.cacheGood (e.arrOk ok) hk⟩
      · cases h5
  backs := fun a xs h => f.backs a xs (e.backs a xs h)
  arrays := by
    intro r s h
    have l1 := e.obj_len
    have l2 := e.back_len
    have l3 := f.back_len
    rcases f.arrays r s h with h1 | h1
    · rcases e.arrays r s h1 with h2 | h2
      · exact Or.inl h2
      · exact Or.inr ⟨h2.1, by omega, h2.2.2⟩
    · exact Or.inr ⟨by omega, h1.2.1, h1.2.2.imp (fun h => by omega) id⟩
  typed := fun h => f.typed (e.typed h)

/-- A new object that is not an array. -/
theorem ext_alloc (m : Mem) (c : Cell) (hc : ∀ s, c ≠ .array s)
    (ht : Typed m → CellTyped m c) : Ext P m (m.alloc c).2 where
  objs := fun r x h => ⟨x, m.objs_alloc_old c h, Or.inl rfl⟩
  backs := fun _ _ h => h
  arrays := by
    intro r s h
    simp only [Mem.alloc] at h
    rcases Nat.lt_or_ge r m.objs.length with hr | hr
    · rw [List.getElem?_append_left hr] at h; exact Or.inl h
    · exfalso
      rw [List.getElem?_append_right hr] at h
      rcases Nat.eq_zero_or_pos (r - m.objs.length) with h0 | h0
      · rw [h0] at h; simp at h; exact hc s h
      · obtain ⟨n, hn⟩ : ∃ n, r - m.objs.length = n + 1 := ⟨_, (Nat.succ_pred_eq_of_pos h0).symm⟩
        rw [hn] at h; simp at h
  typed := fun t => typed_alloc t (ht t)

theorem add_ext (m : Mem) (p q : Ptr) : Ext P m (m.add p q).2 := by
  unfold Mem.add
  split
  · exact ext_alloc m _ (by intro s h; cases h) (fun _ => trivial)
  · exact Ext.refl m

theorem maxInteger_ext (m : Mem) (p : Ptr) : Ext P m (m.maxInteger p).2 := by
  unfold Mem.maxInteger
  split
  · exact Ext.refl m
  · exact ext_alloc m _ (by intro s h; cases h) (fun _ => trivial)
  · exact Ext.refl m
  · split <;> exact Ext.refl m

theorem sumOfIntegers_ext (m : Mem) (p : Ptr) : Ext P m (m.sumOfIntegers p).2 := by
  unfold Mem.sumOfIntegers
  split
  · exact Ext.refl m
  · split
    · exact Ext.refl m
    · exact ext_alloc m _ (by intro s h; cases h) (fun _ => trivial)

/-- What `sumOfIntegers` does on an array of integers. -/
theorem sumOfIntegers_some {m : Mem} {p : Ptr} {es : List Ptr} {v : Int64}
    (he : m.elementsAt p = some es) (hv : m.sumLoop 0 es = some v) :
    m.sumOfIntegers p = (.ok (some m.objs.length), (m.alloc (.integer v)).2) := by
  unfold Mem.sumOfIntegers
  rw [he]; simp only [hv]; rfl

theorem sumOfIntegers_ok {m m1 : Mem} {p : Ptr} {r : Ref} (h : m.sumOfIntegers p = (.ok (some r), m1)) :
    ∃ es v, m.elementsAt p = some es ∧ m.sumLoop 0 es = some v ∧ m1.integerAt (some r) = some v := by
  unfold Mem.sumOfIntegers at h
  split at h
  · cases h
  · next es he =>
    split at h
    · cases h
    · next v hv =>
      simp only [Prod.mk.injEq, Out.ok.injEq, Option.some.injEq] at h
      obtain ⟨h1, h2⟩ := h
      refine ⟨es, v, he, hv, Mem.integerAt_iff.2 ⟨r, rfl, ?_⟩⟩
      rw [← h1, ← h2]; exact m.objs_alloc_new _

/-- The loop over the groups: only new integers. -/
theorem groupSums_ext : ∀ (gs : List Ptr) (m : Mem), ArrOk m → Ext P m (m.groupSums gs).2 := by
  intro gs
  induction gs with
  | nil => intro m _; exact Ext.refl m
  | cons p gs ih =>
    intro m ok
    unfold Mem.groupSums
    split
    · exact Ext.refl m
    · have e := sumOfIntegers_ext (P := P) m p
      generalize m.sumOfIntegers p = y at e ⊢
      obtain ⟨o, m1⟩ := y
      simp only at e
      rcases o with (_ | r) | msg | msg
      · exact e
      · have e2 := ih m1 (e.arrOk ok)
        dsimp only
        generalize m1.groupSums gs = z at e2 ⊢
        obtain ⟨o2, m2⟩ := z
        rcases o2 with rs | msg | msg <;> exact e.trans ok e2
      · exact e
      · exact e

theorem groupSums_ok : ∀ (gs : List Ptr) (m m1 : Mem) (sums : List Ptr), ArrOk m →
    m.groupSums gs = (.ok sums, m1) → SumsAre m1 gs sums := by
  intro gs
  induction gs with
  | nil => intro m m1 sums _ h; cases h; exact .nil
  | cons p gs ih =>
    intro m m1 sums ok h
    unfold Mem.groupSums at h
    split at h
    · cases h
    · have e := sumOfIntegers_ext (P := fun _ => True) m p
      have hs := @sumOfIntegers_ok m
      generalize hy : m.sumOfIntegers p = y at e h
      obtain ⟨o, m2⟩ := y
      simp only at e
      rcases o with (_ | r) | msg | msg
      · cases h
      · have e2 := groupSums_ext (P := fun _ => True) gs m2 (e.arrOk ok)
        dsimp only at h
        generalize hz : m2.groupSums gs = z at e2 h
        obtain ⟨o2, m3⟩ := z
        rcases o2 with rs | msg | msg
        · cases h
          obtain ⟨es, v, h1, h2, h3⟩ := hs hy
          refine .cons ⟨es, v, ?_, ?_, ?_⟩ (ih m2 m1 rs (e.arrOk ok) hz)
          · exact (e.trans ok e2).elementsAt ok h1
          · exact (e.trans ok e2).sumLoop _ _ _ h2
          · exact e2.integerAt h3
        · cases h
        · cases h
      · cases h
      · cases h

/-- Objects were added at the end, nothing else. -/
def Appends (m m' : Mem) : Prop := ∃ cs, m'.objs = m.objs ++ cs ∧ m'.backs = m.backs

theorem Appends.trans {m m' m'' : Mem} (h : Appends m m') (h' : Appends m' m'') : Appends m m'' := by
  obtain ⟨cs, h1, h2⟩ := h
  obtain ⟨ds, h3, h4⟩ := h'
  exact ⟨cs ++ ds, by rw [h3, h1, List.append_assoc], by rw [h4, h2]⟩

theorem Appends.refl (m : Mem) : Appends m m := ⟨[], by simp, rfl⟩

theorem Appends.objs {m m' : Mem} (h : Appends m m') {r : Ref} {c : Cell}
    (hr : m.objs[r]? = some c) : m'.objs[r]? = some c := by
  obtain ⟨cs, h1, -⟩ := h
  rw [h1, List.getElem?_append_left (List.getElem?_eq_some_iff.1 hr).1]; exact hr

theorem appends_alloc (m : Mem) (c : Cell) : Appends m (m.alloc c).2 := ⟨[c], rfl, rfl⟩

theorem sumOfIntegers_appends (m : Mem) (p : Ptr) : Appends m (m.sumOfIntegers p).2 := by
  unfold Mem.sumOfIntegers
  split
  · exact Appends.refl m
  · split
    · exact Appends.refl m
    · exact appends_alloc m _

theorem groupSums_appends : ∀ (gs : List Ptr) (m : Mem), Appends m (m.groupSums gs).2 := by
  intro gs
  induction gs with
  | nil => intro m; exact Appends.refl m
  | cons p gs ih =>
    intro m
    unfold Mem.groupSums
    split
    · exact Appends.refl m
    · have e := sumOfIntegers_appends m p
      generalize m.sumOfIntegers p = y at e ⊢
      obtain ⟨o, m1⟩ := y
      simp only at e
      rcases o with (_ | r) | msg | msg
      · exact e
      · have e2 := ih m1
        dsimp only
        generalize m1.groupSums gs = z at e2 ⊢
        obtain ⟨o2, m2⟩ := z
        rcases o2 with rs | msg | msg <;> exact e.trans e2
      · exact e
      · exact e

/-- The memory after the sums were stored. -/
def storeSums (m : Mem) (r : Ref) (g md : Ptr) (sums : List Ptr) (cap : Nat) : Mem :=
  { objs := (m.objs ++ [Cell.array ⟨m.backs.length, 0, sums.length, max cap sums.length⟩]).set r
      (.uRollExpr g md (some m.objs.length)),
    backs := m.backs ++ [sums ++ List.replicate (cap - sums.length) none] }

theorem storeSums_ext {m : Mem} (ok : ArrOk m) {r : Ref} {g md : Ptr} {gs sums : List Ptr} (cap : Nat)
    (hr : m.objs[r]? = some (.uRollExpr g md none)) (hg : m.elementsAt g = some gs)
    (hs : SumsAre m gs sums) :
    Ext P m (storeSums m r g md sums cap) ∧ CacheGood (storeSums m r g md sums cap) g m.objs.length ∧
      (storeSums m r g md sums cap).objs[r]? = some (.uRollExpr g md (some m.objs.length)) := by
  have hlt : r < m.objs.length := (List.getElem?_eq_some_iff.1 hr).1
  have other : ∀ x c, x ≠ r → m.objs[x]? = some c →
      (storeSums m r g md sums cap).objs[x]? = some c := by
    intro x c hx h
    simp only [storeSums]
    rw [List.getElem?_set_ne (Ne.symm hx),
      List.getElem?_append_left (List.getElem?_eq_some_iff.1 h).1]
    exact h
  have hbacks : ∀ (a : Nat) (xs : List Ptr), m.backs[a]? = some xs →
      (storeSums m r g md sums cap).backs[a]? = some xs := by
    intro a xs h
    simp only [storeSums]
    rw [List.getElem?_append_left (List.getElem?_eq_some_iff.1 h).1]; exact h
  have hnew : (storeSums m r g md sums cap).objs[m.objs.length]? =
      some (.array ⟨m.backs.length, 0, sums.length, max cap sums.length⟩) := by
    simp only [storeSums]
    rw [List.getElem?_set_ne (Nat.ne_of_lt hlt), List.getElem?_append_right (Nat.le_refl _)]
    simp
  have hself : (storeSums m r g md sums cap).objs[r]? = some (.uRollExpr g md (some m.objs.length)) := by
    simp only [storeSums]
    rw [List.getElem?_set_self (by simp only [List.length_append, List.length_singleton]; exact Nat.lt_succ_of_lt hlt)]
  have hcont : (storeSums m r g md sums cap).contents ⟨m.backs.length, 0, sums.length, max cap sums.length⟩ =
      sums := by
    simp [storeSums, Mem.contents]
  have ints : ∀ p v, m.integerAt p = some v → (storeSums m r g md sums cap).integerAt p = some v := by
    intro p v h
    obtain ⟨x, rfl, hx⟩ := Mem.integerAt_iff.1 h
    refine Mem.integerAt_iff.2 ⟨x, rfl, other x _ ?_ hx⟩
    rintro rfl; rw [hr] at hx; cases hx
  have conts : ∀ s : Slice, s.arr < m.backs.length →
      (storeSums m r g md sums cap).contents s = m.contents s := by
    intro s h
    have h1 := hbacks _ _ (List.getElem?_eq_getElem h)
    simp only [Mem.contents, List.getD_eq_getElem?_getD, h1, List.getElem?_eq_getElem h]
  have els : ∀ p es, m.elementsAt p = some es →
      (storeSums m r g md sums cap).elementsAt p = some es := by
    intro p es h
    obtain ⟨x, s, rfl, hx, h2⟩ := Mem.elementsAt_iff.1 h
    refine Mem.elementsAt_iff.2 ⟨x, s, rfl, other x _ ?_ hx, by rw [conts s (ok x s hx), h2]⟩
    rintro rfl; rw [hr] at hx; cases hx
  have loops : ∀ es acc v, m.sumLoop acc es = some v →
      (storeSums m r g md sums cap).sumLoop acc es = some v := by
    intro es
    induction es with
    | nil => intro acc v h; exact h
    | cons p es ih =>
      intro acc v h
      simp only [Mem.sumLoop] at h ⊢
      split at h
      · cases h
      · next x hx => rw [ints _ _ hx]; exact ih _ _ h
  have moved : ∀ ps qs, SumsAre m ps qs → SumsAre (storeSums m r g md sums cap) ps qs := by
    intro ps qs h
    induction h with
    | nil => exact .nil
    | cons a _ ih =>
      obtain ⟨es, v, h1, h2, h3⟩ := a
      exact .cons ⟨es, v, els _ _ h1, loops _ _ _ h2, ints _ _ h3⟩ ih
  have good : CacheGood (storeSums m r g md sums cap) g m.objs.length :=
    ⟨gs, sums, els _ _ hg, Mem.elementsAt_iff.2 ⟨_, _, rfl, hnew, hcont⟩, moved _ _ hs⟩
  refine ⟨⟨?_, hbacks, ?_, ?_⟩, good, hself⟩
  · intro x c h
    by_cases hx : x = r
    · subst hx
      rw [hr] at h; cases h
      exact ⟨_, hself, Or.inr ⟨g, md, _, rfl, rfl, good⟩⟩
    · exact ⟨c, other x c hx h, Or.inl rfl⟩
  · intro x s h
    by_cases hx : x = r
    · subst hx; rw [hself] at h; cases h
    · simp only [storeSums] at h
      rw [List.getElem?_set_ne (Ne.symm hx)] at h
      rcases Nat.lt_or_ge x m.objs.length with hl | hl
      · rw [List.getElem?_append_left hl] at h; exact Or.inl h
      · rw [List.getElem?_append_right hl] at h
        rcases Nat.eq_zero_or_pos (x - m.objs.length) with h0 | h0
        · rw [h0] at h
          simp at h
          subst h
          refine Or.inr ⟨hl, ?_, Or.inl (Nat.le_refl _)⟩
          simp [storeSums]
        · obtain ⟨n, hn⟩ : ∃ n, x - m.objs.length = n + 1 := ⟨_, (Nat.succ_pred_eq_of_pos h0).symm⟩
          rw [hn] at h; simp at h
  · intro t
    have t1 := typed_alloc (c := .array ⟨m.backs.length, 0, sums.length, max cap sums.length⟩) t trivial
    refine typed_set (backs := m.backs) t1 (r := r) (m.objs_alloc_old _ hr) rfl ?_
    exact (kinds_alloc m _).cellTyped (c := .uRollExpr g md (some m.objs.length))
      (show CellTyped m (.uRollExpr g md none) from t r _ hr)

theorem calculate_eq (m : Mem) (r : Ref) (g md : Ptr) {gs : List Ptr} (hg : m.elementsAt g = some gs) :
    m.calculateSumOfGroups r g md =
      match m.groupSums gs with
      | (.ok sums, m1) => (.ok m1.objs.length, storeSums m1 r g md sums gs.length)
      | (.err e, m1) => (.err e, m1)
      | (.panic e, m1) => (.panic e, m1) := by
  unfold Mem.calculateSumOfGroups
  rw [hg]
  rfl

/-- The first computation of the sums: an extension of the memory, and what it stores. -/
theorem calculate_ext {m : Mem} (ok : ArrOk m) {r : Ref} {g md : Ptr}
    (hr : m.objs[r]? = some (.uRollExpr g md none)) :
    Ext P m (m.calculateSumOfGroups r g md).2 ∧
      ∀ c m1, m.calculateSumOfGroups r g md = (.ok c, m1) →
        CacheGood m1 g c ∧ m1.objs[r]? = some (.uRollExpr g md (some c)) ∧ m.objs.length ≤ c := by
  cases hg : m.elementsAt g with
  | none => simp only [Mem.calculateSumOfGroups, hg]; exact ⟨Ext.refl m, fun c m1 h => by cases h⟩
  | some gs =>
    rw [calculate_eq m r g md hg]
    have e := groupSums_ext (P := P) gs m ok
    have ap := groupSums_appends gs m
    have hok := groupSums_ok gs m
    generalize m.groupSums gs = y at e ap hok ⊢
    obtain ⟨o, m1⟩ := y
    rcases o with sums | msg | msg
    · have h := storeSums_ext (P := P) (e.arrOk ok) gs.length (ap.objs hr) (e.elementsAt ok hg) (hok m1 sums ok rfl)
      refine ⟨e.trans ok h.1, fun c m2 h2 => ?_⟩
      cases h2
      exact ⟨h.2.1, h.2.2, e.obj_len⟩
    · exact ⟨e, fun c m1 h => by cases h⟩
    · exact ⟨e, fun c m1 h => by cases h⟩

theorem sumOfGroups_ext {m : Mem} (ok : ArrOk m) (p : Ptr) : Ext P m (m.sumOfGroups p).2 := by
  unfold Mem.sumOfGroups
  split
  · exact Ext.refl m
  · split
    · exact Ext.refl m
    · next g md hr =>
      have e := (calculate_ext (P := P) ok hr).1
      generalize m.calculateSumOfGroups _ g md = y at e ⊢
      obtain ⟨o, m1⟩ := y
      rcases o with c | msg | msg <;> exact e
    · exact Ext.refl m

theorem maxValue_ext {m : Mem} (ok : ArrOk m) (p : Ptr) : Ext P m (m.maxValue p).2 := by
  unfold Mem.maxValue
  have e := sumOfGroups_ext (P := P) ok p
  generalize m.sumOfGroups p = y at e ⊢
  obtain ⟨o, m1⟩ := y
  rcases o with c | msg | msg
  · have e2 := maxInteger_ext (P := P) m1 c
    dsimp only
    generalize m1.maxInteger c = z at e2 ⊢
    obtain ⟨o2, m2⟩ := z
    rcases o2 with b | msg | msg
    · exact (e.trans ok e2).trans ok (add_ext m2 _ _)
    · exact e.trans ok e2
    · exact e.trans ok e2
  · exact e
  · exact e

theorem sumOfValues_ext {m : Mem} (ok : ArrOk m) (p : Ptr) : Ext P m (m.sumOfValues p).2 := by
  unfold Mem.sumOfValues
  have e := sumOfGroups_ext (P := P) ok p
  generalize m.sumOfGroups p = y at e ⊢
  obtain ⟨o, m1⟩ := y
  rcases o with c | msg | msg
  · have e2 := sumOfIntegers_ext (P := P) m1 c
    dsimp only
    generalize m1.sumOfIntegers c = z at e2 ⊢
    obtain ⟨o2, m2⟩ := z
    rcases o2 with b | msg | msg
    · exact (e.trans ok e2).trans ok (add_ext m2 _ _)
    · exact e.trans ok e2
    · exact e.trans ok e2
  · exact e
  · exact e

/-! ## The value of an object -/

mutual
theorem Ext.denotes {m m' : Mem} (e : Ext P m m') (ok : ArrOk m) : {r : Ref} → {v : Value} →
    Denotes m r v → Denotes m' r v
  | _, _, .integer h => by
    obtain ⟨c', h1, rfl | ⟨_, _, _, h2, -⟩⟩ := e.objs _ _ h
    · exact .integer h1
    · cases h2
  | _, _, .boolean h => by
    obtain ⟨c', h1, rfl | ⟨_, _, _, h2, -⟩⟩ := e.objs _ _ h
    · exact .boolean h1
    · cases h2
  | _, _, .string h => by
    obtain ⟨c', h1, rfl | ⟨_, _, _, h2, -⟩⟩ := e.objs _ _ h
    · exact .string h1
    · cases h2
  | _, _, .array h hs => by
    refine .array (e.array h) ?_
    rw [e.contents (ok _ _ h)]
    exact e.denoteAll ok hs
  | _, _, .bRollComp h ha hi => by
    obtain ⟨c', h1, rfl | ⟨_, _, _, h2, -⟩⟩ := e.objs _ _ h
    · exact .bRollComp h1 (e.denotes ok ha) (e.denotes ok hi)
    · cases h2
  | _, _, .rRollComp h ha hi => by
    obtain ⟨c', h1, rfl | ⟨_, _, _, h2, -⟩⟩ := e.objs _ _ h
    · exact .rRollComp h1 (e.denotes ok ha) (e.denotes ok hi)
    · cases h2
  | _, _, .uRollExpr h ha hi => by
    obtain ⟨c', h1, rfl | ⟨g, md, k, h2, h3, -⟩⟩ := e.objs _ _ h
    · exact .uRollExpr h1 (e.denotes ok ha) (e.denotes ok hi)
    · cases h2; subst h3
      exact .uRollExpr h1 (e.denotes ok ha) (e.denotes ok hi)
  | _, _, .uRollComp h ha hi => by
    obtain ⟨c', h1, rfl | ⟨_, _, _, h2, -⟩⟩ := e.objs _ _ h
    · exact .uRollComp h1 (e.denotes ok ha) (e.denotes ok hi)
    · cases h2
theorem Ext.denoteAll {m m' : Mem} (e : Ext P m m') (ok : ArrOk m) : {ps : List Ptr} →
    {vs : List Value} → DenoteAll m ps vs → DenoteAll m' ps vs
  | _, _, .nil => .nil
  | _, _, .cons h hs => .cons (e.denotes ok h) (e.denoteAll ok hs)
end

mutual
/-- An object stands for one value. -/
theorem Denotes.unique {m : Mem} : {r : Ref} → {v w : Value} → Denotes m r v → Denotes m r w → v = w
  | _, _, _, .integer h, h' => by cases h' <;> grind
  | _, _, _, .boolean h, h' => by cases h' <;> grind
  | _, _, _, .string h, h' => by cases h' <;> grind
  | _, _, _, .array h hs, h' => by
    cases h' with
    | array h2 hs2 =>
      rw [h] at h2; cases h2
      rw [DenoteAll.unique hs hs2]
    | _ => grind
  | _, _, _, .bRollComp h ha hi, h' => by
    cases h' with
    | bRollComp h2 ha2 hi2 =>
      rw [h] at h2; cases h2
      have h3 := Denotes.unique ha ha2
      have h4 := Denotes.unique hi hi2
      cases h3; cases h4; rfl
    | _ => grind
  | _, _, _, .rRollComp h ha hi, h' => by
    cases h' with
    | rRollComp h2 ha2 hi2 =>
      rw [h] at h2; cases h2
      have h3 := Denotes.unique ha ha2
      have h4 := Denotes.unique hi hi2
      cases h3; cases h4; rfl
    | _ => grind
  | _, _, _, .uRollExpr h ha hi, h' => by
    cases h' with
    | uRollExpr h2 ha2 hi2 =>
      rw [h] at h2; cases h2
      have h3 := Denotes.unique ha ha2
      have h4 := Denotes.unique hi hi2
      cases h3; cases h4; rfl
    | _ => grind
  | _, _, _, .uRollComp h ha hi, h' => by
    cases h' with
    | uRollComp h2 ha2 hi2 =>
      rw [h] at h2; cases h2
      have h3 := Denotes.unique ha ha2
      have h4 := Denotes.unique hi hi2
      cases h3; cases h4; rfl
    | _ => grind
theorem DenoteAll.unique {m : Mem} : {ps : List Ptr} → {vs ws : List Value} → DenoteAll m ps vs →
    DenoteAll m ps ws → vs = ws
  | _, _, _, .nil, h' => by cases h'; rfl
  | _, _, _, .cons h hs, h' => by
    cases h' with
    | cons h2 hs2 => rw [Denotes.unique h h2, DenoteAll.unique hs hs2]
end

end GoBCDice.ObjMem
