import Verif.Lemmas.ObjMem
import Verif.Lemmas.Inspect

/-!
# `Inspect` on objects in memory
-/

namespace GoBCDice.ObjMem

open Raw (Value nilDereference interfaceConversion stackOverflow)

theorem joined_eq (isPrint : Char → Bool) (sep : Str) : ∀ vs : List Value,
    join sep (vs.map (Value.inspect isPrint)) = Value.joined isPrint sep vs
  | [] => rfl
  | [v] => by simp [join, Value.joined]
  | v :: w :: vs => by
    have := joined_eq isPrint sep (w :: vs)
    simp only [List.map_cons] at this
    simp only [List.map_cons, join, Value.joined, this]

theorem joinedTight_eq (isPrint : Char → Bool) (sep : Str) : ∀ vs : List Value,
    join sep (vs.map (Value.inspectTight isPrint)) = Value.joinedTight isPrint sep vs
  | [] => rfl
  | [v] => by simp [join, Value.joinedTight]
  | v :: w :: vs => by
    have := joinedTight_eq isPrint sep (w :: vs)
    simp only [List.map_cons] at this
    simp only [List.map_cons, join, Value.joinedTight, this]

theorem cell_some (m : Mem) (r : Ref) : m.cell (some r) = m.objs[r]? := rfl

mutual
/-- The text of a finite tree, with enough stack. -/
theorem inspect_of_denotes (isPrint : Char → Bool) {m : Mem} : {r : Ref} → {v : Value} →
    Denotes m r v → ∃ d0, ∀ d, d0 ≤ d → m.inspect isPrint d (some r) = .ok (v.inspect isPrint)
  | r, _, .integer h => ⟨1, fun d hd => by
      obtain ⟨d, rfl⟩ := Nat.exists_eq_add_of_le' hd
      simp only [Mem.inspect, cell_some, h, Value.inspect]⟩
  | r, _, .boolean h => ⟨1, fun d hd => by
      obtain ⟨d, rfl⟩ := Nat.exists_eq_add_of_le' hd
      simp only [Mem.inspect, cell_some, h, Value.inspect]⟩
  | r, _, .string h => ⟨1, fun d hd => by
      obtain ⟨d, rfl⟩ := Nat.exists_eq_add_of_le' hd
      simp only [Mem.inspect, cell_some, h, Value.inspect]⟩
  | r, _, .array h hs => by
    obtain ⟨d0, ih⟩ := texts_of_denotes isPrint hs
    refine ⟨d0 + 1, fun d hd => ?_⟩
    obtain ⟨d, rfl⟩ := Nat.exists_eq_add_of_le' (Nat.le_trans (Nat.le_add_left 1 d0) hd)
    simp only [Mem.inspect, cell_some, h, ih d (by omega), Out.map, Value.inspect, joined_eq]
  | r, _, .bRollComp h ha hi => by
    obtain ⟨d0, ih⟩ := inspect_of_denotes isPrint ha
    obtain ⟨d1, ih1⟩ := inspect_of_denotes isPrint hi
    refine ⟨d0 + d1 + 1, fun d hd => ?_⟩
    obtain ⟨d, rfl⟩ := Nat.exists_eq_add_of_le' (Nat.le_trans (Nat.le_add_left 1 (d0 + d1)) hd)
    simp only [Mem.inspect, cell_some, h, ih d (by omega), ih1 d (by omega), Mem.both, Out.map,
      Value.inspect, List.append_assoc, List.cons_append, List.nil_append]
  | r, _, .rRollComp h ha hi => by
    obtain ⟨d0, ih⟩ := inspect_of_denotes isPrint ha
    obtain ⟨d1, ih1⟩ := inspect_of_denotes isPrint hi
    refine ⟨d0 + d1 + 1, fun d hd => ?_⟩
    obtain ⟨d, rfl⟩ := Nat.exists_eq_add_of_le' (Nat.le_trans (Nat.le_add_left 1 (d0 + d1)) hd)
    simp only [Mem.inspect, cell_some, h, ih d (by omega), ih1 d (by omega), Mem.both, Out.map,
      Value.inspect, List.append_assoc, List.cons_append, List.nil_append]
  | r, _, .uRollExpr h ha hi => by
    obtain ⟨d0, ih⟩ := inspect_of_denotes isPrint ha
    obtain ⟨d1, ih1⟩ := inspect_of_denotes isPrint hi
    refine ⟨d0 + d1 + 1, fun d hd => ?_⟩
    obtain ⟨d, rfl⟩ := Nat.exists_eq_add_of_le' (Nat.le_trans (Nat.le_add_left 1 (d0 + d1)) hd)
    simp only [Mem.inspect, cell_some, h, ih d (by omega), ih1 d (by omega), Mem.both, Out.map,
      Value.inspect, List.append_assoc, List.cons_append, List.nil_append]
  | r, _, .uRollComp h ha hi => by
    obtain ⟨d0, ih⟩ := inspect_of_denotes isPrint ha
    obtain ⟨d1, ih1⟩ := inspect_of_denotes isPrint hi
    refine ⟨d0 + d1 + 1, fun d hd => ?_⟩
    obtain ⟨d, rfl⟩ := Nat.exists_eq_add_of_le' (Nat.le_trans (Nat.le_add_left 1 (d0 + d1)) hd)
    simp only [Mem.inspect, cell_some, h, ih d (by omega), ih1 d (by omega), Mem.both, Out.map,
      Value.inspect, List.append_assoc, List.cons_append, List.nil_append]
theorem texts_of_denotes (isPrint : Char → Bool) {m : Mem} : {ps : List Ptr} → {vs : List Value} →
    DenoteAll m ps vs → ∃ d0, ∀ d, d0 ≤ d →
      Mem.texts (ps.map (m.inspect isPrint d)) = .ok (vs.map (Value.inspect isPrint))
  | _, _, .nil => ⟨0, fun _ _ => rfl⟩
  | _, _, .cons h hs => by
    obtain ⟨d0, ih⟩ := inspect_of_denotes isPrint h
    obtain ⟨d1, ih1⟩ := texts_of_denotes isPrint hs
    refine ⟨d0 + d1, fun d hd => ?_⟩
    simp only [List.map_cons, ih d (by omega), Mem.texts, ih1 d (by omega), Out.map]
end

/-- Objects other than arrays have one text. -/
theorem tight_other (isPrint : Char → Bool) {m : Mem} {r : Ref} {v : Value} (h : Denotes m r v)
    (hv : ∀ vs, v ≠ .array vs) :
    ∃ d0, ∀ d, d0 ≤ d → m.inspectTight isPrint d (some r) = .ok (v.inspectTight isPrint) := by
  obtain ⟨d0, ih⟩ := inspect_of_denotes isPrint h
  refine ⟨d0 + 1, fun d hd => ?_⟩
  obtain ⟨d, rfl⟩ := Nat.exists_eq_add_of_le' (Nat.le_trans (Nat.le_add_left 1 d0) hd)
  rw [Value.tight_of_not_array isPrint v hv, ← ih (d + 1) (by omega)]
  have : ∀ s, m.cell (some r) ≠ some (.array s) := by
    intro s hs
    rw [cell_some] at hs
    cases h with
    | array _ _ => exact hv _ rfl
    | _ => grind
  simp only [Mem.inspectTight]

mutual
/-- The text without spaces of a finite tree, with enough stack. -/
theorem tight_of_denotes (isPrint : Char → Bool) {m : Mem} : {r : Ref} → {v : Value} →
    Denotes m r v →
      ∃ d0, ∀ d, d0 ≤ d → m.inspectTight isPrint d (some r) = .ok (v.inspectTight isPrint)
  | r, _, .array h hs => by
    obtain ⟨d0, ih⟩ := textsTight_of_denotes isPrint hs
    refine ⟨d0 + 1, fun d hd => ?_⟩
    obtain ⟨d, rfl⟩ := Nat.exists_eq_add_of_le' (Nat.le_trans (Nat.le_add_left 1 d0) hd)
    simp only [Mem.inspectTight, cell_some, h, ih d (by omega), Out.map, Value.inspectTight,
      joinedTight_eq]
  | _, _, .integer h => tight_other isPrint (.integer h) (by simp)
  | _, _, .boolean h => tight_other isPrint (.boolean h) (by simp)
  | _, _, .string h => tight_other isPrint (.string h) (by simp)
  | _, _, .bRollComp h ha hi => tight_other isPrint (.bRollComp h ha hi) (by simp)
  | _, _, .rRollComp h ha hi => tight_other isPrint (.rRollComp h ha hi) (by simp)
  | _, _, .uRollExpr h ha hi => tight_other isPrint (.uRollExpr h ha hi) (by simp)
  | _, _, .uRollComp h ha hi => tight_other isPrint (.uRollComp h ha hi) (by simp)
theorem textsTight_of_denotes (isPrint : Char → Bool) {m : Mem} : {ps : List Ptr} →
    {vs : List Value} → DenoteAll m ps vs → ∃ d0, ∀ d, d0 ≤ d →
      Mem.texts (ps.map (m.inspectTight isPrint d)) = .ok (vs.map (Value.inspectTight isPrint))
  | _, _, .nil => ⟨0, fun _ _ => rfl⟩
  | _, _, .cons h hs => by
    obtain ⟨d0, ih⟩ := tight_of_denotes isPrint h
    obtain ⟨d1, ih1⟩ := textsTight_of_denotes isPrint hs
    refine ⟨d0 + d1, fun d hd => ?_⟩
    simp only [List.map_cons, ih d (by omega), Mem.texts, ih1 d (by omega), Out.map]
end

/-! ## Texts come from trees -/

theorem array_of_isArray {m : Mem} {r : Ref} {v : Value} (h : m.isArray (some r) = true)
    (d : Denotes m r v) : ∃ vs, v = .array vs := by
  simp only [Mem.isArray, Option.isNone_some, Bool.false_or, Mem.elementsAt, cell_some] at h
  cases d with
  | array _ _ => exact ⟨_, rfl⟩
  | _ => grind

theorem integer_of_isInteger {m : Mem} {r : Ref} {v : Value} (h : m.isInteger (some r) = true)
    (d : Denotes m r v) : ∃ n, v = .integer n := by
  simp only [Mem.isInteger, Option.isNone_some, Bool.false_or, Mem.integerAt, cell_some] at h
  cases d with
  | integer _ => exact ⟨_, rfl⟩
  | _ => grind

theorem uRollExpr_of_is {m : Mem} {r : Ref} {v : Value} (h : m.isURollExpr (some r) = true)
    (d : Denotes m r v) : ∃ vs n, v = .uRollExpr vs n := by
  simp only [Mem.isURollExpr, cell_some] at h
  cases d with
  | uRollExpr _ _ _ => exact ⟨_, _, rfl⟩
  | _ => grind

theorem texts_ok {m : Mem} {f : Ptr → Out Str} {g : Value → Str}
    (h : ∀ p t, f p = .ok t → ∃ r v, p = some r ∧ Denotes m r v ∧ t = g v) :
    ∀ (ps : List Ptr) (ts : List Str), Mem.texts (ps.map f) = .ok ts →
      ∃ vs, DenoteAll m ps vs ∧ ts = vs.map g := by
  intro ps
  induction ps with
  | nil => intro ts e; simp only [List.map_nil, Mem.texts] at e; cases e; exact ⟨[], .nil, rfl⟩
  | cons p ps ih =>
    intro ts e
    simp only [List.map_cons] at e
    cases hf : f p with
    | ok t =>
      rw [hf, Mem.texts] at e
      cases hr : Mem.texts (ps.map f) with
      | ok ts' =>
        rw [hr] at e
        simp only [Out.map, Out.ok.injEq] at e
        obtain ⟨vs, h1, h2⟩ := ih ts' hr
        obtain ⟨r, v, rfl, h3, h4⟩ := h p t hf
        exact ⟨v :: vs, .cons h3 h1, by rw [← e, h2, h4]; rfl⟩
      | err x => rw [hr] at e; cases e
      | panic x => rw [hr] at e; cases e
    | err x => rw [hf, Mem.texts] at e; cases e
    | panic x => rw [hf, Mem.texts] at e; cases e

theorem both_ok {x y : Out Str} {f : Str → Str → Str} {t : Str} (h : Mem.both x y f = .ok t) :
    ∃ a b, x = .ok a ∧ y = .ok b ∧ t = f a b := by
  cases x with
  | ok a =>
    cases y with
    | ok b => simp only [Mem.both, Out.map, Out.ok.injEq] at h; exact ⟨a, b, rfl, rfl, h.symm⟩
    | err e => cases h
    | panic e => cases h
  | err e => cases h
  | panic e => cases h

theorem denotes_of_inspect (isPrint : Char → Bool) {m : Mem} (ty : Typed m) :
    ∀ (d : Nat) (p : Ptr) (t : Str), m.inspect isPrint d p = .ok t →
      ∃ r v, p = some r ∧ Denotes m r v ∧ t = v.inspect isPrint := by
  intro d
  induction d with
  | zero => intro p t h; cases h
  | succ d ih =>
    intro p t h
    cases p with
    | none => cases h
    | some r =>
      refine ⟨r, ?_⟩
      simp only [Mem.inspect, cell_some] at h
      split at h
      · next v hv => cases h; exact ⟨_, rfl, .integer hv, rfl⟩
      · next v hv => cases h; exact ⟨_, rfl, .boolean hv, rfl⟩
      · next v hv => cases h; exact ⟨_, rfl, .string hv, rfl⟩
      · next s hs =>
        cases ht : Mem.texts ((m.contents s).map (m.inspect isPrint d)) with
        | ok ts =>
          rw [ht] at h
          simp only [Out.map, Out.ok.injEq] at h
          obtain ⟨vs, h1, h2⟩ := texts_ok ih _ _ ht
          refine ⟨.array vs, rfl, .array hs h1, ?_⟩
          rw [← h, h2, joined_eq]; rfl
        | err x => rw [ht] at h; cases h
        | panic x => rw [ht] at h; cases h
      · next a n hc =>
        obtain ⟨x, y, hx, hy, rfl⟩ := both_ok h
        have hty := ty r _ hc
        obtain ⟨ra, va, rfl, h1, rfl⟩ := ih _ _ hx
        obtain ⟨rn, vn, rfl, h2, rfl⟩ := ih _ _ hy
        obtain ⟨vs, rfl⟩ := array_of_isArray hty.1 h1
        obtain ⟨k, rfl⟩ := integer_of_isInteger hty.2 h2
        refine ⟨_, rfl, .bRollComp hc h1 h2, ?_⟩
        simp only [Value.inspect, List.append_assoc, List.cons_append, List.nil_append]
      · next a n hc =>
        obtain ⟨x, y, hx, hy, rfl⟩ := both_ok h
        have hty := ty r _ hc
        obtain ⟨ra, va, rfl, h1, rfl⟩ := ih _ _ hx
        obtain ⟨rn, vn, rfl, h2, rfl⟩ := ih _ _ hy
        obtain ⟨vs, rfl⟩ := array_of_isArray hty.1 h1
        obtain ⟨k, rfl⟩ := integer_of_isInteger hty.2 h2
        refine ⟨_, rfl, .rRollComp hc h1 h2, ?_⟩
        simp only [Value.inspect, List.append_assoc, List.cons_append, List.nil_append]
      · next a n c hc =>
        obtain ⟨x, y, hx, hy, rfl⟩ := both_ok h
        have hty := ty r _ hc
        obtain ⟨ra, va, rfl, h1, rfl⟩ := ih _ _ hx
        obtain ⟨rn, vn, rfl, h2, rfl⟩ := ih _ _ hy
        obtain ⟨vs, rfl⟩ := array_of_isArray hty.1 h1
        obtain ⟨k, rfl⟩ := integer_of_isInteger hty.2 h2
        refine ⟨_, rfl, .uRollExpr hc h1 h2, ?_⟩
        simp only [Value.inspect, List.append_assoc, List.cons_append, List.nil_append]
      · next a n hc =>
        obtain ⟨x, y, hx, hy, rfl⟩ := both_ok h
        have hty := ty r _ hc
        obtain ⟨ra, va, rfl, h1, rfl⟩ := ih _ _ hx
        obtain ⟨rn, vn, rfl, h2, rfl⟩ := ih _ _ hy
        obtain ⟨vs, md, rfl⟩ := uRollExpr_of_is hty.1 h1
        obtain ⟨k, rfl⟩ := integer_of_isInteger hty.2 h2
        refine ⟨_, rfl, .uRollComp hc h1 h2, ?_⟩
        simp only [Value.inspect, List.append_assoc, List.cons_append, List.nil_append]
      · cases h

theorem denotes_of_tight (isPrint : Char → Bool) {m : Mem} (ty : Typed m) :
    ∀ (d : Nat) (p : Ptr) (t : Str), m.inspectTight isPrint d p = .ok t →
      ∃ r v, p = some r ∧ Denotes m r v ∧ t = v.inspectTight isPrint := by
  intro d
  induction d with
  | zero => intro p t h; cases h
  | succ d ih =>
    intro p t h
    simp only [Mem.inspectTight] at h
    split at h
    · next s hs =>
      cases ht : Mem.texts ((m.contents s).map (m.inspectTight isPrint d)) with
      | ok ts =>
        rw [ht] at h
        simp only [Out.map, Out.ok.injEq] at h
        obtain ⟨vs, h1, h2⟩ := texts_ok ih _ _ ht
        cases p with
        | none => cases hs
        | some r =>
          refine ⟨r, .array vs, rfl, .array hs h1, ?_⟩
          rw [← h, h2, joinedTight_eq]; rfl
      | err x => rw [ht] at h; cases h
      | panic x => rw [ht] at h; cases h
    · next hs =>
      obtain ⟨r, v, rfl, h1, rfl⟩ := denotes_of_inspect isPrint ty _ _ _ h
      refine ⟨r, v, rfl, h1, ?_⟩
      rw [Value.tight_of_not_array]
      rintro vs rfl
      cases h1 with
      | array h2 _ => exact hs _ h2

end GoBCDice.ObjMem
