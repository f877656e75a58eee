import Verif.Basic

/-!
# Go maps with string keys

A non-nil Go map is a list of entries with different keys.  The order of the list has no meaning:
`range` visits the entries in some permutation of it (`GoMap.Visits`).
-/

namespace GoBCDice

/-- Value stored under a key in a list of entries. -/
def entriesGet {V : Type} : List (Str × V) → Str → Option V
  | [], _ => none
  | (k, v) :: es, x => if k = x then some v else entriesGet es x

/-- Store a value under a key in a list of entries. -/
def entriesSet {V : Type} : List (Str × V) → Str → V → List (Str × V)
  | [], x, w => [(x, w)]
  | (k, v) :: es, x, w => if k = x then (k, w) :: es else (k, v) :: entriesSet es x w

theorem entriesSet_keys {V : Type} (es : List (Str × V)) (x : Str) (w : V) (k : Str) :
    k ∈ (entriesSet es x w).map Prod.fst ↔ k = x ∨ k ∈ es.map Prod.fst := by
  induction es with
  | nil => simp [entriesSet]
  | cons e es ih =>
    obtain ⟨k', v⟩ := e
    rw [entriesSet]
    split
    · rename_i h; subst h; simp
    · simp only [List.map_cons, List.mem_cons, ih]; grind

theorem entriesSet_nodup {V : Type} (es : List (Str × V)) (x : Str) (w : V)
    (h : (es.map Prod.fst).Nodup) : ((entriesSet es x w).map Prod.fst).Nodup := by
  induction es with
  | nil => simp [entriesSet]
  | cons e es ih =>
    obtain ⟨k', v⟩ := e
    rw [List.map_cons, List.nodup_cons] at h
    rw [entriesSet]
    split
    · rw [List.map_cons, List.nodup_cons]; exact h
    · rename_i hk
      rw [List.map_cons, List.nodup_cons]
      refine ⟨?_, ih h.2⟩
      rw [entriesSet_keys]
      rintro (h' | h')
      · exact hk h'
      · exact h.1 h'

/-- A non-nil `map[string]V`. -/
structure GoMap (V : Type) where
  entries : List (Str × V)
  nodup : (entries.map Prod.fst).Nodup

namespace GoMap

variable {V : Type}

/-- `map[string]V{}` -/
def empty : GoMap V := ⟨[], List.nodup_nil⟩

/-- `v, found := m[k]` -/
def get? (m : GoMap V) (k : Str) : Option V := entriesGet m.entries k

/-- `m[k] = v` -/
def set (m : GoMap V) (k : Str) (v : V) : GoMap V :=
  ⟨entriesSet m.entries k v, entriesSet_nodup _ _ _ m.nodup⟩

/-- `len(m)` -/
def len (m : GoMap V) : Nat := m.entries.length

/-- `es` is a possible order of the entries visited by `for k, v := range m`. -/
def Visits (m : GoMap V) (es : List (Str × V)) : Prop := es.Perm m.entries

end GoMap

/-! ## Facts -/

theorem entriesGet_set {V : Type} (es : List (Str × V)) (x : Str) (w : V) (y : Str) :
    entriesGet (entriesSet es x w) y = if y = x then some w else entriesGet es y := by
  induction es with
  | nil => simp [entriesSet, entriesGet, eq_comm]
  | cons e es ih =>
    obtain ⟨k, v⟩ := e
    rw [entriesSet]
    split
    · rename_i h; subst h; simp only [entriesGet]; grind
    · simp only [entriesGet, ih]; grind

theorem entriesGet_mem {V : Type} {es : List (Str × V)} {k : Str} {v : V}
    (h : entriesGet es k = some v) : (k, v) ∈ es := by
  induction es with
  | nil => simp [entriesGet] at h
  | cons e es ih =>
    obtain ⟨k', v'⟩ := e
    rw [entriesGet] at h
    split at h
    · rename_i hk; subst hk; simp at h; simp [h]
    · exact List.mem_cons_of_mem _ (ih h)

theorem entriesGet_of_mem {V : Type} {es : List (Str × V)} (hn : (es.map Prod.fst).Nodup)
    {k : Str} {v : V} (h : (k, v) ∈ es) : entriesGet es k = some v := by
  induction es with
  | nil => simp at h
  | cons e es ih =>
    obtain ⟨k', v'⟩ := e
    rw [List.map_cons, List.nodup_cons] at hn
    rw [entriesGet]
    rcases List.mem_cons.1 h with h | h
    · cases h; simp
    · split
      · rename_i hk
        subst hk
        exact absurd (List.mem_map_of_mem (f := Prod.fst) h) hn.1
      · exact ih hn.2 h

theorem GoMap.get?_eq_some {V : Type} (m : GoMap V) (k : Str) (v : V) :
    m.get? k = some v ↔ (k, v) ∈ m.entries :=
  ⟨entriesGet_mem, entriesGet_of_mem m.nodup⟩

@[simp] theorem GoMap.get?_set {V : Type} (m : GoMap V) (x : Str) (w : V) (y : Str) :
    (m.set x w).get? y = if y = x then some w else m.get? y := entriesGet_set _ _ _ _

@[simp] theorem GoMap.get?_empty {V : Type} (y : Str) : (GoMap.empty : GoMap V).get? y = none := rfl

theorem GoMap.len_pos {V : Type} (m : GoMap V) : 0 < m.len ↔ ∃ k v, m.get? k = some v := by
  simp only [GoMap.get?_eq_some, GoMap.len]
  cases h : m.entries with
  | nil => simp
  | cons e es => exact ⟨fun _ => ⟨e.1, e.2, by simp⟩, fun _ => by simp⟩

end GoBCDice
