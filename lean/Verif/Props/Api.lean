import Verif.Api
import Verif.Props.Games
import Verif.Lemmas.Str

/-!
# C50, C51, C58: the web API helpers and answers
-/

namespace GoBCDice

theorem some_eq_flip {α : Type} (a v : α) : (some a = some v) = (v = a) := by
  simp only [Option.some.injEq]; exact propext eq_comm

/-! ## C50: the ok flag -/

/-- C50: any non-nil body is sent with the given status and a truthful `ok`, its other fields
unchanged; a nil body makes the helper panic. -/
theorem C50_ok_flag (status : Int64) (body : ResponseMap) :
    (∀ m, body = some m → ∃ r, jsonResponse status body = .ok r ∧ r.status = status ∧
      r.body.get? chars!"ok" = some (.bool (decide (status = 200))) ∧
      ∀ k, k ≠ chars!"ok" → r.body.get? k = m.get? k) ∧
    (body = none → (jsonResponse status body).isPanic = true) := by
  constructor
  · rintro m rfl
    unfold jsonResponse
    by_cases h : status = 200
    · simp only [h, ne_eq, not_true_eq_false, if_false]
      exact ⟨_, rfl, rfl, by simp, fun k hk => by simp [hk]⟩
    · simp only [ne_eq, h, not_false_eq_true, if_true]
      exact ⟨_, rfl, rfl, by simp, fun k hk => by simp [hk]⟩
  · rintro rfl; rfl

/-- C50: an array is sent as `items` with its length as `count` and a truthful `ok`. -/
theorem C50_array (status : Int64) (items : List ResponseMap) :
    ∃ r, jsonResponseArray status items = .ok r ∧ r.status = status ∧
      (∀ k v, r.body.get? k = some v ↔
        k = chars!"ok" ∧ v = .bool (decide (status = 200)) ∨
        k = chars!"items" ∧ v = .maps (items.map (·.map GoMap.entries)) ∨
        k = chars!"count" ∧ v = .int (Int64.ofNat items.length)) := by
  obtain ⟨r, h1, h2, h3, h4⟩ := (C50_ok_flag status _).1 _ (rfl : some
    (((GoMap.empty (V := JV)).set chars!"items" (.maps (items.map (·.map GoMap.entries)))).set
      chars!"count" (.int (Int64.ofNat items.length))) = some _)
  refine ⟨r, h1, h2, ?_⟩
  intro k v
  by_cases hk : k = chars!"ok"
  · subst hk; rw [h3]; simp [-Option.some.injEq, some_eq_flip]
  · rw [h4 k hk]
    simp only [GoMap.get?_set, GoMap.get?_empty]
    by_cases hc : k = chars!"count"
    · subst hc; simp [-Option.some.injEq, some_eq_flip]
    · by_cases hi : k = chars!"items"
      · subst hi; simp [-Option.some.injEq, some_eq_flip]
      · simp [hk, hc, hi]

/-- C50: an error is sent with its code and message and a truthful `ok`: false unless the code
is 200. -/
theorem C50_error (err : ResponseError) :
    ∃ r, jsonResponseError err = .ok r ∧ r.status = err.code ∧
      (∀ k v, r.body.get? k = some v ↔
        k = chars!"ok" ∧ v = .bool (decide (err.code = 200)) ∨
        k = chars!"message" ∧ v = .str err.message) := by
  obtain ⟨r, h1, h2, h3, h4⟩ := (C50_ok_flag err.code _).1 _ (rfl : some
    (((GoMap.empty (V := JV)).set chars!"ok" (.bool false)).set chars!"message"
      (.str err.message)) = some _)
  refine ⟨r, h1, h2, ?_⟩
  intro k v
  by_cases hk : k = chars!"ok"
  · subst hk; rw [h3]; simp [-Option.some.injEq, some_eq_flip]
  · rw [h4 k hk]
    simp only [GoMap.get?_set, GoMap.get?_empty]
    by_cases hc : k = chars!"message"
    · subst hc; simp [-Option.some.injEq, some_eq_flip]
    · simp [hk, hc]

/-- C50: the text of such an error has its code and its message, so that equal texts mean equal
errors. -/
theorem C50_error_text (e e' : ResponseError) :
    e.error = chars!"Response error: " ++ intStr e.code ++ chars!" " ++ e.message ∧
    (e.error = e'.error → e = e') := by
  refine ⟨rfl, ?_⟩
  intro h
  obtain ⟨c, m⟩ := e
  obtain ⟨c', m'⟩ := e'
  simp only [ResponseError.error, List.append_assoc, List.append_cancel_left_eq] at h
  have sp : ∀ c : Int64, ' ' ∉ intStr c := by
    intro c
    unfold intStr
    have hn : ∀ n, ' ' ∉ natStr n := fun n hm => absurd (natStr_isDigit n ' ' hm) (by decide)
    split
    · intro hm
      rcases List.mem_cons.1 hm with h | h
      · exact absurd h (by decide)
      · exact hn _ h
    · exact hn _
  have split : ∀ (a b x y : Str), ' ' ∉ a → ' ' ∉ b → a ++ (' ' :: x) = b ++ (' ' :: y) → a = b ∧ x = y := by
    intro a
    induction a with
    | nil =>
      intro b x y _ hb h
      cases b with
      | nil => simpa using h
      | cons z b =>
        simp only [List.nil_append, List.cons_append, List.cons.injEq] at h
        exact absurd (by rw [← h.1]; simp) hb
    | cons z a ih =>
      intro b x y ha hb h
      cases b with
      | nil =>
        simp only [List.nil_append, List.cons_append, List.cons.injEq] at h
        exact absurd (by rw [h.1]; simp) ha
      | cons w b =>
        simp only [List.cons_append, List.cons.injEq] at h
        obtain ⟨h1, h2⟩ := ih b x y (fun hm => ha (by simp [hm])) (fun hm => hb (by simp [hm])) h.2
        exact ⟨by rw [h.1, h1], h2⟩
  obtain ⟨h1, h2⟩ := split _ _ m m' (sp c) (sp c') h
  rw [intStr_inj h1, h2]


/-- Non-vacuity: a body that already claims `ok` is corrected. -/
example : ∃ r, jsonResponse 404
    (some (((GoMap.empty (V := JV)).set chars!"ok" (.bool true)).set chars!"x" (.int 3))) = .ok r ∧
    r.status = 404 ∧ r.body.entries = [(chars!"ok", .bool false), (chars!"x", .int 3)] :=
  ⟨_, rfl, rfl, rfl⟩

/-! ## C58: the answers of the routes -/

/-- C58: every possible answer of every route is a 200 whose body has `ok` = true and exactly the
field of that route: the greeting, the versions, the game ids or the game details. -/
theorem C58_routes {σ} (usage : Str) (reg : Registry σ) (path : Str) (answer : Out Response)
    (h : Serves usage reg path answer) :
    ∃ r, answer = .ok r ∧ r.status = 200 ∧ r.body.get? chars!"ok" = some (.bool true) ∧
      (path = chars!"/" ∧ (∀ k, k ≠ chars!"ok" → ∀ v, r.body.get? k = some v ↔
          k = chars!"message" ∧ v = .str chars!"Hello. This is GoBCDiceAPI.") ∨
       path = chars!"/v1/version" ∧ (∀ k, k ≠ chars!"ok" → ∀ v, r.body.get? k = some v ↔
          k = chars!"api" ∧ v = .str chars!"0.0.1" ∨ k = chars!"bcdice" ∧ v = .str chars!"0.0.0") ∨
       path = chars!"/v1/systems" ∧ (∃ ids, AvailableGameIDs usage reg true ids ∧
          ∀ k, k ≠ chars!"ok" → ∀ v, r.body.get? k = some v ↔
            k = chars!"systems" ∧ v = .strs ids) ∨
       path = chars!"/v1/names" ∧ (∃ infos, AvailableGameInfos usage reg true infos ∧
          ∀ k, k ≠ chars!"ok" → ∀ v, r.body.get? k = some v ↔
            k = chars!"names" ∧ v = .infos infos)) := by
  cases h with
  | root =>
    obtain ⟨r, h1, h2, h3, h4⟩ := (C50_ok_flag 200 _).1 _ (rfl : rootBody = some _)
    refine ⟨r, h1, h2, h3, .inl ⟨rfl, fun k hk v => ?_⟩⟩
    rw [h4 k hk]
    simp only [GoMap.get?_set, GoMap.get?_empty]
    by_cases hc : k = chars!"message" <;> simp [hc, -Option.some.injEq, some_eq_flip]
  | version =>
    obtain ⟨r, h1, h2, h3, h4⟩ := (C50_ok_flag 200 _).1 _ (rfl : versionBody = some _)
    refine ⟨r, h1, h2, h3, .inr (.inl ⟨rfl, fun k hk v => ?_⟩)⟩
    rw [h4 k hk]
    simp only [GoMap.get?_set, GoMap.get?_empty]
    by_cases hc : k = chars!"bcdice"
    · simp [hc, -Option.some.injEq, some_eq_flip]
    · by_cases hd : k = chars!"api" <;> simp [hc, hd, -Option.some.injEq, some_eq_flip]
  | systems ids hids =>
    obtain ⟨r, h1, h2, h3, h4⟩ := (C50_ok_flag 200 _).1 _ (rfl : systemsBody ids = some _)
    refine ⟨r, h1, h2, h3, .inr (.inr (.inl ⟨rfl, ids, hids, fun k hk v => ?_⟩))⟩
    rw [h4 k hk]
    simp only [GoMap.get?_set, GoMap.get?_empty]
    by_cases hc : k = chars!"systems" <;> simp [hc, -Option.some.injEq, some_eq_flip]
  | names infos hinfos =>
    obtain ⟨r, h1, h2, h3, h4⟩ := (C50_ok_flag 200 _).1 _ (rfl : namesBody infos = some _)
    refine ⟨r, h1, h2, h3, .inr (.inr (.inr ⟨rfl, infos, hinfos, fun k hk v => ?_⟩))⟩
    rw [h4 k hk]
    simp only [GoMap.get?_set, GoMap.get?_empty]
    by_cases hc : k = chars!"names" <;> simp [hc, -Option.some.injEq, some_eq_flip]

/-- C58: each of the four routes answers, whatever the registry. -/
theorem C58_total {σ} (usage : Str) (reg : Registry σ) (path : Str)
    (h : path ∈ [chars!"/", chars!"/v1/version", chars!"/v1/systems", chars!"/v1/names"]) :
    ∃ answer, Serves usage reg path answer := by
  obtain ⟨⟨ids, h1⟩, ⟨infos, h2⟩⟩ := C49_total usage reg true
  simp only [List.mem_cons, List.not_mem_nil, or_false] at h
  rcases h with rfl | rfl | rfl | rfl
  · exact ⟨_, .root⟩
  · exact ⟨_, .version⟩
  · exact ⟨_, .systems ids h1⟩
  · exact ⟨_, .names infos h2⟩

/-- C58 for the code's own registry: `/v1/systems` answers `["DiceBot"]`, always. -/
theorem C58_repo_systems {σ} (usage : Str) (answer : Out Response)
    (h : Serves usage (repoRegistry (σ := σ)) chars!"/v1/systems" answer) :
    ∃ r, answer = .ok r ∧ r.body.get? chars!"systems" = some (.strs [chars!"DiceBot"]) := by
  obtain ⟨r, h1, _, _, h4⟩ := C58_routes usage repoRegistry _ _ h
  rcases h4 with ⟨h, -⟩ | ⟨h, -⟩ | ⟨-, ids, hids, hk⟩ | ⟨h, -⟩
  · simp at h
  · simp at h
  · rw [(C49_repo usage ids []).1] at hids
    exact ⟨r, h1, (hk _ (by simp) _).2 ⟨rfl, by rw [hids]⟩⟩
  · simp at h

/-! ## C51: the validation record -/

/-- The call reports `message` for `field`. -/
def Reports : ErrorsOp → (field message : Str) → Prop
  | .add f m, field, message => f = field ∧ m = message
  | .validateMin v min f m, field, message => v.toInt < min.toInt ∧ f = field ∧ m = message
  | .validateMax v max f m, field, message => max.toInt < v.toInt ∧ f = field ∧ m = message
  | .clear, _, _ => False

theorem step_get (e : Errors) (op : ErrorsOp) (f m : Str) :
    (e.step op).messages.get? f = some m ↔
      Reports op f m ∨
        (op ≠ .clear ∧ (∀ m', ¬ Reports op f m') ∧ e.messages.get? f = some m) := by
  cases op with
  | add f' m' =>
    simp only [Errors.step, Errors.add, GoMap.get?_set, Reports]
    by_cases h : f = f' <;> simp [h, eq_comm]
  | validateMin v b f' m' =>
    simp only [Errors.step, Errors.validateMin, Reports, Int64.lt_iff_toInt_lt]
    split
    · rename_i hv
      simp only [Errors.add, GoMap.get?_set]
      by_cases h : f = f' <;> simp [hv, h, eq_comm]
    · rename_i hv; simp [hv]
  | validateMax v b f' m' =>
    simp only [Errors.step, Errors.validateMax, Reports, GT.gt, Int64.lt_iff_toInt_lt]
    split
    · rename_i hv
      simp only [Errors.add, GoMap.get?_set]
      by_cases h : f = f' <;> simp [hv, h, eq_comm]
    · rename_i hv; simp [hv]
  | clear => simp [Errors.step, Errors.clear, Reports]

theorem snoc_split {α : Type} {h h1 h2 : List α} {x op : α} (e : h ++ [x] = h1 ++ op :: h2) :
    (h2 = [] ∧ h1 = h ∧ op = x) ∨ ∃ h2', h2 = h2' ++ [x] ∧ h = h1 ++ op :: h2' := by
  rcases List.eq_nil_or_concat h2 with rfl | ⟨h2', y, rfl⟩
  · left
    have := List.append_inj' e rfl
    exact ⟨rfl, this.1.symm, by simpa using this.2.symm⟩
  · right
    have e' : h ++ [x] = (h1 ++ op :: h2') ++ [y] := by simpa using e
    have := List.append_inj' e' rfl
    exact ⟨h2', by simpa using this.2.symm, this.1⟩

/-- C51: after any history of calls on a new record, the message kept for a field is the last one
reported for it since the last `Clear`. -/
theorem C51_messages (history : List ErrorsOp) (field message : Str) :
    (history.foldl Errors.step newErrors).messages.get? field = some message ↔
      ∃ before op after, history = before ++ op :: after ∧ Reports op field message ∧
        ∀ o ∈ after, o ≠ .clear ∧ ∀ m, ¬ Reports o field m := by
  rw [← List.reverse_reverse history]
  generalize history.reverse = h
  induction h generalizing message with
  | nil => simp [newErrors]
  | cons x h ih =>
    simp only [List.reverse_cons, List.foldl_append, List.foldl_cons, List.foldl_nil]
    rw [step_get, ih]
    constructor
    · rintro (hr | ⟨hc, hn, h1, op, h2, e, hr, ha⟩)
      · exact ⟨h.reverse, x, [], rfl, hr, by simp⟩
      · refine ⟨h1, op, h2 ++ [x], by rw [e]; simp, hr, ?_⟩
        intro o ho
        rcases List.mem_append.1 ho with ho | ho
        · exact ha o ho
        · simp only [List.mem_singleton] at ho; subst ho; exact ⟨hc, hn⟩
    · rintro ⟨h1, op, h2, e, hr, ha⟩
      rcases snoc_split e with ⟨rfl, rfl, rfl⟩ | ⟨h2', rfl, e'⟩
      · exact .inl hr
      · have := ha x (by simp)
        exact .inr ⟨this.1, this.2, h1, op, h2', e', hr, fun o ho => ha o (by simp [ho])⟩

/-- C51: `HasMessages` is true exactly when something has been reported since the last `Clear`. -/
theorem C51_has_messages (history : List ErrorsOp) :
    (history.foldl Errors.step newErrors).hasMessages = true ↔
      ∃ before op after field message, history = before ++ op :: after ∧
        Reports op field message ∧ ErrorsOp.clear ∉ after := by
  rw [Errors.hasMessages, decide_eq_true_iff, gt_iff_lt, GoMap.len_pos]
  constructor
  · rintro ⟨f, m, h⟩
    obtain ⟨b, op, a, e, hr, ha⟩ := (C51_messages history f m).1 h
    exact ⟨b, op, a, f, m, e, hr, fun hc => (ha _ hc).1 rfl⟩
  · rintro ⟨b, op, a, f, m, e, hr, hc⟩
    -- the last report of `f` after `b`
    suffices H : ∀ a b op m, history = b ++ op :: a → Reports op f m → ErrorsOp.clear ∉ a →
        ∃ m, (history.foldl Errors.step newErrors).messages.get? f = some m from
      let ⟨m, hm⟩ := H a b op m e hr hc; ⟨f, m, hm⟩
    clear e hr hc b op m a
    intro a
    induction hn : a.length using Nat.strongRecOn generalizing a with
    | ind n ih =>
      intro b op m e hr hc
      by_cases hlast : ∀ o ∈ a, ∀ m', ¬ Reports o f m'
      · refine ⟨m, (C51_messages history f m).2 ⟨b, op, a, e, hr, fun o ho => ⟨?_, hlast o ho⟩⟩⟩
        rintro rfl; exact hc ho
      · simp only [Classical.not_forall, Classical.not_not] at hlast
        obtain ⟨o, ho, m', hr'⟩ := hlast
        obtain ⟨a1, a2, rfl⟩ := List.append_of_mem ho
        refine ih a2.length (by subst hn; simp; omega) a2 rfl (b ++ op :: a1) o m'
          (by rw [e]; simp) hr' (fun h => hc (by simp [h]))

/-- Non-vacuity: a history with a boundary value that is not reported, an overwritten message and
an erased one. -/
example : ((([.add chars!"z" chars!"gone", .clear, .validateMin 1 1 chars!"n" chars!"small",
      .validateMax 7 6 chars!"n" chars!"large", .add chars!"n" chars!"other"] :
      List ErrorsOp).foldl Errors.step newErrors).messages.entries = [(chars!"n", chars!"other")]) ∧
    ErrorsOp.clear ∉ ([.validateMin 1 1 chars!"n" chars!"small"] : List ErrorsOp) := by
  refine ⟨by decide, ?_⟩
  simp

end GoBCDice
