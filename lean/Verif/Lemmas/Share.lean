import Verif.Lemmas.SimUnless

/-! # Goroutines that share a feeder -/

namespace GoBCDice
namespace Share

variable {σ τ : Type}

/-- A session that stops where the feeder says so. -/
def sess (F : DieFeeder σ) (usage : Str) (stop : σ → Bool) : List Bytes → σ → List (Out Result) × σ
  | [], s => ([], s)
  | input :: inputs, s =>
    match executeBytes F (basicByteBot usage) input s with
    | (r, s1) =>
      if stop s1 then ([], s1)
      else ((r :: (sess F usage stop inputs s1).1), (sess F usage stop inputs s1).2)

theorem session_eq (usage : Str) (inputs : List Bytes) (s : Script) :
    session usage inputs s = sess scriptFeeder usage (·.waits.isSome) inputs s := by
  induction inputs generalizing s with
  | nil => rfl
  | cons input inputs ih =>
    simp only [session, sess]
    split
    · rfl
    · rw [ih]

theorem answersAlone_eq (F : DieFeeder σ) (usage : Str) (inputs : List Bytes) (s : σ) :
    answersAlone F (basicByteBot usage) inputs s = sess F usage (fun _ => false) inputs s := by
  induction inputs generalizing s with
  | nil => rfl
  | cons input inputs ih =>
    simp only [answersAlone, sess]
    rw [ih]
    rfl

/-- Sessions with feeders that answer alike until the first gives up. -/
theorem sess_alikeU {R J : σ → τ → Prop} {F : DieFeeder σ} {G : DieFeeder τ} (h : AlikeUnless F G R J) (usage : Str)
    {stop : σ → Bool} {stop' : τ → Bool} (hJ : ∀ s t, J s t → stop s = true)
    (hR : ∀ s t, R s t → stop s = stop' t) (inputs : List Bytes) :
    (∀ s t, R s t →
      J (sess F usage stop inputs s).2 (sess G usage stop' inputs t).2 ∨
      (sess F usage stop inputs s).1 = (sess G usage stop' inputs t).1 ∧
        R (sess F usage stop inputs s).2 (sess G usage stop' inputs t).2) ∧
    ∀ s t, J s t → J s (sess G usage stop' inputs t).2 := by
  induction inputs with
  | nil => exact ⟨fun s t hr => .inr ⟨rfl, hr⟩, fun _ _ h => h⟩
  | cons input inputs ih =>
    have hx := executeBytes_alikeU h usage input
    have hk : ∀ s t, J s t → J s (sess G usage stop' (input :: inputs) t).2 := by
      intro s t hj
      have := hx.2 s t hj
      simp only [sess]
      generalize executeBytes G (basicByteBot usage) input t = y at this ⊢
      obtain ⟨r, t1⟩ := y
      dsimp only at this ⊢
      split
      · exact this
      · exact ih.2 _ _ this
    refine ⟨?_, hk⟩
    intro s t hr
    have h0 := hx.1 s t hr
    simp only [sess]
    generalize executeBytes F (basicByteBot usage) input s = x at h0 ⊢
    generalize executeBytes G (basicByteBot usage) input t = y at h0 ⊢
    obtain ⟨o, s1⟩ := x
    obtain ⟨o', t1⟩ := y
    dsimp only at h0 ⊢
    rcases h0 with ⟨-, h0⟩ | ⟨h1, h2⟩
    · left
      rw [if_pos (hJ _ _ h0)]
      dsimp only
      split
      · exact h0
      · exact ih.2 _ _ h0
    · subst h1
      rw [hR _ _ h2]
      split
      · exact .inr ⟨rfl, h2⟩
      · rcases ih.1 _ _ h2 with h3 | ⟨h3, h4⟩
        · exact .inl h3
        · exact .inr ⟨by simp [h3], h4⟩

/-! ## One answer more -/

/-- As `scriptFeeder`, with the requests that are expected. -/
structure Expect where
  left : List (Int64 × Out Die)
  waits : Option Int64
  bad : Bool

def expectFeeder : DieFeeder Expect where
  next s k :=
    match s.left with
    | (k', a) :: left => if k = k' then (a, { s with left := left }) else (.panic [], { s with bad := true })
    | [] => (.panic chars!"waiting", { s with waits := some k })

def Expect.stop (s : Expect) : Bool := s.waits.isSome || s.bad

/-- The run against expected requests. -/
def expectRun (usage : Str) (inputs : List Bytes) (l : List (Int64 × Out Die)) : List (Out Result) × Expect :=
  sess expectFeeder usage Expect.stop inputs ⟨l, none, false⟩

def scriptRun (usage : Str) (inputs : List Bytes) (l : List (Out Die)) : List (Out Result) × Script :=
  sess scriptFeeder usage (·.waits.isSome) inputs ⟨l, none⟩

/-- No request is unexpected, and all answers are used. -/
def Follows (usage : Str) (inputs : List Bytes) (l : List (Int64 × Out Die)) : Prop :=
  (expectRun usage inputs l).2.bad = false ∧ (expectRun usage inputs l).2.left = []

/-- The run against expected requests is the run of the script. -/
theorem script_of_expect (usage : Str) (inputs : List Bytes) (l : List (Int64 × Out Die))
    (h : (expectRun usage inputs l).2.bad = false) :
    (expectRun usage inputs l).1 = (scriptRun usage inputs (l.map (·.2))).1 ∧
    (scriptRun usage inputs (l.map (·.2))).2 =
      ⟨(expectRun usage inputs l).2.left.map (·.2), (expectRun usage inputs l).2.waits⟩ := by
  have hal : AlikeUnless expectFeeder scriptFeeder
      (fun s t => s.bad = false ∧ t = ⟨s.left.map (·.2), s.waits⟩) (fun s _ => s.bad = true) := by
    refine ⟨?_, fun _ _ _ _ h => h⟩
    rintro ⟨left, waits, bad⟩ t k - ⟨hb, rfl⟩
    dsimp only at hb
    subst hb
    cases left with
    | nil => exact .inr ⟨rfl, rfl, rfl⟩
    | cons c left =>
      obtain ⟨k', a⟩ := c
      by_cases hk : k = k'
      · right
        simp [expectFeeder, scriptFeeder, hk]
      · left
        simp [expectFeeder, hk]
  rcases (sess_alikeU hal usage (stop := Expect.stop) (stop' := (·.waits.isSome))
      (fun s t h => by simp [Expect.stop, h]) (fun s t h => by obtain ⟨h1, rfl⟩ := h; simp [Expect.stop, h1])
      inputs).1 ⟨l, none, false⟩ ⟨l.map (·.2), none⟩ ⟨rfl, rfl⟩ with hj | ⟨h1, h2, h3⟩
  · exact absurd (h.symm.trans hj) (by decide)
  · exact ⟨h1, h3⟩

theorem follows_nil (usage : Str) (inputs : List Bytes) : Follows usage inputs [] := by
  have hal : AlikeUnless expectFeeder expectFeeder
      (fun s t => s = t ∧ s.bad = false ∧ s.left = []) (fun _ _ => False) := by
    refine ⟨?_, fun _ _ _ _ h => h⟩
    rintro ⟨left, waits, bad⟩ t k - ⟨rfl, hb, hl⟩
    dsimp only at hb hl
    subst hb hl
    exact .inr ⟨rfl, rfl, rfl, rfl⟩
  rcases (sess_alikeU hal usage (stop := Expect.stop) (stop' := Expect.stop)
      (fun s t h => h.elim) (fun s t h => by rw [h.1]) inputs).1 ⟨[], none, false⟩ _ ⟨rfl, rfl, rfl⟩ with hj | ⟨-, -, h1, h2⟩
  · exact hj.elim
  · exact ⟨h1, h2⟩

/-- The program asks only for dice with at least one side. -/
theorem follows_sides {usage : Str} {inputs : List Bytes} {l : List (Int64 × Out Die)} (h : Follows usage inputs l) :
    ∀ c ∈ l, 1 ≤ c.1 := by
  have hal : AlikeUnless expectFeeder expectFeeder
      (fun s t => s = t ∧ ∃ used, l = used ++ s.left ∧ ∀ c ∈ used, 1 ≤ c.1) (fun _ _ => False) := by
    refine ⟨?_, fun _ _ _ _ h => h⟩
    rintro ⟨left, waits, bad⟩ t k hk ⟨rfl, used, hl, hu⟩
    dsimp only at hl
    refine .inr ⟨rfl, rfl, ?_⟩
    cases left with
    | nil => exact ⟨used, hl, hu⟩
    | cons c left =>
      obtain ⟨k', a⟩ := c
      by_cases hkk : k = k'
      · refine ⟨used ++ [(k', a)], by simp [expectFeeder, hkk, hl], ?_⟩
        intro c hc
        rcases List.mem_append.mp hc with hc | hc
        · exact hu c hc
        · rw [List.mem_singleton.mp hc]
          exact hkk ▸ hk
      · exact ⟨used, by simp [expectFeeder, hkk, hl], hu⟩
  rcases (sess_alikeU hal usage (stop := Expect.stop) (stop' := Expect.stop)
      (fun s t h => h.elim) (fun s t h => by rw [h.1]) inputs).1 ⟨l, none, false⟩ _
      ⟨rfl, [], rfl, by simp⟩ with hj | ⟨-, -, used, h1, h2⟩
  · exact hj.elim
  · have : (expectRun usage inputs l).2.left = [] := h.2
    have h1' : l = used ++ (expectRun usage inputs l).2.left := h1
    rw [this, List.append_nil] at h1'
    rw [h1']
    exact h2

/-- An answer to what is waited for. -/
theorem follows_step {usage : Str} {inputs : List Bytes} {l : List (Int64 × Out Die)} {k : Int64} (a : Out Die)
    (h : Follows usage inputs l) (hw : (expectRun usage inputs l).2.waits = some k) :
    Follows usage inputs (l ++ [(k, a)]) := by
  have hal : AlikeUnless expectFeeder expectFeeder
      (fun s t => s.bad = false ∧ s.waits = none ∧ t = ⟨s.left ++ [(k, a)], none, false⟩)
      (fun s t => s.bad = true ∨ ∃ k0, s.waits = some k0 ∧ (k0 = k → t.bad = false ∧ t.left = [])) := by
    constructor
    · rintro ⟨left, waits, bad⟩ t k0 - ⟨hb, hw, rfl⟩
      dsimp only at hb hw
      subst hb hw
      cases left with
      | nil =>
        left
        refine ⟨⟨_, rfl⟩, .inr ⟨k0, rfl, ?_⟩⟩
        rintro rfl
        simp [expectFeeder]
      | cons c left =>
        obtain ⟨k', a'⟩ := c
        by_cases hk : k0 = k'
        · right
          simp [expectFeeder, hk]
        · left
          simp [expectFeeder, hk]
    · rintro s ⟨left, waits, bad⟩ k1 - (h | ⟨k0, h1, h2⟩)
      · exact .inl h
      · refine .inr ⟨k0, h1, fun e => ?_⟩
        obtain ⟨h3, h4⟩ := h2 e
        dsimp only at h3 h4
        subst h3 h4
        exact ⟨rfl, rfl⟩
  rcases (sess_alikeU hal usage (stop := Expect.stop) (stop' := Expect.stop)
      (by rintro s t (h | ⟨k0, h, -⟩) <;> simp [Expect.stop, h])
      (by rintro s t ⟨h1, h2, rfl⟩; simp [Expect.stop, h1, h2]) inputs).1
      ⟨l, none, false⟩ ⟨l ++ [(k, a)], none, false⟩ ⟨rfl, rfl, rfl⟩ with (hj | ⟨k0, hj, hj'⟩) | ⟨-, -, h1, -⟩
  · exact absurd (h.1.symm.trans hj) (by decide)
  · exact hj' (by
      have : some k0 = some k := hj.symm.trans hw
      exact Option.some.inj this)
  · exact absurd (hw.symm.trans h1) (by simp)

/-- A run that follows and does not wait gets exactly the expected requests. -/
theorem expecting_of_expect {usage : Str} {inputs : List Bytes} {l : List (Int64 × Out Die)}
    (h : Follows usage inputs l) (hw : (expectRun usage inputs l).2.waits = none) :
    answersAlone expecting (basicByteBot usage) inputs (some l) = ((expectRun usage inputs l).1, some []) := by
  have hal : AlikeUnless expectFeeder expecting
      (fun s t => s.bad = false ∧ s.waits = none ∧ t = some s.left) (fun s _ => s.stop = true) := by
    refine ⟨?_, fun _ _ _ _ h => h⟩
    rintro ⟨left, waits, bad⟩ t k - ⟨hb, hw, rfl⟩
    dsimp only at hb hw
    subst hb hw
    cases left with
    | nil => exact .inl ⟨⟨_, rfl⟩, rfl⟩
    | cons c left =>
      obtain ⟨k', a⟩ := c
      by_cases hk : k = k'
      · right
        simp [expectFeeder, expecting, hk]
      · left
        simp [expectFeeder, hk, Expect.stop]
  rw [answersAlone_eq]
  rcases (sess_alikeU hal usage (stop := Expect.stop) (stop' := fun _ => false)
      (fun s t h => h) (fun s t h => by simp [Expect.stop, h.1, h.2.1])
      inputs).1 ⟨l, none, false⟩ (some l) ⟨rfl, rfl, rfl⟩ with hj | ⟨h1, -, -, h2⟩
  · exact absurd hj (by
      have h1 := h.1
      unfold expectRun at h1 hw
      simp [Expect.stop, h1, hw])
  · refine Prod.ext h1.symm ?_
    rw [h2]
    exact congrArg some h.2

/-- A run that follows and does not wait is that with any feeder that gives the answers. -/
theorem real_of_expect {F : DieFeeder σ} {f0 f : σ} {usage : Str} {inputs : List Bytes} {l : List (Int64 × Out Die)}
    (h : Follows usage inputs l) (hw : (expectRun usage inputs l).2.waits = none) (hd : Deals F f0 l f) :
    answersAlone F (basicByteBot usage) inputs f0 = ((expectRun usage inputs l).1, f) := by
  have hal : AlikeUnless expectFeeder F
      (fun s t => s.bad = false ∧ s.waits = none ∧ Deals F t s.left f) (fun s _ => s.stop = true) := by
    refine ⟨?_, fun _ _ _ _ h => h⟩
    rintro ⟨left, waits, bad⟩ t k - ⟨hb, hw, hd⟩
    dsimp only at hb hw hd
    subst hb hw
    cases hd with
    | nil => exact .inl ⟨⟨_, rfl⟩, rfl⟩
    | @cons _ f' _ k' a left e hd =>
      by_cases hk : k = k'
      · right
        subst hk
        rw [e]
        simp only [expectFeeder]
        exact ⟨rfl, rfl, rfl, hd⟩
      · left
        simp [expectFeeder, hk, Expect.stop]
  rw [answersAlone_eq]
  rcases (sess_alikeU hal usage (stop := Expect.stop) (stop' := fun _ => false)
      (fun s t h => h) (fun s t h => by simp [Expect.stop, h.1, h.2.1])
      inputs).1 ⟨l, none, false⟩ f0 ⟨rfl, rfl, hd⟩ with hj | ⟨h1, -, -, h2⟩
  · exact absurd hj (by
      have h1 := h.1
      unfold expectRun at h1 hw
      simp [Expect.stop, h1, hw])
  · refine Prod.ext h1.symm ?_
    have h3 := h.2
    unfold expectRun at h3
    rw [h3] at h2
    generalize (sess F usage (fun _ => false) inputs f0).2 = f' at h2 ⊢
    cases h2
    rfl

/-! ## Running for ever -/

/-- A feeder that gives the answers `a 0`, `a 1`, ... -/
def streamFeeder (a : Nat → Out Die) : DieFeeder Nat where
  next n _ := (a n, n + 1)

/-- With enough answers a goroutine finishes. -/
theorem stream_done (a : Nat → Out Die) (usage : Str) (inputs : List Bytes) :
    ∃ n, ∀ m, n ≤ m → ∃ rs, stand usage inputs ((List.range m).map a) = .done rs := by
  refine ⟨(sess (streamFeeder a) usage (fun _ => false) inputs 0).2, fun m hm => ?_⟩
  have hal : AlikeUnless scriptFeeder (streamFeeder a)
      (fun s t => t ≤ m ∧ s = ⟨(List.range' t (m - t)).map a, none⟩) (fun s t => s.waits.isSome = true ∧ m < t) := by
    constructor
    · rintro s t k - ⟨ht, rfl⟩
      by_cases h : t = m
      · left
        subst h
        refine ⟨?_, ?_, ?_⟩
        · exact ⟨_, by simp [scriptFeeder]; rfl⟩
        · simp [scriptFeeder]
        · exact Nat.lt_succ_self _
      · right
        obtain ⟨d, hd⟩ : ∃ d, m - t = d + 1 := ⟨m - t - 1, by omega⟩
        have hd' : m - (t + 1) = d := by omega
        simp only [scriptFeeder, streamFeeder, hd, hd', List.range'_succ, List.map_cons]
        exact ⟨trivial, by omega, trivial⟩
    · rintro s t k - ⟨h1, h2⟩
      exact ⟨h1, Nat.lt_succ_of_lt h2⟩
  have key := (sess_alikeU hal usage (stop := (·.waits.isSome)) (stop' := fun _ => false)
      (fun s t h => h.1) (fun s t h => by rw [h.2]; rfl)
      inputs).1 ⟨(List.range m).map a, none⟩ 0 ⟨Nat.zero_le _, by simp [List.range_eq_range']⟩
  rcases key with ⟨-, hj⟩ | ⟨-, -, h2⟩
  · omega
  · unfold stand
    rw [session_eq]
    generalize sess scriptFeeder usage (·.waits.isSome) inputs ⟨(List.range m).map a, none⟩ = x at h2 ⊢
    obtain ⟨rs, s⟩ := x
    dsimp only at h2 ⊢
    rw [h2]
    exact ⟨rs, rfl⟩

/-! ## Where a goroutine stands -/

theorem stand_asks {usage : Str} {inputs : List Bytes} {l : List (Int64 × Out Die)} {k : Int64}
    (h : Follows usage inputs l) :
    stand usage inputs (l.map (·.2)) = .asks k ↔ (expectRun usage inputs l).2.waits = some k := by
  have := script_of_expect usage inputs l h.1
  unfold stand
  rw [session_eq]
  have e : sess scriptFeeder usage (·.waits.isSome) inputs ⟨l.map (·.2), none⟩ =
      ((expectRun usage inputs l).1, ⟨(expectRun usage inputs l).2.left.map (·.2), (expectRun usage inputs l).2.waits⟩) :=
    Prod.ext this.1.symm this.2
  rw [e]
  dsimp only
  cases (expectRun usage inputs l).2.waits <;> simp

theorem stand_done {usage : Str} {inputs : List Bytes} {l : List (Int64 × Out Die)} {rs : List (Out Result)}
    (h : Follows usage inputs l) :
    stand usage inputs (l.map (·.2)) = .done rs ↔
      (expectRun usage inputs l).2.waits = none ∧ (expectRun usage inputs l).1 = rs := by
  have := script_of_expect usage inputs l h.1
  unfold stand
  rw [session_eq]
  have e : sess scriptFeeder usage (·.waits.isSome) inputs ⟨l.map (·.2), none⟩ =
      ((expectRun usage inputs l).1, ⟨(expectRun usage inputs l).2.left.map (·.2), (expectRun usage inputs l).2.waits⟩) :=
    Prod.ext this.1.symm this.2
  rw [e]
  dsimp only
  cases (expectRun usage inputs l).2.waits <;> simp

/-! ## The invariant -/

section
variable {ι : Type} [DecidableEq ι] {F : DieFeeder σ} {usage : Str} {inputs : ι → List Bytes} {f0 : σ}

theorem deals_snoc {f f' : σ} {calls : List (Int64 × Out Die)} (h : Deals F f calls f') (k : Int64) :
    Deals F f (calls ++ [(k, (F.next f' k).1)]) (F.next f' k).2 := by
  induction h with
  | nil => exact .cons rfl .nil
  | cons h1 _ ih => exact .cons h1 ih

/-- What is known after some calls. -/
structure Known (F : DieFeeder σ) (usage : Str) (inputs : ι → List Bytes) (f0 : σ)
    (history : List (ι × Int64 × Out Die)) (c : Config ι σ) : Prop where
  deals : Deals F f0 (history.map (·.2)) c.feeder
  given : ∀ i, c.given i = (callsOf i history).map (·.2)
  follows : ∀ i, Follows usage (inputs i) (callsOf i history)

theorem known_start : Known F usage inputs f0 [] (start f0) :=
  ⟨.nil, fun _ => rfl, fun i => follows_nil usage (inputs i)⟩

theorem callsOf_snoc (i j : ι) (h : List (ι × Int64 × Out Die)) (x : Int64 × Out Die) :
    callsOf i (h ++ [(j, x)]) = if j = i then callsOf i h ++ [x] else callsOf i h := by
  unfold callsOf
  by_cases hj : j = i <;> simp [hj]

theorem Known.step {history : List (ι × Int64 × Out Die)} {c c' : Config ι σ} {i : ι}
    (h : Known F usage inputs f0 history c) (hs : Step F usage inputs i c c') :
    ∃ k, stand usage (inputs i) (c.given i) = .asks k ∧
      Known F usage inputs f0 (history ++ [(i, k, (F.next c.feeder k).1)]) c' := by
  obtain ⟨h1, h2, h3, h4⟩ := hs
  rename_i k
  refine ⟨k, h1, ?_, ?_, ?_⟩
  · rw [List.map_append, h2]
    exact deals_snoc h.deals k
  · intro j
    rw [callsOf_snoc]
    by_cases hj : i = j
    · subst hj
      rw [if_pos rfl, h3, h.given i]
      simp
    · rw [if_neg hj, h4 j (Ne.symm hj), h.given j]
  · intro j
    rw [callsOf_snoc]
    by_cases hj : i = j
    · subst hj
      rw [if_pos rfl]
      rw [h.given i] at h1
      exact follows_step _ (h.follows i) ((stand_asks (h.follows i)).mp h1)
    · rw [if_neg hj]
      exact h.follows j

theorem Known.of_reaches {c : Config ι σ} (h : Reaches F usage inputs (start f0) c) :
    ∃ history, Known F usage inputs f0 history c := by
  induction h with
  | refl => exact ⟨[], known_start⟩
  | step _ hs ih =>
    obtain ⟨history, h⟩ := ih
    obtain ⟨k, -, h'⟩ := h.step hs
    exact ⟨_, h'⟩

end

end Share
end GoBCDice
