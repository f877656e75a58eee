import Verif.Lemmas.RawLists

/-! # Formatting of evaluated objects, thresholds, trees of whole commands -/

namespace GoBCDice.Raw

variable {σ α β γ δ : Type}

/-! ## Formatting -/

theorem joined_ints (isPrint : Char → Bool) (sep : Str) :
    ∀ vs : List Int64, Value.joined isPrint sep (ints vs) = join sep (vs.map intStr)
  | [] => rfl
  | [v] => rfl
  | v :: w :: vs => by
    have := joined_ints isPrint sep (w :: vs)
    simp only [ints, List.map_cons] at this
    simp only [ints, List.map_cons, Value.joined, Value.inspect, join, this]

theorem joinedTight_ints (isPrint : Char → Bool) (sep : Str) :
    ∀ vs : List Int64, Value.joinedTight isPrint sep (ints vs) = join sep (vs.map intStr)
  | [] => rfl
  | [v] => rfl
  | v :: w :: vs => by
    have := joinedTight_ints isPrint sep (w :: vs)
    simp only [ints, List.map_cons] at this
    simp only [ints, List.map_cons, Value.joinedTight, Value.inspectTight, Value.inspect, join, this]

theorem joined_elements (isPrint : Char → Bool) (vs : List Int64) :
    Value.joined isPrint chars!"," (ints vs) = joinedElements vs := joined_ints _ _ _

theorem tight_array (isPrint : Char → Bool) (vs : List Int64) :
    Value.inspectTight isPrint (.array (ints vs)) = inspectWithoutSpaces vs := by
  simp only [Value.inspectTight, joinedTight_ints]; rfl

theorem formatRRollValues_ok (isPrint : Char → Bool) (S : HSt σ) : ∀ gs : List (List Int64),
    formatRRollValues isPrint (groups gs) S = (.ok (gs.map joinedElements), S)
  | [] => rfl
  | g :: gs => by
    have ih := formatRRollValues_ok isPrint S gs
    show (formatRRollValues isPrint (groups gs) >>= fun ss =>
      (pure (Value.joined isPrint chars!"," (ints g) :: ss) : H σ (List Str))) S = _
    rw [bind_ok ih, joined_elements]
    rfl

theorem formatUGroups_ok (isPrint : Char → Bool) (S : HSt σ) : ∀ gs : List (List Int64),
    formatUGroups isPrint (groups gs) (ints (gs.map sumInts)) S =
      (.ok (List.zipWith formatUGroup (gs.map sumInts) gs), S)
  | [] => rfl
  | g :: gs => by
    have ih := formatUGroups_ok isPrint S gs
    show (formatUGroups isPrint (groups gs) (ints (gs.map sumInts)) >>= fun ss =>
      (pure ((intStr (sumInts g) ++ (if (ints g).length > 1 then
        Value.inspectTight isPrint (.array (ints g)) else [])) :: ss) : H σ (List Str))) S = _
    rw [bind_ok ih, tight_array]
    simp only [List.length_map, ints]
    rfl

theorem formatURollExpr_ok (isPrint : Char → Bool) (S : HSt σ) (w : URollExprResult)
    (hw : w.sumCache = none ∨ w.sumCache = some (w.valueGroups.map sumInts)) :
    formatURollExpr isPrint (groups w.valueGroups) w.modifier S =
      (.ok (formatURollExprValueGroupsAndModifier w), S) := by
  unfold formatURollExpr
  rw [bind_ok (sumOfGroups_ok _ _), bind_ok (formatUGroups_ok _ _ _)]
  unfold formatURollExprValueGroupsAndModifier URollExprResult.sumOfGroups
  rcases hw with hw | hw <;> rw [hw] <;> rfl

theorem maxLoop_ints : ∀ (vs : List Int64) (m : Int64), Value.maxLoop m (ints vs) =
    some (vs.foldl (fun m e => if e > m then e else m) m)
  | [], _ => rfl
  | v :: vs, m => by
    simp only [ints, List.map_cons, Value.maxLoop, List.foldl_cons]
    exact maxLoop_ints vs _

theorem maxInteger_ints : ∀ vs : List Int64,
    Value.maxInteger (ints vs) = some (URollExprResult.maxInteger vs)
  | [] => rfl
  | v :: vs => maxLoop_ints vs v

theorem formatMaxAndSum_ok (S : HSt σ) (w : URollExprResult) (hw : w.sumCache = none) :
    formatMaxAndSum (groups w.valueGroups) w.modifier S =
      (.ok (GoBCDice.formatMaxAndSum w), S) := by
  unfold formatMaxAndSum
  rw [bind_ok (sumOfGroups_ok _ _)]
  simp only [maxInteger_ints, sumOfIntegers_ints]
  unfold GoBCDice.formatMaxAndSum URollExprResult.maxValue URollExprResult.sumOfValues
    URollExprResult.sumOfGroups
  rw [hw]
  rfl

/-! ## Whole commands -/

theorem RepItems.lt {h ps items fp} (hr : RepItems h ps items fp) : ∀ x ∈ fp, x < h.length := by
  induction hr with
  | nil => simp
  | cons hx _ ih =>
    intro x hm
    simp only [List.mem_cons] at hm
    rcases hm with rfl | hm
    · exact lt_of_get hx
    · exact ih x hm

theorem RepItems.congr {h h' ps items fp} (hr : RepItems h ps items fp)
    (hc : ∀ x ∈ fp, h'[x]? = h[x]?) : RepItems h' ps items fp := by
  induction hr with
  | nil => exact .nil
  | cons hx _ ih =>
    exact .cons ((hc _ (by simp)).trans hx) (ih fun x hx => hc x (by simp [hx]))

theorem RepNode.lt {h p n fp} (hr : RepNode h p n fp) : ∀ x ∈ fp, x < h.length := by
  intro x hm
  cases hr with
  | choice hx hs =>
    simp only [List.mem_cons] at hm
    rcases hm with rfl | hm
    · exact lt_of_get hx
    · exact hs.lt x hm
  | «calc» hx hs =>
    simp only [List.mem_cons] at hm
    rcases hm with rfl | hm
    · exact lt_of_get hx
    · exact hs.lt x hm
  | dRollExpr hx hs =>
    simp only [List.mem_cons] at hm
    rcases hm with rfl | hm
    · exact lt_of_get hx
    · exact hs.lt x hm
  | bRollList hx hs =>
    simp only [List.mem_cons] at hm
    rcases hm with rfl | hm
    · exact lt_of_get hx
    · exact hs.lt x hm
  | dRollComp hx hc hl hr =>
    simp only [List.mem_cons, List.mem_append] at hm
    rcases hm with rfl | rfl | hm | hm
    · exact lt_of_get hx
    · exact lt_of_get hc
    · exact hl.lt x hm
    · exact hr.lt x hm
  | rRollComp hx hc hl hr =>
    simp only [List.mem_cons, List.mem_append] at hm
    rcases hm with rfl | rfl | hm | hm
    · exact lt_of_get hx
    · exact lt_of_get hc
    · exact hl.lt x hm
    · exact hr.lt x hm
  | uRollComp hx hc hl hr =>
    simp only [List.mem_cons, List.mem_append] at hm
    rcases hm with rfl | rfl | hm | hm
    · exact lt_of_get hx
    · exact lt_of_get hc
    · exact hl.lt x hm
    · exact hr.lt x hm
  | bRollComp hx hc hq hl hr =>
    simp only [List.mem_cons, List.mem_append] at hm
    rcases hm with rfl | rfl | rfl | hm | hm
    · exact lt_of_get hx
    · exact lt_of_get hc
    · exact lt_of_get hq
    · exact hl.lt x hm
    · exact hr.lt x hm
  | rRollList hs => exact hs.lt x hm
  | uRollExpr hs => exact hs.lt x hm

/-- A command stays what it is when only nodes outside of it are overwritten. -/
theorem RepNode.frame {h h' p n fp fp2} (hr : RepNode h p n fp) (f : Frame h fp2 h')
    (hd : ∀ x ∈ fp, x ∉ fp2) (hn : NotNil h fp2) : RepNode h' p n fp := by
  have keep : ∀ {r o}, h[r]? = some o → r ∈ fp → h'[r]? = some o :=
    fun hx hm => parent_kept f hx (hd _ hm)
  cases hr with
  | choice hx hs =>
    exact .choice (keep hx (by simp)) (hs.congr fun x hm =>
      f.2 x (hs.lt x hm) (hd x (by simp [hm])))
  | «calc» hx hs => exact .calc (keep hx (by simp)) (hs.frame f fun x hm => hd x (by simp [hm]))
  | dRollExpr hx hs =>
    exact .dRollExpr (keep hx (by simp)) (hs.frame f fun x hm => hd x (by simp [hm]))
  | bRollList hx hs =>
    exact .bRollList (keep hx (by simp)) (hs.frame f fun x hm => hd x (by simp [hm]))
  | dRollComp hx hc hl hr =>
    exact .dRollComp (keep hx (by simp)) (keep hc (by simp))
      (hl.frame f fun x hm => hd x (by simp [hm])) (hr.frame f fun x hm => hd x (by simp [hm]))
  | rRollComp hx hc hl hr =>
    exact .rRollComp (keep hx (by simp)) (keep hc (by simp))
      (hl.frame f (fun x hm => hd x (by simp [hm])) hn) (hr.frame f fun x hm => hd x (by simp [hm]))
  | uRollComp hx hc hl hr =>
    exact .uRollComp (keep hx (by simp)) (keep hc (by simp))
      (hl.frame f (fun x hm => hd x (by simp [hm])) hn) (hr.frame f fun x hm => hd x (by simp [hm]))
  | bRollComp hx hc hq hl hr =>
    exact .bRollComp (keep hx (by simp)) (keep hc (by simp)) (keep hq (by simp))
      (hl.frame f fun x hm => hd x (by simp [hm])) (hr.frame f fun x hm => hd x (by simp [hm]))
  | rRollList hs => exact .rRollList (hs.frame f hd hn)
  | uRollExpr hs => exact .uRollExpr (hs.frame f hd hn)

theorem RepNode.frame0 {h h' p n fp} (hr : RepNode h p n fp) (f : Frame h [] h') :
    RepNode h' p n fp := hr.frame f (by simp) (by simp [NotNil])

/-- The command at `p` has become `n'`: no sharing, nodes of `fp` and new ones, not higher than
`m`. -/
def NPost (h : Heap) (fp : List Ref) (m : Nat) (p : Ptr) (n' : Node) (h' : Heap) : Prop :=
  ∃ fp', RepNode h' p n' fp' ∧ fp'.Nodup ∧ Within h fp fp' ∧ n'.height ≤ m

theorem NPost.frame0 {h fp m p n' h1 h2} (hp : NPost h fp m p n' h1) (f : Frame h1 [] h2) :
    NPost h fp m p n' h2 := by
  obtain ⟨fp', h1, h2, h3, h4⟩ := hp
  exact ⟨fp', h1.frame0 f, h2, h3, h4⟩

/-- From here on memory is only read. -/
theorem finish {h fp n p node' m} {x : Out Result × HSt σ} {y : Out (Result × Node) × St σ}
    (f : Frame h fp m) (hn : NPost h fp n p node' m)
    (hs : Sim m [] x y (fun res rn _ => res = rn.1 ∧ rn.2 = node')) :
    Sim h fp x y (fun res rn h' => res = rn.1 ∧ NPost h fp n p rn.2 h') := by
  have hf : Frame m [] x.2.heap := hs.2.1
  refine (Sim.weaken hs ?_).from f (by simp)
  rintro a b _ ⟨rfl, rfl⟩
  exact ⟨rfl, hn.frame0 hf⟩

/-! ## Thresholds -/

theorem asRRollList_ok {h r ps tp} {s : St σ} (hx : h[r]? = some (.rRollList ps tp)) :
    asRRollList (some r) ⟨s, h⟩ = (.ok (ps, tp), ⟨s, h⟩) := by
  simp only [asRRollList]
  rw [deref_bind hx]
  rfl

theorem checkThreshold_sim (E : Evaluator σ) {h k p rl fp d s msg} (hr : RepRRollList h k p rl fp)
    (hd : rl.height ≤ d + 1) :
    Sim h [] (checkThreshold E d msg p ⟨s, h⟩) (E.checkThreshold msg rl.threshold s)
      (fun a b _ => a = b) := by
  cases hr with
  | @mk r ps tp rolls t fs ft hx hs ht =>
    simp only [RRollList.height] at hd
    unfold checkThreshold
    rw [bind_ok (asRRollList_ok hx)]
    obtain ⟨o, ho, hnil⟩ := ht.deref (Frame.refl h []) (s := s)
    simp only
    rw [bind_ok ho, hnil]
    cases ht with
    | none h1 => exact Sim.pure (Frame.refl _ _) rfl
    | @some _ e _ he =>
      simp only [thresholdHeight] at hd
      show Sim h [] (match eval E d tp ⟨s, h⟩ with
        | (.ok v, s') =>
          (do
            let n ← asInteger v
            pure (if n < 2 then some Evaluator.thresholdTooSmallMsg else none) : H σ (Option Str)) s'
        | (.err m, s') => (.ok (some (chars!"閾値評価エラー: " ++ m)), s')
        | (.panic m, s') => (.panic m, s')) _ _
      simp only [Evaluator.checkThreshold]
      have h1 := eval_sim' E (s := s) (d := d) he (by omega) (Frame.refl h [])
      generalize eval E d tp ⟨s, h⟩ = x at h1
      generalize E.eval e s = y at h1
      obtain ⟨xo, ⟨xs, xh⟩⟩ := x
      obtain ⟨yo, ys⟩ := y
      obtain ⟨h1, h2, h3⟩ := h1
      cases h1
      cases xo <;> cases yo <;> simp only at h3
      · subst h3
        exact ⟨rfl, h2, rfl⟩
      · subst h3
        exact ⟨rfl, h2, rfl⟩
      · subst h3
        exact ⟨rfl, h2, rfl⟩

end GoBCDice.Raw
