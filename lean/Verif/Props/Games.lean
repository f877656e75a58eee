import Verif.Games

/-!
# C49, C57: the list of game systems and the selection of one

`reg` is any registry of game systems (the one of the code is the empty `repoRegistry`, see
`C49_repo`).  The relations `AvailableGameIDs` and `AvailableGameInfos` hold of every list the
functions may return, whatever the order in which Go visits the registry and whatever its unstable
sort does with equal keys.
-/

namespace GoBCDice

variable {σ : Type}

theorem strLt_iff (s t : Str) : strLt s t = true ↔ s < t := by
  induction s generalizing t with
  | nil => cases t <;> simp [strLt]
  | cons a s ih =>
    cases t with
    | nil => simp [strLt]
    | cons b t =>
      simp only [strLt, Bool.or_eq_true, decide_eq_true_eq, Bool.and_eq_true, ih,
        List.cons_lt_cons_iff]
      rfl

/-- Each constructor of the registry builds a bot with the id it is registered under. -/
def WellKeyed (reg : Registry σ) : Prop :=
  ∀ k b, reg.get? k = some b → b.info.gameID = k

/-- A registry with two games, used to show that the hypotheses below can be met. -/
def sampleRegistry : Registry (List Die) :=
  ((GoMap.empty.set chars!"SwordWorld2"
      { basicBot [] with info := ⟨chars!"SwordWorld2", chars!"ソードワールド2.0", [], chars!"そおと"⟩ }).set
    chars!"Cthulhu"
      { basicBot [] with info := ⟨chars!"Cthulhu", chars!"クトゥルフ神話TRPG", [], chars!"くとうるふ"⟩ })

theorem sampleRegistry_wellKeyed : WellKeyed sampleRegistry := by
  intro k b h
  simp only [sampleRegistry, GoMap.get?_set, GoMap.get?_empty] at h
  split at h
  · cases h; simp_all
  · split at h
    · cases h; simp_all
    · simp at h

theorem visits_keys {reg : Registry σ} {es} (h : reg.Visits es) (k : Str) :
    k ∈ es.map Prod.fst ↔ ∃ b, reg.get? k = some b := by
  rw [(h.map Prod.fst).mem_iff]
  simp [GoMap.get?_eq_some]

/-- C49: an id is listed exactly when `Find` accepts it; any other id is refused with its name in
the error. -/
theorem C49_listed_iff_found (usage : Str) (reg : Registry σ) (out : List Str)
    (h : AvailableGameIDs usage reg true out) (id : Str) :
    (id ∈ out ↔ ∃ bot, findBot usage reg id = .ok bot) ∧
    (id ∉ out → findBot usage reg id = .err (chars!"unknown game system: " ++ id)) := by
  obtain ⟨es, sorted, hv, hs, rfl⟩ := h
  have hm : id ∈ sorted ↔ ∃ b, reg.get? id = some b := by
    rw [hs.1.mem_iff]; exact visits_keys hv id
  simp only [if_true, List.mem_cons, hm, findBot]
  by_cases hid : id = (basicInfo usage).gameID
  · simp [hid]
  · simp only [hid, false_or, if_false]
    cases reg.get? id <;> simp

/-- C49: the bot found for an id has that id. -/
theorem C49_found_has_id (usage : Str) (reg : Registry σ) (hreg : WellKeyed reg) (id : Str)
    (bot : DiceBot σ) (h : findBot usage reg id = .ok bot) : bot.info.gameID = id := by
  unfold findBot at h
  split at h
  · rename_i hid; cases h; rw [hid]; rfl
  · split at h
    · simp at h
    · rename_i b hb; cases h; exact hreg _ _ hb

/-- C49: without the basic bot, exactly the registered ids are listed, each once, in strictly
increasing order; with it, `DiceBot` comes first and then the same list. -/
theorem C49_sorted (usage : Str) (reg : Registry σ) (out : List Str) :
    (AvailableGameIDs usage reg false out →
      out.Pairwise (· < ·) ∧ ∀ id, id ∈ out ↔ ∃ bot, reg.get? id = some bot) ∧
    (AvailableGameIDs usage reg true out ↔
      ∃ rest, AvailableGameIDs usage reg false rest ∧ out = chars!"DiceBot" :: rest) := by
  constructor
  · rintro ⟨es, sorted, hv, ⟨hp, hs⟩, hout⟩
    have hout : out = sorted := hout
    subst hout
    constructor
    · have hn : out.Nodup := by
        rw [hp.nodup_iff, (hv.map Prod.fst).nodup_iff]; exact reg.nodup
      refine (List.pairwise_and_iff.2 ⟨hs, hn⟩).imp ?_
      rintro a b ⟨hab, hne⟩
      have : ¬ b < a := by rw [← strLt_iff]; simp [hab]
      by_cases h : a < b
      · exact h
      · exact absurd (List.le_antisymm (List.not_lt.1 this) (List.not_lt.1 h)) hne
    · intro id
      rw [hp.mem_iff]; exact visits_keys hv id
  · constructor
    · rintro ⟨es, sorted, hv, hs, rfl⟩
      exact ⟨sorted, ⟨es, sorted, hv, hs, rfl⟩, rfl⟩
    · rintro ⟨rest, ⟨es, sorted, hv, hs, rfl⟩, rfl⟩
      exact ⟨es, _, hv, hs, rfl⟩

/-- C49: the list of ids does not depend on the order in which the registry is visited. -/
theorem C49_deterministic (usage : Str) (reg : Registry σ) (b : Bool) (out out' : List Str)
    (h : AvailableGameIDs usage reg b out) (h' : AvailableGameIDs usage reg b out') :
    out = out' := by
  obtain ⟨es, s, hv, hs, rfl⟩ := h
  obtain ⟨es', s', hv', hs', rfl⟩ := h'
  have hp : s.Perm s' :=
    hs.1.trans ((((hv.trans hv'.symm).map Prod.fst)).trans hs'.1.symm)
  have : s = s' := by
    refine hp.eq_of_pairwise ?_ hs.2 hs'.2
    intro a b _ _ h1 h2
    have h1' : ¬ b < a := by rw [← strLt_iff]; simp [h1]
    have h2' : ¬ a < b := by rw [← strLt_iff]; simp [h2]
    exact List.le_antisymm (List.not_lt.1 h1') (List.not_lt.1 h2')
  rw [this]

theorem goSorts_exists {α : Type} (key : α → Str) (xs : List α) :
    ∃ ys, GoSorts (fun a b => strLt (key a) (key b)) xs ys := by
  refine ⟨xs.mergeSort (fun a b => !strLt (key b) (key a)), List.mergeSort_perm _ _, ?_⟩
  have := List.pairwise_mergeSort (le := fun a b => !strLt (key b) (key a)) (l := xs)
    (by
      intro a b c
      simp only [Bool.not_eq_true', ← Bool.not_eq_true, strLt_iff]
      intro h1 h2
      exact List.not_lt.2 (List.le_trans (List.not_lt.1 h1) (List.not_lt.1 h2)))
    (by
      intro a b
      simp only [Bool.or_eq_true, Bool.not_eq_true', ← Bool.not_eq_true, strLt_iff]
      by_cases h : key b < key a
      · right
        exact List.not_lt.2 (List.le_of_lt h)
      · exact .inl h)
  exact this.imp (by simp)

/-- C49: both listings return for every registry. -/
theorem C49_total (usage : Str) (reg : Registry σ) (b : Bool) :
    (∃ out, AvailableGameIDs usage reg b out) ∧ (∃ out, AvailableGameInfos usage reg b out) := by
  obtain ⟨ys, hy⟩ := goSorts_exists id (reg.entries.map Prod.fst)
  obtain ⟨zs, hz⟩ := goSorts_exists SystemInfo.sortKey
    (reg.entries.map fun e => e.2.info.toSystemInfo)
  exact ⟨⟨_, _, ys, List.Perm.refl _, hy, rfl⟩, ⟨_, _, zs, List.Perm.refl _, hz, rfl⟩⟩

/-- C49: the detailed listing names the same systems as the list of ids, and each entry shows the
name and sort key of the bot `Find` gives for its id. -/
theorem C49_infos (usage : Str) (reg : Registry σ) (hreg : WellKeyed reg)
    (hb : reg.get? chars!"DiceBot" = none) (b : Bool) (infos : List SystemInfo) (ids : List Str)
    (hi : AvailableGameInfos usage reg b infos) (hd : AvailableGameIDs usage reg b ids) :
    (infos.map SystemInfo.system).Perm ids ∧
    ∀ i ∈ infos, ∃ bot, findBot usage reg i.system = .ok bot ∧
      i = ⟨bot.info.gameID, bot.info.gameName, bot.info.sortKey⟩ := by
  obtain ⟨es, s, hv, hs, rfl⟩ := hi
  obtain ⟨es', s', hv', hs', rfl⟩ := hd
  have hkey : ∀ e ∈ es, e.2.info.gameID = e.1 := by
    intro e he
    exact hreg e.1 e.2 ((GoMap.get?_eq_some _ _ _).2 (hv.mem_iff.1 he))
  have hsys : (s.map SystemInfo.system).Perm s' := by
    refine ((hs.1.map SystemInfo.system).trans ?_).trans hs'.1.symm
    rw [List.map_map]
    have : es.map (SystemInfo.system ∘ fun e => e.2.info.toSystemInfo) = es.map Prod.fst := by
      refine List.map_congr_left ?_
      intro e he
      exact hkey e he
    rw [this]
    exact (hv.trans hv'.symm).map Prod.fst
  have hfind : ∀ i ∈ s, ∃ bot, findBot usage reg i.system = .ok bot ∧
      i = ⟨bot.info.gameID, bot.info.gameName, bot.info.sortKey⟩ := by
    intro i hi
    rw [hs.1.mem_iff] at hi
    obtain ⟨e, he, rfl⟩ := List.mem_map.1 hi
    have hget : reg.get? e.1 = some e.2 := (GoMap.get?_eq_some _ _ _).2 (hv.mem_iff.1 he)
    refine ⟨e.2, ?_, rfl⟩
    show findBot usage reg e.2.info.gameID = _
    rw [hkey e he, findBot, if_neg ?_, hget]
    intro hk
    rw [hk] at hget
    have : (basicInfo usage).gameID = chars!"DiceBot" := rfl
    rw [this, hb] at hget
    cases hget
  cases b with
  | false => exact ⟨hsys, hfind⟩
  | true =>
    simp only [if_true]
    refine ⟨by simpa [BotInfo.toSystemInfo] using hsys, ?_⟩
    intro i hi
    rcases List.mem_cons.1 hi with rfl | hi
    · exact ⟨basicBot usage, by simp [findBot, BotInfo.toSystemInfo], rfl⟩
    · exact hfind i hi

/-- C49: the detailed listing (apart from the basic bot, which comes first) is in order of the sort
keys. -/
theorem C49_infos_sorted (usage : Str) (reg : Registry σ) (infos : List SystemInfo) :
    (AvailableGameInfos usage reg false infos →
      infos.Pairwise (fun i j => i.sortKey ≤ j.sortKey)) ∧
    (AvailableGameInfos usage reg true infos ↔
      ∃ rest, AvailableGameInfos usage reg false rest ∧
        infos = ⟨chars!"DiceBot", chars!"ダイスボット (指定無し)", chars!"*たいすほつと"⟩ :: rest) := by
  constructor
  · rintro ⟨es, s, hv, hs, rfl⟩
    refine hs.2.imp ?_
    intro a b h
    have : ¬ b.sortKey < a.sortKey := by rw [← strLt_iff]; simp [h]
    exact List.not_lt.1 this
  · constructor
    · rintro ⟨es, sorted, hv, hs, rfl⟩
      exact ⟨sorted, ⟨es, sorted, hv, hs, rfl⟩, rfl⟩
    · rintro ⟨rest, ⟨es, sorted, hv, hs, rfl⟩, rfl⟩
      exact ⟨es, _, hv, hs, rfl⟩

/-- C49: when no two systems have the same sort key, the detailed listing is determined. -/
theorem C49_infos_deterministic (usage : Str) (reg : Registry σ)
    (hkeys : ∀ k b k' b', reg.get? k = some b → reg.get? k' = some b' →
      b.info.sortKey = b'.info.sortKey → b = b')
    (b : Bool) (out out' : List SystemInfo)
    (h : AvailableGameInfos usage reg b out) (h' : AvailableGameInfos usage reg b out') :
    out = out' := by
  obtain ⟨es, s, hv, hs, rfl⟩ := h
  obtain ⟨es', s', hv', hs', rfl⟩ := h'
  have hp : s.Perm s' :=
    hs.1.trans ((((hv.trans hv'.symm).map _)).trans hs'.1.symm)
  have : s = s' := by
    refine hp.eq_of_pairwise ?_ hs.2 hs'.2
    intro a b ha hb h1 h2
    have h1' : ¬ b.sortKey < a.sortKey := by rw [← strLt_iff]; simp [h1]
    have h2' : ¬ a.sortKey < b.sortKey := by rw [← strLt_iff]; simp [h2]
    have hkey := List.le_antisymm (List.not_lt.1 h1') (List.not_lt.1 h2')
    rw [hs.1.mem_iff] at ha
    rw [hs'.1.mem_iff] at hb
    obtain ⟨e, he, rfl⟩ := List.mem_map.1 ha
    obtain ⟨e', he', rfl⟩ := List.mem_map.1 hb
    have := hkeys e.1 e.2 e'.1 e'.2 ((GoMap.get?_eq_some _ _ _).2 (hv.mem_iff.1 he))
      ((GoMap.get?_eq_some _ _ _).2 (hv'.mem_iff.1 he')) hkey
    rw [this]
  rw [this]

/-- C49, limit: with equal sort keys the detailed listing may differ from call to call. -/
theorem C49_infos_refuted : ∃ (reg : Registry (List Die)) (out out' : List SystemInfo),
    WellKeyed reg ∧ AvailableGameInfos [] reg false out ∧ AvailableGameInfos [] reg false out' ∧
      out ≠ out' := by
  let x : DiceBot (List Die) := { basicBot [] with info := ⟨chars!"A", chars!"a", [], chars!"k"⟩ }
  let y : DiceBot (List Die) := { basicBot [] with info := ⟨chars!"B", chars!"b", [], chars!"k"⟩ }
  refine ⟨(GoMap.empty.set chars!"A" x).set chars!"B" y,
    [x.info.toSystemInfo, y.info.toSystemInfo], [y.info.toSystemInfo, x.info.toSystemInfo],
    ?_, ⟨[(chars!"A", x), (chars!"B", y)], _, List.Perm.refl _, ⟨List.Perm.refl _, ?_⟩, rfl⟩,
    ⟨[(chars!"B", y), (chars!"A", x)], _, List.Perm.swap _ _ _, ⟨List.Perm.refl _, ?_⟩, rfl⟩, ?_⟩
  · intro k b h
    simp only [GoMap.get?_set, GoMap.get?_empty] at h
    split at h
    · cases h; simp_all [y]
    · split at h
      · cases h; simp_all [x]
      · simp at h
  · simp [x, y, BotInfo.toSystemInfo, strLt]
  · simp [x, y, BotInfo.toSystemInfo, strLt]
  · simp [x, y, BotInfo.toSystemInfo]

/-- C49 for the code's own registry: only the basic bot exists. -/
theorem C49_repo (usage : Str) (out : List Str) (id : Str) :
    (AvailableGameIDs usage (repoRegistry (σ := σ)) true out ↔ out = [chars!"DiceBot"]) ∧
    ((∃ bot : DiceBot σ, findBot usage repoRegistry id = .ok bot) ↔ id = chars!"DiceBot") := by
  have h0 : AvailableGameIDs usage (repoRegistry (σ := σ)) true [chars!"DiceBot"] :=
    ⟨[], [], List.Perm.refl _, ⟨List.Perm.refl _, List.Pairwise.nil⟩, rfl⟩
  refine ⟨⟨fun h => C49_deterministic _ _ _ _ _ h h0, fun h => h ▸ h0⟩, ?_⟩
  rw [← (C49_listed_iff_found usage repoRegistry _ h0 id).1]
  simp

/-- Non-vacuity of the C49 theorems: a registry with two games. -/
example : WellKeyed sampleRegistry ∧ sampleRegistry.get? chars!"DiceBot" = none ∧
    AvailableGameIDs [] sampleRegistry true
      [chars!"DiceBot", chars!"Cthulhu", chars!"SwordWorld2"] ∧
    (∃ infos, AvailableGameInfos [] sampleRegistry true infos ∧ infos.length = 3) := by
  refine ⟨sampleRegistry_wellKeyed, by simp [sampleRegistry],
    ⟨sampleRegistry.entries, [chars!"Cthulhu", chars!"SwordWorld2"], List.Perm.refl _,
      ⟨List.Perm.swap _ _ _, by decide⟩, rfl⟩, ?_⟩
  refine ⟨_, ⟨sampleRegistry.entries, _, List.Perm.refl _, ⟨List.Perm.swap _ _ _, by decide⟩, rfl⟩,
    rfl⟩

/-- C57: selecting a game system succeeds exactly when it is listed; then the selected bot has that
id, otherwise the error names the id and the previous bot stays selected. -/
theorem C57_select (usage : Str) (reg : Registry σ) (hreg : WellKeyed reg) (out : List Str)
    (h : AvailableGameIDs usage reg true out) (old : DiceBot σ) (id : Str) :
    (id ∈ out → ∃ bot, setDiceBotByGameID usage reg old id = (none, bot) ∧ bot.info.gameID = id ∧
      findBot usage reg id = .ok bot) ∧
    (id ∉ out → setDiceBotByGameID usage reg old id =
      (some (chars!"unknown game system: " ++ id), old)) := by
  obtain ⟨h1, h2⟩ := C49_listed_iff_found usage reg out h id
  constructor
  · intro hid
    obtain ⟨bot, hb⟩ := h1.1 hid
    exact ⟨bot, by simp [setDiceBotByGameID, hb], C49_found_has_id usage reg hreg id bot hb, hb⟩
  · intro hid
    simp [setDiceBotByGameID, h2 hid]

/-- The bot selected after a sequence of selections. -/
def selectAll (usage : Str) (reg : Registry σ) (bot : DiceBot σ) (ids : List Str) : DiceBot σ :=
  ids.foldl (fun b id => (setDiceBotByGameID usage reg b id).2) bot

/-- C57, histories: after any sequence of selections the current game is the last listed one asked
for, or the initial one if none was. -/
theorem C57_history (usage : Str) (reg : Registry σ) (hreg : WellKeyed reg) (out : List Str)
    (h : AvailableGameIDs usage reg true out) (bot : DiceBot σ) (ids : List Str) :
    (selectAll usage reg bot ids).info.gameID =
      ((ids.filter (fun id => decide (id ∈ out))).getLast?.getD bot.info.gameID) := by
  induction ids generalizing bot with
  | nil => rfl
  | cons id ids ih =>
    show (selectAll usage reg (setDiceBotByGameID usage reg bot id).2 ids).info.gameID = _
    rw [ih]
    obtain ⟨h1, h2⟩ := C57_select usage reg hreg out h bot id
    by_cases hid : id ∈ out
    · obtain ⟨b, hb, hb2, -⟩ := h1 hid
      rw [List.filter_cons_of_pos (by simpa using hid), List.getLast?_cons, hb]
      simp [hb2]
    · rw [List.filter_cons_of_neg (by simpa using hid), h2 hid]

example : (selectAll [] sampleRegistry (basicBot [])
    [chars!"Cthulhu", chars!"NoSuchGame", chars!"SwordWorld2", chars!"cthulhu"]).info.gameID =
    chars!"SwordWorld2" := by decide

end GoBCDice
