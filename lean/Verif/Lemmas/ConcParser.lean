import Verif.Lemmas.Conc

/-!
# The parser with a pool of dictionaries does what the parser without does
-/

namespace GoBCDice.Conc

open Pigeon (Sym Val PExpr PEnv PState PRes Pt Pos Frame Action StateAction)

/-- The same state with another count. -/
abbrev withRC (c : PState) (V : Dict) : PState := { c with randCount := V }

theorem addErrAt_withRC (env : PEnv) (c : PState) (V) (m : Str) (p : Pigeon.Pos) :
    (withRC c V).addErrAt env m p = withRC (c.addErrAt env m p) V := rfl

theorem failAt_withRC (c : PState) (V) (b : Bool) (p : Pigeon.Pos) (w : Str) :
    (withRC c V).failAt b p w = withRC (c.failAt b p w) V := by
  unfold PState.failAt
  simp only
  repeat' split
  all_goals rfl

theorem enter_withRC (env : PEnv) (c : PState) (V) (l k o : Nat) (r : List Sym) :
    (withRC c V).enter env l k o r = withRC (c.enter env l k o r) V := by
  unfold PState.enter
  simp only
  split <;> split <;> rfl

theorem read_withRC (env : PEnv) (c : PState) (V) : (withRC c V).read env = withRC (c.read env) V :=
  enter_withRC ..

theorem restore_withRC (c : PState) (V) (p : Pt) : (withRC c V).restore p = withRC (c.restore p) V := by
  unfold PState.restore
  simp only
  split <;> rfl

/-- The same for results. -/
def resRC (V : Dict) : PRes → PRes
  | .ret v ok st => .ret v ok (withRC st V)
  | .panic m st => .panic m (withRC st V)

theorem parseAny_withRC (env : PEnv) (c : PState) (V) :
    Pigeon.parseAny env (withRC c V) = resRC V (Pigeon.parseAny env c) := by
  unfold Pigeon.parseAny
  simp only [read_withRC, failAt_withRC]
  split <;> rfl

theorem parseCharClass_withRC (env : PEnv) (val : Str) (chars : List Char) (ranges : List (Char × Char))
    (classes : List Str) (ic inv : Bool) (c : PState) (V) :
    Pigeon.parseCharClass env val chars ranges classes ic inv (withRC c V) =
      resRC V (Pigeon.parseCharClass env val chars ranges classes ic inv c) := by
  unfold Pigeon.parseCharClass
  simp only [read_withRC, failAt_withRC]
  cases c.pt.rest with
  | nil => rfl
  | cons s rest =>
    simp only
    split <;> split <;> rfl

theorem litLoop_withRC (env : PEnv) (ic : Bool) (V) : ∀ (val : Str) (c : PState),
    Pigeon.litLoop env ic val (withRC c V) =
      ((Pigeon.litLoop env ic val c).1, withRC (Pigeon.litLoop env ic val c).2 V) := by
  intro val
  induction val with
  | nil => intro c; rfl
  | cons w val ih =>
    intro c
    unfold Pigeon.litLoop
    simp only [read_withRC, ih]
    rw [show (withRC c V).rune = c.rune from rfl]
    split <;> split <;> rfl

theorem parseLit_withRC (env : PEnv) (val : Str) (ic : Bool) (c : PState) (V) :
    Pigeon.parseLit env val ic (withRC c V) = resRC V (Pigeon.parseLit env val ic c) := by
  unfold Pigeon.parseLit
  rw [litLoop_withRC]
  obtain ⟨b, st⟩ := Pigeon.litLoop env ic val c
  cases b
  · simp only [failAt_withRC, restore_withRC]; rfl
  · simp only [failAt_withRC]; rfl


/-! ### Steps on dictionaries -/

theorem Own.upd_upd (L : Own) (r : Ref) (a b : Option Dict) : (L.upd r a).upd r b = L.upd r b := by
  funext x
  unfold Own.upd
  split <;> rfl

theorem wp_cloneState {cur : Ref} {L : Own} {rc : Dict} {Q : Ref → Own → Prop} (h : L cur = some rc)
    (hq : ∀ state, L state = none → Q state (L.upd state (some rc))) : WP (cloneState cur) Q L := by
  intro state hs
  have hne : cur ≠ state := by rintro rfl; rw [h] at hs; cases hs
  refine ⟨rc, ?_, ?_⟩
  · rw [Own.upd_other _ _ hne]; exact h
  · cases rc with
    | none => exact hq state hs
    | some v =>
      refine ⟨⟨none, Own.upd_same ..⟩, ?_⟩
      rw [Own.upd_upd]
      exact hq state hs

theorem wp_restoreState {st : CState} {state : Ref} {L : Own} {rc : Dict} {Q : CState → Own → Prop}
    (h : L st.cur = some rc) (hq : Q { st with cur := state } (L.upd st.cur none)) :
    WP (restoreState st state) Q L := by
  refine WP.bind ⟨rc, h, ?_⟩
  cases rc with
  | none => exact ⟨h, hq⟩
  | some v =>
    refine ⟨⟨_, h⟩, Own.upd_same .., ?_⟩
    rw [Own.upd_upd]
    exact hq

/-! ### The stack of labels -/

theorem slotMap_eq (s : Option Frame) : slotMap s = [] := by
  cases s with
  | none => rfl
  | some m =>
    cases m with
    | nil => rfl
    | cons x m => rfl

theorem pushV_core (st : CState) : st.pushV.core = st.core.pushV := by
  unfold CState.pushV
  cases st.stale with
  | nil => rfl
  | cons s t => simp only [slotMap_eq]; rfl

theorem pushV_cur (st : CState) : st.pushV.cur = st.cur := by
  unfold CState.pushV
  cases st.stale <;> rfl

theorem popV_core (st : CState) : st.popV.core = st.core.popV := by
  obtain ⟨core, stale, cur⟩ := st
  obtain ⟨pt, rc, vs, rs, es, mp, me, inv, n⟩ := core
  cases vs <;> rfl

theorem popV_cur (st : CState) : st.popV.cur = st.cur := by
  unfold CState.popV
  cases st.core.vstack <;> rfl

theorem runAction_rc (a : Action) (h : readsState a = false) (f : Frame) (t : Str) (rc rc' : Dict) :
    Pigeon.runAction a f t rc = Pigeon.runAction a f t rc' := by
  cases a <;> first | rfl | cases h

/-! ### The simulation -/

/-- What is owned besides `ex` stays as it is and is not the new current dictionary. -/
def Kept (ex : Ref → Prop) (L L' : Own) (cur' : Ref) : Prop :=
  ∀ r, ¬ ex r → L r ≠ none → L' r = L r ∧ r ≠ cur'

/-- The result is that of the parser without dictionaries, and the current dictionary has its count. -/
def Post (ex : Ref → Prop) (L : Own) (pr : Option PRes) (res : Option CRes) (L' : Own) : Prop :=
  match res, pr with
  | none, none => True
  | some (.panic m st), some (.panic m' p) => m = m' ∧ withRC st.core p.randCount = p
  | some (.ret v ok st), some (.ret v' ok' p) =>
    v = v' ∧ ok = ok' ∧ withRC st.core p.randCount = p ∧ L' st.cur = some p.randCount ∧ Kept ex L L' st.cur
  | _, _ => False

/-- The tasks correspond. -/
def TaskRel (L : Own) (cur : Ref) : CTask → Pigeon.Task → Prop
  | .expr e, .expr e' => e = e'
  | .alts es, .alts es' => es = es'
  | .seq es vals pt state, .seq es' vals' pt' rc =>
    es = es' ∧ vals = vals' ∧ pt = pt' ∧ L state = some rc ∧ state ≠ cur
  | .many e vals b, .many e' vals' b' => e = e' ∧ vals = vals' ∧ b = b'
  | _, _ => False

/-- What a task may change. -/
def Mine (cur : Ref) : CTask → Ref → Prop
  | .seq _ _ _ state, r => r = cur ∨ r = state
  | _, r => r = cur

theorem wp_call {p : Prog (Option CRes)} {k : Val → Bool → CState → Prog (Option CRes)} {ex ex' : Ref → Prop}
    {L L0 : Own} {pr : Option PRes} {k' : Val → Bool → PState → Option PRes}
    (hp : WP p (Post ex L pr) L)
    (hk : ∀ v ok st rc L', L' st.cur = some rc → Kept ex L L' st.cur →
      WP (k v ok st) (Post ex' L0 (k' v ok (withRC st.core rc))) L') :
    WP (call p k) (Post ex' L0 (PRes.andThen pr k')) L := by
  refine WP.bind (hp.mono ?_)
  intro r L' h
  match r, pr, h with
  | none, none, _ => exact trivial
  | some (.panic m st), some (.panic m' p), h => exact h
  | some (.ret v ok st), some (.ret v' ok' p), ⟨h1, h2, h3, h4, h5⟩ =>
    subst h1 h2
    have := hk v ok st p.randCount L' h4 h5
    rw [h3] at this
    exact this

theorem wp_leaf {st : CState} {rc : Dict} {L : Own} {r : PRes} {ex : Ref → Prop} (hex : ex st.cur)
    (h : L st.cur = some rc) : WP (.ret (some (st.leaf r))) (Post ex L (some (resRC rc r))) L := by
  cases r with
  | panic m p => exact ⟨rfl, rfl⟩
  | ret v ok p =>
    refine ⟨rfl, rfl, rfl, h, ?_⟩
    intro r hr hl
    exact ⟨rfl, fun h => hr (h ▸ hex)⟩

theorem Kept.refl {ex : Ref → Prop} {L : Own} {cur : Ref} (h : ex cur) : Kept ex L L cur :=
  fun _ hr _ => ⟨rfl, fun e => hr (e ▸ h)⟩

theorem Kept.trans {ex ex1 : Ref → Prop} {L L1 L2 : Own} {c1 c2 : Ref} (h : Kept ex L L1 c1)
    (h1 : Kept ex1 L1 L2 c2) (hx : ∀ r, ¬ ex r → L r ≠ none → r ≠ c1 → ¬ ex1 r) : Kept ex L L2 c2 := by
  intro r hr hl
  obtain ⟨a, b⟩ := h r hr hl
  obtain ⟨a', b'⟩ := h1 r (hx r hr hl b) (by rw [a]; exact hl)
  exact ⟨a'.trans a, b'⟩

theorem Post.frame {ex ex1 : Ref → Prop} {L L1 : Own} {pr : Option PRes} {res : Option CRes} {L2 : Own}
    (h : Post ex1 L1 pr res L2) (hk : ∀ c, Kept ex1 L1 L2 c → Kept ex L L2 c) : Post ex L pr res L2 := by
  match res, pr, h with
  | none, none, _ => exact trivial
  | some (.panic m st), some (.panic m' p), h => exact h
  | some (.ret v ok st), some (.ret v' ok' p), ⟨h1, h2, h3, h4, h5⟩ => exact ⟨h1, h2, h3, h4, hk _ h5⟩

/-- After a clone. -/
theorem kept_clone {ex : Ref → Prop} {L : Own} {state cur : Ref} {rc : Dict} (hs : L state = none) (hc : ex cur) :
    Kept ex L (L.upd state (some rc)) cur := by
  intro r hr hl
  refine ⟨Own.upd_other _ _ ?_, fun h => hr (h ▸ hc)⟩
  rintro rfl
  exact hl hs

/-- After restoring what was cloned. -/
theorem kept_restore {ex : Ref → Prop} {L L1 : Own} {cur state : Ref} (h : Kept ex L L1 cur)
    (hs : ∀ r, ¬ ex r → L r ≠ none → r ≠ state) : Kept ex L (L1.upd cur none) state := by
  intro r hr hl
  obtain ⟨a, b⟩ := h r hr hl
  exact ⟨(Own.upd_other _ _ b).trans a, hs r hr hl⟩

theorem run_wp (env : PEnv) : ∀ (n : Nat) (t : CTask) (t' : Pigeon.Task) (st : CState) (rc : Dict) (L : Own),
    L st.cur = some rc → TaskRel L st.cur t t' →
    WP (run env n t st) (Post (Mine st.cur t) L (Pigeon.run env n t' (withRC st.core rc))) L := by
  intro n
  induction n with
  | zero => intro t t' st rc L h ht; exact trivial
  | succ n ih =>
    intro t t' st rc L h ht
    cases t with
    | expr e =>
      cases t' with
      | alts _ => cases ht
      | seq _ _ _ _ => cases ht
      | many _ _ _ => cases ht
      | expr e' =>
        cases ht
        have hm : Mine st.cur (.expr e) st.cur := rfl
        cases e with
        | any =>
          show WP (.ret (some (st.leaf (Pigeon.parseAny env st.core.tick)))) (Post _ L (some (Pigeon.parseAny env (withRC st.core.tick rc)))) L
          rw [parseAny_withRC env st.core.tick rc]
          exact wp_leaf hm h
        | charClass val chars ranges classes ic inv =>
          show WP (.ret (some (st.leaf (Pigeon.parseCharClass env val chars ranges classes ic inv st.core.tick)))) (Post _ L (some (Pigeon.parseCharClass env val chars ranges classes ic inv (withRC st.core.tick rc)))) L
          rw [parseCharClass_withRC env val chars ranges classes ic inv st.core.tick rc]
          exact wp_leaf hm h
        | lit val ic =>
          show WP (.ret (some (st.leaf (Pigeon.parseLit env val ic st.core.tick)))) (Post _ L (some (Pigeon.parseLit env val ic (withRC st.core.tick rc)))) L
          rw [parseLit_withRC env val ic st.core.tick rc]
          exact wp_leaf hm h
        | choice es =>
          exact ih (.alts es) (.alts es) (st.onCore (·.tick)) rc L h rfl
        | oneOrMore e =>
          exact ih (.many e [] true) (.many e [] true) (st.onCore (·.tick)) rc L h ⟨rfl, rfl, rfl⟩
        | zeroOrMore e =>
          exact ih (.many e [] false) (.many e [] false) (st.onCore (·.tick)) rc L h ⟨rfl, rfl, rfl⟩
        | stateCode a =>
          cases a with
          | onResetRandCount1 =>
            refine ⟨⟨rc, h⟩, rfl, rfl, rfl, Own.upd_same .., ?_⟩
            intro r hr hl
            exact ⟨Own.upd_other _ _ hr, hr⟩
          | onIncRandCount1 =>
            refine ⟨rc, h, ?_⟩
            cases rc with
            | none => exact ⟨rfl, rfl⟩
            | some c =>
              refine ⟨⟨_, h⟩, rfl, rfl, rfl, Own.upd_same .., ?_⟩
              intro r hr hl
              exact ⟨Own.upd_other _ _ hr, hr⟩
        | zeroOrOne e =>
          refine wp_call (ex := Mine st.cur (.expr e)) (L := L) ?_ ?_
          · have := ih (.expr e) (.expr e) (st.onCore (·.tick)).pushV rc L (by rw [pushV_cur]; exact h) rfl
            rw [pushV_core, pushV_cur] at this
            exact this
          · intro v ok st' rc' L' h' hk
            refine ⟨rfl, rfl, ?_, ?_, ?_⟩
            · rw [popV_core]; rfl
            · rw [popV_cur]; exact h'
            · rw [popV_cur]; exact hk
        | labeled label e =>
          refine wp_call (ex := Mine st.cur (.expr e)) (L := L) ?_ ?_
          · have := ih (.expr e) (.expr e) (st.onCore (·.tick)).pushV rc L (by rw [pushV_cur]; exact h) rfl
            rw [pushV_core, pushV_cur] at this
            exact this
          · intro v ok st' rc' L' h' hk
            dsimp only
            by_cases hc : (ok && decide (label ≠ [])) = true
            · rw [if_pos hc, if_pos hc]
              refine ⟨rfl, rfl, ?_, ?_, ?_⟩
              · show withRC { st'.popV.core with vstack := _ } _ = _
                rw [popV_core]; rfl
              · show L' st'.popV.cur = _
                rw [popV_cur]; exact h'
              · show Kept _ _ _ st'.popV.cur
                rw [popV_cur]; exact hk
            · rw [if_neg hc, if_neg hc]
              refine ⟨rfl, rfl, ?_, ?_, ?_⟩
              · rw [popV_core]; rfl
              · rw [popV_cur]; exact h'
              · rw [popV_cur]; exact hk
        | ruleRef name =>
          unfold run Pigeon.run
          dsimp only
          cases hr : env.rules.lookup name with
          | none =>
            dsimp only
            exact ⟨rfl, rfl, rfl, h, Kept.refl hm⟩
          | some e =>
            dsimp only
            refine wp_call (ex := Mine st.cur (.expr e)) (L := L) ?_ ?_
            · have := ih (.expr e) (.expr e)
                ((st.onCore (·.tick)).pushV.onCore fun c => { c with rstack := name :: st.core.rstack }) rc L
                (by show L (st.onCore (·.tick)).pushV.cur = _; rw [pushV_cur]; exact h) rfl
              have e1 : ((st.onCore (·.tick)).pushV.onCore fun c => { c with rstack := name :: st.core.rstack }).core =
                  { st.core.tick.pushV with rstack := name :: st.core.rstack } := by
                show { (st.onCore (·.tick)).pushV.core with rstack := name :: st.core.rstack } = _
                rw [pushV_core]; rfl
              have e2 : ((st.onCore (·.tick)).pushV.onCore fun c => { c with rstack := name :: st.core.rstack }).cur = st.cur := by
                show (st.onCore (·.tick)).pushV.cur = _
                rw [pushV_cur]; rfl
              rw [e1, e2] at this
              exact this
            · intro v ok st' rc' L' h' hk
              refine ⟨rfl, rfl, ?_, ?_, ?_⟩
              · show withRC { st'.popV.core with rstack := _ } _ = _
                rw [popV_core]; rfl
              · show L' st'.popV.cur = _
                rw [popV_cur]; exact h'
              · show Kept _ _ _ st'.popV.cur
                rw [popV_cur]; exact hk
        | seq es =>
          refine WP.bind (wp_cloneState h ?_)
          intro state hs
          have hne : state ≠ st.cur := by intro e; rw [e, h] at hs; cases hs
          refine (ih (.seq es [] st.core.pt state) (.seq es [] st.core.pt rc) (st.onCore (·.tick)) rc _ ?_
            ⟨rfl, rfl, rfl, Own.upd_same .., hne⟩).mono ?_
          · show (L.upd state _) st.cur = _
            rw [Own.upd_other _ _ (Ne.symm hne)]; exact h
          · intro res L2 hp
            refine hp.frame ?_
            intro c hk
            refine (kept_clone (rc := rc) (cur := st.cur) hs hm).trans hk ?_
            intro r hr hl hc
            rintro (rfl | rfl)
            · exact hc rfl
            · exact hl hs
        | not e =>
          refine WP.bind (wp_cloneState h ?_)
          intro state hs
          have hne : state ≠ st.cur := by intro e; rw [e, h] at hs; cases hs
          have h1 : (L.upd state (some rc)) st.cur = some rc := by
            rw [Own.upd_other _ _ (Ne.symm hne)]; exact h
          refine wp_call (ex := Mine st.cur (.expr e)) (L := L.upd state (some rc)) ?_ ?_
          · have := ih (.expr e) (.expr e)
              ((st.onCore (·.tick)).pushV.onCore fun c => { c with invert := !st.core.invert }) rc (L.upd state (some rc))
              (by show (L.upd state (some rc)) (st.onCore (·.tick)).pushV.cur = _; rw [pushV_cur]; exact h1) rfl
            have e1 : ((st.onCore (·.tick)).pushV.onCore fun c => { c with invert := !st.core.invert }).core =
                { st.core.tick.pushV with invert := !st.core.invert } := by
              show { (st.onCore (·.tick)).pushV.core with invert := !st.core.invert } = _
              rw [pushV_core]; rfl
            have e2 : ((st.onCore (·.tick)).pushV.onCore fun c => { c with invert := !st.core.invert }).cur = st.cur := by
              show (st.onCore (·.tick)).pushV.cur = _
              rw [pushV_cur]; rfl
            rw [e1, e2] at this
            exact this
          · intro v ok st' rc' L' h' hk
            have hstate : L' state = some rc ∧ state ≠ st'.cur := by
              have := hk state hne (by rw [Own.upd_same]; intro h; cases h)
              rw [Own.upd_same] at this
              exact this
            refine WP.bind (wp_restoreState (rc := rc') ?_ ?_)
            · rw [popV_cur]; exact h'
            · rw [popV_cur]
              refine ⟨rfl, rfl, ?_, ?_, ?_⟩
              · show withRC ((CState.popV (st'.onCore fun c => { c with invert := !c.invert })).core.restore st.core.pt) _ = _
                rw [popV_core, ← restore_withRC]
                have e : ∀ (p q : PState), p.pt = q.pt → (p.restore st.core.pt).randCount = p.randCount := by
                  intro p q _
                  unfold PState.restore
                  split <;> rfl
                rw [e _ _ rfl]
                rfl
              · have e : ∀ (p : PState), (p.restore st.core.pt).randCount = p.randCount := by
                  intro p
                  unfold PState.restore
                  split <;> rfl
                show (L'.upd st'.cur none) state = _
                rw [Own.upd_other _ _ hstate.2, hstate.1, e]
              · refine kept_restore ?_ ?_
                · refine (kept_clone (rc := rc) (cur := st.cur) hs hm).trans hk ?_
                  exact fun r _ _ hc => hc
                · rintro r - hl rfl
                  exact hl hs
        | action a e =>
          refine wp_call (ex := Mine st.cur (.expr e)) (L := L) ?_ ?_
          · exact ih (.expr e) (.expr e) (st.onCore (·.tick)) rc L h rfl
          · intro v ok st' rc' L' h' hk
            cases ok with
            | false => exact ⟨rfl, rfl, rfl, h', hk⟩
            | true =>
              rw [if_pos rfl, if_pos rfl]
              refine WP.bind (wp_cloneState h' ?_)
              intro state hs
              have hne : state ≠ st'.cur := by intro e; rw [e, h'] at hs; cases hs
              have h1 : (L'.upd state (some rc')) st'.cur = some rc' := by
                rw [Own.upd_other _ _ (Ne.symm hne)]; exact h'
              have hd : ∃ d, WP (readState a st'.cur) (fun x L'' => x = d ∧ L'' = L'.upd state (some rc')) (L'.upd state (some rc')) ∧
                  Pigeon.runAction a (st'.core.vstack.headD []) (Pigeon.slice st.core.pt st'.core.pt) d =
                  Pigeon.runAction a (st'.core.vstack.headD []) (Pigeon.slice st.core.pt st'.core.pt) rc' := by
                unfold readState
                cases ha : readsState a with
                | true => exact ⟨rc', ⟨rc', h1, rfl, rfl⟩, rfl⟩
                | false => exact ⟨none, ⟨rfl, rfl⟩, runAction_rc a ha ..⟩
              obtain ⟨d, hd1, hd2⟩ := hd
              refine WP.bind (hd1.mono ?_)
              rintro x L'' ⟨rfl, rfl⟩
              rw [hd2]
              show WP _ (Post _ L (match Pigeon.runAction a (st'.core.vstack.headD []) (Pigeon.slice st.core.pt st'.core.pt) rc' with
                | .ok v => some (.ret v true (withRC st'.core rc'))
                | .err m => some (.ret .nil true ((withRC st'.core rc').addErrAt env m st.core.pt.pos))
                | .panic m => some (.panic m (withRC st'.core rc')))) _
              have hr1 : (L'.upd state (some rc')).upd st'.cur none state = some rc' := by
                rw [Own.upd_other _ _ hne, Own.upd_same]
              have hr2 : Kept (Mine st.cur (.expr (.action a e))) L ((L'.upd state (some rc')).upd st'.cur none) state := by
                refine kept_restore (state := state) ?_ ?_
                · intro r hr hl
                  obtain ⟨a1, a2⟩ := hk r hr hl
                  refine ⟨?_, a2⟩
                  rw [Own.upd_other _ _ ?_, a1]
                  rintro rfl
                  rw [a1] at hs
                  exact hl hs
                · rintro r hr hl rfl
                  rw [(hk r hr hl).1] at hs
                  exact hl hs
              cases Pigeon.runAction a (st'.core.vstack.headD []) (Pigeon.slice st.core.pt st'.core.pt) rc' with
              | ok v =>
                refine WP.bind (wp_restoreState h1 ?_)
                exact ⟨rfl, rfl, rfl, hr1, hr2⟩
              | err m =>
                refine WP.bind (wp_restoreState (st := st'.onCore _) h1 ?_)
                exact ⟨rfl, rfl, rfl, hr1, hr2⟩
              | panic m => exact ⟨rfl, rfl⟩
    | alts es =>
      cases t' with
      | expr _ => cases ht
      | seq _ _ _ _ => cases ht
      | many _ _ _ => cases ht
      | alts es' =>
        cases ht
        have hm : Mine st.cur (.alts es) st.cur := rfl
        cases es with
        | nil => exact ⟨rfl, rfl, rfl, h, Kept.refl hm⟩
        | cons e es =>
          refine WP.bind (wp_cloneState h ?_)
          intro state hs
          have hne : state ≠ st.cur := by intro e; rw [e, h] at hs; cases hs
          have h1 : (L.upd state (some rc)) st.cur = some rc := by
            rw [Own.upd_other _ _ (Ne.symm hne)]; exact h
          refine wp_call (ex := Mine st.cur (.expr e)) (L := L.upd state (some rc)) ?_ ?_
          · have := ih (.expr e) (.expr e) st.pushV rc (L.upd state (some rc)) (by rw [pushV_cur]; exact h1) rfl
            rw [pushV_core, pushV_cur] at this
            exact this
          · intro v ok st' rc' L' h' hk
            have hk' : Kept (Mine st.cur (.alts (e :: es))) L L' st'.cur := by
              refine (kept_clone (rc := rc) (cur := st.cur) hs hm).trans hk ?_
              exact fun r _ _ hc => hc
            cases ok with
            | true =>
              refine ⟨rfl, rfl, ?_, ?_, ?_⟩
              · rw [popV_core]; rfl
              · rw [popV_cur]; exact h'
              · rw [popV_cur]; exact hk'
            | false =>
              have hstate : L' state = some rc ∧ state ≠ st'.cur := by
                have := hk state hne (by rw [Own.upd_same]; intro h; cases h)
                rw [Own.upd_same] at this
                exact this
              refine WP.bind (wp_restoreState (rc := rc') ?_ ?_)
              · rw [popV_cur]; exact h'
              · rw [popV_cur]
                have := ih (.alts es) (.alts es) { st'.popV with cur := state } rc (L'.upd st'.cur none)
                  (by show (L'.upd st'.cur none) state = _
                      rw [Own.upd_other _ _ hstate.2]; exact hstate.1) rfl
                refine WP.mono ?_ this
                intro res L2 hp
                have e1 : withRC ({ st'.popV with cur := state } : CState).core rc =
                    { (withRC st'.core rc').popV with randCount := rc } := by
                  show withRC st'.popV.core rc = _
                  rw [popV_core]; rfl
                rw [e1] at hp
                refine hp.frame ?_
                intro c hc
                have h2 : Kept (Mine st.cur (.alts (e :: es))) L (L'.upd st'.cur none) state := by
                  refine kept_restore hk' ?_
                  rintro r - hl rfl
                  exact hl hs
                exact h2.trans hc (fun r _ _ hc => hc)
    | seq es vals pt state =>
      cases t' with
      | expr _ => cases ht
      | alts _ => cases ht
      | many _ _ _ => cases ht
      | seq es' vals' pt' rc0 =>
        obtain ⟨rfl, rfl, rfl, hs, hne⟩ := ht
        have hm : Mine st.cur (.seq es vals pt state) st.cur := .inl rfl
        cases es with
        | nil => exact ⟨rfl, rfl, rfl, h, Kept.refl hm⟩
        | cons e es =>
          refine wp_call (ex := Mine st.cur (.expr e)) (L := L) ?_ ?_
          · exact ih (.expr e) (.expr e) st rc L h rfl
          · intro v ok st' rc' L' h' hk
            have hstate : L' state = some rc0 ∧ state ≠ st'.cur := by
              have := hk state hne (by rw [hs]; intro h; cases h)
              rw [hs] at this
              exact this
            have hk' : Kept (Mine st.cur (.seq (e :: es) vals pt state)) L L' st'.cur :=
              fun r hr hl => hk r (fun h => hr (.inl h)) hl
            cases ok with
            | true =>
              refine WP.mono ?_ (ih (.seq es (vals ++ [v]) pt state) (.seq es (vals ++ [v]) pt rc0) st' rc' L' h'
                ⟨rfl, rfl, rfl, hstate.1, hstate.2⟩)
              intro res L2 hp
              refine hp.frame ?_
              intro c hc
              refine hk'.trans hc ?_
              rintro r hr hl h1 (rfl | rfl)
              · exact h1 rfl
              · exact hr (.inr rfl)
            | false =>
              refine WP.bind (wp_restoreState h' ?_)
              have e : ∀ (p : PState), (p.restore pt).randCount = p.randCount := by
                intro p
                unfold PState.restore
                split <;> rfl
              refine ⟨rfl, rfl, ?_, ?_, ?_⟩
              · show withRC (st'.core.restore pt) _ = _
                rw [e, ← restore_withRC]
              · show (L'.upd st'.cur none) state = _
                rw [Own.upd_other _ _ hstate.2, hstate.1, e]
              · refine kept_restore hk' ?_
                rintro r hr hl rfl
                exact hr (.inr rfl)
    | many e vals b =>
      cases t' with
      | expr _ => cases ht
      | alts _ => cases ht
      | seq _ _ _ _ => cases ht
      | many e' vals' b' =>
        obtain ⟨rfl, rfl, rfl⟩ := ht
        have hm : Mine st.cur (.many e vals b) st.cur := rfl
        refine wp_call (ex := Mine st.cur (.expr e)) (L := L) ?_ ?_
        · have := ih (.expr e) (.expr e) st.pushV rc L (by rw [pushV_cur]; exact h) rfl
          rw [pushV_core, pushV_cur] at this
          exact this
        · intro v ok st' rc' L' h' hk
          have hpop : withRC st'.popV.core rc' = (withRC st'.core rc').popV := by rw [popV_core]; rfl
          cases ok with
          | true =>
            refine WP.mono ?_ (ih (.many e (vals ++ [v]) b) (.many e (vals ++ [v]) b) st'.popV rc' L'
              (by rw [popV_cur]; exact h') ⟨rfl, rfl, rfl⟩)
            rw [hpop, popV_cur]
            intro res L2 hp
            refine hp.frame ?_
            intro c hc
            exact Kept.trans hk hc (fun r _ _ h => h)
          | false =>
            dsimp only
            simp only [Bool.false_eq_true, if_false]
            by_cases hb : (b && vals.isEmpty) = true
            · rw [if_pos hb, if_pos hb]
              refine ⟨rfl, rfl, ?_, ?_, ?_⟩
              · rw [popV_core]; rfl
              · rw [popV_cur]; exact h'
              · rw [popV_cur]; exact hk
            · rw [if_neg hb, if_neg hb]
              refine ⟨rfl, rfl, ?_, ?_, ?_⟩
              · rw [popV_core]; rfl
              · rw [popV_cur]; exact h'
              · rw [popV_cur]; exact hk

end GoBCDice.Conc
