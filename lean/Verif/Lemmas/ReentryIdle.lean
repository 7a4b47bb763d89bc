import Verif.Lemmas.ReentryCases

/-!
# Requests from the callback of CHANNEL_READY while the MAC is idle
-/

namespace LDL
open Spec (Request Plan Alike)

/-- `x` is `m`, which was idle, after requests made at `e.ticks`. -/
structure Asked (e : Env) (m x : Mac) : Prop where
  timeTicks : x.timeTicks = m.timeTicks
  timeRemainder : x.timeRemainder = m.timeRemainder
  timerB : x.timerB = m.timerB
  inputState : x.inputState = m.inputState
  cases : (x.op = .none ∧ x.state = .idle ∧ x.timerA = m.timerA) ∨
    (x.op ≠ .none ∧ x.timerA = ⟨e.ticks, true⟩ ∧ (x.state = .radioBoot ∨ x.state = .waitOTAA ∨ x.state = .waitTX))

theorem set_now (e x : Env) (h : x.later = e.ticks) : Timer.set x 0 = ⟨e.ticks, true⟩ := by
  unfold Timer.set
  rw [h]
  have : u32 (e.ticks + 0 % 2147483648) = e.ticks := by
    unfold Env.ticks
    simp [u32]
  rw [this]

theorem asked_otaaStart (cfg : Cfg) (e x : Env) (m : Mac) (h : x.later = e.ticks) (hs : m.state = .idle) :
    Asked e m (otaaStart cfg x m) := by
  unfold otaaStart
  obtain ⟨k, hk⟩ := deriveJoinKeys_shape cfg m
  obtain ⟨dn, bu, bl, tx, hn⟩ := nextJoinRequest_shape cfg x (Ops.deriveJoinKeys cfg m)
  rw [hk] at hn
  have h1 : (nextJoinRequest cfg x (Ops.deriveJoinKeys cfg m)).timeTicks = m.timeTicks := by rw [hk, hn]
  have h2 : (nextJoinRequest cfg x (Ops.deriveJoinKeys cfg m)).timeRemainder = m.timeRemainder := by rw [hk, hn]
  have h3 : (nextJoinRequest cfg x (Ops.deriveJoinKeys cfg m)).timerB = m.timerB := by rw [hk, hn]
  have h4 : (nextJoinRequest cfg x (Ops.deriveJoinKeys cfg m)).inputState = m.inputState := by rw [hk, hn]
  have h5 : (nextJoinRequest cfg x (Ops.deriveJoinKeys cfg m)).state = .idle := by rw [hk, hn]; exact hs
  generalize nextJoinRequest cfg x (Ops.deriveJoinKeys cfg m) = n at *
  unfold waitIfIdle
  rw [if_pos (show (markJoin n).state = .idle from h5)]
  exact ⟨h1, h2, h3, h4, Or.inr ⟨by simp [markJoin], set_now e x h, Or.inr (Or.inl rfl)⟩⟩

theorem asked_sendData (cfg : Cfg) (e x : Env) (m : Mac) (h : x.later = e.ticks) (hs : m.state = .idle) (c : Bool)
    (port : Nat) (d : Option Bytes) (len : Nat) (opts : Option DataOpts) (mtu : Nat) :
    Asked e m (sendData cfg x m c port d len opts mtu).1 := by
  unfold sendData startIfIdle pushSessionUpdate Mac.emit bufferFrame
  dsimp only
  rw [if_pos hs]
  refine ⟨rfl, rfl, rfl, rfl, Or.inr ⟨?_, set_now e x h, Or.inr (Or.inr rfl)⟩⟩
  dsimp only
  split <;> simp

theorem asked_tx (e : Env) (m : Mac) (t : Tx) (ho : m.op = .none) (hs : m.state = .idle) :
    Asked e m { m with tx := t } :=
  ⟨rfl, rfl, rfl, rfl, Or.inl ⟨ho, hs, rfl⟩⟩

theorem asked_request (cfg : Cfg) (e x : Env) (m : Mac) (c : Call) (hc : Request c) (h : x.later = e.ticks)
    (ho : m.op = .none) (hs : m.state = .idle) : Asked e m (step cfg m x c).1 := by
  have same : Asked e m m := ⟨rfl, rfl, rfl, rfl, Or.inl ⟨ho, hs, rfl⟩⟩
  cases c with
  | entropy =>
    show Asked e m (entropy x m).1
    rw [entropy_boot, if_pos ho]
    unfold bootIfIdle
    dsimp only
    rw [if_pos hs]
    exact ⟨rfl, rfl, rfl, rfl, Or.inr ⟨by simp, set_now e x h, Or.inl rfl⟩⟩
  | otaa =>
    show Asked e m (otaa cfg x m).1
    rw [otaa_start]
    by_cases hj : m.ctx.joined = true
    · rw [if_pos hj]; exact same
    · rw [if_neg hj, if_pos ho]
      by_cases hd : m.devNonce ≤ 65535
      · rw [if_pos hd]
        have := asked_otaaStart cfg e x { m with trials := 0, day := 60 * 60 * 24 * timeTPS } h hs
        exact ⟨this.timeTicks, this.timeRemainder, this.timerB, this.inputState, this.cases⟩
      · rw [if_neg hd]; exact same
  | data c1 c2 c3 c4 c5 =>
    show Asked e m (dataCommand cfg x m c1 c2 c3 c4 c5).1
    unfold dataCommand
    by_cases hj : m.ctx.joined = true
    · rw [if_pos hj, if_pos ho]
      by_cases hp : c2 > 0 ∧ c2 ≤ 223
      · rw [if_pos hp]
        by_cases hb : m.band GLOBAL = 0
        · rw [if_pos hb]
          dsimp only
          generalize selectChannel _ _ _ _ = r
          rcases r with _ | ⟨freq, ch, rate⟩
          · exact asked_tx e m _ ho hs
          · dsimp only
            by_cases hl : c4 + Frame.dataOverhead ≤ (m.ctx.region.convertRate m.ctx.rate).mtu
            · rw [if_pos hl]
              have := asked_sendData cfg e x
                { m with tx := { m.tx with freq := freq, chIndex := ch, rate := rate, power := m.ctx.power } } h hs
                c1 c2 c3 c4 c5 (m.ctx.region.convertRate m.ctx.rate).mtu
              exact ⟨this.timeTicks, this.timeRemainder, this.timerB, this.inputState, this.cases⟩
            · rw [if_neg hl]; exact asked_tx e m _ ho hs
        · rw [if_neg hb]; exact same
      · rw [if_neg hp]; exact same
    · rw [if_neg hj]; exact same
  | _ => exact absurd hc (by simp [Request])

theorem asked_run (cfg : Cfg) (e : Env) (l : List (Env × Call)) (hl : ∀ x ∈ l, Request x.2)
    (ht : ∀ x ∈ l, x.1.later = e.ticks) (m : Mac) (ho : m.op = .none) (hs : m.state = .idle) :
    Asked e m (run cfg m l) := by
  induction l generalizing m with
  | nil => exact ⟨rfl, rfl, rfl, rfl, Or.inl ⟨ho, hs, rfl⟩⟩
  | cons x l ih =>
    obtain ⟨v, c⟩ := x
    show Asked e m (run cfg (step cfg m v c).1 l)
    have h1 := asked_request cfg e v m c (hl (v, c) (by simp)) (ht (v, c) (by simp)) ho hs
    have hl' : ∀ y ∈ l, Request y.2 := fun y hy => hl y (by simp [hy])
    generalize (step cfg m v c).1 = m1 at h1
    rcases h1.cases with ⟨h2, h3, h4⟩ | ⟨h2, _, _⟩
    · have h5 := ih hl' (fun y hy => ht y (by simp [hy])) m1 h2 h3
      refine ⟨h5.timeTicks.trans h1.timeTicks, h5.timeRemainder.trans h1.timeRemainder, h5.timerB.trans h1.timerB,
        h5.inputState.trans h1.inputState, ?_⟩
      rw [← h4]
      exact h5.cases
    · rw [run_busy cfg l hl' m1 h2]
      exact h1

/-! ### The rest of the processing call -/

theorem check_now (e : Env) : Timer.check e ⟨e.ticks, true⟩ = some 0 := by
  unfold Timer.check timerDelta
  simp [INT32_MAX]

theorem pick_nothing (e : Env) (r : Bool) (m : Mac) (hi : m.inputState = false) (hA : m.timerA.check e = none)
    (hB : m.timerB.check e = none) : pickEvent e r m = (if r then .band else .none, 0, m) := by
  have h : inputCheck e m = (none, m) := by unfold inputCheck; rw [if_neg (by simp [hi])]
  unfold pickEvent
  rw [h]
  dsimp only
  rw [hA]
  dsimp only
  rw [hB]

theorem pick_timerA (e : Env) (r : Bool) (m : Mac) (hi : m.inputState = false) (hA : m.timerA.check e = some 0) :
    pickEvent e r m = (.timerA, 0, { m with timerA := m.timerA.clear }) := by
  have h : inputCheck e m = (none, m) := by unfold inputCheck; rw [if_neg (by simp [hi])]
  unfold pickEvent
  rw [h]
  dsimp only
  rw [hA]

/-- What the processing call does after the callback. -/
def rest (cfg : Cfg) (h : Re.App) (e : Env) (r : Bool) (m : Mac) : Mac :=
  let p := pickEvent e r m
  if p.1 = .none then p.2.2 else Re.dispatch h cfg e p.1 p.2.1 p.2.2

theorem rest_asked (cfg : Cfg) (h : Re.App) (e : Env) (m x : Mac) (hx : Asked e m x) (hi : m.inputState = false)
    (hA : m.timerA.armed = false) (hB : m.timerB.armed = false) (r r' : Bool) (p : Bool) (b : Timer) :
    let p' := pickEvent e r' (x.behind p b x.out)
    (if p'.1 = .none then p'.2.2 else dispatch cfg e p'.1 p'.2.1 p'.2.2) =
      (rest cfg h e r x).behind p b (rest cfg h e r x).out := by
  dsimp only
  have hxi : x.inputState = false := hx.inputState.trans hi
  have hB0 : x.timerB.check e = none := by unfold Timer.check; rw [hx.timerB, hB]; rfl
  unfold rest
  dsimp only
  rcases hx.cases with ⟨_, h3, h4⟩ | ⟨_, h3, h4⟩
  · have hA0 : x.timerA.check e = none := by unfold Timer.check; rw [h4, hA]; rfl
    rw [pick_nothing e r' (x.behind p b x.out) hxi hA0 hB0, pick_nothing e r x hxi hA0 hB0]
    have h5 : (x.behind p b x.out).state = .idle := h3
    cases r <;> cases r' <;> simp [Re.dispatch, dispatch, h3, h5]
  · have hA0 : x.timerA.check e = some 0 := by rw [h3]; exact check_now e
    rw [pick_timerA e r' (x.behind p b x.out) hxi hA0, pick_timerA e r x hxi hA0]
    dsimp only
    rw [if_neg (by simp), if_neg (by simp)]
    rcases h4 with h4 | h4 | h4
    · have h5 : (x.behind p b x.out).state = .radioBoot := h4
      simp only [Re.dispatch, dispatch, h4, h5, processRadioBoot, if_true]
      have h6 : (x.behind p b x.out).op = x.op := rfl
      simp only [Mac.emit, h6]
      cases x.op <;> rfl
    · have h5 : (x.behind p b x.out).state = .waitOTAA := h4
      simp only [Re.dispatch, dispatch, h4, h5, processWaitOTAA]
      have h6 : (x.behind p b x.out).band = x.band := rfl
      rw [h6]
      split <;> rfl
    · have h5 : (x.behind p b x.out).state = .waitTX := h4
      simp only [Re.dispatch, dispatch, h4, h5, processWait, true_or, if_true]
      rfl

theorem elapsed_zero (cfg : Cfg) (r : Nat) (h : r < cfg.tps) (h32 : cfg.tps < 4294967296) : elapsed cfg 0 r = (0, r) := by
  unfold elapsed
  have h1 : u32 (0 % cfg.tps * timeTPS + r) = r := by simp [u32]; omega
  rw [h1]
  simp [Nat.div_eq_of_lt h, Nat.mod_eq_of_lt h, u32]

theorem counter_zero (c : Nat) : updateDownCounter c 0 = (c, false) := by
  unfold updateDownCounter
  by_cases h : c > 0
  · rw [if_pos h, if_neg (by omega)]; simp
  · rw [if_neg h]

theorem tick_again (cfg : Cfg) (e : Env) (m : Mac) (h1 : m.timeTicks = e.ticks) (h2 : m.timeRemainder < cfg.tps)
    (h32 : cfg.tps < 4294967296) : processBands cfg e m = (false, m) := by
  unfold processBands
  split
  · rfl
  · have hd : timerDelta m.timeTicks e.ticks = 0 := by rw [h1]; unfold timerDelta; simp
    have ha : anyExpired m.band 0 = false := by simp [anyExpired, counter_zero]
    dsimp only
    rw [hd, elapsed_zero cfg _ h2 h32]
    dsimp only
    rw [ha]
    simp only [Bool.false_eq_true, false_and, if_false]
    unfold tickBands
    rw [hd, elapsed_zero cfg _ h2 h32]
    simp only [counter_zero]
    have hc : countDown m.band 0 = m.band := by
      funext i
      unfold countDown
      rw [counter_zero]
      simp
    rw [hc, ← h1]

theorem re_channelReady (cfg : Cfg) (plan : Plan) (hp : plan.Requests) (e : Env) (m : Mac) (ht : 0 < cfg.tps)
    (h32 : cfg.tps < 4294967296)
    (ho : m.op = .none) (hs : m.state = .idle) (hi : m.inputState = false) (hA : m.timerA.armed = false)
    (hB : m.timerB.armed = false) (hnow : ∀ x ∈ plan .channelReady, x.1.later = e.ticks)
    (hready : (processBands cfg e m).1 = true) :
    Alike (Re.process (plan.app cfg) cfg e m)
      (process cfg e (run cfg (process cfg e m) (plan .channelReady))) := by
  have hpb : processBands cfg e m = (true, (tickBands cfg e m).emit .channelReady) ∧
      Re.processBands (plan.app cfg) cfg e m =
        (true, run cfg ((tickBands cfg e m).emit .channelReady) (plan .channelReady)) := by
    unfold processBands Re.processBands at *
    dsimp only at *
    by_cases hpk : m.parked = true
    · rw [if_pos hpk] at hready; exact absurd hready (by simp)
    · rw [if_neg hpk] at hready ⊢
      rw [if_neg hpk]
      by_cases hc : anyExpired m.band (elapsed cfg (timerDelta m.timeTicks e.ticks) m.timeRemainder).1 = true ∧
          (tickBands cfg e m).band GLOBAL = 0
      · rw [if_pos hc, if_pos hc]; exact ⟨rfl, rfl⟩
      · rw [if_neg hc] at hready; exact absurd hready (by simp)
  -- the state in which the callback is entered
  have hm1 : ∃ m1, m1 = (tickBands cfg e m).emit .channelReady := ⟨_, rfl⟩
  obtain ⟨m1, hm1⟩ := hm1
  rw [← hm1] at hpb
  have ho1 : m1.op = .none := by rw [hm1]; exact ho
  have hs1 : m1.state = .idle := by rw [hm1]; exact hs
  have hi1 : m1.inputState = false := by rw [hm1]; exact hi
  have hA1 : m1.timerA.armed = false := by rw [hm1]; exact hA
  have hB1 : m1.timerB.armed = false := by rw [hm1]; exact hB
  have ht1 : m1.timeTicks = e.ticks := by rw [hm1]; rfl
  have hr1 : m1.timeRemainder < cfg.tps := by
    rw [hm1]
    show (elapsed cfg _ _).2 < _
    unfold elapsed
    exact Nat.mod_lt _ ht
  -- the processing call without requests
  have h0 : process cfg e m = setNextBandEvent cfg e m1 := by
    unfold process
    rw [hpb.1]
    dsimp only
    have hpick : pickEvent e true m1 = (.band, 0, m1) := by
      have hA0 : m1.timerA.check e = none := by unfold Timer.check; rw [hA1]; rfl
      have hB0 : m1.timerB.check e = none := by unfold Timer.check; rw [hB1]; rfl
      exact pick_nothing e true m1 hi1 hA0 hB0
    rw [hpick]
    simp [dispatch, hs1]
  obtain ⟨p1, b1, e1⟩ := setNextBandEvent_shape cfg e m1
  have e1' : setNextBandEvent cfg e m1 = m1.behind p1 b1 m1.out := e1
  obtain ⟨k, hk1, hk2⟩ := run_behind cfg (plan .channelReady) (hp _) m1 p1 b1 m1.out
  have hx := asked_run cfg e (plan .channelReady) (hp _) hnow m1 ho1 hs1
  rw [h0, e1', hk2, ← hk1]
  unfold Re.process
  rw [hpb.2]
  dsimp only
  generalize run cfg m1 (plan .channelReady) = x at *
  have hxb : processBands cfg e (x.behind p1 b1 x.out) = (false, x.behind p1 b1 x.out) :=
    tick_again cfg e _ (hx.timeTicks.trans ht1) (by
      show x.timeRemainder < _
      rw [hx.timeRemainder]; exact hr1) h32
  unfold process
  rw [hxb]
  dsimp only
  have key := rest_asked cfg (plan.app cfg) e m1 x hx hi1 hA1 hB1 true false p1 b1
  dsimp only at key
  rw [key]
  show Alike (setNextBandEvent cfg e (rest cfg (plan.app cfg) e true x)) _
  generalize rest cfg (plan.app cfg) e true x = y
  obtain ⟨p2, b2, e2⟩ := setNextBandEvent_shape cfg e y
  obtain ⟨p3, b3, e3⟩ := setNextBandEvent_shape cfg e (y.behind p1 b1 y.out)
  rw [e2, e3]
  exact ⟨rfl, List.Perm.refl _⟩

/-- With nothing due, the processing call of an idle MAC reports CHANNEL_READY or nothing. -/
theorem idle_process (cfg : Cfg) (h : Re.App) (e : Env) (m : Mac) (hs : m.state = .idle) (hi : m.inputState = false)
    (hA : m.timerA.armed = false) (hB : m.timerB.armed = false) (hready : (processBands cfg e m).1 = false) :
    newEvents m (process cfg e m) = [] ∧ Re.process h cfg e m = process cfg e m := by
  have hpb : ∃ m1, processBands cfg e m = (false, m1) ∧ Re.processBands h cfg e m = (false, m1) ∧ m1.out = m.out ∧
      m1.inputState = m.inputState ∧ m1.timerA = m.timerA ∧ m1.timerB = m.timerB := by
    unfold processBands Re.processBands at *
    dsimp only at *
    by_cases hpk : m.parked = true
    · rw [if_pos hpk, if_pos hpk]; exact ⟨m, rfl, rfl, rfl, rfl, rfl, rfl⟩
    · rw [if_neg hpk] at hready ⊢
      rw [if_neg hpk]
      by_cases hc : anyExpired m.band (elapsed cfg (timerDelta m.timeTicks e.ticks) m.timeRemainder).1 = true ∧
          (tickBands cfg e m).band GLOBAL = 0
      · rw [if_pos hc] at hready; exact absurd hready (by simp)
      · rw [if_neg hc, if_neg hc]; exact ⟨_, rfl, rfl, rfl, rfl, rfl, rfl⟩
  obtain ⟨m1, h1, h2, h3, h4, h5, h6⟩ := hpb
  have hp := pick_nothing e false m1 (h4.trans hi) (by unfold Timer.check; rw [h5, hA]; rfl)
    (by unfold Timer.check; rw [h6, hB]; rfl)
  have h7 : process cfg e m = setNextBandEvent cfg e m1 := by
    unfold process
    rw [h1]
    dsimp only
    rw [hp]
    rfl
  refine ⟨?_, ?_⟩
  · obtain ⟨p, b, e1⟩ := setNextBandEvent_shape cfg e m1
    rw [h7, e1]
    unfold newEvents
    show List.drop _ m1.out = []
    rw [h3, List.drop_length]
  · rw [h7]
    unfold Re.process
    rw [h2]
    dsimp only
    rw [hp]
    rfl

theorem channelReady_told (cfg : Cfg) (e : Env) (m : Mac) (hs : m.state = .idle)
    (hready : (processBands cfg e m).1 = true) : .channelReady ∈ newEvents m (process cfg e m) := by
  have hpb : ∃ m1, processBands cfg e m = (true, m1) ∧ m1.out = m.out ++ [.channelReady] ∧ m1.state = .idle := by
    unfold processBands at *
    dsimp only at *
    by_cases hpk : m.parked = true
    · rw [if_pos hpk] at hready; exact absurd hready (by simp)
    · rw [if_neg hpk] at hready ⊢
      by_cases hc : anyExpired m.band (elapsed cfg (timerDelta m.timeTicks e.ticks) m.timeRemainder).1 = true ∧
          (tickBands cfg e m).band GLOBAL = 0
      · rw [if_pos hc]; exact ⟨_, rfl, rfl, hs⟩
      · rw [if_neg hc] at hready; exact absurd hready (by simp)
  obtain ⟨m1, h1, h2, h3⟩ := hpb
  unfold process
  rw [h1]
  dsimp only
  have hpo := pickEvent_out e true m1
  have hps : (pickEvent e true m1).2.2.state = .idle := by
    unfold pickEvent inputCheck
    by_cases hi : m1.inputState = true
    · rw [if_pos hi]; exact h3
    · rw [if_neg hi]
      dsimp only
      cases m1.timerA.check e with
      | some lag => exact h3
      | none =>
        dsimp only
        cases m1.timerB.check e with
        | some lag => exact h3
        | none => exact h3
  generalize pickEvent e true m1 = p at *
  have hd : (if p.1 = .none then p.2.2 else dispatch cfg e p.1 p.2.1 p.2.2) = p.2.2 := by
    split
    · rfl
    · simp [dispatch, hps]
  rw [hd]
  obtain ⟨q, b, e1⟩ := setNextBandEvent_shape cfg e p.2.2
  rw [e1]
  unfold newEvents
  show _ ∈ List.drop _ p.2.2.out
  rw [hpo, h2, List.drop_left]
  simp

theorem run_last (cfg : Cfg) (l : List (Env × Call)) (m : Mac) (e : Env) (c : Call) :
    run cfg m (l ++ [(e, c)]) = (step cfg (run cfg m l) e c).1 := by
  induction l generalizing m with
  | nil => rfl
  | cons x l ih => exact ih _

end LDL
