import Verif.Lemmas.JoinNonce
import Verif.Lemmas.OpState

/-!
# What calls do to the off-time counters
-/

namespace LDL

/-- Clock and counters. -/
def Mac.clock (m : Mac) : Nat × Nat × Nat × (Nat → Nat) := (m.timeTicks, m.timeRemainder, m.day, m.band)

/-- A transmission is found to be over, or overdue, by a call of `LDL_MAC_process`. -/
def Charges (m : Mac) (e : Env) : Prop :=
  m.state = .tx ∧ (m.inputState = true ∨ (m.timerA.check e).isSome = true)

/-- What the counters will be after a transmission of `m` was charged. -/
def charged (m : Mac) : Nat → Nat := (registerTime m).band

/-- The factor for the time left of the day a join started in. -/
def otaaFactor (day : Nat) : Nat :=
  if day > timeTPS * 23 * 60 * 60 then 100 else if day > timeTPS * 13 * 60 * 60 then 1000 else 10000

/-- The counters after the band was charged. -/
def chargeBand (r : Region) (freq airTime : Nat) (band : Nat → Nat) : Nat → Nat :=
  match r.getBand freq with
  | some b => addOffTime band b (u32 (airTime * r.getOffTimeFactor b))
  | none => band

/-- The counters after the aggregate off-time was charged. -/
def chargeAll (op : Op) (dc day airTime : Nat) (band : Nat → Nat) : Nat → Nat :=
  if op = .joining ∨ dc > 0 then
    addOffTime band GLOBAL
      (if op = .joining then u32 (airTime * otaaFactor day) else u32 (airTime * (1 <<< (dc &&& 0xf))))
  else band

theorem charged_eq (m : Mac) : charged m = chargeAll m.op m.ctx.maxDutyCycle m.day m.tx.airTime
    (chargeBand m.ctx.region m.tx.freq m.tx.airTime m.band) := by
  unfold charged registerTime chargeAll chargeBand
  cases m.ctx.region.getBand m.tx.freq <;> dsimp only <;>
    by_cases ho : m.op = .joining ∨ m.ctx.maxDutyCycle > 0
  all_goals first | rw [if_pos ho, if_pos ho] | rw [if_neg ho, if_neg ho]
  all_goals rfl

theorem charged_congr {m m1 : Mac} (h1 : m1.ctx = m.ctx) (h2 : m1.tx = m.tx) (h3 : m1.op = m.op) (h4 : m1.day = m.day)
    (h5 : m1.band = m.band) : charged m1 = charged m := by
  rw [charged_eq, charged_eq, h1, h2, h3, h4, h5]

theorem nextJoinRequest_clock (cfg : Cfg) (e : Env) (m : Mac) : (nextJoinRequest cfg e m).clock = m.clock := by
  obtain ⟨_, _, _, _, h⟩ := nextJoinRequest_shape cfg e m
  rw [h]; rfl

theorem Missing.clock {cfg : Cfg} {e : Env} {m m' : Mac} (h : Missing cfg e m m') : m'.clock = m.clock := by
  cases h
  case nextJoin => exact nextJoinRequest_clock cfg e { m with trials := u32 (m.trials + 1) }
  all_goals rfl

theorem RadioErr.clock {cfg : Cfg} {e : Env} {m m' : Mac} (h : RadioErr cfg e m m') : m'.clock = m.clock := by
  cases h
  case nextJoin m1 hm =>
    show m1.clock = _
    rw [hm, nextJoinRequest_clock]; rfl
  all_goals rfl

/-- What a handler does to the counters. -/
theorem Disp.clock {cfg : Cfg} {e : Env} {ev : Sme} {lag : Nat} {m m' : Mac} (h : Disp cfg e ev lag m m') :
    (m.state = .tx ∧ (ev = .interrupt ∨ ev = .timerA) ∧ m'.clock = (m.timeTicks, m.timeRemainder, m.day, charged m)) ∨
    (¬ (m.state = .tx ∧ (ev = .interrupt ∨ ev = .timerA)) ∧ m'.clock = m.clock) ∨
    (¬ (m.state = .tx ∧ (ev = .interrupt ∨ ev = .timerA)) ∧
      (∃ f buf, (m.state = .rx1 ∨ m.state = .rx2) ∧ ev = .interrupt ∧ e.statusRx = true ∧
        Ops.receiveFrame cfg m e.rxBuffer e.received.length = (some f, buf) ∧ f.type = Frame.JOIN_ACCEPT) ∧
      m'.clock = (m.timeTicks, m.timeRemainder, 0, upd m.band GLOBAL 0)) ∨
    (m' = m ∧ m.state = .tx ∧ (ev = .interrupt ∨ ev = .timerA)) := by
  cases h
  case stay =>
    by_cases h : m.state = .tx ∧ (ev = .interrupt ∨ ev = .timerA)
    · exact Or.inr (Or.inr (Or.inr ⟨rfl, h⟩))
    · exact Or.inr (Or.inl ⟨h, rfl⟩)
  case txError hs he =>
    refine Or.inl ⟨hs, he.elim Or.inr fun h => Or.inl h.1, ?_⟩
    rw [(handleRadioError_cases cfg e _).clock]
    have : charged (statusRead ev m) = charged m := by
      unfold statusRead
      split <;> first | rfl | exact charged_congr rfl rfl rfl rfl rfl
    rw [← this]
    obtain ⟨b, hb⟩ := registerTime_shape (statusRead ev m)
    unfold charged
    rw [hb]
    unfold Mac.clock statusRead
    split <;> rfl
  case txDone hs he ht =>
    refine Or.inl ⟨hs, Or.inl he, ?_⟩
    obtain ⟨_, _, _, _, _, h, _⟩ := txComplete_shape cfg e lag (registerTime (m.emit .getStatus))
    rw [h]
    have : charged (m.emit .getStatus) = charged m := charged_congr rfl rfl rfl rfl rfl
    rw [← this]
    obtain ⟨b, hb⟩ := registerTime_shape (m.emit .getStatus)
    unfold charged
    rw [hb]
    rfl
  case rxError hs he =>
    refine Or.inr (Or.inl ⟨?_, (handleRadioError_cases cfg e _).clock⟩)
    rintro ⟨h1, _⟩
    rw [h1] at hs; simp at hs
  case rxRejected hs _ _ _ _ =>
    refine Or.inr (Or.inl ⟨?_, (downlinkMissing_missing cfg e _).clock⟩)
    rintro ⟨h1, _⟩
    rw [h1] at hs; simp at hs
  case rxJoin hs he hr f buf hf ht _ =>
    obtain ⟨_, _, _, _, _, _, h⟩ := joinAccepted_shape cfg (packetState e m) f buf
    refine Or.inr (Or.inr (Or.inl ⟨?_, ⟨f, buf, hs, he, hr, hf, ht⟩, ?_⟩))
    · rintro ⟨h1, _⟩
      rw [h1] at hs; simp at hs
    · show (joinAccepted cfg (packetState e m) f buf).clock = _
      rw [h]; rfl
  case rxData hs _ _ f buf _ _ _ =>
    obtain ⟨_, _, h, _⟩ := dataReceived_shape cfg e (packetState e m) f buf
    refine Or.inr (Or.inl ⟨?_, ?_⟩)
    · rintro ⟨h1, _⟩
      rw [h1] at hs; simp at hs
    · show (dataReceived cfg e (packetState e m) f buf).clock = _
      rw [h]; rfl
  case lockout hs _ =>
    refine Or.inr (Or.inl ⟨?_, (downlinkMissing_missing cfg e _).clock⟩)
    rintro ⟨h1, _⟩
    rw [h1] at hs; cases hs
  case waitA hs _ _ _ =>
    refine Or.inr (Or.inl ⟨?_, rfl⟩)
    rintro ⟨h1, _⟩
    rw [h1] at hs; simp at hs
  all_goals
    refine Or.inr (Or.inl ⟨?_, rfl⟩)
    rintro ⟨h1, _⟩
    simp_all

theorem dispatch_tx_charged (cfg : Cfg) (e : Env) (ev : Sme) (lag : Nat) (m : Mac) (hs : m.state = .tx)
    (he : ev = .interrupt ∨ ev = .timerA) :
    (dispatch cfg e ev lag m).clock = (m.timeTicks, m.timeRemainder, m.day, charged m) := by
  have hx : (dispatch cfg e ev lag m).clock = (registerTime (statusRead ev m)).clock := by
    unfold dispatch processTX
    simp only [hs]
    rcases he with he | he <;> subst he
    · simp only [reduceCtorEq, if_false, true_or, if_true, true_and]
      split
      · exact (handleRadioError_cases cfg e _).clock
      · obtain ⟨_, _, _, _, _, h, _⟩ := txComplete_shape cfg e lag (registerTime (m.emit .getStatus))
        show (txComplete cfg e lag (registerTime (m.emit .getStatus))).clock = _
        rw [h]; rfl
    · simp only [if_true, or_true]
      exact (handleRadioError_cases cfg e _).clock
  rw [hx]
  have : charged (statusRead ev m) = charged m := by
    unfold statusRead
    split <;> first | rfl | exact charged_congr rfl rfl rfl rfl rfl
  rw [← this]
  obtain ⟨b, hb⟩ := registerTime_shape (statusRead ev m)
  unfold charged
  rw [hb]
  unfold Mac.clock statusRead
  split <;> rfl

/-- The state after the counters were brought up to date. -/
def ticked (cfg : Cfg) (e : Env) (m : Mac) : Mac := (processBands cfg e m).2

theorem pickEvent_clock (e : Env) (b : Bool) (m : Mac) : (pickEvent e b m).2.2.clock = m.clock := by
  unfold pickEvent inputCheck
  by_cases hi : m.inputState = true
  · rw [if_pos hi]; rfl
  · rw [if_neg hi]
    dsimp only
    cases m.timerA.check e with
    | some lag => rfl
    | none =>
      dsimp only
      cases m.timerB.check e with
      | some lag => rfl
      | none => rfl

/-- What is left until the counters have to be looked at again, as computed by `setNextBandEvent`. -/
def nextTime (m : Mac) : Nat :=
  let time := if minBand m ≤ m.band GLOBAL then m.band GLOBAL else minBand m
  if time = UINT32_MAX ∧ m.day > 0 then m.day else time

theorem setNextBandEvent_parked (cfg : Cfg) (e : Env) (m : Mac) :
    (setNextBandEvent cfg e m).parked = decide (¬ nextTime m < UINT32_MAX) := by
  unfold setNextBandEvent
  simp only []
  show (if nextTime m < UINT32_MAX then _ else _ : Mac).parked = _
  by_cases h : nextTime m < UINT32_MAX
  · rw [if_pos h]; simp [h]
  · rw [if_neg h]; simp [h]

theorem setNextBandEvent_clock (cfg : Cfg) (e : Env) (m : Mac) : (setNextBandEvent cfg e m).clock = m.clock := by
  obtain ⟨_, _, h⟩ := setNextBandEvent_shape cfg e m
  rw [h]; rfl

theorem nextTime_congr {m m' : Mac} (h : m'.clock = m.clock) : nextTime m' = nextTime m := by
  unfold Mac.clock at h
  simp only [Prod.mk.injEq] at h
  obtain ⟨_, _, h1, h2⟩ := h
  unfold nextTime minBand
  rw [h1, h2]

/-- What `LDL_MAC_process` does to clock and counters. -/
theorem process_clock (cfg : Cfg) (e : Env) (m : Mac) :
    ((Charges m e ∧ (process cfg e m).clock = ((ticked cfg e m).timeTicks, (ticked cfg e m).timeRemainder,
        (ticked cfg e m).day, charged (ticked cfg e m))) ∨
     (¬ Charges m e ∧ (process cfg e m).clock = (ticked cfg e m).clock) ∨
     (¬ Charges m e ∧ (∃ f buf, JoinsWith cfg e m .process f buf) ∧
      (process cfg e m).clock = ((ticked cfg e m).timeTicks, (ticked cfg e m).timeRemainder, 0,
        upd (ticked cfg e m).band GLOBAL 0))) ∧
    (process cfg e m).parked = decide (¬ nextTime (process cfg e m) < UINT32_MAX) := by
  have hprep := pickEvent_prep cfg e m
  have hcl := pickEvent_clock e (processBands cfg e m).1 (processBands cfg e m).2
  have hproc : process cfg e m = setNextBandEvent cfg e
      (if (pickEvent e (processBands cfg e m).1 (processBands cfg e m).2).1 = .none
        then (pickEvent e (processBands cfg e m).1 (processBands cfg e m).2).2.2
        else dispatch cfg e (pickEvent e (processBands cfg e m).1 (processBands cfg e m).2).1
          (pickEvent e (processBands cfg e m).1 (processBands cfg e m).2).2.1
          (pickEvent e (processBands cfg e m).1 (processBands cfg e m).2).2.2) := rfl
  change _ = (ticked cfg e m).clock at hcl
  have htx : (ticked cfg e m).ctx = m.ctx ∧ (ticked cfg e m).tx = m.tx ∧ (ticked cfg e m).op = m.op := by
    obtain ⟨_, _, _, _, _, h, _⟩ := processBands_shape cfg e m
    unfold ticked
    rw [h]
    exact ⟨rfl, rfl, rfl⟩
  generalize (pickEvent e (processBands cfg e m).1 (processBands cfg e m).2).1 = ev at hprep hproc
  generalize (pickEvent e (processBands cfg e m).1 (processBands cfg e m).2).2.1 = lag at hprep hproc
  generalize (pickEvent e (processBands cfg e m).1 (processBands cfg e m).2).2.2 = m1 at hprep hproc hcl
  generalize hm2 : (if ev = .none then m1 else dispatch cfg e ev lag m1) = m2 at hproc
  have hclock : (process cfg e m).clock = m2.clock := by rw [hproc]; exact setNextBandEvent_clock cfg e m2
  refine ⟨?_, by rw [hproc, setNextBandEvent_parked, nextTime_congr (setNextBandEvent_clock cfg e m2)]⟩
  rw [hclock]
  obtain ⟨_, _, _, _, _, _, _, _, _, hm⟩ := hprep.eq
  have hst : m1.state = m.state := by rw [hm]
  have hcharged : charged m1 = charged (ticked cfg e m) := by
    unfold Mac.clock at hcl
    simp only [Prod.mk.injEq] at hcl
    refine charged_congr ?_ ?_ ?_ hcl.2.2.1 hcl.2.2.2
    · rw [htx.1, hm]
    · rw [htx.2.1, hm]
    · rw [htx.2.2, hm]
  have hch : Charges m e ↔ m1.state = .tx ∧ (ev = .interrupt ∨ ev = .timerA) := by
    unfold Charges
    rw [hst]
    refine and_congr_right fun _ => ?_
    rw [← hprep.interrupt]
    constructor
    · rintro (h | h)
      · exact Or.inl h
      · by_cases hi : ev = .interrupt
        · exact Or.inl hi
        · right
          rcases hprep.timerA with ⟨h1, _⟩ | ⟨h1, _⟩
          · exact h1
          · have := hprep.quietA
            cases ev with
            | interrupt => exact absurd rfl hi
            | timerA => exact absurd rfl h1
            | _ => rw [this (by simp)] at h; simp at h
    · rintro (h | h)
      · exact Or.inl h
      · right
        rcases hprep.timerA with ⟨_, h1, _⟩ | ⟨h1, _⟩
        · rw [h1]; rfl
        · exact absurd h h1
  have hcl2 := hcl
  simp only [Mac.clock, Prod.mk.injEq] at hcl2
  obtain ⟨c1, c2, c3, c4⟩ := hcl2
  by_cases hn : ev = .none
  · rw [if_pos hn] at hm2
    subst hm2
    refine Or.inr (Or.inl ⟨?_, hcl⟩)
    rw [hch, hn]
    simp
  · rw [if_neg hn] at hm2
    by_cases hc : m1.state = .tx ∧ (ev = .interrupt ∨ ev = .timerA)
    · refine Or.inl ⟨hch.2 hc, ?_⟩
      rw [← hm2, dispatch_tx_charged cfg e ev lag m1 hc.1 hc.2, hcharged, c1, c2, c3]
    · have hnc : ¬ Charges m e := fun h => hc (hch.1 h)
      have hd := dispatch_disp cfg e ev lag m1
      rw [hm2] at hd
      rcases hd.clock with ⟨h1, h2, _⟩ | ⟨_, h⟩ | ⟨_, ⟨f, buf, h1, h2, h3, h4, h5⟩, h⟩ | ⟨_, h⟩
      · exact absurd ⟨h1, h2⟩ hc
      · exact Or.inr (Or.inl ⟨hnc, h.trans hcl⟩)
      · refine Or.inr (Or.inr ⟨hnc, ⟨f, buf, rfl, ⟨hst ▸ h1, hprep.interrupt.1 h2, h3, ?_⟩, h5⟩, ?_⟩)
        · rw [← h4]
          exact receiveFrame_congr _ _ _ _ _ (by rw [hm]) (by rw [hm]) (by rw [hm]) (by rw [hm]) (by rw [hm])
        · rw [h, c1, c2, c4]
      · exact absurd h hc

/-- What a call other than `LDL_MAC_process` does to clock and counters. -/
theorem Api.clock {cfg : Cfg} {e : Env} {m m' : Mac} {c : Call} {st : Status} (h : Api cfg e m c m' st) :
    m'.timeTicks = m.timeTicks ∧ m'.timeRemainder = m.timeRemainder ∧ m'.parked = m.parked ∧
    (m'.day = m.day ∧ m'.band = m.band ∨
     c = .otaa ∧ m.op = .none ∧ m'.op = .joining ∧ m'.day = 86400 * 256 ∧ m'.band = m.band ∨
     (∃ a, c = .abp a ∧ m.op = .none) ∧ m'.day = 0 ∧ m'.band = upd m.band GLOBAL 0 ∨
     c = .forget ∧ m.ctx.joined = true ∧ m'.day = m.day ∧ m'.band = upd m.band GLOBAL 0) := by
  have hcancel : (LDL.cancel m).clock = m.clock ∧ (LDL.cancel m).parked = m.parked ∧ (LDL.cancel m).ctx = m.ctx := by
    rcases cancel_shape m with ⟨_, h⟩ | ⟨_, h⟩ <;> rw [h] <;> exact ⟨rfl, rfl, rfl⟩
  simp only [Mac.clock, Prod.mk.injEq] at hcancel
  obtain ⟨⟨k1, k2, k3, k4⟩, k5, k6⟩ := hcancel
  cases h
  case otaa ho _ m1 hm _ _ _ =>
    obtain ⟨_, _, _, _, h⟩ := nextJoinRequest_shape cfg e
      (Ops.deriveJoinKeys cfg { m with trials := 0, day := 60 * 60 * 24 * timeTPS })
    obtain ⟨k, hk⟩ := deriveJoinKeys_shape cfg { m with trials := 0, day := 60 * 60 * 24 * timeTPS }
    rw [h, hk] at hm
    refine ⟨by rw [hm], by rw [hm], by rw [hm], Or.inr (Or.inl ⟨rfl, ho, rfl, by rw [hm]; rfl, by rw [hm]⟩)⟩
  case data hm =>
    obtain ⟨_, _, _, _, _, h, _⟩ := sendData_shape cfg e _ _ _ _ _ _ _
    rw [h, hm]
    exact ⟨rfl, rfl, rfl, Or.inl ⟨rfl, rfl⟩⟩
  case abp hj ho d => exact ⟨rfl, rfl, rfl, Or.inr (Or.inr (Or.inl ⟨⟨d, rfl, ho⟩, rfl, rfl⟩))⟩
  case forget =>
    unfold LDL.forget
    dsimp only
    by_cases hj : (LDL.cancel m).ctx.joined = true
    · rw [if_pos hj]
      exact ⟨k1, k2, k5, Or.inr (Or.inr (Or.inr ⟨rfl, k6 ▸ hj, k3, (congrArg (upd · GLOBAL 0) k4 :)⟩))⟩
    · rw [if_neg hj]
      exact ⟨k1, k2, k5, Or.inl ⟨k3, k4⟩⟩
  case cancel => exact ⟨k1, k2, k5, Or.inl ⟨k3, k4⟩⟩
  all_goals exact ⟨rfl, rfl, rfl, Or.inl ⟨rfl, rfl⟩⟩

end LDL
