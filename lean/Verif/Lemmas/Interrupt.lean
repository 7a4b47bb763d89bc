import Verif.Lemmas.Live
import Verif.Lemmas.OpState
import Verif.Spec.Interrupt

/-!
# What the handlers of the radio's failure do does not depend on a recorded interrupt
-/

namespace LDL
def recorded (m : Mac) (t : Nat) : Mac := { m with inputTime := t, inputState := true }

theorem timeUntilAvailable_recorded (m : Mac) (t i : Nat) : timeUntilAvailable (recorded m t) i = timeUntilAvailable m i := rfl
theorem isAvailable_recorded (m : Mac) (t i l : Nat) : isAvailable (recorded m t) i l = isAvailable m i l := rfl
theorem timeUntilNext_recorded (m : Mac) (t : Nat) : timeUntilNextChannel (recorded m t) = timeUntilNextChannel m := by
  unfold timeUntilNextChannel
  simp only [timeUntilAvailable_recorded]
  rfl
theorem available_recorded (m : Mac) (t l : Nat) : availableChannels (recorded m t) l = availableChannels m l := by
  unfold availableChannels
  simp only [isAvailable_recorded]
  rfl
theorem selectChannel_recorded (m : Mac) (t a b c : Nat) : selectChannel (recorded m t) a b c = selectChannel m a b c := by
  unfold selectChannel
  rw [available_recorded]
  rfl
theorem selectJoin_recorded (cfg : Cfg) (e : Env) (m : Mac) (t : Nat) :
   selectJoinChannelAndRate cfg e (recorded m t) = selectJoinChannelAndRate cfg e m := by
  unfold selectJoinChannelAndRate
  simp only [selectChannel_recorded, timeUntilNext_recorded]
  rfl
theorem prepareJoin_recorded (cfg : Cfg) (m : Mac) (t : Nat) (f b l) :
   Ops.prepareJoinRequest cfg (recorded m t) f b l = Ops.prepareJoinRequest cfg m f b l := rfl

theorem fillJoin_recorded (cfg : Cfg) (e : Env) (m : Mac) (t n : Nat) :
    fillJoinBuffer cfg e (recorded m t) n = recorded (fillJoinBuffer cfg e m n) t := by
  unfold fillJoinBuffer
  simp only []
  generalize (if cfg.version = .v103 then u16 (e.draw 0) else n) = k
  have h := prepareJoin_recorded cfg { m with ctx := { m.ctx with devNonce := k } } t
    { joinEUI := m.joinEUI, devEUI := m.devEUI, devNonce := k } m.buffer 255
  generalize hr : Ops.prepareJoinRequest cfg { m with ctx := { m.ctx with devNonce := k } } { joinEUI := m.joinEUI, devEUI := m.devEUI, devNonce := k } m.buffer 255 = r at h
  rw [show Ops.prepareJoinRequest cfg { recorded m t with ctx := { (recorded m t).ctx with devNonce := k } } { joinEUI := (recorded m t).joinEUI, devEUI := (recorded m t).devEUI, devNonce := k } (recorded m t).buffer 255 = r from h]
  have h2 := selectJoin_recorded cfg e { m with ctx := { m.ctx with devNonce := k }, bufferLen := r.1, buffer := r.2 } t
  generalize selectJoinChannelAndRate cfg e { m with ctx := { m.ctx with devNonce := k }, bufferLen := r.1, buffer := r.2 } = x at h2
  show ({ recorded m t with ctx := { m.ctx with devNonce := k }, bufferLen := r.1, buffer := r.2, tx := selectJoinChannelAndRate cfg e (recorded { m with ctx := { m.ctx with devNonce := k }, bufferLen := r.1, buffer := r.2 } t) } : Mac) = _
  rw [h2]
  rfl

theorem nextJoin_recorded (cfg : Cfg) (e : Env) (m : Mac) (t : Nat) :
    nextJoinRequest cfg e (recorded m t) = recorded (nextJoinRequest cfg e m) t := by
  unfold nextJoinRequest
  rw [show fillJoinBuffer cfg e (recorded m t) (u16 (recorded m t).devNonce) = _ from fillJoin_recorded cfg e m t (u16 m.devNonce)]
  generalize fillJoinBuffer cfg e m (u16 m.devNonce) = x
  rfl

theorem retryJoin_recorded (cfg : Cfg) (e : Env) (m : Mac) (t : Nat) :
    retryJoin cfg e (recorded m t) = recorded (retryJoin cfg e m) t := by
  unfold retryJoin
  rw [nextJoin_recorded]
  generalize nextJoinRequest cfg e m = x
  show (if m.devNonce ≤ 65535 then _ else _) = _
  split <;> rfl

theorem missing_recorded (cfg : Cfg) (e : Env) (m : Mac) (t : Nat) (h : m.op = .joining) :
    downlinkMissing cfg e (recorded m t) = recorded (downlinkMissing cfg e m) t := by
  have hx : ∀ x : Mac, x.op = .joining → downlinkMissing cfg e x = retryJoin cfg e { x with trials := u32 (x.trials + 1) } := by
    intro x hx
    unfold downlinkMissing
    simp only [hx]
  rw [hx _ h, hx (recorded m t) h]
  exact retryJoin_recorded cfg e { m with trials := u32 (m.trials + 1) } t

theorem error_recorded (cfg : Cfg) (e : Env) (m : Mac) (t : Nat) :
    handleRadioError cfg e (recorded m t) = recorded (handleRadioError cfg e m) t := by
  unfold handleRadioError
  by_cases h : m.op = .joining
  · simp only []
    rw [if_pos (show (inputDisarm (recorded m t)).op = .joining from h), if_pos (show (inputDisarm m).op = .joining from h)]
    have := missing_recorded cfg e { inputDisarm m with timerA := (inputDisarm m).timerA.clear, timerB := (inputDisarm m).timerB.clear } t h
    generalize downlinkMissing cfg e { inputDisarm m with timerA := (inputDisarm m).timerA.clear, timerB := (inputDisarm m).timerB.clear } = x at this
    rw [show downlinkMissing cfg e { inputDisarm (recorded m t) with timerA := (inputDisarm (recorded m t)).timerA.clear, timerB := (inputDisarm (recorded m t)).timerB.clear } = _ from this]
    rfl
  · simp only []
    rw [if_neg (show ¬ (inputDisarm (recorded m t)).op = .joining from h), if_neg (show ¬ (inputDisarm m).op = .joining from h)]
    rfl

theorem band_recorded (cfg : Cfg) (e : Env) (m : Mac) (t : Nat) :
    setNextBandEvent cfg e (recorded m t) = recorded (setNextBandEvent cfg e m) t := by
  unfold setNextBandEvent
  rw [show minBand (recorded m t) = minBand m from rfl]
  generalize minBand m = x
  simp only [show (recorded m t).band = m.band from rfl, show (recorded m t).day = m.day from rfl]
  generalize (if x ≤ m.band GLOBAL then m.band GLOBAL else x) = y
  generalize (if y = UINT32_MAX ∧ m.day > 0 then m.day else y) = z
  split <;> rfl

theorem registerTime_recorded (m : Mac) (t : Nat) : registerTime (recorded m t) = recorded (registerTime m) t := by
  have h : ∀ x : Mac, ∃ b, registerTime x = { x with band := b } ∧ registerTime (recorded x t) = recorded { x with band := b } t := by
    intro x
    unfold registerTime
    simp only [show (recorded x t).ctx = x.ctx from rfl, show (recorded x t).tx = x.tx from rfl,
      show (recorded x t).band = x.band from rfl]
    cases x.ctx.region.getBand x.tx.freq with
    | none =>
      by_cases h : x.op = .joining ∨ x.ctx.maxDutyCycle > 0
      · exact ⟨_, if_pos h, (if_pos (c := (recorded x t).op = .joining ∨ (recorded x t).ctx.maxDutyCycle > 0) h).trans rfl⟩
      · exact ⟨_, if_neg h, (if_neg (c := (recorded x t).op = .joining ∨ (recorded x t).ctx.maxDutyCycle > 0) h).trans rfl⟩
    | some i =>
      simp only []
      by_cases h : x.op = .joining ∨ x.ctx.maxDutyCycle > 0
      · rw [if_pos h, if_pos (show (recorded x t).op = .joining ∨ _ from h)]
        exact ⟨_, rfl, rfl⟩
      · rw [if_neg h, if_neg (show ¬ ((recorded x t).op = .joining ∨ _) from h)]
        exact ⟨_, rfl, rfl⟩
  obtain ⟨b, h1, h2⟩ := h m
  rw [h2, h1]

/-- A radio in use that has not reported anything: the handlers are called because time is up, or do nothing. -/
theorem dispatch_recorded (cfg : Cfg) (e : Env) (ev : Sme) (lag : Nat) (m : Mac) (t : Nat) (hi : ev ≠ .interrupt)
    (hs : m.state = .tx ∨ m.state = .rx1 ∨ m.state = .rx2) :
    dispatch cfg e ev lag (recorded m t) = recorded (dispatch cfg e ev lag m) t ∧
    (dispatch cfg e ev lag m = m ∨ (dispatch cfg e ev lag m).state = .radioReset) := by
  have herr : ∀ x : Mac, (handleRadioError cfg e x).state = .radioReset := fun x => (handleRadioError_cases cfg e x).latch.2.2.1
  have htx : ∀ x : Mac, ev = .timerA → processTX cfg e ev lag x = handleRadioError cfg e (registerTime x) := by
    intro x h; unfold processTX; simp [h]
  have htx' : ∀ x : Mac, ev ≠ .timerA → processTX cfg e ev lag x = x := by
    intro x h; unfold processTX; simp [h, hi]
  have hrx : ∀ x : Mac, ev = .timerA → processRX cfg e ev x = handleRadioError cfg e (x.emit .getStatus) := by
    intro x h; unfold processRX; simp [h]
  have hrx' : ∀ x : Mac, ev ≠ .timerA → processRX cfg e ev x = x := by
    intro x h; unfold processRX; simp [h, hi]
  by_cases ha : ev = .timerA
  · rcases hs with hs | hs | hs
    · have hd : ∀ x : Mac, x.state = .tx → dispatch cfg e ev lag x = processTX cfg e ev lag x := by
        intro x hx; unfold dispatch; simp only [hx]
      rw [hd _ hs, hd (recorded m t) hs, htx _ ha, htx _ ha, registerTime_recorded, error_recorded]
      exact ⟨rfl, Or.inr (herr _)⟩
    all_goals
      have hd : ∀ x : Mac, x.state = m.state → dispatch cfg e ev lag x = processRX cfg e ev x := by
        intro x hx; unfold dispatch; simp only [hx, hs]
      rw [hd _ rfl, hd (recorded m t) rfl, hrx _ ha, hrx _ ha]
      exact ⟨error_recorded cfg e (m.emit .getStatus) t, Or.inr (herr _)⟩
  · rcases hs with hs | hs | hs
    · have hd : ∀ x : Mac, x.state = .tx → dispatch cfg e ev lag x = processTX cfg e ev lag x := by
        intro x hx; unfold dispatch; simp only [hx]
      rw [hd _ hs, hd (recorded m t) hs, htx' _ ha, htx' _ ha]
      exact ⟨rfl, Or.inl rfl⟩
    all_goals
      have hd : ∀ x : Mac, x.state = m.state → dispatch cfg e ev lag x = processRX cfg e ev x := by
        intro x hx; unfold dispatch; simp only [hx, hs]
      rw [hd _ rfl, hd (recorded m t) rfl, hrx' _ ha, hrx' _ ha]
      exact ⟨rfl, Or.inl rfl⟩

theorem inputSignal_unarmed (m : Mac) (t : Nat) (h : m.inputArmed = false) : inputSignal m t = m := by
  unfold inputSignal; simp [h]

theorem inputSignal_pending (m : Mac) (t : Nat) (h : m.inputState = true) : inputSignal m t = m := by
  unfold inputSignal; simp [h]

theorem inputSignal_armed (m : Mac) (t : Nat) (hi : m.inputState = false) (h : m.inputArmed = true) :
    inputSignal m t = recorded m t := by
  unfold inputSignal; simp [h, hi, recorded]

/-- The first interrupt is the one recorded. -/
theorem inputSignals_cons (m : Mac) (t : Nat) (ts : List Nat) : inputSignals m (t :: ts) = inputSignal m t := by
  have hfix : ∀ (ts : List Nat) (x : Mac), x.inputArmed = false ∨ x.inputState = true → inputSignals x ts = x := by
    intro ts
    induction ts with
    | nil => intro x _; rfl
    | cons a l ih =>
      intro x hx
      show inputSignals (inputSignal x a) l = x
      have : inputSignal x a = x := by
        rcases hx with hx | hx
        · exact inputSignal_unarmed x a hx
        · exact inputSignal_pending x a hx
      rw [this]; exact ih x hx
  refine hfix ts (inputSignal m t) ?_
  cases ha : m.inputArmed with
  | false => rw [inputSignal_unarmed m t ha]; exact Or.inl ha
  | true =>
    cases hi : m.inputState with
    | true => rw [inputSignal_pending m t hi]; exact Or.inr hi
    | false => rw [inputSignal_armed m t hi ha]; exact Or.inr rfl

end LDL
