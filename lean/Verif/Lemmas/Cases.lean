import Verif.Lemmas.Emits

/-!
# Case analysis of the state machine

`Disp` lists the outcomes of the state handler, `Missing` those of `downlinkMissing`, so that invariants can be
proved by going through a list.
-/

namespace LDL

/-- The state a booted radio continues in. -/
def bootState : Op → St
  | .entropy => .waitEntropy
  | .joining => .waitOTAA
  | .dataConfirmed => .waitTX
  | .dataUnconfirmed => .waitTX
  | _ => .idle

/-- The states `processWait` leaves, and for which. -/
def waitNext : St → St
  | .waitRX1 => .startRadioForRX1
  | .waitRX2 => .startRadioForRX2
  | .waitEntropy => .startRadioForEntropy
  | _ => .startRadioForTX

/-- The log after the radio status was read, if it was. -/
def statusRead (ev : Sme) (m : Mac) : Mac := if ev = .interrupt then m.emit .getStatus else m

/-- The state in which a received packet is examined. -/
def packetState (e : Env) (m : Mac) : Mac :=
  { m with
    timerA := m.timerA.clear, timerB := m.timerB.clear, rxSnr := e.snr
    out := m.out ++ [.getStatus] ++ [.readBuffer] ++ [.setMode .sleep] }

/-- The state handler does nothing on event `ev`. -/
def Ignores (ev : Sme) (m : Mac) : Prop :=
  match m.state with
  | .idle => True
  | .init => False
  | .waitOTAA => m.band GLOBAL ≠ 0
  | .waitEntropy | .waitTX | .waitRX1 | .waitRX2 => ev ≠ .timerA ∧ ev ≠ .timerB
  | .tx | .rx1 | .rx2 => ev ≠ .timerA ∧ ev ≠ .interrupt
  | .startRadioForRX2 => ev ≠ .timerB
  | .radioReset | .radioBoot | .startRadioForEntropy | .entropy | .startRadioForTX | .startRadioForRX1 | .rx2Lockout =>
    ev ≠ .timerA

/-- The outcomes of the state handler for event `ev`. -/
inductive Disp (cfg : Cfg) (e : Env) (ev : Sme) (lag : Nat) (m : Mac) : Mac → Prop
  | stay (h : Ignores ev m) : Disp cfg e ev lag m m
  | init (hs : m.state = .init) : Disp cfg e ev lag m
      { m with state := .radioReset, timerA := Timer.set e (cfg.tps / 1024), out := m.out ++ [.setMode .reset] }
  | reset (hs : m.state = .radioReset) (he : ev = .timerA) : Disp cfg e ev lag m
      { m with state := .radioBoot, timerA := Timer.set e (cfg.tps / 128), out := m.out ++ [.setMode .boot] }
  | boot (hs : m.state = .radioBoot) (he : ev = .timerA) : Disp cfg e ev lag m
      { m with
        state := bootState m.op, timerA := if bootState m.op = .idle then m.timerA else Timer.set e 0
        out := m.out ++ [.setMode .sleep] }
  | startEntropy (hs : m.state = .startRadioForEntropy) (he : ev = .timerA) : Disp cfg e ev lag m
      { m with state := .entropy, timerA := Timer.set e (cfg.tps / 1024), out := m.out ++ [.receiveEntropy] }
  | entropy (hs : m.state = .entropy) (he : ev = .timerA) : Disp cfg e ev lag m
      { m with
        state := .idle, op := .none
        out := m.out ++ [.readEntropy, .setMode .sleep, .entropy (u32 e.entropy)] }
  | otaa (hs : m.state = .waitOTAA) (hb : m.band GLOBAL = 0) : Disp cfg e ev lag m
      { m with state := .waitTX, timerA := Timer.set e (joinDelay cfg e) }
  | waitA (hs : m.state = .waitRX1 ∨ m.state = .waitEntropy ∨ m.state = .waitTX)
      (he : ev = .timerA ∨ ev = .timerB) (d : Nat) (mode : RadioMode) : Disp cfg e ev lag m
      { m with state := waitNext m.state, timerA := m.timerA.append d, out := m.out ++ [.setMode mode] }
  | waitB (hs : m.state = .waitRX2) (he : ev = .timerA ∨ ev = .timerB) (d : Nat) (mode : RadioMode) :
      Disp cfg e ev lag m
      { m with state := waitNext m.state, timerB := m.timerB.append d, out := m.out ++ [.setMode mode] }
  | startTX (hs : m.state = .startRadioForTX) (he : ev = .timerA) : Disp cfg e ev lag m
      { m with
        tx := { m.tx with airTime := msToTime (txAirTime m) }
        inputState := false, inputArmed := true, out := m.out ++ [transmitEvent e m], state := .tx
        timerA := Timer.set e (u32 (msToTicks cfg (txAirTime m) <<< 1)) }
  | txError (hs : m.state = .tx) (he : ev = .timerA ∨ ev = .interrupt ∧ e.statusTx = false) :
      Disp cfg e ev lag m (handleRadioError cfg e (registerTime (statusRead ev m)))
  | txDone (hs : m.state = .tx) (he : ev = .interrupt) (ht : e.statusTx = true) :
      Disp cfg e ev lag m (txComplete cfg e lag (registerTime (m.emit .getStatus)))
  | startRX1 (hs : m.state = .startRadioForRX1) (he : ev = .timerA) : Disp cfg e ev lag m
      { m with
        inputState := false, inputArmed := true, out := m.out ++ [receive1Event e m], state := .rx1
        timerA := Timer.set e (u32 ((cfg.tps + cfg.a) <<< 2)) }
  | startRX2 (hs : m.state = .startRadioForRX2) (he : ev = .timerB) : Disp cfg e ev lag m
      { m with
        inputState := false, inputArmed := true, out := m.out ++ [receive2Event e m], state := .rx2
        timerA := Timer.set e (u32 ((cfg.tps + cfg.a) * 4)) }
  | rxError (hs : m.state = .rx1 ∨ m.state = .rx2)
      (he : ev = .timerA ∨ ev = .interrupt ∧ e.statusRx = false ∧ e.statusTimeout = false) :
      Disp cfg e ev lag m (handleRadioError cfg e (m.emit .getStatus))
  | rxRejected (hs : m.state = .rx1 ∨ m.state = .rx2) (he : ev = .interrupt) (hr : e.statusRx = true)
      (buf : Bytes) (hf : Ops.receiveFrame cfg m e.rxBuffer e.received.length = (none, buf)) :
      Disp cfg e ev lag m (downlinkMissing cfg e (packetState e m))
  | rxJoin (hs : m.state = .rx1 ∨ m.state = .rx2) (he : ev = .interrupt) (hr : e.statusRx = true)
      (f : Frame.Down) (buf : Bytes) (hf : Ops.receiveFrame cfg m e.rxBuffer e.received.length = (some f, buf))
      (ht : f.type = Frame.JOIN_ACCEPT) (ho : m.op = .joining ∨ m.op = .rejoining) :
      Disp cfg e ev lag m (pushSessionUpdate (joinAccepted cfg (packetState e m) f buf))
  | rxData (hs : m.state = .rx1 ∨ m.state = .rx2) (he : ev = .interrupt) (hr : e.statusRx = true)
      (f : Frame.Down) (buf : Bytes) (hf : Ops.receiveFrame cfg m e.rxBuffer e.received.length = (some f, buf))
      (ht : f.type = Frame.DATA_CONFIRMED_DOWN ∨ f.type = Frame.DATA_UNCONFIRMED_DOWN)
      (ho : m.op = .rejoining ∨ m.op = .dataUnconfirmed ∨ m.op = .dataConfirmed) :
      Disp cfg e ev lag m (pushSessionUpdate (dataReceived cfg e (packetState e m) f buf))
  | rxTimeout1 (hs : m.state = .rx1) (he : ev = .interrupt) (hr : e.statusRx = false) (ht : e.statusTimeout = true) :
      Disp cfg e ev lag m
      { m with
        timerA := m.timerA.clear, state := .waitRX2, out := m.out ++ [.getStatus] ++ [.setMode .hold] }
  | rxTimeout2 (hs : m.state = .rx2) (he : ev = .interrupt) (hr : e.statusRx = false) (ht : e.statusTimeout = true)
      (d : Nat) : Disp cfg e ev lag m
      { m with
        timerA := Timer.set e d, timerB := m.timerB.clear, state := .rx2Lockout
        out := m.out ++ [.getStatus] ++ [.setMode .sleep] }
  | lockout (hs : m.state = .rx2Lockout) (he : ev = .timerA) : Disp cfg e ev lag m (downlinkMissing cfg e m)

theorem processRX_disp (cfg : Cfg) (e : Env) (ev : Sme) (lag : Nat) (m : Mac) (hs : m.state = .rx1 ∨ m.state = .rx2) :
    Disp cfg e ev lag m (processRX cfg e ev m) := by
  unfold processRX
  by_cases ha : ev = .timerA
  · rw [if_pos ha]; exact .rxError hs (Or.inl ha)
  · rw [if_neg ha]
    by_cases hi : ev = .interrupt
    · rw [if_pos hi]
      simp only []
      by_cases hn : e.statusRx = false ∧ e.statusTimeout = false
      · rw [if_pos hn]; exact .rxError hs (Or.inr ⟨hi, hn⟩)
      · rw [if_neg hn]
        by_cases hr : e.statusRx = true
        · rw [if_pos hr]
          have hp : packetReceived cfg e (m.emit .getStatus) =
              match Ops.receiveFrame cfg (packetState e m) e.rxBuffer e.received.length with
              | (some f, buf) => pushSessionUpdate (
                  if f.type = Frame.DATA_CONFIRMED_DOWN ∨ f.type = Frame.DATA_UNCONFIRMED_DOWN
                  then dataReceived cfg e (packetState e m) f buf else joinAccepted cfg (packetState e m) f buf)
              | (none, _) => downlinkMissing cfg e (packetState e m) := rfl
          rw [hp]
          have hc : Ops.receiveFrame cfg (packetState e m) e.rxBuffer e.received.length =
              Ops.receiveFrame cfg m e.rxBuffer e.received.length :=
            receiveFrame_congr _ _ _ _ _ rfl rfl rfl rfl rfl
          rw [hc]
          rcases hrf : Ops.receiveFrame cfg m e.rxBuffer e.received.length with ⟨_ | f, buf⟩
          · exact .rxRejected hs hi hr buf hrf
          · simp only []
            have hcase := receiveFrame_cases (received_length e)
              (by rw [rxBuffer_length]; exact received_length e) hrf
            by_cases ht : f.type = Frame.DATA_CONFIRMED_DOWN ∨ f.type = Frame.DATA_UNCONFIRMED_DOWN
            · rw [if_pos ht]
              rcases hcase with ⟨h, _⟩ | ⟨_, h, _⟩
              · rw [h] at ht; exact absurd ht (by decide)
              · exact .rxData hs hi hr f buf hrf ht h
            · rw [if_neg ht]
              rcases hcase with ⟨h, h', _⟩ | ⟨h, _⟩
              · exact .rxJoin hs hi hr f buf hrf h h'
              · exact absurd h.symm ht
        · have hr' : e.statusRx = false := by simpa using hr
          have ht : e.statusTimeout = true := by
            cases h : e.statusTimeout
            · exact absurd ⟨hr', h⟩ hn
            · rfl
          rw [if_neg hr]
          unfold rxTimeout
          rcases hs with hs | hs
          · have : (m.emit .getStatus).state ≠ .rx2 := by
              show m.state ≠ _
              rw [hs]; decide
            rw [if_neg this]
            exact .rxTimeout1 hs hi hr' ht
          · have : (m.emit .getStatus).state = .rx2 := hs
            rw [if_pos this]
            exact .rxTimeout2 hs hi hr' ht _
    · rw [if_neg hi]
      refine .stay ?_
      unfold Ignores
      rcases hs with h | h <;> rw [h] <;> exact ⟨ha, hi⟩

theorem processTX_disp (cfg : Cfg) (e : Env) (ev : Sme) (lag : Nat) (m : Mac) (hs : m.state = .tx) :
    Disp cfg e ev lag m (processTX cfg e ev lag m) := by
  unfold processTX
  simp only []
  by_cases ha : ev = .timerA
  · rw [if_pos ha, if_pos (Or.inr ha)]
    exact .txError hs (Or.inl ha)
  · rw [if_neg ha]
    by_cases hi : ev = .interrupt
    · rw [if_pos hi, if_pos (Or.inl hi), if_pos hi]
      by_cases ht : e.statusTx = true
      · have : ¬ (ev = .interrupt ∧ e.statusTx = false) := by simp [ht]
        rw [if_neg this]
        exact .txDone hs hi ht
      · have hf : e.statusTx = false := by simpa using ht
        rw [if_pos ⟨hi, hf⟩]
        have := Disp.txError (cfg := cfg) (lag := lag) hs (Or.inr ⟨hi, hf⟩)
        unfold statusRead at this
        rw [if_pos hi] at this
        exact this
    · have h1 : ¬ (ev = .interrupt ∨ ev = .timerA) := by simp [ha, hi]
      rw [if_neg hi, if_neg h1, if_neg (by simp [hi]), if_neg hi]
      exact .stay (by unfold Ignores; rw [hs]; exact ⟨ha, hi⟩)

theorem processWait_disp (cfg : Cfg) (e : Env) (ev : Sme) (lag : Nat) (m : Mac)
    (hs : m.state = .waitRX1 ∨ m.state = .waitEntropy ∨ m.state = .waitTX ∨ m.state = .waitRX2) :
    Disp cfg e ev lag m (processWait cfg ev lag m) := by
  unfold processWait
  by_cases he : ev = .timerA ∨ ev = .timerB
  · rw [if_pos he]
    simp only []
    generalize (if lag > msToTicks cfg XTAL_DELAY then 0 else msToTicks cfg XTAL_DELAY - lag) = d
    rcases hs with h | h | h | h
    · have := Disp.waitA (cfg := cfg) (e := e) (lag := lag) (Or.inl h) he d .rx
      rw [h] at this ⊢
      exact this
    · have := Disp.waitA (cfg := cfg) (e := e) (lag := lag) (Or.inr (Or.inl h)) he d .rx
      rw [h] at this ⊢
      exact this
    · have := Disp.waitA (cfg := cfg) (e := e) (lag := lag) (Or.inr (Or.inr h)) he d .tx
      rw [h] at this ⊢
      exact this
    · have := Disp.waitB (cfg := cfg) (e := e) (lag := lag) h he d .rx
      rw [h] at this ⊢
      exact this
  · rw [if_neg he]
    refine .stay ?_
    unfold Ignores
    rcases hs with h | h | h | h <;> rw [h] <;> exact ⟨fun h => he (Or.inl h), fun h => he (Or.inr h)⟩

theorem processRadioBoot_disp (cfg : Cfg) (e : Env) (ev : Sme) (lag : Nat) (m : Mac) (hs : m.state = .radioBoot) :
    Disp cfg e ev lag m (processRadioBoot e ev m) := by
  unfold processRadioBoot
  by_cases he : ev = .timerA
  · rw [if_pos he]
    have := Disp.boot (cfg := cfg) (e := e) (lag := lag) hs he
    simp only [Mac.emit]
    cases ho : m.op <;> rw [ho] at this <;> exact this
  · rw [if_neg he]; exact .stay (by unfold Ignores; rw [hs]; exact he)

theorem dispatch_disp (cfg : Cfg) (e : Env) (ev : Sme) (lag : Nat) (m : Mac) :
    Disp cfg e ev lag m (dispatch cfg e ev lag m) := by
  unfold dispatch
  cases hs : m.state <;> simp only []
  case idle => exact .stay (by unfold Ignores; rw [hs]; trivial)
  case init => exact .init hs
  case radioReset =>
    unfold processRadioReset
    split
    · next h => exact .reset hs h
    · next h => exact .stay (by unfold Ignores; rw [hs]; exact h)
  case radioBoot => exact processRadioBoot_disp cfg e ev lag m hs
  case waitEntropy => exact processWait_disp cfg e ev lag m (by simp [hs])
  case waitTX => exact processWait_disp cfg e ev lag m (by simp [hs])
  case waitRX1 => exact processWait_disp cfg e ev lag m (by simp [hs])
  case waitRX2 => exact processWait_disp cfg e ev lag m (by simp [hs])
  case startRadioForEntropy =>
    unfold processStartRadioForEntropy
    split
    · next h => exact .startEntropy hs h
    · next h => exact .stay (by unfold Ignores; rw [hs]; exact h)
  case entropy =>
    by_cases h : ev = .timerA
    · have h1 := processEntropy_out e m
      have := Disp.entropy (cfg := cfg) (e := e) (lag := lag) hs h
      rw [h] at this ⊢
      have h2 : processEntropy e .timerA m =
          { m with state := .idle, op := .none, out := (processEntropy e .timerA m).out } := rfl
      rw [h2, h1]
      exact this
    · unfold processEntropy
      rw [if_neg h]; exact .stay (by unfold Ignores; rw [hs]; exact h)
  case waitOTAA =>
    unfold processWaitOTAA
    split
    · next h => exact .otaa hs h
    · next h => exact .stay (by unfold Ignores; rw [hs]; exact h)
  case startRadioForTX =>
    unfold processStartRadioForTX
    split
    · next h => exact .startTX hs h
    · next h => exact .stay (by unfold Ignores; rw [hs]; exact h)
  case tx => exact processTX_disp cfg e ev lag m hs
  case startRadioForRX1 =>
    by_cases h : ev = .timerA
    · have := Disp.startRX1 (cfg := cfg) (e := e) (lag := lag) hs h
      unfold processStartRadioForRX1
      rw [if_pos h]
      exact this
    · unfold processStartRadioForRX1
      rw [if_neg h]; exact .stay (by unfold Ignores; rw [hs]; exact h)
  case startRadioForRX2 =>
    by_cases h : ev = .timerB
    · have := Disp.startRX2 (cfg := cfg) (e := e) (lag := lag) hs h
      unfold processStartRadioForRX2
      rw [if_pos h]
      exact this
    · unfold processStartRadioForRX2
      rw [if_neg h]; exact .stay (by unfold Ignores; rw [hs]; exact h)
  case rx1 => exact processRX_disp cfg e ev lag m (Or.inl hs)
  case rx2 => exact processRX_disp cfg e ev lag m (Or.inr hs)
  case rx2Lockout =>
    unfold processRX2Lockout
    split
    · next h => exact .lockout hs h
    · next h => exact .stay (by unfold Ignores; rw [hs]; exact h)

/-- The outcomes of `downlinkMissing`. -/
inductive Missing (cfg : Cfg) (e : Env) (m : Mac) : Mac → Prop
  | retry (ho : m.op = .dataUnconfirmed ∨ m.op = .dataConfirmed)
      (hr : shouldRetry e { m with trials := u32 (m.trials + 1) } = true) (t : Nat) (b : Bytes)
      (hb : b = Ops.micDataFrame cfg { m with trials := u32 (m.trials + 1) } m.buffer m.bufferLen)
      (ht : t = if m.op = .dataConfirmed then u32 (cfg.tps <<< u32 (m.trials + 1)) else 0) :
      Missing cfg e m
        { m with trials := u32 (m.trials + 1), buffer := b, timerA := Timer.set e t, state := .waitTX }
  | giveUp (ho : m.op = .dataUnconfirmed ∨ m.op = .dataConfirmed)
      (hr : shouldRetry e { m with trials := u32 (m.trials + 1) } = false)
      (ch : Nat → Nat) (r p c : Nat) (q : Bool) (o : List Event) (ho' : o = [] ∨ ∃ s, o = [.sessionUpdated s] ∧ s = { m.ctx with chMask := ch, rate := r, power := p }) :
      Missing cfg e m
        { m with
          trials := u32 (m.trials + 1)
          ctx := { m.ctx with chMask := ch, rate := r, power := p }, adrAckCounter := c, adrAckReq := q
          state := .idle, op := .none
          out := m.out ++ o ++ [if m.op = .dataConfirmed then .dataTimeout else .dataComplete] }
  | nextJoin (ho : m.op = .joining) (hn : m.devNonce ≤ 65535) :
      Missing cfg e m
        { nextJoinRequest cfg e { m with trials := u32 (m.trials + 1) } with
          state := .waitOTAA, timerA := Timer.set e 0 }
  | exhausted (ho : m.op = .joining) (hn : 65535 < m.devNonce) :
      Missing cfg e m
        { m with trials := u32 (m.trials + 1), state := .idle, op := .none, out := m.out ++ [.joinExhausted] }
  | other (ho : m.op = .none ∨ m.op = .entropy ∨ m.op = .rejoining) :
      Missing cfg e m { m with trials := u32 (m.trials + 1) }

theorem downlinkMissing_missing (cfg : Cfg) (e : Env) (m : Mac) : Missing cfg e m (downlinkMissing cfg e m) := by
  have hdata : (m.op = .dataUnconfirmed ∨ m.op = .dataConfirmed) → Missing cfg e m
      (if shouldRetry e { m with trials := u32 (m.trials + 1) } then
        retryData cfg e { m with trials := u32 (m.trials + 1) } else giveUpData cfg { m with trials := u32 (m.trials + 1) }) := by
    intro ho
    by_cases hr : shouldRetry e { m with trials := u32 (m.trials + 1) } = true
    · rw [if_pos hr]; exact .retry ho hr _ _ rfl rfl
    · rw [if_neg hr]
      obtain ⟨ch, r, p, c, q, o, h, ho'⟩ := giveUpData_shape cfg { m with trials := u32 (m.trials + 1) }
      rw [h]
      exact .giveUp ho (by simpa using hr) ch r p c q o ho'
  unfold downlinkMissing
  simp only []
  cases hop : m.op with
  | none => have := Missing.other (cfg := cfg) (e := e) (m := m) (by simp [hop]); rwa [hop] at this
  | entropy => have := Missing.other (cfg := cfg) (e := e) (m := m) (by simp [hop]); rwa [hop] at this
  | rejoining => have := Missing.other (cfg := cfg) (e := e) (m := m) (by simp [hop]); rwa [hop] at this
  | joining =>
    simp only []
    unfold retryJoin
    by_cases hn : m.devNonce ≤ 65535
    · rw [if_pos hn]
      have := Missing.nextJoin (cfg := cfg) (e := e) hop hn
      rwa [hop] at this
    · rw [if_neg hn]
      exact .exhausted hop (by omega)
  | dataUnconfirmed => have := hdata (by simp [hop]); rwa [hop] at this
  | dataConfirmed => have := hdata (by simp [hop]); rwa [hop] at this


/-- The outcomes of `handleRadioError`. -/
inductive RadioErr (cfg : Cfg) (e : Env) (m : Mac) : Mac → Prop
  | op (ho : m.op ≠ .joining) : RadioErr cfg e m
      { m with
        inputArmed := false, timerA := Timer.set e (cfg.tps / 1024), timerB := m.timerB.clear
        op := .none, state := .radioReset, out := m.out ++ [.opError] ++ [.setMode .reset] }
  | nextJoin (ho : m.op = .joining) (hn : m.devNonce ≤ 65535) (m' : Mac)
      (hm : m' = nextJoinRequest cfg e { m with
        inputArmed := false, timerA := m.timerA.clear, timerB := m.timerB.clear, trials := u32 (m.trials + 1) }) :
      RadioErr cfg e m
      { m' with
        state := .radioReset, timerA := Timer.set e (cfg.tps / 1024), out := m'.out ++ [.setMode .reset] }
  | exhausted (ho : m.op = .joining) (hn : 65535 < m.devNonce) : RadioErr cfg e m
      { m with
        inputArmed := false, timerA := Timer.set e (cfg.tps / 1024), timerB := m.timerB.clear
        trials := u32 (m.trials + 1)
        op := .none, state := .radioReset, out := m.out ++ [.joinExhausted] ++ [.setMode .reset] }

theorem handleRadioError_cases (cfg : Cfg) (e : Env) (m : Mac) : RadioErr cfg e m (handleRadioError cfg e m) := by
  unfold handleRadioError
  simp only []
  by_cases ho : m.op = .joining
  · have ho' : (inputDisarm m).op = .joining := ho
    rw [if_pos ho']
    have key : ∀ x, Missing cfg e { inputDisarm m with
        timerA := (inputDisarm m).timerA.clear, timerB := (inputDisarm m).timerB.clear } x →
        RadioErr cfg e m { ({ x with state := .radioReset } : Mac).emit (.setMode .reset) with
          timerA := Timer.set e (cfg.tps / 1024) } := by
      intro x hx
      cases hx with
      | retry h =>
        have h : m.op = .dataUnconfirmed ∨ m.op = .dataConfirmed := h
        simp [ho] at h
      | giveUp h =>
        have h : m.op = .dataUnconfirmed ∨ m.op = .dataConfirmed := h
        simp [ho] at h
      | other h =>
        have h : m.op = .none ∨ m.op = .entropy ∨ m.op = .rejoining := h
        simp [ho] at h
      | nextJoin h hn =>
        generalize hm : nextJoinRequest cfg e _ = m'
        exact .nextJoin ho hn m' hm.symm
      | exhausted h hn => exact .exhausted ho hn
    exact key _ (downlinkMissing_missing cfg e _)
  · have ho' : (inputDisarm m).op ≠ .joining := ho
    rw [if_neg ho']
    exact .op ho

/-- The outcomes of `process`: `m1` is the state given to the handler, `m2` the one it returns. -/
theorem process_disp (cfg : Cfg) (e : Env) (m : Mac) : ∃ ev lag m1 m2 p t, Prep e m m1 ev lag ∧
    (ev = .none ∧ m2 = m1 ∨ ev ≠ .none ∧ Disp cfg e ev lag m1 m2) ∧
    process cfg e m = { m2 with parked := p, timerBand := t } := by
  obtain ⟨ev, lag, m1, hp, h⟩ := process_cases cfg e m
  by_cases he : ev = .none
  · rw [if_pos he] at h
    obtain ⟨p, t, hs⟩ := setNextBandEvent_shape cfg e m1
    exact ⟨ev, lag, m1, m1, p, t, hp, Or.inl ⟨he, rfl⟩, h.trans hs⟩
  · rw [if_neg he] at h
    obtain ⟨p, t, hs⟩ := setNextBandEvent_shape cfg e (dispatch cfg e ev lag m1)
    exact ⟨ev, lag, m1, _, p, t, hp, Or.inr ⟨he, dispatch_disp cfg e ev lag m1⟩, h.trans hs⟩

/-- The outcomes of an API call other than `process`: new state and status. -/
inductive Api (cfg : Cfg) (e : Env) (m : Mac) : Call → Mac → Status → Prop
  | refused (c : Call) (st : Status) (h : st ≠ .ok ∧ st ≠ .macPriority) : Api cfg e m c m st
  | entropyIdle (ho : m.op = .none) (hs : m.state = .idle) :
      Api cfg e m .entropy { m with op := .entropy, state := .radioBoot, timerA := Timer.set e 0 } .ok
  | entropyLater (ho : m.op = .none) (hs : m.state ≠ .idle) :
      Api cfg e m .entropy { m with op := .entropy } .ok
  | otaa (hj : m.ctx.joined = false) (ho : m.op = .none) (hn : m.devNonce ≤ 65535) (m' : Mac)
      (hm : m' = nextJoinRequest cfg e
        (Ops.deriveJoinKeys cfg { m with trials := 0, day := 60 * 60 * 24 * timeTPS })) (s : St) (t : Timer)
      (hst : (m.state = .idle ∧ s = .waitOTAA ∧ t = Timer.set e 0) ∨ (m.state ≠ .idle ∧ s = m.state ∧ t = m.timerA)) :
      Api cfg e m .otaa { m' with tx := { m'.tx with power := 0 }, op := .joining, state := s, timerA := t } .ok
  | abp (hj : m.ctx.joined = false) (ho : m.op = .none) (d : Nat) : Api cfg e m (.abp d)
      { m with ctx := { m.ctx with joined := true, devAddr := d }, band := upd m.band GLOBAL 0, day := 0 } .ok
  | dataRefused (c : Bool) (p : Nat) (d : Option Bytes) (l : Nat) (o : Option DataOpts) (ho : m.op = .none) (tx : Tx)
      (st : Status) (hst : st = .size ∨ st = .noChannel) : Api cfg e m (.data c p d l o) { m with tx := tx } st
  | data (c : Bool) (p : Nat) (d : Option Bytes) (l : Nat) (o : Option DataOpts) (hj : m.ctx.joined = true)
      (ho : m.op = .none) (hp : 0 < p ∧ p ≤ 223) (hb : m.band GLOBAL = 0) (freq ch rate : Nat)
      (hc : selectChannel { m with tx := { m.tx with
          power := m.ctx.power
          rate := m.ctx.region.applyUplinkDwell (uplinkDwell m.ctx.txParamSetup) m.ctx.rate } }
        (e.draw 1) m.ctx.rate 0 = some (freq, ch, rate))
      (hl : l + Frame.dataOverhead ≤ (m.ctx.region.convertRate m.ctx.rate).mtu) (m' : Mac)
      (hm : m' = { m with
        tx := { m.tx with freq := freq, chIndex := ch, rate := rate, power := m.ctx.power } }) :
      Api cfg e m (.data c p d l o)
        (sendData cfg e m' c p d l o (m.ctx.region.convertRate m.ctx.rate).mtu).1
        (sendData cfg e m' c p d l o (m.ctx.region.convertRate m.ctx.rate).mtu).2
  | forget : Api cfg e m .forget (forget m) .ok
  | cancel : Api cfg e m .cancel (cancel m) .ok
  | setRate (r : Nat) (hr : rateSettingIsValid m.ctx.region r = true) : Api cfg e m (.setRate r)
      (pushSessionUpdate { m with ctx := { m.ctx with rate := r } }) .ok
  | setPower (p : Nat) (hr : m.ctx.region.validateTXPower p = true) : Api cfg e m (.setPower p)
      (pushSessionUpdate { m with ctx := { m.ctx with power := p } }) .ok
  | setADR (v : Bool) : Api cfg e m (.setADR v) (pushSessionUpdate { m with ctx := { m.ctx with adr := v } }) .ok
  | setMaxDCycle (v : Nat) : Api cfg e m (.setMaxDCycle v) (pushSessionUpdate
      { m with maxDutyCycle := v &&& 0xf, ctx := { m.ctx with maxDutyCycle := v &&& 0xf } }) .ok
  | addChannel (ch f a b : Nat) (st : Status) :
      Api cfg e m (.addChannel ch f a b) { m with ctx := (setChannel m.ctx ch f a b).2 } st
  | maskChannel (ch : Nat) (st : Status) : Api cfg e m (.maskChannel ch)
      { m with ctx := { m.ctx with chMask := maskChannel m.ctx.chMask m.ctx.region ch } } st
  | unmaskChannel (ch : Nat) (st : Status) : Api cfg e m (.unmaskChannel ch)
      { m with ctx := { m.ctx with chMask := unmaskChannel m.ctx.chMask m.ctx.region ch } } st
  | latched (t : Nat) (hi : m.inputState = false) (ha : m.inputArmed = true) : Api cfg e m (.radioEvent t)
      { m with inputTime := t, inputState := true } .ok
  | ignored (t : Nat) (h : m.inputState = true ∨ m.inputArmed = false) : Api cfg e m (.radioEvent t) m .ok
  | late (t : Nat) (hi : m.inputState = false) (hs : m.state = .radioReset) : Api cfg e m (.lateEvent t)
      { m with inputTime := t, inputState := true } .ok
  | notLate (t : Nat) : Api cfg e m (.lateEvent t) m .ok

theorem step_api (cfg : Cfg) (e : Env) (m : Mac) (c : Call) (hc : c ≠ .process) :
    Api cfg e m c (step cfg m e c).1 (step cfg m e c).2 := by
  cases c <;> simp only [step]
  case process => exact absurd rfl hc
  case entropy =>
    unfold entropy
    by_cases ho : m.op = .none
    · rw [if_pos ho]
      simp only []
      by_cases hs : m.state = .idle
      · rw [if_pos hs]; exact .entropyIdle ho hs
      · rw [if_neg hs]; exact .entropyLater ho hs
    · rw [if_neg ho]; exact .refused _ _ (by simp)
  case otaa =>
    unfold otaa
    by_cases hj : m.ctx.joined = true
    · rw [if_pos hj]; exact .refused _ _ (by simp)
    · rw [if_neg hj]
      have hj' : m.ctx.joined = false := by simpa using hj
      by_cases ho : m.op = .none
      · rw [if_pos ho]
        by_cases hn : m.devNonce ≤ 65535
        · rw [if_pos hn]
          simp only []
          obtain ⟨k, hk⟩ := deriveJoinKeys_shape cfg { m with trials := 0, day := 60 * 60 * 24 * timeTPS }
          obtain ⟨dn, b, bl, t, h⟩ := nextJoinRequest_shape cfg e
            (Ops.deriveJoinKeys cfg { m with trials := 0, day := 60 * 60 * 24 * timeTPS })
          rw [hk] at h
          generalize hm : nextJoinRequest cfg e
            (Ops.deriveJoinKeys cfg { m with trials := 0, day := 60 * 60 * 24 * timeTPS }) = m'
          have hst : m'.state = m.state := by rw [← hm, hk, h]
          have hta : m'.timerA = m.timerA := by rw [← hm, hk, h]
          by_cases hs : m.state = .idle
          · rw [if_pos (hst.trans hs)]
            exact .otaa hj' ho hn m' hm.symm _ _ (Or.inl ⟨hs, rfl, rfl⟩)
          · rw [if_neg (by rw [hst]; exact hs)]
            have := Api.otaa (e := e) hj' ho hn m' hm.symm m.state m.timerA (Or.inr ⟨hs, rfl, rfl⟩)
            rw [← hst, ← hta] at this
            exact this
        · rw [if_neg hn]; exact .refused _ _ (by simp)
      · rw [if_neg ho]; exact .refused _ _ (by simp)
  case abp d =>
    unfold abp
    by_cases hj : m.ctx.joined = true
    · rw [if_pos hj]; exact .refused _ _ (by simp)
    · rw [if_neg hj]
      by_cases ho : m.op = .none
      · rw [if_pos ho]; exact .abp (by simpa using hj) ho d
      · rw [if_neg ho]; exact .refused _ _ (by simp)
  case data c p d l o =>
    unfold dataCommand
    by_cases hj : m.ctx.joined = true
    · rw [if_pos hj]
      by_cases ho : m.op = .none
      · rw [if_pos ho]
        by_cases hp : p > 0 ∧ p ≤ 223
        · rw [if_pos hp]
          by_cases hb : m.band GLOBAL = 0
          · rw [if_pos hb]
            simp only []
            split
            · next freq ch rate hsel =>
              by_cases hl : l + Frame.dataOverhead ≤ (m.ctx.region.convertRate m.ctx.rate).mtu
              · rw [if_pos hl]
                exact .data c p d l o hj ho hp hb freq ch rate hsel hl _ rfl
              · rw [if_neg hl]
                exact .dataRefused c p d l o ho _ _ (Or.inl rfl)
            · exact .dataRefused c p d l o ho _ _ (Or.inr rfl)
          · rw [if_neg hb]; exact .refused _ _ (by simp)
        · rw [if_neg hp]; exact .refused _ _ (by simp)
      · rw [if_neg ho]; exact .refused _ _ (by simp)
    · rw [if_neg hj]; exact .refused _ _ (by simp)
  case forget => exact .forget
  case cancel => exact .cancel
  case setRate r =>
    unfold setRate
    split
    · next h => exact .setRate r h
    · exact .refused _ _ (by simp)
  case setPower p =>
    unfold setPower
    split
    · next h => exact .setPower p h
    · exact .refused _ _ (by simp)
  case setADR v => exact .setADR v
  case setMaxDCycle v => exact .setMaxDCycle v
  case addChannel => exact .addChannel _ _ _ _ _
  case maskChannel => exact .maskChannel _ _
  case unmaskChannel => exact .unmaskChannel _ _
  case radioEvent t =>
    unfold inputSignal
    by_cases h : (!m.inputState && m.inputArmed) = true
    · rw [if_pos h]
      simp only [Bool.and_eq_true, Bool.not_eq_true'] at h
      exact .latched t h.1 h.2
    · rw [if_neg h]
      refine .ignored t ?_
      cases h1 : m.inputState <;> cases h2 : m.inputArmed <;> simp_all
  case lateEvent t =>
    unfold Mac.late
    split
    · next h => exact .late t h.2 h.1
    · exact .notLate t

theorem armWindows_cases (cfg : Cfg) (e : Env) (w a b : Nat) (ta : Timer) :
    (∃ x y, armWindows cfg e w a b ta = (Timer.set e x, Timer.set e y, .waitRX1)) ∨
    (∃ y, armWindows cfg e w a b ta = (ta.clear, Timer.set e y, .waitRX2)) := by
  unfold armWindows
  split
  · split
    · exact Or.inl ⟨_, _, rfl⟩
    · exact Or.inr ⟨_, rfl⟩
  · exact Or.inr ⟨_, rfl⟩

/-- What the end of a transmission changes. -/
theorem txComplete_shape (cfg : Cfg) (e : Env) (lag : Nat) (m : Mac) : ∃ r1 r2 ta tb s,
    txComplete cfg e lag m =
      { m with
        pendingACK := false, ticksAtTx := sub32 e.later lag, rx1Symbols := r1, rx2Symbols := r2
        timerA := ta, timerB := tb, state := s, out := m.out ++ [.setMode .hold] } ∧
    ((s = .waitRX1 ∧ ∃ x y, ta = Timer.set e x ∧ tb = Timer.set e y) ∨
      (s = .waitRX2 ∧ ta = m.timerA.clear ∧ ∃ y, tb = Timer.set e y)) := by
  unfold txComplete
  simp only []
  rcases armWindows_cases cfg e (u32 (waitSeconds m * cfg.tps)) (windowRX1 cfg lag m).2 (windowRX2 cfg lag m).2 m.timerA
    with ⟨x, y, h⟩ | ⟨y, h⟩
  · rw [h]; exact ⟨_, _, _, _, _, rfl, Or.inl ⟨rfl, x, y, rfl, rfl⟩⟩
  · rw [h]; exact ⟨_, _, _, _, _, rfl, Or.inr ⟨rfl, rfl, y, rfl⟩⟩

end LDL
