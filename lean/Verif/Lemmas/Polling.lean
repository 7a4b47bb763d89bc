import Verif.Lemmas.Reentry

/-!
# Processing does not look at the timer of the off-time
-/

namespace LDL

/-- Another value for the timer of the off-time. -/
def Mac.tb (m : Mac) (b : Timer) : Mac := { m with timerBand := b }

theorem tb_behind (m : Mac) (b : Timer) : m.tb b = m.behind m.parked b m.out := rfl

theorem emit_tb (m : Mac) (b : Timer) (ev : Event) : (m.tb b).emit ev = (m.emit ev).tb b := rfl

theorem nextJoinRequest_tb (cfg : Cfg) (e : Env) (m : Mac) (b : Timer) :
    nextJoinRequest cfg e (m.tb b) = (nextJoinRequest cfg e m).tb b := by
  have h := nextJoinRequest_behind cfg e m m.parked b m.out
  rw [← tb_behind] at h
  rw [h]
  obtain ⟨dn, bu, bl, tx, hsh⟩ := nextJoinRequest_shape cfg e m
  rw [hsh]
  rfl

/-- `adaptRate` in steps: the question is taken back. -/
def adaptSeen (m : Mac) : Mac := { m with adrAckReq := false }
/-- `adaptRate` in steps: the question and the back-off. -/
def adaptAsk (cfg : Cfg) (m : Mac) : Bool × Mac :=
        if m.adrAckCounter ≥ m.ctx.adrAckLimit then
          let m := { m with adrAckReq := true }
          if m.adrAckCounter ≥ m.ctx.adrAckLimit + m.ctx.adrAckDelay ∧
              (m.adrAckCounter - (m.ctx.adrAckLimit + m.ctx.adrAckDelay)) % m.ctx.adrAckDelay = 0 then
            if m.ctx.power = 0 then
              if m.ctx.rate > cfg.minRate then
                (true, { m with ctx := { m.ctx with rate := m.ctx.rate - 1 } })
              else
                (true, { m with ctx := { m.ctx with chMask := unmaskAll }, adrAckCounter := 255 })
            else (true, { m with ctx := { m.ctx with power := 0 } })
          else (false, m)
        else (false, m)

theorem adaptRate_eq (cfg : Cfg) (m : Mac) : adaptRate cfg m = (if (adaptSeen m).ctx.adr then
    if (adaptSeen m).adrAckCounter < 255 then
      ((adaptAsk cfg (adaptSeen m)).1, { (adaptAsk cfg (adaptSeen m)).2 with adrAckCounter := u8 ((adaptAsk cfg (adaptSeen m)).2.adrAckCounter + 1) })
    else (false, adaptSeen m) else (false, adaptSeen m)) := rfl

theorem adaptAsk_tb (cfg : Cfg) (m : Mac) (b : Timer) : adaptAsk cfg (m.tb b) = ((adaptAsk cfg m).1, (adaptAsk cfg m).2.tb b) := by
  unfold adaptAsk
  have h1 : (m.tb b).ctx = m.ctx := rfl
  have h2 : (m.tb b).adrAckCounter = m.adrAckCounter := rfl
  dsimp only
  rw [h1, h2]
  by_cases h3 : m.adrAckCounter ≥ m.ctx.adrAckLimit
  · rw [if_pos h3, if_pos h3]
    by_cases h4 : m.adrAckCounter ≥ m.ctx.adrAckLimit + m.ctx.adrAckDelay ∧
              (m.adrAckCounter - (m.ctx.adrAckLimit + m.ctx.adrAckDelay)) % m.ctx.adrAckDelay = 0
    · rw [if_pos h4, if_pos h4]
      by_cases h5 : m.ctx.power = 0
      · rw [if_pos h5, if_pos h5]
        by_cases h6 : m.ctx.rate > cfg.minRate
        · rw [if_pos h6, if_pos h6]; rfl
        · rw [if_neg h6, if_neg h6]; rfl
      · rw [if_neg h5, if_neg h5]; rfl
    · rw [if_neg h4, if_neg h4]; rfl
  · rw [if_neg h3, if_neg h3]

theorem adaptRate_tb (cfg : Cfg) (m : Mac) (b : Timer) : adaptRate cfg (m.tb b) = ((adaptRate cfg m).1, (adaptRate cfg m).2.tb b) := by
  rw [adaptRate_eq, adaptRate_eq]
  have h0 : adaptSeen (m.tb b) = (adaptSeen m).tb b := rfl
  rw [h0]
  generalize adaptSeen m = x
  have h1 : (x.tb b).ctx = x.ctx := rfl
  have h2 : (x.tb b).adrAckCounter = x.adrAckCounter := rfl
  rw [h1, h2, adaptAsk_tb]
  generalize adaptAsk cfg x = y
  by_cases h3 : x.ctx.adr = true
  · rw [if_pos h3, if_pos h3]
    by_cases h4 : x.adrAckCounter < 255
    · rw [if_pos h4, if_pos h4]; rfl
    · rw [if_neg h4, if_neg h4]
  · rw [if_neg h3, if_neg h3]

theorem giveUpData_tb (cfg : Cfg) (m : Mac) (b : Timer) : giveUpData cfg (m.tb b) = (giveUpData cfg m).tb b := by
  unfold giveUpData
  dsimp only
  rw [adaptRate_tb]
  dsimp only
  by_cases h : (adaptRate cfg m).1 = true
  · rw [if_pos h, if_pos h]; rfl
  · rw [if_neg h, if_neg h]; rfl

theorem retryJoin_tb (cfg : Cfg) (e : Env) (m : Mac) (b : Timer) : retryJoin cfg e (m.tb b) = (retryJoin cfg e m).tb b := by
  unfold retryJoin
  have h : (m.tb b).devNonce = m.devNonce := rfl
  dsimp only
  rw [h, nextJoinRequest_tb]
  by_cases h : m.devNonce ≤ 65535
  · rw [if_pos h, if_pos h]; rfl
  · rw [if_neg h, if_neg h]; rfl

theorem retryData_tb (cfg : Cfg) (e : Env) (m : Mac) (b : Timer) : retryData cfg e (m.tb b) = (retryData cfg e m).tb b := rfl

theorem shouldRetry_tb (e : Env) (m : Mac) (b : Timer) : shouldRetry e (m.tb b) = shouldRetry e m := rfl

theorem downlinkMissing_tb (cfg : Cfg) (e : Env) (m : Mac) (b : Timer) :
    downlinkMissing cfg e (m.tb b) = (downlinkMissing cfg e m).tb b := by
  unfold downlinkMissing
  dsimp only
  have h : ({ m.tb b with trials := u32 ((m.tb b).trials + 1) } : Mac) = ({ m with trials := u32 (m.trials + 1) } : Mac).tb b := rfl
  rw [h]
  generalize ({ m with trials := u32 (m.trials + 1) } : Mac) = x
  rw [shouldRetry_tb, retryData_tb, giveUpData_tb, retryJoin_tb]
  have h2 : (m.tb b).op = m.op := rfl
  rw [h2]
  cases m.op <;> first | rfl | (dsimp only; split <;> rfl)

/-- `handleRadioError` in steps. -/
theorem handleRadioError_eq (cfg : Cfg) (e : Env) (m : Mac) : handleRadioError cfg e m =
    (fun m : Mac => ({ (({ m with state := .radioReset } : Mac).emit (.setMode .reset)) with timerA := Timer.set e (cfg.tps / 1024) } : Mac))
      ((fun m : Mac => if m.op = .joining then downlinkMissing cfg e m else ({ m with op := .none } : Mac).emit .opError)
        ((fun m : Mac => ({ m with timerA := m.timerA.clear, timerB := m.timerB.clear } : Mac)) (inputDisarm m))) := rfl

theorem handleRadioError_tb (cfg : Cfg) (e : Env) (m : Mac) (b : Timer) :
    handleRadioError cfg e (m.tb b) = (handleRadioError cfg e m).tb b := by
  rw [handleRadioError_eq, handleRadioError_eq]
  have h : (fun m : Mac => ({ m with timerA := m.timerA.clear, timerB := m.timerB.clear } : Mac)) (inputDisarm (m.tb b)) =
      ((fun m : Mac => ({ m with timerA := m.timerA.clear, timerB := m.timerB.clear } : Mac)) (inputDisarm m)).tb b := rfl
  rw [h]
  generalize (fun m : Mac => ({ m with timerA := m.timerA.clear, timerB := m.timerB.clear } : Mac)) (inputDisarm m) = x
  have h3 : (fun m : Mac => if m.op = .joining then downlinkMissing cfg e m else ({ m with op := .none } : Mac).emit .opError)
      (x.tb b) = ((fun m : Mac => if m.op = .joining then downlinkMissing cfg e m else
        ({ m with op := .none } : Mac).emit .opError) x).tb b := by
    dsimp only
    rw [downlinkMissing_tb]
    have h2 : (x.tb b).op = x.op := rfl
    rw [h2]
    by_cases h : x.op = .joining
    · rw [if_pos h, if_pos h]
    · rw [if_neg h, if_neg h]; rfl
  rw [h3]
  rfl

theorem processRadioReset_tb (cfg : Cfg) (e : Env) (ev : Sme) (m : Mac) (b : Timer) :
    processRadioReset cfg e ev (m.tb b) = (processRadioReset cfg e ev m).tb b := by
  unfold processRadioReset; split <;> rfl

theorem processRadioBoot_tb (e : Env) (ev : Sme) (m : Mac) (b : Timer) :
    processRadioBoot e ev (m.tb b) = (processRadioBoot e ev m).tb b := by
  unfold processRadioBoot
  split
  · dsimp only [Mac.tb, Mac.emit]
    cases m.op <;> rfl
  · rfl

theorem processStartRadioForEntropy_tb (cfg : Cfg) (e : Env) (ev : Sme) (m : Mac) (b : Timer) :
    processStartRadioForEntropy cfg e ev (m.tb b) = (processStartRadioForEntropy cfg e ev m).tb b := by
  unfold processStartRadioForEntropy; split <;> rfl

theorem processEntropy_tb (e : Env) (ev : Sme) (m : Mac) (b : Timer) :
    processEntropy e ev (m.tb b) = (processEntropy e ev m).tb b := by
  unfold processEntropy; split <;> rfl

theorem processWaitOTAA_tb (cfg : Cfg) (e : Env) (m : Mac) (b : Timer) :
    processWaitOTAA cfg e (m.tb b) = (processWaitOTAA cfg e m).tb b := by
  unfold processWaitOTAA
  have h : (m.tb b).band = m.band := rfl
  rw [h]
  by_cases h : m.band GLOBAL = 0
  · rw [if_pos h, if_pos h]; rfl
  · rw [if_neg h, if_neg h]

theorem processWait_tb (cfg : Cfg) (ev : Sme) (lag : Nat) (m : Mac) (b : Timer) :
    processWait cfg ev lag (m.tb b) = (processWait cfg ev lag m).tb b := by
  unfold processWait
  split
  · dsimp only [Mac.tb, Mac.emit]
    cases m.state <;> rfl
  · rfl

theorem processStartRadioForTX_tb (cfg : Cfg) (e : Env) (ev : Sme) (m : Mac) (b : Timer) :
    processStartRadioForTX cfg e ev (m.tb b) = (processStartRadioForTX cfg e ev m).tb b := by
  unfold processStartRadioForTX; split <;> rfl

theorem processStartRadioForRX1_tb (cfg : Cfg) (e : Env) (ev : Sme) (m : Mac) (b : Timer) :
    processStartRadioForRX1 cfg e ev (m.tb b) = (processStartRadioForRX1 cfg e ev m).tb b := by
  unfold processStartRadioForRX1; split <;> rfl

theorem processStartRadioForRX2_tb (cfg : Cfg) (e : Env) (ev : Sme) (m : Mac) (b : Timer) :
    processStartRadioForRX2 cfg e ev (m.tb b) = (processStartRadioForRX2 cfg e ev m).tb b := by
  unfold processStartRadioForRX2; split <;> rfl

theorem registerTime_tb (m : Mac) (b : Timer) : registerTime (m.tb b) = (registerTime m).tb b := by
  unfold registerTime
  dsimp only [Mac.tb]
  cases m.ctx.region.getBand m.tx.freq <;> dsimp only <;> (repeat' split) <;> rfl

theorem txComplete_tb (cfg : Cfg) (e : Env) (lag : Nat) (m : Mac) (b : Timer) :
    txComplete cfg e lag (m.tb b) = (txComplete cfg e lag m).tb b := rfl

set_option linter.unusedSimpArgs false in
theorem processTX_tb (cfg : Cfg) (e : Env) (ev : Sme) (lag : Nat) (m : Mac) (b : Timer) :
    processTX cfg e ev lag (m.tb b) = (processTX cfg e ev lag m).tb b := by
  unfold processTX
  dsimp only
  rw [emit_tb]
  cases ev
  all_goals first
    | rfl
    | (simp only [reduceCtorEq, if_true, if_false, or_true, true_or, or_false, false_or, true_and, false_and,
        registerTime_tb, handleRadioError_tb, txComplete_tb]; done)
    | (simp only [reduceCtorEq, if_true, if_false, or_true, true_or, or_false, false_or, true_and, false_and,
        registerTime_tb, handleRadioError_tb, txComplete_tb]; split <;> rfl)

theorem applyCommand_tb (cfg : Cfg) (e : Env) (nx : Bool) (cmd : DownCmd) (m : Mac) (adr : AdrState) (b : Timer) :
    applyCommand cfg e nx cmd (m.tb b) adr = ((applyCommand cfg e nx cmd m adr).1.tb b, (applyCommand cfg e nx cmd m adr).2) := by
  unfold applyCommand
  have hc : (m.tb b).ctx = m.ctx := rfl
  cases cmd <;> dsimp only <;> first | rfl | (rw [hc]; first | rfl | ((repeat' split) <;> rfl))

theorem commandLoop_tb (cfg : Cfg) (e : Env) (b : Timer) : ∀ (n : Nat) (s : Stream) (m : Mac) (adr : AdrState),
    commandLoop cfg e n s (m.tb b) adr = ((commandLoop cfg e n s m adr).1.tb b, (commandLoop cfg e n s m adr).2)
  | 0, _, _, _ => rfl
  | n + 1, s, m, adr => by
    unfold commandLoop
    rcases MacCmd.getDownCommand cfg.v11 s with ⟨_ | cmd, s'⟩
    · rfl
    · dsimp only
      rw [applyCommand_tb]
      exact commandLoop_tb cfg e b n _ _ _

theorem processCommands_tb (cfg : Cfg) (e : Env) (m : Mac) (inp : Bytes) (b : Timer) :
    processCommands cfg e (m.tb b) inp = (processCommands cfg e m inp).tb b := by
  unfold processCommands
  dsimp only
  have h : ({ m.tb b with ctx := { (m.tb b).ctx with linkADRAns := { (m.tb b).ctx.linkADRAns with channelMaskOK := true } } } : Mac) =
      ({ m with ctx := { m.ctx with linkADRAns := { m.ctx.linkADRAns with channelMaskOK := true } } } : Mac).tb b := rfl
  rw [h, commandLoop_tb]
  dsimp only
  split <;> rfl

theorem dataReceived_tb (cfg : Cfg) (e : Env) (m : Mac) (f : Frame.Down) (buf : Bytes) (b : Timer) :
    dataReceived cfg e (m.tb b) f buf = (dataReceived cfg e m f buf).tb b := by
  unfold dataReceived
  have h1 : dataBegin cfg (m.tb b) f = (dataBegin cfg m f).tb b := rfl
  rw [h1]
  generalize dataBegin cfg m f = x
  have h2 : dataOpts cfg e (x.tb b) f buf = (dataOpts cfg e x f buf).tb b := by
    unfold dataOpts
    cases f.opts with
    | none => rfl
    | some o => exact processCommands_tb cfg e x _ b
  rw [h2]
  generalize dataOpts cfg e x f buf = y
  have h3 : dataPayload cfg e (y.tb b) f buf = (dataPayload cfg e y f buf).tb b := by
    unfold dataPayload
    cases f.data with
    | none => rfl
    | some o =>
      dsimp only
      split
      · exact processCommands_tb cfg e y _ b
      · rfl
  rw [h3]
  generalize dataPayload cfg e y f buf = z
  unfold dataEnd
  have h4 : (z.tb b).op = z.op := rfl
  rw [h4]
  cases z.op <;> rfl

theorem joinAccepted_tb (cfg : Cfg) (m : Mac) (f : Frame.Down) (buf : Bytes) (b : Timer) :
    joinAccepted cfg (m.tb b) f buf = (joinAccepted cfg m f buf).tb b := by
  unfold joinAccepted
  dsimp only
  have h : ({ m.tb b with ctx := joinSession cfg (m.tb b) f buf, joinNonce := f.joinNonce } : Mac) =
      ({ m with ctx := joinSession cfg m f buf, joinNonce := f.joinNonce } : Mac).tb b := rfl
  rw [h]
  generalize ({ m with ctx := joinSession cfg m f buf, joinNonce := f.joinNonce } : Mac) = x
  have h2 : Ops.deriveKeys cfg (x.tb b) = (Ops.deriveKeys cfg x).tb b := by
    unfold Ops.deriveKeys
    dsimp only
    by_cases hv : sessVersion cfg x.ctx = 0
    · rw [if_pos hv, if_pos (show sessVersion cfg (x.tb b).ctx = 0 from hv)]; rfl
    · rw [if_neg hv, if_neg (show ¬ sessVersion cfg (x.tb b).ctx = 0 from hv)]; rfl
  rw [h2]
  rfl

theorem packetReceived_tb (cfg : Cfg) (e : Env) (m : Mac) (b : Timer) :
    packetReceived cfg e (m.tb b) = (packetReceived cfg e m).tb b := by
  unfold packetReceived
  dsimp only
  have h : ({ (({ m.tb b with timerA := (m.tb b).timerA.clear, timerB := (m.tb b).timerB.clear } : Mac).emit .readBuffer).emit
      (.setMode .sleep) with rxSnr := e.snr } : Mac) = ({ (({ m with timerA := m.timerA.clear, timerB := m.timerB.clear } :
        Mac).emit .readBuffer).emit (.setMode .sleep) with rxSnr := e.snr } : Mac).tb b := rfl
  rw [h]
  generalize ({ (({ m with timerA := m.timerA.clear, timerB := m.timerB.clear } :
        Mac).emit .readBuffer).emit (.setMode .sleep) with rxSnr := e.snr } : Mac) = x
  have h2 : Ops.receiveFrame cfg (x.tb b) e.rxBuffer e.received.length = Ops.receiveFrame cfg x e.rxBuffer e.received.length := rfl
  rw [h2]
  rcases Ops.receiveFrame cfg x e.rxBuffer e.received.length with ⟨_ | f, buf⟩
  · exact downlinkMissing_tb cfg e x b
  · dsimp only
    rw [dataReceived_tb, joinAccepted_tb]
    split <;> rfl

theorem rxTimeout_tb (cfg : Cfg) (e : Env) (m : Mac) (b : Timer) : rxTimeout cfg e (m.tb b) = (rxTimeout cfg e m).tb b := by
  unfold rxTimeout
  have h : (m.tb b).state = m.state := rfl
  rw [h]
  split <;> rfl

theorem processRX_tb (cfg : Cfg) (e : Env) (ev : Sme) (m : Mac) (b : Timer) :
    processRX cfg e ev (m.tb b) = (processRX cfg e ev m).tb b := by
  unfold processRX
  dsimp only
  rw [emit_tb, handleRadioError_tb, packetReceived_tb, rxTimeout_tb]
  (repeat' split) <;> rfl

theorem dispatch_tb (cfg : Cfg) (e : Env) (ev : Sme) (lag : Nat) (m : Mac) (b : Timer) :
    dispatch cfg e ev lag (m.tb b) = (dispatch cfg e ev lag m).tb b := by
  unfold dispatch
  have h : (m.tb b).state = m.state := rfl
  have hi : processInit cfg e (m.tb b) = (processInit cfg e m).tb b := rfl
  have hl : processRX2Lockout cfg e ev (m.tb b) = (processRX2Lockout cfg e ev m).tb b := by
    unfold processRX2Lockout
    rw [downlinkMissing_tb]
    split <;> rfl
  rw [h, hi, hl, processRadioReset_tb, processRadioBoot_tb, processWait_tb, processStartRadioForEntropy_tb, processEntropy_tb,
    processWaitOTAA_tb, processStartRadioForTX_tb, processTX_tb, processStartRadioForRX1_tb, processStartRadioForRX2_tb,
    processRX_tb]
  cases m.state <;> rfl

end LDL
