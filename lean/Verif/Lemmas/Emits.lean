import Verif.Lemmas.Mac
import Verif.Lemmas.Receive

/-!
# Which call in which state can produce which event
-/

namespace LDL

/-- The log grows by events satisfying `P`. -/
def Grows (P : Event → Prop) (m m' : Mac) : Prop := ∃ l, m'.out = m.out ++ l ∧ ∀ x ∈ l, P x

namespace Grows

theorem same {P : Event → Prop} {m m' : Mac} (h : m'.out = m.out) : Grows P m m' := ⟨[], by simp [h], by simp⟩

theorem trans {P : Event → Prop} {a b c : Mac} (h1 : Grows P a b) (h2 : Grows P b c) : Grows P a c := by
  obtain ⟨l1, e1, p1⟩ := h1
  obtain ⟨l2, e2, p2⟩ := h2
  refine ⟨l1 ++ l2, by rw [e2, e1, List.append_assoc], ?_⟩
  intro x hx
  rcases List.mem_append.1 hx with h | h
  · exact p1 x h
  · exact p2 x h

theorem one {P : Event → Prop} {m m' : Mac} (ev : Event) (h : m'.out = m.out ++ [ev]) (hp : P ev) : Grows P m m' :=
  ⟨[ev], h, by simpa using hp⟩

theorem mono {P Q : Event → Prop} {m m' : Mac} (h : Grows P m m') (hpq : ∀ x, P x → Q x) : Grows Q m m' := by
  obtain ⟨l, e, p⟩ := h
  exact ⟨l, e, fun x hx => hpq x (p x hx)⟩

/-- Replace the first state by one with the same log. -/
theorem left {P : Event → Prop} {a b c : Mac} (h : Grows P b c) (ho : b.out = a.out) : Grows P a c :=
  (same ho).trans h

theorem right {P : Event → Prop} {a b c : Mac} (h : Grows P a b) (ho : c.out = b.out) : Grows P a c :=
  h.trans (same ho)

theorem newEvents {P : Event → Prop} {m m' : Mac} (h : Grows P m m') : ∀ x ∈ LDL.newEvents m m', P x := by
  obtain ⟨l, e, p⟩ := h
  intro x hx
  unfold LDL.newEvents at hx
  rw [e, List.drop_left] at hx
  exact p x hx

theorem length_le {P : Event → Prop} {m m' : Mac} (h : Grows P m m') : m.out.length ≤ m'.out.length := by
  obtain ⟨l, e, p⟩ := h
  rw [e]; simp

end Grows

/-! ### Functions that do not touch the log -/

theorem registerTime_out (m : Mac) : (registerTime m).out = m.out := by
  unfold registerTime; simp only []
  split <;> split <;> rfl

theorem registerTime_op (m : Mac) : (registerTime m).op = m.op := by
  unfold registerTime; simp only []
  split <;> split <;> rfl

theorem registerTime_shape (m : Mac) : ∃ b, registerTime m = { m with band := b } := by
  unfold registerTime; simp only []
  split <;> split <;> exact ⟨_, rfl⟩

theorem adaptRate_shape (cfg : Cfg) (m : Mac) : ∃ ch r p c q, (adaptRate cfg m).2 =
    { m with ctx := { m.ctx with chMask := ch, rate := r, power := p }, adrAckCounter := c, adrAckReq := q } := by
  unfold adaptRate
  by_cases h1 : m.ctx.adr = true
  · by_cases h2 : m.adrAckCounter < 255
    · by_cases h3 : m.adrAckCounter ≥ m.ctx.adrAckLimit
      · by_cases h4 : m.adrAckCounter ≥ m.ctx.adrAckLimit + m.ctx.adrAckDelay ∧
              (m.adrAckCounter - (m.ctx.adrAckLimit + m.ctx.adrAckDelay)) % m.ctx.adrAckDelay = 0
        · by_cases h5 : m.ctx.power = 0
          · by_cases h6 : m.ctx.rate > cfg.minRate
            · simp only [if_pos h1, if_pos h2, if_pos h3, if_pos h4, if_pos h5, if_pos h6]
              exact ⟨_, _, _, _, _, rfl⟩
            · simp only [if_pos h1, if_pos h2, if_pos h3, if_pos h4, if_pos h5, if_neg h6]
              exact ⟨_, _, _, _, _, rfl⟩
          · simp only [if_pos h1, if_pos h2, if_pos h3, if_pos h4, if_neg h5]; exact ⟨_, _, _, _, _, rfl⟩
        · simp only [if_pos h1, if_pos h2, if_pos h3, if_neg h4]; exact ⟨_, _, _, _, _, rfl⟩
      · simp only [if_pos h1, if_pos h2, if_neg h3]; exact ⟨_, _, _, _, _, rfl⟩
    · simp only [if_pos h1, if_neg h2]; exact ⟨_, _, _, _, _, rfl⟩
  · simp only [if_neg h1]; exact ⟨_, _, _, _, _, rfl⟩

theorem fillJoinBuffer_shape (cfg : Cfg) (e : Env) (m : Mac) (n : Nat) : ∃ dn b bl t,
    fillJoinBuffer cfg e m n =
      { m with ctx := { m.ctx with devNonce := dn }, buffer := b, bufferLen := bl, tx := t } := by
  unfold fillJoinBuffer
  simp only []
  generalize (if cfg.version = L2.v103 then u16 (e.draw 0) else n) = dn
  generalize Ops.prepareJoinRequest cfg _ _ _ _ = r
  generalize selectJoinChannelAndRate cfg e _ = t
  exact ⟨dn, r.2, r.1, t, rfl⟩

theorem nextJoinRequest_shape (cfg : Cfg) (e : Env) (m : Mac) : ∃ dn b bl t,
    nextJoinRequest cfg e m =
      { m with
        ctx := { m.ctx with devNonce := dn }, buffer := b, bufferLen := bl, tx := t
        devNonce := u32 (m.devNonce + 1)
        out := m.out ++ [.devNonceUpdated (u32 (m.devNonce + 1))] } := by
  obtain ⟨dn, b, bl, t, h⟩ := fillJoinBuffer_shape cfg e m (u16 m.devNonce)
  refine ⟨dn, b, bl, t, ?_⟩
  unfold nextJoinRequest
  rw [h]
  rfl

theorem deriveJoinKeys_shape (cfg : Cfg) (m : Mac) : ∃ k, Ops.deriveJoinKeys cfg m = { m with keys := k } := by
  unfold Ops.deriveJoinKeys
  split <;> exact ⟨_, rfl⟩

theorem deriveKeys_shape (cfg : Cfg) (m : Mac) : ∃ k, Ops.deriveKeys cfg m = { m with keys := k } := by
  unfold Ops.deriveKeys
  simp only []
  by_cases h : sessVersion cfg m.ctx = 0
  · rw [if_pos h]; exact ⟨_, rfl⟩
  · rw [if_neg h]; exact ⟨_, rfl⟩

/-! ### Downlink commands -/

/-- What MAC commands may emit. -/
def InfoEvent : Event → Prop
  | .linkStatus _ _ => True
  | .deviceTime _ _ _ => True
  | _ => False

theorem applyCommand_shape (cfg : Cfg) (e : Env) (n : Bool) (cmd : DownCmd) (m : Mac) (adr : AdrState) :
    ∃ c o, (applyCommand cfg e n cmd m adr).1 = { m with ctx := c, out := o } ∧
      (o = m.out ∨ ∃ x, InfoEvent x ∧ o = m.out ++ [x]) := by
  cases cmd <;> simp only [applyCommand]
  case linkCheck => exact ⟨_, _, rfl, Or.inr ⟨.linkStatus _ _, trivial, rfl⟩⟩
  case deviceTime => exact ⟨_, _, rfl, Or.inr ⟨.deviceTime _ _ _, trivial, rfl⟩⟩
  all_goals
    first
    | exact ⟨_, _, rfl, Or.inl rfl⟩
    | (split <;> first
        | exact ⟨_, _, rfl, Or.inl rfl⟩
        | (split <;> exact ⟨_, _, rfl, Or.inl rfl⟩))

theorem applyCommand_grows (cfg : Cfg) (e : Env) (n : Bool) (cmd : DownCmd) (m : Mac) (adr : AdrState) :
    Grows InfoEvent m (applyCommand cfg e n cmd m adr).1 := by
  obtain ⟨c, o, h, ho⟩ := applyCommand_shape cfg e n cmd m adr
  rw [h]
  rcases ho with ho | ⟨x, hx, ho⟩
  · exact .same ho
  · exact .one x ho hx

theorem commandLoop_shape (cfg : Cfg) (e : Env) (fuel : Nat) (s : Stream) (m : Mac) (adr : AdrState) :
    (∃ c o, (commandLoop cfg e fuel s m adr).1 = { m with ctx := c, out := o }) ∧
    Grows InfoEvent m (commandLoop cfg e fuel s m adr).1 := by
  induction fuel generalizing s m adr with
  | zero => exact ⟨⟨_, _, rfl⟩, .same rfl⟩
  | succ n ih =>
    simp only [commandLoop]
    rcases h : MacCmd.getDownCommand cfg.v11 s with ⟨_ | cmd, s'⟩
    · exact ⟨⟨_, _, rfl⟩, .same rfl⟩
    · simp only []
      obtain ⟨c, o, h1, _⟩ := applyCommand_shape cfg e (MacCmd.peekNextCommand cfg.v11 s' == some .linkADR) cmd m adr
      obtain ⟨⟨c', o', h2⟩, g2⟩ := ih s'
        (applyCommand cfg e (MacCmd.peekNextCommand cfg.v11 s' == some .linkADR) cmd m adr).1
        (applyCommand cfg e (MacCmd.peekNextCommand cfg.v11 s' == some .linkADR) cmd m adr).2
      refine ⟨⟨c', o', ?_⟩, (applyCommand_grows ..).trans g2⟩
      rw [h2, h1]

theorem processCommands_shape (cfg : Cfg) (e : Env) (m : Mac) (inp : Bytes) :
    (∃ c o, processCommands cfg e m inp = { m with ctx := c, out := o }) ∧
    Grows InfoEvent m (processCommands cfg e m inp) := by
  unfold processCommands
  simp only []
  generalize hm : ({ m with ctx := { m.ctx with
    linkADRAns := { m.ctx.linkADRAns with channelMaskOK := true } } } : Mac) = m0
  obtain ⟨⟨c, o, h⟩, g⟩ := commandLoop_shape cfg e (inp.length + 1) (Stream.initReadOnly inp inp.length) m0 .noAdr
  have g' : Grows InfoEvent m (commandLoop cfg e (inp.length + 1) (Stream.initReadOnly inp inp.length) m0 .noAdr).1 :=
    g.left (by rw [← hm])
  rw [h] at g' ⊢
  subst hm
  split
  · exact ⟨⟨_, o, rfl⟩, g'.right rfl⟩
  · exact ⟨⟨c, o, rfl⟩, g'⟩

/-! ### The rule -/

/-- The radio reports a packet in a receive window and the MAC accepts it: `f` is the decoded frame, `buf` the
decrypted receive buffer. -/
def Accepts (cfg : Cfg) (e : Env) (m : Mac) (f : Frame.Down) (buf : Bytes) : Prop :=
  (m.state = .rx1 ∨ m.state = .rx2) ∧ m.inputState = true ∧ e.statusRx = true ∧
  Ops.receiveFrame cfg m e.rxBuffer e.received.length = (some f, buf)

/-- A data frame is accepted. -/
def AcceptsData (cfg : Cfg) (e : Env) (m : Mac) (f : Frame.Down) (buf : Bytes) : Prop :=
  Accepts cfg e m f buf ∧ (f.type = Frame.DATA_CONFIRMED_DOWN ∨ f.type = Frame.DATA_UNCONFIRMED_DOWN)

/-- The event of a transmission started in state `m`. -/
def transmitEvent (e : Env) (m : Mac) : Event :=
  .transmit e.done (txSetting m) (m.buffer.take m.bufferLen)

/-- The event of the first receive window opened in state `m`. -/
def receive1Event (e : Env) (m : Mac) : Event :=
  let r := m.ctx.region.convertRate (m.ctx.region.getRX1DataRate m.tx.rate m.ctx.rx1DROffset)
  .receive e.done
    { freq := m.ctx.region.getRX1Freq m.tx.freq m.tx.chIndex, bw := r.bw, sf := r.sf,
      timeout := m.rx1Symbols, max := u8 (r.mtu + Frame.phyOverhead) }

/-- The event of the second receive window opened in state `m`. -/
def receive2Event (e : Env) (m : Mac) : Event :=
  let r := m.ctx.region.convertRate m.ctx.rx2DataRate
  .receive e.done
    { freq := m.ctx.rx2Freq, bw := r.bw, sf := r.sf,
      timeout := m.rx2Symbols, max := u8 (r.mtu + Frame.phyOverhead) }

/-- `MayEmit cfg e m c ev`: call `c` in state `m` may produce event `ev`. -/
inductive MayEmit (cfg : Cfg) (e : Env) (m : Mac) : Call → Event → Prop
  | channelReady : MayEmit cfg e m .process .channelReady
  | setMode (mode) : MayEmit cfg e m .process (.setMode mode)
  | cancelReset : MayEmit cfg e m .cancel (.setMode .reset)
  | forgetReset : MayEmit cfg e m .forget (.setMode .reset)
  | transmit (hs : m.state = .startRadioForTX) (hi : m.inputState = false) (ht : (m.timerA.check e).isSome) :
      MayEmit cfg e m .process (transmitEvent e m)
  | receive1 (hs : m.state = .startRadioForRX1) (hi : m.inputState = false) (ht : (m.timerA.check e).isSome) :
      MayEmit cfg e m .process (receive1Event e m)
  | receive2 (hs : m.state = .startRadioForRX2) (hi : m.inputState = false) (ht : (m.timerB.check e).isSome) :
      MayEmit cfg e m .process (receive2Event e m)
  | receiveEntropy (hs : m.state = .startRadioForEntropy) : MayEmit cfg e m .process .receiveEntropy
  | readEntropy (hs : m.state = .entropy) : MayEmit cfg e m .process .readEntropy
  | entropy (hs : m.state = .entropy) : MayEmit cfg e m .process (.entropy (u32 e.entropy))
  | readBuffer (hs : m.state = .rx1 ∨ m.state = .rx2) : MayEmit cfg e m .process .readBuffer
  | getStatus (hs : m.state = .tx ∨ m.state = .rx1 ∨ m.state = .rx2) : MayEmit cfg e m .process .getStatus
  | opError (hs : m.state = .tx ∨ m.state = .rx1 ∨ m.state = .rx2) (ho : m.op ≠ .joining) :
      MayEmit cfg e m .process .opError
  | cancelled (ho : m.op ≠ .none) : MayEmit cfg e m .cancel .opCancelled
  | forgotten (ho : m.op ≠ .none) : MayEmit cfg e m .forget .opCancelled
  | joinComplete (f : Frame.Down) (buf : Bytes) (ha : Accepts cfg e m f buf)
      (ht : ¬ (f.type = Frame.DATA_CONFIRMED_DOWN ∨ f.type = Frame.DATA_UNCONFIRMED_DOWN)) :
      MayEmit cfg e m .process (.joinComplete (u32 (f.joinNonce + 1)) f.netID f.devAddr)
  | otaaNonce (ho : m.op = .none) (hj : m.ctx.joined = false) (hn : m.devNonce ≤ 65535) :
      MayEmit cfg e m .otaa (.devNonceUpdated (u32 (m.devNonce + 1)))
  | retryNonce (ho : m.op = .joining) (hn : m.devNonce ≤ 65535) :
      MayEmit cfg e m .process (.devNonceUpdated (u32 (m.devNonce + 1)))
  | joinExhausted (ho : m.op = .joining) (hn : 65535 < m.devNonce) : MayEmit cfg e m .process .joinExhausted
  | unconfirmedComplete (ho : m.op = .dataUnconfirmed) : MayEmit cfg e m .process .dataComplete
  | confirmedComplete (ho : m.op = .dataConfirmed) (f : Frame.Down) (buf : Bytes) (ha : AcceptsData cfg e m f buf)
      (hk : f.ack = true) : MayEmit cfg e m .process .dataComplete
  | dataTimeout (ho : m.op = .dataConfirmed) : MayEmit cfg e m .process .dataTimeout
  | rx (f : Frame.Down) (buf : Bytes) (ha : AcceptsData cfg e m f buf) (off : Nat) (hd : f.data = some off)
      (hp : f.port ≠ 0) : MayEmit cfg e m .process (.rx f.port ((buf.drop off).take f.dataLen))
  | info (f : Frame.Down) (buf : Bytes) (ha : AcceptsData cfg e m f buf) (ev : Event) (hi : InfoEvent ev) :
      MayEmit cfg e m .process ev
  | sessionUpdated (c : Call) (s : Session) : MayEmit cfg e m c (.sessionUpdated s)

theorem giveUpData_shape (cfg : Cfg) (m : Mac) : ∃ ch r p c q o,
    giveUpData cfg m =
      { m with
        ctx := { m.ctx with chMask := ch, rate := r, power := p }, adrAckCounter := c, adrAckReq := q
        state := .idle, op := .none
        out := m.out ++ o ++ [if m.op = .dataConfirmed then .dataTimeout else .dataComplete] } ∧
      (o = [] ∨ ∃ s, o = [.sessionUpdated s] ∧ s = { m.ctx with chMask := ch, rate := r, power := p }) := by
  obtain ⟨ch, r, p, c, q, h⟩ := adaptRate_shape cfg m
  unfold giveUpData
  simp only [h]
  by_cases hc : (adaptRate cfg m).1 = true
  · rw [if_pos hc]
    exact ⟨ch, r, p, c, q, _, rfl, Or.inr ⟨_, rfl, rfl⟩⟩
  · rw [if_neg hc]
    refine ⟨ch, r, p, c, q, [], ?_, Or.inl rfl⟩
    rw [List.append_nil]; rfl

theorem retryJoin_shape (cfg : Cfg) (e : Env) (m : Mac) :
    (m.devNonce ≤ 65535 ∧ ∃ dn b bl t, retryJoin cfg e m =
      { m with
        ctx := { m.ctx with devNonce := dn }, buffer := b, bufferLen := bl, tx := t
        devNonce := u32 (m.devNonce + 1)
        state := .waitOTAA, timerA := Timer.set e 0
        out := m.out ++ [.devNonceUpdated (u32 (m.devNonce + 1))] }) ∨
    (65535 < m.devNonce ∧ retryJoin cfg e m =
      { m with state := .idle, op := .none, out := m.out ++ [.joinExhausted] }) := by
  unfold retryJoin
  by_cases h : m.devNonce ≤ 65535
  · obtain ⟨dn, b, bl, t, hs⟩ := nextJoinRequest_shape cfg e m
    rw [if_pos h, hs]
    exact Or.inl ⟨h, dn, b, bl, t, rfl⟩
  · rw [if_neg h]
    exact Or.inr ⟨by omega, rfl⟩

theorem downlinkMissing_grows {P : Event → Prop} (cfg : Cfg) (e : Env) (m : Mac)
    (h1 : ∀ s, P (.sessionUpdated s))
    (h2 : m.op = .dataConfirmed → P .dataTimeout)
    (h3 : m.op = .dataUnconfirmed → P .dataComplete)
    (h4 : m.op = .joining → m.devNonce ≤ 65535 → P (.devNonceUpdated (u32 (m.devNonce + 1))))
    (h5 : m.op = .joining → 65535 < m.devNonce → P .joinExhausted) :
    Grows P m (downlinkMissing cfg e m) := by
  have hdata : ∀ m' : Mac, m'.out = m.out → (m'.op = .dataConfirmed → P .dataTimeout) →
      (m'.op ≠ .dataConfirmed → P .dataComplete) →
      Grows P m (if shouldRetry e m' then retryData cfg e m' else giveUpData cfg m') := by
    intro m' ho hc hu
    split
    · exact .same ho
    · obtain ⟨ch, r, p, c, q, o, h, hs⟩ := giveUpData_shape cfg m'
      rw [h]
      refine ⟨o ++ [if m'.op = .dataConfirmed then .dataTimeout else .dataComplete], ?_, ?_⟩
      · simp only [ho, List.append_assoc]
      · intro x hx
        rcases List.mem_append.1 hx with hx | hx
        · rcases hs with rfl | ⟨s, rfl, _⟩
          · simp at hx
          · simp only [List.mem_singleton] at hx; rw [hx]; exact h1 s
        · simp only [List.mem_singleton] at hx
          rw [hx]
          split
          · next h => exact hc h
          · next h => exact hu h
  unfold downlinkMissing
  simp only []
  cases hop : m.op with
  | none => exact .same rfl
  | entropy => exact .same rfl
  | rejoining => exact .same rfl
  | joining =>
    rcases retryJoin_shape cfg e { m with op := .joining, trials := u32 (m.trials + 1) } with
      ⟨hn, dn, b, bl, t, h⟩ | ⟨hn, h⟩
    · simp only []; rw [h]; exact .one _ rfl (h4 hop hn)
    · simp only []; rw [h]; exact .one _ rfl (h5 hop hn)
  | dataUnconfirmed => exact hdata _ rfl (by simp) (fun _ => h3 hop)
  | dataConfirmed => exact hdata _ rfl (fun _ => h2 hop) (by simp)

theorem processCFList_ids (s : Session) (l : Bytes) : ∃ cc cm, processCFList s l = { s with chConfig := cc, chMask := cm } := by
  have hset : ∀ (s : Session) (a b c d : Nat), ∃ cc, (setChannel s a b c d).2 = { s with chConfig := cc } := by
    intro s a b c d
    unfold setChannel
    split
    · split
      · exact ⟨_, rfl⟩
      · split <;> exact ⟨_, rfl⟩
    · exact ⟨_, rfl⟩
  have hfold : ∀ (ks : List Nat) (s : Session), ∃ cc, ks.foldl
      (fun s k => (setChannel s (3 + k) (Region.unpackCFListFreq l (3 * k)) 0 5).2) s = { s with chConfig := cc } := by
    intro ks
    induction ks with
    | nil => intro s; exact ⟨_, rfl⟩
    | cons k ks ih =>
      intro s
      obtain ⟨cc, h⟩ := hset s (3 + k) (Region.unpackCFListFreq l (3 * k)) 0 5
      obtain ⟨cc', h'⟩ := ih { s with chConfig := cc }
      refine ⟨cc', ?_⟩
      rw [List.foldl_cons, h, h']
  unfold processCFList
  split
  · split
    · split
      · obtain ⟨cc, h⟩ := hfold (List.range 5) s; exact ⟨cc, s.chMask, h⟩
      · exact ⟨_, _, rfl⟩
    · split
      · obtain ⟨cc, h⟩ := hfold (List.range 5) s; exact ⟨cc, s.chMask, h⟩
      · exact ⟨_, _, rfl⟩
    · simp only []
      split <;> exact ⟨_, _, rfl⟩
    · simp only []
      split <;> exact ⟨_, _, rfl⟩
  · exact ⟨_, _, rfl⟩

theorem joinSession_shape (cfg : Cfg) (m : Mac) (f : Frame.Down) (buf : Bytes) : ∃ r cc cm v pc,
    joinSession cfg m f buf = { m.ctx with
      joined := true, rate := r, rx1DROffset := f.rx1DataRateOffset, rx2DataRate := f.rx2DataRate
      rx1Delay := f.rxDelay, chConfig := cc, chMask := cm, devAddr := f.devAddr, version := v
      pendingCmds := pc, netID := f.netID, joinNonce := f.joinNonce } := by
  have hcf : ∀ ctx : Session, ∃ cc cm, joinCFList ctx f buf = { ctx with chConfig := cc, chMask := cm } := by
    intro ctx
    unfold joinCFList
    split
    · exact processCFList_ids ..
    · exact ⟨_, _, rfl⟩
  have hv : ∀ ctx : Session, ∃ v pc, joinVersion cfg ctx f = { ctx with version := v, pendingCmds := pc } := by
    intro ctx
    unfold joinVersion
    split
    · split <;> exact ⟨_, _, rfl⟩
    · exact ⟨_, _, rfl⟩
  unfold joinSession
  simp only []
  obtain ⟨cc, cm, h1⟩ := hcf (joinParams cfg m f)
  rw [h1]
  obtain ⟨v, pc, h2⟩ := hv { joinParams cfg m f with chConfig := cc, chMask := cm, devAddr := f.devAddr }
  simp only at h2
  rw [h2]
  exact ⟨_, _, _, _, _, rfl⟩

theorem joinAccepted_shape (cfg : Cfg) (m : Mac) (f : Frame.Down) (buf : Bytes) : ∃ r cc cm v pc k,
    joinAccepted cfg m f buf =
      { m with
        ctx := { m.ctx with
          joined := true, rate := r, rx1DROffset := f.rx1DataRateOffset, rx2DataRate := f.rx2DataRate
          rx1Delay := f.rxDelay, chConfig := cc, chMask := cm, devAddr := f.devAddr, version := v
          pendingCmds := pc, netID := f.netID, joinNonce := f.joinNonce }
        keys := k, joinNonce := u32 (f.joinNonce + 1), band := upd m.band GLOBAL 0, day := 0, state := .idle
        op := .none, out := m.out ++ [.joinComplete (u32 (f.joinNonce + 1)) f.netID f.devAddr] } := by
  obtain ⟨r, cc, cm, v, pc, h⟩ := joinSession_shape cfg m f buf
  unfold joinAccepted
  rw [h]
  obtain ⟨k, hk⟩ := deriveKeys_shape cfg { m with
        ctx := { m.ctx with
          joined := true, rate := r, rx1DROffset := f.rx1DataRateOffset, rx2DataRate := f.rx2DataRate
          rx1Delay := f.rxDelay, chConfig := cc, chMask := cm, devAddr := f.devAddr, version := v
          pendingCmds := pc, netID := f.netID, joinNonce := f.joinNonce }
        joinNonce := f.joinNonce }
  simp only at hk
  simp only []
  rw [hk]
  exact ⟨_, _, _, _, _, _, rfl⟩

theorem dataOpts_shape (cfg : Cfg) (e : Env) (m : Mac) (f : Frame.Down) (buf : Bytes) :
    (∃ c o, dataOpts cfg e m f buf = { m with ctx := c, out := o }) ∧ Grows InfoEvent m (dataOpts cfg e m f buf) := by
  unfold dataOpts
  split
  · exact processCommands_shape ..
  · exact ⟨⟨_, _, rfl⟩, .same rfl⟩

theorem dataPayload_shape (cfg : Cfg) (e : Env) (m : Mac) (f : Frame.Down) (buf : Bytes) :
    (∃ c o, dataPayload cfg e m f buf = { m with ctx := c, out := o }) ∧
    Grows (fun ev => InfoEvent ev ∨ ∃ off, f.data = some off ∧ f.port ≠ 0 ∧
      ev = .rx f.port ((buf.drop off).take f.dataLen)) m (dataPayload cfg e m f buf) := by
  unfold dataPayload
  split
  · next off hoff =>
    split
    · obtain ⟨h, g⟩ := processCommands_shape cfg e m (List.take f.dataLen (List.drop off buf))
      exact ⟨h, g.mono fun _ hx => Or.inl hx⟩
    · next hp => exact ⟨⟨_, _, rfl⟩, .one _ rfl (Or.inr ⟨off, hoff, hp, rfl⟩)⟩
  · exact ⟨⟨_, _, rfl⟩, .same rfl⟩

/-- The event with which a data operation ends when a data frame is received. -/
def dataEndEvents (op : Op) (ack : Bool) : List Event :=
  match op with
  | .dataConfirmed => [if ack then .dataComplete else .dataTimeout]
  | .rejoining => []
  | _ => [.dataComplete]

theorem dataEnd_eq (m : Mac) (ack : Bool) :
    dataEnd m ack = { m with state := .idle, op := .none, out := m.out ++ dataEndEvents m.op ack } := by
  unfold dataEnd dataEndEvents
  cases m.op <;> simp [Mac.emit]

theorem dataReceived_shape (cfg : Cfg) (e : Env) (m : Mac) (f : Frame.Down) (buf : Bytes) :
    (∃ c o, dataReceived cfg e m f buf =
      { m with
        fPending := f.pending, pendingACK := decide (f.type = Frame.DATA_CONFIRMED_DOWN)
        adrAckCounter := 0, adrAckReq := false, ctx := c, state := .idle, op := .none
        out := m.out ++ o ++ dataEndEvents m.op f.ack } ∧
      ∀ ev ∈ o, InfoEvent ev ∨ ∃ off, f.data = some off ∧ f.port ≠ 0 ∧
        ev = .rx f.port ((buf.drop off).take f.dataLen)) := by
  unfold dataReceived
  rw [dataEnd_eq]
  obtain ⟨⟨c1, o1, h1⟩, g1⟩ := dataOpts_shape cfg e (dataBegin cfg m f) f buf
  obtain ⟨⟨c2, o2, h2⟩, g2⟩ := dataPayload_shape cfg e (dataOpts cfg e (dataBegin cfg m f) f buf) f buf
  obtain ⟨l1, e1, p1⟩ := g1
  obtain ⟨l2, e2, p2⟩ := g2
  refine ⟨c2, l1 ++ l2, ?_, ?_⟩
  · rw [h2] at e2 ⊢
    rw [h1] at e1 e2 ⊢
    simp only at e1 e2 ⊢
    rw [e2, e1]
    simp only [List.append_assoc]
    rfl
  · intro ev hev
    rcases List.mem_append.1 hev with h | h
    · exact Or.inl (p1 ev h)
    · exact p2 ev h

theorem handleRadioError_grows {P : Event → Prop} (cfg : Cfg) (e : Env) (m : Mac)
    (h1 : ∀ s, P (.sessionUpdated s))
    (h2 : m.op = .joining → m.devNonce ≤ 65535 → P (.devNonceUpdated (u32 (m.devNonce + 1))))
    (h3 : m.op = .joining → 65535 < m.devNonce → P .joinExhausted)
    (h4 : m.op ≠ .joining → P .opError) (h5 : P (.setMode .reset)) :
    Grows P m (handleRadioError cfg e m) := by
  unfold handleRadioError
  simp only []
  by_cases hop : m.op = .joining
  · have hop' : (inputDisarm m).op = .joining := hop
    rw [if_pos hop']
    have g := downlinkMissing_grows (P := P) cfg e { inputDisarm m with
      timerA := (inputDisarm m).timerA.clear, timerB := (inputDisarm m).timerB.clear } h1
      (fun h => absurd (hop.symm.trans h) (by decide))
      (fun h => absurd (hop.symm.trans h) (by decide))
      (fun _ hn => h2 hop hn) (fun _ hn => h3 hop hn)
    refine (g.left (a := m) rfl).trans ?_
    exact .one _ rfl h5
  · have hop' : (inputDisarm m).op ≠ .joining := hop
    rw [if_neg hop']
    refine Grows.trans (b := m.emit .opError) (.one _ rfl (h4 hop)) ?_
    exact .one _ rfl h5

theorem setMode_one {P : Event → Prop} {m m' : Mac} (mode : RadioMode) (h : m'.out = m.out ++ [.setMode mode])
    (hp : ∀ mode, P (.setMode mode)) : Grows P m m' := .one _ h (hp mode)

theorem receiveFrame_congr (cfg : Cfg) (m m' : Mac) (buf : Bytes) (len : Nat) (h1 : m'.op = m.op)
    (h2 : m'.keys = m.keys) (h3 : m'.ctx = m.ctx) (h4 : m'.joinEUI = m.joinEUI) (h5 : m'.joinNonce = m.joinNonce) :
    Ops.receiveFrame cfg m' buf len = Ops.receiveFrame cfg m buf len := by
  unfold Ops.receiveFrame Ops.receiveJoinAccept Ops.receiveData Ops.decryptPayload Ops.decryptOpts Ops.downBlock
  simp only [h1, h2, h3, h4, h5]


theorem packetReceived_grows {P : Event → Prop} (cfg : Cfg) (e : Env) (m : Mac)
    (hrb : P .readBuffer) (hsl : P (.setMode .sleep))
    (h1 : ∀ s, P (.sessionUpdated s))
    (h2 : m.op = .dataConfirmed → P .dataTimeout)
    (h3 : m.op = .dataUnconfirmed → P .dataComplete)
    (h4 : m.op = .joining → m.devNonce ≤ 65535 → P (.devNonceUpdated (u32 (m.devNonce + 1))))
    (h5 : m.op = .joining → 65535 < m.devNonce → P .joinExhausted)
    (h6 : ∀ f buf, Ops.receiveFrame cfg m e.rxBuffer e.received.length = (some f, buf) →
      ¬ (f.type = Frame.DATA_CONFIRMED_DOWN ∨ f.type = Frame.DATA_UNCONFIRMED_DOWN) →
      P (.joinComplete (u32 (f.joinNonce + 1)) f.netID f.devAddr))
    (h7 : ∀ f buf, Ops.receiveFrame cfg m e.rxBuffer e.received.length = (some f, buf) →
      (f.type = Frame.DATA_CONFIRMED_DOWN ∨ f.type = Frame.DATA_UNCONFIRMED_DOWN) →
      (∀ ev, InfoEvent ev → P ev) ∧
      (∀ off, f.data = some off → f.port ≠ 0 → P (.rx f.port ((buf.drop off).take f.dataLen))) ∧
      (f.ack = true → m.op = .dataConfirmed → P .dataComplete)) :
    Grows P m (packetReceived cfg e m) := by
  unfold packetReceived
  simp only []
  generalize hm1 : ({ m with timerA := m.timerA.clear, timerB := m.timerB.clear } : Mac) = m1
  generalize hm2 : ({ (m1.emit .readBuffer).emit (.setMode .sleep) with rxSnr := e.snr } : Mac) = m2
  have hg : Grows P m m2 := by
    subst hm2 hm1
    exact Grows.trans (b := m.emit .readBuffer) (.one _ rfl hrb) (.one _ rfl hsl)
  have hr : Ops.receiveFrame cfg m2 e.rxBuffer e.received.length
      = Ops.receiveFrame cfg m e.rxBuffer e.received.length := by
    subst hm2 hm1; exact receiveFrame_congr _ _ _ _ _ rfl rfl rfl rfl rfl
  have hop : m2.op = m.op := by subst hm2 hm1; rfl
  have hdn : m2.devNonce = m.devNonce := by subst hm2 hm1; rfl
  rw [hr]
  rcases hrf : Ops.receiveFrame cfg m e.rxBuffer e.received.length with ⟨_ | f, buf⟩
  · exact hg.trans (downlinkMissing_grows cfg e m2 h1 (hop ▸ h2) (hop ▸ h3) (hop ▸ hdn ▸ h4) (hop ▸ hdn ▸ h5))
  · simp only []
    refine hg.trans ?_
    split
    · next ht =>
      obtain ⟨hi, hx, hk⟩ := h7 f buf hrf ht
      obtain ⟨c, o, h, ho⟩ := dataReceived_shape cfg e m2 f buf
      rw [h]
      have hlen : ∃ op, m2.op = op ∧ op = m.op := ⟨_, rfl, hop⟩
      refine ⟨o ++ dataEndEvents m2.op f.ack ++ [.sessionUpdated c], ?_, ?_⟩
      · simp only [pushSessionUpdate, Mac.emit, List.append_assoc]
      · intro x hx'
        rcases List.mem_append.1 hx' with hx' | hx'
        · rcases List.mem_append.1 hx' with hx' | hx'
          · rcases ho x hx' with h | ⟨off, hd, hp, rfl⟩
            · exact hi x h
            · exact hx off hd hp
          · rcases receiveFrame_cases (received_length e)
              (by rw [rxBuffer_length]; exact received_length e) hrf with ⟨hja, _⟩ | ⟨_, hopd, _⟩
            · exfalso
              rw [hja] at ht
              exact absurd ht (by decide)
            · rw [hop] at hx'
              rcases hopd with hopd | hopd | hopd
              · rw [hopd] at hx'; simp [dataEndEvents] at hx'
              · rw [hopd] at hx'
                simp only [dataEndEvents, List.mem_singleton] at hx'
                rw [hx']; exact h3 hopd
              · rw [hopd] at hx'
                simp only [dataEndEvents, List.mem_singleton] at hx'
                rw [hx']
                split
                · next hak => exact hk hak hopd
                · exact h2 hopd
        · simp only [List.mem_singleton] at hx'
          rw [hx']; exact h1 c
    · next ht =>
      obtain ⟨r, cc, cm, v, pc, k, h⟩ := joinAccepted_shape cfg m2 f buf
      generalize joinAccepted cfg m2 f buf = m3 at h
      have ho : m3.out = m2.out ++ [.joinComplete (u32 (f.joinNonce + 1)) f.netID f.devAddr] := by rw [h]
      refine ⟨[.joinComplete (u32 (f.joinNonce + 1)) f.netID f.devAddr, .sessionUpdated m3.ctx], ?_, ?_⟩
      · simp only [pushSessionUpdate, Mac.emit, ho, List.append_assoc]
        rfl
      · intro x hx'
        simp only [List.mem_cons, List.not_mem_nil, or_false] at hx'
        rcases hx' with rfl | rfl
        · exact h6 f buf hrf ht
        · exact h1 _


theorem processRX_grows {P : Event → Prop} (cfg : Cfg) (e : Env) (ev : Sme) (m : Mac)
    (hgs : P .getStatus) (hm : ∀ mode, P (.setMode mode)) (hrb : P .readBuffer)
    (h1 : ∀ s, P (.sessionUpdated s))
    (h2 : m.op = .dataConfirmed → P .dataTimeout)
    (h3 : m.op = .dataUnconfirmed → P .dataComplete)
    (h4 : m.op = .joining → m.devNonce ≤ 65535 → P (.devNonceUpdated (u32 (m.devNonce + 1))))
    (h5 : m.op = .joining → 65535 < m.devNonce → P .joinExhausted)
    (he : m.op ≠ .joining → P .opError)
    (h6 : ev = .interrupt → e.statusRx = true → ∀ f buf,
      Ops.receiveFrame cfg m e.rxBuffer e.received.length = (some f, buf) →
      ¬ (f.type = Frame.DATA_CONFIRMED_DOWN ∨ f.type = Frame.DATA_UNCONFIRMED_DOWN) →
      P (.joinComplete (u32 (f.joinNonce + 1)) f.netID f.devAddr))
    (h7 : ev = .interrupt → e.statusRx = true → ∀ f buf,
      Ops.receiveFrame cfg m e.rxBuffer e.received.length = (some f, buf) →
      (f.type = Frame.DATA_CONFIRMED_DOWN ∨ f.type = Frame.DATA_UNCONFIRMED_DOWN) →
      (∀ ev, InfoEvent ev → P ev) ∧
      (∀ off, f.data = some off → f.port ≠ 0 → P (.rx f.port ((buf.drop off).take f.dataLen))) ∧
      (f.ack = true → m.op = .dataConfirmed → P .dataComplete)) :
    Grows P m (processRX cfg e ev m) := by
  have hg : Grows P m (m.emit .getStatus) := .one _ rfl hgs
  unfold processRX
  by_cases ha : ev = .timerA
  · rw [if_pos ha]
    exact hg.trans (handleRadioError_grows cfg e _ h1 h4 h5 he (hm _))
  · rw [if_neg ha]
    by_cases hi : ev = .interrupt
    · rw [if_pos hi]
      simp only []
      by_cases hs : e.statusRx = false ∧ e.statusTimeout = false
      · rw [if_pos hs]
        exact hg.trans (handleRadioError_grows cfg e _ h1 h4 h5 he (hm _))
      · rw [if_neg hs]
        by_cases hr : e.statusRx = true
        · rw [if_pos hr]
          exact hg.trans (packetReceived_grows cfg e _ hrb (hm _) h1 h2 h3 h4 h5 (h6 hi hr) (h7 hi hr))
        · rw [if_neg hr]
          refine hg.trans ?_
          unfold rxTimeout
          split
          · exact .one _ rfl (hm _)
          · exact .one _ rfl (hm _)
    · rw [if_neg hi]; exact .same rfl

theorem processTX_grows {P : Event → Prop} (cfg : Cfg) (e : Env) (ev : Sme) (lag : Nat) (m : Mac)
    (hgs : P .getStatus) (hm : ∀ mode, P (.setMode mode))
    (h1 : ∀ s, P (.sessionUpdated s))
    (h4 : m.op = .joining → m.devNonce ≤ 65535 → P (.devNonceUpdated (u32 (m.devNonce + 1))))
    (h5 : m.op = .joining → 65535 < m.devNonce → P .joinExhausted)
    (he : m.op ≠ .joining → P .opError) :
    Grows P m (processTX cfg e ev lag m) := by
  unfold processTX
  simp only []
  generalize hm1 : (if ev = .interrupt then m.emit .getStatus else m) = m1
  have g1 : Grows P m m1 ∧ m1.op = m.op ∧ m1.devNonce = m.devNonce := by
    subst hm1
    split
    · exact ⟨.one _ rfl hgs, rfl, rfl⟩
    · exact ⟨.same rfl, rfl, rfl⟩
  generalize hm2 : (if ev = .interrupt ∨ ev = .timerA then registerTime m1 else m1) = m2
  have g2 : Grows P m m2 ∧ m2.op = m.op ∧ m2.devNonce = m.devNonce := by
    subst hm2
    obtain ⟨b, hb⟩ := registerTime_shape m1
    rw [hb]
    obtain ⟨g, h, h'⟩ := g1
    split
    · exact ⟨g.right rfl, h, h'⟩
    · exact ⟨g, h, h'⟩
  obtain ⟨g, ho, hd⟩ := g2
  have ge : Grows P m (handleRadioError cfg e m2) :=
    g.trans (handleRadioError_grows cfg e _ h1 (ho ▸ hd ▸ h4) (ho ▸ hd ▸ h5) (ho ▸ he) (hm _))
  split
  · exact ge
  · split
    · exact ge
    · split
      · refine g.trans ?_
        exact .one _ rfl (hm _)
      · exact g


theorem processStartRadioForTX_out (cfg : Cfg) (e : Env) (m : Mac) :
    (processStartRadioForTX cfg e .timerA m).out = m.out ++ [transmitEvent e m] := by
  unfold processStartRadioForTX
  rw [if_pos rfl]
  rfl

theorem processStartRadioForRX1_out (cfg : Cfg) (e : Env) (m : Mac) :
    (processStartRadioForRX1 cfg e .timerA m).out = m.out ++ [receive1Event e m] := rfl

theorem processStartRadioForRX2_out (cfg : Cfg) (e : Env) (m : Mac) :
    (processStartRadioForRX2 cfg e .timerB m).out = m.out ++ [receive2Event e m] := rfl

theorem processWait_out (cfg : Cfg) (ev : Sme) (lag : Nat) (m : Mac) :
    (processWait cfg ev lag m).out = m.out ∨ ∃ mode, (processWait cfg ev lag m).out = m.out ++ [.setMode mode] := by
  unfold processWait
  split
  · simp only []
    split
    · exact Or.inr ⟨.rx, rfl⟩
    · exact Or.inr ⟨.rx, rfl⟩
    · exact Or.inr ⟨.rx, rfl⟩
    · exact Or.inr ⟨.tx, rfl⟩
  · exact Or.inl rfl

theorem processRadioBoot_out (e : Env) (ev : Sme) (m : Mac) :
    (processRadioBoot e ev m).out = m.out ∨ (processRadioBoot e ev m).out = m.out ++ [.setMode .sleep] := by
  unfold processRadioBoot
  split
  · simp only []
    split <;> exact Or.inr rfl
  · exact Or.inl rfl

theorem processEntropy_out (e : Env) (m : Mac) :
    (processEntropy e .timerA m).out = m.out ++ [.readEntropy, .setMode .sleep, .entropy (u32 e.entropy)] := by
  unfold processEntropy
  simp [Mac.emit]

theorem dispatch_emits (cfg : Cfg) (e : Env) (ev : Sme) (lag : Nat) (m m1 : Mac) (hp : Prep e m m1 ev lag) :
    Grows (MayEmit cfg e m .process) m1 (dispatch cfg e ev lag m1) := by
  obtain ⟨tt, tr, d, b, ia, is, ta, tb, o, heq⟩ := hp.eq
  have hint := hp.interrupt
  have hA : ev = .timerA → m.inputState = false ∧ (m.timerA.check e).isSome = true := by
    intro h
    rcases hp.timerA with ⟨_, h1, _⟩ | ⟨h1, _⟩
    · refine ⟨?_, by rw [h1]; rfl⟩
      cases hi : m.inputState
      · rfl
      · rw [← hint] at hi; rw [hi] at h; cases h
    · exact absurd h h1
  have hB : ev = .timerB → m.inputState = false ∧ (m.timerB.check e).isSome = true := by
    intro h
    rcases hp.timerB with ⟨_, h1, _⟩ | ⟨h1, _⟩
    · refine ⟨?_, by rw [h1]; rfl⟩
      cases hi : m.inputState
      · rfl
      · rw [← hint] at hi; rw [hi] at h; cases h
    · exact absurd h h1
  have hst : m1.state = m.state := by rw [heq]
  have hop : m1.op = m.op := by rw [heq]
  have hdn : m1.devNonce = m.devNonce := by rw [heq]
  have hrf : Ops.receiveFrame cfg m1 e.rxBuffer e.received.length
      = Ops.receiveFrame cfg m e.rxBuffer e.received.length := by
    rw [heq]; exact receiveFrame_congr _ _ _ _ _ rfl rfl rfl rfl rfl
  have hsm : ∀ mode, MayEmit cfg e m .process (.setMode mode) := fun mode => .setMode mode
  have hsu : ∀ s, MayEmit cfg e m .process (.sessionUpdated s) := fun s => .sessionUpdated _ s
  have hto : m1.op = .dataConfirmed → MayEmit cfg e m .process .dataTimeout :=
    fun h => .dataTimeout (hop ▸ h)
  have hco : m1.op = .dataUnconfirmed → MayEmit cfg e m .process .dataComplete :=
    fun h => .unconfirmedComplete (hop ▸ h)
  have hno : m1.op = .joining → m1.devNonce ≤ 65535 →
      MayEmit cfg e m .process (.devNonceUpdated (u32 (m1.devNonce + 1))) :=
    fun h hn => hdn ▸ .retryNonce (hop ▸ h) (hdn ▸ hn)
  have hex : m1.op = .joining → 65535 < m1.devNonce → MayEmit cfg e m .process .joinExhausted :=
    fun h hn => .joinExhausted (hop ▸ h) (hdn ▸ hn)
  have hwait : Grows (MayEmit cfg e m .process) m1 (processWait cfg ev lag m1) := by
    rcases processWait_out cfg ev lag m1 with h | ⟨mode, h⟩
    · exact .same h
    · exact .one _ h (hsm _)
  have hrx : (m.state = .rx1 ∨ m.state = .rx2) →
      Grows (MayEmit cfg e m .process) m1 (processRX cfg e ev m1) := by
    intro hs
    apply processRX_grows cfg e ev m1 (.getStatus (Or.inr hs)) hsm (.readBuffer hs) hsu hto hco hno hex
      (fun h => .opError (Or.inr hs) (hop ▸ h))
    · intro hi hr f buf h ht
      rw [hrf] at h
      exact .joinComplete f buf ⟨hs, hint.1 hi, hr, h⟩ ht
    · intro hi hr f buf h ht
      rw [hrf] at h
      have ha : AcceptsData cfg e m f buf := ⟨⟨hs, hint.1 hi, hr, h⟩, ht⟩
      exact ⟨fun ev hev => .info f buf ha ev hev, fun off hd hp => .rx f buf ha off hd hp,
        fun hk ho => .confirmedComplete (hop ▸ ho) f buf ha hk⟩
  unfold dispatch
  rw [hst]
  cases hs : m.state <;> simp only []
  case idle => exact .same rfl
  case init =>
    exact .one (.setMode .reset) rfl (hsm _)
  case radioReset =>
    by_cases h : ev = .timerA
    · exact .one (.setMode .boot) (by rw [h]; rfl) (hsm _)
    · refine .same ?_
      unfold processRadioReset
      rw [if_neg h]
  case radioBoot =>
    rcases processRadioBoot_out e ev m1 with h | h
    · exact .same h
    · exact .one _ h (hsm _)
  case waitEntropy => exact hwait
  case waitTX => exact hwait
  case waitRX1 => exact hwait
  case waitRX2 => exact hwait
  case startRadioForEntropy =>
    by_cases h : ev = .timerA
    · exact .one .receiveEntropy (by rw [h]; rfl) (.receiveEntropy hs)
    · refine .same ?_
      unfold processStartRadioForEntropy
      rw [if_neg h]
  case entropy =>
    by_cases h : ev = .timerA
    · refine ⟨[.readEntropy, .setMode .sleep, .entropy (u32 e.entropy)], ?_, ?_⟩
      · rw [h]; exact processEntropy_out e m1
      · intro x hx
        simp only [List.mem_cons, List.not_mem_nil, or_false] at hx
        rcases hx with rfl | rfl | rfl
        · exact .readEntropy hs
        · exact hsm _
        · exact .entropy hs
    · refine .same ?_
      unfold processEntropy
      rw [if_neg h]
  case waitOTAA =>
    unfold processWaitOTAA
    split <;> exact .same rfl
  case startRadioForTX =>
    by_cases h : ev = .timerA
    · refine .one (transmitEvent e m1) (by rw [h]; exact processStartRadioForTX_out cfg e m1) ?_
      have : transmitEvent e m1 = transmitEvent e m := by rw [heq]; rfl
      rw [this]
      exact .transmit hs (hA h).1 (hA h).2
    · refine .same ?_
      unfold processStartRadioForTX
      rw [if_neg h]
  case tx =>
    exact processTX_grows cfg e ev lag m1 (.getStatus (Or.inl hs)) hsm hsu hno hex
      (fun h => .opError (Or.inl hs) (hop ▸ h))
  case startRadioForRX1 =>
    by_cases h : ev = .timerA
    · refine .one (receive1Event e m1) (by rw [h]; exact processStartRadioForRX1_out cfg e m1) ?_
      have : receive1Event e m1 = receive1Event e m := by rw [heq]; rfl
      rw [this]
      exact .receive1 hs (hA h).1 (hA h).2
    · refine .same ?_
      unfold processStartRadioForRX1
      rw [if_neg h]
  case startRadioForRX2 =>
    by_cases h : ev = .timerB
    · refine .one (receive2Event e m1) (by rw [h]; exact processStartRadioForRX2_out cfg e m1) ?_
      have : receive2Event e m1 = receive2Event e m := by rw [heq]; rfl
      rw [this]
      exact .receive2 hs (hB h).1 (hB h).2
    · refine .same ?_
      unfold processStartRadioForRX2
      rw [if_neg h]
  case rx1 => exact hrx (Or.inl hs)
  case rx2 => exact hrx (Or.inr hs)
  case rx2Lockout =>
    unfold processRX2Lockout
    split
    · exact downlinkMissing_grows cfg e m1 hsu hto hco hno hex
    · exact .same rfl

theorem process_emits (cfg : Cfg) (e : Env) (m : Mac) :
    Grows (MayEmit cfg e m .process) m (process cfg e m) := by
  obtain ⟨ev, lag, m1, hp, h⟩ := process_cases cfg e m
  rw [h]
  obtain ⟨p, t, hs⟩ := setNextBandEvent_shape cfg e (if ev = .none then m1 else dispatch cfg e ev lag m1)
  rw [hs]
  have g1 : Grows (MayEmit cfg e m .process) m m1 := by
    rcases hp.out with h | h
    · exact .same h
    · exact .one _ h .channelReady
  refine Grows.right (b := if ev = .none then m1 else dispatch cfg e ev lag m1) ?_ rfl
  split
  · exact g1
  · exact g1.trans (dispatch_emits cfg e ev lag m m1 hp)

theorem cancel_shape (m : Mac) :
    ((m.state = .init ∨ m.state = .radioReset ∨ m.state = .radioBoot) ∧
      cancel m = { m with op := .none, out := m.out ++ if m.op = .none then [] else [.opCancelled] }) ∨
    (¬ (m.state = .init ∨ m.state = .radioReset ∨ m.state = .radioBoot) ∧
      cancel m = { m with
        op := .none, state := .radioReset, timerA := m.timerA.clear, timerB := m.timerB.clear, inputArmed := false
        out := m.out ++ .setMode .reset :: if m.op = .none then [] else [.opCancelled] }) := by
  unfold cancel
  cases hs : m.state <;> by_cases ho : m.op = .none <;> simp [ho, hs, Mac.emit, inputDisarm]

theorem cancel_emits {P : Event → Prop} (m : Mac) (hr : P (.setMode .reset)) (hc : m.op ≠ .none → P .opCancelled) :
    Grows P m (cancel m) := by
  rcases cancel_shape m with ⟨_, h⟩ | ⟨_, h⟩
  · refine ⟨_, by rw [h], ?_⟩
    intro x hx
    split at hx
    · simp at hx
    · simp only [List.mem_singleton] at hx; rw [hx]; exact hc (by assumption)
  · refine ⟨_, by rw [h], ?_⟩
    intro x hx
    rcases List.mem_cons.1 hx with rfl | hx
    · exact hr
    · split at hx
      · simp at hx
      · simp only [List.mem_singleton] at hx; rw [hx]; exact hc (by assumption)

theorem answer_shape (t : CmdType) (single : Bool) (put : Session → Stream → Stream) (p : Stream × Session) :
    ∃ s pc, answer t single put p = (s, { p.2 with pendingCmds := pc }) := by
  unfold answer
  split
  · split <;> exact ⟨_, _, rfl⟩
  · exact ⟨_, _, rfl⟩

theorem uplinkFrame_confirmed {cfg : Cfg} {m : Mac} {confirmed : Bool} {port : Nat} {data : Option Bytes} {len : Nat}
    {o : DataOpts} {maxPayload : Nat} (h : (uplinkFrame cfg m confirmed port data len o maxPayload).2.1 = true) :
    confirmed = true := by
  revert h
  unfold uplinkFrame placeMacData
  simp only []
  split
  · simp
  · split <;> simp

theorem bufferFrame_shape (cfg : Cfg) (m : Mac) (f : Frame.Data) : ∃ b bl,
    bufferFrame cfg m f = { m with buffer := b, bufferLen := bl } := ⟨_, _, rfl⟩

theorem startIfIdle_shape (e : Env) (m : Mac) : ∃ s t, startIfIdle e m = { m with state := s, timerA := t } ∧
    ((m.state = .idle ∧ s = .waitTX ∧ t = Timer.set e 0) ∨ (m.state ≠ .idle ∧ s = m.state ∧ t = m.timerA)) := by
  unfold startIfIdle
  by_cases hs : m.state = .idle
  · rw [if_pos hs]; exact ⟨_, _, rfl, Or.inl ⟨hs, rfl, rfl⟩⟩
  · rw [if_neg hs]; exact ⟨_, _, rfl, Or.inr ⟨hs, rfl, rfl⟩⟩

/-- `sendData`, field by field. -/
theorem sendData_shape (cfg : Cfg) (e : Env) (m : Mac) (confirmed : Bool) (port : Nat) (data : Option Bytes)
    (len : Nat) (opts : Option DataOpts) (maxPayload : Nat) : ∃ b bl op s t,
    (sendData cfg e m confirmed port data len opts maxPayload).1 =
      { m with
        opts := dataOptions opts, trials := 0, tx := { m.tx with counter := m.ctx.up }
        ctx := (uplinkAnswers cfg m (dataOptions opts)).2, buffer := b, bufferLen := bl
        op := op, state := s, timerA := t
        out := m.out ++ [.sessionUpdated (uplinkAnswers cfg m (dataOptions opts)).2] } ∧
      (op = .dataUnconfirmed ∨ op = .dataConfirmed ∧ confirmed = true) ∧
      ((m.state = .idle ∧ s = .waitTX ∧ t = Timer.set e 0) ∨ (m.state ≠ .idle ∧ s = m.state ∧ t = m.timerA)) := by
  unfold sendData
  simp only []
  generalize hp : uplinkFrame cfg m confirmed port data len (dataOptions opts) maxPayload = p
  have hop : ∃ op, (if p.2.1 then Op.dataConfirmed else Op.dataUnconfirmed) = op ∧ (op = .dataUnconfirmed ∨
      op = .dataConfirmed ∧ confirmed = true) := by
    split
    · next h => exact ⟨_, rfl, Or.inr ⟨rfl, uplinkFrame_confirmed (hp ▸ h)⟩⟩
    · exact ⟨_, rfl, Or.inl rfl⟩
  obtain ⟨op, h1, hop⟩ := hop
  rw [h1]
  obtain ⟨b, bl, h2⟩ := bufferFrame_shape cfg { m with
    opts := dataOptions opts, trials := 0, tx := { m.tx with counter := m.ctx.up }
    ctx := (uplinkAnswers cfg m (dataOptions opts)).2, op := op } p.1
  simp only at h2
  rw [h2]
  simp only [pushSessionUpdate, Mac.emit]
  obtain ⟨s, t, h3, h4⟩ := startIfIdle_shape e { m with
        opts := dataOptions opts, trials := 0, tx := { m.tx with counter := m.ctx.up }
        ctx := (uplinkAnswers cfg m (dataOptions opts)).2, buffer := b, bufferLen := bl
        op := op
        out := m.out ++ [.sessionUpdated (uplinkAnswers cfg m (dataOptions opts)).2] }
  rw [h3]
  exact ⟨b, bl, op, s, t, rfl, hop, h4⟩

/-- **Which call may produce which event** (used by several properties). -/
theorem step_emits (cfg : Cfg) (e : Env) (m : Mac) (c : Call) : Grows (MayEmit cfg e m c) m (step cfg m e c).1 := by
  have push : ∀ (c : Call) (s : Session), Grows (MayEmit cfg e m c) m (pushSessionUpdate { m with ctx := s }) :=
    fun c s => .one _ rfl (.sessionUpdated _ _)
  cases c <;> simp only [step]
  case process => exact process_emits cfg e m
  case entropy =>
    unfold entropy
    split
    · simp only []; split <;> exact .same rfl
    · exact .same rfl
  case otaa =>
    unfold otaa
    by_cases hj : m.ctx.joined = true
    · rw [if_pos hj]; exact .same rfl
    · rw [if_neg hj]
      by_cases ho : m.op = .none
      · rw [if_pos ho]
        by_cases hn : m.devNonce ≤ 65535
        · rw [if_pos hn]
          obtain ⟨k, hk⟩ := deriveJoinKeys_shape cfg { m with trials := 0, day := 60 * 60 * 24 * timeTPS }
          obtain ⟨dn, b, bl, t, h⟩ := nextJoinRequest_shape cfg e
            { m with trials := 0, day := 60 * 60 * 24 * timeTPS, keys := k }
          simp only [hk, h]
          have : MayEmit cfg e m .otaa (.devNonceUpdated (u32 (m.devNonce + 1))) :=
            .otaaNonce ho (by simpa using hj) hn
          split <;> exact .one _ rfl this
        · rw [if_neg hn]; exact .same rfl
      · rw [if_neg ho]; exact .same rfl
  case abp =>
    unfold abp
    split
    · exact .same rfl
    · split <;> exact .same rfl
  case data =>
    unfold dataCommand
    split
    · split
      · split
        · split
          · simp only []
            split
            · split
              · obtain ⟨b, bl, op, s, t, h, _⟩ := sendData_shape cfg e _ _ _ _ _ _ _
                rw [h]
                exact .one _ rfl (.sessionUpdated _ _)
              · exact .same rfl
            · exact .same rfl
          · exact .same rfl
        · exact .same rfl
      · exact .same rfl
    · exact .same rfl
  case forget =>
    unfold forget
    simp only []
    have g := cancel_emits (P := MayEmit cfg e m .forget) m .forgetReset (fun h => .forgotten h)
    split
    · exact g.trans (.one _ rfl (.sessionUpdated _ _))
    · exact g
  case cancel => exact cancel_emits m .cancelReset (fun h => .cancelled h)
  case setRate =>
    unfold setRate; split
    · exact push _ _
    · exact .same rfl
  case setPower =>
    unfold setPower; split
    · exact push _ _
    · exact .same rfl
  case setADR => exact push _ _
  case setMaxDCycle => exact .one _ rfl (.sessionUpdated _ _)
  case addChannel => exact .same rfl
  case maskChannel => exact .same rfl
  case unmaskChannel => exact .same rfl
  case radioEvent =>
    unfold inputSignal
    split <;> exact .same rfl
  case lateEvent =>
    unfold Mac.late
    split <;> exact .same rfl

end LDL
