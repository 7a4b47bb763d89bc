import Verif.Lemmas.Observe
import Verif.Lemmas.Session
import Verif.Spec.Trace

/-!
# What a call does to the operation in progress

`OpStep` lists the possibilities: nothing, ended, transmitted, to be repeated, new join request, started.
-/

namespace LDL

/-- The part of a session that MAC commands and ADR do not touch. -/
def Session.core (s : Session) : Region × Nat × Nat × Bool × Nat × Nat × Nat × Nat × Bool × Nat :=
  (s.region, s.up, s.devAddr, s.joined, s.version, s.netID, s.joinNonce, s.devNonce, s.adr, s.magic)

theorem applyCommand_core (cfg : Cfg) (e : Env) (next : Bool) (cmd : DownCmd) (m : Mac) (adr : AdrState) :
    (applyCommand cfg e next cmd m adr).1.ctx.core = m.ctx.core := by
  have hmask : ∀ (s : Session) a b, (linkADRMask s a b).core = s.core := by
    intro s a b; unfold linkADRMask; (repeat' split) <;> rfl
  have h1 : ∀ (s : Session) a, (adrNbTrans s a).core = s.core := by
    intro s a; unfold adrNbTrans; (repeat' split) <;> rfl
  have h2 : ∀ (s : Session) a, (adrRate s a).core = s.core := by
    intro s a; unfold adrRate; (repeat' split) <;> rfl
  have h3 : ∀ (s : Session) a, (adrPower s a).core = s.core := by
    intro s a; unfold adrPower; (repeat' split) <;> rfl
  have h4 : ∀ (s : Session), (adrMaskCheck s).core = s.core := by
    intro s; unfold adrMaskCheck; (repeat' split) <;> rfl
  have hend : ∀ (s : Session) a b c, (linkADREnd s a b c).1.core = s.core := by
    intro s a b c
    unfold linkADREnd setPending
    simp only []
    exact (h4 _).trans ((h3 _ _).trans ((h2 _ _).trans (h1 _ _)))
  cases cmd <;> simp only [applyCommand]
  case linkADR =>
    split
    · rfl
    · split
      · exact hmask _ _ _
      · exact (hend _ _ _ _).trans (hmask _ _ _)
  case newChannel ch f hi lo =>
    split
    · simp only [setPending]
      split
      · obtain ⟨cc, h⟩ := setChannel_shape { m.ctx with newChannelAns :=
          ⟨m.ctx.region.validateRate ch lo hi, m.ctx.region.validateFreq f⟩ } ch f lo hi
        rw [h]; rfl
      · rfl
    · rfl
  all_goals first | rfl | (split <;> rfl)

theorem commandLoop_core (cfg : Cfg) (e : Env) (fuel : Nat) (s : Stream) (m : Mac) (adr : AdrState) :
    (commandLoop cfg e fuel s m adr).1.ctx.core = m.ctx.core := by
  induction fuel generalizing s m adr with
  | zero => rfl
  | succ n ih =>
    simp only [commandLoop]
    rcases hg : MacCmd.getDownCommand cfg.v11 s with ⟨_ | cmd, s'⟩
    · rfl
    · simp only []
      exact (ih _ _ _).trans (applyCommand_core ..)

theorem processCommands_core (cfg : Cfg) (e : Env) (m : Mac) (inp : Bytes) :
    (processCommands cfg e m inp).ctx.core = m.ctx.core := by
  unfold processCommands
  simp only []
  have := commandLoop_core cfg e (inp.length + 1) (Stream.initReadOnly inp inp.length)
    { m with ctx := { m.ctx with linkADRAns := { m.ctx.linkADRAns with channelMaskOK := true } } } .noAdr
  split
  · exact this
  · exact this

theorem dataReceived_core (cfg : Cfg) (e : Env) (m : Mac) (f : Frame.Down) (buf : Bytes) :
    (dataReceived cfg e m f buf).ctx.core = m.ctx.core := by
  have h0 : (dataBegin cfg m f).ctx.core = m.ctx.core := by
    unfold dataBegin Ops.syncDownCounter
    simp only [clearPending]
    (repeat' split) <;> rfl
  have h1 : (dataOpts cfg e (dataBegin cfg m f) f buf).ctx.core = m.ctx.core := by
    unfold dataOpts
    split
    · exact (processCommands_core ..).trans h0
    · exact h0
  have h2 : (dataPayload cfg e (dataOpts cfg e (dataBegin cfg m f) f buf) f buf).ctx.core = m.ctx.core := by
    unfold dataPayload
    split
    · split
      · exact (processCommands_core ..).trans h1
      · exact h1
    · exact h1
  unfold dataReceived
  rw [← h2]
  generalize dataPayload cfg e (dataOpts cfg e (dataBegin cfg m f) f buf) f buf = x
  unfold dataEnd
  simp only []
  split <;> rfl

/-- The transmissions among some events. -/
abbrev transmissions (l : List Event) : List (TxSetting × Bytes) := Spec.transmitted l

/-- The values reported by DEV_NONCE_UPDATED among some events. -/
def nonceReports (l : List Event) : List Nat :=
  l.filterMap fun | .devNonceUpdated n => some n | _ => none

/-- The frame in the buffer. -/
def Mac.frame (m : Mac) : Bytes := m.buffer.take m.bufferLen

/-- A join or a data operation. -/
def Op.isTx (op : Op) : Prop := op = .joining ∨ op = .dataUnconfirmed ∨ op = .dataConfirmed

/-- The states from the start of a transmission until its receive windows are over. -/
def afterTx : St → Bool
  | .tx | .waitRX1 | .startRadioForRX1 | .rx1 | .waitRX2 | .startRadioForRX2 | .rx2 | .rx2Lockout => true
  | _ => false

/-- The answers due and the receive parameters of a session. -/
def Session.rx (s : Session) : Nat × Nat × Nat × Nat × Nat :=
  (s.pendingCmds, s.rx1DROffset, s.rx1Delay, s.rx2DataRate, s.rx2Freq)

/-- What stays as it is while an operation goes on. -/
structure Keep (m m' : Mac) : Prop where
  op : m'.op = m.op
  opts : m'.opts = m.opts
  freq : m'.tx.freq = m.tx.freq
  chIndex : m'.tx.chIndex = m.tx.chIndex
  rate : m'.tx.rate = m.tx.rate
  power : m'.tx.power = m.tx.power
  counter : m'.tx.counter = m.tx.counter
  len : m'.bufferLen = m.bufferLen
  nbTrans : m'.ctx.nbTrans = m.ctx.nbTrans
  setup : m'.ctx.txParamSetup = m.ctx.txParamSetup
  region : m'.ctx.region = m.ctx.region
  up : m'.ctx.up = m.ctx.up
  devAddr : m'.ctx.devAddr = m.ctx.devAddr
  version : m'.ctx.version = m.ctx.version
  joined : m'.ctx.joined = m.ctx.joined
  devNonce : m'.devNonce = m.devNonce
  joinNonce : m'.joinNonce = m.joinNonce
  keys : m'.keys = m.keys
  joinEUI : m'.joinEUI = m.joinEUI
  devEUI : m'.devEUI = m.devEUI
  rx : m'.ctx.rx = m.ctx.rx

/-- A new join request: made in a state `x` with the identifiers, root keys and nonce of `m`. -/
structure NewRequest (cfg : Cfg) (e : Env) (m m' : Mac) : Prop where
  op : m'.op = .joining
  state : afterTx m'.state = false
  nonceOk : m.devNonce ≤ 65535
  devNonce : m'.devNonce = m.devNonce + 1
  ids : m'.joinEUI = m.joinEUI ∧ m'.devEUI = m.devEUI
  made : ∃ x : Mac, x.devNonce = m.devNonce ∧ x.joinEUI = m.joinEUI ∧ x.devEUI = m.devEUI ∧ x.ctx = m.ctx ∧
    x.buffer = m.buffer ∧ x.keys = m'.keys ∧ x.band = m'.band ∧
    m'.buffer = (nextJoinRequest cfg e x).buffer ∧ m'.bufferLen = (nextJoinRequest cfg e x).bufferLen ∧
    m'.tx.freq = (nextJoinRequest cfg e x).tx.freq ∧ m'.tx.chIndex = (nextJoinRequest cfg e x).tx.chIndex ∧
    m'.tx.rate = (nextJoinRequest cfg e x).tx.rate ∧ m'.ctx = (nextJoinRequest cfg e x).ctx ∧
    x.trials = m'.trials ∧ x.tx = m.tx

/-- What holds of a call that leaves no transmitting operation behind. -/
structure Rest (m : Mac) (c : Call) (m' : Mac) : Prop where
  devNonce : m'.devNonce = m.devNonce
  buffer : m'.buffer = m.buffer
  joinEUI : m'.joinEUI = m.joinEUI
  devEUI : m'.devEUI = m.devEUI
  session : (m'.ctx.up = m.ctx.up ∧ (m.ctx.joined = true → m'.ctx.joined = true)) ∨ c = .forget

/-- What a call `c` with new state `m'` does to the operation of `m`, with the transmissions and the nonce reports
it makes. -/
inductive OpStep (cfg : Cfg) (e : Env) (m : Mac) (c : Call) (m' : Mac) : List (TxSetting × Bytes) → List Nat → Prop
  | idle (ho : m.op = .none ∨ m.op = .entropy) (ho' : m'.op = .none ∨ m'.op = .entropy)
      (hr : Rest m c m') : OpStep cfg e m c m' [] []
  | keep (ho : m.op.isTx) (hk : Keep m m') (ht : m'.trials = m.trials) (hb : m'.buffer = m.buffer)
      (hl : afterTx m'.state = afterTx m.state) : OpStep cfg e m c m' [] []
  | ended (ho : m.op.isTx) (ho' : m'.op = .none) (hr : Rest m c m') : OpStep cfg e m c m' [] []
  | sent (ho : m.op.isTx) (hc : c = .process) (hs : m.state = .startRadioForTX) (hs' : m'.state = .tx)
      (hk : Keep m m') (ht : m'.trials = m.trials) (hb : m'.buffer = m.buffer) :
      OpStep cfg e m c m' [(txSetting m, m.frame)] []
  | repeated (ho : m.op = .dataUnconfirmed ∨ m.op = .dataConfirmed) (hc : c = .process) (hl : afterTx m.state = true)
      (hs : m'.state = .waitTX) (hk : Keep m m') (ht : m'.trials = u32 (m.trials + 1)) (hn : m'.trials < nbTransOf m)
      (hb : m'.buffer = Ops.micDataFrame cfg m m.buffer m.bufferLen) : OpStep cfg e m c m' [] []
  | request (ho : m.op = .joining) (hc : c = .process) (hl : afterTx m.state = true)
      (hr : NewRequest cfg e m m') (hu : m'.ctx.up = m.ctx.up) (ht : m'.trials = u32 (m.trials + 1)) :
      OpStep cfg e m c m' [] [m.devNonce + 1]
  | join (ho : m.op = .none) (hc : c = .otaa) (hj : m.ctx.joined = false) (hr : NewRequest cfg e m m')
      (hu : m'.ctx.up = m.ctx.up) (ht : m'.trials = 0) : OpStep cfg e m c m' [] [m.devNonce + 1]
  | send (ho : m.op = .none) (confirmed : Bool) (port : Nat) (data : Option Bytes) (len : Nat) (opts : Option DataOpts)
      (hc : c = .data confirmed port data len opts) (hj : m.ctx.joined = true) (hp : 0 < port ∧ port ≤ 223)
      (hg : m.band GLOBAL = 0) (freq ch rate : Nat)
      (hsel : selectChannel { m with tx := { m.tx with
          power := m.ctx.power
          rate := m.ctx.region.applyUplinkDwell (uplinkDwell m.ctx.txParamSetup) m.ctx.rate } }
        (e.draw 1) m.ctx.rate 0 = some (freq, ch, rate))
      (hl : len + Frame.dataOverhead ≤ (m.ctx.region.convertRate m.ctx.rate).mtu)
      (hm : m' = (sendData cfg e { m with
        tx := { m.tx with freq := freq, chIndex := ch, rate := rate, power := m.ctx.power } }
        confirmed port data len opts (m.ctx.region.convertRate m.ctx.rate).mtu).1)
      (hs' : afterTx m'.state = false) (ht : m'.trials = 0) : OpStep cfg e m c m' [] []

/-- Events that are neither transmissions nor nonce reports. -/
def plain (ev : Event) : Bool :=
  match ev with
  | .transmit .. | .devNonceUpdated _ => false
  | _ => true

theorem transmissions_append (a b : List Event) : transmissions (a ++ b) = transmissions a ++ transmissions b :=
  List.filterMap_append ..

theorem nonceReports_append (a b : List Event) : nonceReports (a ++ b) = nonceReports a ++ nonceReports b :=
  List.filterMap_append ..

theorem plain_nil (l : List Event) (h : ∀ x ∈ l, plain x = true) : transmissions l = [] ∧ nonceReports l = [] := by
  refine ⟨?_, ?_⟩ <;> refine List.filterMap_eq_nil_iff.2 fun x hx => ?_ <;> have := h x hx <;>
    cases x <;> simp_all [plain]

/-- The new events of `m'` and what they do. -/
def Does (cfg : Cfg) (e : Env) (m : Mac) (c : Call) (m' : Mac) : Prop :=
  ∃ o, m'.out = m.out ++ o ∧ OpStep cfg e m c m' (transmissions o) (nonceReports o) ∧
    ∀ s, .sessionUpdated s ∈ o → s = m'.ctx

theorem Does.quiet {cfg : Cfg} {e : Env} {m m' : Mac} {c : Call} (o : List Event) (h : m'.out = m.out ++ o)
    (hp : ∀ x ∈ o, plain x = true) (hr : ∀ s, .sessionUpdated s ∈ o → s = m'.ctx) (hs : OpStep cfg e m c m' [] []) :
    Does cfg e m c m' := by
  obtain ⟨h1, h2⟩ := plain_nil o hp
  exact ⟨o, h, by rw [h1, h2]; exact hs, hr⟩

theorem Does.none {cfg : Cfg} {e : Env} {m m' : Mac} {c : Call} (h : m'.out = m.out)
    (hs : OpStep cfg e m c m' [] []) : Does cfg e m c m' :=
  .quiet [] (by rw [h, List.append_nil]) (by simp) (by simp) hs

/-- Unless an operation is in progress that transmits, nothing to keep. -/
theorem idle_or_tx {m : Mac} (hm : OpOk m) : (m.op = .none ∨ m.op = .entropy) ∨ m.op.isTx := by
  unfold OpOk at hm
  unfold Op.isTx
  cases h : m.op <;> simp
  rw [h] at hm
  cases hs : m.state <;> rw [hs] at hm <;> exact absurd hm (by decide)

theorem OpOk.of_afterTx {m : Mac} (hm : OpOk m) (h : afterTx m.state = true) : m.op.isTx := by
  unfold OpOk at hm
  unfold Op.isTx
  cases hs : m.state <;> rw [hs] at hm h <;> first | exact absurd h (by decide) | simpa [opAllowed, or_assoc] using hm

/-- A quiet step that keeps everything. -/
theorem OpStep.same {cfg : Cfg} {e : Env} {m m' : Mac} {c : Call} (hm : OpOk m) (hk : Keep m m')
    (ht : m'.trials = m.trials) (hb : m'.buffer = m.buffer)
    (hl : m.op.isTx → afterTx m'.state = afterTx m.state) : OpStep cfg e m c m' [] [] := by
  rcases idle_or_tx hm with h | h
  · exact .idle h (by rw [hk.op]; exact h) ⟨hk.devNonce, hb, hk.joinEUI, hk.devEUI, Or.inl ⟨hk.up, fun h => hk.joined.trans h⟩⟩
  · exact .keep h hk ht hb (hl h)

/-- Changes outside everything `Keep` talks about. -/
theorem Keep.refl (m : Mac) : Keep m m :=
  ⟨rfl, rfl, rfl, rfl, rfl, rfl, rfl, rfl, rfl, rfl, rfl, rfl, rfl, rfl, rfl, rfl, rfl, rfl, rfl, rfl, rfl⟩

theorem core_up {a b : Session} (h : a.core = b.core) : a.up = b.up := congrArg (fun t => t.2.1) h

theorem core_joined {a b : Session} (h : a.core = b.core) : a.joined = b.joined := congrArg (fun t => t.2.2.2.1) h

theorem nbTransOf_congr {a b : Mac} (h1 : a.opts = b.opts) (h2 : a.ctx.nbTrans = b.ctx.nbTrans) :
    nbTransOf a = nbTransOf b := by unfold nbTransOf; rw [h1, h2]

/-- What `nextJoinRequest` leaves alone and what it reports. -/
theorem nextJoinRequest_keeps {cfg : Cfg} {e : Env} {x y : Mac} (hy : y = nextJoinRequest cfg e x) :
    y.op = x.op ∧ y.devNonce = u32 (x.devNonce + 1) ∧ y.keys = x.keys ∧ y.band = x.band ∧ y.trials = x.trials ∧
      y.ctx.up = x.ctx.up ∧ y.out = x.out ++ [.devNonceUpdated (u32 (x.devNonce + 1))] ∧
      y.joinEUI = x.joinEUI ∧ y.devEUI = x.devEUI := by
  obtain ⟨dn, b, bl, t, hsh⟩ := nextJoinRequest_shape cfg e x
  rw [hy, hsh]
  exact ⟨rfl, rfl, rfl, rfl, rfl, rfl, rfl, rfl, rfl⟩

/-- A new join request made from `x`, which agrees with `m`. -/
theorem request_does {cfg : Cfg} {e : Env} {m x y : Mac} {s : St} {ta : Timer} (hy : y = nextJoinRequest cfg e x)
    (hl : afterTx m.state = true) (hj : m.op = .joining) (hop : x.op = m.op) (hn : m.devNonce ≤ 65535)
    (hd : x.devNonce = m.devNonce) (hje : x.joinEUI = m.joinEUI) (hde : x.devEUI = m.devEUI) (hctx : x.ctx = m.ctx)
    (hb : x.buffer = m.buffer) (ht : x.trials = u32 (m.trials + 1)) (htx : x.tx = m.tx)
    (o o' : List Event) (ho : x.out = m.out ++ o) (hp : ∀ ev ∈ o, plain ev = true) (hp' : ∀ ev ∈ o', plain ev = true)
    (hq : ∀ s, .sessionUpdated s ∉ o) (hq' : ∀ s, .sessionUpdated s ∉ o') (hs : afterTx s = false) :
    Does cfg e m .process { y with state := s, timerA := ta, out := y.out ++ o' } := by
  obtain ⟨h1, h2, h3, h4, h5, h6, h7, h8, h9⟩ := nextJoinRequest_keeps hy
  have hd1 : u32 (x.devNonce + 1) = m.devNonce + 1 := by
    rw [hd]
    exact Nat.mod_eq_of_lt (by omega)
  have a1 : y.buffer = (nextJoinRequest cfg e x).buffer := congrArg Mac.buffer hy
  have a2 : y.bufferLen = (nextJoinRequest cfg e x).bufferLen := congrArg Mac.bufferLen hy
  have a3 : y.tx.freq = (nextJoinRequest cfg e x).tx.freq := congrArg (·.tx.freq) hy
  have a4 : y.tx.chIndex = (nextJoinRequest cfg e x).tx.chIndex := congrArg (·.tx.chIndex) hy
  have a5 : y.tx.rate = (nextJoinRequest cfg e x).tx.rate := congrArg (·.tx.rate) hy
  have a6 : y.ctx = (nextJoinRequest cfg e x).ctx := congrArg Mac.ctx hy
  have hreq : NewRequest cfg e m { y with state := s, timerA := ta, out := y.out ++ o' } :=
    ⟨h1.trans (hop.trans hj), hs, hn, h2.trans hd1, ⟨h8.trans hje, h9.trans hde⟩, x, hd, hje, hde, hctx, hb, h3.symm, h4.symm,
      a1, a2, a3, a4, a5, a6, h5.symm, htx⟩
  refine ⟨o ++ [.devNonceUpdated (m.devNonce + 1)] ++ o', ?_, ?_, ?_⟩
  · show y.out ++ o' = _
    rw [h7, hd1, ho]
    simp only [List.append_assoc]
  · rw [transmissions_append, nonceReports_append, transmissions_append, nonceReports_append, (plain_nil o hp).1,
      (plain_nil o hp).2, (plain_nil o' hp').1, (plain_nil o' hp').2]
    exact .request hj rfl hl hreq (by show y.ctx.up = _; rw [h6, hctx]) (h5.trans ht)
  · intro s hs
    simp only [List.mem_append, List.mem_singleton, reduceCtorEq, or_false] at hs
    rcases hs with hs | hs
    · exact absurd hs (hq s)
    · exact absurd hs (hq' s)

/-- `downlinkMissing` from a state `x` that agrees with `m`. -/
theorem Missing.does {cfg : Cfg} {e : Env} {m x m' : Mac} (h : Missing cfg e x m') (hm : OpOk m)
    (hl : afterTx m.state = true) (hk : Keep m x) (ht : x.trials = m.trials) (hb : x.buffer = m.buffer)
    (hctx : x.ctx = m.ctx) (htx : x.tx = m.tx)
    (o : List Event) (ho : x.out = m.out ++ o) (hp : ∀ ev ∈ o, plain ev = true)
    (hq : ∀ s, .sessionUpdated s ∉ o) : Does cfg e m .process m' := by
  have hop := hm.of_afterTx hl
  cases h with
  | retry hr hs t b hb' =>
    have hr : m.op = .dataUnconfirmed ∨ m.op = .dataConfirmed := by rw [← hk.op]; exact hr
    refine .quiet o ho hp (fun s hs => absurd hs (hq s)) (.repeated hr rfl hl rfl ⟨hk.op, hk.opts, hk.freq, hk.chIndex, hk.rate, hk.power,
      hk.counter, hk.len, hk.nbTrans, hk.setup, hk.region, hk.up, hk.devAddr, hk.version, hk.joined, hk.devNonce,
      hk.joinNonce, hk.keys, hk.joinEUI, hk.devEUI, hk.rx⟩ ?_ ?_ ?_)
    · show u32 (x.trials + 1) = _
      rw [ht]
    · have : shouldRetry e { x with trials := u32 (x.trials + 1) } = true := hs
      unfold shouldRetry at this
      simp only [Bool.and_eq_true, decide_eq_true_eq] at this
      have h1 : u32 (x.trials + 1) < nbTransOf { x with trials := u32 (x.trials + 1) } := this.1.1
      rw [nbTransOf_congr (a := { x with trials := u32 (x.trials + 1) }) (b := m) hk.opts hk.nbTrans] at h1
      exact h1
    · show b = _
      rw [hb', hb, hk.len]
      unfold Ops.micDataFrame
      simp only [hctx, htx, hk.keys]
  | giveUp hr hs ch r p c q o' ho' =>
    refine .quiet (o ++ (o' ++ [if x.op = .dataConfirmed then .dataTimeout else .dataComplete])) ?_ ?_ ?_
      (.ended hop rfl ⟨hk.devNonce, hb, hk.joinEUI, hk.devEUI, Or.inl ⟨hk.up, fun h => hk.joined.trans h⟩⟩)
    · simp only [ho, List.append_assoc]
    · intro ev hev
      rcases List.mem_append.1 hev with h | h
      · exact hp ev h
      · rcases List.mem_append.1 h with h | h
        · rcases ho' with rfl | ⟨s, rfl, _⟩
          · simp at h
          · simp only [List.mem_cons, List.not_mem_nil, or_false] at h
            rw [h]; rfl
        · simp only [List.mem_cons, List.not_mem_nil, or_false] at h
          rw [h]; split <;> rfl
    · intro s hs
      simp only [List.mem_append, List.mem_singleton] at hs
      rcases hs with h | h | h
      · exact absurd h (hq s)
      · rcases ho' with rfl | ⟨s', rfl, he⟩
        · simp at h
        · simp only [List.mem_singleton, Event.sessionUpdated.injEq] at h
          rw [h, he]
      · split at h <;> cases h
  | nextJoin hj hn =>
    have hj : m.op = .joining := by rw [← hk.op]; exact hj
    have hn' : m.devNonce ≤ 65535 := by rw [← hk.devNonce]; exact hn
    generalize hy : nextJoinRequest cfg e { x with trials := u32 (x.trials + 1) } = y
    have := request_does (s := .waitOTAA) (ta := Timer.set e 0) hy.symm hl hj hk.op hn' hk.devNonce hk.joinEUI
      hk.devEUI hctx hb (by show u32 (x.trials + 1) = _; rw [ht]) htx o [] ho hp (by simp) hq (by simp) rfl
    rw [List.append_nil] at this
    exact this
  | exhausted hj hn =>
    refine .quiet (o ++ [.joinExhausted]) ?_ ?_ (by intro s hs; simp only [List.mem_append, List.mem_cons, List.not_mem_nil, reduceCtorEq, or_false] at hs; exact absurd hs (hq s))
      (.ended hop rfl ⟨hk.devNonce, hb, hk.joinEUI, hk.devEUI, Or.inl ⟨hk.up, fun h => hk.joined.trans h⟩⟩)
    · simp only [ho, List.append_assoc]
    · intro ev hev
      rcases List.mem_append.1 hev with h | h
      · exact hp ev h
      · simp only [List.mem_cons, List.not_mem_nil, or_false] at h
        rw [h]; rfl
  | other h =>
    exfalso
    have h : m.op = .none ∨ m.op = .entropy ∨ m.op = .rejoining := by rw [← hk.op]; exact h
    unfold Op.isTx at hop
    rcases hop with hop | hop | hop <;> simp [hop] at h

/-- `handleRadioError` from a state `x` that agrees with `m`. -/
theorem RadioErr.does {cfg : Cfg} {e : Env} {m x m' : Mac} (h : RadioErr cfg e x m') (hm : OpOk m)
    (hl : afterTx m.state = true) (hk : Keep m x) (ht : x.trials = m.trials) (hb : x.buffer = m.buffer)
    (hctx : x.ctx = m.ctx) (htx : x.tx = m.tx)
    (o : List Event) (ho : x.out = m.out ++ o) (hp : ∀ ev ∈ o, plain ev = true)
    (hq : ∀ s, .sessionUpdated s ∉ o) : Does cfg e m .process m' := by
  have hop := hm.of_afterTx hl
  cases h with
  | op _ =>
    refine .quiet (o ++ [.opError, .setMode .reset]) ?_ ?_ (by intro s hs; simp only [List.mem_append, List.mem_cons, List.not_mem_nil, reduceCtorEq, or_false] at hs; exact absurd hs (hq s))
      (.ended hop rfl ⟨hk.devNonce, hb, hk.joinEUI, hk.devEUI, Or.inl ⟨hk.up, fun h => hk.joined.trans h⟩⟩)
    · simp only [ho, List.append_assoc, List.cons_append, List.nil_append]
    · intro ev hev
      rcases List.mem_append.1 hev with h | h
      · exact hp ev h
      · simp only [List.mem_cons, List.not_mem_nil, or_false] at h
        rcases h with rfl | rfl <;> rfl
  | exhausted _ _ =>
    refine .quiet (o ++ [.joinExhausted, .setMode .reset]) ?_ ?_ (by intro s hs; simp only [List.mem_append, List.mem_cons, List.not_mem_nil, reduceCtorEq, or_false] at hs; exact absurd hs (hq s))
      (.ended hop rfl ⟨hk.devNonce, hb, hk.joinEUI, hk.devEUI, Or.inl ⟨hk.up, fun h => hk.joined.trans h⟩⟩)
    · simp only [ho, List.append_assoc, List.cons_append, List.nil_append]
    · intro ev hev
      rcases List.mem_append.1 hev with h | h
      · exact hp ev h
      · simp only [List.mem_cons, List.not_mem_nil, or_false] at h
        rcases h with rfl | rfl <;> rfl
  | nextJoin hj hn y hy =>
    have hj : m.op = .joining := by rw [← hk.op]; exact hj
    have hn' : m.devNonce ≤ 65535 := by rw [← hk.devNonce]; exact hn
    exact request_does (s := .radioReset) (ta := Timer.set e (cfg.tps / 1024)) hy hl hj hk.op hn' hk.devNonce hk.joinEUI
      hk.devEUI hctx hb (by show u32 (x.trials + 1) = _; rw [ht]) htx o [.setMode .reset] ho hp (by simp [plain]) hq (by simp) rfl

theorem transmissions_transmitEvent (e : Env) (m : Mac) :
    transmissions [transmitEvent e m] = [(txSetting m, m.frame)] ∧ nonceReports [transmitEvent e m] = [] := by
  unfold transmitEvent Mac.frame
  generalize txSetting m = s
  exact ⟨rfl, rfl⟩

theorem started_does {cfg : Cfg} {e : Env} {m : Mac} {a : Nat} {ta : Timer} (ho : m.op.isTx)
    (hs : m.state = .startRadioForTX) : Does cfg e m .process
      { m with
        tx := { m.tx with airTime := a }
        inputState := false, inputArmed := true, out := m.out ++ [transmitEvent e m], state := .tx
        timerA := ta } := by
  refine ⟨[transmitEvent e m], rfl, ?_, by simp [transmitEvent]⟩
  rw [(transmissions_transmitEvent e m).1, (transmissions_transmitEvent e m).2]
  exact .sent ho rfl hs rfl ⟨rfl, rfl, rfl, rfl, rfl, rfl, rfl, rfl, rfl, rfl, rfl, rfl, rfl, rfl, rfl, rfl, rfl, rfl, rfl, rfl, rfl⟩ rfl rfl

theorem Disp.does {cfg : Cfg} {e : Env} {ev : Sme} {lag : Nat} {m m' : Mac} (h : Disp cfg e ev lag m m')
    (hm : OpOk m) : Does cfg e m .process m' := by
  have kr := Keep.refl m
  cases h with
  | stay => exact .none rfl (.same hm kr rfl rfl fun _ => rfl)
  | init hs => exact .quiet _ rfl (by simp [plain]) (by simp) (.same hm ⟨rfl, rfl, rfl, rfl, rfl, rfl, rfl, rfl, rfl, rfl, rfl, rfl, rfl, rfl, rfl, rfl, rfl, rfl, rfl, rfl, rfl⟩ rfl rfl fun _ => by rw [hs]; rfl)
  | reset hs => exact .quiet _ rfl (by simp [plain]) (by simp) (.same hm ⟨rfl, rfl, rfl, rfl, rfl, rfl, rfl, rfl, rfl, rfl, rfl, rfl, rfl, rfl, rfl, rfl, rfl, rfl, rfl, rfl, rfl⟩ rfl rfl fun _ => by rw [hs]; rfl)
  | boot hs =>
    refine .quiet _ rfl (by simp [plain]) (by simp) (.same hm ⟨rfl, rfl, rfl, rfl, rfl, rfl, rfl, rfl, rfl, rfl, rfl, rfl, rfl, rfl, rfl, rfl, rfl, rfl, rfl, rfl, rfl⟩ rfl rfl fun ho => ?_)
    rw [hs]
    show afterTx (bootState m.op) = _
    unfold Op.isTx at ho
    rcases ho with ho | ho | ho <;> rw [ho] <;> rfl
  | startEntropy hs => exact .quiet _ rfl (by simp [plain]) (by simp) (.same hm ⟨rfl, rfl, rfl, rfl, rfl, rfl, rfl, rfl, rfl, rfl, rfl, rfl, rfl, rfl, rfl, rfl, rfl, rfl, rfl, rfl, rfl⟩ rfl rfl fun _ => by rw [hs]; rfl)
  | entropy hs =>
    have : m.op = .entropy := by
      unfold OpOk at hm; rw [hs] at hm; simpa [opAllowed] using hm
    exact .quiet _ rfl (by simp [plain]) (by simp) (.idle (Or.inr this) (Or.inl rfl) ⟨rfl, rfl, rfl, rfl, Or.inl ⟨rfl, id⟩⟩)
  | otaa hs => exact .none rfl (.same hm ⟨rfl, rfl, rfl, rfl, rfl, rfl, rfl, rfl, rfl, rfl, rfl, rfl, rfl, rfl, rfl, rfl, rfl, rfl, rfl, rfl, rfl⟩ rfl rfl fun _ => by rw [hs]; rfl)
  | waitA hs =>
    refine .quiet _ rfl (by simp [plain]) (by simp) (.same hm ⟨rfl, rfl, rfl, rfl, rfl, rfl, rfl, rfl, rfl, rfl, rfl, rfl, rfl, rfl, rfl, rfl, rfl, rfl, rfl, rfl, rfl⟩ rfl rfl fun _ => ?_)
    show afterTx (waitNext m.state) = _
    rcases hs with hs | hs | hs <;> rw [hs] <;> rfl
  | waitB hs =>
    refine .quiet _ rfl (by simp [plain]) (by simp) (.same hm ⟨rfl, rfl, rfl, rfl, rfl, rfl, rfl, rfl, rfl, rfl, rfl, rfl, rfl, rfl, rfl, rfl, rfl, rfl, rfl, rfl, rfl⟩ rfl rfl fun _ => ?_)
    show afterTx (waitNext m.state) = _
    rw [hs]; rfl
  | startTX hs =>
    have ho : m.op.isTx := by
      unfold OpOk at hm; rw [hs] at hm
      unfold Op.isTx
      simpa [opAllowed, or_assoc] using hm
    exact started_does ho hs
  | txError hs =>
    obtain ⟨b, hb⟩ := registerTime_shape (statusRead ev m)
    have hx : ∃ o, registerTime (statusRead ev m) = { m with band := b, out := m.out ++ o } ∧ (∀ x ∈ o, plain x = true) ∧
        ∀ s, .sessionUpdated s ∉ o := by
      rw [hb]
      unfold statusRead
      split
      · exact ⟨[.getStatus], rfl, by simp [plain], by simp⟩
      · exact ⟨[], by simp, by simp, by simp⟩
    obtain ⟨o, hx, hp, hq⟩ := hx
    refine (handleRadioError_cases ..).does hm (by rw [hs]; rfl) ?_ ?_ ?_ ?_ ?_ o ?_ hp hq <;> rw [hx]
    exact ⟨rfl, rfl, rfl, rfl, rfl, rfl, rfl, rfl, rfl, rfl, rfl, rfl, rfl, rfl, rfl, rfl, rfl, rfl, rfl, rfl, rfl⟩
  | txDone hs =>
    obtain ⟨b, hb⟩ := registerTime_shape (m.emit .getStatus)
    rw [hb]
    obtain ⟨r1, r2, ta, tb, s, h, hst⟩ := txComplete_shape cfg e lag { m.emit .getStatus with band := b }
    rw [h]
    refine .quiet ([.getStatus] ++ [.setMode .hold]) (by simp [Mac.emit]) (by simp [plain]) (by simp) (.same hm ⟨rfl, rfl, rfl, rfl, rfl, rfl, rfl, rfl, rfl, rfl, rfl, rfl, rfl, rfl, rfl, rfl, rfl, rfl, rfl, rfl, rfl⟩ rfl rfl fun _ => ?_)
    rw [hs]
    rcases hst with ⟨rfl, _⟩ | ⟨rfl, _⟩ <;> rfl
  | startRX1 hs => exact .quiet _ rfl (by simp [plain, receive1Event]) (by simp [receive1Event]) (.same hm ⟨rfl, rfl, rfl, rfl, rfl, rfl, rfl, rfl, rfl, rfl, rfl, rfl, rfl, rfl, rfl, rfl, rfl, rfl, rfl, rfl, rfl⟩ rfl rfl fun _ => by rw [hs]; rfl)
  | startRX2 hs => exact .quiet _ rfl (by simp [plain, receive2Event]) (by simp [receive2Event]) (.same hm ⟨rfl, rfl, rfl, rfl, rfl, rfl, rfl, rfl, rfl, rfl, rfl, rfl, rfl, rfl, rfl, rfl, rfl, rfl, rfl, rfl, rfl⟩ rfl rfl fun _ => by rw [hs]; rfl)
  | rxError hs =>
    refine (handleRadioError_cases ..).does (x := m.emit .getStatus) hm (by rcases hs with hs | hs <;> rw [hs] <;> rfl) ?_ rfl rfl rfl rfl [.getStatus] rfl (by simp [plain]) (by simp)
    exact ⟨rfl, rfl, rfl, rfl, rfl, rfl, rfl, rfl, rfl, rfl, rfl, rfl, rfl, rfl, rfl, rfl, rfl, rfl, rfl, rfl, rfl⟩
  | rxRejected hs =>
    refine (downlinkMissing_missing ..).does (x := packetState e m) hm (by rcases hs with hs | hs <;> rw [hs] <;> rfl) ?_ rfl rfl rfl rfl ([.getStatus] ++ [.readBuffer] ++ [.setMode .sleep]) (by simp [packetState]) (by simp [plain]) (by simp)
    exact ⟨rfl, rfl, rfl, rfl, rfl, rfl, rfl, rfl, rfl, rfl, rfl, rfl, rfl, rfl, rfl, rfl, rfl, rfl, rfl, rfl, rfl⟩
  | rxJoin hs _ _ f buf _ _ ho =>
    obtain ⟨r, cc, cm, v, pc, k, h⟩ := joinAccepted_shape cfg (packetState e m) f buf
    have hl : afterTx m.state = true := by rcases hs with hs | hs <;> rw [hs] <;> rfl
    refine .quiet ([.getStatus] ++ [.readBuffer] ++ [.setMode .sleep] ++
      [.joinComplete (u32 (f.joinNonce + 1)) f.netID f.devAddr,
        .sessionUpdated (joinAccepted cfg (packetState e m) f buf).ctx]) ?_ (by simp [plain])
      (by simp [pushSessionUpdate, Mac.emit]) (.ended (hm.of_afterTx hl) ?_ ⟨?_, ?_, ?_, ?_, Or.inl ⟨?_, fun _ => ?_⟩⟩)
    · simp only [pushSessionUpdate, Mac.emit]
      generalize (joinAccepted cfg (packetState e m) f buf).ctx = c
      rw [h]
      simp [packetState]
    · simp only [pushSessionUpdate, Mac.emit]; rw [h]
    all_goals simp only [pushSessionUpdate, Mac.emit]; rw [h]; try rfl
  | rxData hs _ _ f buf _ _ ho =>
    have hu := core_up (dataReceived_core cfg e (packetState e m) f buf)
    have hjn := core_joined (dataReceived_core cfg e (packetState e m) f buf)
    obtain ⟨c, o, h, hq⟩ := dataReceived_shape cfg e (packetState e m) f buf
    rw [h] at hu hjn ⊢
    have hl : afterTx m.state = true := by rcases hs with hs | hs <;> rw [hs] <;> rfl
    refine .quiet ([.getStatus] ++ [.readBuffer] ++ [.setMode .sleep] ++ o ++ dataEndEvents m.op f.ack ++ [.sessionUpdated c]) ?_ ?_ ?_
      (.ended (hm.of_afterTx hl) rfl ⟨rfl, rfl, rfl, rfl, Or.inl ⟨hu, fun h => hjn.trans h⟩⟩)
    · simp [pushSessionUpdate, Mac.emit, packetState]
    · intro x hx
      simp only [List.mem_append] at hx
      rcases hx with ((((hx | hx) | hx) | hx) | hx) | hx
      · simp at hx; rw [hx]; rfl
      · simp at hx; rw [hx]; rfl
      · simp at hx; rw [hx]; rfl
      · rcases hq x hx with hi | ⟨off, _, _, rfl⟩
        · cases x <;> simp [InfoEvent] at hi <;> rfl
        · rfl
      · unfold dataEndEvents at hx
        revert hx
        cases m.op <;> cases f.ack <;> simp <;> intro hx <;> rw [hx] <;> rfl
      · simp at hx; rw [hx]; rfl
    · intro s hx
      simp only [List.mem_append] at hx
      rcases hx with ((((hx | hx) | hx) | hx) | hx) | hx
      · simp at hx
      · simp at hx
      · simp at hx
      · rcases hq _ hx with hi | ⟨off, _, _, hi⟩
        · simp [InfoEvent] at hi
        · cases hi
      · unfold dataEndEvents at hx
        revert hx
        cases m.op <;> cases f.ack <;> simp
      · simp only [List.mem_singleton, Event.sessionUpdated.injEq] at hx
        rw [hx]; rfl
  | rxTimeout1 hs => exact .quiet ([.getStatus] ++ [.setMode .hold]) (by simp) (by simp [plain]) (by simp) (.same hm ⟨rfl, rfl, rfl, rfl, rfl, rfl, rfl, rfl, rfl, rfl, rfl, rfl, rfl, rfl, rfl, rfl, rfl, rfl, rfl, rfl, rfl⟩ rfl rfl fun _ => by rw [hs]; rfl)
  | rxTimeout2 hs => exact .quiet ([.getStatus] ++ [.setMode .sleep]) (by simp) (by simp [plain]) (by simp) (.same hm ⟨rfl, rfl, rfl, rfl, rfl, rfl, rfl, rfl, rfl, rfl, rfl, rfl, rfl, rfl, rfl, rfl, rfl, rfl, rfl, rfl, rfl⟩ rfl rfl fun _ => by rw [hs]; rfl)
  | lockout hs =>
    exact (downlinkMissing_missing ..).does hm (by rw [hs]; rfl) kr rfl rfl rfl rfl [] (by simp) (by simp) (by simp)

theorem txSetting_congr {a b : Mac} (h1 : a.ctx.region = b.ctx.region) (h2 : a.ctx.txParamSetup = b.ctx.txParamSetup)
    (h3 : a.tx.freq = b.tx.freq) (h4 : a.tx.rate = b.tx.rate) (h5 : a.tx.power = b.tx.power) :
    txSetting a = txSetting b := by
  unfold txSetting txEirp
  simp only [h1, h2, h3, h4, h5]

theorem micDataFrame_congr {cfg : Cfg} {a b : Mac} (h1 : a.ctx = b.ctx) (h2 : a.tx = b.tx) (h3 : a.keys = b.keys)
    (buf : Bytes) (len : Nat) : Ops.micDataFrame cfg a buf len = Ops.micDataFrame cfg b buf len := by
  unfold Ops.micDataFrame
  simp only [h1, h2, h3]

/-- The preparation of `process` does not matter. -/
theorem OpStep.prep {cfg : Cfg} {e : Env} {m m1 m' : Mac} {t : List (TxSetting × Bytes)} {n : List Nat}
    (h : OpStep cfg e m1 .process m' t n)
    (hp : ∃ tt tr d b ia is ta tb o, m1 = { m with
      timeTicks := tt, timeRemainder := tr, day := d, band := b, inputArmed := ia, inputState := is,
      timerA := ta, timerB := tb, out := o }) : OpStep cfg e m .process m' t n := by
  obtain ⟨tt, tr, d, b, ia, is, ta, tb, o, hm⟩ := hp
  have ek : ∀ x, Keep m1 x → Keep m x := by
    intro x hk
    rw [hm] at hk
    exact ⟨hk.op, hk.opts, hk.freq, hk.chIndex, hk.rate, hk.power,
      hk.counter, hk.len, hk.nbTrans, hk.setup, hk.region, hk.up, hk.devAddr, hk.version, hk.joined, hk.devNonce,
      hk.joinNonce, hk.keys, hk.joinEUI, hk.devEUI, hk.rx⟩
  have er : ∀ x, NewRequest cfg e m1 x → NewRequest cfg e m x := by
    intro x hr
    rw [hm] at hr
    exact ⟨hr.op, hr.state, hr.nonceOk, hr.devNonce, hr.ids, hr.made⟩
  have ee : ∀ x, Rest m1 .process x → Rest m .process x := by
    intro x hr
    rw [hm] at hr
    exact ⟨hr.devNonce, hr.buffer, hr.joinEUI, hr.devEUI, hr.session⟩
  have eop : m1.op = m.op := by rw [hm]
  have est : m1.state = m.state := by rw [hm]
  have etr : m1.trials = m.trials := by rw [hm]
  have ebu : m1.buffer = m.buffer := by rw [hm]
  have ebl : m1.bufferLen = m.bufferLen := by rw [hm]
  have edn : m1.devNonce = m.devNonce := by rw [hm]
  have ectx : m1.ctx = m.ctx := by rw [hm]
  have etx : m1.tx = m.tx := by rw [hm]
  have eke : m1.keys = m.keys := by rw [hm]
  have eopts : m1.opts = m.opts := by rw [hm]
  cases h with
  | idle ho ho' hr => exact .idle (eop ▸ ho) ho' (ee _ hr)
  | keep ho hk ht hb hl => exact .keep (eop ▸ ho) (ek _ hk) (ht.trans etr) (hb.trans ebu) (hl.trans (by rw [est]))
  | ended ho ho' hr => exact .ended (eop ▸ ho) ho' (ee _ hr)
  | sent ho hc hs hs' hk ht hb =>
    have := OpStep.sent (cfg := cfg) (e := e) (eop ▸ ho) hc (est ▸ hs) hs' (ek _ hk) (ht.trans etr) (hb.trans ebu)
    rw [txSetting_congr (a := m1) (b := m) (by rw [ectx]) (by rw [ectx]) (by rw [etx]) (by rw [etx]) (by rw [etx])]
    unfold Mac.frame
    rw [ebu, ebl]
    exact this
  | repeated ho hc hl hs hk ht hn hb =>
    refine .repeated (eop ▸ ho) hc (est ▸ hl) hs (ek _ hk) (by rw [ht, etr]) ?_ ?_
    · rw [← nbTransOf_congr eopts (by rw [ectx])]; exact hn
    · rw [hb, micDataFrame_congr ectx etx eke, ebu, ebl]
  | request ho hc hl hr hu ht =>
    rw [edn]
    exact .request (eop ▸ ho) hc (est ▸ hl) (er _ hr) (hu.trans (by rw [ectx])) (by rw [ht, etr])
  | join ho hc => cases hc
  | send ho c p d l o hc => cases hc

/-- Nor does the timer set at the end of `process`. -/
theorem OpStep.park {cfg : Cfg} {e : Env} {m m' : Mac} {t : List (TxSetting × Bytes)} {n : List Nat}
    (h : OpStep cfg e m .process m' t n) (p : Bool) (tb : Timer) :
    OpStep cfg e m .process { m' with parked := p, timerBand := tb } t n := by
  have ek : Keep m m' → Keep m { m' with parked := p, timerBand := tb } := fun hk =>
    ⟨hk.op, hk.opts, hk.freq, hk.chIndex, hk.rate, hk.power,
      hk.counter, hk.len, hk.nbTrans, hk.setup, hk.region, hk.up, hk.devAddr, hk.version, hk.joined, hk.devNonce,
      hk.joinNonce, hk.keys, hk.joinEUI, hk.devEUI, hk.rx⟩
  have er : NewRequest cfg e m m' → NewRequest cfg e m { m' with parked := p, timerBand := tb } := fun hr =>
    ⟨hr.op, hr.state, hr.nonceOk, hr.devNonce, hr.ids, hr.made⟩
  cases h with
  | idle ho ho' hr => exact .idle ho ho' ⟨hr.devNonce, hr.buffer, hr.joinEUI, hr.devEUI, hr.session⟩
  | keep ho hk ht hb hl => exact .keep ho (ek hk) ht hb hl
  | ended ho ho' hr => exact .ended ho ho' ⟨hr.devNonce, hr.buffer, hr.joinEUI, hr.devEUI, hr.session⟩
  | sent ho hc hs hs' hk ht hb => exact .sent ho hc hs hs' (ek hk) ht hb
  | repeated ho hc hl hs hk ht hn hb => exact .repeated ho hc hl hs (ek hk) ht hn hb
  | request ho hc hl hr hu ht => exact .request ho hc hl (er hr) hu ht
  | join ho hc => cases hc
  | send ho c p d l o hc => cases hc

theorem process_does (cfg : Cfg) (e : Env) (m : Mac) (hm : OpOk m) : Does cfg e m .process (process cfg e m) := by
  obtain ⟨ev, lag, m1, m2, p, t, hp, hd, h⟩ := process_disp cfg e m
  have h2 : Does cfg e m1 .process m2 := by
    rcases hd with ⟨_, hd⟩ | ⟨_, hd⟩
    · rw [hd]; exact .none rfl (.same (hp.opOk hm) (.refl m1) rfl rfl fun _ => rfl)
    · exact hd.does (hp.opOk hm)
  obtain ⟨o, ho, hs, hq⟩ := h2
  rw [h]
  have hs := (hs.prep hp.eq).park p t
  rcases hp.out with h1 | h1
  · exact ⟨o, by rw [← h1]; exact ho, hs, hq⟩
  · refine ⟨[.channelReady] ++ o, ?_, ?_, fun s hs => hq s (by simpa using hs)⟩
    · show m2.out = _
      rw [ho, h1, List.append_assoc]
    · rw [transmissions_append, nonceReports_append]
      exact hs

theorem OpOk.none_before {m : Mac} (hm : OpOk m) (h : m.op = .none) : afterTx m.state = false := by
  unfold OpOk at hm
  rw [h] at hm
  cases hs : m.state <;> rw [hs] at hm <;> first | rfl | exact absurd hm (by decide)

theorem cancel_keeps (m : Mac) : (cancel m).devNonce = m.devNonce ∧ (cancel m).ctx = m.ctx ∧ (cancel m).op = .none ∧
    (cancel m).joinNonce = m.joinNonce ∧ (cancel m).buffer = m.buffer ∧ (cancel m).joinEUI = m.joinEUI ∧
    (cancel m).devEUI = m.devEUI ∧
    ∃ o, (cancel m).out = m.out ++ o ∧ (∀ x ∈ o, plain x = true) ∧ ∀ s, .sessionUpdated s ∉ o := by
  rcases cancel_shape m with ⟨_, h⟩ | ⟨_, h⟩ <;> rw [h]
  · exact ⟨rfl, rfl, rfl, rfl, rfl, rfl, rfl, _, rfl, by split <;> simp [plain], by split <;> simp⟩
  · exact ⟨rfl, rfl, rfl, rfl, rfl, rfl, rfl, _, rfl, by split <;> simp [plain], by split <;> simp⟩

theorem forget_out (m : Mac) : ∃ o, (forget m).out = (cancel m).out ++ o ∧ (∀ x ∈ o, plain x = true) ∧
    ∀ s, .sessionUpdated s ∈ o → s = (forget m).ctx := by
  unfold forget
  simp only []
  split
  · exact ⟨[.sessionUpdated (forgetNetwork { cancel m with band := upd (cancel m).band GLOBAL 0 }).ctx], rfl, by simp [plain],
      by simp [pushSessionUpdate, Mac.emit]⟩
  · exact ⟨[], by simp, by simp, by simp⟩

theorem Api.does {cfg : Cfg} {e : Env} {m m' : Mac} {c : Call} {st : Status} (h : Api cfg e m c m' st)
    (hm : OpOk m) : Does cfg e m c m' := by
  cases h with
  | refused => exact .none rfl (.same hm (.refl m) rfl rfl fun _ => rfl)
  | entropyIdle ho hs => exact .none rfl (.idle (Or.inl ho) (Or.inr rfl) ⟨rfl, rfl, rfl, rfl, Or.inl ⟨rfl, id⟩⟩)
  | entropyLater ho hs => exact .none rfl (.idle (Or.inl ho) (Or.inr rfl) ⟨rfl, rfl, rfl, rfl, Or.inl ⟨rfl, id⟩⟩)
  | otaa hj ho hn y hy s t hst =>
    obtain ⟨k, hk⟩ := deriveJoinKeys_shape cfg { m with trials := 0, day := 60 * 60 * 24 * timeTPS }
    rw [hk] at hy
    obtain ⟨h1, h2, h3, h4, h5, h6, h7, h8, h9⟩ := nextJoinRequest_keeps hy
    have hd1 : u32 (m.devNonce + 1) = m.devNonce + 1 := Nat.mod_eq_of_lt (by omega)
    have hd2 : y.devNonce = m.devNonce + 1 := h2.trans hd1
    refine ⟨[.devNonceUpdated (m.devNonce + 1)], ?_, .join ho rfl hj ⟨rfl, ?_, hn, hd2, ⟨h8, h9⟩,
      { m with trials := 0, day := 60 * 60 * 24 * timeTPS, keys := k }, rfl, rfl, rfl, rfl, rfl, h3.symm, h4.symm, ?_⟩ h6 h5, by simp⟩
    · rw [← hd1]; exact h7
    · rcases hst with ⟨_, rfl, _⟩ | ⟨_, rfl, _⟩
      · rfl
      · exact hm.none_before ho
    · rw [← hy]
      exact ⟨rfl, rfl, rfl, rfl, rfl, rfl, h5.symm, rfl⟩
  | abp hj ho d => exact .none rfl (.idle (Or.inl ho) (Or.inl ho) ⟨rfl, rfl, rfl, rfl, Or.inl ⟨rfl, fun _ => rfl⟩⟩)
  | dataRefused c p d l o ho tx st => exact .none rfl (.idle (Or.inl ho) (Or.inl ho) ⟨rfl, rfl, rfl, rfl, Or.inl ⟨rfl, id⟩⟩)
  | data c p d l o hj ho hp hb freq ch rate hc hl y hy =>
    obtain ⟨b, bl, op, s, t, h, hop, hst⟩ := sendData_shape cfg e y c p d l o (m.ctx.region.convertRate m.ctx.rate).mtu
    have hy0 : y.state = m.state := by rw [hy]
    refine .quiet [.sessionUpdated (uplinkAnswers cfg y (dataOptions o)).2] ?_ (by simp [plain]) (by rw [h]; simp)
      (.send ho c p d l o rfl hj hp hb freq ch rate hc hl (by rw [hy]) ?_ ?_)
    · rw [h, hy]
    · rw [h]
      show afterTx s = false
      rcases hst with ⟨_, h, _⟩ | ⟨_, h, _⟩
      · rw [h]; rfl
      · rw [h, hy0]; exact hm.none_before ho
    · rw [h]
  | forget =>
    obtain ⟨h1, h2, h3, h4, b1, b2, b3, o, h5, h6, hq⟩ := cancel_keeps m
    obtain ⟨o', h7, h8, hq'⟩ := forget_out m
    obtain ⟨fp, pa, c, b, o2, h⟩ := forget_shape m
    have hop : (LDL.forget m).op = .none := by rw [h]; exact h3
    have hr : Rest m .forget (LDL.forget m) :=
      ⟨by rw [h]; exact h1, by rw [h]; exact b1, by rw [h]; exact b2, by rw [h]; exact b3, Or.inr rfl⟩
    refine .quiet (o ++ o') (by rw [h7, h5, List.append_assoc]) ?_ ?_ ?_
    · intro x hx
      rcases List.mem_append.1 hx with hx | hx
      · exact h6 x hx
      · exact h8 x hx
    · intro s hx
      rcases List.mem_append.1 hx with hx | hx
      · exact absurd hx (hq s)
      · exact hq' s hx
    · rcases idle_or_tx hm with hi | hi
      · exact .idle hi (Or.inl hop) hr
      · exact .ended hi hop hr
  | cancel =>
    obtain ⟨h1, h2, h3, h4, b1, b2, b3, o, h5, h6, hq⟩ := cancel_keeps m
    refine .quiet o h5 h6 (fun s hs => absurd hs (hq s)) ?_
    rcases idle_or_tx hm with hi | hi
    · exact .idle hi (Or.inl h3) ⟨h1, b1, b2, b3, Or.inl ⟨by rw [h2], fun h => by rw [h2]; exact h⟩⟩
    · exact .ended hi h3 ⟨h1, b1, b2, b3, Or.inl ⟨by rw [h2], fun h => by rw [h2]; exact h⟩⟩
  | setRate r hr => exact .quiet _ rfl (by simp [plain]) (by simp [pushSessionUpdate, Mac.emit]) (.same hm ⟨rfl, rfl, rfl, rfl, rfl, rfl, rfl, rfl, rfl, rfl, rfl, rfl, rfl, rfl, rfl, rfl, rfl, rfl, rfl, rfl, rfl⟩ rfl rfl fun _ => rfl)
  | setPower r hr => exact .quiet _ rfl (by simp [plain]) (by simp [pushSessionUpdate, Mac.emit]) (.same hm ⟨rfl, rfl, rfl, rfl, rfl, rfl, rfl, rfl, rfl, rfl, rfl, rfl, rfl, rfl, rfl, rfl, rfl, rfl, rfl, rfl, rfl⟩ rfl rfl fun _ => rfl)
  | setADR v => exact .quiet _ rfl (by simp [plain]) (by simp [pushSessionUpdate, Mac.emit]) (.same hm ⟨rfl, rfl, rfl, rfl, rfl, rfl, rfl, rfl, rfl, rfl, rfl, rfl, rfl, rfl, rfl, rfl, rfl, rfl, rfl, rfl, rfl⟩ rfl rfl fun _ => rfl)
  | setMaxDCycle v => exact .quiet _ rfl (by simp [plain]) (by simp [pushSessionUpdate, Mac.emit]) (.same hm ⟨rfl, rfl, rfl, rfl, rfl, rfl, rfl, rfl, rfl, rfl, rfl, rfl, rfl, rfl, rfl, rfl, rfl, rfl, rfl, rfl, rfl⟩ rfl rfl fun _ => rfl)
  | addChannel ch f a b st =>
    obtain ⟨cc, h⟩ := setChannel_shape m.ctx ch f a b
    rw [h]
    exact .none rfl (.same hm ⟨rfl, rfl, rfl, rfl, rfl, rfl, rfl, rfl, rfl, rfl, rfl, rfl, rfl, rfl, rfl, rfl, rfl, rfl, rfl, rfl, rfl⟩ rfl rfl fun _ => rfl)
  | maskChannel ch st => exact .none rfl (.same hm ⟨rfl, rfl, rfl, rfl, rfl, rfl, rfl, rfl, rfl, rfl, rfl, rfl, rfl, rfl, rfl, rfl, rfl, rfl, rfl, rfl, rfl⟩ rfl rfl fun _ => rfl)
  | unmaskChannel ch st => exact .none rfl (.same hm ⟨rfl, rfl, rfl, rfl, rfl, rfl, rfl, rfl, rfl, rfl, rfl, rfl, rfl, rfl, rfl, rfl, rfl, rfl, rfl, rfl, rfl⟩ rfl rfl fun _ => rfl)
  | latched t hi ha => exact .none rfl (.same hm ⟨rfl, rfl, rfl, rfl, rfl, rfl, rfl, rfl, rfl, rfl, rfl, rfl, rfl, rfl, rfl, rfl, rfl, rfl, rfl, rfl, rfl⟩ rfl rfl fun _ => rfl)
  | ignored t h => exact .none rfl (.same hm (.refl m) rfl rfl fun _ => rfl)
  | late t hi ha => exact .none rfl (.same hm ⟨rfl, rfl, rfl, rfl, rfl, rfl, rfl, rfl, rfl, rfl, rfl, rfl, rfl, rfl, rfl, rfl, rfl, rfl, rfl, rfl, rfl⟩ rfl rfl fun _ => rfl)
  | notLate t => exact .none rfl (.same hm (.refl m) rfl rfl fun _ => rfl)

/-- **Every call does one of the things listed by `OpStep`.** -/
theorem step_does (cfg : Cfg) (e : Env) (m : Mac) (c : Call) (hm : OpOk m) : Does cfg e m c (step cfg m e c).1 := by
  by_cases hc : c = .process
  · subst hc; exact process_does cfg e m hm
  · exact (step_api cfg e m c hc).does hm

end LDL
