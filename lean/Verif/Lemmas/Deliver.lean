import Verif.Lemmas.Downlink
import Verif.Lemmas.Commands
import Verif.Lemmas.Cases

/-!
# What a received data downlink does to the device
-/

namespace LDL
open Spec Frame

/-- A packet is waiting in the radio at the time of the call, and the device is in a receive window. -/
def Receiving (m : Mac) (e : Env) : Prop :=
  (m.state = .rx1 ∨ m.state = .rx2) ∧ m.inputState = true ∧ e.statusRx = true

instance (m : Mac) (e : Env) : Decidable (Receiving m e) := by unfold Receiving; infer_instance

/-- A data operation is in progress. -/
def DataOp (m : Mac) : Prop := m.op = .dataUnconfirmed ∨ m.op = .dataConfirmed

instance (m : Mac) : Decidable (DataOp m) := by unfold DataOp; infer_instance

/-- What `process` does with a packet. -/
theorem receiving {cfg : Cfg} {m : Mac} {e : Env} (h : Receiving m e) : ∃ lag x p t, Prep e m x .interrupt lag ∧
    process cfg e m = { (match Ops.receiveFrame cfg m e.rxBuffer e.received.length with
      | (some f, buf) => pushSessionUpdate (
          if f.type = Frame.DATA_CONFIRMED_DOWN ∨ f.type = Frame.DATA_UNCONFIRMED_DOWN
          then dataReceived cfg e (packetState e x) f buf else joinAccepted cfg (packetState e x) f buf)
      | (none, _) => downlinkMissing cfg e (packetState e x)) with
      parked := p, timerBand := t } := by
  obtain ⟨hs, hi, hrx⟩ := h
  obtain ⟨ev, lag, x, hp, h⟩ := process_cases cfg e m
  have hev : ev = .interrupt := hp.interrupt.mpr hi
  subst hev
  rw [if_neg (by decide)] at h
  obtain ⟨p, t, hsh⟩ := setNextBandEvent_shape cfg e (dispatch cfg e .interrupt lag x)
  refine ⟨lag, x, p, t, hp, h.trans (hsh.trans ?_)⟩
  have hx : x.state = m.state ∧ x.op = m.op ∧ x.ctx = m.ctx ∧ x.keys = m.keys ∧ x.joinNonce = m.joinNonce ∧
      x.joinEUI = m.joinEUI := by
    obtain ⟨_, _, _, _, _, _, _, _, _, h⟩ := hp.eq
    rw [h]
    exact ⟨rfl, rfl, rfl, rfl, rfl, rfl⟩
  obtain ⟨q1, q2, q3, q4, q5, q6⟩ := hx
  have hc : Ops.receiveFrame cfg (packetState e x) e.rxBuffer e.received.length =
      Ops.receiveFrame cfg m e.rxBuffer e.received.length := by
    apply receiveFrame_congr <;> assumption
  have hd : dispatch cfg e .interrupt lag x = packetReceived cfg e (x.emit .getStatus) := by
    have hrxx : processRX cfg e .interrupt x = packetReceived cfg e (x.emit .getStatus) := by
      unfold processRX
      rw [if_neg (by decide), if_pos rfl]
      simp only []
      rw [if_neg (by simp [hrx]), if_pos hrx]
    unfold dispatch
    rcases hs with hs | hs <;> (rw [q1, hs]; exact hrxx)
  rw [hd]
  have hpr : packetReceived cfg e (x.emit .getStatus) =
      match Ops.receiveFrame cfg (packetState e x) e.rxBuffer e.received.length with
      | (some f, buf) => pushSessionUpdate (
          if f.type = Frame.DATA_CONFIRMED_DOWN ∨ f.type = Frame.DATA_UNCONFIRMED_DOWN
          then dataReceived cfg e (packetState e x) f buf else joinAccepted cfg (packetState e x) f buf)
      | (none, _) => downlinkMissing cfg e (packetState e x) := rfl
  rw [hpr, hc]

/-- The state in which the commands of a downlink are processed. -/
def beginMsg (m : Mac) (msg : DownMsg) : Mac :=
  { m with
    fPending := msg.pending, pendingACK := msg.confirmed
    ctx := clearPending (clearPending (clearPending m.ctx .rxParamSetup) .dlChannel) .rxTimingSetup
    adrAckCounter := 0, adrAckReq := false }

/-- The MAC commands of a downlink: in the options, or in the payload on port 0. -/
def _root_.LDL.Spec.DownMsg.commands (msg : DownMsg) : Bytes :=
  match msg.payload with
  | some (0, d) => d
  | _ => msg.fopts

/-- The application payload of a downlink. -/
def _root_.LDL.Spec.DownMsg.userData (msg : DownMsg) : Option (Nat × Bytes) :=
  match msg.payload with
  | some (0, _) => none
  | some (_ + 1, []) => none
  | some (p + 1, b :: d) => some (p + 1, b :: d)
  | none => none

/-- The effect of a downlink. -/
def deliver (cfg : Cfg) (e : Env) (m : Mac) (msg : DownMsg) : Mac :=
  let m := beginMsg m msg
  let m := if msg.commands = [] then m else processCommands cfg e m msg.commands
  let m := match msg.userData with
    | some (p, d) => m.emit (.rx p d)
    | none => m
  dataEnd m msg.ack

theorem dataReceived_deliver {cfg : Cfg} (e : Env) {m : Mac} (hz : Spec.FirstCounters m.ctx) {f : Frame.Down} {buf : Bytes}
    {msg : DownMsg} (hh : Holds f buf msg) (hpo : msg.fopts = [] ∨ msg.payload.map Prod.fst ≠ some 0) :
    dataReceived cfg e m f buf = deliver cfg e m msg := by
  have hb : dataBegin cfg m f = beginMsg m msg := by
    unfold dataBegin beginMsg
    simp only []
    rw [syncDownCounter_zero cfg hz _ hh.counter, hh.pending, hh.type]
    cases msg.confirmed <;> rfl
  unfold dataReceived deliver
  rw [hb, hh.ack]
  generalize beginMsg m msg = x
  congr 1
  have ho : dataOpts cfg e x f buf = if msg.fopts = [] then x else processCommands cfg e x msg.fopts := by
    unfold dataOpts
    cases ho : f.opts with
    | none => rw [if_pos (hh.noOpts ho)]
    | some o =>
      obtain ⟨h1, h2⟩ := hh.opts o ho
      rw [if_neg h2, ← h1]
      rfl
  rw [ho]
  unfold dataPayload DownMsg.commands DownMsg.userData
  cases hd : f.data with
  | none =>
    rcases hh.noData hd with h | ⟨p, h⟩
    · rw [h]
    · rw [h]
      rw [h] at hpo
      cases p with
      | zero =>
        have : msg.fopts = [] := by simpa using hpo
        rw [if_pos this]
        simp only [if_pos]
      | succ p => rfl
  | some o =>
    obtain ⟨h1, h2⟩ := hh.data o hd
    rw [h1]
    rw [h1] at hpo
    generalize hdd : slice buf o f.dataLen = d at *
    have hdd' : (buf.drop o).take f.dataLen = d := hdd
    simp only []
    rw [hdd']
    cases hp : f.port with
    | zero =>
      have : msg.fopts = [] := by simpa [hp] using hpo
      simp only []
      rw [if_pos this, if_pos trivial, if_neg h2]
    | succ p =>
      rw [if_neg (by omega)]
      cases d with
      | nil => exact absurd rfl h2
      | cons b d => rfl

/-- The received packet is, for the specification, a downlink of the session with the counter it shows. -/
def Delivered (cfg : Cfg) (m : Mac) (e : Env) (msg : DownMsg) : Prop :=
  openDown cfg.E (sess11 cfg m) (deviceKeys cfg m) m.ctx.devAddr (leValue (slice e.received 6 2)) (u16 (m.ctx.up + 65535))
    e.received = some msg

theorem openDown_port {E : Bytes → Bytes → Bytes} {v : Bool} {k : SessionKeys} {a c d : Nat} {bs : Bytes} {msg : DownMsg}
    (hl : ∀ x, (cryptOpts E v k false a c x).length = x.length)
    (h : openDown E v k a c d bs = some msg) :
    (msg.fopts = [] ∨ msg.payload.map Prod.fst ≠ some 0) ∧ ¬ OptsOverrun bs := by
  unfold openDown at h
  cases hp : parseData bs with
  | none => rw [hp] at h; cases h
  | some p =>
    rw [hp] at h
    simp only [] at h
    rw [Option.ite_none_right_eq_some] at h
    obtain ⟨⟨_, h1⟩, h2⟩ := h
    injection h2 with h2
    refine ⟨?_, ?_⟩
    · rw [← h2]
      simp only []
      rcases h1 with h1 | h1
      · refine Or.inl (List.eq_nil_of_length_eq_zero ?_)
        rw [hl, h1]; rfl
      · refine Or.inr ?_
        rw [Option.map_map]
        exact h1
    · rintro ⟨o1, o2⟩
      obtain ⟨b0, a0, a1, a2, a3, c, n0, n1, rest, rfl⟩ := eight (by omega : 8 ≤ bs.length)
      simp only [parseData] at hp
      split at hp
      · next hk =>
        simp only [List.getD_cons_succ, List.getD_cons_zero, List.length_cons] at o2
        omega
      · cases hp

/-- **A conforming downlink is delivered.** -/
theorem delivered {cfg : Cfg} (hE : ∀ k, BlockFn (cfg.E k)) {m : Mac} {e : Env} {msg : DownMsg} (hk : KeysOk cfg m)
    (hz : Spec.FirstCounters m.ctx) (hrx : Receiving m e) (ho : DataOp m) (hne : e.received.length ≠ 244)
    (hd : Delivered cfg m e msg) : ∃ lag x p t, Prep e m x .interrupt lag ∧
      process cfg e m = { pushSessionUpdate (deliver cfg e (packetState e x) msg) with parked := p, timerBand := t } := by
  obtain ⟨lag, x, p, t, hp, h⟩ := receiving (cfg := cfg) hrx
  refine ⟨lag, x, p, t, hp, h.trans ?_⟩
  obtain ⟨tail, ht⟩ := rxBuffer_eq e
  obtain ⟨hpo, hov⟩ := openDown_port (fun y => cryptOpts_length hE ..) hd
  have hr := receive_open hE hk hz ho tail (received_length e) hne hov
  unfold Delivered at hd
  rw [hd] at hr
  obtain ⟨f, buf, h1, h2⟩ := hr
  rw [ht, h1]
  simp only []
  have hty : f.type = Frame.DATA_CONFIRMED_DOWN ∨ f.type = Frame.DATA_UNCONFIRMED_DOWN := by
    rw [h2.type]; cases msg.confirmed
    · exact Or.inr rfl
    · exact Or.inl rfl
  have hx : x.ctx = m.ctx := by
    obtain ⟨_, _, _, _, _, _, _, _, _, h⟩ := hp.eq
    rw [h]
  have hz' : Spec.FirstCounters (packetState e x).ctx := by
    show Spec.FirstCounters x.ctx
    rw [hx]; exact hz
  rw [if_pos hty, dataReceived_deliver e hz' h2 hpo]

/-- Anything else is treated as a missing downlink. -/
theorem not_delivered {cfg : Cfg} (hE : ∀ k, BlockFn (cfg.E k)) {m : Mac} {e : Env} (hk : KeysOk cfg m)
    (hz : Spec.FirstCounters m.ctx) (hrx : Receiving m e) (ho : DataOp m) (hne : e.received.length ≠ 244)
    (hov : ¬ OptsOverrun e.received) (hd : ∀ msg, ¬ Delivered cfg m e msg) : ∃ lag x p t, Prep e m x .interrupt lag ∧
      process cfg e m = { downlinkMissing cfg e (packetState e x) with parked := p, timerBand := t } := by
  obtain ⟨lag, x, p, t, hp, h⟩ := receiving (cfg := cfg) hrx
  refine ⟨lag, x, p, t, hp, h.trans ?_⟩
  obtain ⟨tail, ht⟩ := rxBuffer_eq e
  have hr := receive_open hE hk hz ho tail (received_length e) hne hov
  cases hcase : openDown cfg.E (sess11 cfg m) (deviceKeys cfg m) m.ctx.devAddr (leValue (slice e.received 6 2))
      (u16 (m.ctx.up + 65535)) e.received with
  | some msg => exact absurd hcase (hd msg)
  | none =>
    rw [hcase] at hr
    obtain ⟨buf, h1⟩ := hr
    rw [ht, h1]

end LDL
