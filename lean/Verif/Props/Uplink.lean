import Verif.Props.Transmit

/-!
# Uplinks and a network server: C17
-/

namespace LDL
open Spec

theorem payloadCrypt_twice {E : Bytes → Bytes} (hE : BlockFn E) {hdr : Bytes} (hh : hdr.length = 15) (i : Nat) (x : Bytes) :
    payloadCrypt E hdr i (payloadCrypt E hdr i x) = x := by
  have hl := payloadCrypt_length (i := i) hE hh x
  unfold payloadCrypt at *
  rw [hl]
  apply xorBytes_self
  rw [keystream_length hE hh]
  omega

theorem cryptOpts_twice {cfg : Cfg} (hE : ∀ k, BlockFn (cfg.E k)) (v : Bool) (k : SessionKeys) (up : Bool)
    (a c : Nat) (o : Bytes) : cryptOpts cfg.E v k up a c (cryptOpts cfg.E v k up a c o) = o := by
  unfold cryptOpts
  split
  · exact payloadCrypt_twice (hE _) (blockA_length ..) _ _
  · rfl

theorem cryptPayload_twice {cfg : Cfg} (hE : ∀ k, BlockFn (cfg.E k)) (k : SessionKeys) (up : Bool)
    (a c p : Nat) (o : Bytes) : cryptPayload cfg.E k up a c p (cryptPayload cfg.E k up a c p o) = o :=
  payloadCrypt_twice (hE _) (blockA_length ..) _ _

theorem uplinkMic_lt (E : Bytes → Bytes → Bytes) (v : Bool) (k : SessionKeys) (a b c d e : Nat) (msg : Bytes) :
    uplinkMic E v k a b c d e msg < 2 ^ 32 := by
  unfold uplinkMic
  simp only []
  split
  · omega
  · exact micOf_lt _

/-- A server gets back what was sealed. -/
theorem receive_sealed {cfg : Cfg} (hE : ∀ k, BlockFn (cfg.E k)) (m : Mac) (f : Frame.Data) (ho : f.opts.length ≤ 15)
    (ht : f.type = 2 ∨ f.type = 4) (hc : f.counter < 65536) (ha : f.devAddr < 4294967296) (hp : f.port < 256)
    (conf dr ch : Nat) :
    receiveUp cfg.E (sess11 cfg m) (deviceKeys cfg m) f.devAddr f.counter conf dr ch
      ((sealed cfg m f).body ++ le 4 (uplinkMic cfg.E (sess11 cfg m) (deviceKeys cfg m) f.devAddr f.counter conf dr ch
        (sealed cfg m f).body)) =
      some { confirmed := decide (f.type = 4), adr := f.adr, adrAckReq := f.adrAckReq, ack := f.ack, fopts := f.opts
             payload := f.data.map fun d => (f.port, d) } := by
  have hmic := uplinkMic_lt cfg.E (sess11 cfg m) (deviceKeys cfg m) f.devAddr f.counter conf dr ch (sealed cfg m f).body
  generalize hM : uplinkMic cfg.E (sess11 cfg m) (deviceKeys cfg m) f.devAddr f.counter conf dr ch
    (sealed cfg m f).body = mic at hmic
  have hpe := Frame.parse_encode { sealed cfg m f with mic := mic } ⟨by
      rcases ht with h | h
      · show f.type < 8; omega
      · show f.type < 8; omega, ha, hc, by
      show (sealed cfg m f).fopts.length ≤ 15
      have : (sealed cfg m f).fopts.length = f.opts.length := cryptOpts_length hE ..
      omega, by
      intro p d h
      have : (sealed cfg m f).payload = some (p, d) := h
      unfold sealed at this
      simp only [Option.map_eq_some_iff] at this
      obtain ⟨_, _, h⟩ := this
      cases h
      exact hp, hmic⟩
  have henc : ({ sealed cfg m f with mic := mic } : DataFrame).encode = (sealed cfg m f).body ++ le 4 mic := rfl
  rw [henc] at hpe
  have hlen : ((sealed cfg m f).body ++ le 4 mic).take (((sealed cfg m f).body ++ le 4 mic).length - 4) =
      (sealed cfg m f).body := by
    rw [List.length_append, Stream.le_length, Nat.add_sub_cancel, List.take_left]
  unfold receiveUp
  rw [hpe]
  simp only [hlen, hM]
  rw [if_pos ⟨ht, rfl, (Nat.mod_eq_of_lt hc).symm, trivial⟩]
  congr 1
  have h1 : cryptOpts cfg.E (sess11 cfg m) (deviceKeys cfg m) true f.devAddr f.counter (sealed cfg m f).fopts = f.opts :=
    cryptOpts_twice hE ..
  rw [h1]
  have h2 : ((sealed cfg m f).payload.map fun p =>
      (p.1, cryptPayload cfg.E (deviceKeys cfg m) true f.devAddr f.counter p.1 p.2)) = f.data.map fun d => (f.port, d) := by
    unfold sealed
    cases f.data with
    | none => rfl
    | some d =>
      simp only [Option.map_some, cryptPayload_twice hE]
  rw [h2]
  rfl

/-- The bytes of the MAC commands due, with those requested by the application. -/
def commandBytes (cfg : Cfg) (s : Session) (opts : Option DataOpts) : Bytes :=
  (answers cfg.v11 s (opts.getD {}).check (opts.getD {}).getTime).flatMap encodeUp

/-- What a server should get out of the uplink for a send request: the application's payload on the port with the
MAC commands in FOpts if the status was `ok`; the MAC commands alone, unconfirmed, if it was `macPriority`. -/
def Carries (cfg : Cfg) (m : Mac) (confirmed : Bool) (port : Nat) (payload : Option Bytes) (opts : Option DataOpts)
    (st : Status) (msg : UpMsg) : Prop :=
  msg.adr = m.ctx.adr ∧ msg.adrAckReq = m.adrAckReq ∧ msg.ack = m.pendingACK ∧
  if st = .ok then
    msg.confirmed = confirmed ∧ msg.fopts = commandBytes cfg m.ctx opts ∧ msg.payload = payload.map fun d => (port, d)
  else
    msg.confirmed = false ∧
    if (commandBytes cfg m.ctx opts).length ≤ 15 then msg.fopts = commandBytes cfg m.ctx opts ∧ msg.payload = none
    else msg.fopts = [] ∧ msg.payload = some (0, commandBytes cfg m.ctx opts)

theorem placed_carries {cfg : Cfg} {m : Mac} {confirmed : Bool} {port : Nat} {payload : Option Bytes} {len max : Nat}
    {opts : Option DataOpts} {f : Frame.Data} {c : Bool} {st : Status}
    (hp : placeMacData (dataHeader m confirmed port) confirmed (answerBytes cfg m (dataOptions opts)) payload len max
      = (f, c, st)) :
    Carries cfg m confirmed port payload opts st
      { confirmed := decide (f.type = 4), adr := f.adr, adrAckReq := f.adrAckReq, ack := f.ack, fopts := f.opts
        payload := f.data.map fun d => (f.port, d) } ∧
      (f.type = 2 ∨ f.type = 4) ∧ f.counter = u16 m.ctx.up ∧ f.devAddr = m.ctx.devAddr ∧ (f.port = 0 ∨ f.port = port) := by
  have hcb : answerBytes cfg m (dataOptions opts) = commandBytes cfg m.ctx opts := by cases opts <;> rfl
  rw [hcb] at hp
  unfold Carries
  generalize commandBytes cfg m.ctx opts = macs at *
  unfold placeMacData at hp
  by_cases h1 : macs.length > 15
  · rw [if_pos h1] at hp
    cases hp
    rw [if_neg (by decide), if_neg (by omega)]
    exact ⟨⟨rfl, rfl, rfl, rfl, rfl, rfl⟩, Or.inl rfl, rfl, rfl, Or.inl rfl⟩
  · rw [if_neg h1] at hp
    by_cases h2 : len + Frame.dataOverhead + macs.length > max
    · rw [if_pos h2] at hp
      cases hp
      rw [if_neg (by decide), if_pos (by omega)]
      exact ⟨⟨rfl, rfl, rfl, rfl, rfl, rfl⟩, Or.inl rfl, rfl, rfl, Or.inr rfl⟩
    · rw [if_neg h2] at hp
      cases hp
      rw [if_pos rfl]
      cases confirmed
      · exact ⟨⟨rfl, rfl, rfl, rfl, rfl, rfl⟩, Or.inl rfl, rfl, rfl, Or.inr rfl⟩
      · exact ⟨⟨rfl, rfl, rfl, rfl, rfl, rfl⟩, Or.inr rfl, rfl, rfl, Or.inr rfl⟩

/-- **C17, partial**: whatever is handed to the radio for an accepted send request passes the checks of a server that
expects the counter, and gives the server exactly the payload and MAC commands.  The server knows the channel, data
rate and keys; `conf` is the counter of the confirmed downlink that is acknowledged (1.1 only, else 0).

Left out, because the code differs from the specification there: counters from 65536 on (`c17_counter_high`), frames
of 244 bytes (`c17_length_244`), and in 1.1 sessions uplinks that acknowledge a downlink with another counter than 0
(`c17_conf_counter`). -/
theorem c17_accepted_by_server_partial {cfg : Cfg} (hE : ∀ k, BlockFn (cfg.E k)) {m : Mac} (hr : Reachable cfg m)
    (e : Env) (confirmed : Bool) (port : Nat) (payload : Option Bytes) (len : Nat) (opts : Option DataOpts)
    (hw : (Call.data confirmed port payload len opts).WF) (hnull : payload = none → len = 0)
    (ha : Accepted (step cfg m e (.data confirmed port payload len opts)).2)
    (hup : m.ctx.up < 65536) (conf : Nat) (hconf : sess11 cfg m = true → conf = 0)
    (calls : List (Env × Call)) (hc : ∀ x ∈ calls, x.2.WF) (s : TxSetting) (frame : Bytes)
    (hx : (s, frame) ∈ sentBy cfg (step cfg m e (.data confirmed port payload len opts)).1 calls)
    (h244 : frame.length ≠ 244) :
    ∃ dr ch lo hi msg, chan m.ctx ch = some (s.freq, lo, hi) ∧
      (RangeOk m.ctx.region lo hi → s.sf = sfOf m.ctx.region dr ∧ bwToNumber s.bw = bwOf m.ctx.region dr) ∧
      receiveUp cfg.E (sess11 cfg m) (deviceKeys cfg m) m.ctx.devAddr m.ctx.up conf dr ch frame = some msg ∧
      Carries cfg m confirmed port payload opts (step cfg m e (.data confirmed port payload len opts)).2 msg := by
  have hs := sent_setting hE hr e confirmed port payload len opts hw ha calls hc _ hx
  obtain ⟨lo, hi, h1, h2, h3, h4, _⟩ := sent_channel hr e confirmed port payload len opts ha _ rfl
  obtain ⟨_, _, _, hport, _⟩ := (c24_accepted_iff hr e confirmed port payload len opts).1 ha
  obtain ⟨freq, ch, rate, f, c, _, hp, ho, _, hlen, hfr, htx, hctx, hkeys, _⟩ :=
    send_frame hE hr e confirmed port payload len opts hw hnull ha _ rfl
  generalize (step cfg m e (.data confirmed port payload len opts)).1 = m' at hs h1 h2 h3 h4 hfr htx hctx hkeys
  generalize (step cfg m e (.data confirmed port payload len opts)).2 = st at hp ha
  simp only [Prod.mk.injEq] at hs
  obtain ⟨hs, hfrm⟩ := hs
  have hmtu := convertRate_mtu m.ctx.region m.ctx.rate
  obtain ⟨hcar, hty, hcnt, hadr, hpt⟩ := placed_carries hp
  have hpl := placed_length hE m (dataHeader m confirmed port) f c st ⟨rfl, rfl, rfl⟩ confirmed _
    (uplinkAnswers_bytes cfg m (dataOptions opts)).2 payload len _ hw.2.2.1 hp ho
  have hbl : (sealed cfg m f).body.length ≤ 255 := by
    by_cases hst : st = .ok
    · have := hpl.1 hst; omega
    · have := hpl.2 hst; omega
  have hfl : frame.length = (sealed cfg m f).body.length + 4 := by
    rw [hfrm, hfr, List.length_append, Stream.le_length]
  have hcnt' : f.counter = m.ctx.up := by rw [hcnt]; exact Nat.mod_eq_of_lt (by omega)
  obtain ⟨pc, hpc⟩ := (putAnswers_inv cfg { m.ctx with up := u32 (m.ctx.up + 1) } (dataOptions opts)).session
  have hk : deviceKeys cfg m' = deviceKeys cfg m := by unfold deviceKeys; rw [hkeys]
  have hv : sess11 cfg m' = sess11 cfg m := by unfold sess11 sessVersion; rw [hctx, hpc]
  have hmic : upMic cfg m' (sealed cfg m f).body = uplinkMic cfg.E (sess11 cfg m) (deviceKeys cfg m) f.devAddr f.counter
      conf m'.tx.rate m'.tx.chIndex (sealed cfg m f).body := by
    rw [upMic_eq hE m' _ hbl (by omega), hk, hv]
    have e1 : m'.ctx.devAddr = f.devAddr := by rw [hadr, hctx, hpc]
    have e2 : m'.tx.counter = f.counter := by rw [hcnt', htx]
    rw [e1, e2]
    unfold uplinkMic
    cases h11 : sess11 cfg m with
    | true => rw [hconf h11]
    | false => rfl
  rw [hmic] at hfr
  have hrec := receive_sealed hE m f ho hty (by omega) (by rw [hadr]; exact hr.sessionOk.devAddr)
    (by rcases hpt with h | h <;> omega) conf m'.tx.rate m'.tx.chIndex
  rw [← hfr, ← hfrm, hadr, hcnt'] at hrec
  refine ⟨m'.tx.rate, m'.tx.chIndex, lo, hi, _, ?_, fun hok => ?_, hrec, hcar⟩
  · rw [hs]; exact h2
  · obtain ⟨r1, r2, r3⟩ := requiredRate_range hr.sessionOk.rate hok
    rw [← h3] at r3
    obtain ⟨c1, c2, _⟩ := convertRate_spec m.ctx.region m'.tx.rate (List.mem_append_left _ r3)
    constructor
    · rw [hs]
      show (m'.ctx.region.convertRate m'.tx.rate).sf = _
      rw [h4, c1]
    · rw [hs]
      show bwToNumber (m'.ctx.region.convertRate m'.tx.rate).bw = _
      rw [h4, c2]

/-- The frame of the demonstration device, and what the server gets. -/
example : (sentBy Demo.cfg (step Demo.cfg Demo.joined (Demo.at_ 30000) (.data true 9 (some [1, 2, 3]) 3 none)).1
      (Demo.cycle 30000)).map (fun x =>
        receiveUp Demo.cfg.E (sess11 Demo.cfg Demo.joined) (deviceKeys Demo.cfg Demo.joined) 1 0 0 0 0 x.2) =
      [some ⟨true, true, false, false, [], some (9, [1, 2, 3])⟩] := by decide +kernel

/-- The demonstration device after 65536 uplinks. -/
def highCounter : Session := { Demo.joined.ctx with up := 65536 }

theorem highCounter_ok : SessionOk highCounter := by
  have h := Demo.joined_reachable.sessionOk
  have hj : Demo.joined.ctx.joined = true := by decide +kernel
  exact ⟨h.rate, h.power, h.words, by decide, h.appDown, h.nwkDown, h.devAddr, h.netID, h.joinNonce, h.devNonce,
    h.nbTrans, h.rx1DROffset, h.rx2DataRate, h.rx1Delay, h.adrAckLimit, h.adrAckDelay,
    (fun hc => absurd (hj.symm.trans hc) (by decide)), h.magic, h.mask, h.txParamSetup⟩

/-- C17 does not hold from counter 65536 on: the payload is encrypted with the low 16 bits of the counter only.  Zeros
sent arrive as something else. -/
theorem c17_counter_high : Reachable Demo.cfg (Demo.restored Demo.cfg highCounter) ∧
    (step Demo.cfg (Demo.restored Demo.cfg highCounter) (Demo.at_ 30000)
      (.data false 1 (some (List.replicate 16 0)) 16 none)).2 = .ok ∧
    (sentBy Demo.cfg (step Demo.cfg (Demo.restored Demo.cfg highCounter) (Demo.at_ 30000)
      (.data false 1 (some (List.replicate 16 0)) 16 none)).1 (Demo.cycle 30000)).map (fun x =>
        receiveUp Demo.cfg.E false (deviceKeys Demo.cfg (Demo.restored Demo.cfg highCounter)) 1 65536 0 0 0 x.2) =
      [some ⟨false, true, false, false, [], some (1, [0, 0, 0, 0, 0, 0, 0, 0, 0, 0, 0, 0, 1, 0, 0, 0])⟩] :=
  ⟨Demo.restored_reachable _ highCounter_ok, by decide +kernel, by decide +kernel⟩

/-- C17 does not hold for frames of 244 bytes: the MIC is wrong whatever the channel and rate (`c12_wrong_at_256`). -/
theorem c17_length_244 : Reachable Demo.cfg (run Demo.cfg Demo.joined [(Demo.at_ 25000, .setRate 5)]) ∧
    (step Demo.cfg (run Demo.cfg Demo.joined [(Demo.at_ 25000, .setRate 5)]) (Demo.at_ 30000)
      (.data false 1 (some (List.replicate 231 7)) 231 none)).2 = .ok ∧
    (sentBy Demo.cfg (step Demo.cfg (run Demo.cfg Demo.joined [(Demo.at_ 25000, .setRate 5)]) (Demo.at_ 30000)
      (.data false 1 (some (List.replicate 231 7)) 231 none)).1 (Demo.cycle 30000)).map (fun x =>
        (x.2.length, receiveUp Demo.cfg.E false (deviceKeys Demo.cfg Demo.joined) 1 0 0 5 0 x.2)) = [(244, none)] :=
  ⟨Demo.run_reach Demo.joined_reachable _ (by decide +kernel), by decide +kernel, by decide +kernel⟩

/-- A LoRaWAN 1.1 session. -/
def session11 : Session := { Demo.joined.ctx with version := 1 }

theorem session11_ok : SessionOk session11 := by
  have h := Demo.joined_reachable.sessionOk
  exact ⟨h.rate, h.power, h.words, h.up, h.appDown, h.nwkDown, h.devAddr, h.netID, h.joinNonce, h.devNonce,
    h.nbTrans, h.rx1DROffset, h.rx2DataRate, h.rx1Delay, h.adrAckLimit, h.adrAckDelay, h.fresh, h.magic, h.mask, h.txParamSetup⟩

/-- A confirmed downlink with counter 7. -/
def confirmedDown : DataFrame :=
  { mtype := 5, devAddr := 1, adr := false, adrAckReq := false, ack := true, fPending := false, fcnt := 7, fopts := []
    payload := none, mic := 0 }

/-- The device after receiving the confirmed downlink. -/
def toAcknowledge : Mac :=
  let m := Demo.restored Demo.cfg11 session11
  run Demo.cfg11 m ([(Demo.at_ 30000, .data true 1 none 0 none)] ++ Demo.untilRx1 30000 ++
    Demo.rxPacket (sendDown Demo.cfg11.E true (deviceKeys Demo.cfg11 m) 0 7 confirmedDown) 2600000 ++
    Demo.processAt [600000000])

/-- C17 does not hold in 1.1 sessions for an uplink that acknowledges a confirmed downlink with counter 7: the
MIC is computed as if it had been 0. -/
theorem c17_conf_counter : Reachable Demo.cfg11 toAcknowledge ∧ toAcknowledge.pendingACK = true ∧
    sess11 Demo.cfg11 toAcknowledge = true ∧
    (sentBy Demo.cfg11 (step Demo.cfg11 toAcknowledge (Demo.at_ 600000000) (.data false 1 none 0 none)).1
      (Demo.cycle 600000000)).map (fun x =>
        (receiveUp Demo.cfg11.E true (deviceKeys Demo.cfg11 toAcknowledge) 1 1 7 0 1 x.2,
         receiveUp Demo.cfg11.E true (deviceKeys Demo.cfg11 toAcknowledge) 1 1 0 0 1 x.2)) =
      [(none, some ⟨false, true, false, true, [], none⟩)] :=
  ⟨Demo.run_reach (Demo.restored_reachable _ session11_ok) _ (by decide +kernel), by decide +kernel,
    by decide +kernel, by decide +kernel⟩

end LDL
