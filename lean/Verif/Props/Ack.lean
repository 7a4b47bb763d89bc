import Verif.Spec.Ack
import Verif.Props.Uplink
import Verif.Props.Downlink
import Verif.Lemmas.Demo
import Verif.Props.Stored

/-!
# Confirmed downlinks are acknowledged: C108
-/

namespace LDL
open Spec

theorem missing_flags (cfg : Cfg) (e : Env) (m : Mac) : flags (downlinkMissing cfg e m) = flags m := by
  have h := downlinkMissing_missing cfg e m
  generalize downlinkMissing cfg e m = x at h
  cases h with
  | nextJoin =>
    obtain ⟨_, _, _, _, h⟩ := nextJoinRequest_shape cfg e { m with trials := u32 (m.trials + 1) }
    rw [h]
    rfl
  | _ => rfl

theorem error_flags (cfg : Cfg) (e : Env) (m : Mac) : flags (handleRadioError cfg e m) = flags m := by
  have h := handleRadioError_cases cfg e m
  generalize handleRadioError cfg e m = x at h
  cases h with
  | nextJoin _ _ y hy =>
    obtain ⟨_, _, _, _, h⟩ := nextJoinRequest_shape cfg e { m with
        inputArmed := false, timerA := m.timerA.clear, timerB := m.timerB.clear, trials := u32 (m.trials + 1) }
    rw [hy, h]
    rfl
  | _ => rfl

/-- One event. -/
theorem Disp.flags {cfg : Cfg} {e : Env} {ev : Sme} {lag : Nat} {m m' : Mac} (h : Disp cfg e ev lag m m') :
    (∀ f, (m.state = .rx1 ∨ m.state = .rx2) → ev = .interrupt → e.statusRx = true →
      (Ops.receiveFrame cfg m e.rxBuffer e.received.length).1 = some f →
      (f.type = Frame.DATA_CONFIRMED_DOWN ∨ f.type = Frame.DATA_UNCONFIRMED_DOWN) →
      Spec.flags m' = ⟨decide (f.type = Frame.DATA_CONFIRMED_DOWN), f.pending⟩) ∧
    (m.state = .tx → ev = .interrupt → e.statusTx = true → Spec.flags m' = { Spec.flags m with ack := false }) ∧
    (Spec.flags m' = Spec.flags m ∨
      (∃ f, (m.state = .rx1 ∨ m.state = .rx2) ∧ ev = .interrupt ∧ e.statusRx = true ∧
        (Ops.receiveFrame cfg m e.rxBuffer e.received.length).1 = some f ∧
        (f.type = Frame.DATA_CONFIRMED_DOWN ∨ f.type = Frame.DATA_UNCONFIRMED_DOWN)) ∨
      m.state = .tx ∧ ev = .interrupt ∧ e.statusTx = true) := by
  have other : ∀ {x : Mac}, Spec.flags x = Spec.flags m →
      (¬ ((m.state = .rx1 ∨ m.state = .rx2) ∧ ev = .interrupt ∧ e.statusRx = true)) →
      (¬ (m.state = .tx ∧ ev = .interrupt ∧ e.statusTx = true)) → _ := fun {x} h h1 h2 =>
    (⟨fun f a b c _ _ => absurd ⟨a, b, c⟩ h1, fun a b c => absurd ⟨a, b, c⟩ h2, Or.inl h⟩ :
      (∀ f, (m.state = .rx1 ∨ m.state = .rx2) → ev = .interrupt → e.statusRx = true →
      (Ops.receiveFrame cfg m e.rxBuffer e.received.length).1 = some f →
      (f.type = Frame.DATA_CONFIRMED_DOWN ∨ f.type = Frame.DATA_UNCONFIRMED_DOWN) →
      Spec.flags x = ⟨decide (f.type = Frame.DATA_CONFIRMED_DOWN), f.pending⟩) ∧
    (m.state = .tx → ev = .interrupt → e.statusTx = true → Spec.flags x = { Spec.flags m with ack := false }) ∧
    (Spec.flags x = Spec.flags m ∨
      (∃ f, (m.state = .rx1 ∨ m.state = .rx2) ∧ ev = .interrupt ∧ e.statusRx = true ∧
        (Ops.receiveFrame cfg m e.rxBuffer e.received.length).1 = some f ∧
        (f.type = Frame.DATA_CONFIRMED_DOWN ∨ f.type = Frame.DATA_UNCONFIRMED_DOWN)) ∨
      m.state = .tx ∧ ev = .interrupt ∧ e.statusTx = true))
  have no1 : ¬ (m.state = .rx1 ∨ m.state = .rx2) →
      ¬ ((m.state = .rx1 ∨ m.state = .rx2) ∧ ev = .interrupt ∧ e.statusRx = true) := fun h h' => h h'.1
  have no2 : m.state ≠ .tx → ¬ (m.state = .tx ∧ ev = .interrupt ∧ e.statusTx = true) := fun h h' => h h'.1
  cases h
  case stay h =>
    refine other rfl ?_ ?_
    · rintro ⟨hs | hs, he, _⟩ <;> (unfold Ignores at h; rw [hs] at h; exact h.2 he)
    · rintro ⟨hs, he, _⟩
      unfold Ignores at h
      rw [hs] at h
      exact h.2 he
  case txDone hs he ht =>
    have hf : Spec.flags (txComplete cfg e lag (registerTime (m.emit .getStatus))) = { Spec.flags m with ack := false } := by
      obtain ⟨b, h⟩ := registerTime_shape (m.emit .getStatus)
      rw [h]
      rfl
    refine ⟨fun f a => ?_, fun _ _ _ => hf, Or.inr (Or.inr ⟨hs, he, ht⟩)⟩
    rw [hs] at a
    rcases a with a | a <;> cases a
  case rxData hs he hr f buf hf ht _ =>
    obtain ⟨c, o, h, _⟩ := dataReceived_shape cfg e (packetState e m) f buf
    have hfl : Spec.flags (pushSessionUpdate (dataReceived cfg e (packetState e m) f buf)) =
        ⟨decide (f.type = Frame.DATA_CONFIRMED_DOWN), f.pending⟩ := by
      rw [h]
      rfl
    refine ⟨fun g _ _ _ hg _ => ?_, fun a => ?_, Or.inr (Or.inl ⟨f, hs, he, hr, by rw [hf], ht⟩)⟩
    · rw [hf] at hg
      cases hg
      exact hfl
    · rw [a] at hs
      rcases hs with hs | hs <;> cases hs
  case rxRejected hs he hr buf hf =>
    refine ⟨fun f _ _ _ h => ?_, fun a => ?_, Or.inl (missing_flags cfg e (packetState e m))⟩
    · rw [hf] at h
      cases h
    · rw [a] at hs
      rcases hs with hs | hs <;> cases hs
  case rxJoin hs he hr f buf hf ht _ =>
    obtain ⟨_, _, _, _, _, _, h⟩ := joinAccepted_shape cfg (packetState e m) f buf
    refine ⟨fun g _ _ _ hg hg' => ?_, fun a => ?_, Or.inl (by rw [h]; rfl)⟩
    · rw [hf] at hg
      cases hg
      rw [ht] at hg'
      exact absurd hg' (by decide)
    · rw [a] at hs
      rcases hs with hs | hs <;> cases hs
  case txError hs he =>
    refine other ?_ ?_ ?_
    · obtain ⟨b, h⟩ := registerTime_shape (statusRead ev m)
      rw [error_flags, h]
      unfold statusRead
      split <;> rfl
    · rintro ⟨h | h, _⟩ <;> (rw [h] at hs; cases hs)
    · rintro ⟨_, h, ht⟩
      rcases he with he | ⟨_, he⟩
      · rw [he] at h
        cases h
      · rw [ht] at he
        cases he
  case rxError hs he =>
    refine other (error_flags cfg e _) ?_ ?_
    · rintro ⟨_, h, hr⟩
      rcases he with he | ⟨_, he, _⟩
      · rw [he] at h
        cases h
      · rw [hr] at he
        cases he
    · rintro ⟨h, _⟩
      rw [h] at hs
      rcases hs with hs | hs <;> cases hs
  case rxTimeout1 hs he hr _ =>
    refine other rfl ?_ ?_
    · rintro ⟨_, _, h⟩
      rw [hr] at h
      cases h
    · rintro ⟨h, _⟩
      rw [hs] at h
      cases h
  case rxTimeout2 hs he hr _ _ =>
    refine other rfl ?_ ?_
    · rintro ⟨_, _, h⟩
      rw [hr] at h
      cases h
    · rintro ⟨h, _⟩
      rw [hs] at h
      cases h
  case lockout hs _ =>
    refine other (missing_flags cfg e m) ?_ ?_
    · rintro ⟨h | h, _⟩ <;> (rw [hs] at h; cases h)
    · rintro ⟨h, _⟩
      rw [hs] at h
      cases h
  case waitA hs _ _ _ =>
    refine other rfl ?_ ?_
    · rintro ⟨h | h, _⟩ <;> (rw [h] at hs; rcases hs with hs | hs | hs <;> cases hs)
    · rintro ⟨h, _⟩
      rw [h] at hs
      rcases hs with hs | hs | hs <;> cases hs
  case init hs => exact other rfl (no1 (by rw [hs]; decide)) (no2 (by rw [hs]; decide))
  case reset hs _ => exact other rfl (no1 (by rw [hs]; decide)) (no2 (by rw [hs]; decide))
  case boot hs _ => exact other rfl (no1 (by rw [hs]; decide)) (no2 (by rw [hs]; decide))
  case startEntropy hs _ => exact other rfl (no1 (by rw [hs]; decide)) (no2 (by rw [hs]; decide))
  case entropy hs _ => exact other rfl (no1 (by rw [hs]; decide)) (no2 (by rw [hs]; decide))
  case otaa hs _ => exact other rfl (no1 (by rw [hs]; decide)) (no2 (by rw [hs]; decide))
  case waitB hs _ _ _ => exact other rfl (no1 (by rw [hs]; decide)) (no2 (by rw [hs]; decide))
  case startTX hs _ => exact other rfl (no1 (by rw [hs]; decide)) (no2 (by rw [hs]; decide))
  case startRX1 hs _ => exact other rfl (no1 (by rw [hs]; decide)) (no2 (by rw [hs]; decide))
  case startRX2 hs _ => exact other rfl (no1 (by rw [hs]; decide)) (no2 (by rw [hs]; decide))

theorem cancel_flags (m : Mac) : flags (cancel m) = flags m := by
  rcases cancel_shape m with ⟨_, h⟩ | ⟨_, h⟩ <;> rw [h] <;> rfl

theorem forget_flags (m : Mac) : flags (forget m) = if m.ctx.joined then ⟨false, false⟩ else flags m := by
  have hc : (cancel m).ctx = m.ctx := (cancel_keeps m).2.1
  unfold forget
  simp only [hc]
  split
  · rfl
  · exact cancel_flags m

theorem Api.flags {cfg : Cfg} {e : Env} {m m' : Mac} {c : Call} {st : Status} (h : Api cfg e m c m' st) (hc : c ≠ .forget) :
    Spec.flags m' = Spec.flags m := by
  cases h
  case otaa hj _ _ x hx _ _ _ =>
    obtain ⟨k, hk⟩ := deriveJoinKeys_shape cfg { m with trials := 0, day := 60 * 60 * 24 * timeTPS }
    obtain ⟨_, _, _, _, h⟩ := nextJoinRequest_shape cfg e { m with trials := 0, day := 60 * 60 * 24 * timeTPS, keys := k }
    rw [hk, h] at hx
    subst hx
    rfl
  case data hm =>
    obtain ⟨_, _, _, _, _, h, _⟩ := sendData_shape cfg e _ _ _ _ _ _ _
    rw [h]
    subst hm
    rfl
  case forget => exact absurd rfl hc
  case cancel => exact cancel_flags m
  all_goals rfl

/-- **C108, the flags**: in every call, whatever happens, the flags `LDL_MAC_getAckPending` and `LDL_MAC_getFPending` change
as the observer expects, and not otherwise. -/
theorem c108_flags (cfg : Cfg) (m : Mac) (e : Env) (c : Call) :
    FlagsChange cfg m e c (flags m) (flags (step cfg m e c).1) := by
  by_cases hc : c = .process
  · subst hc
    show FlagsChange cfg m e .process (flags m) (flags (process cfg e m))
    obtain ⟨ev, lag, m1, m2, p, t, hp, hd, hpr⟩ := process_disp cfg e m
    have hi := hp.interrupt
    obtain ⟨_, _, _, _, _, _, _, _, _, hm⟩ := hp.eq
    have h0 : flags m1 = flags m := by rw [hm]; rfl
    have hs : m1.state = m.state := by rw [hm]
    have hrf : Ops.receiveFrame cfg m1 e.rxBuffer e.received.length = Ops.receiveFrame cfg m e.rxBuffer e.received.length := by
      rw [hm]
      exact receiveFrame_congr _ _ _ _ _ rfl rfl rfl rfl rfl
    have h2 : flags (process cfg e m) = flags m2 := by rw [hpr]; rfl
    rw [h2]
    rcases hd with ⟨hn, rfl⟩ | ⟨_, hd⟩
    · have hno : m.inputState ≠ true := fun h => by
        rw [← hi, hn] at h
        cases h
      exact ⟨fun f h => absurd h.2.2.1 hno, fun h => absurd h.2.2.1 hno, fun h => (by cases h.1), fun _ _ _ => h0⟩
    · obtain ⟨d1, d2, d3⟩ := hd.flags
      rw [hs, hi, hrf, h0] at *
      refine ⟨fun f h => d1 f h.2.1 h.2.2.1 h.2.2.2.1 h.2.2.2.2.1 h.2.2.2.2.2, fun h => d2 h.2.1 h.2.2.1 h.2.2.2,
        fun h => (by cases h.1), fun a b _ => ?_⟩
      rcases d3 with h | ⟨f, h1, h2, h3, h4, h5⟩ | h
      · exact h
      · exact absurd ⟨rfl, h1, h2, h3, h4, h5⟩ (a f)
      · exact absurd ⟨rfl, h⟩ b
  · refine ⟨fun f hf => absurd hf.1 hc, fun ht => absurd ht.1 hc, fun hl => ?_, fun _ _ hl => ?_⟩
    · obtain ⟨rfl, hj⟩ := hl
      exact (forget_flags m).trans (if_pos hj)
    · by_cases hf : c = .forget
      · subst hf
        exact (forget_flags m).trans (if_neg fun hj => hl ⟨rfl, hj⟩)
      · exact (step_api cfg e m c hc).flags hf

/-- Nothing is owed after a start, whatever was stored. -/
theorem boot_flags (cfg : Cfg) (region : Region) (arg : InitArg) (e : Env) : flags (init cfg region arg e) = ⟨false, false⟩ := by
  obtain ⟨c, k, h, _⟩ := init_fields cfg region arg e
  rw [h]
  rfl

theorem boot_pendingACK (cfg : Cfg) (d : Device) (n : Nvm) (e : Env) : (d.boot cfg n e).pendingACK = false :=
  congrArg Flags.ack (boot_flags cfg _ _ e)

theorem process_reachable {cfg : Cfg} {m : Mac} (hr : Reachable cfg m) (e : Env) : Reachable cfg (process cfg e m) :=
  .step e .process hr trivial

theorem undisturbed_flags {cfg : Cfg} (calls : List (Env × Call)) {m : Mac} (h : Undisturbed cfg m calls) :
    flags (run cfg m calls) = flags m := by
  induction calls generalizing m with
  | nil => rfl
  | cons x rest ih =>
    obtain ⟨e, c⟩ := x
    obtain ⟨h1, h2, h3, h4⟩ := h
    show flags (run cfg (step cfg m e c).1 rest) = _
    rw [ih h4]
    exact (c108_flags cfg m e c).kept h1 h2 h3

theorem nothing_owed {cfg : Cfg} (calls : List (Env × Call)) {m : Mac} (h : NothingHeard cfg m calls)
    (hm : m.pendingACK = false) : (run cfg m calls).pendingACK = false := by
  induction calls generalizing m with
  | nil => exact hm
  | cons x rest ih =>
    obtain ⟨e, c⟩ := x
    obtain ⟨h1, h2⟩ := h
    refine ih (m := (step cfg m e c).1) h2 ?_
    have hf := c108_flags cfg m e c
    have hp : (step cfg m e c).1.pendingACK = (flags (step cfg m e c).1).ack := rfl
    rw [hp]
    by_cases ht : TxCompletes m e c
    · rw [hf.sent ht]
    · by_cases hl : Leaves m c
      · rw [hf.left hl]
      · rw [hf.kept h1 ht hl]
        exact hm

theorem ackBit_body (f : DataFrame) (h : f.fopts.length ≤ 15) (t : Bytes) : ackBit (f.body ++ t) = f.ack := by
  have : (f.body ++ t).getD 5 0 = UInt8.ofNat f.fctrl := rfl
  unfold ackBit
  rw [this]
  have hlt : f.fctrl < 256 := by
    unfold DataFrame.fctrl
    cases f.adr <;> cases f.adrAckReq <;> cases f.ack <;> cases f.fPending <;> simp only [Bool.toNat_true, Bool.toNat_false] <;> omega
  have hn : (UInt8.ofNat f.fctrl).toNat = f.fctrl := by simp [UInt8.toNat_ofNat', Nat.mod_eq_of_lt hlt]
  rw [hn, Nat.testBit_eq_decide_div_mod_eq]
  unfold DataFrame.fctrl
  cases f.adr <;> cases f.adrAckReq <;> cases f.ack <;> cases f.fPending <;>
    simp only [Bool.toNat_true, Bool.toNat_false] <;> simp <;> omega

/-- **C108, the uplink**: every transmission of an uplink carries the ACK bit if an acknowledgement was owed when it was
requested, and only then. -/
theorem c108_bit {cfg : Cfg} (hE : ∀ k, BlockFn (cfg.E k)) {m : Mac} (hr : Reachable cfg m)
    (e : Env) (confirmed : Bool) (port : Nat) (payload : Option Bytes) (len : Nat) (opts : Option DataOpts)
    (hw : (Call.data confirmed port payload len opts).WF) (hnull : payload = none → len = 0)
    (ha : Accepted (step cfg m e (.data confirmed port payload len opts)).2)
    (calls : List (Env × Call)) (hc : ∀ x ∈ calls, x.2.WF) (s : TxSetting) (frame : Bytes)
    (hx : (s, frame) ∈ sentBy cfg (step cfg m e (.data confirmed port payload len opts)).1 calls) :
    ackBit frame = m.pendingACK := by
  have hs := sent_setting hE hr e confirmed port payload len opts hw ha calls hc _ hx
  obtain ⟨freq, ch, rate, f, c, _, hp, ho, _, hlen, hfr, htx, hctx, hkeys, _⟩ :=
    send_frame hE hr e confirmed port payload len opts hw hnull ha _ rfl
  simp only [Prod.mk.injEq] at hs
  obtain ⟨hcar, hty, hcnt, hadr, hpt⟩ := placed_carries hp
  rw [hs.2, hfr, ackBit_body]
  · exact hcar.2.2.1
  · show (cryptOpts ..).length ≤ 15
    rw [cryptOpts_length hE]
    exact ho

/-- **C108**: a confirmed downlink is acknowledged.  The network sends a confirmed message to the device, which is waiting
for one; then anything happens, except that an uplink is completed, another data message arrives or the network is left;
then every transmission of the uplink that the application requests has the ACK bit.

Left out: what C16 leaves out, and power losses in between (`c108_lost`). -/
theorem c108_acknowledged_partial {cfg : Cfg} (hE : ∀ k, BlockFn (cfg.E k)) {m : Mac} {e : Env} (hr : Reachable cfg m)
    (hk : KeysOk cfg m) (hrx : Receiving m e) (ho : DataOp m) (f : DataFrame) (hf : LegalDown m f) (h5 : f.mtype = 5)
    (fcnt : Nat) (hc : fcnt < 65536)
    (hp : e.packet = sendDown cfg.E (sess11 cfg m) (deviceKeys cfg m) (m.tx.counter % 65536) fcnt f)
    (hl : e.packet.length ≤ 255) (hne : e.packet.length ≠ 244)
    (between : List (Env × Call)) (hwb : ∀ x ∈ between, x.2.WF) (hu : Undisturbed cfg (process cfg e m) between)
    (e' : Env) (confirmed : Bool) (port : Nat) (payload : Option Bytes) (len : Nat) (opts : Option DataOpts)
    (hw : (Call.data confirmed port payload len opts).WF) (hnull : payload = none → len = 0)
    (ha : Accepted (step cfg (run cfg (process cfg e m) between) e' (.data confirmed port payload len opts)).2)
    (after : List (Env × Call)) (hwa : ∀ x ∈ after, x.2.WF) (s : TxSetting) (frame : Bytes)
    (hx : (s, frame) ∈ sentBy cfg
      (step cfg (run cfg (process cfg e m) between) e' (.data confirmed port payload len opts)).1 after) :
    ackBit frame = true := by
  have hd := c16_delivered_partial hE hr hk hrx ho f hf fcnt hc hp hl hne
  have hr1 := process_reachable hr e
  have hr2 := Demo.run_reach hr1 between hwb
  rw [c108_bit hE hr2 e' confirmed port payload len opts hw hnull ha after hwa s frame hx]
  have := congrArg Flags.ack (undisturbed_flags between hu)
  refine this.trans (hd.2.1.trans ?_)
  simp [h5]

/-- **C108, once**: when a transmission has been completed, no uplink acknowledges anything until another data message
has arrived. -/
theorem c108_once {cfg : Cfg} (hE : ∀ k, BlockFn (cfg.E k)) {m : Mac} {e : Env} (hr : Reachable cfg m)
    (ht : TxCompletes m e .process)
    (between : List (Env × Call)) (hwb : ∀ x ∈ between, x.2.WF) (hu : NothingHeard cfg (process cfg e m) between)
    (e' : Env) (confirmed : Bool) (port : Nat) (payload : Option Bytes) (len : Nat) (opts : Option DataOpts)
    (hw : (Call.data confirmed port payload len opts).WF) (hnull : payload = none → len = 0)
    (ha : Accepted (step cfg (run cfg (process cfg e m) between) e' (.data confirmed port payload len opts)).2)
    (after : List (Env × Call)) (hwa : ∀ x ∈ after, x.2.WF) (s : TxSetting) (frame : Bytes)
    (hx : (s, frame) ∈ sentBy cfg
      (step cfg (run cfg (process cfg e m) between) e' (.data confirmed port payload len opts)).1 after) :
    ackBit frame = false := by
  have hr1 := process_reachable hr e
  have hr2 := Demo.run_reach hr1 between hwb
  rw [c108_bit hE hr2 e' confirmed port payload len opts hw hnull ha after hwa s frame hx]
  exact nothing_owed between hu (congrArg Flags.ack ((c108_flags cfg m e .process).sent ht))

/-! ## Concrete cases -/

/-- No transmission, no reception and no `forget`. -/
def calm (cfg : Cfg) : Mac → List (Env × Call) → Bool
  | _, [] => true
  | m, (e, c) :: rest =>
    decide (m.state ≠ .tx ∧ m.state ≠ .rx1 ∧ m.state ≠ .rx2) && (match c with | .forget => false | _ => true) &&
      calm cfg (step cfg m e c).1 rest

theorem calm_undisturbed {cfg : Cfg} (calls : List (Env × Call)) {m : Mac} (h : calm cfg m calls = true) :
    Undisturbed cfg m calls := by
  induction calls generalizing m with
  | nil => trivial
  | cons x rest ih =>
    obtain ⟨e, c⟩ := x
    unfold calm at h
    rw [Bool.and_eq_true, Bool.and_eq_true, decide_eq_true_iff] at h
    obtain ⟨⟨⟨h1, h2, h3⟩, h4⟩, h5⟩ := h
    refine ⟨fun f hf => hf.2.1.elim h2 h3, fun ht => h1 ht.2.1, fun hl => ?_, ih h5⟩
    rw [hl.1] at h4
    cases h4

theorem deaf_nothing {cfg : Cfg} (calls : List (Env × Call)) (h : ∀ x ∈ calls, x.1.statusRx = false) {m : Mac} :
    NothingHeard cfg m calls := by
  induction calls generalizing m with
  | nil => trivial
  | cons x rest ih =>
    refine ⟨fun f hf => ?_, ih fun y hy => h y (by simp [hy])⟩
    have := h x (by simp)
    rw [hf.2.2.2.1] at this
    cases this

namespace AckDemo

/-- The device gets a confirmed downlink. -/
def asked : Env := holding samplePacket 2600000

/-- It changes its rate and waits for its channels. -/
def waiting : List (Env × Call) := [(Demo.at_ 3000000, .setRate 1)] ++ Demo.processAt [100000000, 200000000]

/-- It sends. -/
def next : Mac := run Demo.cfg (process Demo.cfg asked listening) waiting

/-- Its next uplink, sent once, has the ACK bit. -/
example : (sentBy Demo.cfg (step Demo.cfg next (Demo.at_ 200000000) (.data false 1 (some [1, 2, 3]) 3 none)).1
    (Demo.cycle 200000000)).map (fun x => ackBit x.2) = [true] := by
  have hb := fun s frame => c108_acknowledged_partial (cfg := Demo.cfg) (e := asked) (fun _ _ h => h) listening_reachable (.of_10 rfl _) (by decide +kernel)
    (by decide +kernel) sampleDown sample_legal rfl 7 (by decide) (by decide +kernel) (by decide +kernel) (by decide +kernel)
    waiting (by decide +kernel) (calm_undisturbed _ (by decide +kernel)) (Demo.at_ 200000000) false 1 (some [1, 2, 3]) 3 none
    (by decide +kernel) (by decide) (by decide +kernel) (Demo.cycle 200000000) (by decide +kernel) s frame
  have hl : (sentBy Demo.cfg (step Demo.cfg (run Demo.cfg (process Demo.cfg asked listening) waiting) (Demo.at_ 200000000)
    (.data false 1 (some [1, 2, 3]) 3 none)).1 (Demo.cycle 200000000)).length = 1 := by decide +kernel
  show (sentBy Demo.cfg (step Demo.cfg (run Demo.cfg (process Demo.cfg asked listening) waiting) (Demo.at_ 200000000)
    (.data false 1 (some [1, 2, 3]) 3 none)).1 (Demo.cycle 200000000)).map _ = _
  generalize sentBy _ _ _ = l at *
  match l, hl with
  | [x], _ => simp [hb x.1 x.2 (by simp)]

/-- It has sent that uplink: the radio reports that the transmission is complete. -/
def sentIt : Mac := run Demo.cfg next
  ([(Demo.at_ 200000000, .data false 1 (some [1, 2, 3]) 3 none)] ++ Demo.processAt [200000000, 200030000] ++
    [(Demo.at_ 201530000, .radioEvent 201530000)])

theorem sentIt_reachable : Reachable Demo.cfg sentIt := by
  have h1 : Reachable Demo.cfg (process Demo.cfg asked listening) := process_reachable listening_reachable asked
  have h2 : Reachable Demo.cfg next := by
    unfold next
    exact Demo.run_reach h1 _ (by decide +kernel)
  unfold sentIt
  exact Demo.run_reach h2 _ (by decide +kernel)

/-- Nothing is received. -/
def silence : List (Env × Call) := Demo.processAt [202530000, 202532000] ++ Demo.rxNone 202570000 ++
  Demo.processAt [203530000, 203532000] ++ Demo.rxNone 203570000 ++ Demo.processAt [206100000, 300000000, 400000000]

/-- The uplink after that has no ACK bit. -/
example : (sentBy Demo.cfg (step Demo.cfg (run Demo.cfg (process Demo.cfg { now := 201530000, statusTx := true } sentIt) silence)
    (Demo.at_ 400000000) (.data false 1 (some [1, 2, 3]) 3 none)).1
    (Demo.cycle 400000000)).map (fun x => ackBit x.2) = [false] := by
  have hb := fun s frame => c108_once (cfg := Demo.cfg) (e := { now := 201530000, statusTx := true }) (fun _ _ h => h)
    sentIt_reachable ⟨rfl, by decide +kernel, by decide +kernel, rfl⟩ silence (by decide +kernel) (deaf_nothing _ (by decide +kernel))
    (Demo.at_ 400000000) false 1 (some [1, 2, 3]) 3 none
    (by decide +kernel) (by decide) (by decide +kernel) (Demo.cycle 400000000) (by decide +kernel) s frame
  have hl : (sentBy Demo.cfg (step Demo.cfg (run Demo.cfg (process Demo.cfg { now := 201530000, statusTx := true } sentIt) silence)
    (Demo.at_ 400000000) (.data false 1 (some [1, 2, 3]) 3 none)).1 (Demo.cycle 400000000)).length = 1 := by decide +kernel
  generalize sentBy _ _ _ = l at *
  match l, hl with
  | [x], _ => simp [hb x.1 x.2 (by simp)]

/-- The device of C107's example gets a confirmed downlink. -/
def told : Demo.Alive := Demo.live Demo.cfg Demo.device Demo.talking
  [.call (holding (sendDown Demo.cfg.E false (deviceKeys Demo.cfg Demo.talking.m) 0 7 Demo.reply) 102600000) .process]

theorem told_reporting : ReportingLife Demo.cfg Demo.device told.m told.n :=
  Demo.live_reporting _ (by decide +kernel) Demo.talking_reporting

end AckDemo

/-- **C108 fails when power is lost**: the acknowledgement owed is not part of the session.  The device starts again in
the same network, with the same counters, and the network's message is never acknowledged. -/
theorem c108_lost : ∃ (m : Mac) (n : Nvm), ReportingLife Demo.cfg Demo.device m n ∧ m.ctx.joined = true ∧
    m.pendingACK = true ∧
    ∀ e, (Demo.device.boot Demo.cfg n e).ctx = m.ctx ∧ (Demo.device.boot Demo.cfg n e).pendingACK = false := by
  have hj : AckDemo.told.m.ctx.joined = true := by decide +kernel
  refine ⟨AckDemo.told.m, AckDemo.told.n, AckDemo.told_reporting, hj, by decide +kernel, fun e => ⟨?_, ?_⟩⟩
  · exact (c107_survives_partial (fun _ _ h => h) AckDemo.told_reporting e).1 hj
  · exact boot_pendingACK Demo.cfg Demo.device AckDemo.told.n e

end LDL
