import Verif.Lemmas.Sx126xLoop
import Verif.Props.Sx127x

/-!
# The radio: SX1261, SX1262, WL55 (C72 to C79)
-/

namespace LDL
open Spec (Phase follow RadioIn Reachable Resting)
open Spec.Sx126x
open Sx126x (Driver Pa)

/-- What the application chooses when it initialises the radio. -/
structure Spec.Sx126x.Board where
  type : Sx126x.Kind
  xtal : Xtal
  pa : Pa
  gain : Int
  regulator : Nat
  voltage : Nat
  txen : Nat
  /-- the gain of the antenna in hundredths of a dB is an `int16_t`; below -290 dB powers overflow -/
  usable : -29000 ≤ gain ∧ gain ≤ 32767

/-- The driver after initialisation. -/
def Spec.Sx126x.Board.driver (b : Board) : Driver := Sx126x.init b.type b.xtal b.pa b.gain b.regulator b.voltage b.txen

theorem board_any (b : Board) (c : Chip) : Sx126x.AnyIn b.driver c .unknown := ⟨rfl, fun h => absurd rfl h, b.usable⟩

theorem board_in (b : Board) (c : Chip) : Sx126x.In b.driver c .unknown := ⟨board_any b c, trivial⟩

/-- The phase when the history of an execution reaches an event. -/
theorem phase_at {cfg : Cfg} {m : Mac} (hr : Reachable cfg m) (l l' : List Event) (ev : Event)
    (hl : m.out = l ++ ev :: l') : ∃ p q, follow .unknown l = some p ∧ Spec.accepts p ev = some q := by
  obtain ⟨p, h1, _⟩ := reachable_says hr
  rw [hl, follow_append] at h1
  obtain ⟨q, h2, h3⟩ := Option.bind_eq_some_iff.1 h1
  obtain ⟨r, h4, _⟩ := Option.bind_eq_some_iff.1 h3
  exact ⟨q, r, h2, h4⟩

/-- **C72**: the driver never aborts: it carries out every radio call of every execution, whatever accesses to the chip
fail and whatever the chip does meanwhile. -/
theorem c72_no_abort {cfg : Cfg} (hE : ∀ k, BlockFn (cfg.E k)) {m : Mac} (hr : Reachable cfg m) (b : Board) (c : Chip)
    (l l' : List Event) (ev : Event) (hl : m.out = l ++ ev :: l') (d1 : Driver) (c1 : Chip)
    (hp : Plays Anyhow b.driver c l d1 c1) (busy : Nat → Bool) : ∃ x, perform d1 c1 busy ev = some x := by
  obtain ⟨p, q, h1, h2⟩ := phase_at hr l l' ev hl
  have hf := reachable_fine hE hr
  have hin := (Sx126x.plays_any (board_any b c) hp h1
    fun y hy => hf y (by rw [hl]; exact List.mem_append_left _ hy)).1
  obtain ⟨d', c', h3⟩ := Sx126x.carries_any hin h2
    (hf ev (by rw [hl]; exact List.mem_append_right _ (List.mem_cons_self ..))) busy
  exact ⟨_, h3.perform⟩

/-- **C73**: if no access fails, what the chip has put on the air after an execution is exactly what the MAC asked for,
transmission by transmission and byte by byte, on a chip set up for the board and calibrated for the band. -/
theorem c73_on_air {cfg : Cfg} (hE : ∀ k, BlockFn (cfg.E k)) {m : Mac} (hr : Reachable cfg m) (b : Board) (c : Chip)
    (d' : Driver) (c' : Chip) (hp : Plays Ready b.driver c m.out d' c') :
    ∃ ems, c'.aired = c.aired ++ ems.map some ∧
      List.Forall₂ (fun y em => Emits b.driver y em ∧ Prepared b.driver y em) (asked m.out) ems := by
  obtain ⟨p, h1, _⟩ := reachable_says hr
  exact (Sx126x.plays_ready (board_in b c) hp h1 (reachable_fine hE hr)).2.2.aired

/-- **C74**: if no access fails, the chip has opened exactly the receive windows the MAC asked for. -/
theorem c74_windows {cfg : Cfg} (hE : ∀ k, BlockFn (cfg.E k)) {m : Mac} (hr : Reachable cfg m) (b : Board) (c : Chip)
    (d' : Driver) (c' : Chip) (hp : Plays Ready b.driver c m.out d' c') :
    ∃ ls, c'.heard = c.heard ++ ls.map some ∧
      List.Forall₂ (fun w l => Listens w l ∧ Tuned b.driver w l) (windows m.out) ls := by
  obtain ⟨p, h1, _⟩ := reachable_says hr
  exact (Sx126x.plays_ready (board_in b c) hp h1 (reachable_fine hE hr)).2.2.heard

/-- **C75**: whatever accesses fail, everything the chip has put on the air is a transmission the MAC asked for, as asked,
in the order asked, each at most once; and the same for receptions. -/
theorem c75_failing {cfg : Cfg} (hE : ∀ k, BlockFn (cfg.E k)) {m : Mac} (hr : Reachable cfg m) (b : Board) (c : Chip)
    (d' : Driver) (c' : Chip) (hp : Plays Anyhow b.driver c m.out d' c') :
    (∃ sub ems, sub.Sublist (asked m.out) ∧ c'.aired = c.aired ++ ems.map some ∧
      List.Forall₂ (Emits b.driver) sub ems) ∧
    (∃ sub ls, sub.Sublist (windows m.out) ∧ c'.heard = c.heard ++ ls.map some ∧ List.Forall₂ Listens sub ls) := by
  obtain ⟨p, h1, _⟩ := reachable_says hr
  have h := (Sx126x.plays_any (board_any b c) hp h1 (reachable_fine hE hr)).2
  exact ⟨h.aired, h.heard⟩

/-- **C76**: while the device is idle, or waits for its turn to send, the chip is asleep, the accessory lines too. -/
theorem c76_asleep {cfg : Cfg} (hE : ∀ k, BlockFn (cfg.E k)) {m : Mac} (hr : Reachable cfg m) (hs : Resting m.state)
    (b : Board) (c : Chip) (d' : Driver) (c' : Chip) (hp : Plays Ready b.driver c m.out d' c') :
    c'.mode = .sleep ∧ c'.io = .sleep := by
  obtain ⟨p, h1, h2⟩ := reachable_says hr
  have hin := (Sx126x.plays_ready (board_in b c) hp h1 (reachable_fine hE hr)).1
  have hp : p = .sleep := by rcases hs with h | h | h | h | h <;> rw [h] at h2 <;> exact h2
  subst hp
  exact ⟨hin.fits.2.2, hin.fits.1⟩

/-- **C76**: between the windows the chip is asleep too, and its set-up is not lost. -/
theorem c76_between_windows {cfg : Cfg} (hE : ∀ k, BlockFn (cfg.E k)) {m : Mac} (hr : Reachable cfg m)
    (hs : m.state = .waitRX1 ∨ m.state = .waitRX2)
    (b : Board) (c : Chip) (d' : Driver) (c' : Chip) (hp : Plays Ready b.driver c m.out d' c') :
    c'.mode = .sleep ∧ SetUp b.driver (c'.last 0x96) (c'.last 0x9d) (c'.last 0x97) := by
  obtain ⟨p, h1, h2⟩ := reachable_says hr
  obtain ⟨hin, hsame, _⟩ := Sx126x.plays_ready (board_in b c) hp h1 (reachable_fine hE hr)
  have hp : p = .hold := by rcases hs with h | h <;> rw [h] at h2 <;> exact h2
  subst hp
  exact ⟨hin.fits.2.2.2, Sx126x.setUp_same hsame hin.fits.1⟩

/-- The driver and the chip when the history of an execution reaches an event. -/
theorem reached_in126 {cfg : Cfg} (hE : ∀ k, BlockFn (cfg.E k)) {m : Mac} (hr : Reachable cfg m) (b : Board) (c : Chip)
    (l l' : List Event) (ev : Event) (hl : m.out = l ++ ev :: l') (d1 : Driver) (c1 : Chip)
    (hp : Plays Ready b.driver c l d1 c1) :
    ∃ p q, Sx126x.In d1 c1 p ∧ Spec.accepts p ev = some q ∧ Spec.Fine ev := by
  obtain ⟨p, q, h1, h2⟩ := phase_at hr l l' ev hl
  have hf := reachable_fine hE hr
  exact ⟨p, q, (Sx126x.plays_ready (board_in b c) hp h1
    fun y hy => hf y (by rw [hl]; exact List.mem_append_left _ hy)).1, h2,
    hf ev (by rw [hl]; exact List.mem_append_right _ (List.mem_cons_self ..))⟩

/-- The interrupt status as the chip returns it. -/
theorem answer_irq (c : Chip) : c.answer Sx126x.getIrqStatus = [UInt8.ofNat (c.irq / 256), UInt8.ofNat c.irq] := rfl

/-- What the driver makes of the interrupt status of a chip. -/
def Spec.Sx126x.reported (c : Chip) : RadioStatus :=
  Sx126x.getStatus false ((c.answer Sx126x.getIrqStatus).getD 0 0) ((c.answer Sx126x.getIrqStatus).getD 1 0)

theorem reported_of {c : Chip} {n : Nat} (h : c.irq = n) :
    reported c = Sx126x.getStatus false (UInt8.ofNat (n / 256)) (UInt8.ofNat n) := by
  unfold reported
  rw [answer_irq, h]
  rfl

/-- **C79**: the end of a transmission is reported as such, and nothing is reported before. -/
theorem c79_tx_status {cfg : Cfg} (hE : ∀ k, BlockFn (cfg.E k)) {m : Mac} (hr : Reachable cfg m) (b : Board) (c : Chip)
    (l l' : List Event) (t : Nat) (s : TxSetting) (data : Bytes) (hl : m.out = l ++ .transmit t s data :: l')
    (d1 : Driver) (c1 : Chip) (hp : Plays Ready b.driver c l d1 c1) (busy : Nat → Bool) (hb : Ready busy) (c2 : Chip)
    (h2 : c2 = c1.run (Sx126x.transmit d1 s data busy).2) :
    reported c2 = {} ∧ ∀ c3, c2.Acts c3 → reported c3 = { tx := true } := by
  obtain ⟨p, q, hin, ha, hf⟩ := reached_in126 hE hr b c l l' _ hl d1 c1 hp
  obtain ⟨hp, _⟩ := Option.ite_none_right_eq_some.1 ha
  subst hp
  obtain ⟨em, hs⟩ := Sx126x.transmit_sent d1 c1 s data (hin.any.io (by decide) (by decide)) hf.2.1 hf.1
    (by have := hin.any.gain; have := hf.2.2; omega)
  have e : (Sx126x.transmit d1 s data busy).2 = Sx126x.transmitOps d1 s data := Sx126x.attempt_ready busy hb _ 0
  rw [e] at h2
  rw [← h2] at hs
  have hirq : c2.irq = 0 := hs.irq.trans hin.fits.2.2.1
  refine ⟨(reported_of hirq).trans (by decide), fun c3 ha => ?_⟩
  have hm := hs.mode
  cases ha with
  | txDone x h hx =>
    refine (reported_of (n := 1) ?_).trans (by decide)
    show c2.irq ||| (x &&& c2.irqMask) = 1
    rw [hirq, hs.mask, Sx126x.and_mask_one x hx]
    decide
  | rxTimeout x h hx => rw [hm] at h; cases h
  | rxDone x packet st h hx hl => rw [hm] at h; cases h

/-- **C79**: a receive window ends with a packet or with giving up, and each is reported as what it is; nothing is
reported before. -/
theorem c79_rx_status {cfg : Cfg} (hE : ∀ k, BlockFn (cfg.E k)) {m : Mac} (hr : Reachable cfg m) (b : Board) (c : Chip)
    (l l' : List Event) (t : Nat) (s : RxSetting) (hl : m.out = l ++ .receive t s :: l')
    (d1 : Driver) (c1 : Chip) (hp : Plays Ready b.driver c l d1 c1) (busy : Nat → Bool) (hb : Ready busy) (c2 : Chip)
    (h2 : c2 = c1.run (Sx126x.receive d1 s busy).2) :
    reported c2 = {} ∧ ∀ c3, c2.Acts c3 →
      (reported c3 = { timeout := true } ∧ c3.buffer = c2.buffer) ∨
      (reported c3 = { rx := true } ∧ c3.rxLength.toNat ≤ s.max) := by
  obtain ⟨p, q, hin, ha, hf⟩ := reached_in126 hE hr b c l l' _ hl d1 c1 hp
  obtain ⟨hp, _⟩ := Option.ite_none_right_eq_some.1 ha
  subst hp
  obtain ⟨w, hs⟩ := Sx126x.receive_opened d1 c1 s hf.2 hf.1
  have e : (Sx126x.receive d1 s busy).2 = Sx126x.receiveOps d1 s := Sx126x.attempt_ready busy hb _ 0
  rw [e] at h2
  rw [← h2] at hs
  have hirq : c2.irq = 0 := hs.irq.trans hin.fits.2.2.1
  refine ⟨(reported_of hirq).trans (by decide), fun c3 ha => ?_⟩
  have hm := hs.mode
  have hmax := hs.max
  have h255 : s.max ≤ 255 := hf.2
  cases ha with
  | txDone x h hx => rw [hm] at h; cases h
  | rxTimeout x h hx =>
    left
    refine ⟨(reported_of (n := 0x200) ?_).trans (by decide), rfl⟩
    show c2.irq ||| (x &&& c2.irqMask) = 0x200
    rw [hirq, hs.mask, Sx126x.and_mask_rx x _ hx]
    decide
  | rxDone x packet st h hx hl =>
    right
    refine ⟨(reported_of (n := 0x002) ?_).trans (by decide), ?_⟩
    · show c2.irq ||| (x &&& c2.irqMask) = 0x002
      rw [hirq, hs.mask, Sx126x.and_mask_rx x _ hx]
      decide
    · show (UInt8.ofNat packet.length).toNat ≤ s.max
      rw [UInt8.toNat_ofNat']
      omega

/-- Reading leaves a chip that is awake as it is. -/
theorem run_reads (c : Chip) (hr : c.io ≠ .reset) (hm : c.mode = .standbyRc) (l : List BusOp)
    (h : ∀ o ∈ l, ∃ op n, o = .read op n) : c.run l = c := by
  induction l with
  | nil => rfl
  | cons o l ih =>
    obtain ⟨op, n, rfl⟩ := h o (List.mem_cons_self ..)
    show (c.exec (.read op n)).run l = c
    rw [Sx126x.exec_read c op n hr]
    have : ({ c with mode := Sx126x.awake c.mode } : Chip) = c := by
      cases c
      simp only at hm
      subst hm
      rfl
    rw [this]
    exact ih fun x hx => h x (List.mem_cons_of_mem _ hx)

/-- **C77**: when a packet arrives in a receive window, the driver returns that packet, cut to the size asked for,
whatever was read from the chip before. -/
theorem c77_packet_partial {cfg : Cfg} (hE : ∀ k, BlockFn (cfg.E k)) {m : Mac} (hr : Reachable cfg m) (b : Board) (c : Chip)
    (l l' : List Event) (t : Nat) (s : RxSetting) (hl : m.out = l ++ .receive t s :: l')
    (d1 : Driver) (c1 : Chip) (hp : Plays Ready b.driver c l d1 c1) (busy : Nat → Bool) (hb : Ready busy) (c2 : Chip)
    (h2 : c2 = c1.run (Sx126x.receive d1 s busy).2)
    (irq : Nat) (packet : Bytes) (status : Nat → UInt8) (hlen : packet.length ≤ 255) (c3 : Chip)
    (h3 : c3 = { c2 with
        mode := .standbyRc
        irq := irq
        buffer := fun i => packet.getD ((i + 256 - c2.arg 0x8f 1) % 256) (c2.buffer i)
        rxLength := UInt8.ofNat packet.length
        rxStart := UInt8.ofNat (c2.arg 0x8f 1)
        status := status })
    (reads : List BusOp) (hreads : ∀ o ∈ reads, ∃ op n, o = .read op n) (c4 : Chip) (h4 : c4 = c3.run reads)
    (max : Nat) :
    (Sx126x.readBufferMeta c4.rxLength.toNat max c4.status busy).1 = min packet.length max ∧
    c4.answers (Sx126x.readBufferOps c4.rxLength.toNat max busy) =
      [[UInt8.ofNat packet.length, 0], [status 0, status 1, status 2], packet.take max] := by
  obtain ⟨p, q, hin, ha, hf⟩ := reached_in126 hE hr b c l l' _ hl d1 c1 hp
  obtain ⟨hp, _⟩ := Option.ite_none_right_eq_some.1 ha
  subst hp
  obtain ⟨w, hs⟩ := Sx126x.receive_opened d1 c1 s hf.2 hf.1
  have e : (Sx126x.receive d1 s busy).2 = Sx126x.receiveOps d1 s := Sx126x.attempt_ready busy hb _ 0
  rw [e] at h2
  rw [← h2] at hs
  have hio : c3.io ≠ .reset := by rw [h3]; exact hs.io
  have hmode : c3.mode = .standbyRc := by rw [h3]
  rw [run_reads c3 hio hmode reads hreads] at h4
  rw [h4]
  have hlen' : c3.rxLength.toNat = packet.length := by
    rw [h3]; show (UInt8.ofNat packet.length).toNat = _; rw [UInt8.toNat_ofNat']; omega
  rw [hlen']
  have hmin : (if packet.length > max then max else packet.length) = min packet.length max := by split <;> omega
  constructor
  · unfold Sx126x.readBufferMeta
    rw [hb 0, hb 1, hb 2]
    exact hmin
  · unfold Sx126x.readBufferOps
    rw [Sx126x.attempt_ready busy hb, hmin]
    have step : ∀ op n rest, c3.answers (.read op n :: rest) = c3.answer (.read op n) :: c3.answers rest := by
      intro op n rest
      show c3.answer (.read op n) :: (c3.exec (.read op n)).answers rest = _
      have := run_reads c3 hio hmode [.read op n] (fun o ho => ⟨op, n, List.mem_singleton.1 ho⟩)
      have : c3.exec (.read op n) = c3 := this
      rw [this]
    unfold Sx126x.getRxBufferStatus Sx126x.getPacketStatus Sx126x.readBufferAt
    rw [step, step, step]
    have hz : UInt8.ofNat (u8 0) = 0 := by decide
    rw [hz]
    have e1 : c3.answer (.read [0x13, 0] 2) = [UInt8.ofNat packet.length, 0] := by
      show [c3.rxLength, c3.rxStart] = _
      rw [h3]
      show [UInt8.ofNat packet.length, UInt8.ofNat (c2.arg 0x8f 1)] = _
      rw [hs.base]
      rfl
    have e2 : c3.answer (.read [0x14, 0] 3) = [status 0, status 1, status 2] := by
      show [c3.status 0, c3.status 1, c3.status 2] = _
      rw [h3]
    have e3 : c3.answer (.read [0x1e, 0, 0] (min packet.length max)) = packet.take max := by
      show (List.range (min packet.length max)).map (fun i => c3.buffer (((0 : UInt8).toNat + i) % 256)) = _
      apply List.ext_getElem
      · simp; omega
      · intro i i1 i2
        simp only [List.length_map, List.length_range] at i1
        simp only [List.getElem_map, List.getElem_range]
        rw [h3]
        show packet.getD ((((0 : UInt8).toNat + i) % 256 + 256 - c2.arg 0x8f 1) % 256) _ = _
        rw [hs.base]
        have hi : (((0 : UInt8).toNat + i) % 256 + 256 - 0) % 256 = i := by
          show ((0 + i) % 256 + 256 - 0) % 256 = i
          omega
        rw [hi, List.getD_eq_getElem?_getD, List.getElem?_eq_getElem (by omega)]
        simp
    rw [e1, e2, e3]
    rfl

/-- What the driver reports with a packet. -/
theorem meta_of (size max : Nat) (status : Nat → UInt8) (busy : Nat → Bool) (q : PacketMeta)
    (h : (Sx126x.readBufferMeta size max status busy).2 = some q) :
    q.rssi = (Sx126x.s8 (status 2)).tdiv 2 ∧ q.snr = (Sx126x.s8 (status 1)).tdiv 4 := by
  unfold Sx126x.readBufferMeta at h
  split at h
  · cases h
  split at h
  · cases h
  · cases h
    exact ⟨rfl, rfl⟩

/-- **C78** as far as it holds: the signal to noise ratio is the chip's, cut to whole dB. -/
theorem c78_quality_partial (size max : Nat) (status : Nat → UInt8) (busy : Nat → Bool) (q : PacketMeta)
    (h : (Sx126x.readBufferMeta size max status busy).2 = some q) :
    4 * q.snr - 4 < quarterSnr (status 1) ∧ quarterSnr (status 1) < 4 * q.snr + 4 ∧
    (q.snr < 0 → quarterSnr (status 1) < 0) ∧ (0 < q.snr → 0 < quarterSnr (status 1)) := by
  rw [(meta_of size max status busy q h).2]
  exact all_bytes (P := fun v => 4 * (Sx126x.s8 v).tdiv 4 - 4 < quarterSnr v ∧ quarterSnr v < 4 * (Sx126x.s8 v).tdiv 4 + 4 ∧
    ((Sx126x.s8 v).tdiv 4 < 0 → quarterSnr v < 0) ∧ (0 < (Sx126x.s8 v).tdiv 4 → 0 < quarterSnr v)) (by decide +kernel) (status 1)

/-- **C78** fails for the signal strength: what is reported is the chip's value (to less than 1 dB) only for 0, -0.5 and
-64 dBm. -/
theorem c78_rssi_wrong (size max : Nat) (status : Nat → UInt8) (busy : Nat → Bool) (q : PacketMeta)
    (h : (Sx126x.readBufferMeta size max status busy).2 = some q) :
    (2 * q.rssi - 2 < halfRssi (status 2) ∧ halfRssi (status 2) < 2 * q.rssi + 2) ↔
      (status 2 = 0 ∨ status 2 = 1 ∨ status 2 = 128) := by
  rw [(meta_of size max status busy q h).1]
  exact all_bytes (P := fun v => (2 * (Sx126x.s8 v).tdiv 2 - 2 < halfRssi v ∧ halfRssi v < 2 * (Sx126x.s8 v).tdiv 2 + 2) ↔
    (v = 0 ∨ v = 1 ∨ v = 128)) (by decide +kernel) (status 2)

/-- For example, -80 dBm is reported as -48 dBm. -/
example : (Sx126x.readBufferMeta 20 255 (fun _ => 160) (fun _ => false)).2 = some { rssi := -48, snr := -24 } ∧
    halfRssi 160 = 2 * -80 := by decide +kernel

/-- **C77**, when accesses fail: nothing is returned if the first or the last access fails.  If only the second one
fails, the length of the packet is returned, not cut to the size asked for, although no byte of it has been read. -/
theorem c77_failing (size max : Nat) (status : Nat → UInt8) (busy : Nat → Bool) :
    (busy 0 = true → (Sx126x.readBufferMeta size max status busy).1 = 0) ∧
    (busy 1 = false → busy 2 = true → (Sx126x.readBufferMeta size max status busy).1 = 0) ∧
    (busy 0 = false → busy 1 = true → (Sx126x.readBufferMeta size max status busy).1 = size ∧
      ∀ o ∈ Sx126x.readBufferOps size max busy, o = Sx126x.getRxBufferStatus) := by
  unfold Sx126x.readBufferMeta
  refine ⟨fun h => by rw [h]; rfl, fun h h' => by rw [h, h']; cases busy 0 <;> rfl, fun h h' => ⟨by rw [h, h']; rfl, ?_⟩⟩
  intro o ho
  unfold Sx126x.readBufferOps Sx126x.getRxBufferStatus at *
  simp only [Sx126x.attempt, Sx126x.getPacketStatus, h, h'] at ho
  simpa using ho

/-- **C79**: the random number is the one in the chip's registers. -/
theorem c79_entropy (c : Chip) (busy : Nat → Bool) (hb : Ready busy) :
    c.answers (Sx126x.readEntropyOps busy) = [[c.regs 0x819, c.regs 0x81a, c.regs 0x81b, c.regs 0x81c]] ∧
    ∀ v : Nat → UInt8, Sx126x.readEntropyValue false v < 2 ^ 32 ∧
      ∀ i < 4, UInt8.ofNat (Sx126x.readEntropyValue false v / 256 ^ i) = v i := by
  refine ⟨?_, fun v => ?_⟩
  · unfold Sx126x.readEntropyOps
    rw [Sx126x.attempt_ready busy hb]
    rfl
  · have h0 := UInt8.toNat_lt (v 0)
    have h1 := UInt8.toNat_lt (v 1)
    have h2 := UInt8.toNat_lt (v 2)
    have h3 := UInt8.toNat_lt (v 3)
    have e : Sx126x.readEntropyValue false v =
        (v 0).toNat + (v 1).toNat * 0x100 + (v 2).toNat * 0x10000 + (v 3).toNat * 0x1000000 := rfl
    rw [e]
    refine ⟨by omega, fun i hi => UInt8.toNat_inj.1 ?_⟩
    rw [UInt8.toNat_ofNat']
    rcases i with _ | _ | _ | _ | i <;> try simp only [Nat.zero_add, Nat.reduceAdd] at *
    · show _ / 1 % 256 = _; omega
    · show _ / 256 % 256 = _; omega
    · show _ / 65536 % 256 = _; omega
    · show _ / 16777216 % 256 = _; omega
    · omega

theorem rows_imp {α β : Type} {R S : α → β → Prop} (h : ∀ a b, R a b → S a b) {l : List α} {r : List β}
    (hr : List.Forall₂ R l r) : List.Forall₂ S l r := by
  induction hr with
  | nil => exact .nil
  | cons x _ ih => exact .cons (h _ _ x) ih

/-- **C80** as far as it holds: no transmission is stronger than asked for, less the antenna gain, unless the amplifier
cannot go that low or, below 0 dBm, by less than 1 dB; none is weaker by 9 dB or more, on the low power amplifier by
4 dB or more; asked for the most the amplifier can do, or more, it does that. -/
theorem c80_power_partial {cfg : Cfg} (hE : ∀ k, BlockFn (cfg.E k)) {m : Mac} (hr : Reachable cfg m) (b : Board)
    (c : Chip) (d' : Driver) (c' : Chip) (hp : Plays Anyhow b.driver c m.out d' c') :
    ∃ sub ems, sub.Sublist (asked m.out) ∧ c'.aired = c.aired ++ ems.map some ∧
      List.Forall₂ (fun y em => NotTooStrong (y.1.eirp - b.gain) em ∧ NotTooWeak 899 (y.1.eirp - b.gain) em ∧
        (b.type = .sx1261 → NotTooWeak 399 (y.1.eirp - b.gain) em)) sub ems := by
  obtain ⟨⟨sub, ems, h1, h2, h3⟩, _⟩ := c75_failing hE hr b c d' c' hp
  exact ⟨sub, ems, h1, h2, rows_imp (fun _ _ h => ⟨h.strong, h.weak, fun hk => h.weakLp (Or.inl hk)⟩) h3⟩

/-! ### Cases and exceptions -/

/-- A chip about which nothing is known. -/
def Demo.chip126 : Chip :=
  { io := .rx, mode := .rx, last := fun _ => [0xff], regs := fun _ => 0xff, buffer := fun _ => 0xff, irq := 0xffff
    rxLength := 0xff, rxStart := 0xff, status := fun _ => 0xff, defaults := fun _ => [0xff], defaultRegs := fun _ => 0xff
    noise := fun _ => 0xff, aired := [], heard := [] }

/-- An SX1262 with a TCXO. -/
def Demo.board126 : Board :=
  { type := .sx1262, xtal := .tcxo, pa := .auto, gain := 215, regulator := 1, voltage := 2, txen := 1, usable := by decide }

/-- Driver and chip after a history; with each event the accesses that fail. -/
def Demo.played126 (l : List (Event × (Nat → Bool))) : Option (Driver × Chip) :=
  l.foldl (fun o x => o.bind fun y => perform y.1 y.2 x.2 x.1) (some (Demo.board126.driver, Demo.chip126))

/-- No access fails. -/
def Demo.fine (l : List Event) : List (Event × (Nat → Bool)) := l.map fun ev => (ev, fun _ => false)

/-- C73, C74 and C76 apply to a device that sent a frame, listened in both windows and is idle again. -/
example : (asked Demo.bothWindows.out).length = 1 ∧ (windows Demo.bothWindows.out).length = 2 := by decide +kernel

/-- What is on the air in the end. -/
example : (Demo.played126 (Demo.fine Demo.bothWindows.out)).map (fun x => (x.2.aired.length, x.2.heard.length, x.2.mode)) =
      some (1, 2, .sleep) ∧
    ((Demo.played126 (Demo.fine Demo.bothWindows.out)).bind fun x => (x.2.aired.getD 0 none).map fun em =>
      (em.bytes.length, em.sf, em.bw, em.power, em.io)) = some (16, 12, some .b125, some 5, .txBoost) := by decide +kernel

/-- **C80** fails: an SX1262 asked for 14 dBm emits 6 dBm, one asked for 20 dBm emits 18 dBm; an SX1261 asked for 10 dBm
emits 7 dBm. -/
theorem c80_weak : ∀ x ∈ [(Sx126x.Kind.sx1262, 14, 6), (.sx1262, 17, 12), (.sx1262, 20, 18), (.sx1261, 10, 7)],
    ∃ em, ((Demo.chip126.run (Sx126x.transmitOps (Sx126x.init x.1 .crystal .auto 0 0 0 0)
      { freq := 868100000, bw := .b125, sf := 7, eirp := 100 * x.2.1 } [1])).aired = [some em] ∧ em.power = some x.2.2) := by
  intro x hx
  rcases List.mem_cons.1 hx with rfl | hx
  · exact ⟨_, rfl, by decide +kernel⟩
  rcases List.mem_cons.1 hx with rfl | hx
  · exact ⟨_, rfl, by decide +kernel⟩
  rcases List.mem_cons.1 hx with rfl | hx
  · exact ⟨_, rfl, by decide +kernel⟩
  rw [List.mem_singleton.1 hx]
  exact ⟨_, rfl, by decide +kernel⟩

/-- The calls up to the start of a transmission and of a receive window. -/
def Demo.toTx : List Event := [.setMode .reset, .setMode .boot, .setMode .sleep, .setMode .tx]

/-- An uplink. -/
def Demo.uplink : Event := .transmit 0 { freq := 868100000, bw := .b125, sf := 7, eirp := 1600 } [1, 2, 3]

/-- A receive window. -/
def Demo.window : Event := .receive 0 { freq := 868100000, bw := .b125, sf := 7, timeout := 8, max := 255 }

/-- The calls are in the order of the protocol. -/
example : follow .unknown (Demo.toTx ++ [Demo.uplink, .setMode .hold, .setMode .rx, Demo.window]) = some .receiving := by
  decide

/-- **C73** needs every access to succeed: the driver transmits even if the command that powers the TCXO failed. -/
theorem c73_tcxo_off : ∃ d c em, Demo.played126
    ((Demo.fine Demo.toTx).dropLast ++ [(.setMode .tx, fun i => i == 2), (Demo.uplink, fun _ => false)]) = some (d, c) ∧
    c.aired = [some em] ∧ em.tcxo = [] ∧ Demo.board126.xtal = .tcxo :=
  ⟨_, _, _, rfl, rfl, by decide +kernel, rfl⟩

/-- **C79** needs every access to succeed: if the interrupts could not be cleared after RX1, the end of RX1 is reported as
the end of RX2 as soon as that has started. -/
theorem c79_stale : ∃ d c c' d'' c'', Demo.played126 (Demo.fine (Demo.toTx.dropLast ++ [.setMode .rx, Demo.window])) = some (d, c) ∧
    c.Acts c' ∧ reported c' = { timeout := true } ∧
    [(Event.setMode .hold, fun i => i == 0), (.setMode .rx, fun _ => false), (Demo.window, fun _ => false)].foldl
      (fun o (x : Event × (Nat → Bool)) => o.bind fun y => perform y.1 y.2 x.2 x.1) (some (d, c')) = some (d'', c'') ∧
    c''.mode = .rx ∧ reported c'' = { timeout := true } := by
  refine ⟨_, _, _, _, _, rfl, .rxTimeout _ 0x200 (by decide +kernel) (by decide), by decide +kernel, rfl, by decide +kernel, by decide +kernel⟩

/-- **C76**, the limit: between the windows the accessory lines stay as they were, here switched to transmission. -/
theorem c76_lines_left : ∃ d c, Demo.played126 (Demo.fine (Demo.toTx ++ [Demo.uplink, .setMode .hold])) = some (d, c) ∧
    c.mode = .sleep ∧ c.io = .txBoost :=
  ⟨_, _, rfl, by decide +kernel, by decide +kernel⟩

end LDL
