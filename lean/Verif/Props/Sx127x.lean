import Verif.Lemmas.Sx127xLoop
import Verif.Lemmas.Demo

/-!
# The radio: order of calls (C64); SX1272 and SX1276 (C65 to C71)
-/

namespace LDL
open Spec (Phase follow RadioIn Reachable)
open Spec.Sx127x
open Sx127x (Driver Kind Pa)

/-- **C64**: in every execution the radio is used in the order of the protocol: it is reset before anything else, made
ready before each transmission and each reception, and is in the mode that belongs to the state of the device. -/
theorem c64_order {cfg : Cfg} {m : Mac} (hr : Reachable cfg m) :
    ∃ p, follow .unknown m.out = some p ∧ RadioIn m.state p := reachable_says hr

/-- Not every order is allowed. -/
example : follow .unknown [.setMode .boot] = none ∧
    follow .unknown [.setMode .reset, .setMode .boot, .setMode .sleep, .setMode .tx] = some .tx ∧
    follow .unknown [.setMode .reset, .setMode .boot, .setMode .sleep, .setMode .tx, .setMode .rx] = none := by decide

/-- A driver fresh from initialisation and any chip of the right kind: the first call is a reset. -/
theorem start_in (k : Kind) (x : Xtal) (pa : Pa) (gain : Int) (hg : -29000 ≤ gain ∧ gain ≤ 32767) (c : Chip)
    (hc : c.kind = k) : Sx127x.In (Sx127x.init k x pa gain) c .unknown :=
  ⟨hc, rfl, trivial, fun h => absurd rfl h, hg⟩

/-- **C64**: the driver never aborts: however far it has carried out the history of an execution, and whatever the
chip did meanwhile, it can carry out the rest. -/
theorem c64_sx127x {cfg : Cfg} (hE : ∀ k, BlockFn (cfg.E k)) {m : Mac} (hr : Reachable cfg m) (k : Kind) (x : Xtal)
    (pa : Pa) (gain : Int) (hg : -29000 ≤ gain ∧ gain ≤ 32767) (c : Chip) (hc : c.kind = k)
    (l l' : List Event) (hl : m.out = l ++ l') (d1 : Driver) (c1 : Chip) (hp : Plays (Sx127x.init k x pa gain) c l d1 c1) :
    ∃ d' c', Plays d1 c1 l' d' c' := by
  obtain ⟨p, h1, _⟩ := reachable_says hr
  have hf := reachable_fine hE hr
  rw [hl, follow_append] at h1
  obtain ⟨q, h2, h3⟩ := Option.bind_eq_some_iff.1 h1
  have hin := (Sx127x.plays_done (start_in k x pa gain hg c hc) hp h2
    fun y hy => hf y (by rw [hl]; exact List.mem_append_left _ hy)).1
  obtain ⟨d', c', h4, _⟩ := Sx127x.plays_exists hin l' h3 fun y hy => hf y (by rw [hl]; exact List.mem_append_right _ hy)
  exact ⟨d', c', h4⟩

/-- **C65, C67**: what the chip has put on the air after an execution is exactly what the MAC asked for, transmission
by transmission and byte by byte: frequency, spreading factor, bandwidth and the parameters LoRaWAN prescribes, with
the requested power (less the antenna gain). -/
theorem c65_on_air {cfg : Cfg} (hE : ∀ k, BlockFn (cfg.E k)) {m : Mac} (hr : Reachable cfg m) (k : Kind) (x : Xtal)
    (pa : Pa) (gain : Int) (hg : -29000 ≤ gain ∧ gain ≤ 32767) (c : Chip) (hc : c.kind = k) (d' : Driver) (c' : Chip)
    (hp : Plays (Sx127x.init k x pa gain) c m.out d' c') :
    ∃ ems, c'.aired = c.aired ++ ems.map some ∧
      List.Forall₂ (fun y em => Airs y.1 y.2 em ∧ PowerOk k pa (y.1.eirp - gain) em) (asked m.out) ems := by
  obtain ⟨p, h1, _⟩ := reachable_says hr
  exact (Sx127x.plays_done (start_in k x pa gain hg c hc) hp h1 (reachable_fine hE hr)).2.aired

/-- **C66**: the chip has opened exactly the receive windows the MAC asked for. -/
theorem c66_windows {cfg : Cfg} (hE : ∀ k, BlockFn (cfg.E k)) {m : Mac} (hr : Reachable cfg m) (k : Kind) (x : Xtal)
    (pa : Pa) (gain : Int) (hg : -29000 ≤ gain ∧ gain ≤ 32767) (c : Chip) (hc : c.kind = k) (d' : Driver) (c' : Chip)
    (hp : Plays (Sx127x.init k x pa gain) c m.out d' c') :
    ∃ ls, c'.heard = c.heard ++ ls.map some ∧ List.Forall₂ Hears (windows m.out) ls := by
  obtain ⟨p, h1, _⟩ := reachable_says hr
  exact (Sx127x.plays_done (start_in k x pa gain hg c hc) hp h1 (reachable_fine hE hr)).2.heard

/-- The states in which the device waits for something other than a receive window. -/
def Spec.Resting (s : St) : Prop := s = .idle ∨ s = .waitEntropy ∨ s = .waitOTAA ∨ s = .waitTX ∨ s = .rx2Lockout

/-- **C68**: while the device is idle, or waits for its turn to send, the chip is in sleep mode and its oscillator off. -/
theorem c68_asleep {cfg : Cfg} (hE : ∀ k, BlockFn (cfg.E k)) {m : Mac} (hr : Reachable cfg m) (hs : Spec.Resting m.state)
    (k : Kind) (x : Xtal) (pa : Pa) (gain : Int) (hg : -29000 ≤ gain ∧ gain ≤ 32767) (c : Chip) (hc : c.kind = k)
    (d' : Driver) (c' : Chip) (hp : Plays (Sx127x.init k x pa gain) c m.out d' c') : c'.mode = 0 ∧ c'.io = .sleep := by
  obtain ⟨p, h1, h2⟩ := reachable_says hr
  have hin := (Sx127x.plays_done (start_in k x pa gain hg c hc) hp h1 (reachable_fine hE hr)).1
  have hp : p = .sleep := by rcases hs with h | h | h | h | h <;> rw [h] at h2 <;> exact h2
  subst hp
  exact ⟨hin.fits.2.2, hin.fits.1⟩

/-- **C68**: between the windows too, unless the oscillator is external. -/
theorem c68_between_windows {cfg : Cfg} (hE : ∀ k, BlockFn (cfg.E k)) {m : Mac} (hr : Reachable cfg m)
    (hs : m.state = .waitRX1 ∨ m.state = .waitRX2)
    (k : Kind) (pa : Pa) (gain : Int) (hg : -29000 ≤ gain ∧ gain ≤ 32767) (c : Chip) (hc : c.kind = k)
    (d' : Driver) (c' : Chip) (hp : Plays (Sx127x.init k .crystal pa gain) c m.out d' c') : c'.mode = 0 := by
  obtain ⟨p, h1, h2⟩ := reachable_says hr
  have hd := Sx127x.plays_done (start_in k .crystal pa gain hg c hc) hp h1 (reachable_fine hE hr)
  have hp : p = .hold := by rcases hs with h | h <;> rw [h] at h2 <;> exact h2
  subst hp
  exact hd.1.fits.2.2.1 hd.2.same.2.1

/-- **C69**: when a packet arrives in a receive window, the driver returns that packet, cut to the size asked for. -/
theorem c69_packet {cfg : Cfg} (hE : ∀ k, BlockFn (cfg.E k)) {m : Mac} (hr : Reachable cfg m)
    (hs : m.state = .rx1 ∨ m.state = .rx2)
    (k : Kind) (x : Xtal) (pa : Pa) (gain : Int) (hg : -29000 ≤ gain ∧ gain ≤ 32767) (c : Chip) (hc : c.kind = k)
    (d1 : Driver) (c1 : Chip) (hp : Plays (Sx127x.init k x pa gain) c m.out d1 c1)
    (flags : UInt8) (packet : Bytes) (snr rssi : UInt8) (hl : packet.length ≤ 255) (max : Nat) (c2 : Chip)
    (h2 : c2 = { c1 with
        mode := 1
        fifo := fun i => packet.getD ((i + 256 - (c1.page 0x0F).toNat) % 256) (c1.fifo i)
        page := put (put (put (c1.raise flags) 0x13 (UInt8.ofNat packet.length)) 0x19 snr) 0x1A rssi }) :
    (Sx127x.readBufferMeta d1 c2.reg max).1 = min packet.length max ∧
    c2.answers (Sx127x.readBufferOps c2.reg max) =
      [[UInt8.ofNat packet.length]] ++ (if packet.take max = [] then [] else [packet.take max]) ++ [[rssi], [snr]] := by
  obtain ⟨p, h1, h3⟩ := reachable_says hr
  have hin := (Sx127x.plays_done (start_in k x pa gain hg c hc) hp h1 (reachable_fine hE hr)).1
  have hp : p = .receiving := by rcases hs with h | h <;> rw [h] at h3 <;> exact h3
  subst hp
  obtain ⟨hio, hlora, hmode⟩ := hin.fits
  have h0F := (hin.kept (by decide)).2.2
  have hl2 : c2.lora = true := by rw [h2]; exact hlora
  have hr2 : c2.io ≠ .reset := by rw [h2]; exact hio
  have hnb : c2.reg Sx127x.RegRxNbBytes = UInt8.ofNat packet.length := by
    show (if _ then (if c2.lora then c2.page 0x13 else _) else _) = _
    rw [if_pos (by decide), if_pos hl2, h2]
    rfl
  have hlen : (UInt8.ofNat packet.length).toNat = packet.length := by rw [UInt8.toNat_ofNat']; omega
  have hsize : Sx127x.fifoSize (c2.reg Sx127x.RegRxNbBytes).toNat max = min packet.length max := by
    unfold Sx127x.fifoSize
    rw [hnb, hlen]
    split <;> omega
  refine ⟨hsize, ?_⟩
  have hregs : ∀ P, P 0x19 = snr → P 0x1A = rssi →
      ({ c2 with page := P } : Chip).answers [Sx127x.readReg Sx127x.RegPktRssiValue, Sx127x.readReg Sx127x.RegPktSnrValue] =
        [[rssi], [snr]] := by
    intro P p1 p2
    generalize hc3 : ({ c2 with page := P } : Chip) = c3
    have hl3 : c3.lora = true := by rw [← hc3]; exact hl2
    have e1 : c3.reg 0x1A = rssi := by
      show (if _ then (if c3.lora then c3.page 0x1A else _) else _) = _
      rw [if_pos (by decide), if_pos hl3, ← hc3]; exact p2
    have e2 : c3.reg 0x19 = snr := by
      show (if _ then (if c3.lora then c3.page 0x19 else _) else _) = _
      rw [if_pos (by decide), if_pos hl3, ← hc3]; exact p1
    show [c3.reg 0x1A] :: Chip.answers (c3.exec (Sx127x.readReg Sx127x.RegPktRssiValue)) _ = _
    rw [Sx127x.exec_readReg c3 _ (by decide) (by decide)]
    show [c3.reg 0x1A] :: [[c3.reg 0x19]] = _
    rw [e1, e2]
  have hP : c2.page 0x19 = snr ∧ c2.page 0x1A = rssi := by rw [h2]; exact ⟨rfl, rfl⟩
  unfold Sx127x.readBufferOps
  simp only []
  rw [hsize]
  show [c2.reg 0x13] :: Chip.answers (c2.exec (Sx127x.readReg Sx127x.RegRxNbBytes)) _ = _
  rw [Sx127x.exec_readReg c2 _ (by decide) (by decide)]
  have : c2.reg 0x13 = UInt8.ofNat packet.length := hnb
  rw [this]
  by_cases hz : min packet.length max > 0
  · rw [if_pos hz, if_neg]
    · show [UInt8.ofNat packet.length] :: Chip.answers (c2.exec (Sx127x.writeReg Sx127x.RegFifoAddrPtr 0)) _ = _
      rw [Sx127x.exec_page c2 _ 0 (by decide) (by decide) hr2 hl2]
      show _ :: Chip.readFifo _ (min packet.length max) :: Chip.answers (Chip.exec _ _) _ = _
      have hfifo : Chip.readFifo { c2 with page := put c2.page Sx127x.RegFifoAddrPtr (UInt8.ofNat 0) } (min packet.length max) =
          packet.take max := by
        unfold Chip.readFifo
        apply List.ext_getElem
        · simp; omega
        · intro i i1 i2
          simp only [List.length_map, List.length_range] at i1
          simp only [List.getElem_map, List.getElem_range]
          show c2.fifo ((0 + i) % 256) = _
          rw [h2]
          show packet.getD (((0 + i) % 256 + 256 - (c1.page 0x0F).toNat) % 256) _ = _
          rw [h0F]
          have hi : ((0 + i) % 256 + 256 - (0 : UInt8).toNat) % 256 = i := by
            show ((0 + i) % 256 + 256 - 0) % 256 = i
            omega
          rw [hi]
          rw [List.getD_eq_getElem?_getD, List.getElem?_eq_getElem (by omega)]
          simp
      rw [hfifo]
      obtain ⟨v, h | h⟩ := Sx127x.exec_burstRead { c2 with page := put c2.page Sx127x.RegFifoAddrPtr (UInt8.ofNat 0) }
        (min packet.length max)
      · have := hregs (put (put c2.page Sx127x.RegFifoAddrPtr (UInt8.ofNat 0)) 0x0D v) hP.1 hP.2
        exact congrArg (fun t => _ :: _ :: t) ((congrArg (fun c => Chip.answers c _) h).trans this)
      · have := hregs (put c2.page Sx127x.RegFifoAddrPtr (UInt8.ofNat 0)) hP.1 hP.2
        exact congrArg (fun t => _ :: _ :: t) ((congrArg (fun c => Chip.answers c _) h).trans this)
    · intro h
      have := congrArg List.length h
      simp at this
      rcases this with h | h
      · omega
      · rw [h] at hz; simp at hz
  · rw [if_neg hz, if_pos]
    · exact congrArg (fun t => _ :: t) (hregs c2.page hP.1 hP.2)
    · rw [List.take_eq_nil_iff]
      by_cases h0 : max = 0
      · exact Or.inl h0
      · right
        exact List.length_eq_zero_iff.1 (by omega)

/-- A statement about one byte, checked for each of the 256. -/
theorem all_bytes {P : UInt8 → Prop} [DecidablePred P] (h : ∀ n : Fin 256, P (UInt8.ofNat n.val)) (x : UInt8) : P x := by
  have := h ⟨x.toNat, UInt8.toNat_lt x⟩
  rwa [UInt8.ofNat_toNat] at this

/-- A chip about which nothing is known, except that it is an SX1276. -/
def Demo.chip : Chip :=
  { kind := .sx1276, io := .rx, lora := false, mode := 5, common := fun _ => 0xff, page := fun _ => 0xff
    fsk := fun _ => 0xff, fifo := fun _ => 0xff, defaults := fun _ => 0xff, aired := [], heard := [] }

/-- The status during and after a transmission. -/
theorem tx_status (d : Driver) (c : Chip) (s : TxSetting) (data : Bytes) (hk : c.kind = d.type)
    (hl : c.lora = true) (hm : c.mode ≠ 0) (hp : c.preamble = 8) (hd : data.length ≤ 255)
    (hu : Spec.Usable s.bw s.sf) (c1 : Chip) (h1 : c1 = c.run (Sx127x.transmit d s data)) :
    Sx127x.getStatus (c1.reg 0x12) = {} ∧
    ∀ c2, c1.Acts c2 → Sx127x.getStatus (c2.reg 0x12) = { tx := true } := by
  have h := Sx127x.transmit_sent d c s data hk hl hm hp hd hu
  rw [← h1] at h
  clear h1
  have hreg : ∀ c : Chip, c.lora = true → c.reg 0x12 = c.page 0x12 := by
    intro c hc
    show (if _ then (if c.lora then c.page 0x12 else _) else _) = _
    rw [if_pos (by decide), if_pos hc]
  refine ⟨by rw [hreg c1 h.lora, h.flags]; rfl, fun c2 ha => ?_⟩
  have hm1 := h.mode
  cases ha with
  | txDone x hm hx =>
    refine (congrArg Sx127x.getStatus (hreg _ ?_)).trans ?_
    · exact h.lora
    show Sx127x.getStatus (c1.page 0x12 ||| (x &&& ~~~c1.page 0x11)) = _
    rw [h.flags, h.mask]
    exact all_bytes (P := fun x => x &&& 0xC8 = 0x08 → Sx127x.getStatus (0 ||| (x &&& ~~~0xf7)) = { tx := true }) (by decide +kernel) x hx
  | rxTimeout x hm hx => rw [hm1] at hm; cases hm
  | rxDone x packet snr rssi hm hx hl => rw [hm1] at hm; cases hm

/-- The status during and after a receive window. -/
theorem rx_status (d : Driver) (c : Chip) (s : RxSetting) (hk : c.kind = d.type)
    (hl : c.lora = true) (hm : c.mode ≠ 0) (hp : c.preamble = 8) (hx : s.max ≤ 255)
    (hu : Spec.Usable s.bw s.sf) (c1 : Chip) (h1 : c1 = c.run (Sx127x.receive d s)) :
    Sx127x.getStatus (c1.reg 0x12) = {} ∧
    ∀ c2, c1.Acts c2 →
      (Sx127x.getStatus (c2.reg 0x12) = { timeout := true } ∧ c2.fifo = c1.fifo) ∨
      (Sx127x.getStatus (c2.reg 0x12) = { rx := true } ∧ ∃ n : Nat, n ≤ s.max ∧ c2.reg 0x13 = UInt8.ofNat n) := by
  have h := Sx127x.receive_opened d c s hk hl hm hp hx hu
  rw [← h1] at h
  clear h1
  have hreg : ∀ (c : Chip) (a : Nat), c.lora = true → Chip.paged a = true → c.reg a = c.page a := by
    intro c a hc ha
    show (if _ then (if c.lora then c.page a else _) else _) = _
    rw [if_pos ha, if_pos hc]
  refine ⟨by rw [hreg c1 _ h.lora (by decide), h.flags]; rfl, fun c2 ha => ?_⟩
  have hm1 := h.mode
  cases ha with
  | txDone x hm hx => rw [hm1] at hm; cases hm
  | rxTimeout x hm hx =>
    left
    refine ⟨(congrArg Sx127x.getStatus (hreg _ _ ?_ (by decide))).trans ?_, rfl⟩
    · exact h.lora
    show Sx127x.getStatus (c1.page 0x12 ||| (x &&& ~~~c1.page 0x11)) = _
    rw [h.flags, h.mask]
    exact all_bytes (P := fun x => x &&& 0xC8 = 0x80 → Sx127x.getStatus (0 ||| (x &&& ~~~0x3f)) = { timeout := true }) (by decide +kernel) x hx
  | rxDone x packet snr rssi hm hx hl =>
    right
    refine ⟨(congrArg Sx127x.getStatus (hreg _ _ ?_ (by decide))).trans ?_, packet.length, ?_, (hreg _ _ ?_ (by decide)).trans ?_⟩
    · exact h.lora
    · show Sx127x.getStatus (c1.page 0x12 ||| (x &&& ~~~c1.page 0x11)) = _
      rw [h.flags, h.mask]
      exact all_bytes (P := fun x => x &&& 0xC8 = 0x40 → Sx127x.getStatus (0 ||| (x &&& ~~~0x3f)) = { rx := true }) (by decide +kernel) x hx
    · rw [h.max, UInt8.toNat_ofNat'] at hl
      have : s.max % 2 ^ 8 ≤ s.max := Nat.mod_le _ _
      omega
    · exact h.lora
    · rfl

/-- The driver and the chip when the history of an execution reaches an event. -/
theorem reached_in {cfg : Cfg} (hE : ∀ k, BlockFn (cfg.E k)) {m : Mac} (hr : Reachable cfg m) (k : Kind) (x : Xtal)
    (pa : Pa) (gain : Int) (hg : -29000 ≤ gain ∧ gain ≤ 32767) (c : Chip) (hc : c.kind = k)
    (l l' : List Event) (ev : Event) (hl : m.out = l ++ ev :: l') (d1 : Driver) (c1 : Chip)
    (hp : Plays (Sx127x.init k x pa gain) c l d1 c1) :
    ∃ p, Sx127x.In d1 c1 p ∧ (∃ q, Spec.accepts p ev = some q) ∧ Spec.Fine ev := by
  obtain ⟨p, h1, _⟩ := reachable_says hr
  have hf := reachable_fine hE hr
  rw [hl, follow_append] at h1
  obtain ⟨q, h2, h3⟩ := Option.bind_eq_some_iff.1 h1
  obtain ⟨r, h4, _⟩ := Option.bind_eq_some_iff.1 h3
  exact ⟨q, (Sx127x.plays_done (start_in k x pa gain hg c hc) hp h2
    fun y hy => hf y (by rw [hl]; exact List.mem_append_left _ hy)).1, ⟨r, h4⟩,
    hf ev (by rw [hl]; exact List.mem_append_right _ (List.mem_cons_self ..))⟩

/-- **C71**: the end of a transmission is reported as such, and nothing is reported before. -/
theorem c71_tx_status {cfg : Cfg} (hE : ∀ k, BlockFn (cfg.E k)) {m : Mac} (hr : Reachable cfg m) (k : Kind) (x : Xtal)
    (pa : Pa) (gain : Int) (hg : -29000 ≤ gain ∧ gain ≤ 32767) (c : Chip) (hc : c.kind = k)
    (l l' : List Event) (t : Nat) (s : TxSetting) (data : Bytes) (hl : m.out = l ++ .transmit t s data :: l')
    (d1 : Driver) (c1 : Chip) (hp : Plays (Sx127x.init k x pa gain) c l d1 c1) (c2 : Chip)
    (h2 : c2 = c1.run (Sx127x.transmit d1 s data)) :
    Sx127x.getStatus (c2.reg 0x12) = {} ∧
    ∀ c3, c2.Acts c3 → Sx127x.getStatus (c3.reg 0x12) = { tx := true } := by
  obtain ⟨p, hin, ⟨q, ha⟩, hf⟩ := reached_in hE hr k x pa gain hg c hc l l' _ hl d1 c1 hp
  have hp : p = .tx := by
    refine Decidable.byContradiction fun hne => ?_
    have : Spec.accepts p (.transmit t s data) = none := if_neg hne
    rw [this] at ha
    cases ha
  subst hp
  exact tx_status d1 c1 s data hin.kind hin.fits.2.1 hin.fits.2.2 (hin.kept (by decide)).preamble hf.2.1 hf.1 c2 h2

/-- **C71**: a receive window ends with a packet or with giving up, and each is reported as what it is. -/
theorem c71_rx_status {cfg : Cfg} (hE : ∀ k, BlockFn (cfg.E k)) {m : Mac} (hr : Reachable cfg m) (k : Kind) (x : Xtal)
    (pa : Pa) (gain : Int) (hg : -29000 ≤ gain ∧ gain ≤ 32767) (c : Chip) (hc : c.kind = k)
    (l l' : List Event) (t : Nat) (s : RxSetting) (hl : m.out = l ++ .receive t s :: l')
    (d1 : Driver) (c1 : Chip) (hp : Plays (Sx127x.init k x pa gain) c l d1 c1) (c2 : Chip)
    (h2 : c2 = c1.run (Sx127x.receive d1 s)) :
    Sx127x.getStatus (c2.reg 0x12) = {} ∧
    ∀ c3, c2.Acts c3 →
      (Sx127x.getStatus (c3.reg 0x12) = { timeout := true } ∧ c3.fifo = c2.fifo) ∨
      (Sx127x.getStatus (c3.reg 0x12) = { rx := true } ∧ ∃ n : Nat, n ≤ s.max ∧ c3.reg 0x13 = UInt8.ofNat n) := by
  obtain ⟨p, hin, ⟨q, ha⟩, hf⟩ := reached_in hE hr k x pa gain hg c hc l l' _ hl d1 c1 hp
  have hp : p = .rx := by
    refine Decidable.byContradiction fun hne => ?_
    have : Spec.accepts p (.receive t s) = none := if_neg hne
    rw [this] at ha
    cases ha
  subst hp
  exact rx_status d1 c1 s hin.kind hin.fits.2.1 hin.fits.2.2 (hin.kept (by decide)).preamble hf.2 hf.1 c2 h2

/-- **C67** as far as it holds: the power of every transmission is the one asked for, less the antenna gain, within the
limits of `PowerOk`. -/
theorem c67_power_partial {cfg : Cfg} (hE : ∀ k, BlockFn (cfg.E k)) {m : Mac} (hr : Reachable cfg m) (k : Kind) (x : Xtal)
    (pa : Pa) (gain : Int) (hg : -29000 ≤ gain ∧ gain ≤ 32767) (c : Chip) (hc : c.kind = k) (d' : Driver) (c' : Chip)
    (hp : Plays (Sx127x.init k x pa gain) c m.out d' c') :
    ∃ ems, c'.aired = c.aired ++ ems.map some ∧
      List.Forall₂ (fun y em => PowerOk k pa (y.1.eirp - gain) em) (asked m.out) ems := by
  obtain ⟨ems, h1, h2⟩ := c65_on_air hE hr k x pa gain hg c hc d' c' hp
  refine ⟨ems, h1, ?_⟩
  clear h1
  generalize asked m.out = l at h2 ⊢
  induction h2 with
  | nil => exact .nil
  | cons h _ ih => exact .cons h.2 ih

/-- **C67**, the exception: below 0 dBm the power is rounded towards zero, so a device with a 3.5 dBi antenna asked for
2 dBm EIRP emits 2.5 dBm. -/
theorem c67_rounds_up :
    ∃ em, (({ Demo.chip with lora := true, mode := 1 } : Chip).run
      (Sx127x.transmit (Sx127x.init .sx1276 .crystal .rfo 350) { freq := 868100000, bw := .b125, sf := 7, eirp := 200 } [1])).aired =
        [some em] ∧ em.power = -100 ∧ (200 - 350 : Int) < em.power :=
  ⟨_, rfl, by decide +kernel, by decide +kernel⟩

/-- **C67**, a second exception: 18 and 19 dBm are emitted as 17 dBm. -/
theorem c67_gap :
    ∃ em, (({ Demo.chip with lora := true, mode := 1 } : Chip).run
      (Sx127x.transmit (Sx127x.init .sx1276 .crystal .boost 0) { freq := 868100000, bw := .b125, sf := 7, eirp := 1999 } [1])).aired =
        [some em] ∧ em.power = 1700 :=
  ⟨_, rfl, by decide +kernel⟩

/-- **C70**: the signal strength reported with a packet is the chip's; the signal to noise ratio is the chip's as long as
it is not negative. -/
theorem c70_quality_partial (d : Driver) (rd : Nat → UInt8) (max : Nat) :
    (Sx127x.readBufferMeta d rd max).2.rssi = rssiOf d.type (rd 0x1A) ∧
    (0 ≤ quarterSnr (rd 0x19) → (Sx127x.readBufferMeta d rd max).2.snr = quarterSnr (rd 0x19) / 4) := by
  have h1 : (rd 0x1A).toNat < 256 := UInt8.toNat_lt _
  have h2 : (rd 0x19).toNat < 256 := UInt8.toNat_lt _
  refine ⟨?_, fun h => ?_⟩
  · unfold Sx127x.readBufferMeta rssiOf
    simp only []
    show s16 (s16 ((rd 0x1A).toNat : Int) - _) = _
    unfold s16
    cases d.type <;> simp only [] <;> omega
  · unfold Sx127x.readBufferMeta
    simp only []
    show (s16 ((rd 0x19).toNat : Int)).tdiv 4 = _
    unfold quarterSnr at *
    split at h
    · rename_i hlt
      rw [if_pos hlt]
      have : s16 ((rd 0x19).toNat : Int) = (rd 0x19).toNat := by unfold s16; omega
      rw [this, Int.tdiv_eq_ediv_of_nonneg (by omega)]
    · omega

/-- **C70** fails for negative ratios, the usual case at long range: -4 dB is reported as +60 dB. -/
theorem c70_negative_snr (d : Driver) (max : Nat) :
    (Sx127x.readBufferMeta d (fun _ => 0xF0) max).2.snr = 60 ∧ quarterSnr 0xF0 / 4 = -4 := by
  refine ⟨?_, by decide +kernel⟩
  have h : ∀ rd : Nat → UInt8, (Sx127x.readBufferMeta d rd max).2.snr = (s16 ((rd 0x19).toNat : Int)).tdiv 4 := by
    intro rd
    unfold Sx127x.readBufferMeta
    simp only []
    rfl
  refine (h _).trans ?_
  decide +kernel

/-- **C71**: each bit of the 32 bit random number is the low bit of a sample of its own. -/
theorem c71_entropy (samples : Nat → UInt8) :
    Sx127x.readEntropyValue samples < 2 ^ 32 ∧
    ∀ i < 32, (Sx127x.readEntropyValue samples).testBit i = (samples (31 - i)).toNat.testBit 0 := by
  have key : ∀ n ≤ 32, ∀ r, r = (List.range n).foldl (fun r i => u32 (r <<< 1) ||| ((samples i).toNat &&& 1)) 0 →
      r < 2 ^ n ∧ ∀ i < n, r.testBit i = (samples (n - 1 - i)).toNat.testBit 0 := by
    intro n
    induction n with
    | zero => intro _ r hr; rw [hr]; exact ⟨by show 0 < 1; omega, fun i hi => absurd hi (by omega)⟩
    | succ n ih =>
      intro hn r hr
      rw [List.range_succ, List.foldl_append] at hr
      obtain ⟨h1, h2⟩ := ih (by omega) _ rfl
      generalize (List.range n).foldl (fun r i => u32 (r <<< 1) ||| ((samples i).toNat &&& 1)) 0 = q at *
      have hr : r = u32 (q <<< 1) ||| ((samples n).toNat &&& 1) := hr
      have hq : q < 2 ^ 31 := Nat.lt_of_lt_of_le h1 (Nat.pow_le_pow_right (by decide) (by omega))
      have hu : u32 (q <<< 1) = q <<< 1 := by
        unfold u32
        rw [Nat.shiftLeft_eq]
        exact Nat.mod_eq_of_lt (by omega)
      rw [hu] at hr
      refine ⟨?_, fun i hi => ?_⟩
      · rw [hr]
        refine Nat.or_lt_two_pow ?_ ?_
        · rw [Nat.shiftLeft_eq, Nat.pow_succ]; omega
        · have := Nat.and_le_right (n := (samples n).toNat) (m := 1)
          have : 2 ≤ 2 ^ (n + 1) := by rw [Nat.pow_succ]; have := Nat.one_le_two_pow (n := n); omega
          omega
      · rw [hr, Nat.testBit_or, Nat.testBit_and, Nat.testBit_shiftLeft]
        rcases i with _ | i
        · simp
        · have : Nat.testBit 1 (i + 1) = false := by rw [Nat.testBit_succ]; simp
          rw [this, Bool.and_false, Bool.or_false]
          simp only [ge_iff_le, Nat.le_add_left, decide_true, Bool.true_and, Nat.add_sub_cancel]
          rw [h2 i (by omega)]
          congr 3
          omega
  exact key 32 (Nat.le_refl _) _ rfl

/-! ### Cases -/

/-- A history with a transmission and both receive windows. -/
def Demo.bothWindows : Mac := run Demo.cfg Demo.joined (Demo.send false 30000 :: Demo.cycle 30000)

theorem Demo.bothWindows_reachable : Reachable Demo.cfg Demo.bothWindows :=
  Demo.run_reach Demo.joined_reachable _ (by decide +kernel)

/-- C65, C66 and C68 apply to a device that sent a frame, listened in both windows and is idle again. -/
example : (asked Demo.bothWindows.out).length = 1 ∧ (windows Demo.bothWindows.out).length = 2 ∧
    Spec.Resting Demo.bothWindows.state := ⟨by decide +kernel, by decide +kernel, Or.inl (by decide +kernel)⟩

/-- The driver carries out the history on it. -/
def Demo.played (l : List Event) : Option (Driver × Chip) :=
  l.foldl (fun o ev => o.bind fun x => perform x.1 x.2 ev) (some (Sx127x.init .sx1276 .tcxo .boost 215, Demo.chip))

/-- What is on the air in the end. -/
example : (Demo.played Demo.bothWindows.out).map (fun x => (x.2.aired.length, x.2.heard.length, x.2.mode)) =
      some (1, 2, 0) ∧
    ((Demo.played Demo.bothWindows.out).bind fun x => (x.2.aired.getD 0 none).map fun em =>
      (em.bytes.length, em.sf, em.bw, em.power, em.io)) = some (16, 12, some .b125, 1300, .txBoost) := by decide +kernel

end LDL
