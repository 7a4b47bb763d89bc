import Verif.Model.Sx126x
import Verif.Spec.Sx126xChip
import Verif.Spec.LoRaRate

/-!
# The driver between the MAC and the chip (SX1261, SX1262, WL55)

What LoRaWAN transmissions and receive windows are, and how driver and chip get from one state to the next over a
history of events at the MAC, while the chip also acts on its own and may be busy.
-/

namespace LDL.Spec.Sx126x
open LDL.Sx126x

/-- `c` (1/16384 Hz) is the carrier for `freq` (Hz): the multiple of the synthesiser step (15625/16384 Hz) next below. -/
def CarrierFor (c freq : Nat) : Prop := 15625 ∣ c ∧ c ≤ 16384 * freq ∧ 16384 * freq < c + 15625

/-- `em` is the uplink `data` sent with setting `s`. -/
structure Airs (s : TxSetting) (data : Bytes) (em : Emission) : Prop where
  bytes : em.bytes = data
  /-- the frequency has 32 bits -/
  carrier : s.freq < 4096000000 → CarrierFor em.carrier s.freq
  bw : em.bw = some s.bw
  sf : em.sf = s.sf
  codingRate : em.codingRate = 1
  explicitHeader : em.explicitHeader = true
  crc : em.crc = true
  lowRate : em.lowRate = LongSymbol s.bw s.sf
  /-- the public sync word -/
  syncWord : em.syncWord = 0x3444
  inverted : em.inverted = false
  preamble : em.preamble = 8
  signalled : em.signalled = true
  timer : em.timer = 0

/-- `l` is a receive window with setting `s`. -/
structure Hears (s : RxSetting) (l : Listening) : Prop where
  carrier : s.freq < 4096000000 → CarrierFor l.carrier s.freq
  bw : l.bw = some s.bw
  sf : l.sf = s.sf
  codingRate : l.codingRate = 1
  explicitHeader : l.explicitHeader = true
  lowRate : l.lowRate = LongSymbol s.bw s.sf
  syncWord : l.syncWord = 0x3444
  inverted : l.inverted = true
  preamble : l.preamble = 8
  /-- the symbol timeout is an octet -/
  symbols : l.symbols = min 255 s.timeout
  max : l.max = s.max
  io : l.io = .rx
  signalled : l.signalled = true
  timer : l.timer = 0

/-- The amplifier of the board: the SX1261 has the low power one, the SX1262 the high power one, the WL55 both.  The
accessory lines select it. -/
structure Amplifier (k : Kind) (pa : Pa) (em : Emission) : Prop where
  sx1261 : k = .sx1261 → em.hp = false
  sx1262 : k = .sx1262 → em.hp = true
  lp : k = .wl55 → pa = .lp → em.hp = false
  hp : k = .wl55 → pa = .hp → em.hp = true
  io : em.io = if em.hp then .txBoost else .txRfo

/-- Weakest output in hundredths of a dBm. -/
def lowest (hp : Bool) : Int := if hp then -900 else -1700

/-- Strongest output in hundredths of a dBm. -/
def highest (hp : Bool) : Int := if hp then 2200 else 1400

/-- `em` is not stronger than asked (`p`, hundredths of a dBm), unless the amplifier cannot go that low or, below 0 dBm,
by less than 1 dB. -/
def NotTooStrong (p : Int) (em : Emission) : Prop :=
  ∃ w, em.power = some w ∧ 100 * w ≤ max (lowest em.hp) (if 0 ≤ p then p else p + 99)

/-- `em` is at most `by_` hundredths of a dB weaker than asked, as far as the amplifier goes, and as strong as the
amplifier can be if asked for that or more. -/
def NotTooWeak (by_ p : Int) (em : Emission) : Prop :=
  ∃ w, em.power = some w ∧ min (highest em.hp) p - by_ ≤ 100 * w ∧ (highest em.hp ≤ p → 100 * w = highest em.hp)

/-- The parameters of SetDIO3AsTCXOCtrl for voltage `v`: it is given 21 ms to start (in steps of 1/64 ms). -/
def tcxoFor (v : Nat) : Bytes := [UInt8.ofNat v, 0, 5, 0x40]

/-- Regulator, antenna switch and oscillator are set up for the board. -/
structure SetUp (d : Driver) (regulator rfSwitch tcxo : Bytes) : Prop where
  regulator : regulator = [UInt8.ofNat d.regulator]
  rfSwitch : rfSwitch = [UInt8.ofNat (if d.type = .wl55 then 0 else d.txen)]
  tcxo : tcxo = if d.xtal = .tcxo then tcxoFor d.voltage else []

/-- Parameters of CalibrateImage for each band (data sheet, table 9-2). -/
def imageBand (freq : Nat) : Option Bytes :=
  if 430000000 ≤ freq ∧ freq < 440000000 then some [0x6b, 0x6f]
  else if 470000000 ≤ freq ∧ freq < 510000000 then some [0x75, 0x81]
  else if 779000000 ≤ freq ∧ freq < 787000000 then some [0xc1, 0xc5]
  else if 863000000 ≤ freq ∧ freq < 870000000 then some [0xd7, 0xdb]
  else if 902000000 ≤ freq ∧ freq < 928000000 then some [0xe1, 0xe9]
  else none

/-- Driver and chip after one event at the MAC, `none` if the driver aborts; `busy` says which accesses fail. -/
def perform (d : Driver) (c : Chip) (busy : Nat → Bool) : Event → Option (Driver × Chip)
  | .setMode mode => (setMode d mode busy).map fun x => (x.1, c.run x.2)
  | .transmit _ s data => some ((transmit d s data busy).1, c.run (transmit d s data busy).2)
  | .receive _ s => some ((receive d s busy).1, c.run (receive d s busy).2)
  | .receiveEntropy => some (d, c.run (receiveEntropy busy))
  | .readEntropy => some (d, c.run (readEntropyOps busy))
  | .readBuffer => some (d, c.run (readBufferOps c.rxLength.toNat 255 busy))
  | .getStatus => some (d, c.run (attempt busy 0 [getIrqStatus]))
  | _ => some (d, c)

/-- Driver and chip can get from `d`, `c` to `d'`, `c'` over a history of events at the MAC.  `B` says how the chip may
be busy. -/
inductive Plays (B : (Nat → Bool) → Prop) (d : Driver) (c : Chip) : List Event → Driver → Chip → Prop
  | start : Plays B d c [] d c
  | acts {l : List Event} {d' : Driver} {c' c'' : Chip} (h : Plays B d c l d' c') (ha : c'.Acts c'') : Plays B d c l d' c''
  | event {l : List Event} {d' d'' : Driver} {c' c'' : Chip} (h : Plays B d c l d' c') (ev : Event) (busy : Nat → Bool)
      (hb : B busy) (hp : perform d' c' busy ev = some (d'', c'')) : Plays B d c (l ++ [ev]) d'' c''

/-- Accesses may fail at any time. -/
def Anyhow (_ : Nat → Bool) : Prop := True

/-- No access fails. -/
def Ready (busy : Nat → Bool) : Prop := ∀ i, busy i = false

/-- The transmissions asked for. -/
def asked (l : List Event) : List (TxSetting × Bytes) :=
  l.filterMap fun | .transmit _ s data => some (s, data) | _ => none

/-- The receptions asked for, `none` for one to gather noise. -/
def windows (l : List Event) : List (Option RxSetting) :=
  l.filterMap fun | .receive _ s => some (some s) | .receiveEntropy => some none | _ => none

/-- `em` is the transmission `x` with the amplifier of the board, not too strong and at most 8.99 dB too weak, 3.99 dB
on the low power amplifier. -/
structure Emits (d : Driver) (x : TxSetting × Bytes) (em : Emission) : Prop where
  airs : Airs x.1 x.2 em
  amplifier : Amplifier d.type d.pa em
  strong : NotTooStrong (x.1.eirp - d.txGain) em
  weak : NotTooWeak 899 (x.1.eirp - d.txGain) em
  weakLp : d.type = .sx1261 ∨ d.type = .wl55 ∧ d.pa = .lp → NotTooWeak 399 (x.1.eirp - d.txGain) em

/-- `l` is the reception `w`: a receive window, or listening for noise, which is never signalled. -/
def Listens (w : Option RxSetting) (l : Listening) : Prop :=
  match w with
  | some s => Hears s l
  | none => l.signalled = false ∧ l.timer = 0 ∧ l.io = .rx

/-- `em` is made on a chip that is set up for the board, with the image calibrated for the band. -/
structure Prepared (d : Driver) (x : TxSetting × Bytes) (em : Emission) : Prop where
  setUp : SetUp d em.regulator em.rfSwitch em.tcxo
  image : ∀ b, imageBand x.1.freq = some b → em.image = b

/-- `l` is made on a chip that is set up for the board, a receive window with the image calibrated. -/
structure Tuned (d : Driver) (w : Option RxSetting) (l : Listening) : Prop where
  setUp : SetUp d l.regulator l.rfSwitch l.tcxo
  image : w ≠ none → l.image ≠ []

/-- Packet status: signal to noise ratio in quarters of a dB, two's complement. -/
def quarterSnr (v : UInt8) : Int := Chip.signed v.toNat

/-- Packet status: signal strength in halves of a dBm. -/
def halfRssi (v : UInt8) : Int := -(v.toNat : Int)

end LDL.Spec.Sx126x
