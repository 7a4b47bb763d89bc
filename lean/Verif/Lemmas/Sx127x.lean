import Verif.Model.Sx127x
import Verif.Spec.RadioDriver

/-!
# Driver calls executed by the chip (SX1272, SX1276)
-/

namespace LDL
open Spec.Sx127x LDL.Sx127x

namespace Sx127x

theorem opcode_toNat : ∀ a : Fin 128, (UInt8.ofNat (u8 a.val ||| 0x80)).toNat = a.val + 128 := by decide +kernel

theorem exec_writeReg (c : Chip) (a v : Nat) (ha : a < 128) (h0 : a ≠ 0) (hr : c.io ≠ .reset) :
    c.exec (writeReg a v) = c.setReg a (UInt8.ofNat v) := by
  have h := opcode_toNat ⟨a, ha⟩
  simp only [] at h
  show c.write (UInt8.ofNat (u8 a ||| 0x80)).toNat [UInt8.ofNat v] = _
  unfold Chip.write
  rw [h, if_neg (by simp [hr]), if_neg (by omega), Nat.add_sub_cancel]
  rfl

theorem exec_burstWrite (c : Chip) (data : Bytes) (hr : c.io ≠ .reset) :
    c.exec (burstWrite RegFifo data) = c.setFifo data := by
  show c.write 128 data = _
  unfold Chip.write
  rw [if_neg (by simp [hr]), if_pos rfl]

theorem run_nil (c : Chip) : c.run [] = c := rfl
theorem run_cons (c : Chip) (o : BusOp) (l : List BusOp) : c.run (o :: l) = (c.exec o).run l := rfl
theorem run_append (c : Chip) (a b : List BusOp) : c.run (a ++ b) = (c.run a).run b := List.foldl_append

theorem put_same (f : Nat → UInt8) (a : Nat) (v : UInt8) : put f a v a = v := if_pos rfl
theorem put_ne (f : Nat → UInt8) {a b : Nat} (v : UInt8) (h : b ≠ a) : put f a v b = f b := if_neg h

/-- A LoRa page register is written. -/
theorem exec_page (c : Chip) (a v : Nat) (ha : Chip.paged a = true) (h12 : a ≠ 0x12) (hr : c.io ≠ .reset)
    (hl : c.lora = true) : c.exec (writeReg a v) = { c with page := put c.page a (UInt8.ofNat v) } := by
  have hb : 0x0D ≤ a ∧ a ≤ 0x3F := by simpa [Chip.paged] using ha
  rw [exec_writeReg c a v (by omega) (by omega) hr]
  unfold Chip.setReg
  rw [if_neg (by omega), if_pos ha, if_pos hl, if_neg h12]

theorem exec_irq (c : Chip) (v : Nat) (hr : c.io ≠ .reset)
    (hl : c.lora = true) : c.exec (writeReg RegIrqFlags v) =
      { c with page := put c.page 0x12 (c.page 0x12 &&& ~~~UInt8.ofNat v) } := by
  rw [exec_writeReg c _ v (by decide) (by decide) hr]
  unfold Chip.setReg
  rw [if_neg (by decide), if_pos (by decide), if_pos hl, if_pos (by decide)]
  rfl

theorem exec_common (c : Chip) (a v : Nat) (ha : Chip.paged a = false) (h0 : 1 < a) (h1 : a < 128) (hr : c.io ≠ .reset) :
    c.exec (writeReg a v) = { c with common := put c.common a (UInt8.ofNat v) } := by
  rw [exec_writeReg c a v (by omega) (by omega) hr]
  unfold Chip.setReg
  rw [if_neg (by omega), if_neg (by simp [ha])]

theorem exec_opMode (c : Chip) (v : Nat) (hr : c.io ≠ .reset) :
    c.exec (writeReg RegOpMode v) = c.setOpMode (UInt8.ofNat v).toNat := by
  rw [exec_writeReg c _ v (by decide) (by decide) hr]
  unfold Chip.setReg
  rw [if_pos (by decide)]

theorem exec_mode (c : Chip) (m : ChipMode) (h : m ≠ .reset) : c.exec (.mode m) = { c with io := m } := if_neg h


/-! ### Modem configuration -/

/-- The chip after the modem configuration was written. -/
structure Modem (c c' : Chip) (bw' : Bw) (sf' : Nat) (crc' : Bool) (timeout : Nat) : Prop where
  eq : ∃ p : Nat → UInt8, c' = { c with page := p } ∧ ∀ a, a ≠ 0x1D → a ≠ 0x1E → a ≠ 0x26 → p a = c.page a
  bw : c'.bw = some bw'
  sf : c'.sf = sf'
  codingRate : c'.codingRate = 1
  explicitHeader : c'.explicitHeader = true
  crc : c'.crc = crc'
  lowRate : c'.lowRate = LDL.lowRate bw' sf'
  symbols : (c'.page 0x1E).toNat % 4 = timeout / 256

theorem shift8 (t : Nat) : t >>> 8 = t / 256 := Nat.shiftRight_eq_div_pow t 8

theorem cfg1_1272 : ∀ bw : Bw, ∀ crc low : Bool,
    let v := (UInt8.ofNat ((match bw with | .b125 => 0x00 | .b250 => 0x40 | .b500 => 0x80) ||| 8 ||| 0 |||
      (if crc then 2 else 0) ||| (if low then 1 else 0))).toNat
    (match v / 64 with | 0 => some Bw.b125 | 1 => some .b250 | 2 => some .b500 | _ => none) = some bw ∧
    v / 8 % 8 = 1 ∧ v.testBit 2 = false ∧ v.testBit 1 = crc ∧ v.testBit 0 = low := by
  intro bw crc low
  cases bw <;> cases crc <;> cases low <;> decide +kernel

theorem cfg2_1272 : ∀ sf : Fin 13, 7 ≤ sf.val → ∀ t : Fin 4,
    let v := (UInt8.ofNat (((u8 sf.val &&& 0xf) <<< 4) ||| 0 ||| 4 ||| (u8 t.val &&& 3))).toNat
    v / 16 = sf.val ∧ v % 4 = t.val := by decide +kernel

theorem cfg1_1276 : ∀ bw : Bw,
    let v := (UInt8.ofNat ((match bw with | .b125 => 0x70 | .b250 => 0x80 | .b500 => 0x90) ||| 2 ||| 0)).toNat
    (match v / 16 with | 7 => some Bw.b125 | 8 => some .b250 | 9 => some .b500 | _ => none) = some bw ∧
    v / 2 % 8 = 1 ∧ v.testBit 0 = false := by
  intro bw
  cases bw <;> decide +kernel

theorem cfg2_1276 : ∀ crc : Bool, ∀ sf : Fin 13, 7 ≤ sf.val → ∀ t : Fin 4,
    let v := (UInt8.ofNat (((u8 sf.val &&& 0xf) <<< 4) ||| 0 ||| (if crc then 4 else 0) ||| 0 ||| (u8 t.val &&& 3))).toNat
    v / 16 = sf.val ∧ v % 4 = t.val ∧ v.testBit 2 = crc := by decide +kernel

theorem cfg3_1276 : ∀ low : Bool,
    (UInt8.ofNat (0 ||| (if low then 8 else 0) ||| 4 ||| 0)).toNat.testBit 3 = low := by decide +kernel

theorem modemConfig_modem (d : Driver) (c : Chip) (hk : c.kind = d.type) (hr : c.io ≠ .reset) (hl : c.lora = true)
    (bw : Bw) (sf : Nat) (hs : 7 ≤ sf) (hs' : sf ≤ 12) (crc : Bool) (timeout : Nat) (ht : timeout ≤ 0x3ff) :
    Modem c (c.run (modemConfig d bw sf crc timeout)) bw sf crc timeout := by
  have ht4 : timeout / 256 < 4 := by omega
  unfold modemConfig
  cases hd : d.type
  · have h1 := cfg1_1272 bw crc (lowRate bw sf)
    have h2 := cfg2_1272 ⟨sf, by omega⟩ hs ⟨timeout / 256, ht4⟩
    simp only [] at h1 h2
    obtain ⟨h11, h12, h13, h14, h15⟩ := h1
    obtain ⟨h21, h22⟩ := h2
    rw [hd] at hk
    unfold modemConfig1272
    simp (decide := true) only [run_cons, run_nil, exec_page, hr, hl, ne_eq, not_false_eq_true, shift8]
    generalize UInt8.ofNat (_ ||| _) = v1 at h11 h12 h13 h14 h15 ⊢
    generalize UInt8.ofNat (_ ||| _) = v2 at h21 h22 ⊢
    have p1 : put (put c.page RegModemConfig1 v1) RegModemConfig2 v2 0x1D = v1 := rfl
    have p2 : put (put c.page RegModemConfig1 v1) RegModemConfig2 v2 0x1E = v2 := rfl
    refine ⟨⟨_, by rw [hl], ?_⟩, ?_, ?_, ?_, ?_, ?_, ?_, ?_⟩
    · intro a ha hb _
      exact (put_ne _ _ hb).trans (put_ne _ _ ha)
    · simp only [Chip.bw, hk, p1]; exact h11
    · simp only [Chip.sf, p2]; exact h21
    · simp only [Chip.codingRate, hk, p1]; exact h12
    · simp only [Chip.explicitHeader, hk, p1]; rw [h13]; rfl
    · simp only [Chip.crc, hk, p1]; exact h14
    · simp only [Chip.lowRate, hk, p1]; exact h15
    · simp only [p2]; exact h22
  · have h1 := cfg1_1276 bw
    have h2 := cfg2_1276 crc ⟨sf, by omega⟩ hs ⟨timeout / 256, ht4⟩
    have h3 := cfg3_1276 (lowRate bw sf)
    simp only [] at h1 h2 h3
    obtain ⟨h11, h12, h13⟩ := h1
    obtain ⟨h21, h22, h23⟩ := h2
    rw [hd] at hk
    unfold modemConfig1276
    simp (decide := true) only [run_cons, run_nil, exec_page, hr, hl, ne_eq, not_false_eq_true, shift8]
    generalize UInt8.ofNat (_ ||| 2 ||| 0) = v1 at h11 h12 h13 ⊢
    generalize UInt8.ofNat (_ ||| 0 ||| (u8 (timeout / 256) &&& 3)) = v2 at h21 h22 h23 ⊢
    generalize UInt8.ofNat (_ ||| 4 ||| 0) = v3 at h3 ⊢
    have p1 : put (put (put c.page RegModemConfig1 v1) RegModemConfig2 v2) RegModemConfig3 v3 0x1D = v1 := rfl
    have p2 : put (put (put c.page RegModemConfig1 v1) RegModemConfig2 v2) RegModemConfig3 v3 0x1E = v2 := rfl
    have p3 : put (put (put c.page RegModemConfig1 v1) RegModemConfig2 v2) RegModemConfig3 v3 0x26 = v3 := rfl
    refine ⟨⟨_, by rw [hl], ?_⟩, ?_, ?_, ?_, ?_, ?_, ?_, ?_⟩
    · intro a ha hb hc
      exact (put_ne _ _ hc).trans ((put_ne _ _ hb).trans (put_ne _ _ ha))
    · simp only [Chip.bw, hk, p1]; exact h11
    · simp only [Chip.sf, p2]; exact h21
    · simp only [Chip.codingRate, hk, p1]; exact h12
    · simp only [Chip.explicitHeader, hk, p1]; rw [h13]; rfl
    · simp only [Chip.crc, hk, p2]; exact h23
    · simp only [Chip.lowRate, hk, p3]; exact h3
    · simp only [p2]; exact h22

/-! ### Transmission -/

theorem freqWord_bytes (f : Nat) :
    ((UInt8.ofNat (freqWord f >>> 16)).toNat * 65536 + (UInt8.ofNat (freqWord f >>> 8)).toNat * 256 +
      (UInt8.ofNat (freqWord f)).toNat) = freqWord f % 16777216 := by
  generalize freqWord f = w
  rw [Nat.shiftRight_eq_div_pow, Nat.shiftRight_eq_div_pow]
  simp only [UInt8.toNat_ofNat']
  omega

theorem freqWord_eq (f : Nat) (hf : f < 1024000000) : freqWord f % 16777216 = f * 524288 / 32000000 := by
  unfold freqWord u32
  rw [Nat.shiftLeft_eq]
  have : (2:Nat)^19 = 524288 := by decide
  rw [this]
  omega

/-- The chip calls of a transmission after power and modem configuration. -/
def txTail (s : TxSetting) (data : Bytes) : List BusOp :=
  [writeReg RegSyncWord 0x34,
   writeReg RegInvertIQ 0x27,
   writeReg RegDioMapping1 0x40,
   writeReg RegIrqFlags 0xff,
   writeReg RegIrqFlagsMask 0xf7,
   writeReg RegFifoTxBaseAddr 0,
   writeReg RegFifoAddrPtr 0,
   writeReg LoraRegPayloadLength data.length,
   burstWrite RegFifo data] ++
  setFreq s.freq ++
  setOpTX

theorem payload_back (data : Bytes) (h : data.length ≤ 255) (f : Nat → UInt8) :
    (List.range data.length).map (fun i => data.getD ((((0 + i) % 256) + 256 - 0) % 256) (f ((0 + i) % 256))) = data := by
  apply List.ext_getElem
  · simp
  · intro i h1 h2
    have hi : (((0 + i) % 256) + 256 - 0) % 256 = i := by omega
    simp only [List.getElem_map, List.getElem_range, hi]
    simp [h2]

/-- The chip after the transmission was started. -/
structure Started (c c' : Chip) (s : TxSetting) (data : Bytes) : Prop where
  aired : c'.aired = c.aired ++ [some
    { bytes := data, carrier := freqWord s.freq % 16777216 * 15625, bw := c.bw, sf := c.sf, codingRate := c.codingRate
      explicitHeader := c.explicitHeader, crc := c.crc, lowRate := c.lowRate, syncWord := 0x34, inverted := false
      preamble := c.preamble, power := c.power, boost := c.boost, io := c.io, signalled := true }]
  heard : c'.heard = c.heard
  mode : c'.mode = 3
  lora : c'.lora = true
  io : c'.io = c.io
  kind : c'.kind = c.kind
  flags : c'.page 0x12 = 0
  map : c'.common 0x40 = 0x40
  mask : c'.page 0x11 = 0xf7
  page : ∀ a, a = 0x20 ∨ a = 0x21 ∨ a = 0x0F → c'.page a = c.page a

theorem and_not_ones (x : UInt8) : x &&& ~~~UInt8.ofNat 0xff = 0 := by
  have : (~~~UInt8.ofNat 0xff) = 0 := by decide
  rw [this]; simp

theorem started_of (c : Chip) (s : TxSetting) (data : Bytes) (C P F : Nat → UInt8) (hl : c.lora = true) (hm : c.mode ≠ 0)
    (hd : data.length ≤ 255)
    (hw : (C 6).toNat * 65536 + (C 7).toNat * 256 + (C 8).toNat = freqWord s.freq % 16777216)
    (h40 : C 0x40 = 0x40) (h9 : C 9 = c.common 9) (h5A : C 0x5A = c.common 0x5A) (h4D : C 0x4D = c.common 0x4D)
    (h22 : P 0x22 = UInt8.ofNat data.length) (h0E : P 0x0E = 0) (h39 : P 0x39 = 0x34) (h33 : P 0x33 = 0x27)
    (h11 : P 0x11 = 0xf7) (h12 : P 0x12 = 0) (h1D : P 0x1D = c.page 0x1D) (h1E : P 0x1E = c.page 0x1E)
    (h26 : P 0x26 = c.page 0x26) (h20 : P 0x20 = c.page 0x20) (h21 : P 0x21 = c.page 0x21) (h0F : P 0x0F = c.page 0x0F)
    (hF : F = fun i => data.getD ((i + 256 - 0) % 256) (c.fifo i)) :
    Started c (({ c with common := C, page := P, fifo := F } : Chip).setOpMode 131) s data := by
  have hlen : (UInt8.ofNat data.length).toNat = data.length := by
    rw [UInt8.toNat_ofNat']; omega
  have hpay : (List.range data.length).map (fun i => F (((0 : UInt8).toNat + i) % 256)) = data := by
    rw [hF]; exact payload_back data hd c.fifo
  constructor
  · simp (decide := true) only [Chip.setOpMode, hm, hl, if_true, if_false, Chip.emission, Chip.payload, Chip.carrier, hw, Chip.bw,
      Chip.sf, Chip.codingRate, Chip.explicitHeader, Chip.crc, Chip.lowRate, Chip.preamble, Chip.power, Chip.boost,
      Chip.highPower, Chip.unmasked, Chip.dio0, h40, h9, h5A, h4D, h22, h0E, h39, h33, h11, h1D, h1E, h26, h20, h21, hlen]
    rw [hpay]
    rfl
  · simp (decide := true) only [Chip.setOpMode, if_false]
  · rfl
  · simp only [Chip.setOpMode, hm, if_false]; exact hl
  · rfl
  · rfl
  · exact h12
  · exact h40
  · exact h11
  · intro a ha
    rcases ha with rfl | rfl | rfl
    · exact h20
    · exact h21
    · exact h0F

theorem txTail_started (c : Chip) (s : TxSetting) (data : Bytes) (hr : c.io ≠ .reset) (hl : c.lora = true)
    (hm : c.mode ≠ 0) (hd : data.length ≤ 255) :
    Started c (c.run (txTail s data)) s data := by
  have hfw := freqWord_bytes s.freq
  unfold txTail setFreq setOpTX
  simp (decide := true) only [List.cons_append, List.nil_append, run_cons, run_nil, exec_page, exec_common, exec_irq,
    exec_burstWrite, exec_opMode, Chip.setFifo, hr, hl, hm, ne_eq, not_false_eq_true, and_self, if_true]
  rw [← hl]
  refine started_of c s data _ _ _ hl hm hd hfw rfl rfl rfl rfl rfl rfl rfl rfl rfl ?_ rfl rfl rfl rfl rfl rfl rfl
  exact and_not_ones _

/-! ### Power -/

/-- The chip after its output power was set. -/
structure Powered (c c' : Chip) (pa : Pa) (p : Int) : Prop where
  eq : c' = { c with io := if c'.boost then .txBoost else .txRfo, common := c'.common }
  power : c'.power = match c.kind, choosePa pa (p.tdiv 100) with
    | .sx1272, .boost => if p.tdiv 100 ≥ 20 then 2000 else if p.tdiv 100 > 17 then 1700
        else if p.tdiv 100 < 2 then 200 else 100 * p.tdiv 100
    | .sx1272, _ => if p.tdiv 100 ≥ 14 then 1400 else if p.tdiv 100 ≥ -1 then 100 * p.tdiv 100 else -100
    | .sx1276, .boost => if p.tdiv 100 ≥ 20 then 2000 else if p.tdiv 100 > 17 then 1700
        else if p.tdiv 100 < 2 then 200 else 100 * p.tdiv 100
    | .sx1276, _ => if p.tdiv 100 ≥ 14 then 1380 else if p.tdiv 100 = 13 then 1280
        else if p.tdiv 100 ≥ -3 then 100 * p.tdiv 100 else -360
  boost : c'.boost = decide (choosePa pa (p.tdiv 100) = .boost)

theorem rfo1272 : ∀ i : Fin 15, (let v := (UInt8.ofNat ((u8i ((i.val : Int) - 1) + 1) &&& 0xf)).toNat
    v % 16 = i.val ∧ v.testBit 7 = false) := by decide +kernel

theorem rfo1276 : ∀ i : Fin 16, (let v := (UInt8.ofNat (u8 (0x20 ||| (u8i ((i.val : Int) - 3) + 3)))).toNat
    v % 16 = i.val ∧ v / 16 % 8 = 2 ∧ v.testBit 7 = false) := by decide +kernel

theorem boost1272 : ∀ i : Fin 16, (let v := (UInt8.ofNat (0x80 ||| (u8i ((i.val : Int) + 2) - 2))).toNat
    v % 16 = i.val ∧ v.testBit 7 = true) := by decide +kernel

theorem boost1276 : ∀ i : Fin 16, (let v := (UInt8.ofNat (0xc0 ||| (u8i ((i.val : Int) + 2) - 2))).toNat
    v % 16 = i.val ∧ v.testBit 7 = true) := by decide +kernel

theorem rfo1272_power (dbm : Int) :
    (UInt8.ofNat (paConfigRfo1272 dbm)).toNat.testBit 7 = false ∧
    (-100 + 100 * (((UInt8.ofNat (paConfigRfo1272 dbm)).toNat : Int) % 16) : Int) =
      if dbm ≥ 14 then 1400 else if dbm ≥ -1 then 100 * dbm else -100 := by
  unfold paConfigRfo1272
  by_cases h1 : dbm ≥ 14
  · rw [if_pos h1, if_pos h1]; decide
  · rw [if_neg h1, if_neg h1]
    by_cases h2 : dbm ≥ -1
    · rw [if_pos h2, if_pos h2]
      have h := rfo1272 ⟨(dbm + 1).toNat, by omega⟩
      have e : (((dbm + 1).toNat : Nat) : Int) - 1 = dbm := by omega
      simp only [e] at h
      generalize (UInt8.ofNat _).toNat = v at h ⊢
      refine ⟨h.2, ?_⟩
      omega
    · rw [if_neg h2, if_neg h2]; decide

theorem rfo1276_power (dbm : Int) :
    (UInt8.ofNat (paConfigRfo1276 dbm)).toNat.testBit 7 = false ∧
    (1080 + 60 * (((UInt8.ofNat (paConfigRfo1276 dbm)).toNat : Int) / 16 % 8) -
        100 * (15 - ((UInt8.ofNat (paConfigRfo1276 dbm)).toNat : Int) % 16) : Int) =
      if dbm ≥ 14 then 1380 else if dbm = 13 then 1280 else if dbm ≥ -3 then 100 * dbm else -360 := by
  unfold paConfigRfo1276
  by_cases h1 : dbm ≥ 14
  · rw [if_pos h1, if_pos h1]; decide
  · rw [if_neg h1, if_neg h1]
    by_cases h3 : dbm = 13
    · rw [if_pos h3, if_pos h3]; decide
    · rw [if_neg h3, if_neg h3]
      by_cases h2 : dbm ≥ -3
      · rw [if_pos h2, if_pos h2]
        have h := rfo1276 ⟨(dbm + 3).toNat, by omega⟩
        have e : (((dbm + 3).toNat : Nat) : Int) - 3 = dbm := by omega
        simp only [e] at h
        generalize (UInt8.ofNat _).toNat = v at h ⊢
        refine ⟨h.2.2, ?_⟩
        omega
      · rw [if_neg h2, if_neg h2]; decide

/-- Output on PA_BOOST. -/
def boostPower (dbm : Int) : Int :=
  if dbm ≥ 20 then 2000 else if dbm > 17 then 1700 else if dbm < 2 then 200 else 100 * dbm

theorem dac84 : ¬decide ((UInt8.ofNat 0x84).toNat % 8 = 7) = true := by decide

theorem boost1272_power (dbm : Int) :
    (UInt8.ofNat (paBoost1272 dbm).1).toNat.testBit 7 = true ∧
    (200 + 100 * (((UInt8.ofNat (paBoost1272 dbm).1).toNat : Int) % 16) +
      (if decide ((UInt8.ofNat (paBoost1272 dbm).2).toNat % 8 = 7) = true then 300 else 0) : Int) = boostPower dbm := by
  unfold paBoost1272 boostPower
  by_cases h1 : dbm ≥ 20
  · rw [if_pos h1, if_pos h1]; decide
  · rw [if_neg h1, if_neg h1]
    by_cases h3 : dbm > 17
    · rw [if_pos h3, if_pos h3]; decide
    · rw [if_neg h3, if_neg h3]
      by_cases h2 : dbm < 2
      · rw [if_pos h2, if_pos h2]; decide
      · rw [if_neg h2, if_neg h2]
        have h := boost1272 ⟨(dbm - 2).toNat, by omega⟩
        have e : (((dbm - 2).toNat : Nat) : Int) + 2 = dbm := by omega
        simp only [e] at h
        simp only []
        rw [if_neg dac84]
        generalize (UInt8.ofNat _).toNat = v at h ⊢
        refine ⟨h.2, ?_⟩
        omega

theorem boost1276_power (dbm : Int) :
    (UInt8.ofNat (paBoost1276 dbm).1).toNat.testBit 7 = true ∧
    (1700 - 100 * (15 - ((UInt8.ofNat (paBoost1276 dbm).1).toNat : Int) % 16) +
      (if decide ((UInt8.ofNat (paBoost1276 dbm).2).toNat % 8 = 7) = true then 300 else 0) : Int) = boostPower dbm := by
  unfold paBoost1276 boostPower
  by_cases h1 : dbm ≥ 20
  · rw [if_pos h1, if_pos h1]; decide
  · rw [if_neg h1, if_neg h1]
    by_cases h3 : dbm > 17
    · rw [if_pos h3, if_pos h3]; decide
    · rw [if_neg h3, if_neg h3]
      by_cases h2 : dbm < 2
      · rw [if_pos h2, if_pos h2]; decide
      · rw [if_neg h2, if_neg h2]
        have h := boost1276 ⟨(dbm - 2).toNat, by omega⟩
        have e : (((dbm - 2).toNat : Nat) : Int) + 2 = dbm := by omega
        simp only [e] at h
        simp only []
        rw [if_neg dac84]
        generalize (UInt8.ofNat _).toNat = v at h ⊢
        refine ⟨h.2, ?_⟩
        omega

theorem choosePa_cases (pa : Pa) (dbm : Int) (h : choosePa pa dbm ≠ .boost) : choosePa pa dbm = .rfo := by
  cases pa <;> simp only [choosePa] at h ⊢
  · split <;> simp_all
  · exact absurd rfl h

theorem setPower_powered (d : Driver) (c : Chip) (hk : c.kind = d.type) (p : Int) :
    Powered c (c.run (setPower d p)) d.pa p := by
  unfold setPower
  cases hd : d.type
  · rw [hd] at hk
    unfold setPower1272
    by_cases hb : choosePa d.pa (p.tdiv 100) = .boost
    · obtain ⟨h1, h2⟩ := boost1272_power (p.tdiv 100)
      simp only [hb]
      simp (decide := true) only [run_cons, run_nil, exec_mode, exec_common, ne_eq]
      generalize UInt8.ofNat (paBoost1272 _).1 = v1 at h1 h2 ⊢
      generalize UInt8.ofNat (paBoost1272 _).2 = v2 at h1 h2 ⊢
      have b : ({ c with io := .txBoost, common := put (put c.common RegPaConfig v1) SX1272RegPaDac v2 } : Chip).boost = true := h1
      refine ⟨?_, ?_, ?_⟩
      · rw [b]; rfl
      · simp only [hb, hk]
        unfold Chip.power
        simp only [Chip.highPower]
        exact (if_pos h1).trans h2
      · rw [b, hb]; rfl
    · obtain ⟨h1, h2⟩ := rfo1272_power (p.tdiv 100)
      have hb' := choosePa_cases _ _ hb
      simp only [hb']
      simp (decide := true) only [run_cons, run_nil, exec_mode, exec_common, ne_eq]
      generalize UInt8.ofNat (paConfigRfo1272 _) = v1 at h1 h2 ⊢
      have b : ({ c with io := .txRfo, common := put (put c.common RegPaConfig v1) SX1272RegPaDac (UInt8.ofNat 0x84) } : Chip).boost = false := h1
      refine ⟨?_, ?_, ?_⟩
      · rw [b]; rfl
      · simp only [hb', hk]
        unfold Chip.power
        simp only [Chip.highPower]
        exact (if_neg fun h => Bool.noConfusion (h.symm.trans h1)).trans h2
      · rw [b, hb']; rfl
  · rw [hd] at hk
    unfold setPower1276
    by_cases hb : choosePa d.pa (p.tdiv 100) = .boost
    · obtain ⟨h1, h2⟩ := boost1276_power (p.tdiv 100)
      simp only [hb]
      simp (decide := true) only [run_cons, run_nil, exec_mode, exec_common, ne_eq]
      generalize UInt8.ofNat (paBoost1276 _).1 = v1 at h1 h2 ⊢
      generalize UInt8.ofNat (paBoost1276 _).2 = v2 at h1 h2 ⊢
      have b : ({ c with io := .txBoost, common := put (put c.common RegPaConfig v1) SX1276RegPaDac v2 } : Chip).boost = true := h1
      refine ⟨?_, ?_, ?_⟩
      · rw [b]; rfl
      · simp only [hb, hk]
        unfold Chip.power
        simp only [Chip.highPower]
        exact (if_pos h1).trans h2
      · rw [b, hb]; rfl
    · obtain ⟨h1, h2⟩ := rfo1276_power (p.tdiv 100)
      have hb' := choosePa_cases _ _ hb
      simp only [hb']
      simp (decide := true) only [run_cons, run_nil, exec_mode, exec_common, ne_eq]
      generalize UInt8.ofNat (paConfigRfo1276 _) = v1 at h1 h2 ⊢
      have b : ({ c with io := .txRfo, common := put (put c.common RegPaConfig v1) SX1276RegPaDac (UInt8.ofNat 0x84) } : Chip).boost = false := h1
      refine ⟨?_, ?_, ?_⟩
      · rw [b]; rfl
      · simp only [hb', hk]
        unfold Chip.power
        simp only [Chip.highPower]
        exact (if_neg fun h => Bool.noConfusion (h.symm.trans h1)).trans h2
      · rw [b, hb']; rfl

/-! ### The whole transmit call -/

theorem lowRate_long (bw : Bw) (sf : Nat) (h : Spec.Usable bw sf) : lowRate bw sf = Spec.LongSymbol bw sf := by
  obtain ⟨h1, h2, h3⟩ := h
  have : sf = 7 ∨ sf = 8 ∨ sf = 9 ∨ sf = 10 ∨ sf = 11 ∨ sf = 12 := by omega
  rcases this with rfl | rfl | rfl | rfl | rfl | rfl <;> cases bw <;> first | decide | exact absurd ⟨rfl, rfl⟩ h3

theorem carrierFor_freqWord (f : Nat) : f < 1024000000 → Spec.CarrierFor (freqWord f % 16777216 * 15625) f := by
  intro hf
  have h := freqWord_eq f hf
  refine ⟨Nat.dvd_mul_left _ _, ?_, ?_⟩ <;> omega

/-- The chip after the transmit call: what the MAC relies on afterwards. -/
structure Sent (c c' : Chip) (d : Driver) (s : TxSetting) (data : Bytes) : Prop where
  aired : ∃ em, c'.aired = c.aired ++ [some em] ∧ Spec.Sx127x.Airs s data em ∧
    Spec.Sx127x.PowerOk d.type d.pa (s16 (s.eirp - d.txGain)) em
  heard : c'.heard = c.heard
  mode : c'.mode = 3
  lora : c'.lora = true
  io : c'.io ≠ .reset
  kind : c'.kind = c.kind
  flags : c'.page 0x12 = 0
  map : c'.common 0x40 = 0x40
  mask : c'.page 0x11 = 0xf7
  page : ∀ a, a = 0x20 ∨ a = 0x21 ∨ a = 0x0F → c'.page a = c.page a

theorem tdiv_bounds (p : Int) : (0 ≤ p → 100 * p.tdiv 100 ≤ p ∧ p < 100 * p.tdiv 100 + 100) ∧
    (p < 0 → 100 * p.tdiv 100 - 100 < p ∧ p ≤ 100 * p.tdiv 100) := by
  constructor
  · intro h
    rw [Int.tdiv_eq_ediv_of_nonneg h]
    omega
  · intro h
    have e : p.tdiv 100 = -((-p) / 100) := by
      have := Int.neg_tdiv (-p) 100
      rw [Int.neg_neg] at this
      rw [this, Int.tdiv_eq_ediv_of_nonneg (a := -p) (by omega)]
    rw [e]
    omega

theorem powerOk_of (k : Kind) (pa : Pa) (p : Int) (em : Emission)
    (hb : em.boost = decide (choosePa pa (p.tdiv 100) = .boost))
    (hio : em.io = if em.boost then .txBoost else .txRfo)
    (hp : em.power = match k, choosePa pa (p.tdiv 100) with
    | .sx1272, .boost => if p.tdiv 100 ≥ 20 then 2000 else if p.tdiv 100 > 17 then 1700
        else if p.tdiv 100 < 2 then 200 else 100 * p.tdiv 100
    | .sx1272, _ => if p.tdiv 100 ≥ 14 then 1400 else if p.tdiv 100 ≥ -1 then 100 * p.tdiv 100 else -100
    | .sx1276, .boost => if p.tdiv 100 ≥ 20 then 2000 else if p.tdiv 100 > 17 then 1700
        else if p.tdiv 100 < 2 then 200 else 100 * p.tdiv 100
    | .sx1276, _ => if p.tdiv 100 ≥ 14 then 1380 else if p.tdiv 100 = 13 then 1280
        else if p.tdiv 100 ≥ -3 then 100 * p.tdiv 100 else -360) :
    Spec.Sx127x.PowerOk k pa p em := by
  obtain ⟨t1, t2⟩ := tdiv_bounds p
  have hpin : Spec.Sx127x.Pin pa p em.boost := by
    rw [hb]
    cases pa
    · show decide (choosePa .auto _ = .boost) = decide _
      apply decide_eq_decide.mpr
      unfold choosePa
      by_cases h : p.tdiv 100 ≤ 14
      · simp only [h, if_true]
        exact ⟨fun h => Pa.noConfusion h, fun h => by omega⟩
      · simp only [h, if_false, true_iff]
        omega
    · rfl
    · rfl
  generalize p.tdiv 100 = t at *
  by_cases hc : choosePa pa t = .boost
  · have hbt : em.boost = true := by rw [hb, hc]; rfl
    have hp' : em.power = boostPower t := by
      rw [hp, hc]; cases k <;> rfl
    have hL : Spec.Sx127x.lowest k true = 200 := rfl
    have hH : Spec.Sx127x.highest k true = 2000 := rfl
    unfold boostPower at hp'
    refine ⟨?_, ?_, ?_, hpin, hio⟩
    · rw [hbt, hp', hL]; (repeat' split) <;> omega
    · rw [hbt, hp', hH]; (repeat' split) <;> omega
    · rw [hbt, hp', hH]; intro h; simp only [true_and] at h; (repeat' split) <;> omega
  · have hc' := choosePa_cases _ _ hc
    have hbt : em.boost = false := by rw [hb, hc']; rfl
    rw [hc'] at hp
    cases k
    · have hL : Spec.Sx127x.lowest .sx1272 false = -100 := rfl
      have hH : Spec.Sx127x.highest .sx1272 false = 1400 := rfl
      simp only [] at hp
      refine ⟨?_, ?_, ?_, hpin, hio⟩
      · rw [hbt, hp, hL]; (repeat' split) <;> omega
      · rw [hbt, hp, hH]; (repeat' split) <;> omega
      · rw [hbt, hp, hH]; intro h; (repeat' split) <;> omega
    · have hL : Spec.Sx127x.lowest .sx1276 false = -360 := rfl
      have hH : Spec.Sx127x.highest .sx1276 false = 1380 := rfl
      simp only [] at hp
      refine ⟨?_, ?_, ?_, hpin, hio⟩
      · rw [hbt, hp, hL]; (repeat' split) <;> omega
      · rw [hbt, hp, hH]; (repeat' split) <;> omega
      · rw [hbt, hp, hH]; intro h; (repeat' split) <;> omega

theorem transmit_sent (d : Driver) (c : Chip) (s : TxSetting) (data : Bytes) (hk : c.kind = d.type)
    (hl : c.lora = true) (hm : c.mode ≠ 0) (hp : c.preamble = 8) (hd : data.length ≤ 255)
    (hu : Spec.Usable s.bw s.sf) : Sent c (c.run (transmit d s data)) d s data := by
  have hsplit : transmit d s data = setPower d (s16 (s.eirp - d.txGain)) ++ (modemConfig d s.bw s.sf true 0 ++ txTail s data) := by
    unfold transmit txTail
    simp only [List.append_assoc]
  rw [hsplit, run_append, run_append]
  have h1 := setPower_powered d c hk (s16 (s.eirp - d.txGain))
  generalize hc1 : c.run (setPower d (s16 (s.eirp - d.txGain))) = c1 at h1 ⊢
  have k1 : c1.kind = d.type := by rw [h1.eq]; exact hk
  have l1 : c1.lora = true := by rw [h1.eq]; exact hl
  have m1 : c1.mode = c.mode := by rw [h1.eq]
  have g1 : c1.page = c.page := by rw [h1.eq]
  have a1 : c1.aired = c.aired := by rw [h1.eq]
  have e1 : c1.heard = c.heard := by rw [h1.eq]
  have io1 : c1.io = if c1.boost then .txBoost else .txRfo := congrArg Chip.io h1.eq
  have r1 : c1.io ≠ .reset := by rw [io1]; split <;> simp
  have h2 := modemConfig_modem d c1 k1 r1 l1 s.bw s.sf hu.1 hu.2.1 true 0 (by omega)
  generalize hc2 : c1.run (modemConfig d s.bw s.sf true 0) = c2 at h2 ⊢
  obtain ⟨p2, q2, f2⟩ := h2.eq
  have k2 : c2.kind = c1.kind := by rw [q2]
  have l2 : c2.lora = true := by rw [q2]; exact l1
  have m2 : c2.mode = c.mode := by rw [q2]; exact m1
  have a2 : c2.aired = c.aired := by rw [q2]; exact a1
  have e2 : c2.heard = c.heard := by rw [q2]; exact e1
  have io2 : c2.io = c1.io := by rw [q2]
  have b2 : c2.boost = c1.boost := by rw [q2]; rfl
  have w2 : c2.power = c1.power := by rw [q2]; rfl
  have g2 : ∀ a, a ≠ 0x1D → a ≠ 0x1E → a ≠ 0x26 → c2.page a = c.page a := by
    intro a ha hb hc
    rw [q2]
    exact (f2 a ha hb hc).trans (congrFun g1 a)
  have pr2 : c2.preamble = 8 := by
    have : c2.preamble = c.preamble := by
      unfold Chip.preamble
      rw [g2 0x20 (by decide) (by decide) (by decide), g2 0x21 (by decide) (by decide) (by decide)]
    rw [this, hp]
  have h3 := txTail_started c2 s data (by rw [io2]; exact r1) l2 (by rw [m2]; exact hm) hd
  generalize c2.run (txTail s data) = c3 at h3 ⊢
  have h3a := h3.aired
  rw [a2] at h3a
  refine ⟨⟨_, h3a, ?_, ?_⟩, ?_, h3.mode, h3.lora, ?_, ?_, h3.flags, h3.map, h3.mask, ?_⟩
  · exact ⟨rfl, carrierFor_freqWord _, h2.bw, h2.sf, h2.codingRate, h2.explicitHeader, h2.crc,
      h2.lowRate.trans (lowRate_long _ _ hu), rfl, rfl, pr2, rfl⟩
  · refine powerOk_of _ _ _ _ ?_ ?_ ?_
    · exact b2.trans h1.boost
    · show c2.io = if c2.boost then _ else _
      rw [io2, b2]; exact io1
    · have := h1.power
      rw [hk] at this
      exact w2.trans this
  · rw [h3.heard, e2]
  · rw [h3.io, io2]; exact r1
  · rw [h3.kind, k2, k1, hk]
  · intro a ha
    rw [h3.page a ha]
    rcases ha with rfl | rfl | rfl <;> exact g2 _ (by decide) (by decide) (by decide)

/-! ### The receive call -/

/-- The chip calls of a reception after the modem configuration. -/
def rxTail (s : RxSetting) : List BusOp :=
  [writeReg RegSymbTimeoutLsb (u8 (symbTimeout s.timeout)),
   writeReg RegSyncWord 0x34,
   writeReg RegLna 0x23,
   writeReg RegPayloadMaxLength s.max,
   writeReg RegInvertIQ (u8 (0x40 + 0x27)),
   writeReg RegDioMapping1 0,
   writeReg RegIrqFlags 0xff,
   writeReg RegIrqFlagsMask 0x3f,
   writeReg RegFifoAddrPtr 0] ++
  setFreq s.freq ++
  setOpRXSingle

/-- The chip after the reception was started. -/
structure Heard (c c' : Chip) (s : RxSetting) : Prop where
  heard : c'.heard = c.heard ++ [some
    { carrier := freqWord s.freq % 16777216 * 15625, bw := c.bw, sf := c.sf, codingRate := c.codingRate
      explicitHeader := c.explicitHeader, lowRate := c.lowRate, syncWord := 0x34, inverted := true
      preamble := c.preamble, symbols := (c.page 0x1E).toNat % 4 * 256 + symbTimeout s.timeout % 256, max := s.max
      io := c.io, signalled := true }]
  aired : c'.aired = c.aired
  mode : c'.mode = 6
  lora : c'.lora = true
  io : c'.io = c.io
  kind : c'.kind = c.kind
  flags : c'.page 0x12 = 0
  map : c'.common 0x40 = 0
  mask : c'.page 0x11 = 0x3f
  page : ∀ a, a = 0x20 ∨ a = 0x21 ∨ a = 0x0F → c'.page a = c.page a
  max : c'.page 0x23 = UInt8.ofNat s.max

theorem heard_of (c : Chip) (s : RxSetting) (C P : Nat → UInt8) (hl : c.lora = true) (hm : c.mode ≠ 0)
    (hx : s.max ≤ 255)
    (hw : (C 6).toNat * 65536 + (C 7).toNat * 256 + (C 8).toNat = freqWord s.freq % 16777216)
    (h40 : C 0x40 = 0)
    (h1F : P 0x1F = UInt8.ofNat (u8 (symbTimeout s.timeout))) (h23 : P 0x23 = UInt8.ofNat s.max)
    (h39 : P 0x39 = 0x34) (h33 : P 0x33 = 0x67)
    (h11 : P 0x11 = 0x3f) (h12 : P 0x12 = 0) (h1D : P 0x1D = c.page 0x1D) (h1E : P 0x1E = c.page 0x1E)
    (h26 : P 0x26 = c.page 0x26) (h20 : P 0x20 = c.page 0x20) (h21 : P 0x21 = c.page 0x21) (h0F : P 0x0F = c.page 0x0F) :
    Heard c (({ c with common := C, page := P } : Chip).setOpMode 134) s := by
  have hmax : (UInt8.ofNat s.max).toNat = s.max := by
    rw [UInt8.toNat_ofNat']; omega
  have hsym : (UInt8.ofNat (u8 (symbTimeout s.timeout))).toNat = symbTimeout s.timeout % 256 := by
    rw [UInt8.toNat_ofNat']; unfold u8; omega
  constructor
  · simp (decide := true) only [Chip.setOpMode, hm, hl, if_true, if_false, Chip.listening, Chip.symbols, Chip.carrier, hw, Chip.bw,
      Chip.sf, Chip.codingRate, Chip.explicitHeader, Chip.lowRate, Chip.preamble,
      Chip.unmasked, Chip.dio0, Chip.dio1, h40, h1F, h23, h39, h33, h11, h1D, h1E, h26, h20, h21, hmax, hsym]
    rfl
  · simp (decide := true) only [Chip.setOpMode, if_false]
  · rfl
  · simp only [Chip.setOpMode, hm, if_false]; exact hl
  · rfl
  · rfl
  · exact h12
  · exact h40
  · exact h11
  · intro a ha
    rcases ha with rfl | rfl | rfl
    · exact h20
    · exact h21
    · exact h0F
  · exact h23

theorem rxTail_heard (c : Chip) (s : RxSetting) (hr : c.io ≠ .reset) (hl : c.lora = true)
    (hm : c.mode ≠ 0) (hx : s.max ≤ 255) :
    Heard c (c.run (rxTail s)) s := by
  have hfw := freqWord_bytes s.freq
  unfold rxTail setFreq setOpRXSingle
  simp (decide := true) only [List.cons_append, List.nil_append, run_cons, run_nil, exec_page, exec_common, exec_irq,
    exec_opMode, hr, hl, ne_eq, not_false_eq_true]
  rw [← hl]
  refine heard_of c s _ _ hl hm hx hfw rfl rfl rfl rfl rfl rfl ?_ rfl rfl rfl rfl rfl rfl
  exact and_not_ones _

/-- The chip after the receive call: what the MAC relies on afterwards. -/
structure Opened (c c' : Chip) (s : RxSetting) : Prop where
  heard : ∃ l, c'.heard = c.heard ++ [some l] ∧ Spec.Sx127x.Hears s l
  aired : c'.aired = c.aired
  mode : c'.mode = 6
  lora : c'.lora = true
  io : c'.io = .rx
  kind : c'.kind = c.kind
  flags : c'.page 0x12 = 0
  map : c'.common 0x40 = 0
  mask : c'.page 0x11 = 0x3f
  page : ∀ a, a = 0x20 ∨ a = 0x21 ∨ a = 0x0F → c'.page a = c.page a
  max : c'.page 0x23 = UInt8.ofNat s.max

theorem receive_opened (d : Driver) (c : Chip) (s : RxSetting) (hk : c.kind = d.type)
    (hl : c.lora = true) (hm : c.mode ≠ 0) (hp : c.preamble = 8) (hx : s.max ≤ 255)
    (hu : Spec.Usable s.bw s.sf) : Opened c (c.run (receive d s)) s := by
  have hsplit : receive d s = [.mode .rx] ++ (modemConfig d s.bw s.sf false (symbTimeout s.timeout) ++ rxTail s) := by
    unfold receive rxTail
    simp only [List.append_assoc]
  have ht : symbTimeout s.timeout ≤ 0x3ff := by unfold symbTimeout; (repeat' split) <;> omega
  have hs : symbTimeout s.timeout = max 8 (min 1023 s.timeout) := by unfold symbTimeout; (repeat' split) <;> omega
  rw [hsplit, run_append, run_append, run_cons, run_nil, exec_mode _ _ (by decide)]
  have h2 := modemConfig_modem d { c with io := .rx } hk (by simp) hl s.bw s.sf hu.1 hu.2.1 false _ ht
  generalize Chip.run { c with io := .rx } _ = c2 at h2 ⊢
  obtain ⟨p2, q2, f2⟩ := h2.eq
  have k2 : c2.kind = c.kind := by rw [q2]
  have l2 : c2.lora = true := by rw [q2]; exact hl
  have m2 : c2.mode = c.mode := by rw [q2]
  have a2 : c2.aired = c.aired := by rw [q2]
  have e2 : c2.heard = c.heard := by rw [q2]
  have io2 : c2.io = .rx := by rw [q2]
  have g2 : ∀ a, a ≠ 0x1D → a ≠ 0x1E → a ≠ 0x26 → c2.page a = c.page a := by
    intro a ha hb hc
    rw [q2]
    exact f2 a ha hb hc
  have pr2 : c2.preamble = 8 := by
    have : c2.preamble = c.preamble := by
      unfold Chip.preamble
      rw [g2 0x20 (by decide) (by decide) (by decide), g2 0x21 (by decide) (by decide) (by decide)]
    rw [this, hp]
  have h3 := rxTail_heard c2 s (by rw [io2]; simp) l2 (by rw [m2]; exact hm) hx
  generalize c2.run (rxTail s) = c3 at h3 ⊢
  have h3a := h3.heard
  rw [e2] at h3a
  refine ⟨⟨_, h3a, ?_⟩, ?_, h3.mode, h3.lora, h3.io.trans io2, h3.kind.trans k2, h3.flags, h3.map, h3.mask, ?_, h3.max⟩
  · refine ⟨carrierFor_freqWord _, h2.bw, h2.sf, h2.codingRate, h2.explicitHeader,
      h2.lowRate.trans (lowRate_long _ _ hu), rfl, rfl, pr2, ?_, rfl, io2, rfl⟩
    show (c2.page 0x1E).toNat % 4 * 256 + symbTimeout s.timeout % 256 = _
    rw [h2.symbols, ← hs]
    omega
  · rw [h3.aired, a2]
  · intro a ha
    rw [h3.page a ha]
    rcases ha with rfl | rfl | rfl <;> exact g2 _ (by decide) (by decide) (by decide)

end Sx127x
end LDL
