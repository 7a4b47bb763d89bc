import Verif.Spec.Sx126xLoop

/-!
# What the calls of the driver do to the chip (SX1261, SX1262, WL55)
-/

namespace LDL
namespace Sx126x
open Spec.Sx126x

/-- Mode of a chip that has just been selected. -/
def awake (m : Mode) : Mode := if m = .sleep then .standbyRc else m

theorem awake_ne (m : Mode) : awake m ≠ .sleep := by cases m <;> decide

theorem run_nil (c : Chip) : c.run [] = c := rfl
theorem run_cons (c : Chip) (o : BusOp) (l : List BusOp) : c.run (o :: l) = (c.exec o).run l := rfl
theorem run_append (c : Chip) (l l' : List BusOp) : c.run (l ++ l') = (c.run l).run l' := List.foldl_append

theorem opcode_val (op : Nat) (h : op < 256) : (UInt8.ofNat op).toNat = op := by
  rw [UInt8.toNat_ofNat']
  exact Nat.mod_eq_of_lt h

/-- A command with its parameters, on a chip that is not held in reset. -/
theorem exec_command (c : Chip) (op : Nat) (a : List Nat) (hr : c.io ≠ .reset) (h : op < 256) :
    c.exec (command (op :: a)) = c.woken.obey op (a.map UInt8.ofNat) := by
  show c.write ((UInt8.ofNat op :: a.map UInt8.ofNat) ++ []) = _
  rw [List.append_nil]
  show (if c.io = .reset then c else c.woken.obey (UInt8.ofNat op).toNat (a.map UInt8.ofNat)) = _
  rw [if_neg hr, opcode_val op h]

/-- Commands that only store their parameters. -/
def Plain (op : Nat) : Prop :=
  op < 256 ∧ op ≠ 0x84 ∧ op ≠ 0x80 ∧ op ≠ 0x83 ∧ op ≠ 0x82 ∧ op ≠ 0x02 ∧ op ≠ 0x0d ∧ op ≠ 0x0e ∧ op ≠ 0x8a

instance (op : Nat) : Decidable (Plain op) := by unfold Plain; infer_instance

theorem exec_plain (c : Chip) (op : Nat) (a : List Nat) (hr : c.io ≠ .reset) (h : Plain op) :
    c.exec (command (op :: a)) = { c with mode := awake c.mode, last := keep c.last op (a.map UInt8.ofNat) } := by
  obtain ⟨h0, h1, h2, h3, h4, h5, h6, h7, h8⟩ := h
  rw [exec_command c op a hr h0]
  unfold Chip.obey
  simp only [h1, h2, h3, h4, h5, h6, h7, h8, if_false]
  rfl

theorem exec_packetType (c : Chip) (hr : c.io ≠ .reset) :
    c.exec (setPacketType 1) = { c with
      mode := awake c.mode
      last := keep (keep (keep c.last 0x8b (c.defaults 0x8b)) 0x8c (c.defaults 0x8c)) 0x8a [1] } :=
  exec_command c 0x8a [1] hr (by decide)

theorem exec_standby (c : Chip) (hr : c.io ≠ .reset) : c.exec (setStandby 1) = { c with mode := .standbyXosc } :=
  exec_command c 0x80 [1] hr (by decide)

theorem exec_tx (c : Chip) (hr : c.io ≠ .reset) :
    c.exec (setTx 0) = { c with
      mode := .tx, aired := c.aired ++ [if c.lora then some (c.emission 0) else none] } :=
  exec_command c 0x83 [0, 0, 0] hr (by decide)

theorem exec_rx (c : Chip) (hr : c.io ≠ .reset) :
    c.exec (setRx 0) = { c with
      mode := .rx, heard := c.heard ++ [if c.lora then some (c.listening 0) else none] } :=
  exec_command c 0x82 [0, 0, 0] hr (by decide)

theorem exec_sleepCold (c : Chip) (hr : c.io ≠ .reset) : c.exec (setSleep false) = { c.lose with mode := .sleep } :=
  exec_command c 0x84 [0] hr (by decide)

theorem exec_sleepWarm (c : Chip) (hr : c.io ≠ .reset) :
    c.exec (setSleep true) = { c with mode := .sleep, buffer := c.noise } :=
  exec_command c 0x84 [4] hr (by decide)

theorem exec_clear (c : Chip) (hr : c.io ≠ .reset) :
    c.exec (clearIrqStatus 0xffff) = { c with mode := awake c.mode, irq := 0 } := by
  refine (exec_command c 0x02 [0xff, 0xff] hr (by decide)).trans ?_
  show ({ c.woken with irq := c.irq &&& 0 } : Chip) = _
  rw [Nat.and_zero]
  rfl

/-- The registers once the sync word has been written. -/
def syncRegs (R : Nat → UInt8) : Nat → UInt8 := fun r =>
  if (7 : UInt8).toNat * 256 + (64 : UInt8).toNat ≤ r then
    [0x34, 0x44].getD (r - ((7 : UInt8).toNat * 256 + (64 : UInt8).toNat)) (R r) else R r

theorem syncRegs_word (R : Nat → UInt8) : syncRegs R 0x740 = 0x34 ∧ syncRegs R 0x741 = 0x44 := by
  constructor
  · refine (if_pos (by decide)).trans ?_
    have : 0x740 - ((7 : UInt8).toNat * 256 + (64 : UInt8).toNat) = 0 := by decide
    rw [this]
    rfl
  · refine (if_pos (by decide)).trans ?_
    have : 0x741 - ((7 : UInt8).toNat * 256 + (64 : UInt8).toNat) = 1 := by decide
    rw [this]
    rfl

theorem exec_syncWord (c : Chip) (hr : c.io ≠ .reset) :
    c.exec (setSyncWord 0x3444) = { c with mode := awake c.mode, regs := syncRegs c.regs } :=
  exec_command c 0x0d [0x07, 0x40, 0x34, 0x44] hr (by decide)

/-- The data buffer once `data` has been written. -/
def loaded (B : Nat → UInt8) (data : Bytes) : Nat → UInt8 := fun i => data.getD ((i + 256 - 0) % 256) (B i)

theorem loaded_read (B : Nat → UInt8) (data : Bytes) (hd : data.length ≤ 255) :
    (List.range data.length).map (fun i => loaded B data ((0 + i) % 256)) = data := by
  apply List.ext_getElem
  · simp
  · intro i i1 i2
    simp only [List.length_map, List.length_range] at i1
    simp only [List.getElem_map, List.getElem_range]
    unfold loaded
    have hi : ((0 + i) % 256 + 256 - 0) % 256 = i := by omega
    rw [hi, List.getD_eq_getElem?_getD, List.getElem?_eq_getElem i2]
    rfl

theorem exec_writeBuffer (c : Chip) (data : Bytes) (hr : c.io ≠ .reset) :
    c.exec (writeBuffer 0 data) = { c with mode := awake c.mode, buffer := loaded c.buffer data } := by
  show (if c.io = .reset then c else c.woken.obey 0x0e (0 :: data)) = _
  rw [if_neg hr]
  rfl

theorem exec_read (c : Chip) (op : Bytes) (n : Nat) (hr : c.io ≠ .reset) :
    c.exec (.read op n) = { c with mode := awake c.mode } := by
  show (if c.io = .reset then c else c.woken) = _
  rw [if_neg hr]
  rfl

theorem exec_mode (c : Chip) (m : ChipMode) (hm : m ≠ .reset) : c.exec (.mode m) = { c with io := m } := by
  show c.setIo m = _
  unfold Chip.setIo
  rw [if_neg hm]

/-! ### Accesses that fail -/

/-- An access that starts neither a transmission nor a reception. -/
def Silent : BusOp → Prop
  | .write (op :: _) _ => op ≠ 0x83 ∧ op ≠ 0x82
  | .write [] (op :: _) => op ≠ 0x83 ∧ op ≠ 0x82
  | _ => True

instance (o : BusOp) : Decidable (Silent o) := by unfold Silent; split <;> infer_instance

/-- The chip did not start anything. -/
structure Hushed (c c' : Chip) : Prop where
  aired : c'.aired = c.aired
  heard : c'.heard = c.heard

theorem Hushed.refl (c : Chip) : Hushed c c := ⟨rfl, rfl⟩

theorem Hushed.trans {c c' c'' : Chip} (h : Hushed c c') (h' : Hushed c' c'') : Hushed c c'' :=
  ⟨h'.aired.trans h.aired, h'.heard.trans h.heard⟩

theorem obey_hushed (c : Chip) (op : Nat) (a : Bytes) (h3 : op ≠ 0x83) (h2 : op ≠ 0x82) : Hushed c (c.obey op a) := by
  unfold Chip.obey
  simp only [h3, h2, if_false]
  (repeat' split) <;> exact ⟨rfl, rfl⟩

theorem write_hushed (c : Chip) (op : UInt8) (a : Bytes) (h3 : op ≠ 0x83) (h2 : op ≠ 0x82) :
    Hushed c (c.write (op :: a)) := by
  show Hushed c (if c.io = .reset then c else c.woken.obey op.toNat a)
  split
  · exact .refl c
  · refine Hushed.trans (c' := c.woken) ⟨rfl, rfl⟩ (obey_hushed _ _ _ ?_ ?_)
    · intro h; exact h3 (UInt8.toNat_inj.1 h)
    · intro h; exact h2 (UInt8.toNat_inj.1 h)

theorem exec_hushed (c : Chip) (o : BusOp) (h : Silent o) : Hushed c (c.exec o) := by
  cases o with
  | mode m =>
    show Hushed c (c.setIo m)
    unfold Chip.setIo
    split <;> exact ⟨rfl, rfl⟩
  | write op data =>
    show Hushed c (c.write (op ++ data))
    cases op with
    | nil =>
      cases data with
      | nil => exact .refl c
      | cons x l => exact write_hushed c x l h.1 h.2
    | cons x l => exact write_hushed c x (l ++ data) h.1 h.2
  | read op n =>
    show Hushed c (if c.io = .reset then c else c.woken)
    split <;> exact ⟨rfl, rfl⟩

theorem run_hushed (l : List BusOp) (c : Chip) (h : ∀ o ∈ l, Silent o) : Hushed c (c.run l) := by
  induction l generalizing c with
  | nil => exact .refl c
  | cons o l ih =>
    exact (exec_hushed c o (h o (List.mem_cons_self ..))).trans (ih _ fun x hx => h x (List.mem_cons_of_mem _ hx))

/-- An access that is not the reset line. -/
def Up : BusOp → Prop
  | .mode m => m ≠ .reset
  | _ => True

theorem obey_io (c : Chip) (op : Nat) (a : Bytes) : (c.obey op a).io = c.io := by
  unfold Chip.obey
  simp only []
  (repeat' split) <;> rfl

theorem exec_up (c : Chip) (o : BusOp) (h : Up o) (hr : c.io ≠ .reset) : (c.exec o).io ≠ .reset := by
  cases o with
  | mode m => rw [exec_mode c m h]; exact h
  | write op data =>
    show (c.write (op ++ data)).io ≠ _
    cases op ++ data with
    | nil => exact hr
    | cons x l =>
      show (if c.io = .reset then c else c.woken.obey x.toNat l).io ≠ _
      rw [if_neg hr, obey_io]
      exact hr
  | read op n => rw [exec_read c op n hr]; exact hr

theorem run_up (l : List BusOp) (c : Chip) (h : ∀ o ∈ l, Up o) (hr : c.io ≠ .reset) : (c.run l).io ≠ .reset := by
  induction l generalizing c with
  | nil => exact hr
  | cons o l ih =>
    exact ih _ (fun x hx => h x (List.mem_cons_of_mem _ hx)) (exec_up c o (h o (List.mem_cons_self ..)) hr)

theorem attempt_prefix (busy : Nat → Bool) (l : List BusOp) (i : Nat) : attempt busy i l <+: l := by
  induction l generalizing i with
  | nil => exact List.prefix_refl _
  | cons o l ih =>
    cases o with
    | mode m => exact List.cons_prefix_cons.2 ⟨rfl, ih i⟩
    | write op data =>
      show (if busy i then [] else _) <+: _
      split
      · exact List.nil_prefix
      · exact List.cons_prefix_cons.2 ⟨rfl, ih _⟩
    | read op n =>
      show (if busy i then [] else _) <+: _
      split
      · exact List.nil_prefix
      · exact List.cons_prefix_cons.2 ⟨rfl, ih _⟩

/-- Either all accesses were made, or some of those before the last. -/
theorem attempt_cases (busy : Nat → Bool) (i : Nat) (l : List BusOp) (o : BusOp) :
    attempt busy i (l ++ [o]) = l ++ [o] ∨ ∀ x ∈ attempt busy i (l ++ [o]), x ∈ l := by
  have h := attempt_prefix busy (l ++ [o]) i
  generalize attempt busy i (l ++ [o]) = k at h
  rcases List.prefix_concat_iff.1 h with h | h
  · exact Or.inl h
  · exact Or.inr fun x hx => h.subset hx

theorem each_sublist (busy : Nat → Bool) (l : List BusOp) (i : Nat) : (each busy i l).Sublist l := by
  induction l generalizing i with
  | nil => exact List.Sublist.refl _
  | cons o l ih =>
    cases o with
    | mode m => exact (ih i).cons_cons _
    | write op data =>
      show List.Sublist (if busy i then _ else _) _
      split
      · exact (ih _).cons _
      · exact (ih _).cons_cons _
    | read op n =>
      show List.Sublist (if busy i then _ else _) _
      split
      · exact (ih _).cons _
      · exact (ih _).cons_cons _

theorem attempt_ready (busy : Nat → Bool) (h : Ready busy) (l : List BusOp) (i : Nat) : attempt busy i l = l := by
  induction l generalizing i with
  | nil => rfl
  | cons o l ih =>
    cases o with
    | mode m => exact congrArg _ (ih i)
    | write op data =>
      show (if busy i then [] else _) = _
      rw [h i, if_neg (by decide)]
      exact congrArg _ (ih _)
    | read op n =>
      show (if busy i then [] else _) = _
      rw [h i, if_neg (by decide)]
      exact congrArg _ (ih _)

theorem each_ready (busy : Nat → Bool) (h : Ready busy) (l : List BusOp) (i : Nat) : each busy i l = l := by
  induction l generalizing i with
  | nil => rfl
  | cons o l ih =>
    cases o with
    | mode m => exact congrArg _ (ih i)
    | write op data =>
      show (if busy i then _ else _) = _
      rw [h i, if_neg (by decide)]
      exact congrArg _ (ih _)
    | read op n =>
      show (if busy i then _ else _) = _
      rw [h i, if_neg (by decide)]
      exact congrArg _ (ih _)

/-! ### A transmission -/

theorem bytes_of (n : Nat) (h : n < 2 ^ 32) :
    (UInt8.ofNat (u8 (n >>> 24))).toNat * 0x1000000 + (UInt8.ofNat (u8 (n >>> 16))).toNat * 0x10000 +
      (UInt8.ofNat (u8 (n >>> 8))).toNat * 0x100 + (UInt8.ofNat (u8 n)).toNat = n := by
  simp only [UInt8.toNat_ofNat', u8, Nat.shiftRight_eq_div_pow]
  omega

theorem carrier_for (freq : Nat) (h : freq < 4096000000) : freqSteps freq < 2 ^ 32 ∧
    CarrierFor (freqSteps freq * 15625) freq := by
  have e : freqSteps freq = freq * 33554432 / 32000000 := by
    unfold freqSteps u32
    rw [Nat.shiftLeft_eq, show (2 : Nat) ^ 25 = 33554432 from rfl]
    omega
  rw [e]
  refine ⟨by omega, ⟨_, Nat.mul_comm _ _⟩, by omega, by omega⟩

/-- The frequency in the parameters of SetRfFrequency. -/
def freqBytes (freq : Nat) : Bytes :=
  [UInt8.ofNat (u8 (freqSteps freq >>> 24)), UInt8.ofNat (u8 (freqSteps freq >>> 16)),
    UInt8.ofNat (u8 (freqSteps freq >>> 8)), UInt8.ofNat (u8 (freqSteps freq))]

theorem carrier_of (c : Chip) (freq : Nat) (hc : c.last 0x86 = freqBytes freq) (h : freq < 4096000000) :
    CarrierFor c.carrier freq := by
  have := carrier_for freq h
  unfold Chip.carrier Chip.arg
  rw [hc]
  show CarrierFor (((UInt8.ofNat (u8 (freqSteps freq >>> 24))).toNat * 0x1000000 +
    (UInt8.ofNat (u8 (freqSteps freq >>> 16))).toNat * 0x10000 +
      (UInt8.ofNat (u8 (freqSteps freq >>> 8))).toNat * 0x100 + (UInt8.ofNat (u8 (freqSteps freq))).toNat) * 15625) freq
  rw [bytes_of _ this.1]
  exact this.2

/-- The parameters of CalibrateImage. -/
def imageBytes (freq : Nat) : List Nat :=
  if freq < 440000000 then [0x6b, 0x6f]
  else if freq < 510000000 then [0x75, 0x81]
  else if freq < 787000000 then [0xc1, 0xc5]
  else if freq < 870000000 then [0xd7, 0xdb]
  else [0xe1, 0xe9]

theorem calibrateImage_eq (freq : Nat) : calibrateImage freq = command (0x98 :: imageBytes freq) := by
  unfold calibrateImage imageBytes
  (repeat' split) <;> rfl

theorem imageBytes_band (freq : Nat) (b : Bytes) (h : imageBand freq = some b) :
    (imageBytes freq).map UInt8.ofNat = b := by
  unfold imageBand at h
  unfold imageBytes
  split at h
  · rw [if_pos (by omega)]; cases h; rfl
  split at h
  · rw [if_neg (by omega), if_pos (by omega)]; cases h; rfl
  split at h
  · rw [if_neg (by omega), if_neg (by omega), if_pos (by omega)]; cases h; rfl
  split at h
  · rw [if_neg (by omega), if_neg (by omega), if_neg (by omega), if_pos (by omega)]; cases h; rfl
  split at h
  · rw [if_neg (by omega), if_neg (by omega), if_neg (by omega), if_neg (by omega)]; cases h; rfl
  · cases h

/-- The parameters kept once packet type and image are set. -/
def begun (d : Driver) (freq : Nat) (c : Chip) : Nat → Bytes :=
  let L := keep (keep (keep c.last 0x8b (c.defaults 0x8b)) 0x8c (c.defaults 0x8c)) 0x8a [1]
  if d.imagePending then keep L 0x98 ((imageBytes freq).map UInt8.ofNat) else L

theorem run_begin (d : Driver) (freq : Nat) (c : Chip) (hr : c.io ≠ .reset) :
    ∃ m, c.run (beginOps d freq) = { c with mode := m, last := begun d freq c } := by
  unfold beginOps begun
  simp only []
  cases d.imagePending
  · exact ⟨_, exec_packetType c hr⟩
  · refine ⟨awake (awake c.mode), ?_⟩
    rw [if_pos rfl, if_pos rfl, calibrateImage_eq]
    simp only [List.cons_append, List.nil_append, run_cons, run_nil]
    rw [exec_packetType c hr]
    exact exec_plain _ 0x98 _ hr (by decide)

/-- Amplifier settings: duty cycle, hpMax, device, power. -/
def paBytes (d : Driver) (centi : Int) : List Nat × Int :=
  if usesHp d then ([(paHp (clampHp (centi.tdiv 100))).1, (paHp (clampHp (centi.tdiv 100))).2, 0, 1], clampHp (centi.tdiv 100))
  else ([if clampLp (centi.tdiv 100) > 10 then 4 else 1, 0, 1, 1], clampLp (centi.tdiv 100))

theorem rfo_up : ChipMode.txRfo ≠ .reset := by decide
theorem rx_up : ChipMode.rx ≠ .reset := by decide
theorem boost_up : ChipMode.txBoost ≠ .reset := by decide

theorem run_power (d : Driver) (centi : Int) (c : Chip) :
    ∃ m, c.run (setPower d centi) = { c with
      io := if usesHp d then .txBoost else .txRfo
      mode := m
      last := keep (keep c.last 0x95 ((paBytes d centi).1.map UInt8.ofNat)) 0x8e
        [UInt8.ofNat (u8i (paBytes d centi).2), 4] } := by
  unfold setPower paBytes
  simp only []
  cases usesHp d
  · refine ⟨awake (awake c.mode), ?_⟩
    simp only [Bool.false_eq_true, if_false, run_cons, run_nil]
    rw [exec_mode c _ (by decide)]
    refine (congrArg (fun x => Chip.exec x _) (exec_plain _ 0x95 _ rfo_up (by decide))).trans ?_
    exact exec_plain _ 0x8e [_, 4] rfo_up (by decide)
  · refine ⟨awake (awake c.mode), ?_⟩
    simp only [if_true, run_cons, run_nil]
    rw [exec_mode c _ (by decide)]
    refine (congrArg (fun x => Chip.exec x _) (exec_plain _ 0x95 _ boost_up (by decide))).trans ?_
    exact exec_plain _ 0x8e [_, 4] boost_up (by decide)

/-- Parameters of SetModulationParams. -/
def modBytes (bw : Bw) (sf : Nat) : Bytes :=
  [UInt8.ofNat (u8 sf), UInt8.ofNat (match bw with | .b125 => 4 | .b250 => 5 | .b500 => 6), 1,
    UInt8.ofNat (if lowRate bw sf then 1 else 0)]

theorem exec_base (c : Chip) (hr : c.io ≠ .reset) :
    c.exec (setBufferBaseAddress 0 0) = { c with mode := awake c.mode, last := keep c.last 0x8f [0, 0] } :=
  exec_plain c 0x8f [0, 0] hr (by decide)

theorem exec_freq (c : Chip) (freq : Nat) (hr : c.io ≠ .reset) :
    c.exec (setRfFrequency freq) = { c with mode := awake c.mode, last := keep c.last 0x86 (freqBytes freq) } :=
  exec_plain c 0x86 [_, _, _, _] hr (by decide)

theorem exec_mod (c : Chip) (bw : Bw) (sf : Nat) (hr : c.io ≠ .reset) :
    c.exec (setModulationParams sf bw 1 (lowRate bw sf)) =
      { c with mode := awake c.mode, last := keep c.last 0x8b (modBytes bw sf) } :=
  exec_plain c 0x8b [_, _, 1, _] hr (by decide)

theorem exec_packet (c : Chip) (n : Nat) (crc invert : Bool) (hr : c.io ≠ .reset) :
    c.exec (setPacketParams 8 false n crc invert) = { c with
      mode := awake c.mode
      last := keep c.last 0x8c [0, 8, 0, UInt8.ofNat n, UInt8.ofNat (if crc then 1 else 0), UInt8.ofNat (if invert then 1 else 0)] } :=
  exec_plain c 0x8c [0, 8, 0, n, _, _] hr (by decide)

theorem exec_irqTx (c : Chip) (hr : c.io ≠ .reset) :
    c.exec (setDioIrqParams 1 1 0 0) =
      { c with mode := awake c.mode, last := keep c.last 0x08 [0, 1, 0, 1, 0, 0, 0, 0] } := by
  have h : setDioIrqParams 1 1 0 0 = command [0x08, 0, 1, 0, 1, 0, 0, 0, 0] := by decide
  rw [h]
  exact exec_plain c 0x08 [0, 1, 0, 1, 0, 0, 0, 0] hr (by decide)

theorem exec_irqRx (c : Chip) (hr : c.io ≠ .reset) :
    c.exec (setDioIrqParams 0x202 0x202 0 0) =
      { c with mode := awake c.mode, last := keep c.last 0x08 [2, 2, 2, 2, 0, 0, 0, 0] } := by
  have h : setDioIrqParams 0x202 0x202 0 0 = command [0x08, 2, 2, 2, 2, 0, 0, 0, 0] := by decide
  rw [h]
  exact exec_plain c 0x08 [2, 2, 2, 2, 0, 0, 0, 0] hr (by decide)

theorem exec_irqNone (c : Chip) (hr : c.io ≠ .reset) :
    c.exec (setDioIrqParams 0 0 0 0) =
      { c with mode := awake c.mode, last := keep c.last 0x08 [0, 0, 0, 0, 0, 0, 0, 0] } := by
  have h : setDioIrqParams 0 0 0 0 = command [0x08, 0, 0, 0, 0, 0, 0, 0, 0] := by decide
  rw [h]
  exact exec_plain c 0x08 [0, 0, 0, 0, 0, 0, 0, 0] hr (by decide)

theorem exec_symbols (c : Chip) (n : Nat) (hr : c.io ≠ .reset) :
    c.exec (setLoRaSymbNumTimeout n) = { c with mode := awake c.mode, last := keep c.last 0xa0 [UInt8.ofNat n] } :=
  exec_plain c 0xa0 [n] hr (by decide)

/-- The settings of a transmission. -/
def tailOps (s : TxSetting) (data : Bytes) : List BusOp :=
  [setBufferBaseAddress 0 0, setRfFrequency s.freq, writeBuffer 0 data,
    setModulationParams s.sf s.bw 1 (lowRate s.bw s.sf), setPacketParams 8 false (u8 data.length) true false,
    setDioIrqParams 1 1 0 0, setSyncWord 0x3444]

theorem run_tail (s : TxSetting) (data : Bytes) (c : Chip) (hr : c.io ≠ .reset) :
    ∃ m, c.run (tailOps s data) = { c with
      mode := m
      last := keep (keep (keep (keep (keep c.last 0x8f [0, 0]) 0x86 (freqBytes s.freq)) 0x8b (modBytes s.bw s.sf))
        0x8c [0, 8, 0, UInt8.ofNat (u8 data.length), 1, 0]) 0x08 [0, 1, 0, 1, 0, 0, 0, 0]
      regs := syncRegs c.regs
      buffer := loaded c.buffer data } := by
  refine ⟨awake (awake (awake (awake (awake (awake (awake c.mode)))))), ?_⟩
  unfold tailOps
  simp only [run_cons, run_nil]
  rw [exec_base c hr, exec_freq, exec_writeBuffer, exec_mod, exec_packet, exec_irqTx, exec_syncWord]
  · rfl
  all_goals exact hr

/-- The settings of a receive window. -/
def windowOps (s : RxSetting) : List BusOp :=
  [setBufferBaseAddress 0 0, setRfFrequency s.freq, setModulationParams s.sf s.bw 1 (lowRate s.bw s.sf),
    setPacketParams 8 false (u8 s.max) false true, setDioIrqParams 0x202 0x202 0 0, setSyncWord 0x3444,
    setLoRaSymbNumTimeout (if s.timeout > 255 then 255 else u8 s.timeout)]

theorem run_window (s : RxSetting) (c : Chip) (hr : c.io ≠ .reset) :
    ∃ m, c.run (windowOps s) = { c with
      mode := m
      last := keep (keep (keep (keep (keep (keep c.last 0x8f [0, 0]) 0x86 (freqBytes s.freq)) 0x8b (modBytes s.bw s.sf))
        0x8c [0, 8, 0, UInt8.ofNat (u8 s.max), 0, 1]) 0x08 [2, 2, 2, 2, 0, 0, 0, 0])
        0xa0 [UInt8.ofNat (if s.timeout > 255 then 255 else u8 s.timeout)]
      regs := syncRegs c.regs } := by
  refine ⟨awake (awake (awake (awake (awake (awake (awake c.mode)))))), ?_⟩
  unfold windowOps
  simp only [run_cons, run_nil]
  generalize (if s.timeout > 255 then 255 else u8 s.timeout) = n
  rw [exec_base c hr, exec_freq, exec_mod, exec_packet, exec_irqRx, exec_syncWord, exec_symbols]
  · simp only [Bool.false_eq_true, if_false, if_true]
    rfl
  all_goals exact hr

/-! ### Power -/

theorem signed_byte (x : Int) (h : -128 ≤ x) (h' : x ≤ 127) : Chip.signed (UInt8.ofNat (u8i x)).toNat = x := by
  rw [UInt8.toNat_ofNat']
  unfold Chip.signed u8i
  split <;> omega

theorem tdiv_bounds (p : Int) : (0 ≤ p → 100 * p.tdiv 100 ≤ p ∧ p ≤ 100 * p.tdiv 100 + 99) ∧
    (p < 0 → p ≤ 100 * p.tdiv 100 ∧ 100 * p.tdiv 100 ≤ p + 99) := by
  constructor
  · intro h
    rw [Int.tdiv_eq_ediv_of_nonneg h]
    omega
  · intro h
    have e : p.tdiv 100 = -((-p) / 100) := by
      rw [← Int.tdiv_eq_ediv_of_nonneg (by omega), Int.neg_tdiv, Int.neg_neg]
    rw [e]
    omega

/-- The amplifier settings of the driver give a power that is never too strong, and up to 8 dB too weak. -/
theorem pa_power (d : Driver) (p : Int) (em : Emission) (n1 n2 n3 : Nat) (v : Int) (ds : (paBytes d p).1 = [n1, n2, n3, 1])
    (hv : (paBytes d p).2 = v) (hp : em.power = Chip.nominal n1 n2 n3 v) (hh : em.hp = decide (n3 = 0)) :
    em.hp = usesHp d ∧ NotTooStrong p em ∧ NotTooWeak 899 p em ∧ (usesHp d = false → NotTooWeak 399 p em) := by
  obtain ⟨b1, b2⟩ := tdiv_bounds p
  unfold paBytes at ds hv
  generalize p.tdiv 100 = q at *
  cases hu : usesHp d
  · rw [hu] at ds hv
    simp only [Bool.false_eq_true, if_false, List.cons.injEq, and_true] at ds hv
    obtain ⟨d1, d2, d3⟩ := ds
    have e : em.hp = false := by rw [hh, ← d3]; rfl
    have key : ∃ w, em.power = some w ∧ 100 * w ≤ max (-1700) (if 0 ≤ p then p else p + 99) ∧
        min 1400 p - 399 ≤ 100 * w ∧ (1400 ≤ p → 100 * w = 1400) := by
      rw [hp, ← d1, ← d2, ← d3, ← hv]
      unfold clampLp
      (repeat' split) <;> first | omega | refine ⟨_, rfl, ?_, ?_, ?_⟩ <;> omega
    obtain ⟨w, k1, k2, k3, k4⟩ := key
    refine ⟨e, ⟨w, k1, ?_⟩, ⟨w, k1, ?_, ?_⟩, fun _ => ⟨w, k1, ?_, ?_⟩⟩
    · rw [e]; exact k2
    · rw [e]; show min 1400 p - 899 ≤ _; omega
    · rw [e]; exact k4
    · rw [e]; exact k3
    · rw [e]; exact k4
  · rw [hu] at ds hv
    simp only [if_true, List.cons.injEq, and_true] at ds hv
    obtain ⟨d1, d2, d3⟩ := ds
    have e : em.hp = true := by rw [hh, ← d3]; rfl
    have key : ∃ w, em.power = some w ∧ 100 * w ≤ max (-900) (if 0 ≤ p then p else p + 99) ∧
        min 2200 p - 899 ≤ 100 * w ∧ (2200 ≤ p → 100 * w = 2200) := by
      rw [hp, ← d1, ← d2, ← d3, ← hv]
      unfold paHp clampHp
      (repeat' split) <;> first | omega | refine ⟨_, rfl, ?_, ?_, ?_⟩ <;> omega
    obtain ⟨w, k1, k2, k3, k4⟩ := key
    refine ⟨e, ⟨w, k1, ?_⟩, ⟨w, k1, ?_, ?_⟩, fun h => absurd h (by decide)⟩
    · rw [e]; exact k2
    · rw [e]; exact k3
    · rw [e]; exact k4

/-! ### Transmission and reception -/

theorem lowRate_long (bw : Bw) (sf : Nat) (h : Spec.Usable bw sf) : lowRate bw sf = Spec.LongSymbol bw sf := by
  obtain ⟨h1, h2, h3⟩ := h
  have : ∀ b : Bw, ∀ s : Fin 13, 7 ≤ s.val → ¬(b = .b250 ∧ s.val = 12) → lowRate b s.val = Spec.LongSymbol b s.val := by
    intro b
    cases b <;> decide +kernel
  exact this bw ⟨sf, by omega⟩ h1 h3

theorem sf_byte (sf : Nat) (h : sf ≤ 12) : (UInt8.ofNat (u8 sf)).toNat = sf := by
  rw [UInt8.toNat_ofNat']
  unfold u8
  omega

theorem len_byte (n : Nat) (h : n ≤ 255) : (UInt8.ofNat (u8 n)).toNat = n := by
  rw [UInt8.toNat_ofNat']
  unfold u8
  omega

/-- Modulation as in the parameters of SetModulationParams. -/
theorem modulation (c : Chip) (bw : Bw) (sf : Nat) (hc : c.last 0x8b = modBytes bw sf) (hu : Spec.Usable bw sf) :
    c.bw = some bw ∧ c.arg 0x8b 0 = sf ∧ c.arg 0x8b 2 = 1 ∧ decide (c.arg 0x8b 3 = 1) = Spec.LongSymbol bw sf := by
  unfold Chip.bw Chip.arg
  rw [hc, ← lowRate_long bw sf hu]
  refine ⟨?_, sf_byte sf hu.2.1, rfl, ?_⟩
  · cases bw <;> rfl
  · show decide ((UInt8.ofNat (if lowRate bw sf then 1 else 0)).toNat = 1) = _
    cases lowRate bw sf <;> decide

/-- What a transmission did. -/
structure Sent (d : Driver) (c : Chip) (s : TxSetting) (data : Bytes) (c' : Chip) (em : Emission) : Prop where
  aired : c'.aired = c.aired ++ [some em]
  heard : c'.heard = c.heard
  airs : Airs s data em
  amplifier : Amplifier d.type d.pa em
  strong : NotTooStrong (s.eirp - d.txGain) em
  weak : NotTooWeak 899 (s.eirp - d.txGain) em
  weakLp : usesHp d = false → NotTooWeak 399 (s.eirp - d.txGain) em
  regulator : em.regulator = c.last 0x96
  rfSwitch : em.rfSwitch = c.last 0x9d
  tcxo : em.tcxo = c.last 0x97
  image : em.image = if d.imagePending then (imageBytes s.freq).map UInt8.ofNat else c.last 0x98
  mode : c'.mode = .tx
  irq : c'.irq = c.irq
  mask : c'.irqMask = 1
  dio : c'.dio1Mask = 1
  io : c'.io ≠ .reset
  keptReg : c'.last 0x96 = c.last 0x96
  keptSw : c'.last 0x9d = c.last 0x9d
  keptTcxo : c'.last 0x97 = c.last 0x97
  keptImage : c'.last 0x98 = em.image

theorem s16_id (x : Int) (h : -32768 ≤ x) (h' : x ≤ 32767) : s16 x = x := by unfold s16; omega

theorem paBytes_shape (d : Driver) (p : Int) : ∃ n1 n2 n3, (paBytes d p).1 = [n1, n2, n3, 1] ∧ n1 < 256 ∧ n2 < 256 ∧
    n3 < 256 ∧ -128 ≤ (paBytes d p).2 ∧ (paBytes d p).2 ≤ 127 := by
  unfold paBytes
  split
  · refine ⟨_, _, _, rfl, ?_, ?_, by decide, ?_, ?_⟩
    · unfold paHp; (repeat' split) <;> decide
    · unfold paHp; (repeat' split) <;> decide
    · show -128 ≤ clampHp _; unfold clampHp; (repeat' split) <;> omega
    · show clampHp _ ≤ 127; unfold clampHp; (repeat' split) <;> omega
  · refine ⟨_, _, _, rfl, ?_, by decide, by decide, ?_, ?_⟩
    · split <;> decide
    · show -128 ≤ clampLp _; unfold clampLp; (repeat' split) <;> omega
    · show clampLp _ ≤ 127; unfold clampLp; (repeat' split) <;> omega

theorem transmitOps_eq (d : Driver) (s : TxSetting) (data : Bytes) :
    transmitOps d s data = beginOps d s.freq ++ setPower d (s16 (s.eirp - d.txGain)) ++ tailOps s data ++ [setTx 0] := by
  unfold transmitOps tailOps
  simp only [List.append_assoc, List.cons_append, List.nil_append]

theorem begun_other (d : Driver) (freq : Nat) (c : Chip) (a : Nat) (h : a ≠ 0x8b ∧ a ≠ 0x8c ∧ a ≠ 0x8a ∧ a ≠ 0x98) :
    begun d freq c a = c.last a := by
  obtain ⟨h1, h2, h3, h4⟩ := h
  unfold begun keep
  cases d.imagePending <;> simp only [h1, h2, h3, h4, if_false, if_true, Bool.false_eq_true]

theorem begun_type (d : Driver) (freq : Nat) (c : Chip) : begun d freq c 0x8a = [1] := by
  unfold begun
  cases d.imagePending <;> rfl

theorem begun_image (d : Driver) (freq : Nat) (c : Chip) :
    begun d freq c 0x98 = if d.imagePending then (imageBytes freq).map UInt8.ofNat else c.last 0x98 := by
  unfold begun
  cases d.imagePending <;> rfl

theorem transmit_sent (d : Driver) (c : Chip) (s : TxSetting) (data : Bytes) (hr : c.io ≠ .reset)
    (hd : data.length ≤ 255) (hu : Spec.Usable s.bw s.sf)
    (hp : -32768 ≤ s.eirp - d.txGain ∧ s.eirp - d.txGain ≤ 32767) :
    ∃ em, Sent d c s data (c.run (transmitOps d s data)) em := by
  rw [transmitOps_eq, run_append, run_append, run_append, s16_id _ hp.1 hp.2]
  obtain ⟨m1, e1⟩ := run_begin d s.freq c hr
  rw [e1]
  generalize hc1 : ({ c with mode := m1, last := begun d s.freq c } : Chip) = c1
  obtain ⟨m2, e2⟩ := run_power d (s.eirp - d.txGain) c1
  rw [e2]
  generalize hc2 : ({ c1 with io := _, mode := m2, last := _ } : Chip) = c2
  have hio2 : c2.io = if usesHp d then .txBoost else .txRfo := by rw [← hc2]
  have hr2 : c2.io ≠ .reset := by rw [hio2]; split <;> decide
  obtain ⟨m3, e3⟩ := run_tail s data c2 hr2
  rw [e3]
  generalize hc3 : ({ c2 with mode := m3, last := _, regs := _, buffer := _ } : Chip) = c3
  have hio3 : c3.io = if usesHp d then .txBoost else .txRfo := by rw [← hc3]; exact hio2
  have hr3 : c3.io ≠ .reset := by rw [← hc3]; exact hr2
  simp only [run_cons, run_nil]
  rw [exec_tx c3 hr3]
  obtain ⟨n1, n2, n3, g1, g2, g3, g4, g5, g6⟩ := paBytes_shape d (s.eirp - d.txGain)
  have l95 : c3.last 0x95 = [UInt8.ofNat n1, UInt8.ofNat n2, UInt8.ofNat n3, 1] := by
    rw [← hc3, ← hc2, g1]; rfl
  have l8e : c3.last 0x8e = [UInt8.ofNat (u8i (paBytes d (s.eirp - d.txGain)).2), 4] := by rw [← hc3, ← hc2]; rfl
  have l8a : c3.last 0x8a = [1] := by rw [← hc3, ← hc2, ← hc1]; exact begun_type d s.freq c
  have l98 : c3.last 0x98 = if d.imagePending then (imageBytes s.freq).map UInt8.ofNat else c.last 0x98 := by
    rw [← hc3, ← hc2, ← hc1]; exact begun_image d s.freq c
  have l96 : c3.last 0x96 = c.last 0x96 := by rw [← hc3, ← hc2, ← hc1]; exact begun_other d s.freq c _ (by decide)
  have l9d : c3.last 0x9d = c.last 0x9d := by rw [← hc3, ← hc2, ← hc1]; exact begun_other d s.freq c _ (by decide)
  have l97 : c3.last 0x97 = c.last 0x97 := by rw [← hc3, ← hc2, ← hc1]; exact begun_other d s.freq c _ (by decide)
  have l8f : c3.last 0x8f = [0, 0] := by rw [← hc3]; rfl
  have l86 : c3.last 0x86 = freqBytes s.freq := by rw [← hc3]; rfl
  have l8b : c3.last 0x8b = modBytes s.bw s.sf := by rw [← hc3]; rfl
  have l8c : c3.last 0x8c = [0, 8, 0, UInt8.ofNat (u8 data.length), 1, 0] := by rw [← hc3]; rfl
  have l08 : c3.last 0x08 = [0, 1, 0, 1, 0, 0, 0, 0] := by rw [← hc3]; rfl
  have hregs : c3.regs = syncRegs c2.regs := by rw [← hc3]
  have hbuf : c3.buffer = loaded c2.buffer data := by rw [← hc3]
  have hkeep : c3.aired = c.aired ∧ c3.heard = c.heard ∧ c3.irq = c.irq := by
    rw [← hc3, ← hc2, ← hc1]; exact ⟨rfl, rfl, rfl⟩
  clear hc3 hc2 hc1 e1 e2 e3
  have hl : c3.lora = true := by unfold Chip.lora Chip.arg; rw [l8a]; rfl
  have hmask : c3.irqMask = 1 := by unfold Chip.irqMask Chip.arg; rw [l08]; rfl
  have hdio : c3.dio1Mask = 1 := by unfold Chip.dio1Mask Chip.arg; rw [l08]; rfl
  obtain ⟨q1, q2, q3, q4⟩ := modulation c3 s.bw s.sf l8b hu
  have hpow : (c3.emission 0).power = Chip.nominal n1 n2 n3 (paBytes d (s.eirp - d.txGain)).2 := by
    show Chip.nominal (c3.arg 0x95 0) (c3.arg 0x95 1) (c3.arg 0x95 2) (Chip.signed (c3.arg 0x8e 0)) = _
    unfold Chip.arg
    rw [l95, l8e]
    show Chip.nominal (UInt8.ofNat n1).toNat (UInt8.ofNat n2).toNat (UInt8.ofNat n3).toNat
      (Chip.signed (UInt8.ofNat (u8i (paBytes d (s.eirp - d.txGain)).2)).toNat) = _
    rw [opcode_val n1 g2, opcode_val n2 g3, opcode_val n3 g4, signed_byte _ g5 g6]
  have hhp : (c3.emission 0).hp = decide (n3 = 0) := by
    show decide (c3.arg 0x95 2 = 0) = _
    unfold Chip.arg
    rw [l95]
    show decide ((UInt8.ofNat n3).toNat = 0) = _
    rw [opcode_val n3 g4]
  obtain ⟨p1, p2, p3, p4⟩ := pa_power d _ (c3.emission 0) n1 n2 n3 _ g1 rfl hpow hhp
  refine ⟨c3.emission 0, ?_, hkeep.2.1, ?_, ?_, p2, p3, p4, l96, l9d, l97, l98, rfl, hkeep.2.2, hmask, hdio, hr3, l96, l9d, l97, rfl⟩
  · show c3.aired ++ _ = _
    rw [if_pos hl, hkeep.1]
  · refine ⟨?_, fun h => carrier_of c3 s.freq l86 h, q1, q2, q3, ?_, ?_, q4, ?_, ?_, ?_, ?_, rfl⟩
    · show c3.payload = data
      unfold Chip.payload Chip.arg
      rw [l8c, l8f, hbuf]
      show (List.range (UInt8.ofNat (u8 data.length)).toNat).map _ = _
      rw [len_byte _ hd]
      exact loaded_read _ data hd
    · show decide (c3.arg 0x8c 2 = 0) = true
      unfold Chip.arg
      rw [l8c]; rfl
    · show decide (c3.arg 0x8c 4 = 1) = true
      unfold Chip.arg
      rw [l8c]; rfl
    · show (c3.regs 0x740).toNat * 256 + (c3.regs 0x741).toNat = 0x3444
      rw [hregs, (syncRegs_word _).1, (syncRegs_word _).2]
      decide
    · show decide (c3.arg 0x8c 5 = 1) = false
      unfold Chip.arg
      rw [l8c]; rfl
    · show c3.arg 0x8c 0 * 256 + c3.arg 0x8c 1 = 8
      unfold Chip.arg
      rw [l8c]
      show (0 : UInt8).toNat * 256 + (8 : UInt8).toNat = 8
      decide
    · show (c3.irqMask.testBit 0 && c3.dio1Mask.testBit 0) = true
      rw [hmask, hdio]; decide
  · have hh : usesHp d = (c3.emission 0).hp := p1.symm
    refine ⟨fun h => ?_, fun h => ?_, fun h h' => ?_, fun h h' => ?_, ?_⟩
    · rw [p1]; unfold usesHp; rw [h]
    · rw [p1]; unfold usesHp; rw [h]
    · rw [p1]; unfold usesHp; rw [h, h']
    · rw [p1]; unfold usesHp; rw [h, h']
    · rw [← hh]; exact hio3

/-- What a reception did. -/
structure Opened (d : Driver) (c : Chip) (s : RxSetting) (c' : Chip) (l : Listening) : Prop where
  heard : c'.heard = c.heard ++ [some l]
  aired : c'.aired = c.aired
  hears : Hears s l
  regulator : l.regulator = c.last 0x96
  rfSwitch : l.rfSwitch = c.last 0x9d
  tcxo : l.tcxo = c.last 0x97
  image : l.image = if d.imagePending then (imageBytes s.freq).map UInt8.ofNat else c.last 0x98
  mode : c'.mode = .rx
  irq : c'.irq = c.irq
  mask : c'.irqMask = 0x202
  dio : c'.dio1Mask = 0x202
  base : c'.arg 0x8f 1 = 0
  max : c'.arg 0x8c 3 = s.max
  io : c'.io ≠ .reset
  keptReg : c'.last 0x96 = c.last 0x96
  keptSw : c'.last 0x9d = c.last 0x9d
  keptTcxo : c'.last 0x97 = c.last 0x97
  keptImage : c'.last 0x98 = l.image

theorem receiveOps_eq (d : Driver) (s : RxSetting) :
    receiveOps d s = [.mode .rx] ++ beginOps d s.freq ++ windowOps s ++ [setRx 0] := by
  unfold receiveOps windowOps
  simp only [List.append_assoc, List.cons_append, List.nil_append]

theorem receive_opened (d : Driver) (c : Chip) (s : RxSetting) (hx : s.max ≤ 255) (hu : Spec.Usable s.bw s.sf) :
    ∃ l, Opened d c s (c.run (receiveOps d s)) l := by
  rw [receiveOps_eq, run_append, run_append, run_append]
  have e0 : c.run [.mode .rx] = { c with io := .rx } := exec_mode c .rx (by decide)
  rw [e0]
  generalize hc0 : ({ c with io := .rx } : Chip) = c0
  have hr0 : c0.io = .rx := by rw [← hc0]
  obtain ⟨m1, e1⟩ := run_begin d s.freq c0 (by rw [hr0]; decide)
  rw [e1]
  generalize hc1 : ({ c0 with mode := m1, last := begun d s.freq c0 } : Chip) = c1
  have hr1 : c1.io = .rx := by rw [← hc1]; exact hr0
  obtain ⟨m3, e3⟩ := run_window s c1 (by rw [hr1]; decide)
  rw [e3]
  generalize hc3 : ({ c1 with mode := m3, last := _, regs := _ } : Chip) = c3
  have hio3 : c3.io = .rx := by rw [← hc3]; exact hr1
  have hr3 : c3.io ≠ .reset := by rw [hio3]; decide
  simp only [run_cons, run_nil]
  rw [exec_rx c3 hr3]
  have l8a : c3.last 0x8a = [1] := by rw [← hc3, ← hc1]; exact begun_type d s.freq c0
  have l98 : c3.last 0x98 = if d.imagePending then (imageBytes s.freq).map UInt8.ofNat else c.last 0x98 := by
    rw [← hc3, ← hc1]; refine (begun_image d s.freq c0).trans ?_; rw [← hc0]
  have l96 : c3.last 0x96 = c.last 0x96 := by
    rw [← hc3, ← hc1]; refine (begun_other d s.freq c0 _ (by decide)).trans ?_; rw [← hc0]
  have l9d : c3.last 0x9d = c.last 0x9d := by
    rw [← hc3, ← hc1]; refine (begun_other d s.freq c0 _ (by decide)).trans ?_; rw [← hc0]
  have l97 : c3.last 0x97 = c.last 0x97 := by
    rw [← hc3, ← hc1]; refine (begun_other d s.freq c0 _ (by decide)).trans ?_; rw [← hc0]
  have l8f : c3.last 0x8f = [0, 0] := by rw [← hc3]; rfl
  have l86 : c3.last 0x86 = freqBytes s.freq := by rw [← hc3]; rfl
  have l8b : c3.last 0x8b = modBytes s.bw s.sf := by rw [← hc3]; rfl
  have l8c : c3.last 0x8c = [0, 8, 0, UInt8.ofNat (u8 s.max), 0, 1] := by rw [← hc3]; rfl
  have l08 : c3.last 0x08 = [2, 2, 2, 2, 0, 0, 0, 0] := by rw [← hc3]; rfl
  have la0 : c3.last 0xa0 = [UInt8.ofNat (if s.timeout > 255 then 255 else u8 s.timeout)] := by rw [← hc3]; rfl
  have hregs : c3.regs = syncRegs c1.regs := by rw [← hc3]
  have hkeep : c3.aired = c.aired ∧ c3.heard = c.heard ∧ c3.irq = c.irq := by
    rw [← hc3, ← hc1, ← hc0]; exact ⟨rfl, rfl, rfl⟩
  clear hc3 hc0 hc1 e1 e0 e3
  have hl : c3.lora = true := by unfold Chip.lora Chip.arg; rw [l8a]; rfl
  have hmask : c3.irqMask = 0x202 := by
    unfold Chip.irqMask Chip.arg; rw [l08]; show (2 : UInt8).toNat * 256 + (2 : UInt8).toNat = _; decide
  have hdio : c3.dio1Mask = 0x202 := by
    unfold Chip.dio1Mask Chip.arg; rw [l08]; show (2 : UInt8).toNat * 256 + (2 : UInt8).toNat = _; decide
  have hmax : c3.arg 0x8c 3 = s.max := by unfold Chip.arg; rw [l8c]; exact len_byte _ hx
  obtain ⟨q1, q2, q3, q4⟩ := modulation c3 s.bw s.sf l8b hu
  refine ⟨c3.listening 0, ?_, hkeep.1, ?_, l96, l9d, l97, l98, rfl, hkeep.2.2, hmask, hdio, ?_, hmax, hr3, l96, l9d, l97, rfl⟩
  · show c3.heard ++ _ = _
    rw [if_pos hl, hkeep.2.1]
  · refine ⟨fun h => carrier_of c3 s.freq l86 h, q1, q2, q3, ?_, q4, ?_, ?_, ?_, ?_, hmax, hio3, ?_, rfl⟩
    · show decide (c3.arg 0x8c 2 = 0) = true
      unfold Chip.arg
      rw [l8c]; rfl
    · show (c3.regs 0x740).toNat * 256 + (c3.regs 0x741).toNat = 0x3444
      rw [hregs, (syncRegs_word _).1, (syncRegs_word _).2]
      decide
    · show decide (c3.arg 0x8c 5 = 1) = true
      unfold Chip.arg
      rw [l8c]; rfl
    · show c3.arg 0x8c 0 * 256 + c3.arg 0x8c 1 = 8
      unfold Chip.arg
      rw [l8c]
      show (0 : UInt8).toNat * 256 + (8 : UInt8).toNat = 8
      decide
    · show c3.arg 0xa0 0 = min 255 s.timeout
      unfold Chip.arg
      rw [la0]
      show (UInt8.ofNat (if s.timeout > 255 then 255 else u8 s.timeout)).toNat = _
      rw [UInt8.toNat_ofNat']
      unfold u8
      split <;> omega
    · show ((c3.irqMask.testBit 1 && c3.dio1Mask.testBit 1) && (c3.irqMask.testBit 9 && c3.dio1Mask.testBit 9)) = true
      rw [hmask, hdio]; decide
  · show c3.arg 0x8f 1 = 0
    unfold Chip.arg; rw [l8f]; rfl

/-- What listening for noise did. -/
structure Noisy (c : Chip) (c' : Chip) (l : Listening) : Prop where
  heard : c'.heard = c.heard ++ [some l]
  aired : c'.aired = c.aired
  signalled : l.signalled = false
  timer : l.timer = 0
  ioRx : l.io = .rx
  regulator : l.regulator = c.last 0x96
  rfSwitch : l.rfSwitch = c.last 0x9d
  tcxo : l.tcxo = c.last 0x97
  mode : c'.mode = .rx
  irq : c'.irq = c.irq
  mask : c'.irqMask = 0
  io : c'.io ≠ .reset
  keptReg : c'.last 0x96 = c.last 0x96
  keptSw : c'.last 0x9d = c.last 0x9d
  keptTcxo : c'.last 0x97 = c.last 0x97
  keptImage : c'.last 0x98 = c.last 0x98

/-- The accesses to listen for noise. -/
def noiseOps : List BusOp := [.mode .rx, setPacketType 1, setDioIrqParams 0 0 0 0]

theorem noise_opened (c : Chip) : ∃ l, Noisy c (c.run (noiseOps ++ [setRx 0])) l := by
  rw [run_append]
  obtain ⟨c3, e3⟩ : ∃ c3, c3 = c.run noiseOps := ⟨_, rfl⟩
  rw [← e3]
  unfold noiseOps at e3
  simp only [run_cons, run_nil] at e3 ⊢
  rw [exec_mode c .rx (by decide), exec_packetType, exec_irqNone] at e3
  rotate_left
  · exact rx_up
  · exact rx_up
  have hio3 : c3.io = .rx := by rw [e3]
  have hr3 : c3.io ≠ .reset := by rw [hio3]; decide
  rw [exec_rx c3 hr3]
  have hl : c3.lora = true := by unfold Chip.lora Chip.arg; rw [e3]; rfl
  have l08 : c3.last 0x08 = [0, 0, 0, 0, 0, 0, 0, 0] := by rw [e3]; rfl
  have hmask : c3.irqMask = 0 := by
    unfold Chip.irqMask Chip.arg; rw [l08]; rfl
  have l96 : c3.last 0x96 = c.last 0x96 := by rw [e3]; rfl
  have l97 : c3.last 0x97 = c.last 0x97 := by rw [e3]; rfl
  have l98 : c3.last 0x98 = c.last 0x98 := by rw [e3]; rfl
  have l9d : c3.last 0x9d = c.last 0x9d := by rw [e3]; rfl
  have hk : c3.aired = c.aired ∧ c3.heard = c.heard ∧ c3.irq = c.irq := by rw [e3]; exact ⟨rfl, rfl, rfl⟩
  clear e3
  refine ⟨c3.listening 0, ?_, hk.1, ?_, rfl, hio3, l96, l9d, l97, rfl, hk.2.2, hmask, hr3, l96, l9d, l97, l98⟩
  · show c3.heard ++ _ = _
    rw [if_pos hl, hk.2.1]
  · show ((c3.irqMask.testBit 1 && _) && _) = false
    rw [hmask]; rfl

end Sx126x
end LDL
