import Verif.Spec.WlSpi

/-!
# The bus of the STM32WL: C105
-/

namespace LDL
namespace WlSpi
open Spec

theorem await_answer (p : Port) (b : UInt8) : ∀ n count, n < count →
    Port.await count { p with flight := [(n, b)], fifo := [] } = { p with flight := [], fifo := [b] }
  | 0, count + 1, _ => rfl
  | n + 1, count + 1, h => by
    show (if _ then _ else Port.await count { p with flight := [(n, b)], fifo := [] }) = _
    rw [if_neg (by intro h; cases h)]
    exact await_answer p b n count (by omega)

theorem exchange_answer {p : Port} {c : Chip} {preset : Nat} (b : UInt8) (hc : NoneLeft p)
    (h : c.delay p.wire.length < preset) :
    p.exchange c preset b =
      (c.answer p.wire.length, { p with wire := p.wire ++ [b], last := c.answer p.wire.length }) := by
  obtain ⟨wire, flight, fifo, last⟩ := p
  obtain ⟨rfl, rfl⟩ := hc
  unfold Port.exchange Port.put
  have := await_answer { wire := wire ++ [b], last := last } (c.answer wire.length) _ _ h
  simp only [List.nil_append] at *
  rw [this]
  rfl

theorem writeSpi_bytes {c : Chip} {preset : Nat} : ∀ (data : Bytes) {p : Port}, NoneLeft p →
    RepliesWithin c p.wire.length data.length preset →
    NoneLeft (writeSpi c preset data p) ∧ (writeSpi c preset data p).wire = p.wire ++ data
  | [], p, hc, _ => ⟨hc, (List.append_nil _).symm⟩
  | b :: data, p, hc, ha => by
    have hx := exchange_answer b hc (ha _ (Nat.le_refl _) (by simp))
    unfold writeSpi
    rw [hx]
    obtain ⟨h1, h2⟩ := writeSpi_bytes data (p := { p with wire := p.wire ++ [b], last := c.answer p.wire.length }) hc
      (fun i h1 h2 => ha i (by simp at h1; omega) (by simp at h2 ⊢; omega))
    exact ⟨h1, by rw [h2]; simp⟩

theorem readSpi_bytes {c : Chip} {preset : Nat} : ∀ (size : Nat) {p : Port}, NoneLeft p →
    RepliesWithin c p.wire.length size preset →
    NoneLeft (readSpi c preset size p).2 ∧ (readSpi c preset size p).2.wire = p.wire ++ List.replicate size 0 ∧
    (readSpi c preset size p).1 = clockedIn c p.wire.length size
  | 0, p, hc, _ => ⟨hc, (List.append_nil _).symm, rfl⟩
  | size + 1, p, hc, ha => by
    have hx := exchange_answer 0 hc (ha _ (Nat.le_refl _) (by omega))
    unfold readSpi
    dsimp only
    rw [hx]
    obtain ⟨h1, h2, h3⟩ := readSpi_bytes size (p := { p with wire := p.wire ++ [0], last := c.answer p.wire.length }) hc
      (fun i h1 h2 => ha i (by simp at h1; omega) (by simp at h2 ⊢; omega))
    refine ⟨h1, ?_, ?_⟩
    · rw [h2, List.append_assoc]; rfl
    · rw [h3]
      simp [clockedIn, List.range'_succ]

/-- **C105, writing, partial**: the bytes of opcode and data are clocked out in order, and nothing else, and no byte is
left over for the next transfer.  Partial: if the radio answers in time. -/
theorem c105_write_partial (c : Chip) (coreClock : Nat) (opcode data : Bytes) (p : Port) (hc : NoneLeft p)
    (ha : RepliesWithin c p.wire.length (opcode.length + data.length) (countPreset coreClock)) :
    (chipWrite c (countPreset coreClock) opcode data p).wire = p.wire ++ opcode ++ data ∧
    NoneLeft (chipWrite c (countPreset coreClock) opcode data p) := by
  unfold chipWrite
  obtain ⟨h1, h2⟩ := writeSpi_bytes opcode hc (fun i a b => ha i a (by omega))
  obtain ⟨h3, h4⟩ := writeSpi_bytes data h1 (by
    rw [h2]
    intro i a b
    rw [List.length_append] at a b
    exact ha i (by omega) (by omega))
  exact ⟨by rw [h4, h2], h3⟩

/-- **C105, reading, partial**: the opcode is clocked out, then as many zeroes as bytes are asked for, and what is
returned is what the radio clocked in with those, in order; no byte is left over.  Partial: if the radio answers in
time. -/
theorem c105_read_partial (c : Chip) (coreClock : Nat) (opcode : Bytes) (size : Nat) (p : Port) (hc : NoneLeft p)
    (ha : RepliesWithin c p.wire.length (opcode.length + size) (countPreset coreClock)) :
    (chipRead c (countPreset coreClock) opcode size p).1 = clockedIn c (p.wire.length + opcode.length) size ∧
    (chipRead c (countPreset coreClock) opcode size p).2.wire = p.wire ++ opcode ++ List.replicate size 0 ∧
    NoneLeft (chipRead c (countPreset coreClock) opcode size p).2 := by
  unfold chipRead
  obtain ⟨h1, h2⟩ := writeSpi_bytes opcode hc (fun i a b => ha i a (by omega))
  obtain ⟨h3, h4, h5⟩ := readSpi_bytes size h1 (by
    rw [h2]
    intro i a b
    rw [List.length_append] at a b
    exact ha i (by omega) (by omega))
  exact ⟨by rw [h5, h2, List.length_append], by rw [h4, h2], h3⟩

/-- The loop waits for at least `coreClock / 188` readings, for every clock of the STM32WL (up to 48 MHz). -/
theorem c105_patience (coreClock : Nat) (h : coreClock ≤ 48000000) : coreClock / 188 ≤ countPreset coreClock + 100 := by
  unfold countPreset u32
  rw [Nat.shiftRight_eq_div_pow, Nat.mod_eq_of_lt (show coreClock * 28 < 4294967296 by omega)]
  have h1 : coreClock * 28 / 2 ^ 19 ≤ 3000 := by omega
  rw [Nat.mod_eq_of_lt (by omega)]
  omega

/-! ## Concrete cases -/

namespace Demo

/-- A radio that answers after ten readings with the number of the byte. -/
def radio : Chip := { delay := fun _ => 10, answer := fun n => UInt8.ofNat n }

/-- As `radio`, but for the byte numbered 3, which takes too long by one reading. -/
def slow : Chip := { radio with delay := fun n => if n = 3 then 256300 else 10 }

theorem preset48 : countPreset 48000000 = 256300 := by decide

example : (chipRead radio (countPreset 48000000) [0x1d, 0x08] 3 {}).1 = [2, 3, 4] ∧
    (chipRead radio (countPreset 48000000) [0x1d, 0x08] 3 {}).2.wire = [0x1d, 0x08, 0, 0, 0] := by
  obtain ⟨h1, h2, _⟩ := c105_read_partial radio 48000000 [0x1d, 0x08] 3 {} ⟨rfl, rfl⟩ (fun i _ _ => by
    rw [preset48]; show 10 < 256300; decide)
  exact ⟨h1, h2⟩

example : (chipWrite radio (countPreset 48000000) [0x0d, 0x07] [0x14, 0x24] {}).wire = [0x0d, 0x07, 0x14, 0x24] :=
  (c105_write_partial radio 48000000 [0x0d, 0x07] [0x14, 0x24] {} ⟨rfl, rfl⟩ (fun i _ _ => by
    rw [preset48]; show 10 < 256300; decide)).1

end Demo

theorem await_short (p : Port) (b : UInt8) : ∀ count n,
    Port.await count { p with flight := [(count + n, b)], fifo := [] } = { p with flight := [(n, b)], fifo := [] }
  | 0, n => by rw [Nat.zero_add]; rfl
  | count + 1, n => by
    have : count + 1 + n = (count + n) + 1 := by omega
    rw [this]
    show (if _ then _ else Port.await count { p with flight := [(count + n, b)], fifo := [] }) = _
    rw [if_neg (by intro h; cases h)]
    exact await_short p b count n

/-- The full property does not hold: if an answer comes too late, nothing tells.  The earlier byte is returned in its
place, the late byte in place of the next, and the last is left over for the next transfer, while `chip_read` returns
true. -/
theorem c105_late : (chipRead Demo.slow (countPreset 48000000) [0x1d, 0x08] 3 {}).1 = [2, 2, 3] ∧
    ¬ NoneLeft (chipRead Demo.slow (countPreset 48000000) [0x1d, 0x08] 3 {}).2 := by
  rw [Demo.preset48]
  have e1 : Port.exchange {} Demo.slow 256300 0x1d = (0, { wire := [0x1d], last := 0 }) :=
    exchange_answer 0x1d ⟨rfl, rfl⟩ (by decide)
  have e2 : Port.exchange { wire := [0x1d], last := 0 } Demo.slow 256300 0x08 = (1, { wire := [0x1d, 0x08], last := 1 }) :=
    exchange_answer 0x08 ⟨rfl, rfl⟩ (by decide)
  have e3 : Port.exchange { wire := [0x1d, 0x08], last := 1 } Demo.slow 256300 0 =
      (2, { wire := [0x1d, 0x08, 0], last := 2 }) := exchange_answer 0 ⟨rfl, rfl⟩ (by decide)
  have e4 : Port.exchange { wire := [0x1d, 0x08, 0], last := 2 } Demo.slow 256300 0 =
      (2, { wire := [0x1d, 0x08, 0, 0], flight := [(0, 3)], last := 2 }) := by
    have := await_short { wire := [0x1d, 0x08, 0, 0], last := 2 } 3 256300 0
    unfold Port.exchange
    rw [show Port.put { wire := [0x1d, 0x08, 0], last := 2 } Demo.slow 0 =
      { wire := [0x1d, 0x08, 0, 0], flight := [(256300 + 0, 3)], fifo := [], last := 2 } from rfl, this]
    rfl
  have e5 : Port.exchange { wire := [0x1d, 0x08, 0, 0], flight := [(0, 3)], last := 2 } Demo.slow 256300 0 =
      (3, { wire := [0x1d, 0x08, 0, 0, 0], flight := [(10, 4)], last := 3 }) := by
    have : ∀ count, Port.await (count + 1) { wire := [0x1d, 0x08, 0, 0, 0], flight := [(0, 3), (10, 4)], last := 2 } =
      { wire := [0x1d, 0x08, 0, 0, 0], flight := [(10, 4)], fifo := [3], last := 2 } := fun _ => rfl
    unfold Port.exchange
    rw [show Port.put { wire := [0x1d, 0x08, 0, 0], flight := [(0, 3)], last := 2 } Demo.slow 0 =
      { wire := [0x1d, 0x08, 0, 0, 0], flight := [(0, 3), (10, 4)], last := 2 } from rfl, this 256299]
    rfl
  have h : chipRead Demo.slow 256300 [0x1d, 0x08] 3 {} =
      ([2, 2, 3], { wire := [0x1d, 0x08, 0, 0, 0], flight := [(10, 4)], last := 3 }) := by
    simp only [chipRead, writeSpi, readSpi, e1, e2, e3, e4, e5]
  rw [h]
  exact ⟨rfl, fun hc => by cases hc.1⟩

end WlSpi
end LDL
