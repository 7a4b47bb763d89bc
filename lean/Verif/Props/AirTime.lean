import Verif.Model.Radio
import Verif.Spec.AirTime

/-!
# C40: air time
-/

namespace LDL

/-- The bandwidths and spreading factors of the regional data rates: 125 or 500 kHz, SF7 to SF12. -/
def LoraRate (bw : Bw) (sf : Nat) : Prop := bw ≠ .b250 ∧ 7 ≤ sf ∧ sf ≤ 12

theorem ceil_div (n d : Nat) (hd : 0 < d) :
    n / d + (if n % d ≠ 0 then 1 else 0) = (n + d - 1) / d := by
  have h := Nat.div_add_mod n d
  have hm := Nat.mod_lt n hd
  symm
  by_cases h0 : n % d = 0
  · rw [if_neg (by omega)]
    apply Nat.div_eq_of_lt_le
    · rw [Nat.add_zero, Nat.mul_comm]; omega
    · rw [Nat.add_zero, Nat.mul_comm, Nat.mul_add]; omega
  · rw [if_pos h0]
    apply Nat.div_eq_of_lt_le
    · rw [Nat.mul_comm, Nat.mul_add]; omega
    · rw [Nat.mul_comm, Nat.mul_add, Nat.mul_add]; omega

/-- The computed value without wrap around: the implicit header formula, in whole milliseconds plus one. -/
theorem getAirTime_eq (bw : Bw) (sf size : Nat) (crc : Bool) (h : LoraRate bw sf)
    (h12 : 12 ≤ size) (hs : size ≤ 255) :
    getAirTime bw sf size crc =
      (Spec.quarterSymbols (bwToNumber bw) sf size crc true * (2 ^ sf * 1000000 / bwToNumber bw / 4)) / 1000 + 1 := by
  obtain ⟨hb, h7, h13⟩ := h
  have hsf : sf = 7 ∨ sf = 8 ∨ sf = 9 ∨ sf = 10 ∨ sf = 11 ∨ sf = 12 := by omega
  have hnum : sub32 (u32 (sub32 (8 * size) (4 * sf) + 28 + (if crc then 16 else 0))) 20 =
      (8 * size + 28 + (if crc then 16 else 0)) - (4 * sf + 20) := by
    cases crc <;> simp only [sub32, u32] <;> simp only [Bool.false_eq_true, if_false, if_true] <;> omega
  have hde : (decide (bw = .b125 ∧ (sf = 11 ∨ sf = 12))) = Spec.lowDataRate (bwToNumber bw) sf := by
    cases bw <;> first | exact absurd rfl hb | rcases hsf with rfl | rfl | rfl | rfl | rfl | rfl <;> decide
  unfold getAirTime Spec.quarterSymbols Spec.payloadSymbols
  simp only [hnum, hde]
  generalize hx : (8 * size + 28 + (if crc then 16 else 0)) - (4 * sf + 20) = bits
  have hbits : bits ≤ 2100 := by cases crc <;> simp at hx <;> omega
  cases bw <;> first | exact absurd rfl hb | skip
  all_goals
    rcases hsf with rfl | rfl | rfl | rfl | rfl | rfl <;>
    rw [ceil_div _ _ (by decide)] <;>
    simp only [Spec.lowDataRate, bwToNumber, u32, if_true, hx] <;>
    simp only [Nat.reducePow, Nat.reduceMul, Nat.reduceGT, decide_true, decide_false, if_true, if_false,
      Bool.false_eq_true, Nat.reduceSub, Nat.reduceDiv, Nat.reduceShiftLeft, Nat.reduceMod, Nat.reduceAdd] <;>
    omega

/-- **C40**, in part: the value computed is the formula value *for a packet with implicit header*, in milliseconds
plus at most one.  Frames of 12 bytes (the shortest data frame) and more.  LoRaWAN uses explicit headers, see
`c40_too_short`. -/
theorem c40_implicit_header_partial (bw : Bw) (sf size : Nat) (crc : Bool) (h : LoraRate bw sf)
    (h12 : 12 ≤ size) (hs : size ≤ 255) :
    Spec.AirTimeAtMost (bwToNumber bw) sf size crc true (getAirTime bw sf size crc * 1000) ∧
    ¬ Spec.AirTimeAtMost (bwToNumber bw) sf size crc true (getAirTime bw sf size crc * 1000 - 1001) := by
  rw [getAirTime_eq bw sf size crc h h12 hs]
  unfold Spec.AirTimeAtMost
  obtain ⟨hb, h7, h13⟩ := h
  have hsf : sf = 7 ∨ sf = 8 ∨ sf = 9 ∨ sf = 10 ∨ sf = 11 ∨ sf = 12 := by omega
  have hq : 81 ≤ Spec.quarterSymbols (bwToNumber bw) sf size crc true := by
    simp only [Spec.quarterSymbols, Spec.payloadSymbols]; omega
  generalize Spec.quarterSymbols (bwToNumber bw) sf size crc true = q at *
  cases bw <;> first | exact absurd rfl hb | skip
  all_goals
    rcases hsf with rfl | rfl | rfl | rfl | rfl | rfl <;>
    simp only [bwToNumber, Nat.reducePow, Nat.reduceMul, Nat.reduceDiv] <;> omega

/-- **C40**, in part: the error made is at most one block of five symbols, i.e. the air time of the packet as it is
sent (explicit header) is at most the value computed plus five symbols. -/
theorem c40_error_bound_partial (bw : Bw) (sf size : Nat) (crc : Bool) (h : LoraRate bw sf)
    (h12 : 12 ≤ size) (hs : size ≤ 255) :
    Spec.quarterSymbols (bwToNumber bw) sf size crc false * 2 ^ sf * 1000000 ≤
      getAirTime bw sf size crc * 1000 * (4 * bwToNumber bw) + 20 * 2 ^ sf * 1000000 := by
  have h1 := (c40_implicit_header_partial bw sf size crc h h12 hs).1
  unfold Spec.AirTimeAtMost at h1
  obtain ⟨hb, h7, h13⟩ := h
  have hsf : sf = 7 ∨ sf = 8 ∨ sf = 9 ∨ sf = 10 ∨ sf = 11 ∨ sf = 12 := by omega
  have hd : ∀ d n, 20 ≤ d → (n + d - 1) / d ≤ (n - 20 + d - 1) / d + 1 := by
    intro d n hd
    rw [← Nat.add_div_right _ (by omega)]
    exact Nat.div_le_div_right (by omega)
  have hq : Spec.quarterSymbols (bwToNumber bw) sf size crc false ≤
      Spec.quarterSymbols (bwToNumber bw) sf size crc true + 20 := by
    unfold Spec.quarterSymbols Spec.payloadSymbols
    simp only [Bool.false_eq_true, if_false, if_true, Nat.add_zero]
    generalize hp : 4 * (sf - (if Spec.lowDataRate (bwToNumber bw) sf = true then 2 else 0)) = d
    have hd20 : 20 ≤ d := by split at hp <;> omega
    have := hd d (8 * size + 28 + (if crc = true then 16 else 0) - 4 * sf) hd20
    rw [Nat.sub_sub] at this
    omega
  have h2 := Nat.mul_le_mul_right 1000000 (Nat.mul_le_mul_right (2 ^ sf) hq)
  rw [Nat.add_mul, Nat.add_mul] at h2
  exact Nat.le_trans h2 (Nat.add_le_add_right h1 _)

/-- C40 is false: a join request (23 bytes) at SF7/125 kHz takes 61.696 ms on air; the computed value, which is
charged to the duty cycle, is 57 ms. -/
theorem c40_too_short : getAirTime .b125 7 23 true = 57 ∧
    ¬ Spec.AirTimeAtMost 125000 7 23 true false 57000 ∧
    Spec.AirTimeAtMost 125000 7 23 true false 61696 ∧ ¬ Spec.AirTimeAtMost 125000 7 23 true false 61695 := by
  unfold Spec.AirTimeAtMost; decide +kernel

/-- Longer frames last longer (or as long), for every rate: charging never favours a longer frame. -/
theorem c40_monotone (bw : Bw) (sf a b : Nat) (crc : Bool) (h : LoraRate bw sf) (ha : 12 ≤ a) (hab : a ≤ b)
    (hb : b ≤ 255) : getAirTime bw sf a crc ≤ getAirTime bw sf b crc := by
  rw [getAirTime_eq bw sf a crc h ha (by omega), getAirTime_eq bw sf b crc h (by omega) hb]
  have hq : Spec.quarterSymbols (bwToNumber bw) sf a crc true ≤
      Spec.quarterSymbols (bwToNumber bw) sf b crc true := by
    unfold Spec.quarterSymbols Spec.payloadSymbols
    simp only [if_true]
    generalize 4 * (sf - (if Spec.lowDataRate (bwToNumber bw) sf = true then 2 else 0)) = d
    generalize (if crc = true then 16 else 0) = x
    have := Nat.div_le_div_right (c := d) (show 8 * a + 28 + x - (4 * sf + 20) + d - 1 ≤
      8 * b + 28 + x - (4 * sf + 20) + d - 1 by omega)
    omega
  have := Nat.div_le_div_right (c := 1000) (Nat.mul_le_mul_right (2 ^ sf * 1000000 / bwToNumber bw / 4) hq)
  omega

example : LoraRate .b125 12 ∧ LoraRate .b500 8 := by simp [LoraRate]

/-- The demodulation floor (data sheets of the SX1272 and SX1276, in hundredths of a dB): -7.5 dB at SF7, 2.5 dB lower for
each step. -/
theorem minimum_snr (sf : Nat) (h : 7 ≤ sf ∧ sf ≤ 12) : getMinSNR sf = -750 - 250 * ((sf : Int) - 7) := by
  have : sf = 7 ∨ sf = 8 ∨ sf = 9 ∨ sf = 10 ∨ sf = 11 ∨ sf = 12 := by omega
  rcases this with rfl | rfl | rfl | rfl | rfl | rfl <;> decide

end LDL
