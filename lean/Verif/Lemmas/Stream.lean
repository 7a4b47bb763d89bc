import Verif.Model.Stream
import Verif.Spec.Wire

/-! Helper lemmas about streams. -/

namespace LDL
namespace Stream

theorem bytes16_eq (v : Nat) : bytes16 v = Spec.le 2 v := by
  simp [bytes16, Spec.le, Nat.shiftRight_eq_div_pow]

theorem bytes24_eq (v : Nat) : bytes24 v = Spec.le 3 v := by
  simp [bytes24, Spec.le, Nat.shiftRight_eq_div_pow, Nat.div_div_eq_div_mul]

theorem bytes32_eq (v : Nat) : bytes32 v = Spec.le 4 v := by
  simp [bytes32, Spec.le, Nat.shiftRight_eq_div_pow, Nat.div_div_eq_div_mul]

theorem le_length (n v : Nat) : (Spec.le n v).length = n := by
  induction n generalizing v with
  | zero => rfl
  | succ n ih => simp [Spec.le, ih]

theorem leValue_le (n v : Nat) : Spec.leValue (Spec.le n v) = v % 256 ^ n := by
  induction n generalizing v with
  | zero => simp [Spec.le, Spec.leValue, Nat.mod_one]
  | succ n ih =>
    simp only [Spec.le, Spec.leValue, ih]
    rw [Nat.pow_succ', Nat.mod_mul]
    simp

theorem leValue_lt (bs : Bytes) : Spec.leValue bs < 256 ^ bs.length := by
  induction bs with
  | nil => simp [Spec.leValue]
  | cons b bs ih =>
    have := b.toNat_lt
    simp only [Spec.leValue, List.length_cons, Nat.pow_succ]
    omega

theorem le_leValue (bs : Bytes) : Spec.le bs.length (Spec.leValue bs) = bs := by
  induction bs with
  | nil => rfl
  | cons b bs ih =>
    have hb := b.toNat_lt
    simp only [Spec.leValue, List.length_cons, Spec.le]
    congr 1
    · apply UInt8.toNat_inj.mp
      simp
    · rw [show (b.toNat + 256 * Spec.leValue bs) / 256 = Spec.leValue bs by omega]
      exact ih

theorem le_inj {n a b : Nat} (ha : a < 256 ^ n) (hb : b < 256 ^ n)
    (h : Spec.le n a = Spec.le n b) : a = b := by
  have := congrArg Spec.leValue h
  rwa [leValue_le, leValue_le, Nat.mod_eq_of_lt ha, Nat.mod_eq_of_lt hb] at this

theorem le_mod (n v : Nat) : Spec.le n (v % 256 ^ n) = Spec.le n v := by
  have h := le_leValue (Spec.le n v)
  rwa [leValue_le, le_length] at h

/-- The state after a write that fits. -/
theorem write_ok {s : Stream} {bs : Bytes} (hw : s.writable = true) (he : s.error = false)
    (hs : s.pos + bs.length ≤ s.size) (hm : s.size ≤ s.mem.length) (h8 : s.size ≤ 255) :
    s.write bs = (true, { s with
      mem := s.mem.take s.pos ++ bs ++ s.mem.drop (s.pos + bs.length)
      pos := s.pos + bs.length }) := by
  have h1 : ¬ s.mem.length < s.pos + bs.length := by omega
  simp only [write, hw, he, hs, if_true, h1, decide_false, Bool.or_false, Bool.false_eq_true,
    if_false, u8]
  rw [Nat.mod_eq_of_lt (by omega)]

theorem write_error {s : Stream} {bs : Bytes} (he : s.error = true) : (s.write bs).2 = s := by
  simp only [write, he]; split <;> rfl

theorem write_fail {s : Stream} {bs : Bytes} (hw : s.writable = true) (he : s.error = false)
    (hs : s.size < s.pos + bs.length) : s.write bs = (false, { s with error := true }) := by
  simp only [write, hw, he, if_true, Bool.false_eq_true, if_false]
  rw [if_neg (by omega)]

/-- Writing a list of chunks one after the other. -/
def writes (s : Stream) (cs : List Bytes) : Stream := cs.foldl (fun s c => (s.write c).2) s

theorem writes_error {s : Stream} (he : s.error = true) (cs : List Bytes) : s.writes cs = s := by
  induction cs with
  | nil => rfl
  | cons c cs ih => simpa only [writes, List.foldl_cons, write_error he] using ih

/-- Writing chunks that fit is the same as writing their concatenation. -/
theorem writes_ok {s : Stream} (cs : List Bytes) (hw : s.writable = true) (he : s.error = false)
    (hs : s.pos + cs.flatten.length ≤ s.size) (hm : s.size ≤ s.mem.length) (h8 : s.size ≤ 255) :
    s.writes cs = { s with
      mem := s.mem.take s.pos ++ cs.flatten ++ s.mem.drop (s.pos + cs.flatten.length)
      pos := s.pos + cs.flatten.length } := by
  induction cs generalizing s with
  | nil => simp [writes]
  | cons c cs ih =>
    simp only [List.flatten_cons, List.length_append] at hs ⊢
    have h1 := write_ok (bs := c) hw he (by omega) hm h8
    have hl : (s.mem.take s.pos).length = s.pos := by simp; omega
    simp only [writes, List.foldl_cons, h1]
    have := ih (s := { s with
      mem := s.mem.take s.pos ++ c ++ s.mem.drop (s.pos + c.length)
      pos := s.pos + c.length }) hw he (by dsimp only; omega)
      (by simp; omega) h8
    simp only [writes] at this
    rw [this]
    congr 1
    · have e1 : (List.take s.pos s.mem ++ c ++ List.drop (s.pos + c.length) s.mem).take
          (s.pos + c.length) = List.take s.pos s.mem ++ c := by
        rw [List.take_append_of_le_length (by simp; omega)]
        rw [List.take_of_length_le (by simp; omega)]
      have e2 : (List.take s.pos s.mem ++ c ++ List.drop (s.pos + c.length) s.mem).drop
          (s.pos + c.length + cs.flatten.length)
          = s.mem.drop (s.pos + (c.length + cs.flatten.length)) := by
        rw [List.drop_append, List.drop_of_length_le (by simp; omega), List.nil_append,
          List.drop_drop]
        congr 1
        simp; omega
      rw [e1, e2]; simp
    · simp; omega

/-- If the chunks do not fit, the error flag is set. -/
theorem writes_fail {s : Stream} (cs : List Bytes) (hw : s.writable = true)
    (hs : s.size < s.pos + cs.flatten.length) (hp : s.pos ≤ s.size)
    (hm : s.size ≤ s.mem.length) (h8 : s.size ≤ 255) :
    (s.writes cs).error = true := by
  induction cs generalizing s with
  | nil => simp at hs; omega
  | cons c cs ih =>
    simp only [List.flatten_cons, List.length_append] at hs
    by_cases he : s.error = true
    · rw [writes_error he]; exact he
    have he : s.error = false := by simpa using he
    by_cases hc : s.pos + c.length ≤ s.size
    · have h1 := write_ok (bs := c) hw he hc hm h8
      simp only [writes, List.foldl_cons, h1]
      exact ih (s := { s with
        mem := s.mem.take s.pos ++ c ++ s.mem.drop (s.pos + c.length)
        pos := s.pos + c.length }) hw (by dsimp only; omega) (by dsimp only; omega) (by simp; omega) h8
    · have h1 := write_fail (bs := c) hw he (by omega)
      simp only [writes, List.foldl_cons, h1]
      have := writes_error (s := { s with error := true }) rfl cs
      simp only [writes] at this
      rw [this]

/-- The state after a read that fits. -/
theorem read_ok {s : Stream} {n : Nat} (he : s.error = false)
    (hs : s.pos + n ≤ s.size) (hm : s.size ≤ s.mem.length) (h8 : s.size ≤ 255) :
    s.read n = (some ((s.mem.drop s.pos).take n), { s with pos := s.pos + n }) := by
  have h1 : ¬ s.mem.length < s.pos + n := by omega
  simp only [read, he, hs, if_true, h1, decide_false, Bool.or_false, Bool.false_eq_true,
    if_false, u8]
  rw [Nat.mod_eq_of_lt (by omega)]

theorem getU8_stream (s : Stream) : s.getU8.2 = (s.read 1).2 := by
  unfold getU8; split <;> simp_all
theorem getU16_stream (s : Stream) : s.getU16.2 = (s.read 2).2 := by
  unfold getU16; split <;> simp_all
theorem getU24_stream (s : Stream) : s.getU24.2 = (s.read 3).2 := by
  unfold getU24; split <;> simp_all
theorem getU32_stream (s : Stream) : s.getU32.2 = (s.read 4).2 := by
  unfold getU32; split <;> simp_all
theorem getEUI_stream (s : Stream) : s.getEUI.2 = (s.read 8).2 := by
  unfold getEUI; split <;> simp_all

end Stream
end LDL
