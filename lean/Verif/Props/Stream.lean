import Verif.Lemmas.Stream

/-!
# C01, C02: byte streams
-/

namespace LDL
open LDL.Stream

/-- A client that only seeks forward (the library itself never uses a negative relative seek). -/
def ForwardOnly (op : Stream.Op) : Prop := ∀ n, op = .seekCur n → 0 ≤ n

/-- What "stays in bounds" means for a stream over the buffer `buf` of which `size` bytes may be
used: cursor inside, no access outside the buffer so far, and the part of the buffer behind `size`
(and the buffer's length) untouched. -/
structure InBounds (buf : Bytes) (size : Nat) (s : Stream) : Prop where
  size_eq : s.size = size
  pos_le : s.pos ≤ size
  noFault : s.fault = false
  len : s.mem.length = buf.length
  tail : s.mem.drop size = buf.drop size

theorem InBounds.write {buf : Bytes} {size : Nat} {s : Stream} (h : InBounds buf size s)
    (hb : size ≤ buf.length) (h8 : size ≤ 255) (bs : Bytes) : InBounds buf size (s.write bs).2 := by
  obtain ⟨h1, h2, h3, h4, h5⟩ := h
  by_cases hw : s.writable = true
  · by_cases he : s.error = true
    · rw [write_error he]; exact ⟨h1, h2, h3, h4, h5⟩
    have he : s.error = false := by simpa using he
    by_cases hs : s.pos + bs.length ≤ s.size
    · rw [write_ok hw he hs (by omega) (by omega)]
      refine ⟨h1, by dsimp only; omega, h3, by simp; omega, ?_⟩
      rw [← h5]
      have : (List.take s.pos s.mem ++ bs).length = s.pos + bs.length := by simp; omega
      rw [List.drop_append, this, List.drop_of_length_le (by omega), List.drop_drop,
        List.nil_append]
      congr 1; omega
    · rw [write_fail hw he (by omega)]; exact ⟨h1, h2, h3, h4, h5⟩
  · simp only [Stream.write, hw]; exact ⟨h1, h2, h3, h4, h5⟩

theorem InBounds.read {buf : Bytes} {size : Nat} {s : Stream} (h : InBounds buf size s)
    (hb : size ≤ buf.length) (h8 : size ≤ 255) (n : Nat) : InBounds buf size (s.read n).2 := by
  obtain ⟨h1, h2, h3, h4, h5⟩ := h
  by_cases he : s.error = true
  · simp only [Stream.read, he]; exact ⟨h1, h2, h3, h4, h5⟩
  have he : s.error = false := by simpa using he
  by_cases hs : s.pos + n ≤ s.size
  · rw [read_ok he hs (by omega) (by omega)]
    exact ⟨h1, by dsimp only; omega, h3, h4, h5⟩
  · simp only [Stream.read, he, hs]; exact ⟨h1, h2, h3, h4, h5⟩

theorem InBounds.step {buf : Bytes} {size : Nat} {s : Stream} (h : InBounds buf size s)
    (hb : size ≤ buf.length) (h8 : size ≤ 255) (op : Stream.Op) (hop : ForwardOnly op) :
    InBounds buf size (s.step op) := by
  cases op with
  | read n => exact h.read hb h8 n
  | write bs => exact h.write hb h8 bs
  | peek =>
    obtain ⟨h1, h2, h3, h4, h5⟩ := h
    simp only [Stream.step, peek]
    by_cases hr : 0 < s.remaining
    · rw [if_pos hr]
      simp only [remaining, u8] at hr
      refine ⟨h1, h2, ?_, h4, h5⟩
      simp only [h3, Bool.false_or, decide_eq_false_iff_not]
      omega
    · rw [if_neg hr]; exact ⟨h1, h2, h3, h4, h5⟩
  | seekSet n =>
    obtain ⟨h1, h2, h3, h4, h5⟩ := h
    simp only [Stream.step, seekSet]
    split
    · exact ⟨h1, by dsimp only; omega, h3, h4, h5⟩
    · exact ⟨h1, h2, h3, h4, h5⟩
  | seekCur n =>
    have hn := hop n rfl
    obtain ⟨h1, h2, h3, h4, h5⟩ := h
    simp only [Stream.step, seekCur, hn, if_true, u8]
    split
    · exact ⟨h1, by dsimp only; omega, h3, h4, h5⟩
    · exact ⟨h1, h2, h3, h4, h5⟩
  | rewind =>
    obtain ⟨h1, h2, h3, h4, h5⟩ := h
    exact ⟨h1, Nat.zero_le _, h3, h4, h5⟩
  | putU8 v => exact h.write hb h8 _
  | putU16 v => exact h.write hb h8 _
  | putU24 v => exact h.write hb h8 _
  | putU32 v => exact h.write hb h8 _
  | putEUI v => exact h.write hb h8 _
  | getU8 => simp only [Stream.step, getU8_stream]; exact h.read hb h8 _
  | getU16 => simp only [Stream.step, getU16_stream]; exact h.read hb h8 _
  | getU24 => simp only [Stream.step, getU24_stream]; exact h.read hb h8 _
  | getU32 => simp only [Stream.step, getU32_stream]; exact h.read hb h8 _
  | getEUI => simp only [Stream.step, getEUI_stream]; exact h.read hb h8 _

/-- **C01** (bounds), partial: for every buffer, every usable size up to the 8-bit limit, writable or
read-only, and every sequence of operations without a negative relative seek, the stream stays in
bounds.  Missing: negative relative seeks, for which the claim is false (see
`c01_negative_seek_escapes`). -/
theorem c01_stream_in_bounds_partial (buf : Bytes) (size : Nat) (hb : size ≤ buf.length)
    (h8 : size ≤ 255) (ops : List Stream.Op) (hops : ∀ op ∈ ops, ForwardOnly op) :
    InBounds buf size ((Stream.init buf size).run ops) ∧
    InBounds buf size ((Stream.initReadOnly buf size).run ops) := by
  have key : ∀ (ops : List Stream.Op) (s : Stream), (∀ op ∈ ops, ForwardOnly op) →
      InBounds buf size s → InBounds buf size (s.run ops) := by
    intro ops
    induction ops with
    | nil => intro s _ h; exact h
    | cons op ops ih =>
      intro s hf h
      exact ih (s.step op) (fun o ho => hf o (List.mem_cons_of_mem _ ho))
        (h.step hb h8 op (hf op List.mem_cons_self))
  exact ⟨key ops _ hops ⟨rfl, Nat.zero_le _, rfl, rfl, rfl⟩,
    key ops _ hops ⟨rfl, Nat.zero_le _, rfl, rfl, rfl⟩⟩

/-- The hypotheses of `c01_stream_in_bounds_partial` are met by a non-trivial run that writes, seeks,
reads and fails: the write of four bytes at the end is refused and the error is latched. -/
example : ∃ ops : List Stream.Op, (∀ op ∈ ops, ForwardOnly op) ∧ ops.length = 6 ∧
    ((Stream.init (List.replicate 5 0) 4).run ops).error = true ∧
    ((Stream.init (List.replicate 5 0) 4).run ops).mem = [0x34, 0x12, 0, 7, 0] := by
  refine ⟨[.putU16 0x1234, .seekCur 1, .putU8 7, .rewind, .getU8, .putU32 1], ?_, rfl, rfl, rfl⟩
  intro op hop n hn
  simp at hop
  rcases hop with h | h | h | h | h | h <;> subst h <;> simp_all <;> omega

/-- **C01** (bounds), negation: after the single operation `LDL_Stream_seekCur(s, -10)` at offset 250
the cursor is at 4 instead of 240, and with size 20 at offset 15 it is at 25, outside the stream, and
the following `LDL_Stream_peek` reads outside the buffer. -/
theorem c01_negative_seek_escapes :
    ∃ (buf : Bytes) (size : Nat) (ops : List Stream.Op), size = buf.length ∧ size ≤ 255 ∧
      ((Stream.init buf size).run ops).error = false ∧
      size < ((Stream.init buf size).run ops).pos ∧
      ((Stream.init buf size).run (ops ++ [.peek])).fault = true :=
  ⟨List.replicate 20 0, 20, [.seekSet 15, .seekCur (-10)], by decide⟩

/-- **C01** (error latch): once the error flag is set it stays set, and no later operation, including
negative seeks, changes the buffer. -/
theorem c01_error_is_sticky (s : Stream) (he : s.error = true) (ops : List Stream.Op) :
    (s.run ops).error = true ∧ (s.run ops).mem = s.mem := by
  induction ops generalizing s with
  | nil => exact ⟨he, rfl⟩
  | cons op ops ih =>
    have h : (s.step op).error = true ∧ (s.step op).mem = s.mem := by
      have hr : ∀ n, (s.read n).2 = s := by intro n; simp [Stream.read, he]
      cases op <;> simp only [Stream.step, putU8, putU16, putU24, putU32, putEUI, write_error he,
        getU8_stream, getU16_stream, getU24_stream, getU32_stream, getEUI_stream, hr, he,
        and_self, peek, seekSet, seekCur, Stream.rewind]
      all_goals (repeat' split) <;> simp [he]
    have := ih (s.step op) h.1
    simp only [run, List.foldl_cons] at this ⊢
    exact ⟨this.1, this.2.trans h.2⟩

/-- **C01** (error latch): reads and writes report failure exactly when the error flag is set
afterwards, for a writable stream. -/
theorem c01_failure_is_reported (s : Stream) (hw : s.writable = true) (bs : Bytes) (n : Nat) :
    ((s.write bs).1 = false ↔ (s.write bs).2.error = true) ∧
    ((s.read n).1 = none ↔ (s.read n).2.error = true) := by
  simp only [Stream.write, Stream.read, hw, if_true]
  cases he : s.error
  · simp; constructor <;> split <;> simp [he]
  · simp [he]

/-- **C01** (when operations fail): from a state without error, a write or read fails exactly when it
would pass the end of the stream. -/
theorem c01_fails_iff_past_end (s : Stream) (hw : s.writable = true) (he : s.error = false)
    (bs : Bytes) (n : Nat) :
    ((s.write bs).1 = true ↔ s.pos + bs.length ≤ s.size) ∧
    ((s.read n).1.isSome = true ↔ s.pos + n ≤ s.size) := by
  simp only [Stream.write, Stream.read, hw, he]
  constructor <;> simp <;> split <;> simp <;> omega

/-- **C01** (read-only streams): no sequence of operations changes the buffer of a stream opened
read-only. -/
theorem c01_read_only (buf : Bytes) (size : Nat) (ops : List Stream.Op) :
    ((Stream.initReadOnly buf size).run ops).mem = buf := by
  have key : ∀ (ops : List Stream.Op) (s : Stream), s.writable = false →
      (s.run ops).mem = s.mem := by
    intro ops
    induction ops with
    | nil => intro s _; rfl
    | cons op ops ih =>
      intro s hw
      have h : (s.step op).writable = false ∧ (s.step op).mem = s.mem := by
        have hwr : ∀ bs, (s.write bs).2 = s := by intro bs; simp [Stream.write, hw]
        have hr : ∀ n, (s.read n).2.writable = false ∧ (s.read n).2.mem = s.mem := by
          intro n; simp only [Stream.read]; repeat' split
          all_goals simp [hw]
        cases op <;> simp only [Stream.step, putU8, putU16, putU24, putU32, putEUI, hwr,
          getU8_stream, getU16_stream, getU24_stream, getU32_stream, getEUI_stream, hr, hw,
          and_self, peek, seekSet, seekCur, Stream.rewind]
        all_goals (repeat' split) <;> simp [hw]
      have := ih (s.step op) h.1
      simp only [run, List.foldl_cons] at this ⊢
      exact this.trans h.2
  exact key ops _ rfl

/-! ## C02 -/

/-- A writable stream in good state with room for `n` more bytes. -/
structure Room (s : Stream) (n : Nat) : Prop where
  writable : s.writable = true
  noError : s.error = false
  room : s.pos + n ≤ s.size
  mem : s.size ≤ s.mem.length
  size8 : s.size ≤ 255

/-- What a field of `n` bytes written at the cursor of `s` must achieve: the operation succeeds, the
cursor advances by `n`, the field on the wire is `field`, every other byte of the buffer is as
before. -/
structure FieldWritten (s : Stream) (field : Bytes) (r : Bool × Stream) : Prop where
  ok : r.1 = true
  noError : r.2.error = false
  pos : r.2.pos = s.pos + field.length
  wire : (r.2.mem.drop s.pos).take field.length = field
  others : ∀ i, i < s.pos ∨ s.pos + field.length ≤ i → r.2.mem[i]? = s.mem[i]?

theorem field_written (s : Stream) (bs : Bytes) (h : Room s bs.length) :
    FieldWritten s bs (s.write bs) := by
  obtain ⟨h1, h2, h3, h4, h5⟩ := h
  rw [write_ok h1 h2 h3 h4 h5]
  have hl : (List.take s.pos s.mem).length = s.pos := by simp; omega
  refine ⟨rfl, h2, rfl, ?_, ?_⟩
  · simp only [List.append_assoc]
    rw [List.drop_append, List.drop_of_length_le (by omega), hl]
    simp
  · intro i hi
    simp only [List.append_assoc, List.getElem?_append, hl, List.getElem?_drop, List.getElem?_take]
    rcases hi with hi | hi
    · simp [hi]
    · rw [if_neg (by omega), if_neg (by omega)]
      congr 1; omega

/-- Going back and reading what was written. -/
theorem reread (s : Stream) (bs : Bytes) (h : Room s bs.length) :
    (((s.write bs).2.seekSet s.pos).2.read bs.length).1 = some bs := by
  have fw := field_written s bs h
  obtain ⟨h1, h2, h3, h4, h5⟩ := h
  have hw := fw.wire
  rw [write_ok h1 h2 h3 h4 h5] at *
  have h6 : s.pos ≤ s.size := by omega
  simp only [seekSet, h6, if_true]
  refine (congrArg Prod.fst (read_ok ?_ ?_ ?_ ?_)).trans (congrArg some hw)
  · exact h2
  · exact h3
  · simp; omega
  · exact h5

open Spec in
/-- **C02**: each unsigned field is on the wire as its little-endian encoding. -/
theorem c02_fields_on_the_wire (s : Stream) (v : Nat) :
    (Room s 1 → FieldWritten s (le 1 v) (s.putU8 v)) ∧
    (Room s 2 → FieldWritten s (le 2 v) (s.putU16 v)) ∧
    (Room s 3 → FieldWritten s (le 3 v) (s.putU24 v)) ∧
    (Room s 4 → FieldWritten s (le 4 v) (s.putU32 v)) := by
  refine ⟨fun h => ?_, fun h => ?_, fun h => ?_, fun h => ?_⟩
  · exact field_written s _ h
  · rw [← bytes16_eq]; exact field_written s _ h
  · rw [← bytes24_eq]; exact field_written s _ h
  · rw [← bytes32_eq]; exact field_written s _ h

/-- **C02**: the specification's little-endian encoding of `v` denotes `v` modulo the width. -/
theorem c02_le_denotes (n v : Nat) : Spec.leValue (Spec.le n v) = v % 256 ^ n := leValue_le n v

theorem getU8_of_read {s : Stream} {v : Nat} (h : (s.read 1).1 = some (Spec.le 1 v)) :
    s.getU8.1 = some (v % 2 ^ 8) := by
  have e : s.read 1 = ((s.read 1).1, (s.read 1).2) := rfl
  simp only [getU8]; rw [e, h]; simp only [Spec.le]
  have := leValue_le 1 v
  simp only [Spec.leValue, Spec.le] at this
  congr 1 <;> omega

theorem getU16_of_read {s : Stream} {v : Nat} (h : (s.read 2).1 = some (Spec.le 2 v)) :
    s.getU16.1 = some (v % 2 ^ 16) := by
  have e : s.read 2 = ((s.read 2).1, (s.read 2).2) := rfl
  simp only [getU16]; rw [e, h]; simp only [Spec.le]
  have := leValue_le 2 v
  simp only [Spec.leValue, Spec.le] at this
  congr 1 <;> omega

theorem getU24_of_read {s : Stream} {v : Nat} (h : (s.read 3).1 = some (Spec.le 3 v)) :
    s.getU24.1 = some (v % 2 ^ 24) := by
  have e : s.read 3 = ((s.read 3).1, (s.read 3).2) := rfl
  simp only [getU24]; rw [e, h]; simp only [Spec.le]
  have := leValue_le 3 v
  simp only [Spec.leValue, Spec.le] at this
  congr 1 <;> omega

theorem getU32_of_read {s : Stream} {v : Nat} (h : (s.read 4).1 = some (Spec.le 4 v)) :
    s.getU32.1 = some (v % 2 ^ 32) := by
  have e : s.read 4 = ((s.read 4).1, (s.read 4).2) := rfl
  simp only [getU32]; rw [e, h]; simp only [Spec.le]
  have := leValue_le 4 v
  simp only [Spec.leValue, Spec.le] at this
  congr 1 <;> omega

/-- **C02**: reading a field where it was written returns the value modulo the field width. -/
theorem c02_round_trip (s : Stream) (v : Nat) :
    (Room s 1 → (((s.putU8 v).2.seekSet s.pos).2.getU8).1 = some (v % 2 ^ 8)) ∧
    (Room s 2 → (((s.putU16 v).2.seekSet s.pos).2.getU16).1 = some (v % 2 ^ 16)) ∧
    (Room s 3 → (((s.putU24 v).2.seekSet s.pos).2.getU24).1 = some (v % 2 ^ 24)) ∧
    (Room s 4 → (((s.putU32 v).2.seekSet s.pos).2.getU32).1 = some (v % 2 ^ 32)) := by
  refine ⟨fun h => ?_, fun h => ?_, fun h => ?_, fun h => ?_⟩
  · exact getU8_of_read (reread s (Spec.le 1 v) h)
  · apply getU16_of_read
    have := reread s (bytes16 v) h
    rw [show (bytes16 v).length = 2 from rfl] at this
    exact this.trans (congrArg some (bytes16_eq v))
  · apply getU24_of_read
    have := reread s (bytes24 v) h
    rw [show (bytes24 v).length = 3 from rfl] at this
    exact this.trans (congrArg some (bytes24_eq v))
  · apply getU32_of_read
    have := reread s (bytes32 v) h
    rw [show (bytes32 v).length = 4 from rfl] at this
    exact this.trans (congrArg some (bytes32_eq v))

theorem list8 {l : Bytes} (h : l.length = 8) :
    ∃ a b c d e f g i, l = [a, b, c, d, e, f, g, i] := by
  match l, h with
  | [a, b, c, d, e, f, g, i], _ => exact ⟨a, b, c, d, e, f, g, i, rfl⟩

/-- **C02**: an EUI is on the wire with its bytes reversed and round-trips. -/
theorem c02_eui (s : Stream) (eui : Bytes) (h8 : eui.length = 8) (h : Room s 8) :
    FieldWritten s eui.reverse (s.putEUI eui) ∧
    (((s.putEUI eui).2.seekSet s.pos).2.getEUI).1 = some eui := by
  obtain ⟨a, b, c, d, e, f, g, i, rfl⟩ := list8 h8
  refine ⟨field_written s [i, g, f, e, d, c, b, a] h, ?_⟩
  have := reread s [i, g, f, e, d, c, b, a] h
  simp only [putEUI, getEUI, List.getD_cons_zero, List.getD_cons_succ]
  simp only [List.length_cons, List.length_nil] at this
  generalize hx : (((s.write [i, g, f, e, d, c, b, a]).2.seekSet s.pos).2.read 8) = x at this ⊢
  obtain ⟨x1, x2⟩ := x
  simp only at this
  subst this
  rfl

/-- A concrete stream with room for four bytes in the middle of a buffer. -/
example : Room { mem := List.replicate 10 0xff, writable := true, size := 9, pos := 3, error := false,
                 fault := false } 4 := ⟨rfl, rfl, by decide, by decide, by decide⟩

/-- ... and the effect of writing there: wire order is least significant byte first. -/
example : (putU32 { mem := List.replicate 10 0xff, writable := true, size := 9, pos := 3,
                    error := false, fault := false } 0x12345678).2.mem
    = [0xff, 0xff, 0xff, 0x78, 0x56, 0x34, 0x12, 0xff, 0xff, 0xff] := by decide

end LDL
