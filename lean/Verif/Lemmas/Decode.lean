import Verif.Lemmas.Frame
import Mathlib.Tactic.IntervalCases

/-! Helper lemmas about the frame decoder. -/

namespace LDL
open LDL.Stream

namespace Stream

theorem getU8_ok {s : Stream} (he : s.error = false) (hs : s.pos + 1 ≤ s.size)
    (hm : s.size ≤ s.mem.length) (h8 : s.size ≤ 255) :
    s.getU8 = (some (Spec.leValue ((s.mem.drop s.pos).take 1)), { s with pos := s.pos + 1 }) := by
  have hl : ((s.mem.drop s.pos).take 1).length = 1 := by simp; omega
  simp only [getU8, read_ok he hs hm h8]
  match h : (s.mem.drop s.pos).take 1, hl with
  | [a], _ => simp [Spec.leValue]

theorem getU16_ok {s : Stream} (he : s.error = false) (hs : s.pos + 2 ≤ s.size)
    (hm : s.size ≤ s.mem.length) (h8 : s.size ≤ 255) :
    s.getU16 = (some (Spec.leValue ((s.mem.drop s.pos).take 2)), { s with pos := s.pos + 2 }) := by
  have hl : ((s.mem.drop s.pos).take 2).length = 2 := by simp; omega
  simp only [getU16, read_ok he hs hm h8]
  match h : (s.mem.drop s.pos).take 2, hl with
  | [a, b], _ => simp [Spec.leValue]

theorem getU24_ok {s : Stream} (he : s.error = false) (hs : s.pos + 3 ≤ s.size)
    (hm : s.size ≤ s.mem.length) (h8 : s.size ≤ 255) :
    s.getU24 = (some (Spec.leValue ((s.mem.drop s.pos).take 3)), { s with pos := s.pos + 3 }) := by
  have hl : ((s.mem.drop s.pos).take 3).length = 3 := by simp; omega
  simp only [getU24, read_ok he hs hm h8]
  match h : (s.mem.drop s.pos).take 3, hl with
  | [a, b, c], _ => simp [Spec.leValue]; omega

theorem getU32_ok {s : Stream} (he : s.error = false) (hs : s.pos + 4 ≤ s.size)
    (hm : s.size ≤ s.mem.length) (h8 : s.size ≤ 255) :
    s.getU32 = (some (Spec.leValue ((s.mem.drop s.pos).take 4)), { s with pos := s.pos + 4 }) := by
  have hl : ((s.mem.drop s.pos).take 4).length = 4 := by simp; omega
  simp only [getU32, read_ok he hs hm h8]
  match h : (s.mem.drop s.pos).take 4, hl with
  | [a, b, c, d], _ => simp [Spec.leValue]; omega

theorem read_fail {s : Stream} {n : Nat} (he : s.error = false) (hs : s.size < s.pos + n) :
    s.read n = (none, { s with error := true }) := by
  simp only [read, he, Bool.false_eq_true, if_false]
  rw [if_neg (by omega)]

theorem getU8_fail {s : Stream} (he : s.error = false) (hs : s.size < s.pos + 1) :
    s.getU8 = (none, { s with error := true }) := by
  simp only [getU8, read_fail he hs]

theorem getU32_fail {s : Stream} (he : s.error = false) (hs : s.size < s.pos + 4) :
    s.getU32 = (none, { s with error := true }) := by
  simp only [getU32, read_fail he hs]

theorem read_err {s : Stream} {n : Nat} (he : s.error = true) : s.read n = (none, s) := by
  simp only [read, he, if_true]

/-- Errors stay. -/
theorem err_read {s : Stream} {n : Nat} (he : s.error = true) : (s.read n).2.error = true := by
  rw [read_err he]; exact he

theorem remaining_eq {s : Stream} (h : s.pos ≤ s.size) (h8 : s.size ≤ 255) :
    s.remaining = s.size - s.pos := by
  simp only [remaining, u8]; omega

theorem seekCur_ok {s : Stream} {n : Nat} (hs : s.pos + n ≤ s.size) (h8 : s.size ≤ 255) :
    s.seekCur n = (true, { s with pos := s.pos + n }) := by
  have h1 : 0 ≤ (s.pos : Int) + n ∧ (s.pos : Int) + n ≤ s.size := by omega
  have h2 : (0 : Int) ≤ n := by omega
  simp only [seekCur, h1, and_self, if_true, h2, u8]
  congr 2
  omega

theorem seekCur_fail {s : Stream} {n : Nat} (hs : s.size < s.pos + n) :
    s.seekCur n = (false, s) := by
  simp only [seekCur]
  rw [if_neg (by omega)]

end Stream

namespace Frame

/-- The starting point of the type specific part of the decoder. -/
def afterTag (mem : Bytes) (n : Nat) : Stream :=
  { mem := mem, writable := false, size := n, pos := 1, error := false, fault := false }

theorem decodeS_tag (v11 : Bool) (mem : Bytes) (n : Nat) (h0 : 0 < n) (hm : n ≤ mem.length)
    (h8 : n ≤ 255) :
    decodeS v11 mem n =
      match getFrameType v11 (Spec.leValue (mem.take 1)) with
      | none => (none, afterTag mem n)
      | some type =>
        if type = JOIN_ACCEPT then decodeJoinAccept (afterTag mem n) { type := type }
        else if type = DATA_UNCONFIRMED_DOWN ∨ type = DATA_CONFIRMED_DOWN then
          decodeData (afterTag mem n) { type := type }
        else (none, afterTag mem n) := by
  simp only [decodeS]
  rw [getU8_ok (s := Stream.initReadOnly mem n) rfl (by simp [initReadOnly]; omega) hm h8]
  simp only [initReadOnly, List.drop_zero, afterTag, Nat.zero_add]
  rfl

/-- A data frame shorter than its fixed header is refused. -/
theorem decodeData_short (mem : Bytes) (n : Nat) (f : Down) (hm : n ≤ mem.length) (hn : n < 8)
    (h1 : 1 ≤ n) : (decodeData (afterTag mem n) f).1 = none := by
  have key : ∀ s : Stream, s.error = true → ∀ r, (r = s.getU32.2 ∨ r = s.getU8.2 ∨ r = s.getU16.2) → r.error = true := by
    intro s hs r hr
    have e : ∀ n, (s.read n) = (none, s) := fun n => read_err hs
    rcases hr with h | h | h <;> subst h <;> simp [getU32, getU8, getU16, e, hs]
  have hseek : ∀ (s : Stream) (k : Int), s.error = true → (s.seekCur k).2.error = true := by
    intro s k hs; simp only [seekCur]; repeat' split
    all_goals exact hs
  have main : ∀ s : Stream, s.error = true ∨
      (s.error = false ∧ s.size < s.pos + 7 ∧ s.size ≤ s.mem.length ∧ s.size ≤ 255) →
      (s.getU32.2.getU8.2.getU16.2).error = true := by
    intro s hs
    rcases hs with hs | ⟨he, hs, hm, h8⟩
    · exact key _ (key _ (key _ hs _ (Or.inl rfl)) _ (Or.inr (Or.inl rfl))) _ (Or.inr (Or.inr rfl))
    · by_cases h4 : s.pos + 4 ≤ s.size
      · rw [getU32_ok he h4 hm h8]
        by_cases h5 : s.pos + 5 ≤ s.size
        · rw [getU8_ok (s := { s with pos := s.pos + 4 }) he (by dsimp only; omega) hm h8]
          simp only [getU16]
          rw [read_fail (by exact he) (by dsimp only; omega)]
        · apply key _ ?_ _ (Or.inr (Or.inr rfl))
          rw [getU8_fail (by exact he) (by dsimp only; omega)]
      · rw [getU32_fail he (by omega)]
        exact key _ (key _ rfl _ (Or.inr (Or.inl rfl))) _ (Or.inr (Or.inr rfl))
  have herr := main (afterTag mem n) (Or.inr ⟨rfl, by simp [afterTag]; omega, hm, by simp [afterTag]; omega⟩)
  rcases h1 : (afterTag mem n).getU32 with ⟨x1, s1⟩
  rcases h2 : s1.getU8 with ⟨x2, s2⟩
  rcases h3 : s2.getU16 with ⟨x3, s3⟩
  simp only [h1, h2, h3] at herr
  simp only [decodeData, h1, h2, h3]
  have h4 := hseek s3 ((x2.getD 0 &&& 15 : Nat) : Int) herr
  generalize (s3.seekCur ((x2.getD 0 &&& 15 : Nat) : Int)).2 = s4 at h4
  by_cases hr : s4.remaining > 4
  · simp only [if_pos hr]
    have h5 := key s4 h4 _ (Or.inr (Or.inl rfl))
    rcases h6 : s4.getU8 with ⟨x5, s5⟩
    rw [h6] at h5
    have h7 := hseek s5 ((u8 (s5.remaining + 256 - 4) : Nat) : Int) h5
    generalize (s5.seekCur ((u8 (s5.remaining + 256 - 4) : Nat) : Int)).2 = s6 at h7
    have h8 := key s6 h7 _ (Or.inl rfl)
    simp [hasError, h8]
  · simp only [if_neg hr]
    have h8 := key s4 h4 _ (Or.inl rfl)
    simp [hasError, h8]

/-- `n` bytes at offset `i`. -/
def slice (mem : Bytes) (i n : Nat) : Bytes := (mem.drop i).take n

/-- Header part of a decoded data frame. -/
def hdrOf (mem : Bytes) (f : Down) : Down :=
  let c := Spec.leValue (slice mem 5 1)
  { f with
    devAddr := Spec.leValue (slice mem 1 4)
    adr := decide (c &&& 0x80 > 0)
    adrAckReq := decide (c &&& 0x40 > 0)
    ack := decide (c &&& 0x20 > 0)
    pending := decide (c &&& 0x10 > 0)
    optsLen := c &&& 0xf
    counter := Spec.leValue (slice mem 6 2)
    opts := if c &&& 0xf > 0 then some 8 else none }

/-- Rest of a decoded data frame of `n` bytes when the part behind the options starts at `p`. -/
def bodyOf (mem : Bytes) (n p : Nat) (f : Down) : Down :=
  if p + 4 < n then
    { f with
      dataPresent := true
      port := Spec.leValue (slice mem p 1)
      dataLen := n - p - 5
      data := if n - p - 5 = 0 then none else some (p + 1)
      mic := Spec.leValue (slice mem (n - 4) 4) }
  else { f with mic := Spec.leValue (slice mem (n - 4) 4) }

/-- Where the decoder continues after the options. -/
def afterOpts (mem : Bytes) (n : Nat) : Nat :=
  if 8 + (Spec.leValue (slice mem 5 1) &&& 0xf) ≤ n then 8 + (Spec.leValue (slice mem 5 1) &&& 0xf) else 8

theorem decodeData_header (mem : Bytes) (n : Nat) (f : Down) (hm : n ≤ mem.length) (hn : 8 ≤ n)
    (h8 : n ≤ 255) (p : Nat) (hp : p = afterOpts mem n) :
    (p + 4 ≤ n → decodeData (afterTag mem n) f =
      (let g := bodyOf mem n p (hdrOf mem f)
       if !(g.dataPresent && decide (g.optsLen > 0) && decide (g.port = 0)) then some g else none,
       { mem := mem, writable := false, size := n, pos := n, error := false, fault := false })) ∧
    (n < p + 4 → (decodeData (afterTag mem n) f).1 = none ∧
      (decodeData (afterTag mem n) f).2.fault = false) := by
  have h1 : (afterTag mem n).getU32 = (some (Spec.leValue (slice mem 1 4)),
      { afterTag mem n with pos := 5 }) := by
    rw [getU32_ok rfl (by simp [afterTag]; omega) hm h8]; rfl
  have h2 : ({ afterTag mem n with pos := 5 } : Stream).getU8 = (some (Spec.leValue (slice mem 5 1)),
      { afterTag mem n with pos := 6 }) := by
    rw [getU8_ok rfl (by simp [afterTag]; omega) hm h8]; rfl
  have h3 : ({ afterTag mem n with pos := 6 } : Stream).getU16 = (some (Spec.leValue (slice mem 6 2)),
      { afterTag mem n with pos := 8 }) := by
    rw [getU16_ok rfl (by simp [afterTag]; omega) hm h8]; rfl
  have h4 : (({ afterTag mem n with pos := 8 } : Stream).seekCur
      ((Spec.leValue (slice mem 5 1) &&& 0xf : Nat) : Int)).2 = { afterTag mem n with pos := p } := by
    rw [hp, afterOpts]
    split
    · rename_i h; rw [seekCur_ok (by exact h) h8]
    · rename_i h; rw [seekCur_fail (by simp only [afterTag]; omega)]
  have hpn : p ≤ n := by rw [hp, afterOpts]; split <;> omega
  have hr : ({ afterTag mem n with pos := p } : Stream).remaining = n - p :=
    remaining_eq hpn h8
  constructor
  · intro hp4
    by_cases hd : p + 4 < n
    · have h5 : ({ afterTag mem n with pos := p } : Stream).getU8 = (some (Spec.leValue (slice mem p 1)),
          { afterTag mem n with pos := p + 1 }) := by
        rw [getU8_ok rfl (by simp [afterTag]; omega) hm h8]; rfl
      have hr2 : ({ afterTag mem n with pos := p + 1 } : Stream).remaining = n - p - 1 := by
        rw [remaining_eq (by simp [afterTag]; omega) h8]; simp [afterTag]; omega
      have hu : u8 (n - p - 1 + 256 - 4) = n - p - 5 := by simp only [u8]; omega
      have h6 : ({ afterTag mem n with pos := p + 1 } : Stream).seekCur ((n - p - 5 : Nat) : Int) =
          (true, { afterTag mem n with pos := n - 4 }) := by
        rw [seekCur_ok (by simp [afterTag]; omega) h8]
        congr 2; dsimp only; omega
      have h7 : ({ afterTag mem n with pos := n - 4 } : Stream).getU32 =
          (some (Spec.leValue (slice mem (n - 4) 4)), { afterTag mem n with pos := n }) := by
        rw [getU32_ok rfl (by simp [afterTag]; omega) hm h8]
        congr 2; dsimp only; omega
      have hgt : n - p > 4 := by omega
      simp only [decodeData, h1, h2, h3, Option.getD_some, h4, hr, hgt, if_true, h5, hr2, hu, h6, h7,
        hasError, tell, bodyOf, hd, hdrOf]
      simp [afterTag]
    · have h7 : ({ afterTag mem n with pos := p } : Stream).getU32 =
          (some (Spec.leValue (slice mem (n - 4) 4)), { afterTag mem n with pos := n }) := by
        rw [getU32_ok rfl (by simp [afterTag]; omega) hm h8]
        have : p = n - 4 := by omega
        subst this
        congr 2; dsimp only; omega
      have hgt : ¬ n - p > 4 := by omega
      simp only [decodeData, h1, h2, h3, Option.getD_some, h4, hr, hgt, if_false, h7,
        hasError, tell, bodyOf, hd, hdrOf]
      simp [afterTag]
  · intro hlt
    have h7 : ({ afterTag mem n with pos := p } : Stream).getU32 =
        (none, { afterTag mem n with pos := p, error := true }) := by
      rw [getU32_fail rfl (by simp [afterTag]; omega)]
    have hgt : ¬ n - p > 4 := by omega
    simp only [decodeData, h1, h2, h3, Option.getD_some, h4, hr, hgt, if_false, h7, hasError]
    simp [afterTag]

/-- There are fewer than `m` bytes left, or there has been an error. -/
def Short (s : Stream) (m : Nat) : Prop :=
  s.error = true ∨ (s.error = false ∧ s.size < s.pos + m ∧ s.pos ≤ s.size ∧ s.size ≤ 255)

theorem Short.read {s : Stream} {k m : Nat} (h : Short s (k + m)) : Short (s.read k).2 m := by
  rcases h with h | ⟨he, h1, h2, h3⟩
  · left; exact err_read h
  · by_cases hk : s.pos + k ≤ s.size
    · right
      simp only [Stream.read, he, hk, if_true, u8]
      rw [if_neg (by simp)]
      refine ⟨rfl, ?_, ?_, h3⟩ <;> (dsimp only; omega)
    · left; rw [read_fail he (by omega)]

theorem Short.seek {s : Stream} (h : s.error = true) (k : Int) : (s.seekCur k).2.error = true := by
  simp only [seekCur]; repeat' split
  all_goals exact h

theorem Short.zero {s : Stream} (h : Short s 0) : s.error = true := by
  rcases h with h | ⟨_, h1, h2, _⟩
  · exact h
  · omega

theorem decodeJoinAccept_short (mem : Bytes) (n : Nat) (f : Down) (hn : n < 13)
    (h1 : 1 ≤ n) : (decodeJoinAccept (afterTag mem n) f).1 = none := by
  have s0 : Short (afterTag mem n) (3 + (3 + (4 + (1 + (1 + 0))))) :=
    Or.inr ⟨rfl, by simp [afterTag]; omega, by simpa [afterTag] using h1, by simp [afterTag]; omega⟩
  have s1 := s0.read; rw [← getU24_stream] at s1
  have s2 := s1.read; rw [← getU24_stream] at s2
  have s3 := s2.read; rw [← getU32_stream] at s3
  have s4 := s3.read; rw [← getU8_stream] at s4
  have s5 := s4.read; rw [← getU8_stream] at s5
  have herr := s5.zero
  rcases h1 : (afterTag mem n).getU24 with ⟨x1, t1⟩
  rcases h2 : t1.getU24 with ⟨x2, t2⟩
  rcases h3 : t2.getU32 with ⟨x3, t3⟩
  rcases h4 : t3.getU8 with ⟨x4, t4⟩
  rcases h5 : t4.getU8 with ⟨x5, t5⟩
  simp only [h1, h2, h3, h4, h5] at herr
  simp only [decodeJoinAccept, h1, h2, h3, h4, h5]
  have key : ∀ s : Stream, s.error = true → s.getU32.2.error = true := by
    intro s hs; rw [getU32_stream]; exact err_read hs
  by_cases hr : t5.remaining > 4
  · simp only [if_pos hr]
    have h7 := Short.seek herr 16
    generalize (t5.seekCur 16).2 = s6 at h7
    have h8 := key s6 h7
    simp [hasError, h8]
  · simp only [if_neg hr]
    have h8 := key t5 herr
    simp [hasError, h8]

/-- Fields of a decoded join accept. -/
def jaOf (mem : Bytes) (n : Nat) (f : Down) : Down :=
  let dl := Spec.leValue (slice mem 11 1)
  let rd := Spec.leValue (slice mem 12 1)
  { f with
    joinNonce := Spec.leValue (slice mem 1 3)
    netID := Spec.leValue (slice mem 4 3)
    devAddr := Spec.leValue (slice mem 7 4)
    optNeg := decide (dl &&& 0x80 ≠ 0)
    rx1DataRateOffset := (dl >>> 4) &&& 0x7
    rx2DataRate := dl &&& 0xf
    rxDelay := if rd = 0 then 1 else rd
    cfList := if n = 33 then some 13 else f.cfList
    cfListLen := if n = 33 then 16 else f.cfListLen
    mic := Spec.leValue (slice mem (n - 4) 4) }

theorem decodeJoinAccept_eq (mem : Bytes) (n : Nat) (f : Down) (hm : n ≤ mem.length) (hn : 13 ≤ n)
    (h8 : n ≤ 255) :
    (decodeJoinAccept (afterTag mem n) f).1 =
      (if n = 17 ∨ n = 33 then some (jaOf mem n f) else none) ∧
    (decodeJoinAccept (afterTag mem n) f).2.fault = false := by
  have h1 : (afterTag mem n).getU24 = (some (Spec.leValue (slice mem 1 3)),
      { afterTag mem n with pos := 4 }) := by
    rw [getU24_ok rfl (by simp [afterTag]; omega) hm h8]; rfl
  have h2 : ({ afterTag mem n with pos := 4 } : Stream).getU24 = (some (Spec.leValue (slice mem 4 3)),
      { afterTag mem n with pos := 7 }) := by
    rw [getU24_ok rfl (by simp [afterTag]; omega) hm h8]; rfl
  have h3 : ({ afterTag mem n with pos := 7 } : Stream).getU32 = (some (Spec.leValue (slice mem 7 4)),
      { afterTag mem n with pos := 11 }) := by
    rw [getU32_ok rfl (by simp [afterTag]; omega) hm h8]; rfl
  have h4 : ({ afterTag mem n with pos := 11 } : Stream).getU8 = (some (Spec.leValue (slice mem 11 1)),
      { afterTag mem n with pos := 12 }) := by
    rw [getU8_ok rfl (by simp [afterTag]; omega) hm h8]; rfl
  have h5 : ({ afterTag mem n with pos := 12 } : Stream).getU8 = (some (Spec.leValue (slice mem 12 1)),
      { afterTag mem n with pos := 13 }) := by
    rw [getU8_ok rfl (by simp [afterTag]; omega) hm h8]; rfl
  have hr : ∀ p, p ≤ n → ({ afterTag mem n with pos := p } : Stream).remaining = n - p := fun p hp =>
    remaining_eq hp h8
  have hr13 := hr 13 hn
  have hget : ∀ p, p + 4 ≤ n → ({ afterTag mem n with pos := p } : Stream).getU32 =
      (some (Spec.leValue (slice mem p 4)), { afterTag mem n with pos := p + 4 }) := by
    intro p hp; rw [getU32_ok rfl (by simp [afterTag]; omega) hm h8]; rfl
  have hnot : ∀ p, n < p + 4 → ({ afterTag mem n with pos := p } : Stream).getU32 =
      (none, { afterTag mem n with pos := p, error := true }) := by
    intro p hp; rw [getU32_fail rfl (by simp [afterTag]; omega)]
  by_cases hbig : n - 13 > 4
  · by_cases hseek : 29 ≤ n
    · have h6 : ({ afterTag mem n with pos := 13 } : Stream).seekCur 16 =
          (true, { afterTag mem n with pos := 29 }) := by
        exact seekCur_ok (n := 16) (by simp [afterTag]; omega) h8
      by_cases h33 : 33 ≤ n
      · have h7 := hget 29 (by omega)
        have hr33 := hr 33 h33
        simp only [decodeJoinAccept, h1, h2, h3, h4, h5, hr13, hbig, if_true, h6, h7, hr33, hasError]
        by_cases he : n = 33
        · subst he; simp [jaOf, afterTag, tell]
        · have : n - 33 ≠ 0 := by omega
          have : n ≠ 17 := by omega
          simp [afterTag, *]
      · have h7 := hnot 29 (by omega)
        have : n ≠ 33 := by omega
        have : n ≠ 17 := by omega
        simp only [decodeJoinAccept, h1, h2, h3, h4, h5, hr13, hbig, if_true, h6, h7, hasError]
        simp [afterTag, *]
    · have h6 : ({ afterTag mem n with pos := 13 } : Stream).seekCur 16 =
          (false, { afterTag mem n with pos := 13 }) := by
        exact seekCur_fail (n := 16) (by simp [afterTag]; omega)
      have h7 := hget 13 (by omega)
      have hr17 := hr 17 (by omega)
      have : n ≠ 33 := by omega
      have : n ≠ 17 := by omega
      have : n - 17 ≠ 0 := by omega
      simp only [decodeJoinAccept, h1, h2, h3, h4, h5, hr13, hbig, if_true, h6, h7, hr17, hasError]
      simp [afterTag, *]
  · by_cases h17 : n = 17
    · have h7 := hget 13 (by omega)
      have hr17 := hr 17 (by omega)
      simp only [decodeJoinAccept, h1, h2, h3, h4, h5, hr13, hbig, if_false, h7, hr17, hasError]
      subst h17; simp [jaOf, afterTag]
    · have h7 := hnot 13 (by omega)
      have : n ≠ 33 := by omega
      simp only [decodeJoinAccept, h1, h2, h3, h4, h5, hr13, hbig, if_false, h7, hasError]
      simp [afterTag, *]

/-- Cursor inside, no fault so far. -/
structure Safe (s : Stream) : Prop where
  pos : s.pos ≤ s.size
  fault : s.fault = false
  mem : s.size ≤ s.mem.length
  size8 : s.size ≤ 255

theorem Safe.read {s : Stream} (h : Safe s) (k : Nat) : Safe (s.read k).2 := by
  obtain ⟨h1, h2, h3, h4⟩ := h
  cases he : s.error with
  | true => rw [read_err he]; exact ⟨h1, h2, h3, h4⟩
  | false =>
    by_cases hk : s.pos + k ≤ s.size
    · rw [read_ok he hk h3 h4]; exact ⟨hk, h2, h3, h4⟩
    · rw [read_fail he (by omega)]; exact ⟨h1, h2, h3, h4⟩

theorem Safe.seek {s : Stream} (h : Safe s) (k : Nat) : Safe (s.seekCur k).2 := by
  obtain ⟨h1, h2, h3, h4⟩ := h
  by_cases hk : s.pos + k ≤ s.size
  · rw [seekCur_ok hk h4]; exact ⟨hk, h2, h3, h4⟩
  · rw [seekCur_fail (by omega)]; exact ⟨h1, h2, h3, h4⟩

theorem Safe.getU8 {s : Stream} (h : Safe s) : Safe s.getU8.2 := getU8_stream s ▸ h.read 1
theorem Safe.getU16 {s : Stream} (h : Safe s) : Safe s.getU16.2 := getU16_stream s ▸ h.read 2
theorem Safe.getU24 {s : Stream} (h : Safe s) : Safe s.getU24.2 := getU24_stream s ▸ h.read 3
theorem Safe.getU32 {s : Stream} (h : Safe s) : Safe s.getU32.2 := getU32_stream s ▸ h.read 4

theorem decodeData_safe {s : Stream} (h : Safe s) (f : Down) : Safe (decodeData s f).2 := by
  have a1 := h.getU32
  rcases h1 : s.getU32 with ⟨x1, s1⟩
  rw [h1] at a1
  have a2 := a1.getU8
  rcases h2 : s1.getU8 with ⟨x2, s2⟩
  rw [h2] at a2
  have a3 := a2.getU16
  rcases h3 : s2.getU16 with ⟨x3, s3⟩
  rw [h3] at a3
  have a4 := a3.seek (x2.getD 0 &&& 15)
  simp only [decodeData, h1, h2, h3]
  generalize (s3.seekCur ((x2.getD 0 &&& 15 : Nat) : Int)).2 = s4 at a4
  by_cases hr : s4.remaining > 4
  · simp only [if_pos hr]
    exact (a4.getU8.seek _).getU32
  · simp only [if_neg hr]
    exact a4.getU32

theorem decodeJoinAccept_safe {s : Stream} (h : Safe s) (f : Down) :
    Safe (decodeJoinAccept s f).2 := by
  have a5 := h.getU24.getU24.getU32.getU8.getU8
  simp only [decodeJoinAccept]
  by_cases hr : s.getU24.2.getU24.2.getU32.2.getU8.2.getU8.2.remaining > 4
  · simp only [if_pos hr]
    exact (a5.seek 16).getU32
  · simp only [if_neg hr]
    exact a5.getU32

end Frame
end LDL
