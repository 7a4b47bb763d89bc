import Verif.Lemmas.Decode
import Verif.Spec.MacCommands

/-! Helper lemmas about the MAC command parser. -/

namespace LDL
open LDL.Stream

namespace Stream

/-- The stream is healthy and `xs` is what remains to be read. -/
structure At (s : Stream) (xs : Bytes) : Prop where
  he : s.error = false
  hp : s.pos ≤ s.size
  hm : s.size ≤ s.mem.length
  h8 : s.size ≤ 255
  hx : (s.mem.drop s.pos).take (s.size - s.pos) = xs
  hf : s.fault = false

theorem At.length {s : Stream} {xs : Bytes} (h : At s xs) : xs.length = s.size - s.pos := by
  have := h.hm; rw [← h.hx]; simp; omega

theorem at_init (xs : Bytes) (h8 : xs.length ≤ 255) : At (initReadOnly xs xs.length) xs := by
  refine ⟨rfl, by simp [initReadOnly], by simp [initReadOnly], by simpa [initReadOnly] using h8, ?_, rfl⟩
  simp [initReadOnly]

theorem At.read {s : Stream} {a xs : Bytes} (h : At s (a ++ xs)) :
    s.read a.length = (some a, { s with pos := s.pos + a.length }) ∧
    At { s with pos := s.pos + a.length } xs := by
  have hl := h.length
  rw [List.length_append] at hl
  have hx := h.hx
  have hp := h.hp
  have hm := h.hm
  refine ⟨?_, ⟨h.he, by dsimp only; omega, h.hm, h.h8, ?_, h.hf⟩⟩
  · rw [read_ok h.he (by omega) h.hm h.h8]
    congr 2
    have := congrArg (List.take a.length) hx
    rw [List.take_take, Nat.min_eq_left (by omega)] at this
    simpa using this
  · dsimp only
    have := congrArg (List.drop a.length) hx
    rw [List.drop_take, List.drop_drop] at this
    rw [show s.size - (s.pos + a.length) = s.size - s.pos - a.length by omega]
    simpa using this

theorem At.getU8 {s : Stream} {a : UInt8} {xs : Bytes} (h : At s (a :: xs)) :
    s.getU8 = (some a.toNat, { s with pos := s.pos + 1 }) ∧ At { s with pos := s.pos + 1 } xs := by
  obtain ⟨h1, h2⟩ := At.read (a := [a]) h
  exact ⟨by simp only [Stream.getU8]; simp only [List.length_singleton] at h1; rw [h1], h2⟩

theorem At.getU16 {s : Stream} {a b : UInt8} {xs : Bytes} (h : At s (a :: b :: xs)) :
    s.getU16 = (some (Spec.leValue [a, b]), { s with pos := s.pos + 2 }) ∧
    At { s with pos := s.pos + 2 } xs := by
  obtain ⟨h1, h2⟩ := At.read (a := [a, b]) h
  refine ⟨?_, h2⟩
  simp only [Stream.getU16]
  simp only [List.length_cons, List.length_nil] at h1
  rw [h1]; simp [Spec.leValue]

theorem At.getU24 {s : Stream} {a b c : UInt8} {xs : Bytes} (h : At s (a :: b :: c :: xs)) :
    s.getU24 = (some (Spec.leValue [a, b, c]), { s with pos := s.pos + 3 }) ∧
    At { s with pos := s.pos + 3 } xs := by
  obtain ⟨h1, h2⟩ := At.read (a := [a, b, c]) h
  refine ⟨?_, h2⟩
  simp only [Stream.getU24]
  simp only [List.length_cons, List.length_nil] at h1
  rw [h1]; simp [Spec.leValue]; omega

theorem At.getU32 {s : Stream} {a b c d : UInt8} {xs : Bytes} (h : At s (a :: b :: c :: d :: xs)) :
    s.getU32 = (some (Spec.leValue [a, b, c, d]), { s with pos := s.pos + 4 }) ∧
    At { s with pos := s.pos + 4 } xs := by
  obtain ⟨h1, h2⟩ := At.read (a := [a, b, c, d]) h
  refine ⟨?_, h2⟩
  simp only [Stream.getU32]
  simp only [List.length_cons, List.length_nil] at h1
  rw [h1]; simp [Spec.leValue]; omega

/-- Either still healthy, or failed; never a fault. -/
structure Ran (s : Stream) : Prop where
  hp : s.pos ≤ s.size
  hm : s.size ≤ s.mem.length
  h8 : s.size ≤ 255
  hf : s.fault = false

theorem At.ran {s : Stream} {xs : Bytes} (h : At s xs) : Ran s := ⟨h.hp, h.hm, h.h8, h.hf⟩

theorem Ran.at {s : Stream} (h : Ran s) (he : s.error = false) :
    At s ((s.mem.drop s.pos).take (s.size - s.pos)) := ⟨he, h.hp, h.hm, h.h8, rfl, h.hf⟩

theorem Ran.read {s : Stream} (h : Ran s) (n : Nat) :
    Ran (s.read n).2 ∧ (s.error = true → (s.read n).2.error = true) ∧
    ((s.read n).2.error = false → (s.read n).2.pos = s.pos + n ∧ (s.read n).2.size = s.size) := by
  by_cases he : s.error = true
  · rw [read_err he]; exact ⟨h, fun _ => he, fun h' => by simp [he] at h'⟩
  · have he : s.error = false := by simpa using he
    by_cases hs : s.pos + n ≤ s.size
    · rw [read_ok he hs h.hm h.h8]
      exact ⟨⟨hs, h.hm, h.h8, h.hf⟩, fun h' => by simp [he] at h', fun _ => ⟨rfl, rfl⟩⟩
    · rw [read_fail he (by omega)]
      exact ⟨⟨h.hp, h.hm, h.h8, h.hf⟩, fun _ => rfl, fun h' => by simp at h'⟩

end Stream

namespace MacCmd

/-- Payload length of each downlink command as read by the model. -/
def payloadLen : CmdType → Nat
  | .linkCheck => 2 | .linkADR => 4 | .dutyCycle => 1 | .rxParamSetup => 4 | .devStatus => 0
  | .newChannel => 5 | .rxTimingSetup => 1 | .txParamSetup => 1 | .dlChannel => 4 | .rekey => 1
  | .adrParamSetup => 1 | .deviceTime => 5 | .forceRejoin => 2 | .rejoinParamSetup => 1

/-- Whatever the outcome, reading the fields makes no access outside the buffer; and if it succeeds,
exactly the payload has been consumed. -/
theorem getFields_ran {s : Stream} (h : Ran s) (t : CmdType) :
    Ran (getFields s t).2 ∧ (s.error = true → (getFields s t).2.error = true) ∧
    ((getFields s t).2.error = false →
      (getFields s t).2.pos = s.pos + payloadLen t ∧ (getFields s t).2.size = s.size) := by
  have chain : ∀ {r : Stream} {a : Nat}, (Ran r ∧ (s.error = true → r.error = true) ∧
      (r.error = false → r.pos = s.pos + a ∧ r.size = s.size)) → ∀ b,
      (Ran (r.read b).2 ∧ (s.error = true → (r.read b).2.error = true) ∧
      ((r.read b).2.error = false → (r.read b).2.pos = s.pos + (a + b) ∧ (r.read b).2.size = s.size)) := by
    intro r a ⟨h1, h2, h3⟩ b
    obtain ⟨g1, g2, g3⟩ := h1.read b
    refine ⟨g1, fun he => g2 (h2 he), fun he => ?_⟩
    have : r.error = false := by
      cases hr : r.error
      · rfl
      · rw [g2 hr] at he; exact he
    obtain ⟨a1, a2⟩ := h3 this
    obtain ⟨b1, b2⟩ := g3 he
    exact ⟨by omega, by omega⟩
  have zero : Ran s ∧ (s.error = true → s.error = true) ∧
      (s.error = false → s.pos = s.pos + 0 ∧ s.size = s.size) :=
    ⟨h, id, fun _ => ⟨rfl, rfl⟩⟩
  cases t <;> simp only [getFields, getU8_stream, getU16_stream, getU24_stream, getU32_stream, payloadLen]
  case linkCheck => exact chain (chain zero 1) 1
  case linkADR => exact chain (chain (chain zero 1) 2) 1
  case dutyCycle => exact chain zero 1
  case rxParamSetup => exact chain (chain zero 1) 3
  case devStatus => simpa using zero
  case newChannel => exact chain (chain (chain zero 1) 3) 1
  case rxTimingSetup => exact chain zero 1
  case txParamSetup => exact chain zero 1
  case dlChannel => exact chain (chain zero 1) 3
  case rekey => exact chain zero 1
  case adrParamSetup => exact chain zero 1
  case deviceTime => exact chain (chain zero 4) 1
  case forceRejoin => exact chain zero 2
  case rejoinParamSetup => exact chain zero 1

theorem tagToType_spec (v11 : Bool) (tag : Nat) :
    tagToType v11 tag =
      if tag = 2 then some .linkCheck else if tag = 3 then some .linkADR
      else if tag = 4 then some .dutyCycle else if tag = 5 then some .rxParamSetup
      else if tag = 6 then some .devStatus else if tag = 7 then some .newChannel
      else if tag = 8 then some .rxTimingSetup else if tag = 9 then some .txParamSetup
      else if tag = 10 then some .dlChannel else if tag = 13 then some .deviceTime
      else if v11 = true ∧ tag = 11 then some .rekey
      else if v11 = true ∧ tag = 12 then some .adrParamSetup
      else if v11 = true ∧ tag = 14 then some .forceRejoin
      else if v11 = true ∧ tag = 15 then some .rejoinParamSetup else none := by
  by_cases h : tag < 16
  · interval_cases tag <;> cases v11 <;> rfl
  · have hn : ∀ k, k < 16 → ¬ tag = k := by omega
    have hb : ∀ k, k < 16 → (k == tag) = false := by
      intro k hk; simp; omega
    cases v11 <;>
      simp [tagToType, tags, hn, hb]

/-- Commands agree except possibly for the two fields that the model reads from the wrong bits. -/
def eraseRejoin : DownCmd → DownCmd
  | .forceRejoin _ _ t dr => .forceRejoin 0 0 t dr
  | c => c

theorem getFields_short {s : Stream} {xs : Bytes} (h : At s xs) {t : CmdType}
    (hl : xs.length < payloadLen t) : (getFields s t).2.error = true := by
  obtain ⟨h1, _, h3⟩ := getFields_ran h.ran t
  cases he : (getFields s t).2.error
  · obtain ⟨a, b⟩ := h3 he
    have := h.length
    have := h1.hp
    omega
  · rfl

theorem and_pow_sub_one (x k : Nat) : x &&& (2 ^ k - 1) = x % 2 ^ k := Nat.and_two_pow_sub_one_eq_mod x k

theorem and_f (x : Nat) : x &&& 0xf = x % 16 := Nat.and_two_pow_sub_one_eq_mod x 4
theorem and_7 (x : Nat) : x &&& 0x7 = x % 8 := Nat.and_two_pow_sub_one_eq_mod x 3
theorem and_3f (x : Nat) : x &&& 0x3f = x % 64 := Nat.and_two_pow_sub_one_eq_mod x 6
theorem shr_4 (x : Nat) : x >>> 4 = x / 16 := Nat.shiftRight_eq_div_pow x 4

theorem freq_u32 (a b c : UInt8) :
    u32 (Spec.leValue [a, b, c] * 100) = 100 * Spec.leValue [a, b, c] := by
  have := leValue_lt [a, b, c]
  simp only [List.length_cons, List.length_nil, Nat.zero_add, Nat.reduceAdd, Nat.reducePow] at this
  simp only [u32]; omega

theorem getDown_of {v11 : Bool} {s : Stream} {cid : UInt8} {bs : Bytes} (h : At s (cid :: bs)) :
    getDownCommand v11 s =
      match tagToType v11 cid.toNat with
      | none => (none, { s with pos := s.pos + 1 })
      | some t =>
        (if (getFields { s with pos := s.pos + 1 } t).2.error then none
          else some (getFields { s with pos := s.pos + 1 } t).1,
          (getFields { s with pos := s.pos + 1 } t).2) := by
  simp only [getDownCommand, h.getU8.1]
  rcases tagToType v11 cid.toNat with _ | t <;> rfl

/-- What one call of the parser must do. -/
def Step (v11 : Bool) (s : Stream) (xs : Bytes) : Prop :=
  match Spec.nextCommand v11 xs with
  | none => (getDownCommand v11 s).1 = none
  | some (c, r) => ∃ c', (getDownCommand v11 s).1 = some c' ∧ eraseRejoin c' = eraseRejoin c ∧
      At (getDownCommand v11 s).2 r ∧ r.length < xs.length

theorem step_none {v11 : Bool} {s : Stream} {xs : Bytes} (h1 : Spec.nextCommand v11 xs = none)
    (h2 : (getDownCommand v11 s).1 = none) : Step v11 s xs := by
  simp only [Step, h1, h2]

theorem step_some {v11 : Bool} {s : Stream} {xs r : Bytes} {c : DownCmd}
    (h1 : Spec.nextCommand v11 xs = some (c, r)) {c' : DownCmd}
    (h2 : (getDownCommand v11 s).1 = some c') (h3 : eraseRejoin c' = eraseRejoin c)
    (h4 : At (getDownCommand v11 s).2 r) (h5 : r.length < xs.length) : Step v11 s xs := by
  simp only [Step, h1]
  exact ⟨c', h2, h3, h4, h5⟩

theorem down_short {v11 : Bool} {s : Stream} {cid : UInt8} {bs : Bytes} (h : At s (cid :: bs))
    {t : CmdType} (ht : tagToType v11 cid.toNat = some t) (hl : bs.length < payloadLen t) :
    (getDownCommand v11 s).1 = none := by
  rw [getDown_of h, ht]
  dsimp only
  rw [if_pos (getFields_short h.getU8.2 hl)]

theorem down_ok {v11 : Bool} {s : Stream} {cid : UInt8} {bs r : Bytes} (h : At s (cid :: bs))
    {t : CmdType} (ht : tagToType v11 cid.toNat = some t) {c : DownCmd} {s' : Stream}
    (hf : getFields { s with pos := s.pos + 1 } t = (c, s')) (hs : At s' r) :
    (getDownCommand v11 s).1 = some c ∧ At (getDownCommand v11 s).2 r := by
  rw [getDown_of h, ht]
  dsimp only
  rw [hf, if_neg (by rw [hs.he]; simp)]
  exact ⟨rfl, hs⟩

theorem step_linkCheck {v11 : Bool} {s : Stream} {cid : UInt8} {bs : Bytes} (h : At s (cid :: bs))
    (hk : cid.toNat = 2) : Step v11 s (cid :: bs) := by
  have ht : tagToType v11 cid.toNat = some .linkCheck := by rw [hk, tagToType_spec]; simp
  rcases bs with _ | ⟨x0, _ | ⟨x1, r⟩⟩
  iterate 2
    exact step_none (by simp [Spec.nextCommand, hk]) (down_short h ht (by simp [payloadLen]))
  have a0 := At.getU8 (s := { s with pos := s.pos + 1 }) h.getU8.2
  have a1 := At.getU8 (s := { s with pos := s.pos + 2 }) a0.2
  obtain ⟨e1, e2⟩ := down_ok h ht (hf := by simp only [getFields, a0.1, a1.1]; rfl) a1.2
  refine step_some (by simp only [Spec.nextCommand, hk]; rfl) e1 ?_ e2 (by simp only [List.length_cons]; omega)
  simp [eraseRejoin, Option.getD_some, and_f, and_7, and_3f, shr_4, freq_u32, u8]

theorem step_linkADR {v11 : Bool} {s : Stream} {cid : UInt8} {bs : Bytes} (h : At s (cid :: bs))
    (hk : cid.toNat = 3) : Step v11 s (cid :: bs) := by
  have ht : tagToType v11 cid.toNat = some .linkADR := by rw [hk, tagToType_spec]; simp
  rcases bs with _ | ⟨x0, _ | ⟨x1, _ | ⟨x2, _ | ⟨x3, r⟩⟩⟩⟩
  iterate 4
    exact step_none (by simp [Spec.nextCommand, hk]) (down_short h ht (by simp [payloadLen]))
  have a0 := At.getU8 (s := { s with pos := s.pos + 1 }) h.getU8.2
  have a1 := At.getU16 (s := { s with pos := s.pos + 2 }) a0.2
  have a2 := At.getU8 (s := { s with pos := s.pos + 4 }) a1.2
  obtain ⟨e1, e2⟩ := down_ok h ht (hf := by simp only [getFields, a0.1, a1.1, a2.1]; rfl) a2.2
  refine step_some (by simp only [Spec.nextCommand, hk]; rfl) e1 ?_ e2 (by simp only [List.length_cons]; omega)
  simp [eraseRejoin, Option.getD_some, and_f, and_7, and_3f, shr_4, freq_u32, u8]

theorem step_dutyCycle {v11 : Bool} {s : Stream} {cid : UInt8} {bs : Bytes} (h : At s (cid :: bs))
    (hk : cid.toNat = 4) : Step v11 s (cid :: bs) := by
  have ht : tagToType v11 cid.toNat = some .dutyCycle := by rw [hk, tagToType_spec]; simp
  rcases bs with _ | ⟨x0, r⟩
  iterate 1
    exact step_none (by simp [Spec.nextCommand, hk]) (down_short h ht (by simp [payloadLen]))
  have a0 := At.getU8 (s := { s with pos := s.pos + 1 }) h.getU8.2
  obtain ⟨e1, e2⟩ := down_ok h ht (hf := by simp only [getFields, a0.1]; rfl) a0.2
  refine step_some (by simp only [Spec.nextCommand, hk]; rfl) e1 ?_ e2 (by simp only [List.length_cons]; omega)
  simp [eraseRejoin, Option.getD_some, and_f, and_7, and_3f, shr_4, freq_u32, u8]

theorem step_rxParamSetup {v11 : Bool} {s : Stream} {cid : UInt8} {bs : Bytes} (h : At s (cid :: bs))
    (hk : cid.toNat = 5) : Step v11 s (cid :: bs) := by
  have ht : tagToType v11 cid.toNat = some .rxParamSetup := by rw [hk, tagToType_spec]; simp
  rcases bs with _ | ⟨x0, _ | ⟨x1, _ | ⟨x2, _ | ⟨x3, r⟩⟩⟩⟩
  iterate 4
    exact step_none (by simp [Spec.nextCommand, hk]) (down_short h ht (by simp [payloadLen]))
  have a0 := At.getU8 (s := { s with pos := s.pos + 1 }) h.getU8.2
  have a1 := At.getU24 (s := { s with pos := s.pos + 2 }) a0.2
  obtain ⟨e1, e2⟩ := down_ok h ht (hf := by simp only [getFields, a0.1, a1.1]; rfl) a1.2
  refine step_some (by simp only [Spec.nextCommand, hk]; rfl) e1 ?_ e2 (by simp only [List.length_cons]; omega)
  simp [eraseRejoin, Option.getD_some, and_f, and_7, and_3f, shr_4, freq_u32, u8]

theorem step_devStatus {v11 : Bool} {s : Stream} {cid : UInt8} {bs : Bytes} (h : At s (cid :: bs))
    (hk : cid.toNat = 6) : Step v11 s (cid :: bs) := by
  have ht : tagToType v11 cid.toNat = some .devStatus := by rw [hk, tagToType_spec]; simp
  rename Bytes => r
  obtain ⟨e1, e2⟩ := down_ok h ht (hf := by simp only [getFields]; rfl) h.getU8.2
  refine step_some (by simp only [Spec.nextCommand, hk]; rfl) e1 ?_ e2 (by simp only [List.length_cons]; omega)
  simp [eraseRejoin, Option.getD_some, and_f, and_7, and_3f, shr_4, freq_u32, u8]

theorem step_newChannel {v11 : Bool} {s : Stream} {cid : UInt8} {bs : Bytes} (h : At s (cid :: bs))
    (hk : cid.toNat = 7) : Step v11 s (cid :: bs) := by
  have ht : tagToType v11 cid.toNat = some .newChannel := by rw [hk, tagToType_spec]; simp
  rcases bs with _ | ⟨x0, _ | ⟨x1, _ | ⟨x2, _ | ⟨x3, _ | ⟨x4, r⟩⟩⟩⟩⟩
  iterate 5
    exact step_none (by simp [Spec.nextCommand, hk]) (down_short h ht (by simp [payloadLen]))
  have a0 := At.getU8 (s := { s with pos := s.pos + 1 }) h.getU8.2
  have a1 := At.getU24 (s := { s with pos := s.pos + 2 }) a0.2
  have a2 := At.getU8 (s := { s with pos := s.pos + 5 }) a1.2
  obtain ⟨e1, e2⟩ := down_ok h ht (hf := by simp only [getFields, a0.1, a1.1, a2.1]; rfl) a2.2
  refine step_some (by simp only [Spec.nextCommand, hk]; rfl) e1 ?_ e2 (by simp only [List.length_cons]; omega)
  simp [eraseRejoin, Option.getD_some, and_f, and_7, and_3f, shr_4, freq_u32, u8]

theorem step_rxTimingSetup {v11 : Bool} {s : Stream} {cid : UInt8} {bs : Bytes} (h : At s (cid :: bs))
    (hk : cid.toNat = 8) : Step v11 s (cid :: bs) := by
  have ht : tagToType v11 cid.toNat = some .rxTimingSetup := by rw [hk, tagToType_spec]; simp
  rcases bs with _ | ⟨x0, r⟩
  iterate 1
    exact step_none (by simp [Spec.nextCommand, hk]) (down_short h ht (by simp [payloadLen]))
  have a0 := At.getU8 (s := { s with pos := s.pos + 1 }) h.getU8.2
  obtain ⟨e1, e2⟩ := down_ok h ht (hf := by simp only [getFields, a0.1]; rfl) a0.2
  refine step_some (by simp only [Spec.nextCommand, hk]; rfl) e1 ?_ e2 (by simp only [List.length_cons]; omega)
  simp [eraseRejoin, Option.getD_some, and_f, and_7, and_3f, shr_4, freq_u32, u8]

theorem step_txParamSetup {v11 : Bool} {s : Stream} {cid : UInt8} {bs : Bytes} (h : At s (cid :: bs))
    (hk : cid.toNat = 9) : Step v11 s (cid :: bs) := by
  have ht : tagToType v11 cid.toNat = some .txParamSetup := by rw [hk, tagToType_spec]; simp
  rcases bs with _ | ⟨x0, r⟩
  iterate 1
    exact step_none (by simp [Spec.nextCommand, hk]) (down_short h ht (by simp [payloadLen]))
  have a0 := At.getU8 (s := { s with pos := s.pos + 1 }) h.getU8.2
  obtain ⟨e1, e2⟩ := down_ok h ht (hf := by simp only [getFields, a0.1]; rfl) a0.2
  refine step_some (by simp only [Spec.nextCommand, hk]; rfl) e1 ?_ e2 (by simp only [List.length_cons]; omega)
  simp [eraseRejoin, Option.getD_some, and_f, and_7, and_3f, shr_4, freq_u32, u8]

theorem step_dlChannel {v11 : Bool} {s : Stream} {cid : UInt8} {bs : Bytes} (h : At s (cid :: bs))
    (hk : cid.toNat = 10) : Step v11 s (cid :: bs) := by
  have ht : tagToType v11 cid.toNat = some .dlChannel := by rw [hk, tagToType_spec]; simp
  rcases bs with _ | ⟨x0, _ | ⟨x1, _ | ⟨x2, _ | ⟨x3, r⟩⟩⟩⟩
  iterate 4
    exact step_none (by simp [Spec.nextCommand, hk]) (down_short h ht (by simp [payloadLen]))
  have a0 := At.getU8 (s := { s with pos := s.pos + 1 }) h.getU8.2
  have a1 := At.getU24 (s := { s with pos := s.pos + 2 }) a0.2
  obtain ⟨e1, e2⟩ := down_ok h ht (hf := by simp only [getFields, a0.1, a1.1]; rfl) a1.2
  refine step_some (by simp only [Spec.nextCommand, hk]; rfl) e1 ?_ e2 (by simp only [List.length_cons]; omega)
  simp [eraseRejoin, Option.getD_some, and_f, and_7, and_3f, shr_4, freq_u32, u8]

theorem step_deviceTime {v11 : Bool} {s : Stream} {cid : UInt8} {bs : Bytes} (h : At s (cid :: bs))
    (hk : cid.toNat = 13) : Step v11 s (cid :: bs) := by
  have ht : tagToType v11 cid.toNat = some .deviceTime := by rw [hk, tagToType_spec]; simp
  rcases bs with _ | ⟨x0, _ | ⟨x1, _ | ⟨x2, _ | ⟨x3, _ | ⟨x4, r⟩⟩⟩⟩⟩
  iterate 5
    exact step_none (by simp [Spec.nextCommand, hk]) (down_short h ht (by simp [payloadLen]))
  have a0 := At.getU32 (s := { s with pos := s.pos + 1 }) h.getU8.2
  have a1 := At.getU8 (s := { s with pos := s.pos + 5 }) a0.2
  obtain ⟨e1, e2⟩ := down_ok h ht (hf := by simp only [getFields, a0.1, a1.1]; rfl) a1.2
  refine step_some (by simp only [Spec.nextCommand, hk]; rfl) e1 ?_ e2 (by simp only [List.length_cons]; omega)
  simp [eraseRejoin, Option.getD_some, and_f, and_7, and_3f, shr_4, freq_u32, u8]

theorem step_rekey {v11 : Bool} {s : Stream} {cid : UInt8} {bs : Bytes} (h : At s (cid :: bs))
    (hk : cid.toNat = 11) (hv : v11 = true) : Step v11 s (cid :: bs) := by
  have ht : tagToType v11 cid.toNat = some .rekey := by rw [hk, tagToType_spec]; simp [hv]
  rcases bs with _ | ⟨x0, r⟩
  iterate 1
    exact step_none (by simp [Spec.nextCommand, hk]) (down_short h ht (by simp [payloadLen]))
  have a0 := At.getU8 (s := { s with pos := s.pos + 1 }) h.getU8.2
  obtain ⟨e1, e2⟩ := down_ok h ht (hf := by simp only [getFields, a0.1]; rfl) a0.2
  refine step_some (by simp only [Spec.nextCommand, hk]; rw [if_pos hv]) e1 ?_ e2 (by simp only [List.length_cons]; omega)
  simp [eraseRejoin, Option.getD_some, and_f, and_7, and_3f, shr_4, freq_u32, u8]

theorem step_adrParamSetup {v11 : Bool} {s : Stream} {cid : UInt8} {bs : Bytes} (h : At s (cid :: bs))
    (hk : cid.toNat = 12) (hv : v11 = true) : Step v11 s (cid :: bs) := by
  have ht : tagToType v11 cid.toNat = some .adrParamSetup := by rw [hk, tagToType_spec]; simp [hv]
  rcases bs with _ | ⟨x0, r⟩
  iterate 1
    exact step_none (by simp [Spec.nextCommand, hk]) (down_short h ht (by simp [payloadLen]))
  have a0 := At.getU8 (s := { s with pos := s.pos + 1 }) h.getU8.2
  obtain ⟨e1, e2⟩ := down_ok h ht (hf := by simp only [getFields, a0.1]; rfl) a0.2
  refine step_some (by simp only [Spec.nextCommand, hk]; rw [if_pos hv]) e1 ?_ e2 (by simp only [List.length_cons]; omega)
  simp [eraseRejoin, Option.getD_some, and_f, and_7, and_3f, shr_4, freq_u32, u8]

theorem step_forceRejoin {v11 : Bool} {s : Stream} {cid : UInt8} {bs : Bytes} (h : At s (cid :: bs))
    (hk : cid.toNat = 14) (hv : v11 = true) : Step v11 s (cid :: bs) := by
  have ht : tagToType v11 cid.toNat = some .forceRejoin := by rw [hk, tagToType_spec]; simp [hv]
  rcases bs with _ | ⟨x0, _ | ⟨x1, r⟩⟩
  iterate 2
    exact step_none (by simp [Spec.nextCommand, hk]) (down_short h ht (by simp [payloadLen]))
  have a0 := At.getU16 (s := { s with pos := s.pos + 1 }) h.getU8.2
  obtain ⟨e1, e2⟩ := down_ok h ht (hf := by simp only [getFields, a0.1]; rfl) a0.2
  refine step_some (by simp only [Spec.nextCommand, hk]; rw [if_pos hv]) e1 ?_ e2 (by simp only [List.length_cons]; omega)
  simp [eraseRejoin, Option.getD_some, and_f, and_7, and_3f, shr_4, freq_u32, u8]

theorem step_rejoinParamSetup {v11 : Bool} {s : Stream} {cid : UInt8} {bs : Bytes} (h : At s (cid :: bs))
    (hk : cid.toNat = 15) (hv : v11 = true) : Step v11 s (cid :: bs) := by
  have ht : tagToType v11 cid.toNat = some .rejoinParamSetup := by rw [hk, tagToType_spec]; simp [hv]
  rcases bs with _ | ⟨x0, r⟩
  iterate 1
    exact step_none (by simp [Spec.nextCommand, hk]) (down_short h ht (by simp [payloadLen]))
  have a0 := At.getU8 (s := { s with pos := s.pos + 1 }) h.getU8.2
  obtain ⟨e1, e2⟩ := down_ok h ht (hf := by simp only [getFields, a0.1]; rfl) a0.2
  refine step_some (by simp only [Spec.nextCommand, hk]; rw [if_pos hv]) e1 ?_ e2 (by simp only [List.length_cons]; omega)
  simp [eraseRejoin, Option.getD_some, and_f, and_7, and_3f, shr_4, freq_u32, u8]

theorem step_unknown {v11 : Bool} {s : Stream} {cid : UInt8} {bs : Bytes} (h : At s (cid :: bs))
    (ht : tagToType v11 cid.toNat = none) (hn : Spec.nextCommand v11 (cid :: bs) = none) :
    Step v11 s (cid :: bs) := by
  refine step_none hn ?_
  rw [getDown_of h, ht]

/-- One call of the parser does what the specification says. -/
theorem step_all {v11 : Bool} {s : Stream} {xs : Bytes} (h : At s xs) : Step v11 s xs := by
  rcases xs with _ | ⟨cid, bs⟩
  · refine step_none rfl ?_
    have := h.length
    have := h.hp
    simp only [List.length_nil] at *
    simp only [getDownCommand]
    rw [getU8_fail h.he (by omega)]
  by_cases k2 : cid.toNat = 2
  · exact step_linkCheck h k2
  by_cases k3 : cid.toNat = 3
  · exact step_linkADR h k3
  by_cases k4 : cid.toNat = 4
  · exact step_dutyCycle h k4
  by_cases k5 : cid.toNat = 5
  · exact step_rxParamSetup h k5
  by_cases k6 : cid.toNat = 6
  · exact step_devStatus h k6
  by_cases k7 : cid.toNat = 7
  · exact step_newChannel h k7
  by_cases k8 : cid.toNat = 8
  · exact step_rxTimingSetup h k8
  by_cases k9 : cid.toNat = 9
  · exact step_txParamSetup h k9
  by_cases k10 : cid.toNat = 10
  · exact step_dlChannel h k10
  by_cases k13 : cid.toNat = 13
  · exact step_deviceTime h k13
  by_cases k11 : cid.toNat = 11
  · cases v11
    · exact step_unknown h (by rw [k11]; rfl) (by simp only [Spec.nextCommand, k11]; split <;> simp_all)
    · exact step_rekey h k11 rfl
  by_cases k12 : cid.toNat = 12
  · cases v11
    · exact step_unknown h (by rw [k12]; rfl) (by simp only [Spec.nextCommand, k12]; split <;> simp_all)
    · exact step_adrParamSetup h k12 rfl
  by_cases k14 : cid.toNat = 14
  · cases v11
    · exact step_unknown h (by rw [k14]; rfl) (by simp only [Spec.nextCommand, k14]; split <;> simp_all)
    · exact step_forceRejoin h k14 rfl
  by_cases k15 : cid.toNat = 15
  · cases v11
    · exact step_unknown h (by rw [k15]; rfl) (by simp only [Spec.nextCommand, k15]; split <;> simp_all)
    · exact step_rejoinParamSetup h k15 rfl
  refine step_unknown h ?_ ?_
  · rw [tagToType_spec]; simp [k2, k3, k4, k5, k6, k7, k8, k9, k10, k13, k11, k12, k14, k15]
  · simp only [Spec.nextCommand]
    split <;> simp_all

end MacCmd
end LDL
