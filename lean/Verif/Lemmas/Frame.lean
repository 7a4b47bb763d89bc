import Verif.Model.Frame
import Verif.Spec.LoRaWAN
import Verif.Lemmas.Stream

/-! Helper lemmas about frames. -/

namespace LDL
open LDL.Stream

namespace Frame

/-- The frame content of a C frame structure in the vocabulary of the specification. -/
def toSpec (f : Data) : Spec.DataFrame :=
  { mtype := f.type, devAddr := f.devAddr, adr := f.adr, adrAckReq := f.adrAckReq, ack := f.ack,
    fPending := f.pending, fcnt := f.counter, fopts := f.opts.take (f.opts.length % 16),
    payload := f.data.map fun d => (f.port, d), mic := f.mic }

theorem fctrl_eq (f : Data) : fctrl f = (toSpec f).fctrl := by
  have hk : f.opts.length &&& 15 = f.opts.length % 16 := Nat.and_two_pow_sub_one_eq_mod _ 4
  have hlt : f.opts.length % 16 < 16 := Nat.mod_lt _ (by decide)
  have hlen : (f.opts.take (f.opts.length % 16)).length = f.opts.length % 16 := by
    simp; omega
  simp only [fctrl, Spec.DataFrame.fctrl, toSpec, hk, hlen]
  generalize f.opts.length % 16 = k at hlt
  have : ∀ (k : Fin 16) (a b c d : Bool),
      ((if a = true then 0x80 else 0) ||| (if b = true then 0x40 else 0)
        ||| (if c = true then 0x20 else 0) ||| (if d = true then 0x10 else 0) ||| k.val)
      = 128 * a.toNat + 64 * b.toNat + 32 * c.toNat + 16 * d.toNat + k.val := by decide
  exact this ⟨k, hlt⟩ f.adr f.adrAckReq f.ack f.pending

/-- The chunks written by `putData`. -/
def chunks (f : Data) : List Bytes :=
  [[UInt8.ofNat (f.type <<< 5)], bytes32 f.devAddr, [UInt8.ofNat (fctrl f)], bytes16 f.counter,
    f.opts.take (f.opts.length &&& 0xf)] ++
  (match f.data with | some d => [[UInt8.ofNat f.port], d.take f.dataLen] | none => []) ++
  [bytes32 f.mic]

theorem chunks_flatten (f : Data) (hd : ∀ d, f.data = some d → d.length = f.dataLen) :
    (chunks f).flatten = (toSpec f).encode := by
  have hk : f.opts.length &&& 15 = f.opts.length % 16 := Nat.and_two_pow_sub_one_eq_mod _ 4
  have hs : f.type <<< 5 = 32 * f.type := by rw [Nat.shiftLeft_eq]; omega
  cases hf : f.data with
  | none =>
    simp [chunks, hf, fctrl_eq, hk, bytes16_eq, bytes32_eq, Spec.DataFrame.encode,
      Spec.DataFrame.body, hs, Spec.mhdr, toSpec, Spec.portPayload]
  | some d =>
    have h1 : d.take f.dataLen = d := by rw [← hd d hf]; simp
    simp [chunks, hf, fctrl_eq, hk, bytes16_eq, bytes32_eq, Spec.DataFrame.encode,
      Spec.DataFrame.body, hs, Spec.mhdr, toSpec, Spec.portPayload, h1]

theorem putData_eq (f : Data) (out : Bytes) (max : Nat) :
    (putData f out max).1 = (if ((Stream.init out max).writes (chunks f)).error then 0
        else ((Stream.init out max).writes (chunks f)).pos) ∧
    (putData f out max).2.1 = ((Stream.init out max).writes (chunks f)).mem := by
  cases hf : f.data <;>
    simp [putData, chunks, hf, writes, hasError, tell, putU8, putU16, putU32]

theorem parse_encode (f : Spec.DataFrame) (h : f.WF) : Spec.parseData f.encode = some f := by
  obtain ⟨hm, ha, hc, ho, hp, hi⟩ := h
  obtain ⟨mtype, devAddr, adr, adrAckReq, ack, fPending, fcnt, fopts, payload, mic⟩ := f
  simp only at *
  have hfc : ∀ a b c d : Bool, 128 * a.toNat + 64 * b.toNat + 32 * c.toNat + 16 * d.toNat
      + fopts.length < 256 := by
    intro a b c d
    have := a.toNat_le; have := b.toNat_le; have := c.toNat_le; have := d.toNat_le
    omega
  have h4 := le_length 4 mic
  have e4 : ∀ v : Nat, v < 2 ^ 32 → Spec.leValue (Spec.le 4 v) = v := fun v hv => by
    rw [leValue_le, Nat.mod_eq_of_lt (by simpa using hv)]
  have e2 : ∀ v : Nat, v < 2 ^ 16 → Spec.leValue (Spec.le 2 v) = v := fun v hv => by
    rw [leValue_le, Nat.mod_eq_of_lt (by simpa using hv)]
  have ea := e4 devAddr ha
  have ec := e2 fcnt hc
  have em := e4 mic hi
  have hctl : (UInt8.ofNat (Spec.DataFrame.fctrl ⟨mtype, devAddr, adr, adrAckReq, ack, fPending, fcnt,
      fopts, payload, mic⟩)).toNat = 128 * adr.toNat + 64 * adrAckReq.toNat + 32 * ack.toNat +
      16 * fPending.toNat + fopts.length := by
    simp only [Spec.DataFrame.fctrl, UInt8.toNat_ofNat']
    exact Nat.mod_eq_of_lt (hfc _ _ _ _)
  have hmh : (Spec.mhdr mtype).toNat = 32 * mtype := by
    simp only [Spec.mhdr, UInt8.toNat_ofNat']; omega
  simp only [Spec.DataFrame.encode, Spec.DataFrame.body]
  generalize UInt8.ofNat (Spec.DataFrame.fctrl ⟨mtype, devAddr, adr, adrAckReq, ack, fPending, fcnt,
      fopts, payload, mic⟩) = c at hctl
  have hk : c.toNat % 16 = fopts.length := by rw [hctl]; omega
  -- what follows the options
  generalize htail : Spec.portPayload payload = tail
  have hA : ∃ a0 a1 a2 a3, Spec.le 4 devAddr = [a0, a1, a2, a3] := ⟨_, _, _, _, rfl⟩
  have hN : ∃ n0 n1, Spec.le 2 fcnt = [n0, n1] := ⟨_, _, rfl⟩
  obtain ⟨a0, a1, a2, a3, hA⟩ := hA
  obtain ⟨n0, n1, hN⟩ := hN
  rw [hA] at ea ⊢
  rw [hN] at ec ⊢
  have hshape : [Spec.mhdr mtype] ++ [a0, a1, a2, a3] ++ [c] ++ [n0, n1] ++ fopts ++ tail
      ++ Spec.le 4 mic = Spec.mhdr mtype :: a0 :: a1 :: a2 :: a3 :: c :: n0 :: n1 ::
        (fopts ++ (tail ++ Spec.le 4 mic)) := by simp
  rw [hshape]
  simp only [Spec.parseData]
  rw [hk, hmh]
  have hcond : 32 * mtype % 32 = 0 ∧ fopts.length + 4 ≤ (fopts ++ (tail ++ Spec.le 4 mic)).length := by
    simp only [List.length_append, h4]; omega
  rw [if_pos hcond]
  have hmid : ((fopts ++ (tail ++ Spec.le 4 mic)).drop fopts.length).take
      ((fopts ++ (tail ++ Spec.le 4 mic)).length - fopts.length - 4) = tail := by
    rw [List.drop_left]
    have : (fopts ++ (tail ++ Spec.le 4 mic)).length - fopts.length - 4 = tail.length := by
      simp only [List.length_append, h4]; omega
    rw [this, List.take_left]
  have hmic : (fopts ++ (tail ++ Spec.le 4 mic)).drop
      ((fopts ++ (tail ++ Spec.le 4 mic)).length - 4) = Spec.le 4 mic := by
    have : (fopts ++ (tail ++ Spec.le 4 mic)).length - 4 = (fopts ++ tail).length := by
      simp only [List.length_append, h4]; omega
    rw [this, ← List.append_assoc, List.drop_left]
  rw [hmid, hmic, ea, ec, em, List.take_left, hctl]
  have hb : ∀ a b c d : Bool,
      decide ((128 * a.toNat + 64 * b.toNat + 32 * c.toNat + 16 * d.toNat + fopts.length) / 128 % 2 = 1) = a ∧
      decide ((128 * a.toNat + 64 * b.toNat + 32 * c.toNat + 16 * d.toNat + fopts.length) / 64 % 2 = 1) = b ∧
      decide ((128 * a.toNat + 64 * b.toNat + 32 * c.toNat + 16 * d.toNat + fopts.length) / 32 % 2 = 1) = c ∧
      decide ((128 * a.toNat + 64 * b.toNat + 32 * c.toNat + 16 * d.toNat + fopts.length) / 16 % 2 = 1) = d := by
    intro a b c d
    cases a <;> cases b <;> cases c <;> cases d <;>
      simp only [Bool.toNat_true, Bool.toNat_false, decide_eq_true_eq, decide_eq_false_iff_not] <;> omega
  obtain ⟨b1, b2, b3, b4⟩ := hb adr adrAckReq ack fPending
  rw [b1, b2, b3, b4]
  congr 1
  congr 1
  · omega
  · cases payload with
    | none => simp only [Spec.portPayload] at htail; subst htail; rfl
    | some pd =>
      obtain ⟨p, d⟩ := pd
      have := hp p d rfl
      simp only [Spec.portPayload] at htail; subst htail
      simp only [UInt8.toNat_ofNat', Option.some.injEq, Prod.mk.injEq, and_true]
      omega

end Frame
end LDL
