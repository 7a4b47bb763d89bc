import Verif.Lemmas.Aes

/-! AES-128 under a fixed key is injective on blocks. -/

namespace LDL.Aes
open Spec.Aes

theorem gmul2_xor (a b : UInt8) : gmul 2 (a ^^^ b) = gmul 2 a ^^^ gmul 2 b := by
  rw [← mul2_eq, ← mul2_eq, ← mul2_eq, mul2_xor]

theorem xor_cancel_left (a b : UInt8) : a ^^^ (a ^^^ b) = b := by
  rw [← UInt8.xor_assoc]; simp

theorem xor_lcomm (a b c : UInt8) : a ^^^ (b ^^^ c) = b ^^^ (a ^^^ c) := by
  rw [← UInt8.xor_assoc, ← UInt8.xor_assoc, UInt8.xor_comm a b]

theorem mix_mix (s : State) (r c : Fin 4) :
    Spec.Aes.mixColumns (Spec.Aes.mixColumns s) r c = gmul 2 (gmul 2 (s r c)) ^^^ s r c ^^^ gmul 2 (gmul 2 (s (r + 2) c)) := by
  have e : ∀ k : Fin 4, k + 1 + 1 = k + 2 ∧ k + 1 + 2 = k + 3 ∧ k + 1 + 3 = k ∧ k + 2 + 1 = k + 3 ∧
      k + 2 + 2 = k ∧ k + 2 + 3 = k + 1 ∧ k + 3 + 1 = k ∧ k + 3 + 2 = k + 1 ∧ k + 3 + 3 = k + 2 := by decide
  obtain ⟨e1, e2, e3, e4, e5, e6, e7, e8, e9⟩ := e r
  simp only [Spec.Aes.mixColumns, mul3_eq, gmul2_xor, e1, e2, e3, e4, e5, e6, e7, e8, e9]
  generalize gmul 2 (gmul 2 (s r c)) = a1
  generalize gmul 2 (gmul 2 (s (r + 1) c)) = a2
  generalize gmul 2 (gmul 2 (s (r + 2) c)) = a3
  generalize gmul 2 (gmul 2 (s (r + 3) c)) = a4
  generalize gmul 2 (s r c) = b1
  generalize gmul 2 (s (r + 1) c) = b2
  generalize gmul 2 (s (r + 2) c) = b3
  generalize gmul 2 (s (r + 3) c) = b4
  simp only [UInt8.xor_assoc, UInt8.xor_comm, xor_lcomm, UInt8.xor_self, UInt8.zero_xor,
    UInt8.xor_zero, xor_cancel_left]

theorem mix_four (s : State) : Spec.Aes.mixColumns (Spec.Aes.mixColumns (Spec.Aes.mixColumns (Spec.Aes.mixColumns s))) = s := by
  funext r c
  have e : ∀ k : Fin 4, k + 2 + 2 = k := by decide
  rw [mix_mix]
  simp only [mix_mix, gmul2_xor, e]
  simp only [UInt8.xor_assoc, UInt8.xor_comm, xor_lcomm, UInt8.xor_self, UInt8.zero_xor,
    UInt8.xor_zero, xor_cancel_left]

theorem mixColumns_inj {s t : State} (h : Spec.Aes.mixColumns s = Spec.Aes.mixColumns t) : s = t := by
  rw [← mix_four s, ← mix_four t, h]

/-- Position of a value in the table. -/
def invSBOX (c : UInt8) : UInt8 := UInt8.ofNat (sboxTable.findIdx (· == c))

theorem invSBOX_SBOX (b : UInt8) : invSBOX (SBOX b) = b := by
  have h : ∀ n : Fin 256, invSBOX (SBOX (UInt8.ofNat n)) = UInt8.ofNat n := by decide +kernel
  simpa using h ⟨b.toNat, b.toNat_lt⟩

theorem subBytes_inj {s t : State} (h : subBytes s = subBytes t) : s = t := by
  funext r c
  have := congrFun (congrFun h r) c
  simp only [subBytes, ← sbox_eq] at this
  rw [← invSBOX_SBOX (s r c), this, invSBOX_SBOX]

theorem shiftRows_inj {s t : State} (h : shiftRows s = shiftRows t) : s = t := by
  funext r c
  have := congrFun (congrFun h r) (c - r)
  have e : ∀ r c : Fin 4, c - r + r = c := by decide
  simpa only [shiftRows, e] using this

theorem addRoundKey_inj {key : List UInt8} {n : Nat} {s t : State}
    (h : addRoundKey key n s = addRoundKey key n t) : s = t := by
  funext r c
  have := congrFun (congrFun h r) c
  simp only [addRoundKey] at this
  have := congrArg (· ^^^ w key (4 * n + c.val) r) this
  simpa only [UInt8.xor_assoc, UInt8.xor_self, UInt8.xor_zero] using this

theorem mainRounds_inj {key : List UInt8} {n : Nat} {s t : State}
    (h : mainRounds key n s = mainRounds key n t) : s = t := by
  induction n with
  | zero => exact h
  | succ n ih => exact ih (subBytes_inj (shiftRows_inj (mixColumns_inj (addRoundKey_inj h))))

theorem ofState_inj {s t : State} (h : ofState s = ofState t) : s = t := by
  rw [← toState_ofState s, ← toState_ofState t, h]

theorem encrypt_inj {key a b : Bytes} (hk : key.length = 16) (ha : a.length = 16) (hb : b.length = 16)
    (h : encrypt key a = encrypt key b) : a = b := by
  rw [encrypt_eq hk ha, encrypt_eq hk hb] at h
  have := addRoundKey_inj (mainRounds_inj (subBytes_inj (shiftRows_inj (addRoundKey_inj (ofState_inj h)))))
  rw [← ofState_toState ha, ← ofState_toState hb, this]

/-! An inverse. -/

theorem SBOX_invSBOX (b : UInt8) : SBOX (invSBOX b) = b := by
  have h : ∀ n : Fin 256, SBOX (invSBOX (UInt8.ofNat n)) = UInt8.ofNat n := by decide +kernel
  simpa using h ⟨b.toNat, b.toNat_lt⟩

/-- Inverse of SubBytes. -/
def unSub (s : State) : State := fun r c => invSBOX (s r c)
/-- Inverse of ShiftRows. -/
def unShift (s : State) : State := fun r c => s r (c - r)
/-- Inverse of MixColumns. -/
def unMix (s : State) : State := Spec.Aes.mixColumns (Spec.Aes.mixColumns (Spec.Aes.mixColumns s))

theorem sub_unSub (s : State) : subBytes (unSub s) = s := by
  funext r c; simp only [subBytes, unSub, ← sbox_eq, SBOX_invSBOX]

theorem shift_unShift (s : State) : shiftRows (unShift s) = s := by
  funext r c
  have e : ∀ r c : Fin 4, c + r - r = c := by decide
  simp only [shiftRows, unShift, e]

theorem add_add (key : List UInt8) (n : Nat) (s : State) :
    addRoundKey key n (addRoundKey key n s) = s := by
  funext r c; simp only [addRoundKey, UInt8.xor_assoc, UInt8.xor_self, UInt8.xor_zero]

/-- Inverse of the main rounds. -/
def unMain (key : List UInt8) : Nat → State → State
  | 0, s => s
  | n + 1, s => unMain key n (unSub (unShift (unMix (addRoundKey key (n + 1) s))))

theorem main_unMain (key : List UInt8) (n : Nat) (s : State) : mainRounds key n (unMain key n s) = s := by
  induction n generalizing s with
  | zero => rfl
  | succ n ih =>
    simp only [mainRounds, unMain, ih, sub_unSub, shift_unShift, unMix, mix_four, add_add]

/-- The inverse cipher. -/
def decrypt (key s : Bytes) : Bytes :=
  ofState (addRoundKey key 0 (unMain key 9 (unSub (unShift (addRoundKey key 10 (toState s))))))

theorem encrypt_decrypt {key s : Bytes} (hk : key.length = 16) (hs : s.length = 16) :
    encrypt key (decrypt key s) = s := by
  rw [encrypt_eq hk rfl]
  simp only [cipher, decrypt, toState_ofState, add_add, main_unMain, sub_unSub, shift_unShift]
  exact ofState_toState hs

theorem encrypt_length {key s : Bytes} (hk : key.length = 16) (hs : s.length = 16) :
    (encrypt key s).length = 16 := by
  rw [encrypt_eq hk hs]; rfl

theorem decrypt_encrypt {key s : Bytes} (hk : key.length = 16) (hs : s.length = 16) :
    decrypt key (encrypt key s) = s :=
  encrypt_inj hk rfl hs (encrypt_decrypt hk (encrypt_length hk hs))

end LDL.Aes
