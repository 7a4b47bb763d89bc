import Verif.Lemmas.Cmac
import Verif.Lemmas.Aes

/-! The CMAC subkeys are doublings in GF(2^128). -/

namespace LDL.Cmac

theorem be_length (n v : Nat) : (Spec.be n v).length = n := by
  induction n generalizing v with
  | zero => rfl
  | succ n ih => simp [Spec.be, ih]

theorem beValue_append (a : Bytes) (b : UInt8) :
    Spec.beValue (a ++ [b]) = 256 * Spec.beValue a + b.toNat := by
  simp [Spec.beValue]

/-- The bytes of twice a number, computed bytewise with carry (most significant first). -/
def shl : Bytes → Bytes × Nat → Bytes × Nat
  | [], acc => acc
  | b :: bs, acc => let r := shl bs acc
                    (UInt8.ofNat (2 * b.toNat + r.2) :: r.1, b.toNat / 128)

theorem shl_eq (bs : Bytes) :
    Spec.be bs.length (2 * Spec.beValue bs) = (shl bs ([], 0)).1 := by
  have key : ∀ (n : Nat) (a b : Bytes) (c : Nat), n = a.length → c ≤ 1 →
      Spec.be n (2 * Spec.beValue a + c) ++ b = (shl a (b, c)).1 := by
    intro n
    induction n with
    | zero =>
      intro a b c h _
      have : a = [] := List.length_eq_zero_iff.mp h.symm
      subst this
      rfl
    | succ n ih =>
      intro a b c h hc
      rcases List.eq_nil_or_concat a with rfl | ⟨a', x, rfl⟩
      · simp at h
      · simp only [List.concat_eq_append] at *
        have hx := x.toNat_lt
        simp only [Spec.be, beValue_append]
        rw [show (2 * (256 * Spec.beValue a' + x.toNat) + c) / 256
          = 2 * Spec.beValue a' + x.toNat / 128 by omega]
        rw [List.append_assoc, ih a' _ (x.toNat / 128) (by simpa using h) (by omega)]
        have happ : ∀ (l : Bytes) (y : UInt8) (acc : Bytes × Nat), shl (l ++ [y]) acc = shl l (shl [y] acc) := by
          intro l y acc
          induction l with
          | nil => rfl
          | cons z l ihl => simp only [List.cons_append, shl]; rw [ihl]; rfl
        rw [happ]
        simp only [shl, List.cons_append, List.nil_append]
        congr 4
        apply UInt8.toNat_inj.mp
        simp
  have := key bs.length bs [] 0 rfl (by omega)
  simpa using this

theorem shift_byte (t : UInt8) (c : UInt8) (hc : c = 0 ∨ c = 1) :
    (t <<< 1) ||| c = UInt8.ofNat (2 * t.toNat + c.toNat) := by
  have h : ∀ n : Fin 256, (UInt8.ofNat n <<< 1 ||| 0 = UInt8.ofNat (2 * n.val)) ∧
      (UInt8.ofNat n <<< 1 ||| 1 = UInt8.ofNat (2 * n.val + 1)) := by decide +kernel
  have := h ⟨t.toNat, t.toNat_lt⟩
  rcases hc with rfl | rfl
  · simpa using this.1
  · simpa using this.2

theorem carry_eq (t : UInt8) : (if t &&& 0x80 = 0x80 then (1 : UInt8) else 0) = UInt8.ofNat (t.toNat / 128) := by
  have h : ∀ n : Fin 256, (if UInt8.ofNat n &&& 0x80 = 0x80 then (1 : UInt8) else 0)
      = UInt8.ofNat (n.val / 128) := by decide +kernel
  simpa using h ⟨t.toNat, t.toNat_lt⟩

theorem byte_eq (t u : UInt8) : (t <<< 1) ||| (if u &&& 0x80 = 0x80 then (1 : UInt8) else 0) =
    UInt8.ofNat (2 * t.toNat + u.toNat / 128) := by
  have hu := u.toNat_lt
  rw [carry_eq, shift_byte]
  · simp only [UInt8.toNat_ofNat']
    rw [Nat.mod_eq_of_lt (a := u.toNat / 128) (by omega)]
  · have : u.toNat / 128 = 0 ∨ u.toNat / 128 = 1 := by omega
    rcases this with h | h <;> rw [h] <;> simp

theorem leftShift_eq {v : Bytes} (h : v.length = 16) : leftShift128 v = Spec.be 16 (2 * Spec.beValue v) := by
  have := shl_eq v
  rw [h] at this
  rw [this]
  obtain ⟨a0, a1, a2, a3, a4, a5, a6, a7, a8, a9, a10, a11, a12, a13, a14, a15, rfl⟩ := Aes.len16 h
  simp only [leftShift128, List.foldl_cons, List.foldl_nil, shiftByte]
  simp only [List.set_cons_succ, List.set_cons_zero, List.getD_cons_succ, List.getD_cons_zero, shl, byte_eq]
  rw [show (0 : UInt8) = UInt8.ofNat 0 from rfl]
  congr
  have := shift_byte a15 0 (Or.inl rfl)
  simpa using this

theorem be_xor (v : Nat) : Spec.be 16 (v ^^^ 0x87) =
    (Spec.be 16 v).set 15 ((Spec.be 16 v).getD 15 0 ^^^ 0x87) := by
  have hl := be_length 15 (v / 256)
  have hd : (v ^^^ 0x87) / 256 = v / 256 := by
    have := Nat.xor_div_two_pow (a := v) (b := 0x87) (n := 8)
    simpa using this
  have hb : UInt8.ofNat (v ^^^ 0x87) = UInt8.ofNat v ^^^ 0x87 := by
    rw [UInt8.ofNat_xor]; rfl
  have e1 : Spec.be 16 (v ^^^ 0x87) = Spec.be 15 (v / 256) ++ [UInt8.ofNat v ^^^ 0x87] := by
    simp only [Spec.be]; rw [hd, hb]
  have e2 : Spec.be 16 v = Spec.be 15 (v / 256) ++ [UInt8.ofNat v] := by simp only [Spec.be]
  rw [e1, e2, List.set_append_right _ _ (by omega), hl]
  simp [List.getD, hl]

theorem be_mod (n v : Nat) : Spec.be n (v % 256 ^ n) = Spec.be n v := by
  induction n generalizing v with
  | zero => rfl
  | succ n ih =>
    simp only [Spec.be]
    have h1 : v % 256 ^ (n + 1) / 256 = v / 256 % 256 ^ n := by
      rw [Nat.pow_succ, Nat.mul_comm, Nat.mod_mul_right_div_self]
    rw [h1, ih]
    congr 2
    apply UInt8.toNat_inj.mp
    simp only [UInt8.toNat_ofNat', Nat.reducePow]
    rw [Nat.pow_succ, Nat.mul_comm, Nat.mod_mul_right_mod]

theorem beValue_top (a : UInt8) (bs : Bytes) :
    ∃ r, Spec.beValue (a :: bs) = a.toNat * 256 ^ bs.length + r ∧ r < 256 ^ bs.length := by
  induction hn : bs.length generalizing bs with
  | zero =>
    have : bs = [] := List.length_eq_zero_iff.mp hn
    subst this
    exact ⟨0, by simp [Spec.beValue], by simp⟩
  | succ n ih =>
    rcases List.eq_nil_or_concat bs with rfl | ⟨a', x, rfl⟩
    · simp at hn
    · simp only [List.concat_eq_append] at *
      obtain ⟨r, h1, h2⟩ := ih a' (by simpa using hn)
      have hx := x.toNat_lt
      refine ⟨256 * r + x.toNat, ?_, ?_⟩
      · rw [← List.cons_append, beValue_append, h1, Nat.pow_succ]
        rw [Nat.mul_add, ← Nat.mul_assoc, ← Nat.mul_assoc, Nat.mul_comm 256 a.toNat,
          Nat.mul_assoc, Nat.mul_comm 256, ← Nat.mul_assoc, Nat.add_assoc]
      · rw [Nat.pow_succ]; omega

theorem subkey_eq {k : Bytes} (h : k.length = 16) : subkey k = Spec.double k := by
  have ht : k.getD 0 0 &&& 0x80 = 0x80 ↔ ¬ Spec.beValue k < 2 ^ 127 := by
    rcases k with _ | ⟨a, bs⟩
    · simp at h
    · obtain ⟨r, h1, h2⟩ := beValue_top a bs
      have hl : bs.length = 15 := by simpa using h
      rw [hl] at h1 h2
      have ha : a &&& 0x80 = 0x80 ↔ 128 ≤ a.toNat := by
        have h : ∀ n : Fin 256, (UInt8.ofNat n &&& 0x80 = 0x80) ↔ 128 ≤ n.val := by decide +kernel
        simpa using h ⟨a.toNat, a.toNat_lt⟩
      rw [List.getD_cons_zero, ha, h1]
      simp only [Nat.reducePow] at h2 ⊢
      omega
  simp only [subkey, Spec.double]
  rw [leftShift_eq h]
  by_cases hc : k.getD 0 0 &&& 0x80 = 0x80
  · rw [if_pos hc, if_neg (ht.mp hc), be_xor]
    have := be_mod 16 (2 * Spec.beValue k)
    rw [show 256 ^ 16 = 2 ^ 128 by decide] at this
    rw [this]
  · rw [if_neg hc, if_pos (by by_cases h' : Spec.beValue k < 2 ^ 127; exact h'; exact absurd (ht.mpr h') hc)]

theorem double_length (k : Bytes) : (Spec.double k).length = 16 := by
  simp only [Spec.double]; split <;> exact be_length _ _

theorem xor_last {k m : Bytes} (x : Bytes) : xor128 (xor128 m k) x = Spec.xorBytes x (Spec.xorBytes m k) :=
  xorBytes_comm _ _

/-- The tag computed from a faithful context, unless the total length is a positive multiple of 256. -/
theorem finish_eq {E : Bytes → Bytes} (hE : BlockFn E) {msg : Bytes} {c : Ctx} (h : Inv E msg c)
    (hs : msg.length = 0 ∨ msg.length % 256 ≠ 0) : finish E c = Spec.cmac E msg := by
  have hk : (E (List.replicate 16 0)).length = 16 := hE _ (by simp)
  have hsz := h.size
  simp only [finish, Spec.cmac]
  rw [subkey_eq hk, subkey_eq (double_length _)]
  have hn : (if msg.length = 0 then 1 else (msg.length + 15) / 16) - 1 = (msg.length - 1) / 16 := by
    split <;> omega
  rw [hn, ← h.m, h.x]
  have hlen : (c.m.take (msg.length - 16 * ((msg.length - 1) / 16))).length
      = msg.length - 16 * ((msg.length - 1) / 16) := by
    rw [List.length_take, h.mlen]; omega
  by_cases hc : c.size = 0 ∨ c.size % 16 > 0
  · have hp : c.size % 16 = msg.length - 16 * ((msg.length - 1) / 16) := by omega
    have hp16 : c.size % 16 < 16 := by omega
    rw [if_pos hc, if_neg (by omega), xor_last, ← hp]
    congr 3
    have hl' : (c.m.take (c.size % 16)).length = c.size % 16 := by rw [List.length_take, h.mlen]; omega
    rw [hl']
    simp only [memcpyAt, List.take_zero, List.nil_append, Nat.zero_add]
    rw [List.set_append_right _ _ (by omega), hl', Nat.sub_self, List.append_assoc]
    congr 1
    obtain ⟨j, hj⟩ : ∃ j, 16 - c.size % 16 = j + 1 := ⟨15 - c.size % 16, by omega⟩
    rw [List.drop_replicate, hj, List.replicate_succ, List.set_cons_zero]
    simp only [List.singleton_append]
    congr 2; omega
  · have hp : 16 = msg.length - 16 * ((msg.length - 1) / 16) := by omega
    rw [if_neg hc, if_pos (by omega), xor_last, ← hp]

/-- The tag computed when the total length is a positive multiple of 256: the final block is treated
as missing. -/
theorem finish_256 {E : Bytes → Bytes} (hE : BlockFn E) {msg : Bytes} {c : Ctx} (h : Inv E msg c)
    (hs : 0 < msg.length ∧ msg.length % 256 = 0) :
    finish E c = E (Spec.xorBytes (chain E ((msg.length - 1) / 16) msg)
      (Spec.xorBytes (0x80 :: List.replicate 15 0) (Spec.double (Spec.double (E (List.replicate 16 0)))))) := by
  have hk : (E (List.replicate 16 0)).length = 16 := hE _ (by simp)
  have hsz := h.size
  simp only [finish]
  rw [subkey_eq hk, subkey_eq (double_length _), if_pos (Or.inl (by omega)), xor_last, h.x]
  have : c.size % 16 = 0 := by omega
  rw [this]
  rfl

end LDL.Cmac
