import Verif.Lemmas.AesPerm

/-!
# C10: the block cipher is AES-128

`Spec.Aes.cipher` (Spec/Aes.lean) follows FIPS-197: arithmetic in GF(2^8), S-box as inverse and affine
map, key expansion, rounds.
-/

namespace LDL

/-- **C10**: for every key and block. -/
theorem c10_aes_is_fips197 (key block : Bytes) (hk : key.length = 16) (hb : block.length = 16) :
    Aes.encrypt key block = Spec.Aes.cipher key block :=
  Aes.encrypt_eq hk hb

/-- The specification's `inv` is the field inverse, so that its S-box is the one of FIPS-197. -/
theorem c10_inverse (a : UInt8) : (a ≠ 0 → Spec.Aes.gmul a (Spec.Aes.inv a) = 1) ∧ Spec.Aes.inv 0 = 0 :=
  ⟨fun h => Aes.inv_spec a h, by decide +kernel⟩

/-- The result is a block. -/
theorem c10_length (key block : Bytes) (hk : key.length = 16) (hb : block.length = 16) :
    (Aes.encrypt key block).length = 16 := by
  rw [Aes.encrypt_eq hk hb]; rfl

/-- Under each key the cipher is a permutation of the blocks, so a join server can produce (with the
inverse cipher) a join accept that the device turns into any plaintext it wants to send. -/
theorem c10_permutation : ∃ D : Bytes → Bytes → Bytes, ∀ key block : Bytes, key.length = 16 →
    block.length = 16 → (D key block).length = 16 ∧ Aes.encrypt key (D key block) = block ∧
      D key (Aes.encrypt key block) = block :=
  ⟨Aes.decrypt, fun _ _ hk hb => ⟨rfl, Aes.encrypt_decrypt hk hb, Aes.decrypt_encrypt hk hb⟩⟩

/-- The example of FIPS-197 appendix C.1, which meets the hypotheses of `c10_aes_is_fips197`. -/
example : Aes.encrypt
    [0, 1, 2, 3, 4, 5, 6, 7, 8, 9, 10, 11, 12, 13, 14, 15]
    [0x00, 0x11, 0x22, 0x33, 0x44, 0x55, 0x66, 0x77, 0x88, 0x99, 0xaa, 0xbb, 0xcc, 0xdd, 0xee, 0xff] =
    [0x69, 0xc4, 0xe0, 0xd8, 0x6a, 0x7b, 0x04, 0x30, 0xd8, 0xcd, 0xb7, 0x80, 0x70, 0xb4, 0xc5, 0x5a] := by
  decide +kernel

end LDL
