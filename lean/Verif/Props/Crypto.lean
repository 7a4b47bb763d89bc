import Verif.Lemmas.Subkey
import Verif.Props.Aes

/-!
# C11 and C12: payload cipher and message authentication code

The specifications (Spec/Crypto.lean) are written from LoRaWAN 4.3.3.1 and RFC 4493.  `E` is the block
cipher under some key; all that is needed of it is that it maps blocks to blocks, which AES does
(`c10_length`).
-/

namespace LDL

/-- AES under a 16 byte key maps blocks to blocks. -/
theorem aes_blockFn {key : Bytes} (hk : key.length = 16) : BlockFn (Aes.encrypt key) :=
  fun _ hb => c10_length key _ hk hb

/-- **C11**: encryption in place is the xor with the keystream of the specification: block `j` of the
keystream is the cipher of the counter block with its last byte advanced by `j`. -/
theorem c11_ctr_is_spec {E : Bytes → Bytes} (hE : BlockFn E) (hdr buf : Bytes) (i : Nat)
    (hh : hdr.length = 15) (hb : buf.length ≤ 255) :
    Ctr.encrypt E (hdr ++ [UInt8.ofNat i]) buf = Spec.payloadCrypt E hdr i buf := by
  have := Ctr.loop_eq hE hh buf.length (buf.length / 16 + (if buf.length % 16 ≠ 0 then 1 else 0)) [] buf i
    (by simp) (by omega) (by split <;> omega) (by simp)
  simpa [Ctr.encrypt, Spec.counterBlock] using this

/-- **C11**: the length is kept. -/
theorem c11_length {E : Bytes → Bytes} (hE : BlockFn E) (hdr buf : Bytes) (i : Nat)
    (hh : hdr.length = 15) (hb : buf.length ≤ 255) :
    (Ctr.encrypt E (hdr ++ [UInt8.ofNat i]) buf).length = buf.length := by
  rw [c11_ctr_is_spec hE hdr buf i hh hb, payloadCrypt_length hE hh]

/-- **C11**: encrypting twice restores the payload. -/
theorem c11_involution {E : Bytes → Bytes} (hE : BlockFn E) (hdr buf : Bytes) (i : Nat)
    (hh : hdr.length = 15) (hb : buf.length ≤ 255) :
    Ctr.encrypt E (hdr ++ [UInt8.ofNat i]) (Ctr.encrypt E (hdr ++ [UInt8.ofNat i]) buf) = buf := by
  have hl := payloadCrypt_length (i := i) hE hh buf
  rw [c11_ctr_is_spec hE hdr buf i hh hb, c11_ctr_is_spec hE hdr _ i hh (by omega)]
  unfold Spec.payloadCrypt at *
  rw [hl]
  apply xorBytes_self
  rw [keystream_length hE hh]
  omega

/-- Two blocks and a bit, with AES. -/
example : Ctr.encrypt (Aes.encrypt (List.replicate 16 7)) (List.replicate 15 3 ++ [1])
      (Ctr.encrypt (Aes.encrypt (List.replicate 16 7)) (List.replicate 15 3 ++ [1]) (List.replicate 35 9))
    = List.replicate 35 9 :=
  c11_involution (aes_blockFn rfl) _ _ 1 rfl (by decide)

/-! ## C12 -/

/-- The device's code: feed the chunks, then finish. -/
def macOf (E : Bytes → Bytes) (chunks : List Bytes) : Bytes :=
  Cmac.finish E (chunks.foldl (Cmac.update E) Cmac.init)

/-- No chunk but the last ends where the running total is a positive multiple of 256. -/
def Splits (chunks : List Bytes) : Prop :=
  ∀ pre suf, chunks = pre ++ suf → suf ≠ [] → pre.flatten.length = 0 ∨ pre.flatten.length % 256 ≠ 0

theorem macOf_inv {E : Bytes → Bytes} (hE : BlockFn E) (chunks : List Bytes)
    (hc : ∀ c ∈ chunks, c.length ≤ 255) (hs : Splits chunks) :
    Cmac.Inv E chunks.flatten (chunks.foldl (Cmac.update E) Cmac.init) := by
  have key : ∀ (n : Nat) (cs : List Bytes), cs.length = n → (∀ c ∈ cs, c.length ≤ 255) → Splits cs →
      Cmac.Inv E cs.flatten (cs.foldl (Cmac.update E) Cmac.init) := by
    intro n
    induction n with
    | zero =>
      intro cs h _ _
      have : cs = [] := List.length_eq_zero_iff.mp h
      subst this
      exact Cmac.inv_init E
    | succ n ih =>
      intro cs h h1 h2
      rcases List.eq_nil_or_concat cs with rfl | ⟨l, x, rfl⟩
      · simp at h
      · simp only [List.concat_eq_append] at *
        have := ih l (by simpa using h) (fun c hc => h1 c (by simp [hc])) (by
          intro pre suf he hn
          exact h2 pre (suf ++ [x]) (by rw [he, List.append_assoc]) (by simp))
        rw [List.foldl_append, List.flatten_append]
        simp only [List.foldl_cons, List.foldl_nil, List.flatten_cons, List.flatten_nil, List.append_nil]
        exact Cmac.inv_update this (h1 x (by simp)) (h2 l [x] rfl (by simp))
  exact key _ chunks rfl hc hs

/-- **C12** for all splits that never pause at a multiple of 256 bytes.  Missing from the full claim:
totals (or pauses) at exactly 256 bytes, for which it is false, see `c12_wrong_at_256`. -/
theorem c12_cmac_any_chunking_partial {E : Bytes → Bytes} (hE : BlockFn E) (chunks : List Bytes)
    (hc : ∀ c ∈ chunks, c.length ≤ 255) (hs : Splits chunks)
    (ht : chunks.flatten.length = 0 ∨ chunks.flatten.length % 256 ≠ 0) :
    macOf E chunks = Spec.cmac E chunks.flatten :=
  Cmac.finish_eq hE (macOf_inv hE chunks hc hs) ht

/-- **C12**, messages of up to 255 bytes: every chunking. -/
theorem c12_cmac_upto_255 {E : Bytes → Bytes} (hE : BlockFn E) (chunks : List Bytes)
    (ht : chunks.flatten.length ≤ 255) : macOf E chunks = Spec.cmac E chunks.flatten := by
  have hle : ∀ (cs : List Bytes), ∀ c ∈ cs, c.length ≤ cs.flatten.length := by
    intro cs
    induction cs with
    | nil => simp
    | cons d ds ih =>
      intro c h
      simp only [List.flatten_cons, List.length_append]
      rcases List.mem_cons.mp h with rfl | h
      · omega
      · have := ih c h; omega
  refine c12_cmac_any_chunking_partial hE chunks (fun c h => Nat.le_trans (hle _ c h) ht) ?_ ?_
  · intro pre suf he _
    rw [he] at ht
    simp only [List.flatten_append, List.length_append] at ht
    omega
  · omega

/-- **C12** as the library uses it: a 16 byte block, then a frame of up to 255 bytes. -/
theorem c12_cmac_frame_partial {E : Bytes → Bytes} (hE : BlockFn E) (b msg : Bytes)
    (hb : b.length = 16) (hm : msg.length ≤ 255) (hne : msg.length ≠ 240) :
    macOf E [b, msg] = Spec.cmac E (b ++ msg) := by
  have := c12_cmac_any_chunking_partial hE [b, msg] (by simp [hb, hm]) (by
    intro pre suf he hn
    rcases pre with _ | ⟨p, pre⟩
    · exact Or.inl rfl
    · rcases pre with _ | ⟨q, pre⟩
      · simp only [List.cons_append, List.nil_append, List.cons.injEq] at he
        right
        rw [← he.1]
        simp [hb]
      · simp only [List.cons_append, List.cons.injEq] at he
        have hnil := he.2.2
        simp only [List.nil_eq, List.append_eq_nil_iff] at hnil
        exact absurd hnil.2 hn) (by simp [hb]; omega)
  simpa using this

/-- Hypotheses met: a 16 byte block and a frame of 255 bytes, or of 239. -/
example : macOf (Aes.encrypt (List.replicate 16 1)) [List.replicate 16 2, List.replicate 255 3] =
    Spec.cmac (Aes.encrypt (List.replicate 16 1)) (List.replicate 16 2 ++ List.replicate 255 3) :=
  c12_cmac_frame_partial (aes_blockFn rfl) _ _ (by simp) (by rw [List.length_replicate]; decide)
    (by rw [List.length_replicate]; decide)

/-- **C12 fails at 256 bytes**: for an injective cipher, a 16 byte block followed by 240 bytes gets the
right tag if and only if the last block happens to be one particular value. -/
theorem c12_wrong_at_256 {E : Bytes → Bytes} (hE : BlockFn E)
    (hinj : ∀ a b : Bytes, a.length = 16 → b.length = 16 → E a = E b → a = b)
    (b msg : Bytes) (hb : b.length = 16) (hm : msg.length = 240) :
    macOf E [b, msg] = Spec.cmac E (b ++ msg) ↔
      Spec.xorBytes (msg.drop 224) (Spec.double (E (List.replicate 16 0))) =
        Spec.xorBytes (0x80 :: List.replicate 15 0) (Spec.double (Spec.double (E (List.replicate 16 0)))) := by
  have hinv := macOf_inv hE [b, msg] (by simp [hb, hm]) (by
    intro pre suf he hn
    rcases pre with _ | ⟨p, pre⟩
    · exact Or.inl rfl
    · rcases pre with _ | ⟨q, pre⟩
      · simp only [List.cons_append, List.nil_append, List.cons.injEq] at he
        right
        rw [← he.1]
        simp [hb]
      · simp only [List.cons_append, List.cons.injEq] at he
        have hnil := he.2.2
        simp only [List.nil_eq, List.append_eq_nil_iff] at hnil
        exact absurd hnil.2 hn)
  have hfl : [b, msg].flatten = b ++ msg := by simp
  rw [hfl] at hinv
  have hlen : (b ++ msg).length = 256 := by simp [hb, hm]
  have hf := Cmac.finish_256 hE hinv (by omega)
  have hdrop : (b ++ msg).drop 240 = msg.drop 224 := by
    rw [List.drop_append, List.drop_eq_nil_of_le (by omega), hb]; rfl
  have hd2 : (msg.drop 224).length = 16 := by rw [List.length_drop]; omega
  have hc : Spec.cmac E (b ++ msg) = E (Spec.xorBytes (Cmac.chain E ((256 - 1) / 16) (b ++ msg))
      (Spec.xorBytes (msg.drop 224) (Spec.double (E (List.replicate 16 0))))) := by
    simp only [Spec.cmac, hlen]
    rw [if_neg (by decide), show 16 * ((256 + 15) / 16 - 1) = 240 from rfl, hdrop, if_pos hd2]
  have hm' : macOf E [b, msg] = Cmac.finish E ([b, msg].foldl (Cmac.update E) Cmac.init) := rfl
  rw [hm', hf, hc, hlen]
  have hch : (Cmac.chain E ((256 - 1) / 16) (b ++ msg)).length = 16 := by
    exact Cmac.cbc_length hE (by omega)
  constructor
  · intro h
    have h := hinj _ _ (by simp [xorBytes_length, hch, Cmac.double_length])
      (by simp [xorBytes_length, hch, hd2, Cmac.double_length]) h
    rw [xorBytes_comm (Cmac.chain _ _ _), xorBytes_comm (Cmac.chain _ _ _)] at h
    exact (xorBytes_inj (by simp [xorBytes_length, hch, Cmac.double_length])
      (by simp [xorBytes_length, hch, hd2, Cmac.double_length]) h).symm
  · intro h
    rw [h]

/-- A concrete frame (AES under the zero key, 240 bytes of zero) gets the wrong tag. -/
theorem c12_wrong_at_256_witness :
    macOf (Aes.encrypt (List.replicate 16 0)) [List.replicate 16 0, List.replicate 240 0] ≠
      Spec.cmac (Aes.encrypt (List.replicate 16 0)) (List.replicate 16 0 ++ List.replicate 240 0) := by
  intro h
  have := (c12_wrong_at_256 (aes_blockFn rfl) (fun a b ha hb => Aes.encrypt_inj rfl ha hb) _ _
    (by rw [List.length_replicate]) (by rw [List.length_replicate])).mp h
  revert this
  decide +kernel

end LDL
