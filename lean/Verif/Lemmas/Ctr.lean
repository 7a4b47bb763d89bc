import Verif.Model.Ctr
import Verif.Spec.Crypto

/-! Helper lemmas for counter mode. -/

namespace LDL

/-- A function from blocks to blocks. -/
def BlockFn (E : Bytes → Bytes) : Prop := ∀ b : Bytes, b.length = 16 → (E b).length = 16

theorem xorBytes_length (a b : Bytes) : (Spec.xorBytes a b).length = min a.length b.length := by
  simp [Spec.xorBytes]

theorem xorBytes_append {a b c d : Bytes} (h : a.length = c.length) :
    Spec.xorBytes (a ++ b) (c ++ d) = Spec.xorBytes a c ++ Spec.xorBytes b d := by
  simp only [Spec.xorBytes]
  exact List.zipWith_append h

theorem xorBytes_self {p k : Bytes} (h : p.length ≤ k.length) :
    Spec.xorBytes (Spec.xorBytes p k) k = p := by
  induction p generalizing k with
  | nil => simp [Spec.xorBytes]
  | cons a p ih =>
    rcases k with _ | ⟨b, k⟩
    · simp at h
    · simp only [Spec.xorBytes, List.zipWith_cons_cons] at *
      rw [ih (by simpa using h), UInt8.xor_assoc, UInt8.xor_self, UInt8.xor_zero]

theorem xorBytes_comm (a b : Bytes) : Spec.xorBytes a b = Spec.xorBytes b a := by
  simp only [Spec.xorBytes]
  exact List.zipWith_comm_of_comm (fun a b => UInt8.xor_comm a b)

theorem xorBytes_inj {p q k : Bytes} (hp : p.length = k.length) (hq : q.length = k.length)
    (h : Spec.xorBytes p k = Spec.xorBytes q k) : p = q := by
  rw [← xorBytes_self (p := p) (k := k) (by omega), h, xorBytes_self (by omega)]

theorem keystream_succ (E : Bytes → Bytes) (hdr : Bytes) (i k : Nat) :
    Spec.keystream E hdr i (k + 1) = E (Spec.counterBlock hdr i) ++ Spec.keystream E hdr (i + 1) k := by
  simp only [Spec.keystream, List.range_succ_eq_map, List.flatMap_cons, List.flatMap_map]
  congr 1
  congr 1
  funext j
  congr 2
  omega

theorem keystream_length {E : Bytes → Bytes} (hE : BlockFn E) {hdr : Bytes} (hh : hdr.length = 15)
    (i k : Nat) : (Spec.keystream E hdr i k).length = 16 * k := by
  induction k generalizing i with
  | zero => rfl
  | succ k ih =>
    rw [keystream_succ, List.length_append, ih, hE _ (by simp [Spec.counterBlock, hh])]
    omega

theorem payloadCrypt_length {E : Bytes → Bytes} (hE : BlockFn E) {hdr : Bytes} (hh : hdr.length = 15)
    (i : Nat) (p : Bytes) : (Spec.payloadCrypt E hdr i p).length = p.length := by
  simp only [Spec.payloadCrypt, xorBytes_length, keystream_length hE hh]
  omega

theorem payloadCrypt_nil (E : Bytes → Bytes) (hdr : Bytes) (i : Nat) : Spec.payloadCrypt E hdr i [] = [] := by
  simp [Spec.payloadCrypt, Spec.xorBytes]

theorem payloadCrypt_step {E : Bytes → Bytes} (hE : BlockFn E) {hdr : Bytes} (hh : hdr.length = 15)
    (i : Nat) (p : Bytes) (hp : 0 < p.length) :
    Spec.payloadCrypt E hdr i p =
      Spec.xorBytes (p.take 16) (E (Spec.counterBlock hdr i)) ++ Spec.payloadCrypt E hdr (i + 1) (p.drop 16) := by
  have hb : (E (Spec.counterBlock hdr i)).length = 16 := hE _ (by simp [Spec.counterBlock, hh])
  by_cases h16 : 16 ≤ p.length
  · simp only [Spec.payloadCrypt]
    rw [show (p.length + 15) / 16 = ((p.drop 16).length + 15) / 16 + 1 by simp; omega, keystream_succ]
    conv => lhs; rw [← List.take_append_drop 16 p]
    rw [xorBytes_append (by simp [hb]; omega), List.take_append_drop]
  · have e1 : p.take 16 = p := List.take_of_length_le (by omega)
    have e2 : p.drop 16 = [] := List.drop_of_length_le (by omega)
    rw [e1, e2, payloadCrypt_nil, List.append_nil]
    simp only [Spec.payloadCrypt]
    rw [show (p.length + 15) / 16 = 0 + 1 by omega, keystream_succ]
    simp [Spec.keystream]

theorem zipWith_take_right (f : UInt8 → UInt8 → UInt8) (a b : Bytes) :
    List.zipWith f a (b.take a.length) = List.zipWith f a b := by
  have := List.take_zipWith (f := f) (l := a) (l' := b) (i := a.length)
  rw [List.take_length, List.take_of_length_le (by simp; omega)] at this
  exact this.symm

namespace Ctr

theorem loop_eq {E : Bytes → Bytes} (hE : BlockFn E) {hdr : Bytes} (hh : hdr.length = 15) (len : Nat)
    (n : Nat) (done rest : Bytes) (i : Nat) (hl : done.length + rest.length = len) (h8 : len ≤ 255)
    (hn : n = (rest.length + 15) / 16) (hd : rest = [] ∨ done.length % 16 = 0) :
    loop E len n done.length (Spec.counterBlock hdr i) (done ++ rest) = done ++ Spec.payloadCrypt E hdr i rest := by
  induction n generalizing done rest i with
  | zero =>
    have : rest = [] := List.length_eq_zero_iff.mp (by omega)
    subst this
    simp [loop, payloadCrypt_nil]
  | succ n ih =>
    have hr : 0 < rest.length := by omega
    have hd : done.length % 16 = 0 := by
      rcases hd with h | h
      · subst h; simp at hr
      · exact h
    have hb : (E (Spec.counterBlock hdr i)).length = 16 := hE _ (by simp [Spec.counterBlock, hh])
    have hc : (Spec.counterBlock hdr i).set 15 ((Spec.counterBlock hdr i).getD 15 0 + 1)
        = Spec.counterBlock hdr (i + 1) := by
      obtain ⟨f⟩ : ∃ _ : Unit, True := ⟨(), trivial⟩
      simp only [Spec.counterBlock]
      rw [List.set_append_right _ _ (by omega), hh]
      simp [List.getD, hh]
    have hsz : (if len - done.length ≥ 16 then 16 else len - done.length) = (rest.take 16).length := by
      simp; split <;> omega
    have hdr1 : (done ++ rest).drop done.length = rest := by simp
    rw [payloadCrypt_step hE hh i rest hr]
    simp only [loop]
    rw [hsz, hdr1, hc]
    have htk : rest.take (rest.take 16).length = rest.take 16 := by simp
    rw [htk]
    have hx : (xor128 (memcpyAt (List.replicate 16 0) 0 (rest.take 16)) (E (Spec.counterBlock hdr i))).take
        (rest.take 16).length = Spec.xorBytes (rest.take 16) (E (Spec.counterBlock hdr i)) := by
      simp only [xor128, memcpyAt, List.take_zero, List.nil_append, Spec.xorBytes, List.take_zipWith]
      rw [List.take_append_of_le_length (by omega), List.take_length]
      exact zipWith_take_right _ _ _
    rw [hx]
    have hm : memcpyAt (done ++ rest) done.length (Spec.xorBytes (rest.take 16) (E (Spec.counterBlock hdr i)))
        = (done ++ Spec.xorBytes (rest.take 16) (E (Spec.counterBlock hdr i))) ++ rest.drop 16 := by
      simp only [memcpyAt]
      rw [List.take_left' rfl]
      congr 1
      rw [List.drop_append, List.drop_of_length_le (by omega), List.nil_append]
      rw [xorBytes_length, hb]
      by_cases h16 : 16 ≤ rest.length
      · congr 1; simp; omega
      · rw [List.drop_of_length_le (by simp; omega), List.drop_of_length_le (by omega)]
    rw [hm]
    have hxl : (Spec.xorBytes (rest.take 16) (E (Spec.counterBlock hdr i))).length = min 16 rest.length := by
      rw [xorBytes_length, hb]; simp
    by_cases hz : n = 0
    · subst hz
      have : rest.drop 16 = [] := List.drop_of_length_le (by omega)
      rw [this, payloadCrypt_nil]
      simp [loop]
    · have h16 : 16 < rest.length := by omega
      have hp : u8 (done.length + 16)
          = (done ++ Spec.xorBytes (rest.take 16) (E (Spec.counterBlock hdr i))).length := by
        rw [List.length_append, hxl, u8]; omega
      rw [hp, ih _ _ _ (by simp only [List.length_append, hxl, List.length_drop]; omega)
        (by simp; omega) (Or.inr (by simp only [List.length_append, hxl]; omega))]
      simp

end Ctr
end LDL
