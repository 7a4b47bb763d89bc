import Verif.Model.Cmac
import Verif.Lemmas.Ctr

/-! Helper lemmas for CMAC. -/

namespace LDL.Cmac

theorem xor128_eq (a b : Bytes) : xor128 a b = Spec.xorBytes a b := rfl

theorem memcpyAt_length {d s : Bytes} {off : Nat} (h : off + s.length ≤ d.length) :
    (memcpyAt d off s).length = d.length := by
  simp [memcpyAt]; omega

theorem memcpyAt_take {d s : Bytes} {off : Nat} (h : off + s.length ≤ d.length) :
    (memcpyAt d off s).take (off + s.length) = d.take off ++ s := by
  simp only [memcpyAt]
  rw [List.take_append_of_le_length (by simp; omega), List.take_of_length_le (by simp; omega)]

theorem drop_past (a b : Bytes) (n : Nat) : (a ++ b).drop (a.length + n) = b.drop n := by
  simp

theorem cbc_append (E : Bytes → Bytes) (x : Bytes) (ms ns : List Bytes) :
    Spec.cbc E x (ms ++ ns) = Spec.cbc E (Spec.cbc E x ms) ns := by
  induction ms generalizing x with
  | nil => rfl
  | cons m ms ih => simp only [List.cons_append, Spec.cbc, ih]

theorem blocks_succ (n : Nat) (msg : Bytes) :
    Spec.blocks (n + 1) msg = Spec.blocks n msg ++ [(msg.drop (16 * n)).take 16] := by
  simp [Spec.blocks, List.range_succ]

theorem blocks_prefix {n : Nat} {msg d : Bytes} (h : 16 * n ≤ msg.length) :
    Spec.blocks n (msg ++ d) = Spec.blocks n msg := by
  induction n with
  | zero => rfl
  | succ n ih =>
    rw [blocks_succ, blocks_succ, ih (by omega), List.drop_append_of_le_length (by omega),
      List.take_append_of_le_length (by simp; omega)]

theorem cbc_length {E : Bytes → Bytes} (hE : BlockFn E) {n : Nat} {msg : Bytes}
    (h : 16 * n ≤ msg.length) :
    (Spec.cbc E (List.replicate 16 0) (Spec.blocks n msg)).length = 16 := by
  induction n with
  | zero => simp [Spec.blocks, Spec.cbc]
  | succ n ih =>
    rw [blocks_succ, cbc_append]
    simp only [Spec.cbc]
    apply hE
    rw [xorBytes_length, ih (by omega)]
    simp; omega

/-- The chaining value after `n` blocks. -/
abbrev chain (E : Bytes → Bytes) (n : Nat) (msg : Bytes) : Bytes :=
  Spec.cbc E (List.replicate 16 0) (Spec.blocks n msg)

theorem chain_succ (E : Bytes → Bytes) (n : Nat) (msg : Bytes) :
    chain E (n + 1) msg = E (Spec.xorBytes (chain E n msg) ((msg.drop (16 * n)).take 16)) := by
  simp only [chain, blocks_succ, cbc_append, Spec.cbc]

/-- The loop over new blocks. `msg` was there before, `data` is new. -/
theorem blocksLoop_eq (E : Bytes → Bytes) (msg data : Bytes) (h8 : data.length ≤ 255) (n q : Nat)
    (m : Bytes) (part pos : Nat) (hm : m.length = 16) (hpart : part < 16)
    (hL : msg.length + pos = 16 * q + part)
    (htake : m.take part = ((msg ++ data).drop (16 * q)).take part)
    (hn : 16 * (q + n) ≤ msg.length + data.length) (hpos : pos ≤ data.length) :
    ∃ m' part' pos',
      blocksLoop E data n m (chain E q (msg ++ data)) part pos =
        (m', chain E (q + n) (msg ++ data), part', pos') ∧
      m'.length = 16 ∧ part' < 16 ∧ msg.length + pos' = 16 * (q + n) + part' ∧
      m'.take part' = ((msg ++ data).drop (16 * (q + n))).take part' ∧ pos' ≤ data.length := by
  induction n generalizing q m part pos with
  | zero => exact ⟨m, part, pos, rfl, hm, hpart, hL, htake, hpos⟩
  | succ n ih =>
    have hcl : ((data.drop pos).take (16 - part)).length = 16 - part := by simp; omega
    have hmem : memcpyAt m part ((data.drop pos).take (16 - part)) = ((msg ++ data).drop (16 * q)).take 16 := by
      have h1 := memcpyAt_take (d := m) (s := (data.drop pos).take (16 - part)) (off := part) (by omega)
      have h2 := memcpyAt_length (d := m) (s := (data.drop pos).take (16 - part)) (off := part) (by omega)
      rw [hcl, show part + (16 - part) = 16 by omega, List.take_of_length_le (by omega)] at h1
      rw [h1, htake]
      have h3 : data.drop pos = (msg ++ data).drop (16 * q + part) := by
        rw [← hL, drop_past]
      rw [h3, ← List.drop_drop]
      have := List.take_add (l := (msg ++ data).drop (16 * q)) (i := part) (j := 16 - part)
      rw [show part + (16 - part) = 16 by omega] at this
      exact this.symm
    simp only [blocksLoop]
    rw [hmem, xor128_eq, ← chain_succ E, u8, Nat.mod_eq_of_lt (by omega)]
    have := ih (q + 1) (((msg ++ data).drop (16 * q)).take 16) 0 (pos + (16 - part))
      (by simp; omega) (by omega) (by omega) (by simp) (by omega) (by omega)
    rw [show q + (n + 1) = q + 1 + n by omega]
    exact this

/-- What the context holds after the bytes `msg`. -/
structure Inv (E : Bytes → Bytes) (msg : Bytes) (c : Ctx) : Prop where
  size : c.size = msg.length % 256
  mlen : c.m.length = 16
  x : c.x = chain E ((msg.length - 1) / 16) msg
  m : c.m.take (msg.length - 16 * ((msg.length - 1) / 16)) = msg.drop (16 * ((msg.length - 1) / 16))

theorem inv_init (E : Bytes → Bytes) : Inv E [] init :=
  ⟨rfl, rfl, rfl, by simp⟩

theorem inv_update {E : Bytes → Bytes} {msg data : Bytes} {c : Ctx} (h : Inv E msg c)
    (hd : data.length ≤ 255) (hs : msg.length = 0 ∨ msg.length % 256 ≠ 0) :
    Inv E (msg ++ data) (update E c data) := by
  by_cases hz : data.length = 0
  · have : data = [] := List.length_eq_zero_iff.mp hz
    subst this
    simp only [update]
    rw [if_neg (by simp), List.append_nil]
    exact h
  have h0 : data.length > 0 := by omega
  have hsz := h.size
  have hpart : c.size % 16 = msg.length % 16 := by omega
  obtain ⟨q, hq⟩ : ∃ q, msg.length = 16 * q + msg.length % 16 := ⟨msg.length / 16, by omega⟩
  -- the state before copying the tail
  obtain ⟨m', part', pos', q', e, hm', hp', hL', ht', hpos', hq'⟩ : ∃ m' part' pos' q',
      (if (c.size % 16 = 0 ∧ c.size > 0) ∨ c.size % 16 + data.length > 16 then
        (let x := if c.size % 16 = 0 ∧ c.size > 0 then E (xor128 c.x c.m) else c.x
         let blocks := u8 ((c.size % 16 + data.length) / 16)
         let blocks := if (c.size % 16 + data.length) % 16 = 0 then blocks - 1 else blocks
         blocksLoop E data blocks c.m x (c.size % 16) 0)
      else (c.m, c.x, c.size % 16, 0)) = (m', chain E q' (msg ++ data), part', pos') ∧
      m'.length = 16 ∧ part' < 16 ∧ msg.length + pos' = 16 * q' + part' ∧
      m'.take part' = ((msg ++ data).drop (16 * q')).take part' ∧ pos' ≤ data.length ∧
      q' = (msg.length + data.length - 1) / 16 := by
    have htake : msg.length % 16 ≠ 0 ∨ msg.length = 0 →
        c.m.take (msg.length % 16) = ((msg ++ data).drop (16 * q)).take (msg.length % 16) := by
      intro hh
      have e1 : (msg.length - 1) / 16 = q := by omega
      have hm := h.m
      rw [e1, show msg.length - 16 * q = msg.length % 16 by omega] at hm
      rw [hm, List.drop_append_of_le_length (by omega), List.take_append_of_le_length (by simp; omega)]
      rw [List.take_of_length_le (by simp; omega)]
    have hx : (if c.size % 16 = 0 ∧ c.size > 0 then E (xor128 c.x c.m) else c.x) = chain E q (msg ++ data) := by
      by_cases hc : c.size % 16 = 0 ∧ c.size > 0
      · rw [if_pos hc]
        obtain ⟨k, hk⟩ : ∃ k, q = k + 1 := ⟨q - 1, by omega⟩
        have e1 : (msg.length - 1) / 16 = k := by omega
        have hm := h.m
        have hmx := h.x
        rw [e1] at hm hmx
        rw [List.take_of_length_le (by rw [h.mlen]; omega)] at hm
        rw [hk, chain_succ, xor128_eq, hmx, hm]
        have e2 : chain E k (msg ++ data) = chain E k msg := by
          simp only [chain]; rw [blocks_prefix (by omega)]
        rw [e2, List.drop_append_of_le_length (by omega), List.take_append_of_le_length (by simp; omega),
          List.take_of_length_le (by simp; omega)]
      · rw [if_neg hc, h.x]
        have e1 : (msg.length - 1) / 16 = q := by omega
        rw [e1]
        simp only [chain]; rw [blocks_prefix (by omega)]
    by_cases hc : (c.size % 16 = 0 ∧ c.size > 0) ∨ c.size % 16 + data.length > 16
    · rw [if_pos hc]
      simp only [hx]
      have hb : (if (c.size % 16 + data.length) % 16 = 0 then u8 ((c.size % 16 + data.length) / 16) - 1
          else u8 ((c.size % 16 + data.length) / 16)) = (msg.length % 16 + data.length - 1) / 16 := by
        have hu : u8 ((msg.length % 16 + data.length) / 16) = (msg.length % 16 + data.length) / 16 :=
          Nat.mod_eq_of_lt (by omega)
        rw [hpart, hu]
        split <;> omega
      rw [hb, hpart]
      obtain ⟨m', part', pos', a1, a2, a3, a4, a5, a6⟩ := blocksLoop_eq E msg data hd
        ((msg.length % 16 + data.length - 1) / 16) q c.m (msg.length % 16) 0 h.mlen (by omega)
        (by omega) (by
          by_cases hz : msg.length % 16 = 0
          · simp [hz]
          · exact htake (Or.inl hz)) (by omega) (by omega)
      exact ⟨m', part', pos', _, a1, a2, a3, a4, a5, a6, by omega⟩
    · rw [if_neg hc]
      have hcx := hx
      rw [if_neg (by omega)] at hcx
      refine ⟨c.m, c.size % 16, 0, q, by rw [hcx], h.mlen, by omega, by omega, ?_, by omega, by omega⟩
      rw [hpart]
      by_cases hz : msg.length % 16 = 0
      · simp [hz]
      · exact htake (Or.inl hz)
  simp only [update]
  rw [if_pos h0]
  have e' := e
  simp only at e'
  rw [e']
  have hlen : (msg ++ data).length = msg.length + data.length := by simp
  have htmp : (data.drop pos').take (data.length - pos') = (msg ++ data).drop (16 * q' + part') := by
    rw [List.take_of_length_le (by simp), ← hL', drop_past]
  have htl : ((msg ++ data).drop (16 * q' + part')).length = msg.length + data.length - (16 * q' + part') := by
    simp
  refine ⟨?_, ?_, ?_, ?_⟩
  · simp only [u8, hlen, hsz]; omega
  · dsimp only
    rw [memcpyAt_length, hm']
    rw [htmp, htl]; omega
  · rw [hlen, hq']
  · dsimp only
    rw [hlen, ← hq', htmp]
    have := memcpyAt_take (d := m') (s := (msg ++ data).drop (16 * q' + part')) (off := part') (by rw [htl]; omega)
    rw [htl, show part' + (msg.length + data.length - (16 * q' + part')) = msg.length + data.length - 16 * q' by omega] at this
    rw [this, ht', ← List.drop_drop, List.take_append_drop]

end LDL.Cmac
