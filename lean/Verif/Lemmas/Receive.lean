import Verif.Model.Data
import Verif.Lemmas.Decode

/-!
# Frame types of accepted frames
-/

namespace LDL
open LDL.Stream

namespace Frame

theorem dataType {s : Stream} {g f : Down} (h : (decodeData s g).1 = some f) : f.type = g.type := by
  simp only [decodeData] at h
  split at h <;>
    (rw [Option.ite_none_right_eq_some] at h; obtain ⟨_, h⟩ := h; injection h with h; rw [← h])

theorem joinType {s : Stream} {g f : Down} (h : (decodeJoinAccept s g).1 = some f) : f.type = g.type := by
  simp only [decodeJoinAccept] at h
  split at h <;>
    (rw [Option.ite_none_right_eq_some] at h; obtain ⟨_, h⟩ := h; injection h with h; rw [← h])

/-- The decoded type is that of the first byte. -/
theorem decode_type {v11 : Bool} {buf : Bytes} {n : Nat} {f : Down} (h8 : n ≤ 255) (hm : n ≤ buf.length)
    (h : decode v11 buf n = some f) :
    0 < n ∧ getFrameType v11 (Spec.leValue (buf.take 1)) = some f.type ∧
    (f.type = JOIN_ACCEPT ∨ f.type = DATA_UNCONFIRMED_DOWN ∨ f.type = DATA_CONFIRMED_DOWN) := by
  have h0 : 0 < n := by
    rcases Nat.eq_zero_or_pos n with h0 | h0
    · subst h0
      exfalso
      unfold decode decodeS at h
      simp only [getU8_fail (s := Stream.initReadOnly buf 0) rfl (by simp [initReadOnly])] at h
      cases h
    · exact h0
  refine ⟨h0, ?_⟩
  unfold decode at h
  rw [decodeS_tag v11 buf n h0 hm h8] at h
  split at h
  · simp at h
  · next t ht =>
    split at h
    · next hj => have := joinType h; simp only at this; rw [ht, this]; exact ⟨rfl, Or.inl hj⟩
    · split at h
      · next hd => have := dataType h; simp only at this; rw [ht, this]; exact ⟨rfl, Or.inr hd⟩
      · simp at h

end Frame

open Frame

theorem rxBuffer_length (e : Env) : e.rxBuffer.length = 255 := by
  unfold Env.rxBuffer Env.received
  have h : (List.replicate 255 (0 : UInt8)).length = 255 := List.length_replicate
  generalize List.replicate 255 (0 : UInt8) = z at *
  simp only [memcpyAt, List.take_zero, List.nil_append, List.length_append, List.length_drop, List.length_take]
  omega

theorem received_length (e : Env) : e.received.length ≤ 255 := by
  unfold Env.received; rw [List.length_take]; omega

theorem memcpyAt_take1 (buf x : Bytes) (off : Nat) (h0 : 0 < off) (hb : 0 < buf.length) :
    (memcpyAt buf off x).take 1 = buf.take 1 := by
  unfold memcpyAt
  rw [List.append_assoc, List.take_append_of_le_length (by rw [List.length_take]; omega), List.take_take,
    Nat.min_eq_left (by omega)]

theorem memcpyAt_len_ge (buf x : Bytes) (off : Nat) : buf.length ≤ (memcpyAt buf off x).length := by
  unfold memcpyAt
  simp only [List.length_append, List.length_take, List.length_drop]; omega

/-- The buffer after decryption of a join accept keeps its first byte and does not shrink. -/
theorem joinBuffer (cfg : Cfg) (keys : Nat → Bytes) (k : KeyDesc) (buf : Bytes) (len : Nat) (hb : 0 < buf.length) :
    let b1 := Sm.ecbAt cfg keys k buf 1
    let b2 := if len = sizeofJoinAccept true then Sm.ecbAt cfg keys k b1 (sizeofJoinAccept false) else b1
    b2.take 1 = buf.take 1 ∧ buf.length ≤ b2.length := by
  have h1 : (Sm.ecbAt cfg keys k buf 1).take 1 = buf.take 1 := memcpyAt_take1 _ _ _ (by decide) hb
  have l1 : buf.length ≤ (Sm.ecbAt cfg keys k buf 1).length := memcpyAt_len_ge ..
  simp only []
  split
  · exact ⟨(memcpyAt_take1 _ _ _ (by decide) (by omega)).trans h1, Nat.le_trans l1 (memcpyAt_len_ge ..)⟩
  · exact ⟨h1, l1⟩

/-- What acceptance of a frame means, by kind. -/
theorem receiveFrame_cases {cfg : Cfg} {m : Mac} {buf buf' : Bytes} {len : Nat} {f : Frame.Down}
    (h8 : len ≤ 255) (hm : len ≤ buf.length) (h : Ops.receiveFrame cfg m buf len = (some f, buf')) :
    (f.type = JOIN_ACCEPT ∧ (m.op = .joining ∨ m.op = .rejoining) ∧
      Ops.receiveJoinAccept cfg m buf len = (some f, buf')) ∨
    ((f.type = DATA_UNCONFIRMED_DOWN ∨ f.type = DATA_CONFIRMED_DOWN) ∧
      (m.op = .rejoining ∨ m.op = .dataUnconfirmed ∨ m.op = .dataConfirmed) ∧
      decode cfg.v11 buf len = some f ∧ Ops.receiveData cfg m f buf len = (some f, buf')) := by
  unfold Ops.receiveFrame at h
  split at h
  · simp at h
  · next f0 hf0 =>
    obtain ⟨h0, ht0, _⟩ := decode_type h8 hm hf0
    split at h
    · next hj =>
      split at h
      · next hop =>
        refine Or.inl ⟨?_, hop, h⟩
        unfold Ops.receiveJoinAccept at h
        simp only [] at h
        have hbuf := joinBuffer cfg m.keys (if m.op = .joining then .nwk else .jsEnc) buf len (by omega)
        simp only [] at hbuf
        generalize (if len = sizeofJoinAccept true then Sm.ecbAt cfg m.keys (if m.op = .joining then .nwk else .jsEnc)
          (Sm.ecbAt cfg m.keys (if m.op = .joining then .nwk else .jsEnc) buf 1) (sizeofJoinAccept false)
          else Sm.ecbAt cfg m.keys (if m.op = .joining then .nwk else .jsEnc) buf 1) = b2 at *
        split at h
        · simp at h
        · next f1 hf1 =>
          obtain ⟨_, ht1, _⟩ := decode_type h8 (by omega) hf1
          rw [hbuf.1, ht0, hj] at ht1
          injection ht1 with ht1
          split at h
          · simp at h
          · simp only [Prod.mk.injEq] at h
            obtain ⟨h, _⟩ := h
            rw [Option.ite_none_right_eq_some] at h
            obtain ⟨_, h⟩ := h
            injection h with h
            rw [← h, ← ht1]
      · simp at h
    · split at h
      · next hd =>
        split at h
        · next hop =>
          have hf : f = f0 := by
            unfold Ops.receiveData at h
            by_cases ha : m.ctx.devAddr = f0.devAddr
            · rw [if_pos ha] at h
              simp only [] at h
              split at h
              · simp only [Prod.mk.injEq, Option.some.injEq] at h; exact h.1.symm
              · cases h
            · rw [if_neg ha] at h; cases h
          subst hf
          exact Or.inr ⟨hd, hop, hf0, h⟩
        · simp at h
      · simp at h

end LDL
