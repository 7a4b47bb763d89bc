import Verif.Lemmas.Life
import Verif.Spec.Join
import Verif.Props.Decode

/-!
# Join accepts
-/

namespace LDL
open Spec

/-- The receive buffer after decryption of a join accept. -/
theorem joinOpened {cfg : Cfg} (hE : ∀ k, BlockFn (cfg.E k)) (keys : Nat → Bytes) (k : KeyDesc) (phy tail : Bytes)
    (hl : phy.length = 17 ∨ phy.length = 33) :
    ∃ o, openJoin (cfg.E (Sm.key cfg keys k)) phy = some o ∧ o.length = phy.length ∧ o.take 1 = phy.take 1 ∧
      (if phy.length = Frame.sizeofJoinAccept true then
        Sm.ecbAt cfg keys k (Sm.ecbAt cfg keys k (phy ++ tail) 1) (Frame.sizeofJoinAccept false)
      else Sm.ecbAt cfg keys k (phy ++ tail) 1) = o ++ tail := by
  have h33 : Frame.sizeofJoinAccept true = 33 := rfl
  have h17 : Frame.sizeofJoinAccept false = 17 := rfl
  have e1 : Sm.ecbAt cfg keys k (phy ++ tail) 1 =
      phy.take 1 ++ cfg.E (Sm.key cfg keys k) ((phy.drop 1).take 16) ++ (phy.drop 17 ++ tail) := by
    unfold Sm.ecbAt memcpyAt
    rw [List.take_append_of_le_length (by omega), List.drop_append_of_le_length (by omega),
      List.take_append_of_le_length (by rw [List.length_drop]; omega)]
    have : (cfg.E (Sm.key cfg keys k) ((phy.drop 1).take 16)).length = 16 :=
      hE _ _ (by rw [List.length_take, List.length_drop]; omega)
    rw [this, List.drop_append_of_le_length (by omega)]
  have l1 : (cfg.E (Sm.key cfg keys k) ((phy.drop 1).take 16)).length = 16 :=
      hE _ _ (by rw [List.length_take, List.length_drop]; omega)
  rw [e1, h33, h17]
  unfold openJoin
  rcases hl with hl | hl
  · rw [if_pos hl, if_neg (by omega)]
    have : (phy.drop 1).take 16 = phy.drop 1 := List.take_of_length_le (by rw [List.length_drop]; omega)
    rw [this] at l1 ⊢
    have hd : phy.drop 17 = [] := List.drop_eq_nil_of_le (by omega)
    refine ⟨_, rfl, ?_, ?_, ?_⟩
    · rw [List.length_append, List.length_take, l1]; omega
    · rw [List.take_append_of_le_length (by rw [List.length_take]; omega), List.take_take]
      rfl
    · rw [hd, List.nil_append]
  · rw [if_neg (by omega), if_pos hl, if_pos hl]
    have l2 : (cfg.E (Sm.key cfg keys k) (phy.drop 17)).length = 16 := hE _ _ (by rw [List.length_drop]; omega)
    refine ⟨_, rfl, ?_, ?_, ?_⟩
    · rw [List.length_append, List.length_append, List.length_take, l1, l2]; omega
    · rw [List.append_assoc, List.take_append_of_le_length (by rw [List.length_take]; omega), List.take_take]
      rfl
    · unfold Sm.ecbAt memcpyAt
      have l0 : (phy.take 1 ++ cfg.E (Sm.key cfg keys k) ((phy.drop 1).take 16)).length = 17 := by
        rw [List.length_append, List.length_take, l1]; omega
      rw [List.take_left' l0, List.drop_left' l0,
        List.take_left' (by rw [List.length_drop]; omega), l2]
      rw [← List.append_assoc _ (phy.drop 17) tail]
      rw [List.drop_left' (by rw [List.length_append, l0, List.length_drop]; omega)]

theorem encode_length {ja : JoinAccept} (hw : ja.WF) : (ja.encode.length = 17 ∨ ja.encode.length = 33) ∧
    ja.body.length + 4 = ja.encode.length ∧ ja.encode.take 1 = [0x20] ∧ 13 ≤ ja.body.length := by
  have hb : ja.body.length = 13 + (ja.cfList.getD []).length := by
    unfold JoinAccept.body
    simp [Stream.le_length]
    omega
  have he : ja.encode.length = ja.body.length + 4 := by
    unfold JoinAccept.encode; rw [List.length_append, Stream.le_length]
  refine ⟨?_, he.symm, rfl, by omega⟩
  rw [he, hb]
  cases hc : ja.cfList with
  | none => simp
  | some l => have := hw.cfList l hc; simp [this]

theorem sm_mic_js {cfg : Cfg} (hE : ∀ k, BlockFn (cfg.E k)) (keys : Nat → Bytes) (k : KeyDesc) (h msg : Bytes)
    (hm : h.length + msg.length ≤ 255) :
    Sm.mic cfg keys k h msg = Spec.micOf (cfg.E (Sm.key cfg keys k)) (h ++ msg) := by
  have h := c12_cmac_upto_255 (hE (Sm.key cfg keys k)) [h, msg] (by simpa using hm)
  simp only [macOf, List.foldl_cons, List.foldl_nil, List.flatten_cons, List.flatten_nil, List.nil_append,
    List.append_nil] at h
  unfold Sm.mic
  simp only []
  rw [h, take4_value (by rw [cmac_length (hE _)]; omega)]
  rfl

/-- The header of the MIC of a 1.1 join accept. -/
theorem jsHeader (m : Mac) (hj : m.joinEUI.length = 8) (ho : m.op = .joining) :
    (let s := Stream.init Ops.zeroBlock 16
     let s := (s.putU8 (if m.op = .rejoining then 2 else 0xff)).2
     let s := (s.putEUI m.joinEUI).2
     let s := (s.putU16 m.ctx.devNonce).2
     s.mem.take s.tell) = [0xff] ++ m.joinEUI.reverse ++ le 2 m.ctx.devNonce := by
  rw [ho]
  obtain ⟨a, b, c, d, e, f, g, h, hh⟩ : ∃ a b c d e f g h, m.joinEUI = [a, b, c, d, e, f, g, h] := by
    match m.joinEUI, hj with
    | [a, b, c, d, e, f, g, h], _ => exact ⟨a, b, c, d, e, f, g, h, rfl⟩
  rw [hh]
  have hs := Stream.writes_ok (s := Stream.init Ops.zeroBlock 16) [[0xff], [h, g, f, e, d, c, b, a], Stream.bytes16 m.ctx.devNonce]
    rfl rfl (by simp [Stream.bytes16, Stream.init]) (by simp [Stream.init, Ops.zeroBlock]) (by simp [Stream.init])
  show (let s := Stream.writes (Stream.init Ops.zeroBlock 16) [[0xff], [h, g, f, e, d, c, b, a], Stream.bytes16 m.ctx.devNonce]
    s.mem.take s.tell) = _
  rw [hs]
  simp only [Stream.tell, Stream.init, List.take_zero, List.nil_append, Nat.zero_add, Stream.bytes16_eq]
  rw [List.take_left' (by simp [Stream.le_length, u8])]
  simp

/-- Which join accepts are accepted while joining. -/
theorem receiveJoin_iff {cfg : Cfg} (hE : ∀ k, BlockFn (cfg.E k)) {m : Mac} (ho : m.op = .joining)
    (hj : m.joinEUI.length = 8) (phy tail : Bytes) (h8 : phy.length ≤ 255) (f : Frame.Down) (buf : Bytes) :
    Ops.receiveFrame cfg m (phy ++ tail) phy.length = (some f, buf) ↔
    ∃ ja : JoinAccept, ja.WF ∧ openJoin (cfg.E (Sm.key cfg m.keys .nwk)) phy = some ja.encode ∧
      f = downOfJoinAccept ja ∧ buf = ja.encode ++ tail ∧
      (cfg.version ≠ .v103 → m.joinNonce ≤ ja.joinNonce) ∧
      ja.mic = joinAcceptMic cfg.E cfg.v11 (Sm.key cfg m.keys .nwk) (Sm.key cfg m.keys .jsInt) m.joinEUI
        m.ctx.devNonce ja := by
  have htake : phy.length ≤ (phy ++ tail).length := by simp
  have key : phy.length = 17 ∨ phy.length = 33 → phy.take 1 = [0x20] →
      (Ops.receiveJoinAccept cfg m (phy ++ tail) phy.length = (some f, buf) ↔
    ∃ ja : JoinAccept, ja.WF ∧ openJoin (cfg.E (Sm.key cfg m.keys .nwk)) phy = some ja.encode ∧
      f = downOfJoinAccept ja ∧ buf = ja.encode ++ tail ∧
      (cfg.version ≠ .v103 → m.joinNonce ≤ ja.joinNonce) ∧
      ja.mic = joinAcceptMic cfg.E cfg.v11 (Sm.key cfg m.keys .nwk) (Sm.key cfg m.keys .jsInt) m.joinEUI
        m.ctx.devNonce ja) := by
    intro hl h20
    obtain ⟨o, ho1, ho2, ho3, ho4⟩ := joinOpened hE m.keys .nwk phy tail hl
    have hmicOf : ∀ ja : JoinAccept, ja.WF → o = ja.encode →
        (if cfg.v11 = true ∧ (downOfJoinAccept ja).optNeg = true then
          let s := Stream.init Ops.zeroBlock 16
          let s := (s.putU8 (if m.op = .rejoining then 2 else 0xff)).2
          let s := (s.putEUI m.joinEUI).2
          let s := (s.putU16 m.ctx.devNonce).2
          Sm.mic cfg m.keys .jsInt (s.mem.take s.tell) ((o ++ tail).take (u8 (phy.length + 252)))
        else
          Sm.mic cfg m.keys .nwk [] ((o ++ tail).take (u8 (phy.length + 252)))) =
        joinAcceptMic cfg.E cfg.v11 (Sm.key cfg m.keys .nwk) (Sm.key cfg m.keys .jsInt) m.joinEUI m.ctx.devNonce ja := by
      intro ja hw hoe
      obtain ⟨hl', hb, _, _⟩ := encode_length hw
      have hbody : (o ++ tail).take (u8 (phy.length + 252)) = ja.body := by
        rw [hoe]
        unfold JoinAccept.encode
        rw [List.append_assoc]
        refine List.take_left' ?_
        rw [hoe] at ho2
        unfold u8
        omega
      rw [hbody]
      unfold joinAcceptMic
      show (if cfg.v11 = true ∧ ja.optNeg = true then _ else _) = _
      have hx := jsHeader m hj ho
      simp only [] at hx ⊢
      rw [hx]
      split
      · rw [sm_mic_js hE _ _ _ _ (by simp [Stream.le_length, hj]; omega)]
      · rw [sm_mic_js hE _ _ _ _ (by simp; omega)]
        rfl
    unfold Ops.receiveJoinAccept
    simp only [if_pos ho]
    rw [ho4]
    constructor
    · intro h
      split at h
      · cases h
      · next g hg =>
        rw [← ho2] at hg
        have hty : g.type = 1 := by
          obtain ⟨h0, ht, _⟩ := Frame.decode_type (by omega) (by simp) hg
          rw [List.take_append_of_le_length (by omega), ho3, h20] at ht
          have : Frame.getFrameType cfg.v11 (leValue [0x20]) = some 1 := by cases cfg.v11 <;> decide +kernel
          rw [this] at ht
          injection ht with ht
          exact ht.symm
        obtain ⟨ja, hw, hoe, hge⟩ := c07_only_join_accepts cfg.v11 o tail (by omega) g hg hty
        rw [hge] at h
        have hm := hmicOf ja hw hoe
        simp only [] at hm h
        rw [hm] at h
        split at h
        · cases h
        · next hn =>
          rw [Prod.mk.injEq, Option.ite_none_right_eq_some] at h
          obtain ⟨⟨hmic, hf⟩, hb⟩ := h
          injection hf with hf
          refine ⟨ja, hw, by rw [ho1, hoe], hf.symm, by rw [← hb, hoe], ?_, hmic⟩
          intro hv
          exact Nat.le_of_not_lt fun hlt => hn ⟨hv, hlt⟩
    · rintro ⟨ja, hw, hopen, hf, hb, hn, hmic⟩
      rw [ho1] at hopen
      injection hopen with hoe
      have hm := hmicOf ja hw hoe
      have hd := (c07_fields cfg.v11 ja hw tail).1
      rw [← hoe, ho2] at hd
      rw [hd]
      simp only [] at hm ⊢
      rw [hm, if_neg (by
        rintro ⟨hv, hlt⟩
        have := hn hv
        exact absurd hlt (Nat.not_lt.2 this)), if_pos (by exact hmic), ← hf, hb, hoe]
  constructor
  · intro h
    rcases receiveFrame_cases h8 htake h with ⟨ht, _, hr⟩ | ⟨_, hop, _⟩
    · have hd : ∃ g, Frame.decode cfg.v11 (phy ++ tail) phy.length = some g ∧ g.type = 1 := by
        unfold Ops.receiveFrame at h
        split at h
        · cases h
        · next g hg =>
          refine ⟨g, hg, ?_⟩
          split at h
          · next hx => exact hx
          · split at h
            · rw [if_neg (by rw [ho]; simp)] at h; cases h
            · cases h
      obtain ⟨g, hg, hgt⟩ := hd
      obtain ⟨ja, hw, hp, _⟩ := c07_only_join_accepts cfg.v11 phy tail h8 g hg hgt
      obtain ⟨hl, _, h20, _⟩ := encode_length hw
      rw [← hp] at hl h20
      exact (key hl h20).1 hr
    · rw [ho] at hop; simp at hop
  · rintro ⟨ja, hw, hopen, rest⟩
    obtain ⟨hl', _, h20, _⟩ := encode_length hw
    have hl : phy.length = 17 ∨ phy.length = 33 := by
      unfold openJoin at hopen
      split at hopen
      · next h => exact Or.inl h
      · split at hopen
        · next h => exact Or.inr h
        · cases hopen
    obtain ⟨o, ho1, ho2, ho3, _⟩ := joinOpened hE m.keys .nwk phy tail hl
    have h1 : phy.take 1 = [0x20] := by
      rw [ho1] at hopen
      injection hopen with hoe
      rw [← ho3, hoe, h20]
    have hd : ∃ g, Frame.decode cfg.v11 (phy ++ tail) phy.length = some g ∧ g.type = 1 := by
      have h0 : phy.head? = some 0x20 := by
        cases phy with
        | nil => simp at h1
        | cons a l => simp at h1; simp [h1]
      have := (c07_accepts_iff cfg.v11 phy tail h8 h0).2 hl
      obtain ⟨g, hg⟩ := Option.isSome_iff_exists.1 this
      refine ⟨g, hg, ?_⟩
      obtain ⟨_, ht, _⟩ := Frame.decode_type h8 htake hg
      rw [List.take_append_of_le_length (by omega), h1] at ht
      have : Frame.getFrameType cfg.v11 (leValue [0x20]) = some 1 := by cases cfg.v11 <;> decide +kernel
      rw [this] at ht
      injection ht with ht
      exact ht.symm
    obtain ⟨g, hg, hgt⟩ := hd
    have := (key hl h1).2 ⟨ja, hw, hopen, rest⟩
    unfold Ops.receiveFrame
    rw [hg]
    simp only []
    rw [if_pos (show g.type = Frame.JOIN_ACCEPT from hgt), if_pos (Or.inl ho), this]

end LDL
