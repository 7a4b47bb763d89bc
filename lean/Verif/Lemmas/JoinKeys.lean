import Verif.Lemmas.Join

/-!
# Key derivation
-/

namespace LDL
open Spec LDL.Stream

/-- A stream over one block that can be written. -/
structure Blk (s : Stream) : Prop where
  writable : s.writable = true
  error : s.error = false
  size : s.size = 16
  mem : s.mem.length = 16

theorem block_start (cs : List Bytes) (h : cs.flatten.length ≤ 16) :
    Blk ((Stream.init Ops.zeroBlock 16).writes cs) ∧
    ((Stream.init Ops.zeroBlock 16).writes cs).mem = cs.flatten ++ List.replicate (16 - cs.flatten.length) 0 := by
  have hs := writes_ok (s := Stream.init Ops.zeroBlock 16) cs rfl rfl (by simpa [Stream.init] using h) (by decide) (by decide)
  have hm : ((Stream.init Ops.zeroBlock 16).writes cs).mem =
      cs.flatten ++ List.replicate (16 - cs.flatten.length) 0 := by
    rw [hs]
    simp only [Stream.init, List.take_zero, List.nil_append, Nat.zero_add, Ops.zeroBlock, List.drop_replicate]
  refine ⟨⟨?_, ?_, ?_, ?_⟩, hm⟩
  · rw [hs]; rfl
  · rw [hs]; rfl
  · rw [hs]; rfl
  · rw [hm, List.length_append, List.length_replicate]; omega

theorem retag_blk {s : Stream} (h : Blk s) (v : Nat) :
    Blk (Ops.retag s v) ∧ (Ops.retag s v).mem = UInt8.ofNat v :: s.mem.drop 1 := by
  have hm := h.mem
  have hs := write_ok (s := s.rewind) (bs := [UInt8.ofNat v]) h.writable h.error
    (by show 0 + 1 ≤ s.size; rw [h.size]; omega) (by show s.size ≤ s.mem.length; rw [h.size, h.mem])
    (by show s.size ≤ 255; rw [h.size]; omega)
  have e : Ops.retag s v = (s.rewind.write [UInt8.ofNat v]).2 := rfl
  rw [e, hs]
  refine ⟨⟨h.writable, h.error, h.size, ?_⟩, ?_⟩
  · simp [rewind]; omega
  · simp [rewind]

theorem upd_eq {α : Type} (f : Nat → α) (i : Nat) (v : α) : upd f i v i = v := by simp [upd]

theorem upd_ne {α : Type} (f : Nat → α) {i j : Nat} (v : α) (h : j ≠ i) : upd f i v j = f j := by simp [upd, h]

theorem eui_bytes {b : Bytes} (h : b.length = 8) : [b.getD 7 0, b.getD 6 0, b.getD 5 0, b.getD 4 0,
           b.getD 3 0, b.getD 2 0, b.getD 1 0, b.getD 0 0] = b.reverse := by
  match b, h with
  | [a, b, c, d, e, f, g, h], _ => rfl

/-- Keys of which derivations are made. -/
structure SameRoots (cfg : Cfg) (k k' : Nat → Bytes) : Prop where
  nwk : Sm.key cfg k' .nwk = Sm.key cfg k .nwk
  app : Sm.key cfg k' .app = Sm.key cfg k .app

theorem update_roots (cfg : Cfg) (k : Nat → Bytes) (x r : KeyDesc) (iv : Bytes) :
    SameRoots cfg k (Sm.updateSessionKey cfg k x r iv) := by
  constructor <;> unfold Sm.key Sm.updateSessionKey <;> cases x <;>
    first
    | rfl
    | (simp only []; refine upd_ne _ _ ?_; unfold Sm.slot; cases cfg.v11 <;> simp)

theorem SameRoots.trans {cfg : Cfg} {a b c : Nat → Bytes} (h : SameRoots cfg a b) (h' : SameRoots cfg b c) :
    SameRoots cfg a c := ⟨h'.nwk.trans h.nwk, h'.app.trans h.app⟩

theorem update_key (cfg : Cfg) (k : Nat → Bytes) (x r y : KeyDesc) (iv : Bytes) (hx : x ≠ .app ∧ x ≠ .nwk) :
    Sm.key cfg (Sm.updateSessionKey cfg k x r iv) y =
      if Sm.slot cfg y = Sm.slot cfg x then cfg.E (Sm.key cfg k r) iv else Sm.key cfg k y := by
  have e : Sm.updateSessionKey cfg k x r iv = upd k (Sm.slot cfg x) (cfg.E (Sm.key cfg k r) iv) := by
    unfold Sm.updateSessionKey
    cases x <;> first | rfl | exact absurd rfl hx.1 | exact absurd rfl hx.2
  rw [e]
  unfold Sm.key upd
  split <;> rfl

/-- The session keys of the code are those of the specification. -/
theorem deriveKeys_spec (cfg : Cfg) (m : Mac) (hj : m.joinEUI.length = 8) :
    ((cfg.v11 = true → m.ctx.version ≤ 1) → deviceKeys cfg (Ops.deriveKeys cfg m) = sessionKeys cfg.E (sess11 cfg m) (Sm.key cfg m.keys .app)
      (Sm.key cfg m.keys .nwk) m.ctx.joinNonce m.ctx.netID m.joinEUI m.ctx.devNonce) ∧
    SameRoots cfg m.keys (Ops.deriveKeys cfg m).keys ∧
    (cfg.v11 = true → Sm.key cfg (Ops.deriveKeys cfg m).keys .jsInt = Sm.key cfg m.keys .jsInt) := by
  unfold Ops.deriveKeys
  simp only []
  by_cases h0 : sessVersion cfg m.ctx = 0
  · have hs : sess11 cfg m = false := by unfold sess11; rw [h0]; rfl
    rw [if_pos h0, hs]
    obtain ⟨b1, m1⟩ := block_start [[UInt8.ofNat 1], bytes24 m.ctx.joinNonce, bytes24 m.ctx.netID,
      bytes16 m.ctx.devNonce] (by simp [bytes24, bytes16])
    have e1 : (((((Stream.init Ops.zeroBlock 16).putU8 1).2.putU24 m.ctx.joinNonce).2.putU24 m.ctx.netID).2.putU16
        m.ctx.devNonce).2 = (Stream.init Ops.zeroBlock 16).writes [[UInt8.ofNat 1], bytes24 m.ctx.joinNonce,
          bytes24 m.ctx.netID, bytes16 m.ctx.devNonce] := by
      simp only [putU8, putU16, putU24, Stream.writes, List.foldl_cons, List.foldl_nil]
    rw [e1]
    generalize (Stream.init Ops.zeroBlock 16).writes [[UInt8.ofNat 1], bytes24 m.ctx.joinNonce,
          bytes24 m.ctx.netID, bytes16 m.ctx.devNonce] = s1 at b1 m1
    obtain ⟨_, m2⟩ := retag_blk b1 2
    rw [m2]
    have hm1 : s1.mem = [1] ++ le 3 m.ctx.joinNonce ++ le 3 m.ctx.netID ++ le 2 m.ctx.devNonce ++
        List.replicate 7 0 := by
      rw [m1, bytes24_eq, bytes24_eq, bytes16_eq]
      simp [le_length]
    have hm2 : UInt8.ofNat 2 :: s1.mem.drop 1 = [2] ++ le 3 m.ctx.joinNonce ++ le 3 m.ctx.netID ++
        le 2 m.ctx.devNonce ++ List.replicate 7 0 := by
      rw [hm1]; simp
    rw [hm2, hm1]
    refine ⟨fun _ => ?_, ?_, ?_⟩
    · unfold deviceKeys sessionKeys sessionKeys10
      simp only [Bool.false_eq_true, if_false]
      rw [SessionKeys.mk.injEq]
      simp only [update_key cfg _ .fNwkSInt _ _ _ (by decide), update_key cfg _ .sNwkSInt _ _ _ (by decide),
        update_key cfg _ .nwkSEnc _ _ _ (by decide), update_key cfg _ .appS _ _ _ (by decide)]
      cases hv11 : cfg.v11 <;> simp [Sm.slot, hv11]
    · dsimp only
      exact (((update_roots ..).trans (update_roots ..)).trans (update_roots ..)).trans (update_roots ..)
    · intro hv11
      simp only [update_key cfg _ .fNwkSInt _ _ _ (by decide), update_key cfg _ .sNwkSInt _ _ _ (by decide),
        update_key cfg _ .nwkSEnc _ _ _ (by decide), update_key cfg _ .appS _ _ _ (by decide)]
      simp [Sm.slot, hv11]
  · have hv11 : cfg.v11 = true := by
      cases h : cfg.v11
      · exact absurd (by unfold sessVersion; rw [h]; rfl) h0
      · rfl
    rw [if_neg h0]
    obtain ⟨b1, m1⟩ := block_start [[UInt8.ofNat 1], bytes24 m.ctx.joinNonce, m.joinEUI.reverse,
      bytes16 m.ctx.devNonce] (by simp [bytes24, bytes16, hj])
    have e1 : (((((Stream.init Ops.zeroBlock 16).putU8 1).2.putU24 m.ctx.joinNonce).2.putEUI m.joinEUI).2.putU16
        m.ctx.devNonce).2 = (Stream.init Ops.zeroBlock 16).writes [[UInt8.ofNat 1], bytes24 m.ctx.joinNonce,
          m.joinEUI.reverse, bytes16 m.ctx.devNonce] := by
      rw [← eui_bytes hj]
      simp only [putU8, putU16, putU24, putEUI, Stream.writes, List.foldl_cons, List.foldl_nil]
    rw [e1]
    generalize (Stream.init Ops.zeroBlock 16).writes [[UInt8.ofNat 1], bytes24 m.ctx.joinNonce,
          m.joinEUI.reverse, bytes16 m.ctx.devNonce] = s1 at b1 m1
    obtain ⟨b2, m2⟩ := retag_blk b1 2
    obtain ⟨b3, m3⟩ := retag_blk b2 3
    obtain ⟨_, m4⟩ := retag_blk b3 4
    have hm1 : s1.mem = [1] ++ le 3 m.ctx.joinNonce ++ m.joinEUI.reverse ++ le 2 m.ctx.devNonce ++
        List.replicate 2 0 := by
      rw [m1, bytes24_eq, bytes16_eq]
      simp [le_length, hj]
    have hm : ∀ v : UInt8, v :: s1.mem.drop 1 = [v] ++ le 3 m.ctx.joinNonce ++ m.joinEUI.reverse ++
        le 2 m.ctx.devNonce ++ List.replicate 2 0 := by
      intro v; rw [hm1]; simp
    rw [m2, List.drop_succ_cons, List.drop_zero] at m3
    rw [m3, List.drop_succ_cons, List.drop_zero] at m4
    rw [m4, m3, m2, hm, hm, hm, hm1]
    refine ⟨fun hv => ?_, ?_, ?_⟩
    · have hv1 : m.ctx.version = 1 := by
        have := hv hv11
        unfold sessVersion at h0
        rw [if_pos hv11] at h0
        omega
      have hs : sess11 cfg m = true := by unfold sess11 sessVersion; rw [if_pos hv11, hv1]; rfl
      rw [hs]
      unfold deviceKeys sessionKeys sessionKeys11
      simp only [if_true]
      rw [SessionKeys.mk.injEq]
      simp only [update_key cfg _ .fNwkSInt _ _ _ (by decide), update_key cfg _ .sNwkSInt _ _ _ (by decide),
        update_key cfg _ .nwkSEnc _ _ _ (by decide), update_key cfg _ .appS _ _ _ (by decide)]
      simp [Sm.slot, hv11]
    · dsimp only
      exact (((update_roots ..).trans (update_roots ..)).trans (update_roots ..)).trans (update_roots ..)
    · intro _
      simp only [update_key cfg _ .fNwkSInt _ _ _ (by decide), update_key cfg _ .sNwkSInt _ _ _ (by decide),
        update_key cfg _ .nwkSEnc _ _ _ (by decide), update_key cfg _ .appS _ _ _ (by decide)]
      simp [Sm.slot, hv11]

theorem deriveJoinKeys_spec (cfg : Cfg) (m : Mac) (hj : m.devEUI.length = 8) :
    SameRoots cfg m.keys (Ops.deriveJoinKeys cfg m).keys ∧
    (cfg.v11 = true → Sm.key cfg (Ops.deriveJoinKeys cfg m).keys .jsInt =
      jsIntKey cfg.E (Sm.key cfg m.keys .nwk) m.devEUI) := by
  unfold Ops.deriveJoinKeys
  simp only []
  by_cases hv11 : cfg.v11 = true
  · rw [if_pos hv11]
    obtain ⟨b1, m1⟩ := block_start [[UInt8.ofNat 5], m.devEUI.reverse] (by simp [hj])
    have e1 : (((Stream.init Ops.zeroBlock 16).putU8 5).2.putEUI m.devEUI).2 =
        (Stream.init Ops.zeroBlock 16).writes [[UInt8.ofNat 5], m.devEUI.reverse] := by
      rw [← eui_bytes hj]
      simp only [putU8, putEUI, Stream.writes, List.foldl_cons, List.foldl_nil]
    rw [e1]
    generalize (Stream.init Ops.zeroBlock 16).writes [[UInt8.ofNat 5], m.devEUI.reverse] = s1 at b1 m1
    obtain ⟨b2, m2⟩ := retag_blk b1 6
    dsimp only
    refine ⟨(update_roots ..).trans (update_roots ..), fun _ => ?_⟩
    simp only [update_key cfg _ .jsInt _ _ _ (by decide), update_key cfg _ .jsEnc _ _ _ (by decide)]
    rw [m2, m1]
    simp [Sm.slot, hv11, jsIntKey, hj]
  · rw [if_neg hv11]
    exact ⟨⟨rfl, rfl⟩, fun h => absurd h hv11⟩

end LDL
