import Verif.Spec.CFList
import Verif.Props.Join
import Verif.Lemmas.Effects

/-!
# What a join accept sets: C53, C63
-/

namespace LDL
open Spec

theorem setChannel_any {s : Session} (hr : definable s.region = true) {i x : Nat} (hi : i < 16) (hx : x < 16777216) :
    ∃ cc, (setChannel s i (100 * x) 0 5).2 = { s with chConfig := cc } ∧
      ∀ j, chan { s with chConfig := cc } j =
        if j = i then
          if 100 * x = 0 then none else if channelFreq s.region (100 * x) = true then some (100 * x, 0, 5) else chan s j
        else chan s j := by
  have hn : s.region.numChannels = 16 := by
    revert hr; cases s.region <;> intro hr <;> first | rfl | exact absurd hr (by decide)
  by_cases h0 : 100 * x = 0
  · refine ⟨upd s.chConfig i 0, ?_, fun j => ?_⟩
    · unfold setChannel
      rw [if_pos ⟨by omega, hi⟩, if_pos h0]
    · rw [if_pos h0]
      by_cases hj : j = i
      · subst hj
        rw [if_pos rfl]
        have hu : upd s.chConfig j 0 j = 0 := if_pos rfl
        unfold chan
        simp only [hu]
        revert hr
        cases s.region <;> intro hr <;> first | exact absurd hr (by decide) | rw [if_neg (by omega)]
      · rw [if_neg hj]
        have hu : upd s.chConfig i 0 j = s.chConfig j := if_neg hj
        unfold chan
        simp only [hu]
  · by_cases hf : channelFreq s.region (100 * x) = true
    · obtain ⟨cc, h1, h2⟩ := setChannel_chan hr hi hf (by omega) (by omega) (show 0 < 16 by decide) (show 5 < 16 by decide)
      refine ⟨cc, h1, fun j => ?_⟩
      rw [h2 j, if_neg h0, if_pos hf]
    · refine ⟨s.chConfig, ?_, fun j => ?_⟩
      · unfold setChannel
        rw [if_pos ⟨by omega, hi⟩, if_neg h0, if_neg (by rw [validateFreq_eq]; exact hf)]
      · rw [if_neg h0, if_neg hf]
        split <;> rfl

theorem unpackCFListFreq_eq (l : Bytes) (k : Nat) (h : 3 * k + 2 < l.length) :
    ∃ x, x < 16777216 ∧ listedFreq l k = 100 * x ∧ Region.unpackCFListFreq l (3 * k) = 100 * x := by
  have hd : (l.drop (3 * k)).take 3 = [l.getD (3 * k) 0, l.getD (3 * k + 1) 0, l.getD (3 * k + 2) 0] := by
    apply List.ext_getElem
    · simp; omega
    · intro i h1 h2
      have : i < 3 := h2
      match i, this with
      | 0, _ => simp [List.getElem?_eq_getElem (show 3 * k < l.length by omega)]
      | 1, _ => simp [List.getElem?_eq_getElem (show 3 * k + 1 < l.length by omega)]
      | 2, _ => simp [List.getElem?_eq_getElem (show 3 * k + 2 < l.length by omega)]
  refine ⟨leValue ((l.drop (3 * k)).take 3), ?_, rfl, ?_⟩
  · rw [hd]
    exact Nat.lt_of_lt_of_le (Stream.leValue_lt _) (by simp)
  · unfold Region.unpackCFListFreq
    rw [hd]
    have ha := (l.getD (3 * k) 0).toNat_lt
    have hb := (l.getD (3 * k + 1) 0).toNat_lt
    have hc := (l.getD (3 * k + 2) 0).toNat_lt
    simp only [leValue]
    generalize (l.getD (3 * k) 0).toNat = a at *
    generalize (l.getD (3 * k + 1) 0).toNat = b at *
    generalize (l.getD (3 * k + 2) 0).toNat = c at *
    have e1 : c <<< 8 ||| b = c * 256 + b := by
      rw [← Nat.shiftLeft_add_eq_or_of_lt (by simpa using hb), Nat.shiftLeft_eq]
    rw [e1, ← Nat.shiftLeft_add_eq_or_of_lt (by simpa using ha), Nat.shiftLeft_eq]
    unfold u32
    omega

theorem processCFList_chan (s : Session) (l : Bytes) (hl : l.length = 16) :
    (∀ ch, chan (processCFList s l) ch = listedChan s.region l (chan s) ch) ∧
    (∀ ch, Masked (processCFList s l) ch ↔ listedMask s.region l (Masked s) ch) := by
  cases hd : definable s.region with
  | true =>
    have hp : processCFList s l = if l.getD 15 0 = 0 then (List.range 5).foldl
          (fun s k => (setChannel s (3 + k) (Region.unpackCFListFreq l (3 * k)) 0 5).2) s else s := by
      unfold processCFList
      rw [if_pos hl]
      revert hd
      cases s.region <;> intro hd <;> first | rfl | exact absurd hd (by decide)
    rw [hp]
    by_cases h0 : l.getD 15 0 = 0
    · rw [if_pos h0]
      have hfold : ∀ n ≤ 5, ∃ cc, (List.range n).foldl
          (fun s k => (setChannel s (3 + k) (Region.unpackCFListFreq l (3 * k)) 0 5).2) s = { s with chConfig := cc } ∧
          ∀ ch, chan { s with chConfig := cc } ch = if ch < 3 + n then listedChan s.region l (chan s) ch else chan s ch := by
        intro n
        induction n with
        | zero =>
          intro _
          refine ⟨s.chConfig, rfl, fun ch => ?_⟩
          by_cases hc : ch < 3 + 0
          · rw [if_pos hc]
            unfold listedChan
            rw [if_neg (by omega)]
          · rw [if_neg hc]
        | succ n ih =>
          intro hn
          obtain ⟨cc, h1, h2⟩ := ih (by omega)
          rw [List.range_succ, List.foldl_append, h1]
          simp only [List.foldl_cons, List.foldl_nil]
          obtain ⟨x, hx, hx1, hx2⟩ := unpackCFListFreq_eq l n (by omega)
          rw [hx2]
          obtain ⟨cc', h3, h4⟩ := setChannel_any (s := { s with chConfig := cc }) hd (i := 3 + n) (by omega) hx
          refine ⟨cc', h3, fun ch => ?_⟩
          have h4 := h4 ch
          change chan { s with chConfig := cc' } ch = _ at h4
          rw [h4, h2 ch]
          by_cases hc : ch = 3 + n
          · subst hc
            rw [if_pos rfl, if_neg (show ¬ 3 + n < 3 + n by omega), if_pos (show 3 + n < 3 + (n + 1) by omega)]
            have hL : listedChan s.region l (chan s) (3 + n) = if 100 * x = 0 then none
                else if channelFreq s.region (100 * x) = true then some (100 * x, 0, 5) else chan s (3 + n) := by
              unfold listedChan
              rw [if_pos ⟨hd, h0, by omega, by omega⟩, Nat.add_sub_cancel_left, hx1]
            rw [hL]
          · rw [if_neg hc]
            by_cases hc2 : ch < 3 + n
            · rw [if_pos hc2, if_pos (by omega)]
            · rw [if_neg hc2, if_neg (by omega)]
      obtain ⟨cc, h1, h2⟩ := hfold 5 (by decide)
      rw [h1]
      refine ⟨fun ch => ?_, fun ch => ?_⟩
      · rw [h2 ch]
        by_cases hc : ch < 3 + 5
        · rw [if_pos hc]
        · rw [if_neg hc]
          unfold listedChan
          rw [if_neg (by omega)]
      · unfold listedMask
        rw [if_neg (by rw [hd]; simp)]
        exact Iff.rfl
    · rw [if_neg h0]
      refine ⟨fun ch => ?_, fun ch => ?_⟩
      · unfold listedChan
        rw [if_neg (fun h => h0 h.2.1)]
      · unfold listedMask
        rw [if_neg (by rw [hd]; simp)]
  | false =>
    have hp : processCFList s l = if l.getD 15 0 = 1 then
        { s with chMask := (List.range 5).foldl (fun mask i => applyMask16 s.region (Region.unpackCFListMask l (2 * i)) (i * 16) mask) s.chMask } else s := by
      unfold processCFList
      rw [if_pos hl]
      revert hd
      cases s.region <;> intro hd <;> first | rfl | exact absurd hd (by decide)
    have hn : s.region.numChannels = 72 := by
      revert hd; cases s.region <;> intro hr <;> first | rfl | exact absurd hr (by decide)
    rw [hp]
    by_cases h0 : l.getD 15 0 = 1
    · rw [if_pos h0]
      refine ⟨fun ch => ?_, fun ch => ?_⟩
      · unfold listedChan
        rw [if_neg (by rw [hd]; simp)]
        rfl
      · have hfold : ∀ n, bit ((List.range n).foldl
            (fun mask i => applyMask16 s.region (Region.unpackCFListMask l (2 * i)) (i * 16) mask) s.chMask) ch =
            if ch < 16 * n ∧ ch < 72 then !(Region.unpackCFListMask l (2 * (ch / 16))).testBit (ch % 16) else bit s.chMask ch := by
          intro n
          induction n with
          | zero => rw [if_neg (by omega)]; rfl
          | succ n ih =>
            rw [List.range_succ, List.foldl_append]
            simp only [List.foldl_cons, List.foldl_nil]
            unfold applyMask16
            rw [applyMask_bit]
            unfold applyMask16 at ih
            rw [ih, hn]
            by_cases hc : n * 16 ≤ ch ∧ ch < n * 16 + 16 ∧ ch < 72 ∧ ch < 72
            · rw [if_pos hc, if_pos (by omega), show ch / 16 = n by omega, show ch - n * 16 = ch % 16 by omega]
            · rw [if_neg hc]
              by_cases hc2 : ch < 16 * n ∧ ch < 72
              · rw [if_pos hc2, if_pos (by omega)]
              · rw [if_neg hc2, if_neg (by omega)]
        have e1 : Masked { s with chMask := (List.range 5).foldl (fun mask i => applyMask16 s.region (Region.unpackCFListMask l (2 * i)) (i * 16) mask) s.chMask } ch ↔
            bit ((List.range 5).foldl
            (fun mask i => applyMask16 s.region (Region.unpackCFListMask l (2 * i)) (i * 16) mask) s.chMask) ch = true := Iff.rfl
        rw [e1, hfold 5]
        unfold listedMask
        by_cases hc : ch < 72
        · rw [if_pos ⟨by omega, hc⟩, if_pos ⟨hd, h0, hc⟩]
          have : (Region.unpackCFListMask l (2 * (ch / 16))).testBit (ch % 16) = listedEnabled l ch := by
            unfold Region.unpackCFListMask listedEnabled
            rw [Nat.testBit_or, Nat.testBit_shiftLeft]
            by_cases h8 : ch % 16 < 8
            · have : ¬ ch % 16 ≥ 8 := by omega
              simp only [this, decide_false, Bool.false_and, Bool.false_or]
              rw [show ch / 8 = 2 * (ch / 16) by omega, show ch % 8 = ch % 16 by omega]
            · have h8' : ch % 16 ≥ 8 := by omega
              have hz : (l.getD (2 * (ch / 16)) 0).toNat.testBit (ch % 16) = false := by
                apply Nat.testBit_lt_two_pow
                have := (l.getD (2 * (ch / 16)) 0).toNat_lt
                exact Nat.lt_of_lt_of_le this (Nat.pow_le_pow_right (n := 2) (by decide) h8')
              simp only [h8', decide_true, Bool.true_and, hz, Bool.or_false]
              rw [show ch / 8 = 2 * (ch / 16) + 1 by omega, show ch % 8 = ch % 16 - 8 by omega]
          rw [this]
          cases listedEnabled l ch <;> simp
        · rw [if_neg (fun h => hc h.2), if_neg (fun h => hc h.2.2)]
          exact Iff.rfl
    · rw [if_neg h0]
      refine ⟨fun ch => ?_, fun ch => ?_⟩
      · unfold listedChan
        rw [if_neg (by rw [hd]; simp)]
      · unfold listedMask
        rw [if_neg (fun h => h0 h.2.1)]

/-- Channels depend on the channel words, the mask and the region only. -/
theorem chan_congr {s t : Session} (hr : s.region = t.region) (hc : s.chConfig = t.chConfig) (ch : Nat) :
    chan s ch = chan t ch := by
  unfold chan
  rw [hr, hc]

theorem joinSession_channels (cfg : Cfg) (m : Mac) (f : Frame.Down) (buf : Bytes) :
    (joinSession cfg m f buf).region = m.ctx.region ∧
    (joinSession cfg m f buf).chConfig = (joinCFList (joinParams cfg m f) f buf).chConfig ∧
    (joinSession cfg m f buf).chMask = (joinCFList (joinParams cfg m f) f buf).chMask := by
  have hr : (joinCFList (joinParams cfg m f) f buf).region = m.ctx.region := by
    unfold joinCFList
    split
    · next off _ =>
      obtain ⟨cc, cm, h⟩ := processCFList_ids (joinParams cfg m f) ((buf.drop off).take f.cfListLen)
      rw [h]; rfl
    · rfl
  unfold joinSession joinVersion
  simp only []
  generalize joinCFList (joinParams cfg m f) f buf = x at hr
  cases cfg.v11 <;> cases f.optNeg <;> exact ⟨hr, rfl, rfl⟩

/-- **C53**: over the whole life of a device, a reported join changes the channels exactly as the channel list of the
authentic join accept says, and not at all if there is none.  In particular only channels 3 to 7 can change, only to a
frequency allowed in the region, and in regions with a fixed plan only the mask. -/
theorem c53_channel_list {cfg : Cfg} (hE : ∀ k, BlockFn (cfg.E k)) {d : Device} {m : Mac} {n : Nvm}
    {log : List (Nvm × Event)} (h : Life cfg d m n log) (e : Env) (c : Call) (a b x : Nat)
    (hev : .joinComplete a b x ∈ newEvents m (step cfg m e c).1) :
    ∃ phy r ja, lastSent log = some phy ∧ parseJoinRequest phy = some r ∧
      AuthenticJoin cfg.E cfg.v11 (d.root cfg.v11) d.devEUI d.joinEUI r.devNonce e.received ja ∧
      (ja.cfList = none →
        (∀ ch, chan (step cfg m e c).1.ctx ch = chan m.ctx ch) ∧
        (∀ ch, Masked (step cfg m e c).1.ctx ch ↔ Masked m.ctx ch)) ∧
      (∀ l, ja.cfList = some l →
        (∀ ch, chan (step cfg m e c).1.ctx ch = listedChan d.region l (chan m.ctx) ch) ∧
        (∀ ch, Masked (step cfg m e c).1.ctx ch ↔ listedMask d.region l (Masked m.ctx) ch)) := by
  obtain ⟨_, _, _, phy, r, ja, tail, h1, h2, _, _, _, hau, _, _, _, _, hctx, _⟩ := join_ctx hE h e c a b x hev
  have hreg := (h.inv hE).2.region
  obtain ⟨q1, q2, q3⟩ := joinSession_channels cfg m (downOfJoinAccept ja) (ja.encode ++ tail)
  rw [← hctx] at q1 q2 q3
  refine ⟨phy, r, ja, h1, h2, hau, fun hn => ?_, fun l hl => ?_⟩
  · have e1 : joinCFList (joinParams cfg m (downOfJoinAccept ja)) (downOfJoinAccept ja) (ja.encode ++ tail) =
        joinParams cfg m (downOfJoinAccept ja) := by
      unfold joinCFList downOfJoinAccept
      rw [hn]
      rfl
    rw [e1] at q2 q3
    exact ⟨fun ch => chan_congr q1 q2 ch, fun ch => by unfold Masked; rw [q3]; exact Iff.rfl⟩
  · have e1 : joinCFList (joinParams cfg m (downOfJoinAccept ja)) (downOfJoinAccept ja) (ja.encode ++ tail) =
        processCFList (joinParams cfg m (downOfJoinAccept ja)) l := by
      have hs := (c07_fields cfg.v11 ja hau.wf tail).2 l hl
      unfold Frame.slice at hs
      unfold joinCFList
      have e2 : (downOfJoinAccept ja).cfList = some 13 := by simp [downOfJoinAccept, hl]
      have e3 : (downOfJoinAccept ja).cfListLen = 16 := by simp [downOfJoinAccept, hl]
      rw [e2, e3]
      simp only []
      rw [hs]
    rw [e1] at q2 q3
    obtain ⟨p1, p2⟩ := processCFList_chan (joinParams cfg m (downOfJoinAccept ja)) l (hau.wf.cfList l hl)
    have hpr : (joinParams cfg m (downOfJoinAccept ja)).region = d.region := hreg
    have hpr' : (processCFList (joinParams cfg m (downOfJoinAccept ja)) l).region = d.region := by
      obtain ⟨cc, cm, h⟩ := processCFList_ids (joinParams cfg m (downOfJoinAccept ja)) l
      rw [h]; exact hreg
    rw [hpr] at p1 p2
    refine ⟨fun ch => ?_, fun ch => ?_⟩
    · rw [chan_congr (q1.trans (hreg.trans hpr'.symm)) q2 ch, p1 ch]
      rfl
    · have : Masked (step cfg m e c).1.ctx ch ↔ Masked (processCFList (joinParams cfg m (downOfJoinAccept ja)) l) ch := by
        unfold Masked
        rw [q3]
      rw [this, p2 ch]
      rfl

/-- A legal channel list, in the words of the property: after any list, a channel is what it was before, or undefined,
or one of the channels 3 to 7 at a frequency allowed in the region. -/
theorem c53_legal (r : Region) (l : Bytes) (old : Nat → Option (Nat × Nat × Nat)) (ch : Nat) :
    listedChan r l old ch = old ch ∨ (definable r = true ∧ 3 ≤ ch ∧ ch < 8 ∧ (listedChan r l old ch = none ∨
      ∃ f, channelFreq r f = true ∧ listedChan r l old ch = some (f, 0, 5))) := by
  unfold listedChan
  split
  · next h =>
    split
    · exact Or.inr ⟨h.1, h.2.2.1, h.2.2.2, Or.inl rfl⟩
    · split
      · next hf => exact Or.inr ⟨h.1, h.2.2.1, h.2.2.2, Or.inr ⟨_, hf, rfl⟩⟩
      · exact Or.inl rfl
  · exact Or.inl rfl

namespace Demo

/-- A join accept for the waiting device, with the right MIC. -/
def answerWith (ja : JoinAccept) : JoinAccept := { ja with
  mic := joinAcceptMic cfg.E cfg.v11 (device.root cfg.v11) (jsIntKey cfg.E (device.root cfg.v11) device.devEUI)
    device.joinEUI 1 { ja with mic := 0 } }

/-- A list with 867.1 MHz for channel 3, an illegal frequency for channel 4, and zero for the rest. -/
def listed : JoinAccept := answerWith { answer with
  cfList := some [0x18, 0x4f, 0x84, 1, 0, 0, 0, 0, 0, 0, 0, 0, 0, 0, 0, 0] }

/-- `c53_channel_list` is not vacuous. -/
example : (newEvents waiting.m (step cfg waiting.m { arrival with packet := listed.encode } .process).1).any (fun
    | .joinComplete 6 1 7 => true
    | _ => false) = true ∧
    chan (step cfg waiting.m { arrival with packet := listed.encode } .process).1.ctx 3 = some (867100000, 0, 5) ∧
    chan (step cfg waiting.m { arrival with packet := listed.encode } .process).1.ctx 4 = none ∧
    chan (step cfg waiting.m { arrival with packet := listed.encode } .process).1.ctx 0 = some (868100000, 0, 5) := by
  decide +kernel

end Demo

/-- **C63** (receive delays of at most fifteen seconds).  After a reported join the session starts at frame counter zero,
and the receive windows are those of the join accept: RX1 data rate offset, RX2 data rate and RX1 delay, zero meaning one
second. -/
theorem c63_join_session_partial {cfg : Cfg} (hE : ∀ k, BlockFn (cfg.E k)) {d : Device} {m : Mac} {n : Nvm}
    {log : List (Nvm × Event)} (h : Life cfg d m n log) (e : Env) (c : Call) (a b x : Nat)
    (hev : .joinComplete a b x ∈ newEvents m (step cfg m e c).1) :
    ∃ phy r ja, lastSent log = some phy ∧ parseJoinRequest phy = some r ∧
      AuthenticJoin cfg.E cfg.v11 (d.root cfg.v11) d.devEUI d.joinEUI r.devNonce e.received ja ∧
      (step cfg m e c).1.ctx.up = 0 ∧ (step cfg m e c).1.ctx.appDown = 0 ∧ (step cfg m e c).1.ctx.nwkDown = 0 ∧
      (step cfg m e c).1.ctx.rx1DROffset = ja.rx1DROffset ∧ (step cfg m e c).1.ctx.rx2DataRate = ja.rx2DataRate ∧
      (ja.rxDelay < 16 → (step cfg m e c).1.ctx.rx1Delay = rxDelaySeconds ja.rxDelay) := by
  obtain ⟨_, hop, _, phy, r, ja, tail, h1, h2, _, _, _, hau, _, _, _, _, hctx, _⟩ := join_ctx hE h e c a b x hev
  have hs := (h.inv hE).2.reach.sessionOk
  have hj := (h.joinInv hE).unjoined hop
  obtain ⟨_, _, _, _, _, hx⟩ := joinSession_shape cfg m (downOfJoinAccept ja) (ja.encode ++ tail)
  rw [hx] at hctx
  refine ⟨phy, r, ja, h1, h2, hau, ?_, ?_, ?_, ?_, ?_, fun hd => ?_⟩
  · rw [hctx]; exact hs.fresh hj
  · rw [hctx]; exact hs.appDown
  · rw [hctx]; exact hs.nwkDown
  · rw [hctx]; rfl
  · rw [hctx]; rfl
  · rw [hctx]
    show (if ja.rxDelay = 0 then 1 else ja.rxDelay) = _
    unfold rxDelaySeconds
    split <;> split <;> omega

/-- **C63 fails when a reserved bit of the delay octet is set**: the octet 0x11 means one second, and the device uses
seventeen. -/
theorem c63_delay_reserved : ∃ (m : Mac) (n : Nvm) (log : List (Nvm × Event)) (e : Env) (ja : JoinAccept),
    Life Demo.cfg Demo.device m n log ∧ ja.WF ∧ ja.rxDelay = 0x11 ∧
    rxDelaySeconds ja.rxDelay = 1 ∧
    (newEvents m (step Demo.cfg m e .process).1).any (fun | .joinComplete 6 1 7 => true | _ => false) = true ∧
    e.received = ja.encode ∧ (step Demo.cfg m e .process).1.ctx.rx1Delay = 17 := by
  refine ⟨Demo.waiting.m, Demo.waiting.n, Demo.waiting.log,
    { Demo.arrival with packet := (Demo.answerWith { Demo.answer with rxDelay := 0x11 }).encode },
    Demo.answerWith { Demo.answer with rxDelay := 0x11 }, Demo.waiting_life.life, ?_, rfl, rfl, ?_, ?_, ?_⟩
  · constructor <;> decide +kernel
  all_goals decide +kernel

end LDL
