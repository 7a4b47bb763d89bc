import Verif.Lemmas.Session
import Verif.Spec.Session
import Verif.Props.Region
import Verif.Lemmas.OpState

/-!
# Sessions stay in order
-/

namespace LDL
open Spec

/-- The parts of a session that `SessionOk` looks at, with those that channel settings change set apart. -/
theorem Spec.SessionOk.congr {s s' : Session} (h : SessionOk s)
    (h1 : s'.region = s.region) (h2 : s'.rate = s.rate) (h3 : s'.power = s.power)
    (h4 : ∀ i, s'.chConfig i < 4294967296) (h5 : s'.up = s.up) (h6 : s'.appDown = s.appDown)
    (h7 : s'.nwkDown = s.nwkDown) (h8 : s'.devAddr = s.devAddr) (h9 : s'.netID = s.netID)
    (h10 : s'.joinNonce = s.joinNonce) (h11 : s'.devNonce = s.devNonce) (h12 : s'.nbTrans = s.nbTrans)
    (h13 : s'.rx1DROffset = s.rx1DROffset) (h14 : s'.rx2DataRate = s.rx2DataRate) (h15 : s'.rx1Delay = s.rx1Delay)
    (h16 : s'.adrAckLimit = s.adrAckLimit) (h17 : s'.adrAckDelay = s.adrAckDelay) (h18 : s'.joined = s.joined)
    (h19 : s'.magic = s.magic) (h20 : ∀ i, s'.chMask i < 256) (h21 : s'.txParamSetup = s.txParamSetup) : SessionOk s' := by
  constructor
  · rw [h1, h2]; exact h.rate
  · rw [h1, h3]; exact h.power
  · exact h4
  · rw [h5]; exact h.up
  · rw [h6]; exact h.appDown
  · rw [h7]; exact h.nwkDown
  · rw [h8]; exact h.devAddr
  · rw [h9]; exact h.netID
  · rw [h10]; exact h.joinNonce
  · rw [h11]; exact h.devNonce
  · rw [h12]; exact h.nbTrans
  · rw [h13]; exact h.rx1DROffset
  · rw [h14]; exact h.rx2DataRate
  · rw [h15]; exact h.rx1Delay
  · rw [h16]; exact h.adrAckLimit
  · rw [h17]; exact h.adrAckDelay
  · rw [h18, h5]; exact h.fresh
  · rw [h19]; exact h.magic
  · exact h20
  · rw [h21]; exact h.txParamSetup

theorem channelWord_lt (f a b : Nat) (ha : a < 256) : u32 ((f / 100) <<< 8) ||| (a <<< 4) ||| (b &&& 0xf) < 4294967296 := by
  have h1 : u32 ((f / 100) <<< 8) < 2 ^ 32 := Nat.mod_lt _ (by decide)
  have h2 : a <<< 4 < 2 ^ 32 := by rw [Nat.shiftLeft_eq]; omega
  have h3 : b &&& 0xf < 2 ^ 32 := Nat.lt_of_le_of_lt Nat.and_le_right (by decide)
  exact Nat.or_lt_two_pow (Nat.or_lt_two_pow h1 h2) h3

theorem setChannel_words (s : Session) (ch f a b : Nat) (ha : a < 256) (h : ∀ i, s.chConfig i < 4294967296) :
    ∀ i, (setChannel s ch f a b).2.chConfig i < 4294967296 := by
  intro i
  unfold setChannel
  split
  · split
    · simp only [upd]; split
      · decide
      · exact h i
    · split
      · simp only [upd]; split
        · exact channelWord_lt f a b ha
        · exact h i
      · exact h i
  · exact h i

theorem setChannel_ok (s : Session) (ch f a b : Nat) (ha : a < 256) (h : SessionOk s) : SessionOk (setChannel s ch f a b).2 := by
  have hw := setChannel_words s ch f a b ha h.words
  obtain ⟨cc, hc⟩ := setChannel_shape s ch f a b
  rw [hc] at hw ⊢
  exact h.congr rfl rfl rfl hw rfl rfl rfl rfl rfl rfl rfl rfl rfl rfl rfl rfl rfl rfl rfl h.mask rfl

theorem getDefaultChannels_ok (s : Session) (h : SessionOk s) : SessionOk (getDefaultChannels s) := by
  unfold getDefaultChannels
  split
  · exact setChannel_ok _ _ _ _ _ (by decide) (setChannel_ok _ _ _ _ _ (by decide) (setChannel_ok _ _ _ _ _ (by decide) h))
  · exact setChannel_ok _ _ _ _ _ (by decide) (setChannel_ok _ _ _ _ _ (by decide) (setChannel_ok _ _ _ _ _ (by decide) h))
  · exact h

theorem maskChannel_lt (r : Region) (ch : Nat) (cm : Nat → Nat) (h : ∀ i, cm i < 256) : ∀ i, maskChannel cm r ch i < 256 := by
  intro i
  unfold maskChannel
  split
  · unfold upd
    split
    · refine Nat.or_lt_two_pow (n := 8) (h _) ?_
      have : ch % 8 < 8 := Nat.mod_lt _ (by decide)
      rw [Nat.shiftLeft_eq, Nat.one_mul]
      exact Nat.pow_lt_pow_of_lt (by decide) this
    · exact h i
  · exact h i

theorem unmaskChannel_lt (r : Region) (ch : Nat) (cm : Nat → Nat) (h : ∀ i, cm i < 256) : ∀ i, unmaskChannel cm r ch i < 256 := by
  intro i
  unfold unmaskChannel
  split
  · unfold upd
    split
    · exact Nat.lt_of_le_of_lt Nat.and_le_left (h _)
    · exact h i
  · exact h i

theorem applyMask16_lt (r : Region) (bits base : Nat) (cm : Nat → Nat) (h : ∀ i, cm i < 256) :
    ∀ i, applyMask16 r bits base cm i < 256 := by
  unfold applyMask16
  generalize List.range 16 = l
  induction l generalizing cm with
  | nil => exact h
  | cons k l ih =>
    refine ih _ ?_
    unfold applyMaskBit
    split
    · exact unmaskChannel_lt _ _ _ h
    · exact maskChannel_lt _ _ _ h

theorem processCFList_ok (s : Session) (l : Bytes) (h : SessionOk s) : SessionOk (processCFList s l) := by
  unfold processCFList
  have hfold : ∀ (ks : List Nat) (s : Session), SessionOk s → SessionOk (ks.foldl
      (fun s k => (setChannel s (3 + k) (Region.unpackCFListFreq l (3 * k)) 0 5).2) s) := by
    intro ks
    induction ks with
    | nil => intro s h; exact h
    | cons k ks ih => intro s h; exact ih _ (setChannel_ok _ _ _ _ _ (by decide) h)
  have hmask : ∀ cm, (∀ i, cm i < 256) → SessionOk { s with chMask := cm } := fun cm hcm =>
    h.congr rfl rfl rfl h.words rfl rfl rfl rfl rfl rfl rfl rfl rfl rfl rfl rfl rfl rfl rfl hcm rfl
  have hm16 : ∀ (f : Nat → Nat) (ks : List Nat) (cm : Nat → Nat), (∀ i, cm i < 256) →
      ∀ i, ks.foldl (fun mask i => applyMask16 s.region (f i) (i * 16) mask) cm i < 256 := by
    intro f ks
    induction ks with
    | nil => intro cm h; exact h
    | cons k ks ih => intro cm h; exact ih _ (applyMask16_lt _ _ _ _ h)
  split
  · split
    · split
      · exact hfold _ _ h
      · exact h
    · split
      · exact hfold _ _ h
      · exact h
    · split
      · exact hmask _ (hm16 _ _ _ h.mask)
      · exact h
    · split
      · exact hmask _ (hm16 _ _ _ h.mask)
      · exact h
  · exact h

theorem validateTXPower_iff (r : Region) (p : Nat) : r.validateTXPower p = true ↔ p ≤ maxPowerIndex r := by
  cases r <;> simp [Region.validateTXPower, maxPowerIndex]

theorem linkADRMask_ok (s : Session) (a b : Nat) (h : SessionOk s) : SessionOk (linkADRMask s a b) := by
  have hf : ∀ (f : (Nat → Nat) → Nat → Nat → Nat) (hf : ∀ cm k, (∀ i, cm i < 256) → ∀ i, f cm k i < 256) (l : List Nat)
      (cm : Nat → Nat), (∀ i, cm i < 256) → ∀ i, l.foldl f cm i < 256 := by
    intro f hf l
    induction l with
    | nil => intro cm h; exact h
    | cons k l ih => intro cm h; exact ih _ (hf _ _ h)
  have hk : ∀ cm, (∀ i, cm i < 256) → SessionOk { s with chMask := cm } := fun cm hc =>
    h.congr rfl rfl rfl h.words rfl rfl rfl rfl rfl rfl rfl rfl rfl rfl rfl rfl rfl rfl rfl hc rfl
  unfold linkADRMask
  (repeat' split)
  · exact hk _ (applyMask16_lt _ _ _ _ h.mask)
  · exact hk _ (fun _ => by simp [unmaskAll])
  · exact h.congr rfl rfl rfl h.words rfl rfl rfl rfl rfl rfl rfl rfl rfl rfl rfl rfl rfl rfl rfl h.mask rfl
  · exact hk _ (hf _ (fun cm k h => unmaskChannel_lt _ _ _ h) _ _ h.mask)
  · exact hk _ (hf _ (fun cm k h => maskChannel_lt _ _ _ h) _ _ h.mask)
  · exact hk _ (applyMask16_lt _ _ _ _ h.mask)

theorem linkADREnd_ok (s : Session) (a b c : Nat) (h : SessionOk s) : SessionOk (linkADREnd s a b c).1 := by
  have h0 : ∀ x, SessionOk { s with linkADRAns := x } := fun x =>
    h.congr rfl rfl rfl h.words rfl rfl rfl rfl rfl rfl rfl rfl rfl rfl rfl rfl rfl rfl rfl h.mask rfl
  have h1 : ∀ s, SessionOk s → SessionOk (adrNbTrans s c) := by
    intro s h
    unfold adrNbTrans
    split
    · refine { h with nbTrans := ?_ }
      show (if c &&& 0xf > REDUNDANCY_MAX then REDUNDANCY_MAX else c &&& 0xf) ≤ 15
      have : c &&& 0xf ≤ 15 := Nat.and_le_right
      by_cases hc : c &&& 0xf > REDUNDANCY_MAX
      · rw [if_pos hc]; decide
      · rw [if_neg hc]; exact this
    · exact h
  have h2 : ∀ s, SessionOk s → SessionOk (adrRate s a) := by
    intro s h
    unfold adrRate
    split
    · split
      · next hv => exact { h with rate := (rateSettingIsValid_iff _ _).1 hv }
      · exact h.congr rfl rfl rfl h.words rfl rfl rfl rfl rfl rfl rfl rfl rfl rfl rfl rfl rfl rfl rfl h.mask rfl
    · exact h
  have h3 : ∀ s, SessionOk s → SessionOk (adrPower s b) := by
    intro s h
    unfold adrPower
    split
    · split
      · next hv => exact { h with power := (validateTXPower_iff _ _).1 hv }
      · exact h.congr rfl rfl rfl h.words rfl rfl rfl rfl rfl rfl rfl rfl rfl rfl rfl rfl rfl rfl rfl h.mask rfl
    · exact h
  have h4 : ∀ s, SessionOk s → SessionOk (adrMaskCheck s) := by
    intro s h
    unfold adrMaskCheck
    split
    · exact h.congr rfl rfl rfl h.words rfl rfl rfl rfl rfl rfl rfl rfl rfl rfl rfl rfl rfl rfl rfl h.mask rfl
    · exact h
  unfold linkADREnd setPending
  simp only []
  have := h4 _ (h3 _ (h2 _ (h1 _ (h0 { s.linkADRAns with dataRateOK := true, powerOK := true }))))
  exact this.congr rfl rfl rfl this.words rfl rfl rfl rfl rfl rfl rfl rfl rfl rfl rfl rfl rfl rfl rfl this.mask rfl

theorem pow16 (k : Nat) (h : k < 16) : ∃ j < 16, u16 (1 <<< k) = 2 ^ j := by
  refine ⟨k, h, ?_⟩
  rw [Nat.shiftLeft_eq, Nat.one_mul]
  exact Nat.mod_eq_of_lt (Nat.pow_lt_pow_of_lt (by decide) h)

theorem applyCommand_ok (cfg : Cfg) (e : Env) (next : Bool) (cmd : DownCmd) (m : Mac) (adr : AdrState)
    (hw : WFCommand cfg.v11 cmd) (h : SessionOk m.ctx) : SessionOk (applyCommand cfg e next cmd m adr).1.ctx := by
  cases cmd <;> simp only [applyCommand]
  case linkADR =>
    split
    · exact h
    · split
      · exact linkADRMask_ok _ _ _ h
      · exact linkADREnd_ok _ _ _ _ (linkADRMask_ok _ _ _ h)
  case newChannel ch f hi lo =>
    have hlo : lo < 256 := by have := hw.2.2.2.2; omega
    split
    · simp only [setPending]
      have h0 : ∀ x, SessionOk { m.ctx with newChannelAns := x } := fun x =>
        h.congr rfl rfl rfl h.words rfl rfl rfl rfl rfl rfl rfl rfl rfl rfl rfl rfl rfl rfl rfl h.mask rfl
      split
      · have := setChannel_ok _ ch f lo hi hlo
          (h0 ⟨m.ctx.region.validateRate ch lo hi, m.ctx.region.validateFreq f⟩)
        exact this.congr rfl rfl rfl this.words rfl rfl rfl rfl rfl rfl rfl rfl rfl rfl rfl rfl rfl rfl rfl this.mask rfl
      · exact h.congr rfl rfl rfl h.words rfl rfl rfl rfl rfl rfl rfl rfl rfl rfl rfl rfl rfl rfl rfl h.mask rfl
    · exact h
  case rxParamSetup off rate freq =>
    exact { h with rx1DROffset := hw.1, rx2DataRate := hw.2.1 }
  case rxTimingSetup d =>
    exact { h with rx1Delay := Nat.lt_trans hw (by decide) }
  case adrParamSetup l d =>
    exact { h with adrAckLimit := pow16 l hw.2.1, adrAckDelay := pow16 d hw.2.2 }
  case txParamSetup v =>
    split
    · exact { h with txParamSetup := Nat.lt_trans hw (by decide) }
    · exact h
  all_goals
    first
    | exact h
    | exact h.congr rfl rfl rfl h.words rfl rfl rfl rfl rfl rfl rfl rfl rfl rfl rfl rfl rfl rfl rfl h.mask rfl
    | (split <;> first
        | exact h
        | exact h.congr rfl rfl rfl h.words rfl rfl rfl rfl rfl rfl rfl rfl rfl rfl rfl rfl rfl rfl rfl h.mask rfl)

theorem joinRate_ok (cfg : Cfg) (r : Region) (t : Nat) : r.getJoinRate cfg.minRate t ∈ upRates r := by
  unfold Cfg.minRate
  cases cfg.noSf12 <;>
  cases r <;> simp only [Region.getJoinRate, upRates, List.mem_cons, List.not_mem_nil, or_false] <;> first | omega | decide

theorem forgetNetwork_ok (m : Mac) (h : SessionOk m.ctx) : SessionOk (forgetNetwork m).ctx := by
  unfold forgetNetwork
  simp only []
  refine getDefaultChannels_ok _ ?_
  have z1 : 0 < 4294967296 := by decide
  have z2 : 0 < 65536 := by decide
  have z3 : 0 < 16777216 := by decide
  refine ⟨h.rate, h.power, fun _ => z1, z1, rfl, rfl, z1, z3, z3, z2, Nat.zero_le 15,
    ?_, ?_, ?_, ⟨6, by decide, rfl⟩, ⟨5, by decide, rfl⟩, fun _ => rfl, rfl, fun _ => by simp, by simp⟩
  · show m.ctx.region.getRX1Offset < 8
    cases m.ctx.region <;> decide
  · show m.ctx.region.getRX2Rate < 16
    cases m.ctx.region <;> decide
  · show m.ctx.region.getRX1Delay < 256
    cases m.ctx.region <;> decide

theorem sessionOk_closed (cfg : Cfg) : Closed cfg SessionOk where
  upd := by
    intro s s' hu h
    cases hu with
    | devNonce n hn => exact { h with devNonce := hn }
    | rateDown ha hr hp =>
      refine { h with rate := ?_ }
      have := h.rate
      have hr : 0 < s.rate := Nat.lt_of_le_of_lt (Nat.zero_le _) hr
      revert this; revert hr
      show 0 < s.rate → s.rate ∈ upRates s.region → s.rate - 1 ∈ upRates s.region
      cases s.region <;> simp only [upRates, List.mem_cons, List.not_mem_nil, or_false] <;> intro h1 h2 <;> omega
    | powerMax => exact { h with power := Nat.zero_le _ }
    | unmaskAll =>
      exact h.congr rfl rfl rfl h.words rfl rfl rfl rfl rfl rfl rfl rfl rfl rfl rfl rfl rfl rfl rfl (fun _ => by simp [LDL.unmaskAll]) rfl
    | join t f hf =>
      refine { h with rate := ?_, rx1DROffset := hf.off, rx2DataRate := hf.rate, rx1Delay := hf.delay, fresh := ?_ }
      · show (if s.adr then s.region.getJoinRate cfg.minRate t else s.rate) ∈ upRates s.region
        split
        · exact joinRate_ok _ _ _
        · exact h.rate
      · intro hj; cases hj
    | cfList l => exact processCFList_ok s l h
    | version v => exact h.congr rfl rfl rfl h.words rfl rfl rfl rfl rfl rfl rfl rfl rfl rfl rfl rfl rfl rfl rfl h.mask rfl
    | ids a n j ha hn hj => exact { h with devAddr := ha, netID := hn, joinNonce := hj }
    | down a n ha hn hz =>
      have h' := hz ⟨h.appDown, h.nwkDown⟩
      exact { h with appDown := h'.1, nwkDown := h'.2 }
    | pending => exact h.congr rfl rfl rfl h.words rfl rfl rfl rfl rfl rfl rfl rfl rfl rfl rfl rfl rfl rfl rfl h.mask rfl
    | adrAns => exact h.congr rfl rfl rfl h.words rfl rfl rfl rfl rfl rfl rfl rfl rfl rfl rfl rfl rfl rfl rfl h.mask rfl
    | command _ e next cmd m adr hw hs hs' =>
      rw [hs']
      exact applyCommand_ok cfg e next cmd m adr hw (by rw [← hs]; exact h)
    | up hj =>
      refine { h with up := Nat.mod_lt _ (by decide), fresh := ?_ }
      intro hf
      have hf : s.joined = false := hf
      rw [hj] at hf; cases hf
    | abp hj a ha => exact { h with devAddr := ha, fresh := fun hf => by cases hf }
    | forget _ m hs hj hs' =>
      rw [hs']; exact forgetNetwork_ok m (by rw [← hs]; exact h)
    | setRate r hr => exact { h with rate := (rateSettingIsValid_iff _ _).1 hr }
    | setPower p hp => exact { h with power := (validateTXPower_iff _ _).1 hp }
    | setADR => exact h.congr rfl rfl rfl h.words rfl rfl rfl rfl rfl rfl rfl rfl rfl rfl rfl rfl rfl rfl rfl h.mask rfl
    | setMaxDCycle => exact h.congr rfl rfl rfl h.words rfl rfl rfl rfl rfl rfl rfl rfl rfl rfl rfl rfl rfl rfl rfl h.mask rfl
    | setChannel ch f a b hf ha hb => exact setChannel_ok s ch f a b ha h
    | mask => exact { h with mask := maskChannel_lt _ _ _ h.mask }
    | unmask => exact { h with mask := unmaskChannel_lt _ _ _ h.mask }
  restore := by
    intro s s' hr h h'
    refine { h' with rate := ?_, power := ?_, nbTrans := h.nbTrans, mask := h.mask }
    · show s.rate ∈ upRates s'.region
      rw [← hr]; exact h.rate
    · show s.power ≤ maxPowerIndex s'.region
      rw [← hr]; exact h.power

theorem initSession_ok (cfg : Cfg) (m : Mac) (region : Region) : SessionOk (initSession cfg m region).ctx := by
  have h0 : SessionOk { region := cfg.firstRegion, adrAckLimit := 64, adrAckDelay := 32, magic := 0xdb } := by
    have z1 : 0 < 4294967296 := by decide
    have z2 : 0 < 65536 := by decide
    have z3 : 0 < 16777216 := by decide
    have z4 : 0 < 8 := by decide
    have z5 : 0 < 16 := by decide
    have z6 : 0 < 256 := by decide
    refine ⟨?_, Nat.zero_le _, fun _ => z1, z1, rfl, rfl, z1, z3, z3, z2, Nat.zero_le 15, z4, z5, z6, ⟨6, by decide, rfl⟩, ⟨5, by decide, rfl⟩, fun _ => rfl, rfl, fun _ => by simp, by simp⟩
    · show 0 ∈ upRates cfg.firstRegion
      cases cfg.firstRegion <;> decide
  have h1 := forgetNetwork_ok { m with ctx := { region := cfg.firstRegion, adrAckLimit := 64, adrAckDelay := 32, magic := 0xdb } } h0
  have h2 : (forgetNetwork { m with ctx := { region := cfg.firstRegion, adrAckLimit := 64, adrAckDelay := 32, magic := 0xdb } }).ctx =
      (forgetNetwork { m with ctx := { region := cfg.firstRegion } }).ctx := rfl
  rw [h2] at h1
  unfold initSession
  simp only []
  generalize (forgetNetwork { m with ctx := { region := cfg.firstRegion } }).ctx = c at h1
  refine { h1 with rate := ?_, power := Nat.zero_le _ }
  show cfg.minRate ∈ upRates region
  unfold Cfg.minRate
  cases cfg.noSf12 <;> cases region <;> decide

theorem init_ok (cfg : Cfg) (region : Region) (arg : InitArg) (e : Env) (h : ∀ s, arg.session = some s → SessionOk s) :
    SessionOk (init cfg region arg e).ctx := by
  unfold init
  simp only []
  generalize ({ tx := _, devNonce := _, joinNonce := _, devEUI := _, joinEUI := _, keys := _ } : Mac) = m0
  have hi := initSession_ok cfg m0 region
  split
  · exact hi
  · next s hs =>
    split
    · split
      · obtain ⟨k, hk⟩ := deriveKeys_shape cfg { initSession cfg m0 region with ctx := s }
        rw [hk]
        exact h s hs
      · exact hi
    · exact hi

/-- Every session a device has is in order. -/
theorem Spec.Reachable.sessionOk {cfg : Cfg} {m : Mac} (h : Reachable cfg m) : SessionOk m.ctx := by
  induction h with
  | init region arg e h _ => exact init_ok cfg region arg e h
  | step e c _ hc ih => exact step_session (sessionOk_closed cfg) e _ c hc ih

theorem Spec.Reachable.reach {cfg : Cfg} {m : Mac} (h : Reachable cfg m) : Reach cfg m := by
  induction h with
  | init region arg e h _ => exact .init region arg e
  | step e c _ hc ih => exact .step e c ih hc

end LDL
