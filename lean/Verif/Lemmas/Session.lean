import Verif.Spec.Session
import Verif.Lemmas.OpState
import Verif.Spec.MacCommands

/-!
# How the session changes

`Upd` lists the elementary changes of the session.  A predicate closed under them (`Closed`) that holds before a
call holds after it (`step_session`).
-/

namespace LDL
open LDL.Stream

/-! ### Ranges of decoded values -/

theorem getU8_lt (s : Stream) : (s.getU8).1.getD 0 < 256 := by
  unfold getU8
  split
  · next b _ _ => exact b.toNat_lt
  · simp

theorem getU8_lt' (s : Stream) {v : Nat} (h : (s.getU8).1 = some v) : v < 256 := by
  have := getU8_lt s; rw [h] at this; exact this

theorem getU16_lt (s : Stream) : (s.getU16).1.getD 0 < 65536 := by
  unfold getU16
  split
  · next b c _ _ => have := b.toNat_lt; have := c.toNat_lt; simp only [Option.getD_some]; omega
  · simp

theorem getU24_lt (s : Stream) : (s.getU24).1.getD 0 < 16777216 := by
  unfold getU24
  split
  · next a b c _ _ =>
    have := a.toNat_lt; have := b.toNat_lt; have := c.toNat_lt; simp only [Option.getD_some]; omega
  · simp

theorem getU32_lt (s : Stream) : (s.getU32).1.getD 0 < 4294967296 := by
  unfold getU32
  split
  · next a b c d _ _ =>
    have := a.toNat_lt; have := b.toNat_lt; have := c.toNat_lt; have := d.toNat_lt
    simp only [Option.getD_some]; omega
  · simp

theorem and15_lt (x : Nat) : x &&& 0xf < 16 := by
  have := Nat.and_le_right (n := x) (m := 15); omega

theorem and7_lt (x : Nat) : x &&& 0x7 < 8 := by
  have := Nat.and_le_right (n := x) (m := 7); omega

theorem shr4_lt (x : Nat) (h : x < 256) : x >>> 4 < 16 := by
  rw [Nat.shiftRight_eq_div_pow]; omega

theorem tagToType_v11 {v11 : Bool} {tag : Nat} {t : CmdType} (h : MacCmd.tagToType v11 tag = some t)
    (ht : t = .rekey ∨ t = .adrParamSetup ∨ t = .forceRejoin ∨ t = .rejoinParamSetup) : v11 = true := by
  cases v11
  · exfalso
    unfold MacCmd.tagToType at h
    rw [Option.map_eq_some_iff] at h
    obtain ⟨p, hp, rfl⟩ := h
    have hm := List.mem_of_find?_eq_some hp
    simp [MacCmd.tags] at hm
    rcases hm with rfl | rfl | rfl | rfl | rfl | rfl | rfl | rfl | rfl | rfl <;> simp at ht
  · rfl

theorem freq100 (x : Nat) (h : x < 16777216) : u32 (x * 100) % 100 = 0 ∧ u32 (x * 100) / 100 < 2 ^ 24 := by
  unfold u32
  have : x * 100 % 4294967296 = x * 100 := Nat.mod_eq_of_lt (by omega)
  rw [this]; omega

/-- The fields of a decoded command are in range. -/
theorem getDownCommand_wf {v11 : Bool} {s : Stream} {cmd : DownCmd} (h : (MacCmd.getDownCommand v11 s).1 = some cmd) :
    Spec.WFCommand v11 cmd := by
  unfold MacCmd.getDownCommand at h
  rcases hg : s.getU8 with ⟨_ | tag, s1⟩
  · rw [hg] at h; simp at h
  · rw [hg] at h
    simp only [] at h
    rcases ht : MacCmd.tagToType v11 tag with _ | t
    · rw [ht] at h; simp at h
    · rw [ht] at h
      simp only [] at h
      have hc : cmd = (MacCmd.getFields s1 t).1 := by
        split at h
        · simp at h
        · simpa using h.symm
      subst hc
      clear h
      have hv := fun h => tagToType_v11 ht h
      cases t <;> simp only [MacCmd.getFields, Spec.WFCommand]
      case linkCheck => exact ⟨getU8_lt _, getU8_lt _⟩
      case linkADR => exact ⟨shr4_lt _ (getU8_lt _), and15_lt _, getU16_lt _, and7_lt _, and15_lt _⟩
      case dutyCycle => exact and15_lt _
      case rxParamSetup => exact ⟨and7_lt _, and15_lt _, freq100 _ (getU24_lt _)⟩
      case newChannel =>
        exact ⟨getU8_lt _, (freq100 _ (getU24_lt _)).1, (freq100 _ (getU24_lt _)).2, shr4_lt _ (getU8_lt _), and15_lt _⟩
      case dlChannel => exact ⟨getU8_lt _, freq100 _ (getU24_lt _)⟩
      case rxTimingSetup => exact and15_lt _
      case txParamSetup =>
        have := Nat.and_le_right (n := (s1.getU8).1.getD 0) (m := 0x3f)
        omega
      case deviceTime => exact ⟨getU32_lt _, getU8_lt _⟩
      case rekey => exact ⟨hv (Or.inl rfl), and15_lt _⟩
      case adrParamSetup => exact ⟨hv (Or.inr (Or.inl rfl)), shr4_lt _ (getU8_lt _), and15_lt _⟩
      case forceRejoin =>
        exact ⟨hv (Or.inr (Or.inr (Or.inl rfl))), and7_lt _, and7_lt _, and7_lt _, and15_lt _⟩
      case rejoinParamSetup => exact ⟨hv (Or.inr (Or.inr (Or.inr rfl))), shr4_lt _ (getU8_lt _), and15_lt _⟩

/-- Ranges of the fields of a decoded frame. -/
structure DownWF (f : Frame.Down) : Prop where
  joinNonce : f.joinNonce < 16777216
  netID : f.netID < 16777216
  devAddr : f.devAddr < 4294967296
  off : f.rx1DataRateOffset < 8
  rate : f.rx2DataRate < 16
  delay : f.rxDelay < 256
  counter : f.counter < 65536
  port : f.port < 256
  mic : f.mic < 4294967296

theorem decode_wf {v11 : Bool} {buf : Bytes} {n : Nat} {f : Frame.Down} (h : Frame.decode v11 buf n = some f) :
    DownWF f := by
  unfold Frame.decode Frame.decodeS at h
  simp only [] at h
  split at h
  · simp at h
  · split at h
    · simp at h
    · split at h
      · unfold Frame.decodeJoinAccept at h
        simp only [] at h
        split at h
        · rw [Option.ite_none_right_eq_some] at h
          obtain ⟨_, h⟩ := h
          injection h with h; subst h
          refine ⟨getU24_lt _, getU24_lt _, getU32_lt _, and7_lt _, and15_lt _, ?_, by simp, by simp, getU32_lt _⟩
          simp only []
          split
          · omega
          · exact getU8_lt _
        · rw [Option.ite_none_right_eq_some] at h
          obtain ⟨_, h⟩ := h
          injection h with h; subst h
          refine ⟨getU24_lt _, getU24_lt _, getU32_lt _, and7_lt _, and15_lt _, ?_, by simp, by simp, getU32_lt _⟩
          simp only []
          split
          · omega
          · exact getU8_lt _
      · split at h
        · unfold Frame.decodeData at h
          simp only [] at h
          split at h
          · rw [Option.ite_none_right_eq_some] at h
            obtain ⟨_, h⟩ := h
            injection h with h; subst h
            exact ⟨by simp, by simp, getU32_lt _, by simp, by simp, by simp, getU16_lt _, getU8_lt _, getU32_lt _⟩
          · rw [Option.ite_none_right_eq_some] at h
            obtain ⟨_, h⟩ := h
            injection h with h; subst h
            exact ⟨by simp, by simp, getU32_lt _, by simp, by simp, by simp, getU16_lt _, by simp, getU32_lt _⟩
        · simp at h

/-- The fields of an accepted frame are in range. -/
theorem receiveFrame_wf {cfg : Cfg} {m : Mac} {buf buf' : Bytes} {len : Nat} {f : Frame.Down}
    (h8 : len ≤ 255) (hm : len ≤ buf.length) (h : Ops.receiveFrame cfg m buf len = (some f, buf')) : DownWF f := by
  rcases receiveFrame_cases h8 hm h with ⟨_, _, h⟩ | ⟨_, _, h, _⟩
  · unfold Ops.receiveJoinAccept at h
    simp only [] at h
    split at h
    · simp at h
    · next f1 hf1 =>
      split at h
      · simp at h
      · simp only [Prod.mk.injEq] at h
        obtain ⟨h, _⟩ := h
        rw [Option.ite_none_right_eq_some] at h
        obtain ⟨_, h⟩ := h
        injection h with h
        rw [← h]
        exact decode_wf hf1
  · exact decode_wf h

/-! ### Elementary changes -/

inductive Upd (cfg : Cfg) : Session → Session → Prop
  | devNonce (s : Session) (n : Nat) (hn : n < 65536) : Upd cfg s { s with devNonce := n }
  | rateDown (s : Session) (ha : s.adr = true) (hr : cfg.minRate < s.rate) (hp : s.power = 0) : Upd cfg s { s with rate := s.rate - 1 }
  | powerMax (s : Session) (ha : s.adr = true) : Upd cfg s { s with power := 0 }
  | unmaskAll (s : Session) (ha : s.adr = true) : Upd cfg s { s with chMask := unmaskAll }
  | join (s : Session) (t : Nat) (f : Frame.Down) (hf : DownWF f) : Upd cfg s
      { s with
        joined := true
        rate := if s.adr then s.region.getJoinRate cfg.minRate t else s.rate
        rx1DROffset := f.rx1DataRateOffset
        rx2DataRate := f.rx2DataRate
        rx1Delay := f.rxDelay }
  | cfList (s : Session) (l : Bytes) : Upd cfg s (processCFList s l)
  | version (s : Session) (v : Nat) (hv : v ≤ 1) (h11 : cfg.v11 = true) : Upd cfg s { s with version := v }
  | ids (s : Session) (a n j : Nat) (ha : a < 4294967296) (hn : n < 16777216) (hj : j < 16777216) :
      Upd cfg s { s with devAddr := a, netID := n, joinNonce := j }
  | down (s : Session) (a n : Nat) (ha : a < 65536 ∨ a = s.appDown) (hn : n < 65536 ∨ n = s.nwkDown)
      (hz : Spec.FirstCounters s → a = 0 ∧ n = 0) : Upd cfg s { s with appDown := a, nwkDown := n }
  | pending (s : Session) (p : Nat) : Upd cfg s { s with pendingCmds := p }
  | adrAns (s : Session) (a : LinkADRAns) : Upd cfg s { s with linkADRAns := a }
  | command (s s' : Session) (e : Env) (next : Bool) (cmd : DownCmd) (m : Mac) (adr : AdrState)
      (hw : Spec.WFCommand cfg.v11 cmd) (hs : s = m.ctx) (hs' : s' = (applyCommand cfg e next cmd m adr).1.ctx) :
      Upd cfg s s'
  | up (s : Session) (hj : s.joined = true) : Upd cfg s { s with up := u32 (s.up + 1) }
  | abp (s : Session) (hj : s.joined = false) (a : Nat) (ha : a < 4294967296) :
      Upd cfg s { s with joined := true, devAddr := a }
  | forget (s s' : Session) (m : Mac) (hs : s = m.ctx) (hj : s.joined = true) (hs' : s' = (forgetNetwork m).ctx) : Upd cfg s s'
  | setRate (s : Session) (r : Nat) (hr : rateSettingIsValid s.region r = true) : Upd cfg s { s with rate := r }
  | setPower (s : Session) (p : Nat) (hp : s.region.validateTXPower p = true) : Upd cfg s { s with power := p }
  | setADR (s : Session) (v : Bool) : Upd cfg s { s with adr := v }
  | setMaxDCycle (s : Session) (v : Nat) (hv : v < 16) : Upd cfg s { s with maxDutyCycle := v }
  | setChannel (s : Session) (ch f a b : Nat) (hf : f < 4294967296) (ha : a < 256) (hb : b < 256) :
      Upd cfg s (setChannel s ch f a b).2
  | mask (s : Session) (ch : Nat) : Upd cfg s { s with chMask := maskChannel s.chMask s.region ch }
  | unmask (s : Session) (ch : Nat) : Upd cfg s { s with chMask := unmaskChannel s.chMask s.region ch }

/-- Closed under everything that happens to a session. -/
structure Closed (cfg : Cfg) (P : Session → Prop) : Prop where
  upd : ∀ s s', Upd cfg s s' → P s → P s'
  restore : ∀ s s' : Session, s.region = s'.region → P s → P s' →
    P { s' with chMask := s.chMask, rate := s.rate, power := s.power, nbTrans := s.nbTrans }

theorem setChannel_shape (s : Session) (a b c d : Nat) : ∃ cc, (setChannel s a b c d).2 = { s with chConfig := cc } := by
  unfold setChannel
  split
  · split
    · exact ⟨_, rfl⟩
    · split <;> exact ⟨_, rfl⟩
  · exact ⟨_, rfl⟩

theorem applyCommand_region (cfg : Cfg) (e : Env) (next : Bool) (cmd : DownCmd) (m : Mac) (adr : AdrState) :
    (applyCommand cfg e next cmd m adr).1.ctx.region = m.ctx.region := by
  have hmask : ∀ (s : Session) a b, (linkADRMask s a b).region = s.region := by
    intro s a b; unfold linkADRMask; (repeat' split) <;> rfl
  have h1 : ∀ (s : Session) a, (adrNbTrans s a).region = s.region := by
    intro s a; unfold adrNbTrans; (repeat' split) <;> rfl
  have h2 : ∀ (s : Session) a, (adrRate s a).region = s.region := by
    intro s a; unfold adrRate; (repeat' split) <;> rfl
  have h3 : ∀ (s : Session) a, (adrPower s a).region = s.region := by
    intro s a; unfold adrPower; (repeat' split) <;> rfl
  have h4 : ∀ (s : Session), (adrMaskCheck s).region = s.region := by
    intro s; unfold adrMaskCheck; (repeat' split) <;> rfl
  have hend : ∀ (s : Session) a b c, (linkADREnd s a b c).1.region = s.region := by
    intro s a b c
    unfold linkADREnd setPending
    simp only []
    exact (h4 _).trans ((h3 _ _).trans ((h2 _ _).trans (h1 _ _)))
  cases cmd <;> simp only [applyCommand]
  case linkADR =>
    split
    · rfl
    · split
      · exact hmask _ _ _
      · exact (hend _ _ _ _).trans (hmask _ _ _)
  case newChannel ch f hi lo =>
    split
    · simp only [setPending]
      split
      · obtain ⟨cc, h⟩ := setChannel_shape { m.ctx with newChannelAns :=
          ⟨m.ctx.region.validateRate ch lo hi, m.ctx.region.validateFreq f⟩ } ch f lo hi
        rw [h]
      · rfl
    · rfl
  all_goals first | rfl | (split <;> rfl)

theorem commandLoop_session {cfg : Cfg} {P : Session → Prop} (hc : Closed cfg P) (e : Env) (fuel : Nat) (s : Stream)
    (m : Mac) (adr : AdrState) (hp : P m.ctx) :
    P (commandLoop cfg e fuel s m adr).1.ctx ∧ (commandLoop cfg e fuel s m adr).1.ctx.region = m.ctx.region := by
  induction fuel generalizing s m adr with
  | zero => exact ⟨hp, rfl⟩
  | succ n ih =>
    simp only [commandLoop]
    rcases hg : MacCmd.getDownCommand cfg.v11 s with ⟨_ | cmd, s'⟩
    · exact ⟨hp, rfl⟩
    · simp only []
      have hw : Spec.WFCommand cfg.v11 cmd := getDownCommand_wf (by rw [hg])
      have := ih s' (applyCommand cfg e (MacCmd.peekNextCommand cfg.v11 s' == some .linkADR) cmd m adr).1
        (applyCommand cfg e (MacCmd.peekNextCommand cfg.v11 s' == some .linkADR) cmd m adr).2
        (hc.upd _ _ (.command _ _ e _ cmd m adr hw rfl rfl) hp)
      exact ⟨this.1, this.2.trans (applyCommand_region ..)⟩

theorem processCommands_session {cfg : Cfg} {P : Session → Prop} (hc : Closed cfg P) (e : Env) (m : Mac) (inp : Bytes)
    (hp : P m.ctx) : P (processCommands cfg e m inp).ctx := by
  unfold processCommands
  simp only []
  have h0 := hc.upd _ _ (.adrAns m.ctx { m.ctx.linkADRAns with channelMaskOK := true }) hp
  have := commandLoop_session hc e (inp.length + 1) (Stream.initReadOnly inp inp.length)
    { m with ctx := { m.ctx with linkADRAns := { m.ctx.linkADRAns with channelMaskOK := true } } } .noAdr h0
  split
  · exact hc.restore m.ctx _ this.2.symm hp this.1
  · exact this.1

theorem adaptRate_session {cfg : Cfg} {P : Session → Prop} (hc : Closed cfg P) (m : Mac) (hp : P m.ctx) :
    P (adaptRate cfg m).2.ctx := by
  unfold adaptRate
  simp only []
  split
  · next ha =>
    split
    · split
      · split
        · split
          · next hpow =>
            split
            · next hr => exact hc.upd _ _ (.rateDown m.ctx ha hr hpow) hp
            · exact hc.upd _ _ (.unmaskAll m.ctx ha) hp
          · exact hc.upd _ _ (.powerMax m.ctx ha) hp
        · exact hp
      · exact hp
    · exact hp
  · exact hp

theorem fillJoinBuffer_ctx (cfg : Cfg) (e : Env) (m : Mac) (n : Nat) (hn : n < 65536) :
    ∃ k, k < 65536 ∧ (fillJoinBuffer cfg e m n).ctx = { m.ctx with devNonce := k } ∧
      k = (if cfg.version = .v103 then u16 (e.draw 0) else n) := by
  unfold fillJoinBuffer
  simp only []
  refine ⟨if cfg.version = .v103 then u16 (e.draw 0) else n, ?_, ?_, rfl⟩
  rotate_left
  · generalize Ops.prepareJoinRequest _ _ _ _ _ = x
    rfl
  split
  · exact Nat.mod_lt _ (by decide)
  · exact hn

theorem nextJoinRequest_ctx (cfg : Cfg) (e : Env) (m : Mac) :
    ∃ k, k < 65536 ∧ (nextJoinRequest cfg e m).ctx = { m.ctx with devNonce := k } := by
  obtain ⟨k, h1, h2, _⟩ := fillJoinBuffer_ctx cfg e m (u16 m.devNonce) (Nat.mod_lt _ (by decide))
  refine ⟨k, h1, ?_⟩
  unfold nextJoinRequest
  generalize fillJoinBuffer cfg e m (u16 m.devNonce) = x at h2
  exact h2

theorem nextJoinRequest_session {cfg : Cfg} {P : Session → Prop} (hc : Closed cfg P) (e : Env) (m : Mac) (hp : P m.ctx) :
    P (nextJoinRequest cfg e m).ctx := by
  obtain ⟨k, h1, h2⟩ := nextJoinRequest_ctx cfg e m
  rw [h2]
  exact hc.upd _ _ (.devNonce _ k h1) hp

theorem downlinkMissing_session {cfg : Cfg} {P : Session → Prop} (hc : Closed cfg P) (e : Env) (m : Mac) (hp : P m.ctx) :
    P (downlinkMissing cfg e m).ctx := by
  have hdata : P (if shouldRetry e { m with trials := u32 (m.trials + 1) } then
        retryData cfg e { m with trials := u32 (m.trials + 1) } else giveUpData cfg { m with trials := u32 (m.trials + 1) }).ctx := by
    split
    · exact hp
    · unfold giveUpData
      simp only []
      have := adaptRate_session hc { m with trials := u32 (m.trials + 1) } hp
      split <;> exact this
  have hjoin : P (retryJoin cfg e { m with trials := u32 (m.trials + 1) }).ctx := by
    have hn := nextJoinRequest_session hc e { m with trials := u32 (m.trials + 1) } hp
    unfold retryJoin
    split
    · generalize nextJoinRequest cfg e { m with trials := u32 (m.trials + 1) } = x at hn ⊢
      exact hn
    · exact hp
  unfold downlinkMissing
  simp only []
  split
  · exact hdata
  · exact hdata
  · exact hjoin
  · exact hp

theorem handleRadioError_session {cfg : Cfg} {P : Session → Prop} (hc : Closed cfg P) (e : Env) (m : Mac) (hp : P m.ctx) :
    P (handleRadioError cfg e m).ctx := by
  unfold handleRadioError
  simp only []
  split
  · exact downlinkMissing_session hc e _ hp
  · exact hp

theorem joinSession_session {cfg : Cfg} {P : Session → Prop} (hc : Closed cfg P) (m : Mac) (f : Frame.Down) (buf : Bytes)
    (hf : DownWF f) (hp : P m.ctx) : P (joinSession cfg m f buf) := by
  unfold joinSession
  simp only []
  have h1 : P (joinParams cfg m f) := hc.upd _ _ (.join m.ctx m.trials f hf) hp
  have h2 : P (joinCFList (joinParams cfg m f) f buf) := by
    unfold joinCFList
    split
    · exact hc.upd _ _ (.cfList _ _) h1
    · exact h1
  have h3 : ∀ c : Session, P c → P (joinVersion cfg c f) := by
    intro c hcp
    unfold joinVersion
    split
    · next h11 =>
      split
      · exact hc.upd _ _ (.pending { c with version := 1 } _) (hc.upd _ _ (.version c 1 (by decide) h11) hcp)
      · exact hc.upd _ _ (.version c 0 (by decide) h11) hcp
    · exact hcp
  generalize joinCFList (joinParams cfg m f) f buf = c at h2
  have h4 := hc.upd _ _ (.ids c f.devAddr f.netID f.joinNonce hf.devAddr hf.netID hf.joinNonce) h2
  have h5 := h3 _ h4
  have : ({ joinVersion cfg { c with devAddr := f.devAddr } f with netID := f.netID, joinNonce := f.joinNonce } : Session) =
      joinVersion cfg { c with devAddr := f.devAddr, netID := f.netID, joinNonce := f.joinNonce } f := by
    unfold joinVersion
    split
    · split <;> rfl
    · rfl
  rw [this]
  exact h5

theorem joinAccepted_session {cfg : Cfg} {P : Session → Prop} (hc : Closed cfg P) (m : Mac) (f : Frame.Down) (buf : Bytes)
    (hf : DownWF f) (hp : P m.ctx) : P (joinAccepted cfg m f buf).ctx := by
  have := joinSession_session hc m f buf hf hp
  unfold joinAccepted
  simp only []
  obtain ⟨k, hk⟩ := deriveKeys_shape cfg { m with ctx := joinSession cfg m f buf, joinNonce := f.joinNonce }
  rw [hk]
  exact this

theorem deriveDownCounter_zero (cfg : Cfg) {s : Session} (h : Spec.FirstCounters s) (port : Nat) {c : Nat} (hc : c < 65536) :
    Ops.deriveDownCounter cfg s port c = c := by
  have h0 : u32 (0 <<< 16) = 0 := rfl
  unfold Ops.deriveDownCounter
  simp only [h.1, h.2, ite_self, h0, Nat.zero_add]
  rw [if_neg (by omega)]
  exact Nat.mod_eq_of_lt (by omega)

theorem syncDownCounter_zero (cfg : Cfg) {s : Session} (h : Spec.FirstCounters s) (port : Nat) {c : Nat} (hc : c < 65536) :
    Ops.syncDownCounter cfg s port c = s := by
  unfold Ops.syncDownCounter
  simp only []
  rw [deriveDownCounter_zero cfg h port hc, Nat.shiftRight_eq_div_pow, Nat.div_eq_of_lt hc]
  obtain ⟨h1, h2⟩ := h
  cases s
  simp only at h1 h2
  subst h1 h2
  split <;> rfl

theorem dataReceived_session {cfg : Cfg} {P : Session → Prop} (hc : Closed cfg P) (e : Env) (m : Mac) (f : Frame.Down)
    (buf : Bytes) (hf : DownWF f) (hp : P m.ctx) : P (dataReceived cfg e m f buf).ctx := by
  have h1 : P (Ops.syncDownCounter cfg m.ctx f.port f.counter) := by
    have hz := fun h => syncDownCounter_zero cfg (s := m.ctx) h f.port hf.counter
    unfold Ops.syncDownCounter at hz ⊢
    simp only [] at hz ⊢
    by_cases hv : sessVersion cfg m.ctx > 0 ∧ f.port = 0
    · rw [if_pos hv] at hz ⊢
      refine hc.upd _ _ (.down m.ctx m.ctx.appDown _ (Or.inr rfl) (Or.inl (Nat.mod_lt _ (by decide))) ?_) hp
      intro h
      exact ⟨h.1, (congrArg Session.nwkDown (hz h)).trans h.2⟩
    · rw [if_neg hv] at hz ⊢
      refine hc.upd _ _ (.down m.ctx _ m.ctx.nwkDown (Or.inl (Nat.mod_lt _ (by decide))) (Or.inr rfl) ?_) hp
      intro h
      exact ⟨(congrArg Session.appDown (hz h)).trans h.1, h.2⟩
  have h2 : P (dataBegin cfg m f).ctx := by
    unfold dataBegin clearPending
    simp only []
    generalize Ops.syncDownCounter cfg m.ctx f.port f.counter = c at h1
    exact hc.upd _ _ (.pending c _) h1
  have h3 : P (dataOpts cfg e (dataBegin cfg m f) f buf).ctx := by
    unfold dataOpts
    split
    · exact processCommands_session hc e _ _ h2
    · exact h2
  have h4 : P (dataPayload cfg e (dataOpts cfg e (dataBegin cfg m f) f buf) f buf).ctx := by
    unfold dataPayload
    split
    · split
      · exact processCommands_session hc e _ _ h3
      · exact h3
    · exact h3
  unfold dataReceived
  rw [dataEnd_eq]
  exact h4

theorem registerTime_ctx (m : Mac) : (registerTime m).ctx = m.ctx := by
  obtain ⟨b, h⟩ := registerTime_shape m
  rw [h]

theorem Disp.session {cfg : Cfg} {P : Session → Prop} (hc : Closed cfg P) {e : Env} {ev : Sme} {lag : Nat} {m m' : Mac}
    (h : Disp cfg e ev lag m m') (hp : P m.ctx) : P m'.ctx := by
  have hs : P (statusRead ev m).ctx := by unfold statusRead; split <;> exact hp
  cases h with
  | txError => exact handleRadioError_session hc e _ (by rw [registerTime_ctx]; exact hs)
  | txDone =>
    obtain ⟨r1, r2, ta, tb, s, h, _⟩ := txComplete_shape cfg e lag (registerTime (m.emit .getStatus))
    rw [h]
    show P (registerTime (m.emit .getStatus)).ctx
    rw [registerTime_ctx]; exact hp
  | rxError => exact handleRadioError_session hc e _ hp
  | rxRejected => exact downlinkMissing_session hc e _ hp
  | rxJoin _ _ _ f buf hf =>
    exact joinAccepted_session hc _ f buf
      (receiveFrame_wf (received_length e) (by rw [rxBuffer_length]; exact received_length e) hf) hp
  | rxData _ _ _ f buf hf =>
    exact dataReceived_session hc e _ f buf
      (receiveFrame_wf (received_length e) (by rw [rxBuffer_length]; exact received_length e) hf) hp
  | lockout => exact downlinkMissing_session hc e _ hp
  | _ => exact hp

theorem uplinkAnswers_session {cfg : Cfg} {P : Session → Prop} (hc : Closed cfg P) (m : Mac) (o : DataOpts) (hj : m.ctx.joined = true)
    (hp : P m.ctx) : P (uplinkAnswers cfg m o).2 := by
  have key : ∀ (t : CmdType) (b : Bool) put (p : Stream × Session), P p.2 → P (answer t b put p).2 := by
    intro t b put p hpp
    obtain ⟨s, pc, h⟩ := answer_shape t b put p
    rw [h]
    exact hc.upd _ _ (.pending _ _) hpp
  have hu := hc.upd _ _ (.up m.ctx hj) hp
  unfold uplinkAnswers putAnswers
  simp only []
  split <;> split <;> split <;>
    first
    | (simp only []; repeat (first | exact hu | apply key))
    | (repeat (first | exact hu | apply key))

theorem Api.session {cfg : Cfg} {P : Session → Prop} (hc : Closed cfg P) {e : Env} {m m' : Mac} {c : Call} {st : Status}
    (h : Api cfg e m c m' st) (hw : c.WF) (hp : P m.ctx) : P m'.ctx := by
  cases h with
  | refused => exact hp
  | entropyIdle => exact hp
  | entropyLater => exact hp
  | otaa _ _ _ x hx =>
    show P x.ctx
    rw [hx]
    apply nextJoinRequest_session hc
    obtain ⟨k, hk⟩ := deriveJoinKeys_shape cfg { m with trials := 0, day := 60 * 60 * 24 * timeTPS }
    rw [hk]; exact hp
  | abp hj _ d => exact hc.upd _ _ (.abp _ hj d hw) hp
  | dataRefused => exact hp
  | data c p d l o hj _ _ _ _ _ _ _ _ x hx =>
    obtain ⟨b, bl, op, s, t, h, _⟩ := sendData_shape cfg e x c p d l o (m.ctx.region.convertRate m.ctx.rate).mtu
    rw [h]
    have hxc : x.ctx = m.ctx := by rw [hx]
    exact uplinkAnswers_session hc x (dataOptions o) (by rw [hxc]; exact hj) (by rw [hxc]; exact hp)
  | forget =>
    have hcan : (LDL.cancel m).ctx = m.ctx := by
      rcases cancel_shape m with ⟨_, h⟩ | ⟨_, h⟩ <;> rw [h]
    unfold LDL.forget
    simp only []
    split
    · next hj =>
      refine hc.upd m.ctx _ (.forget _ _ { LDL.cancel m with band := upd (LDL.cancel m).band GLOBAL 0 } hcan.symm ?_ rfl) hp
      rw [← hcan]; exact hj
    · rw [hcan]; exact hp
  | cancel =>
    have hcan : (LDL.cancel m).ctx = m.ctx := by
      rcases cancel_shape m with ⟨_, h⟩ | ⟨_, h⟩ <;> rw [h]
    rw [hcan]; exact hp
  | setRate r hr => exact hc.upd _ _ (.setRate _ r hr) hp
  | setPower p hr => exact hc.upd _ _ (.setPower _ p hr) hp
  | setADR v => exact hc.upd _ _ (.setADR _ v) hp
  | setMaxDCycle v => exact hc.upd _ _ (.setMaxDCycle _ _ (and15_lt v)) hp
  | addChannel ch f a b => exact hc.upd _ _ (.setChannel _ ch f a b hw.2.1 hw.2.2.1 hw.2.2.2) hp
  | maskChannel ch => exact hc.upd _ _ (.mask _ ch) hp
  | unmaskChannel ch => exact hc.upd _ _ (.unmask _ ch) hp
  | latched => exact hp
  | ignored => exact hp
  | late => exact hp
  | notLate => exact hp

theorem Prep.ctx {e : Env} {m m1 : Mac} {ev : Sme} {lag : Nat} (h : Prep e m m1 ev lag) : m1.ctx = m.ctx := by
  obtain ⟨tt, tr, d, b, ia, is, ta, tb, o, heq⟩ := h.eq
  rw [heq]

/-- A closed predicate survives every call. -/
theorem step_session {cfg : Cfg} {P : Session → Prop} (hc : Closed cfg P) (e : Env) (m : Mac) (c : Call) (hw : c.WF)
    (hp : P m.ctx) : P (step cfg m e c).1.ctx := by
  by_cases h : c = .process
  · subst h
    obtain ⟨ev, lag, m1, m2, p, t, hpr, hd, heq⟩ := process_disp cfg e m
    show P (process cfg e m).ctx
    rw [heq]
    have h1 : P m1.ctx := by rw [hpr.ctx]; exact hp
    rcases hd with ⟨_, hd⟩ | ⟨_, hd⟩
    · rw [hd]; exact h1
    · exact hd.session hc h1
  · exact (step_api cfg e m c h).session hc hw hp

end LDL
