import Verif.Lemmas.Cases
import Verif.Spec.Session

/-!
# When the end of the last transmission is recorded
-/

namespace LDL

theorem nextJoinRequest_anchor (cfg : Cfg) (e : Env) (m : Mac) : (nextJoinRequest cfg e m).ticksAtTx = m.ticksAtTx := by
  obtain ⟨_, _, _, _, h⟩ := nextJoinRequest_shape cfg e m
  rw [h]

theorem Missing.anchor {cfg : Cfg} {e : Env} {m m' : Mac} (h : Missing cfg e m m') : m'.ticksAtTx = m.ticksAtTx := by
  cases h
  case nextJoin => simp only [nextJoinRequest_anchor]
  all_goals rfl

theorem RadioErr.anchor {cfg : Cfg} {e : Env} {m m' : Mac} (h : RadioErr cfg e m m') : m'.ticksAtTx = m.ticksAtTx := by
  cases h
  case nextJoin hm =>
    show Mac.ticksAtTx _ = _
    rw [hm, nextJoinRequest_anchor]
  all_goals rfl

theorem Disp.anchor {cfg : Cfg} {e : Env} {ev : Sme} {lag : Nat} {m m' : Mac} (h : Disp cfg e ev lag m m') :
    m'.ticksAtTx = m.ticksAtTx ∧ ¬ (m.state = .tx ∧ ev = .interrupt ∧ e.statusTx = true) ∨
      m'.ticksAtTx = sub32 e.later lag ∧ m.state = .tx ∧ ev = .interrupt ∧ e.statusTx = true ∨
      m' = m := by
  cases h
  case stay => exact Or.inr (Or.inr rfl)
  case txError hs he =>
    refine Or.inl ⟨?_, ?_⟩
    · rw [(handleRadioError_cases cfg e _).anchor]
      obtain ⟨b, hb⟩ := registerTime_shape (statusRead ev m)
      rw [hb]
      unfold statusRead
      split <;> rfl
    · rintro ⟨_, h2, h3⟩
      rcases he with he | ⟨_, he⟩
      · rw [h2] at he; cases he
      · rw [h3] at he; cases he
  case txDone hs he ht =>
    obtain ⟨_, _, _, _, _, h, _⟩ := txComplete_shape cfg e lag (registerTime (m.emit .getStatus))
    rw [h]
    exact Or.inr (Or.inl ⟨rfl, hs, he, ht⟩)
  case rxError hs he =>
    refine Or.inl ⟨(handleRadioError_cases cfg e _).anchor, ?_⟩
    rintro ⟨h1, _⟩
    rw [h1] at hs; simp at hs
  case rxRejected hs _ _ _ _ =>
    refine Or.inl ⟨(downlinkMissing_missing cfg e _).anchor, ?_⟩
    rintro ⟨h1, _⟩
    rw [h1] at hs; simp at hs
  case rxJoin hs _ _ f buf _ _ _ =>
    obtain ⟨_, _, _, _, _, _, h⟩ := joinAccepted_shape cfg (packetState e m) f buf
    refine Or.inl ⟨?_, ?_⟩
    · show (joinAccepted cfg (packetState e m) f buf).ticksAtTx = _
      rw [h]; rfl
    · rintro ⟨h1, _⟩
      rw [h1] at hs; simp at hs
  case rxData hs _ _ f buf _ _ _ =>
    obtain ⟨_, _, h, _⟩ := dataReceived_shape cfg e (packetState e m) f buf
    refine Or.inl ⟨?_, ?_⟩
    · show (dataReceived cfg e (packetState e m) f buf).ticksAtTx = _
      rw [h]; rfl
    · rintro ⟨h1, _⟩
      rw [h1] at hs; simp at hs
  case lockout hs _ =>
    refine Or.inl ⟨(downlinkMissing_missing cfg e _).anchor, ?_⟩
    rintro ⟨h1, _⟩
    rw [h1] at hs; cases hs
  case waitA hs _ _ _ =>
    refine Or.inl ⟨rfl, ?_⟩
    rintro ⟨h1, _⟩
    rw [h1] at hs; simp at hs
  all_goals
    refine Or.inl ⟨rfl, ?_⟩
    rintro ⟨h1, _⟩
    simp_all

theorem Api.anchor {cfg : Cfg} {e : Env} {m m' : Mac} {c : Call} {st : Status} (h : Api cfg e m c m' st) :
    m'.ticksAtTx = m.ticksAtTx := by
  cases h
  case otaa hm _ _ _ =>
    show Mac.ticksAtTx _ = _
    rw [hm, nextJoinRequest_anchor]
    obtain ⟨k, hk⟩ := deriveJoinKeys_shape cfg { m with trials := 0, day := 60 * 60 * 24 * timeTPS }
    rw [hk]
  case data hm =>
    obtain ⟨_, _, _, _, _, h, _⟩ := sendData_shape cfg e _ _ _ _ _ _ _
    rw [h, hm]
  case forget =>
    have hf : (LDL.forget m).ticksAtTx = (LDL.cancel m).ticksAtTx := by
      unfold LDL.forget
      simp only []
      split <;> rfl
    rw [hf]
    rcases cancel_shape m with ⟨_, h⟩ | ⟨_, h⟩ <;> rw [h]
  case cancel =>
    rcases cancel_shape m with ⟨_, h⟩ | ⟨_, h⟩ <;> rw [h]
  all_goals rfl

/-- Whether a call takes the end of a transmission from the radio. -/
def Spec.EndsTx (m : Mac) (e : Env) (c : Call) : Prop :=
  c = .process ∧ m.state = .tx ∧ m.inputState = true ∧ e.statusTx = true

instance (m : Mac) (e : Env) (c : Call) : Decidable (Spec.EndsTx m e c) :=
  match c with
  | .process => decidable_of_iff (m.state = .tx ∧ m.inputState = true ∧ e.statusTx = true) (by simp [Spec.EndsTx])
  | .entropy | .otaa | .abp _ | .data .. | .forget | .cancel | .setRate _ | .setPower _ | .setADR _ | .setMaxDCycle _
  | .addChannel .. | .maskChannel _ | .unmaskChannel _ | .radioEvent _ | .lateEvent _ => isFalse (by simp [Spec.EndsTx])

theorem process_tx_not_stay (cfg : Cfg) (e : Env) (lag : Nat) (m : Mac) (hs : m.state = .tx)
    (ht : e.statusTx = true) : (dispatch cfg e .interrupt lag m).ticksAtTx = sub32 e.later lag := by
  unfold dispatch processTX
  simp only [hs]
  rw [if_neg (by decide), if_neg (by simp [ht]), if_pos trivial, if_pos trivial, if_pos (Or.inl trivial)]
  obtain ⟨_, _, _, _, _, h, _⟩ := txComplete_shape cfg e lag (registerTime (m.emit .getStatus))
  rw [h]

theorem step_anchor (cfg : Cfg) (m : Mac) (e : Env) (c : Call) :
    (step cfg m e c).1.ticksAtTx =
      if Spec.EndsTx m e c then sub32 e.later (timerDelta m.inputTime e.ticks) else m.ticksAtTx := by
  by_cases hc : c = .process
  · subst hc
    show (process cfg e m).ticksAtTx = _
    obtain ⟨ev, lag, m1, hp, h⟩ := process_cases cfg e m
    obtain ⟨p, t, hs⟩ := setNextBandEvent_shape cfg e (if ev = .none then m1 else dispatch cfg e ev lag m1)
    rw [h, hs]
    show Mac.ticksAtTx _ = _
    obtain ⟨_, _, _, _, _, _, _, _, _, hm⟩ := hp.eq
    have h1 : m1.ticksAtTx = m.ticksAtTx := by rw [hm]
    have h2 : m1.state = m.state := by rw [hm]
    by_cases hen : Spec.EndsTx m e .process
    · rw [if_pos hen]
      obtain ⟨_, e1, e2, e3⟩ := hen
      have hev := hp.interrupt.mpr e2
      rw [if_neg (by rw [hev]; simp), hev, process_tx_not_stay cfg e lag m1 (h2.trans e1) e3]
      rcases hp.latch with ⟨_, _, _, hl⟩ | ⟨hl, _⟩
      · rw [hl]
      · exact absurd hev hl
    · rw [if_neg hen, ← h1]
      split
      · rfl
      · rcases (dispatch_disp cfg e ev lag m1).anchor with ⟨h, _⟩ | ⟨_, h3, h4, h5⟩ | h
        · exact h
        · exact absurd ⟨rfl, h2 ▸ h3, hp.interrupt.mp h4, h5⟩ hen
        · rw [h]
  · rw [if_neg (fun h => hc h.1)]
    exact (step_api cfg e m c hc).anchor


/-! ### The time of the interrupt -/

theorem nextJoinRequest_input (cfg : Cfg) (e : Env) (m : Mac) : (nextJoinRequest cfg e m).inputTime = m.inputTime := by
  obtain ⟨_, _, _, _, h⟩ := nextJoinRequest_shape cfg e m
  rw [h]

theorem Missing.input {cfg : Cfg} {e : Env} {m m' : Mac} (h : Missing cfg e m m') : m'.inputTime = m.inputTime := by
  cases h
  case nextJoin => simp only [nextJoinRequest_input]
  all_goals rfl

theorem RadioErr.input {cfg : Cfg} {e : Env} {m m' : Mac} (h : RadioErr cfg e m m') : m'.inputTime = m.inputTime := by
  cases h
  case nextJoin hm =>
    show Mac.inputTime _ = _
    rw [hm, nextJoinRequest_input]
  all_goals rfl

theorem Disp.input {cfg : Cfg} {e : Env} {ev : Sme} {lag : Nat} {m m' : Mac} (h : Disp cfg e ev lag m m') :
    m'.inputTime = m.inputTime := by
  cases h
  case txError hs he =>
    rw [(handleRadioError_cases cfg e _).input]
    obtain ⟨b, hb⟩ := registerTime_shape (statusRead ev m)
    rw [hb]
    unfold statusRead
    split <;> rfl
  case txDone hs he ht =>
    obtain ⟨_, _, _, _, _, h, _⟩ := txComplete_shape cfg e lag (registerTime (m.emit .getStatus))
    obtain ⟨b, hb⟩ := registerTime_shape (m.emit .getStatus)
    rw [h, hb]
    rfl
  case rxError => exact (handleRadioError_cases cfg e _).input
  case rxRejected => exact (downlinkMissing_missing cfg e _).input
  case rxJoin hs _ _ f buf _ _ _ =>
    obtain ⟨_, _, _, _, _, _, h⟩ := joinAccepted_shape cfg (packetState e m) f buf
    show (joinAccepted cfg (packetState e m) f buf).inputTime = _
    rw [h]; rfl
  case rxData hs _ _ f buf _ _ _ =>
    obtain ⟨_, _, h, _⟩ := dataReceived_shape cfg e (packetState e m) f buf
    show (dataReceived cfg e (packetState e m) f buf).inputTime = _
    rw [h]; rfl
  case lockout => exact (downlinkMissing_missing cfg e _).input
  all_goals rfl

theorem Api.input {cfg : Cfg} {e : Env} {m m' : Mac} {c : Call} {st : Status} (h : Api cfg e m c m' st) :
    m'.inputTime = m.inputTime ∨ c = .radioEvent m'.inputTime ∨ c = .lateEvent m'.inputTime := by
  cases h
  case latched => exact Or.inr (Or.inl rfl)
  case late => exact Or.inr (Or.inr rfl)
  case otaa hm _ _ _ =>
    left
    show Mac.inputTime _ = _
    rw [hm, nextJoinRequest_input]
    obtain ⟨k, hk⟩ := deriveJoinKeys_shape cfg { m with trials := 0, day := 60 * 60 * 24 * timeTPS }
    rw [hk]
  case data hm =>
    obtain ⟨_, _, _, _, _, h, _⟩ := sendData_shape cfg e _ _ _ _ _ _ _
    rw [h, hm]
    exact Or.inl rfl
  case forget =>
    have hf : (LDL.forget m).inputTime = (LDL.cancel m).inputTime := by
      unfold LDL.forget
      simp only []
      split <;> rfl
    rw [hf]
    rcases cancel_shape m with ⟨_, h⟩ | ⟨_, h⟩ <;> rw [h] <;> exact Or.inl rfl
  case cancel =>
    rcases cancel_shape m with ⟨_, h⟩ | ⟨_, h⟩ <;> rw [h] <;> exact Or.inl rfl
  all_goals exact Or.inl rfl

theorem step_input (cfg : Cfg) (m : Mac) (e : Env) (c : Call) :
    (step cfg m e c).1.inputTime = m.inputTime ∨ c = .radioEvent (step cfg m e c).1.inputTime ∨
      c = .lateEvent (step cfg m e c).1.inputTime := by
  by_cases hc : c = .process
  · subst hc
    left
    show (process cfg e m).inputTime = _
    obtain ⟨ev, lag, m1, m2, p, t, hp, hd, h⟩ := process_disp cfg e m
    rw [h]
    show m2.inputTime = _
    obtain ⟨_, _, _, _, _, _, _, _, _, hm⟩ := hp.eq
    have h1 : m1.inputTime = m.inputTime := by rw [hm]
    rw [← h1]
    rcases hd with ⟨_, rfl⟩ | ⟨_, hd⟩
    · rfl
    · exact hd.input
  · exact (step_api cfg e m c hc).input

/-- Times of the clock are 32-bit numbers. -/
theorem _root_.LDL.Spec.Reachable.ticks {cfg : Cfg} {m : Mac} (h : Spec.Reachable cfg m) :
    m.inputTime < 2 ^ 32 ∧ m.ticksAtTx < 2 ^ 32 := by
  induction h with
  | init region arg e _ _ =>
    have : (init cfg region arg e).inputTime = 0 ∧ (init cfg region arg e).ticksAtTx = 0 := by
      unfold init
      simp only []
      obtain ⟨c, hc⟩ : ∃ c, initSession cfg { tx := { chIndex := UINT8_MAX }, devNonce := u32 arg.devNonce
                                              joinNonce := u32 arg.joinNonce, devEUI := arg.devEUI, joinEUI := arg.joinEUI
                                              keys := Sm.init cfg arg.appKey arg.nwkKey } region =
          { tx := { chIndex := UINT8_MAX }, devNonce := u32 arg.devNonce, joinNonce := u32 arg.joinNonce
            devEUI := arg.devEUI, joinEUI := arg.joinEUI, keys := Sm.init cfg arg.appKey arg.nwkKey, ctx := c } := ⟨_, rfl⟩
      rw [hc]
      cases arg.session with
      | none => exact ⟨rfl, rfl⟩
      | some s =>
        simp only []
        split
        · split
          · obtain ⟨k, hk⟩ := deriveKeys_shape cfg
              { tx := { chIndex := UINT8_MAX }, devNonce := u32 arg.devNonce, joinNonce := u32 arg.joinNonce
                devEUI := arg.devEUI, joinEUI := arg.joinEUI, keys := Sm.init cfg arg.appKey arg.nwkKey, ctx := s }
            simp only at hk
            rw [hk]; exact ⟨rfl, rfl⟩
          · exact ⟨rfl, rfl⟩
        · exact ⟨rfl, rfl⟩
    rw [this.1, this.2]; decide
  | step e c _ hc ih =>
    constructor
    · rcases step_input cfg _ e c with h | h | h
      · rw [h]; exact ih.1
      · rw [h] at hc; exact hc
      · rw [h] at hc; exact hc
    · rw [step_anchor]
      split
      · exact Nat.mod_lt _ (by decide)
      · exact ih.2

end LDL
