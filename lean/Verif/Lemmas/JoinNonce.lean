import Verif.Lemmas.Pending
import Verif.Lemmas.OpStep
import Verif.Lemmas.Deliver

/-!
# When the join nonce changes
-/

namespace LDL

/-- The values reported by JOIN_COMPLETE among some events. -/
def joinReports (l : List Event) : List Nat :=
  l.filterMap fun | .joinComplete n _ _ => some n | _ => none

theorem nextJoinRequest_joinNonce (cfg : Cfg) (e : Env) (m : Mac) :
    (nextJoinRequest cfg e m).joinNonce = m.joinNonce := by
  obtain ⟨_, _, _, _, h⟩ := nextJoinRequest_shape cfg e m
  rw [h]

theorem Missing.joinNonce {cfg : Cfg} {e : Env} {m m' : Mac} (h : Missing cfg e m m') :
    m'.joinNonce = m.joinNonce := by
  cases h
  case nextJoin => simp only [nextJoinRequest_joinNonce]
  all_goals rfl

theorem RadioErr.joinNonce {cfg : Cfg} {e : Env} {m m' : Mac} (h : RadioErr cfg e m m') :
    m'.joinNonce = m.joinNonce := by
  cases h
  case nextJoin hm =>
    show Mac.joinNonce _ = _
    rw [hm, nextJoinRequest_joinNonce]
  all_goals rfl

theorem Disp.joinNonce {cfg : Cfg} {e : Env} {ev : Sme} {lag : Nat} {m m' : Mac} (h : Disp cfg e ev lag m m') :
    m'.joinNonce = m.joinNonce ∨
      ev = .interrupt ∧ (m.state = .rx1 ∨ m.state = .rx2) ∧ e.statusRx = true ∧
        ∃ f buf, Ops.receiveFrame cfg m e.rxBuffer e.received.length = (some f, buf) ∧ f.type = Frame.JOIN_ACCEPT ∧
          m' = pushSessionUpdate (joinAccepted cfg (packetState e m) f buf) := by
  cases h
  case txError hs he =>
    left
    rw [(handleRadioError_cases cfg e _).joinNonce]
    obtain ⟨b, hb⟩ := registerTime_shape (statusRead ev m)
    rw [hb]
    unfold statusRead
    split <;> rfl
  case txDone hs he ht =>
    left
    obtain ⟨_, _, _, _, _, h, _⟩ := txComplete_shape cfg e lag (registerTime (m.emit .getStatus))
    obtain ⟨b, hb⟩ := registerTime_shape (m.emit .getStatus)
    rw [h, hb]
    rfl
  case rxError => exact Or.inl (handleRadioError_cases cfg e _).joinNonce
  case rxRejected => exact Or.inl (downlinkMissing_missing cfg e _).joinNonce
  case rxJoin hs he hr f buf hf ht _ => exact Or.inr ⟨he, hs, hr, f, buf, hf, ht, rfl⟩
  case rxData hs he hr f buf hf _ _ =>
    left
    obtain ⟨_, _, h, _⟩ := dataReceived_shape cfg e (packetState e m) f buf
    show Mac.joinNonce (dataReceived cfg e (packetState e m) f buf) = _
    rw [h]
    rfl
  case lockout => exact Or.inl (downlinkMissing_missing cfg e _).joinNonce
  all_goals exact Or.inl rfl

theorem Api.joinNonce {cfg : Cfg} {e : Env} {m m' : Mac} {c : Call} {st : Status} (h : Api cfg e m c m' st) :
    m'.joinNonce = m.joinNonce := by
  have hcancel : (LDL.cancel m).joinNonce = m.joinNonce := by
    rcases cancel_shape m with ⟨_, h⟩ | ⟨_, h⟩ <;> rw [h]
  cases h
  case otaa hm _ _ _ =>
    show Mac.joinNonce _ = _
    rw [hm, nextJoinRequest_joinNonce]
    obtain ⟨k, hk⟩ := deriveJoinKeys_shape cfg { m with trials := 0, day := 60 * 60 * 24 * timeTPS }
    rw [hk]
  case data hm =>
    obtain ⟨_, _, _, _, _, h, _⟩ := sendData_shape cfg e _ _ _ _ _ _ _
    rw [h, hm]
  case forget =>
    show (LDL.forget m).joinNonce = _
    rw [← hcancel]
    unfold LDL.forget
    simp only []
    split <;> rfl
  case cancel => exact hcancel
  all_goals rfl

/-- A join accept is accepted: the packet in the radio passes the checks. -/
def JoinsWith (cfg : Cfg) (e : Env) (m : Mac) (c : Call) (f : Frame.Down) (buf : Bytes) : Prop :=
  c = .process ∧ Accepts cfg e m f buf ∧ f.type = Frame.JOIN_ACCEPT

theorem joinReports_append (a b : List Event) : joinReports (a ++ b) = joinReports a ++ joinReports b :=
  List.filterMap_append ..

theorem joinReports_nil {l : List Event} (h : ∀ a b c, .joinComplete a b c ∉ l) : joinReports l = [] := by
  refine List.filterMap_eq_nil_iff.2 fun x hx => ?_
  cases x <;> first | rfl | exact absurd hx (h _ _ _)

theorem accepts_type {cfg : Cfg} {e : Env} {m : Mac} {f : Frame.Down} {buf : Bytes} (h : Accepts cfg e m f buf) :
    f.type = Frame.JOIN_ACCEPT ∨ (f.type = Frame.DATA_CONFIRMED_DOWN ∨ f.type = Frame.DATA_UNCONFIRMED_DOWN) := by
  rcases receiveFrame_cases (received_length e) (by rw [rxBuffer_length]; exact received_length e) h.2.2.2 with
    ⟨h, _⟩ | ⟨h, _⟩
  · exact Or.inl h
  · exact Or.inr h.symm

/-- The join nonce changes, and is reported, exactly when a join accept is accepted. -/
theorem step_joinNonce (cfg : Cfg) (e : Env) (m : Mac) (c : Call) : ∃ o, (step cfg m e c).1.out = m.out ++ o ∧
    ((joinReports o = [] ∧ (step cfg m e c).1.joinNonce = m.joinNonce ∧ ∀ f buf, ¬ JoinsWith cfg e m c f buf) ∨
     (∃ f buf, JoinsWith cfg e m c f buf ∧ joinReports o = [u32 (f.joinNonce + 1)] ∧
      .joinComplete (u32 (f.joinNonce + 1)) f.netID f.devAddr ∈ o ∧
      (step cfg m e c).1.joinNonce = u32 (f.joinNonce + 1))) := by
  by_cases h : ∃ f buf, JoinsWith cfg e m c f buf
  · obtain ⟨f, buf, hj⟩ := h
    obtain ⟨hc, ha, ht⟩ := id hj
    subst hc
    obtain ⟨lag, x, p, t, hp, hx⟩ := receiving (cfg := cfg) (m := m) (e := e) ⟨ha.1, ha.2.1, ha.2.2.1⟩
    rw [ha.2.2.2] at hx
    simp only [] at hx
    rw [if_neg (by rw [ht]; decide)] at hx
    obtain ⟨_, _, _, _, _, _, hs⟩ := joinAccepted_shape cfg (packetState e x) f buf
    generalize joinAccepted cfg (packetState e x) f buf = y at hx hs
    have hout : (process cfg e m).out = x.out ++ [.getStatus] ++ [.readBuffer] ++ [.setMode .sleep] ++
        [.joinComplete (u32 (f.joinNonce + 1)) f.netID f.devAddr] ++ [.sessionUpdated y.ctx] := by
      rw [hx]
      show y.out ++ _ = _
      rw [hs]
      rfl
    have hjn : (process cfg e m).joinNonce = u32 (f.joinNonce + 1) := by
      rw [hx]
      show y.joinNonce = _
      rw [hs]
    rcases hp.out with ho | ho
    · refine ⟨[.getStatus] ++ [.readBuffer] ++ [.setMode .sleep] ++
        [.joinComplete (u32 (f.joinNonce + 1)) f.netID f.devAddr] ++ [.sessionUpdated y.ctx], ?_,
        Or.inr ⟨f, buf, hj, rfl, by simp, hjn⟩⟩
      show (process cfg e m).out = _
      rw [hout, ho]
      simp only [List.append_assoc]
    · refine ⟨[.channelReady] ++ [.getStatus] ++ [.readBuffer] ++ [.setMode .sleep] ++
        [.joinComplete (u32 (f.joinNonce + 1)) f.netID f.devAddr] ++ [.sessionUpdated y.ctx], ?_,
        Or.inr ⟨f, buf, hj, rfl, by simp, hjn⟩⟩
      show (process cfg e m).out = _
      rw [hout, ho]
      simp only [List.append_assoc]
  · obtain ⟨o, ho, hev⟩ := step_emits cfg e m c
    refine ⟨o, ho, Or.inl ⟨joinReports_nil ?_, ?_, fun f buf hj => h ⟨f, buf, hj⟩⟩⟩
    · intro x y z hx
      have := hev _ hx
      generalize hz : Event.joinComplete x y z = ev at this
      cases this with
      | joinComplete f buf ha ht => exact h ⟨f, buf, rfl, ha, (accepts_type ha).resolve_right ht⟩
      | info f buf ha ev hi => rw [← hz] at hi; exact hi.elim
      | _ => cases hz
    · by_cases hc : c = .process
      · subst hc
        show (process cfg e m).joinNonce = _
        obtain ⟨ev, lag, m1, m2, p, t, hp, hd, hpr⟩ := process_disp cfg e m
        rw [hpr]
        show m2.joinNonce = _
        obtain ⟨_, _, _, _, _, _, _, _, _, hm⟩ := hp.eq
        have h1 : m1.joinNonce = m.joinNonce := by rw [hm]
        rw [← h1]
        rcases hd with ⟨_, rfl⟩ | ⟨_, hd⟩
        · rfl
        · rcases hd.joinNonce with h' | ⟨h2, h3, h4, f, buf, h5, h6, _⟩
          · exact h'
          · refine absurd ⟨f, buf, rfl, ⟨?_, hp.interrupt.mp h2, h4, ?_⟩, h6⟩ h
            · rw [hm] at h3; exact h3
            · rw [← h5]
              exact receiveFrame_congr cfg m1 m _ _ (by rw [hm]) (by rw [hm]) (by rw [hm]) (by rw [hm]) (by rw [hm])
      · exact (step_api cfg e m c hc).joinNonce

end LDL
