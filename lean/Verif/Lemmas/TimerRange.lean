import Verif.Lemmas.Live

/-!
# The times of the timers fit in 32 bits

In C that is the type of the field; here it is an invariant of the reachable states.
-/

namespace LDL

/-- The times of both timers of the state machine fit in 32 bits. -/
def TimersFit (m : Mac) : Prop := m.timerA.time < 4294967296 ∧ m.timerB.time < 4294967296

theorem set_fits (e : Env) (t : Nat) : (Timer.set e t).time < 4294967296 := Nat.mod_lt _ (by decide)

theorem append_fits (x : Timer) (t : Nat) : (x.append t).time < 4294967296 := Nat.mod_lt _ (by decide)

theorem Missing.timersFit {cfg : Cfg} {e : Env} {m m' : Mac} (h : Missing cfg e m m') (hm : TimersFit m) : TimersFit m' := by
  cases h with
  | retry => exact ⟨set_fits _ _, hm.2⟩
  | nextJoin =>
    refine ⟨set_fits _ _, ?_⟩
    obtain ⟨dn, b, bl, t, h⟩ := nextJoinRequest_shape cfg e { m with trials := u32 (m.trials + 1) }
    rw [h]; exact hm.2
  | _ => exact hm

theorem RadioErr.timersFit {cfg : Cfg} {e : Env} {m m' : Mac} (h : RadioErr cfg e m m') (hm : TimersFit m) : TimersFit m' := by
  cases h with
  | op => exact ⟨set_fits _ _, hm.2⟩
  | exhausted => exact ⟨set_fits _ _, hm.2⟩
  | nextJoin _ _ x hx =>
    refine ⟨set_fits _ _, ?_⟩
    obtain ⟨dn, b, bl, t, h⟩ := nextJoinRequest_shape cfg e { m with
      inputArmed := false, timerA := m.timerA.clear, timerB := m.timerB.clear, trials := u32 (m.trials + 1) }
    rw [hx, h]; exact hm.2

theorem Disp.timersFit {cfg : Cfg} {e : Env} {ev : Sme} {lag : Nat} {m m' : Mac} (h : Disp cfg e ev lag m m')
    (hm : TimersFit m) : TimersFit m' := by
  have hreg : ∀ x : Mac, TimersFit x → TimersFit (registerTime x) := by
    intro x hx
    obtain ⟨b, h⟩ := registerTime_shape x
    rw [h]; exact hx
  cases h with
  | stay => exact hm
  | entropy => exact hm
  | boot =>
    refine ⟨?_, hm.2⟩
    show (if bootState m.op = .idle then m.timerA else Timer.set e 0).time < 4294967296
    split
    · exact hm.1
    · exact set_fits _ _
  | waitA => exact ⟨append_fits _ _, hm.2⟩
  | waitB => exact ⟨hm.1, append_fits _ _⟩
  | txError =>
    refine (handleRadioError_cases ..).timersFit (hreg _ ?_)
    unfold statusRead
    split <;> exact hm
  | txDone =>
    have hx : TimersFit (registerTime (m.emit .getStatus)) := hreg _ hm
    obtain ⟨r1, r2, ta, tb, s, h, hst⟩ := txComplete_shape cfg e lag (registerTime (m.emit .getStatus))
    rw [h]
    rcases hst with ⟨_, x, y, rfl, rfl⟩ | ⟨_, rfl, y, rfl⟩
    · exact ⟨set_fits _ _, set_fits _ _⟩
    · exact ⟨hx.1, set_fits _ _⟩
  | rxError => exact (handleRadioError_cases ..).timersFit hm
  | rxRejected => exact (downlinkMissing_missing ..).timersFit hm
  | lockout => exact (downlinkMissing_missing ..).timersFit hm
  | rxJoin _ _ _ f buf =>
    obtain ⟨_, _, _, _, _, _, h⟩ := joinAccepted_shape cfg (packetState e m) f buf
    rw [h]; exact hm
  | rxData _ _ _ f buf =>
    obtain ⟨_, _, h, _⟩ := dataReceived_shape cfg e (packetState e m) f buf
    rw [h]; exact hm
  | rxTimeout1 => exact hm
  | _ => exact ⟨set_fits _ _, hm.2⟩

theorem process_timersFit (cfg : Cfg) (e : Env) (m : Mac) (hm : TimersFit m) : TimersFit (process cfg e m) := by
  obtain ⟨ev, lag, m1, m2, p, t, hp, hd, h⟩ := process_disp cfg e m
  rw [h]
  have h1 : TimersFit m1 := by
    constructor
    · rcases hp.timerA with ⟨_, _, h⟩ | ⟨_, h⟩ <;> rw [h] <;> exact hm.1
    · rcases hp.timerB with ⟨_, _, h⟩ | ⟨_, h⟩ <;> rw [h] <;> exact hm.2
  rcases hd with ⟨_, hd⟩ | ⟨_, hd⟩
  · rw [hd]; exact h1
  · exact hd.timersFit h1

theorem Api.timersFit {cfg : Cfg} {e : Env} {m m' : Mac} {c : Call} {st : Status} (h : Api cfg e m c m' st)
    (hm : TimersFit m) : TimersFit m' := by
  have hcan : TimersFit (LDL.cancel m) := by
    rcases cancel_shape m with ⟨_, h⟩ | ⟨_, h⟩ <;> rw [h] <;> exact hm
  cases h
  case entropyIdle => exact ⟨set_fits _ _, hm.2⟩
  case otaa _ _ x hx s t hst =>
    obtain ⟨k, hk⟩ := deriveJoinKeys_shape cfg { m with trials := 0, day := 60 * 60 * 24 * timeTPS }
    obtain ⟨dn, b, bl, t', h⟩ := nextJoinRequest_shape cfg e
      (Ops.deriveJoinKeys cfg { m with trials := 0, day := 60 * 60 * 24 * timeTPS })
    have hB : x.timerB = m.timerB := by rw [hx, h, hk]
    refine ⟨?_, by show x.timerB.time < _; rw [hB]; exact hm.2⟩
    rcases hst with ⟨_, _, rfl⟩ | ⟨_, _, rfl⟩
    · exact set_fits _ _
    · exact hm.1
  case data _ _ _ _ _ _ _ _ m1 hm1 =>
    obtain ⟨_, _, op, s, t, h', hopp, hst⟩ := sendData_shape cfg e m1 _ _ _ _ _ _
    rw [h']
    have e2 : m1.timerA = m.timerA := by rw [hm1]
    have e3 : m1.timerB = m.timerB := by rw [hm1]
    refine ⟨?_, by show m1.timerB.time < _; rw [e3]; exact hm.2⟩
    rcases hst with ⟨_, _, rfl⟩ | ⟨_, _, rfl⟩
    · exact set_fits _ _
    · rw [e2]; exact hm.1
  case forget =>
    obtain ⟨_, _, _, _, _, h'⟩ := forget_shape m
    rw [h']; exact hcan
  case cancel => exact hcan
  all_goals exact hm

theorem Spec.Reachable.timersFit {cfg : Cfg} {m : Mac} (hr : Spec.Reachable cfg m) : TimersFit m := by
  induction hr with
  | init region arg e _ _ =>
    obtain ⟨c, k, h, _⟩ := init_fields cfg region arg e
    rw [h]
    exact ⟨set_fits _ _, by show 0 < 4294967296; decide⟩
  | @step m e c h _ ih =>
    by_cases hc : c = .process
    · subst hc; exact process_timersFit cfg e m ih
    · exact (step_api cfg e m c hc).timersFit ih

end LDL
