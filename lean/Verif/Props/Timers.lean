import Verif.Lemmas.Live
import Verif.Lemmas.Demo

/-!
# Timers and the radio interrupt: C35, C36
-/

namespace LDL
open Spec

/-! ## C35 -/

namespace Spec

/-- A timer that is to expire when the clock, which counts ticks without end, shows `due`. -/
def DueAt (t : Timer) (due : Nat) : Prop := t.armed = true ∧ t.time = due % 2 ^ 32

/-- The timers of a device. -/
def timers (m : Mac) : List Timer := [m.timerA, m.timerB, m.timerBand]

end Spec

theorem two_pow_32 : (2 : Nat) ^ 32 = 4294967296 := rfl

theorem timerDelta_eq (x y : Nat) : timerDelta x y = if x ≤ y then y - x else 4294967295 - x + y := rfl

/-- The interval between two points of time on the wrapping clock: exact, or one less if the clock wraps in between. -/
theorem timerDelta_after (a b : Nat) (h : a ≤ b) (hd : b - a < 2 ^ 31) :
    timerDelta (a % 2 ^ 32) (b % 2 ^ 32) = b - a ∨ timerDelta (a % 2 ^ 32) (b % 2 ^ 32) + 1 = b - a := by
  rw [timerDelta_eq, two_pow_32]
  rw [show (2 : Nat) ^ 31 = 2147483648 from rfl] at hd
  generalize hx : a % 4294967296 = x
  generalize hy : b % 4294967296 = y
  by_cases hc : x ≤ y
  · rw [if_pos hc]; left; omega
  · rw [if_neg hc]; right; omega

/-- An interval in the wrong direction is seen as a long one. -/
theorem timerDelta_before (a b : Nat) (h : b < a) (hd : a - b < 2 ^ 31) :
    2 ^ 31 ≤ timerDelta (a % 2 ^ 32) (b % 2 ^ 32) := by
  rw [timerDelta_eq, two_pow_32]
  rw [show (2 : Nat) ^ 31 = 2147483648 from rfl] at hd ⊢
  generalize hx : a % 4294967296 = x
  generalize hy : b % 4294967296 = y
  by_cases hc : x ≤ y
  · rw [if_pos hc]; omega
  · rw [if_neg hc]; omega

theorem INT32_MAX_eq : INT32_MAX = 2147483647 := rfl

/-- **C35**: setting a timer. -/
theorem c35_set (e : Env) (t : Nat) (ht : t < 2 ^ 31) : DueAt (Timer.set e t) (e.done + t) := by
  refine ⟨rfl, ?_⟩
  show (e.done % 4294967296 + t % 2147483648) % 4294967296 = (e.done + t) % 2 ^ 32
  rw [two_pow_32]
  rw [show (2 : Nat) ^ 31 = 2147483648 from rfl] at ht
  omega

/-- **C35**: extending a timer. -/
theorem c35_append (tm : Timer) (due t : Nat) (h : tm.time = due % 2 ^ 32) (ht : t < 2 ^ 31) :
    DueAt (tm.append t) (due + t) := by
  refine ⟨rfl, ?_⟩
  show (tm.time + t % 2147483648) % 4294967296 = (due + t) % 2 ^ 32
  rw [h, two_pow_32]
  rw [show (2 : Nat) ^ 31 = 2147483648 from rfl] at ht
  omega

/-- **C35**: a timer does not expire early, whether or not the clock wraps. -/
theorem c35_not_early (tm : Timer) (due : Nat) (h : DueAt tm due) (e : Env) (hb : e.now < due) (hd : due - e.now < 2 ^ 31) :
    tm.check e = none := by
  have := timerDelta_before due e.now hb hd
  unfold Timer.check
  rw [h.1, if_pos rfl, h.2]
  rw [if_neg]
  show ¬ timerDelta (due % 2 ^ 32) (e.now % 2 ^ 32) < INT32_MAX
  rw [INT32_MAX_eq]
  omega

/-- **C35**: a timer that is due has expired, and the time since then is reported, but for one tick. -/
theorem c35_expires (tm : Timer) (due : Nat) (h : DueAt tm due) (e : Env) (hb : due ≤ e.now)
    (hd : e.now - due ≤ 2 ^ 31 - 2) :
    ∃ lag, tm.check e = some lag ∧ (lag = e.now - due ∨ lag + 1 = e.now - due) := by
  have := timerDelta_after due e.now hb (by omega)
  unfold Timer.check
  rw [h.1, if_pos rfl, h.2]
  refine ⟨timerDelta (due % 2 ^ 32) (e.now % 2 ^ 32), if_pos ?_, this⟩
  show timerDelta (due % 2 ^ 32) (e.now % 2 ^ 32) < INT32_MAX
  rw [INT32_MAX_eq]
  omega

/-- A timer that was cleared does not expire. -/
theorem c35_cleared (tm : Timer) (e : Env) : tm.clear.check e = none := rfl

theorem untilStep_le (e : Env) (acc : Nat) (t : Timer) : Timer.untilStep e acc t ≤ acc := by
  unfold Timer.untilStep
  split
  · omega
  · split
    · split
      · omega
      · split <;> omega
    · omega

theorem untilStep_timer (e : Env) (acc : Nat) (t : Timer) (due : Nat) (h : DueAt t due)
    (h1 : due < e.now + 2 ^ 31) (h2 : e.now < due + 2 ^ 31) : Timer.untilStep e acc t ≤ due - e.now := by
  unfold Timer.untilStep
  split
  · omega
  · rw [h.1, if_pos rfl, h.2]
    split
    · omega
    · next hc =>
      rw [INT32_MAX_eq] at hc
      change ¬ timerDelta (due % 2 ^ 32) (e.now % 2 ^ 32) ≤ _ at hc
      show (if timerDelta (e.now % 2 ^ 32) (due % 2 ^ 32) < acc then timerDelta (e.now % 2 ^ 32) (due % 2 ^ 32) else acc) ≤ _
      by_cases hb : due ≤ e.now
      · have := timerDelta_after due e.now hb (by omega)
        omega
      · have := timerDelta_after e.now due (by omega) (by omega)
        split <;> omega

/-- **C35**: the interval reported until the next event does not exceed the time to any armed timer that is due within
2^31 ticks, before or after.  It is 0 for one that has expired. -/
theorem c35_next_event (m : Mac) (tm : Timer) (ht : tm ∈ timers m) (due : Nat) (h : DueAt tm due) (e : Env)
    (h1 : due < e.now + 2 ^ 31) (h2 : e.now < due + 2 ^ 31) : ticksUntilNextEvent e m ≤ due - e.now := by
  unfold ticksUntilNextEvent
  split
  · omega
  · unfold timerTicksUntilNext
    simp only [List.foldl_cons, List.foldl_nil]
    simp only [timers, List.mem_cons, List.not_mem_nil, or_false] at ht
    generalize UINT32_MAX = M
    rcases ht with ht | ht | ht <;> subst ht
    · exact Nat.le_trans (Nat.le_trans (untilStep_le ..) (untilStep_le ..)) (untilStep_timer e _ _ due h h1 h2)
    · exact Nat.le_trans (untilStep_le ..) (untilStep_timer e _ _ due h h1 h2)
    · exact untilStep_timer e _ _ due h h1 h2

theorem untilStep_cases (e : Env) (acc : Nat) (t : Timer) :
    Timer.untilStep e acc t = acc ∨
    (t.armed = true ∧ (Timer.untilStep e acc t = 0 ∧ timerDelta t.time e.ticks ≤ INT32_MAX ∨
      INT32_MAX < timerDelta t.time e.ticks ∧ Timer.untilStep e acc t = timerDelta e.ticks t.time)) := by
  unfold Timer.untilStep
  by_cases h0 : acc = 0
  · rw [if_pos h0]; exact Or.inl h0.symm
  · rw [if_neg h0]
    by_cases ha : t.armed = true
    · rw [if_pos ha]
      by_cases h1 : timerDelta t.time e.ticks ≤ INT32_MAX
      · rw [if_pos h1]; exact Or.inr ⟨ha, Or.inl ⟨rfl, h1⟩⟩
      · rw [if_neg h1]
        by_cases h2 : timerDelta e.ticks t.time < acc
        · rw [if_pos h2]; exact Or.inr ⟨ha, Or.inr ⟨by omega, rfl⟩⟩
        · rw [if_neg h2]; exact Or.inl rfl
    · rw [if_neg ha]; exact Or.inl rfl

/-- **C35**: the interval reported is no shorter than necessary either: without an interrupt pending, it is the time to
some armed timer, but for one tick; or no timer is armed, and the largest number is reported. -/
theorem c35_next_event_exact (m : Mac) (e : Env) (hi : m.inputState = false) :
    ticksUntilNextEvent e m = UINT32_MAX ∨
    ∃ tm ∈ timers m, tm.armed = true ∧ ∀ due, DueAt tm due → due < e.now + 2 ^ 31 → e.now < due + 2 ^ 31 →
      due - e.now ≤ ticksUntilNextEvent e m + 1 := by
  have key : ∀ tm acc, (∃ x, Timer.untilStep e acc tm = x ∧ x ≠ acc) → tm.armed = true ∧
      ∀ due, DueAt tm due → due < e.now + 2 ^ 31 → e.now < due + 2 ^ 31 →
        due - e.now ≤ Timer.untilStep e acc tm + 1 := by
    rintro tm acc ⟨x, hx, hne⟩
    rcases untilStep_cases e acc tm with h | ⟨ha, h⟩
    · exact absurd (hx.symm.trans h) hne
    · refine ⟨ha, fun due hd h1 h2 => ?_⟩
      rw [hd.2] at h
      change _ ∧ timerDelta (due % 2 ^ 32) (e.now % 2 ^ 32) ≤ _ ∨ INT32_MAX < timerDelta (due % 2 ^ 32) (e.now % 2 ^ 32) ∧
        _ = timerDelta (e.now % 2 ^ 32) (due % 2 ^ 32) at h
      rw [INT32_MAX_eq] at h
      by_cases hb : due ≤ e.now
      · omega
      · have hx1 := timerDelta_after e.now due (by omega) (by omega)
        have hx2 := timerDelta_before due e.now (by omega) (by omega)
        omega
  unfold ticksUntilNextEvent
  rw [hi]
  simp only [Bool.false_eq_true, if_false]
  unfold timerTicksUntilNext
  simp only [List.foldl_cons, List.foldl_nil]
  generalize h0 : UINT32_MAX = M
  generalize h1 : Timer.untilStep e M m.timerA = x1
  generalize h2 : Timer.untilStep e x1 m.timerB = x2
  generalize h3 : Timer.untilStep e x2 m.timerBand = x3
  by_cases e3 : x3 = x2
  · by_cases e2 : x2 = x1
    · by_cases e1 : x1 = M
      · left; omega
      · right
        obtain ⟨a, b⟩ := key _ _ ⟨_, h1, e1⟩
        rw [h1] at b
        exact ⟨_, by simp [timers], a, by rw [e3, e2]; exact b⟩
    · right
      obtain ⟨a, b⟩ := key _ _ ⟨_, h2, e2⟩
      rw [h2] at b
      exact ⟨_, by simp [timers], a, by rw [e3]; exact b⟩
  · right
    obtain ⟨a, b⟩ := key _ _ ⟨_, h3, e3⟩
    rw [h3] at b
    exact ⟨_, by simp [timers], a, b⟩

/-- A device with a timer, across a wrap of the clock: 10 ticks before, 6 ticks before, at expiry and after. -/
example : (let tm := Timer.set (Demo.at_ 4294967290) 10
    [4294967290, 4294967294, 4294967300, 4294967307].map fun t => (tm.check (Demo.at_ t),
      ticksUntilNextEvent (Demo.at_ t) { timerA := tm })) =
    [(none, 9), (none, 5), (some 0, 0), (some 7, 0)] := by decide

/-- **C35**: what the device does on its own, it does when a timer has expired or an interrupt is pending: otherwise
`LDL_MAC_process` only counts off-time, tells the application about it, and begins waiting before a join request that
was held back by it. -/
theorem c35_process_quiet (cfg : Cfg) (e : Env) (m : Mac) (hi : m.inputState = false) (ha : m.timerA.check e = none)
    (hb : m.timerB.check e = none) (hs : m.state ≠ .init) :
    ((process cfg e m).state = m.state ∨ m.state = .waitOTAA ∧ (process cfg e m).state = .waitTX) ∧
    (process cfg e m).op = m.op ∧ (process cfg e m).ctx = m.ctx ∧
    ((process cfg e m).out = m.out ∨ (process cfg e m).out = m.out ++ [.channelReady]) := by
  obtain ⟨ev, lag, m1, hp, heq⟩ := process_cases cfg e m
  have e1 : ev ≠ .interrupt := fun h => by have := hp.interrupt.1 h; rw [hi] at this; cases this
  have e2 : ev ≠ .timerA := fun h => by
    rcases hp.timerA with ⟨_, h', _⟩ | ⟨h', _⟩
    · rw [ha] at h'; cases h'
    · exact h' h
  have e3 : ev ≠ .timerB := fun h => by
    rcases hp.timerB with ⟨_, h', _⟩ | ⟨h', _⟩
    · rw [hb] at h'; cases h'
    · exact h' h
  have hout := hp.out
  obtain ⟨_, _, _, _, _, _, _, _, _, hme⟩ := hp.eq
  have h1 : m1.state = m.state := by rw [hme]
  have h2 : m1.op = m.op := by rw [hme]
  have h3 : m1.ctx = m.ctx := by rw [hme]
  have hd : ∀ m2, m2 = (if ev = .none then m1 else dispatch cfg e ev lag m1) →
      (m2.state = m.state ∨ m.state = .waitOTAA ∧ m2.state = .waitTX) ∧ m2.op = m.op ∧ m2.ctx = m.ctx ∧ m2.out = m1.out := by
    intro m2 hm2
    by_cases hn : ev = .none
    · rw [if_pos hn] at hm2
      subst hm2
      exact ⟨Or.inl h1, h2, h3, rfl⟩
    · rw [if_neg hn] at hm2
      have hw : m.state ≠ .waitOTAA → m2 = m1 := by
        intro hw
        rw [hm2]
        unfold dispatch
        cases hst : m1.state <;>
          simp only [processRadioReset, processRadioBoot, processWait, processStartRadioForEntropy, processEntropy,
            processStartRadioForTX, processTX, processStartRadioForRX1, processStartRadioForRX2, processRX,
            processRX2Lockout, e1, e2, e3, or_self, if_false, false_and]
        · exact absurd (h1.symm.trans hst) hs
        · exact absurd (h1.symm.trans hst) hw
      by_cases hw' : m.state = .waitOTAA
      · have : m2 = processWaitOTAA cfg e m1 := by
          rw [hm2]; unfold dispatch; simp only [h1, hw']
        rw [this]
        unfold processWaitOTAA
        split
        · exact ⟨Or.inr ⟨hw', rfl⟩, h2, h3, rfl⟩
        · exact ⟨Or.inl h1, h2, h3, rfl⟩
      · rw [hw hw']
        exact ⟨Or.inl h1, h2, h3, rfl⟩
  obtain ⟨d1, d2, d3, d4⟩ := hd _ rfl
  generalize (if ev = .none then m1 else dispatch cfg e ev lag m1) = m2 at *
  obtain ⟨p, t, hsn⟩ := setNextBandEvent_shape cfg e m2
  rw [heq, hsn]
  refine ⟨d1, d2, d3, ?_⟩
  show m2.out = _ ∨ m2.out = _
  rw [d4]
  exact hout

/-! ## C36 -/

/-- **C36**: the device expects an interrupt exactly while the radio transmits or receives. -/
theorem c36_expected {cfg : Cfg} {m : Mac} (h : Reachable cfg m) :
    m.inputArmed = true ↔ m.state = .tx ∨ m.state = .rx1 ∨ m.state = .rx2 := by
  have := h.latch
  unfold LatchOk at this
  rw [this, radioInUse_iff]

/-- **C36**: an interrupt is recorded, with its time, if the radio is in use and none is pending.  Otherwise it changes
nothing. -/
theorem c36_recorded {cfg : Cfg} {m : Mac} (h : Reachable cfg m) (e : Env) (t : Nat) :
    (step cfg m e (.radioEvent t)).1 =
      if m.inputState = false ∧ (m.state = .tx ∨ m.state = .rx1 ∨ m.state = .rx2)
      then { m with inputTime := t, inputState := true } else m := by
  have ha := c36_expected h
  show inputSignal m t = _
  unfold inputSignal
  by_cases h1 : m.inputState = false ∧ (m.state = .tx ∨ m.state = .rx1 ∨ m.state = .rx2)
  · rw [if_pos h1, if_pos]
    simp [h1.1, ha.2 h1.2]
  · rw [if_neg h1, if_neg]
    intro hc
    simp only [Bool.and_eq_true, Bool.not_eq_true'] at hc
    exact h1 ⟨hc.1, ha.1 hc.2⟩

/-- **C36**: a pending interrupt and its time are kept by every call but `LDL_MAC_process`: by further interrupts too. -/
theorem c36_kept (cfg : Cfg) (m : Mac) (e : Env) (c : Call) (hc : c ≠ .process) (hp : m.inputState = true) :
    (step cfg m e c).1.inputState = true ∧ (step cfg m e c).1.inputTime = m.inputTime := by
  have key : (LDL.cancel m).inputState = m.inputState ∧ (LDL.cancel m).inputTime = m.inputTime := by
    rcases cancel_shape m with ⟨_, h⟩ | ⟨_, h⟩ <;> rw [h] <;> exact ⟨rfl, rfl⟩
  have hapi := step_api cfg e m c hc
  generalize (step cfg m e c).1 = m' at *
  generalize (step cfg m e c).2 = st at *
  cases hapi
  case otaa x hx s t hst =>
    obtain ⟨k, hk⟩ := deriveJoinKeys_shape cfg { m with trials := 0, day := 60 * 60 * 24 * timeTPS }
    obtain ⟨dn, b, bl, t, h⟩ := nextJoinRequest_shape cfg e
      (Ops.deriveJoinKeys cfg { m with trials := 0, day := 60 * 60 * 24 * timeTPS })
    rw [hx, h, hk]
    exact ⟨hp, rfl⟩
  case data m1 hm1 =>
    obtain ⟨_, _, _, s, t, h, _, hst⟩ := sendData_shape cfg e m1 _ _ _ _ _ _
    rw [h, hm1]
    exact ⟨hp, rfl⟩
  case forget =>
    obtain ⟨_, _, _, _, _, h⟩ := forget_shape m
    rw [h]
    exact ⟨key.1.trans hp, key.2⟩
  case cancel => exact ⟨key.1.trans hp, key.2⟩
  case latched => exact ⟨rfl, by simp_all⟩
  case late => exact ⟨rfl, by simp_all⟩
  all_goals exact ⟨hp, rfl⟩

/-- **C36**: an interrupt is delivered once: after `LDL_MAC_process` none is pending.  (By `c36_recorded` and
`c36_only` only a new interrupt makes one pending.) -/
theorem c36_delivered {cfg : Cfg} {m : Mac} (h : Reachable cfg m) (e : Env) :
    (step cfg m e .process).1.inputState = false :=
  (process_latch cfg e m h.reach.opOk h.latch).2

/-- **C36**: no call other than the interrupt makes one pending. -/
theorem c36_only {cfg : Cfg} {m : Mac} (h : Reachable cfg m) (e : Env) (c : Call) (hc : ∀ t, c ≠ .radioEvent t ∧ c ≠ .lateEvent t)
    (hp : m.inputState = false) : (step cfg m e c).1.inputState = false := by
  by_cases hp' : c = .process
  · subst hp'; exact c36_delivered h e
  have key : (LDL.cancel m).inputState = m.inputState := by
    rcases cancel_shape m with ⟨_, h⟩ | ⟨_, h⟩ <;> rw [h]
  have hapi := step_api cfg e m c hp'
  generalize (step cfg m e c).1 = m' at *
  generalize (step cfg m e c).2 = st at *
  cases hapi
  case otaa x hx s t hst =>
    obtain ⟨k, hk⟩ := deriveJoinKeys_shape cfg { m with trials := 0, day := 60 * 60 * 24 * timeTPS }
    obtain ⟨dn, b, bl, t, h⟩ := nextJoinRequest_shape cfg e
      (Ops.deriveJoinKeys cfg { m with trials := 0, day := 60 * 60 * 24 * timeTPS })
    rw [hx, h, hk]
    exact hp
  case data m1 hm1 =>
    obtain ⟨_, _, _, s, t, h, _, hst⟩ := sendData_shape cfg e m1 _ _ _ _ _ _
    rw [h, hm1]
    exact hp
  case forget =>
    obtain ⟨_, _, _, _, _, h⟩ := forget_shape m
    rw [h]
    exact key.trans hp
  case cancel => exact key.trans hp
  case latched t _ _ => exact absurd rfl (hc t).1
  case late t _ _ => exact absurd rfl (hc t).2
  all_goals exact hp

/-- **C36**: a pending interrupt is acted on by the next `LDL_MAC_process`, if the radio is still in use: the radio's
status is read, before anything else but the report of a free channel, and the device goes on to another state. -/
theorem c36_acts {cfg : Cfg} {m : Mac} (h : Reachable cfg m) (e : Env) (hp : m.inputState = true)
    (hs : m.state = .tx ∨ m.state = .rx1 ∨ m.state = .rx2) :
    (step cfg m e .process).1.state ≠ m.state ∧
    ∃ a b, (step cfg m e .process).1.out = m.out ++ a ++ .getStatus :: b ∧ (a = [] ∨ a = [.channelReady]) := by
  show (process cfg e m).state ≠ m.state ∧ ∃ a b, (process cfg e m).out = m.out ++ a ++ .getStatus :: b ∧ _
  obtain ⟨ev, lag, m1, m2, p, t, hpr, hd, heq⟩ := process_disp cfg e m
  have he : ev = .interrupt := hpr.interrupt.2 hp
  obtain ⟨_, _, _, _, _, _, _, _, _, hme⟩ := hpr.eq
  have hst : m1.state = m.state := by rw [hme]
  have hd : Disp cfg e ev lag m1 m2 := by
    rcases hd with ⟨h', _⟩ | ⟨_, h'⟩
    · rw [he] at h'; cases h'
    · exact h'
  have hmv := hd.moves (hpr.opOk h.reach.opOk)
  have hne : m2.state ≠ m1.state := by
    rcases hmv with ⟨_, hi⟩ | h'
    · unfold Ignores at hi
      rw [hst] at hi
      rcases hs with hs | hs | hs <;> rw [hs] at hi <;> exact absurd he hi.2
    · exact h'
  rw [heq]
  refine ⟨by rw [← hst]; exact hne, ?_⟩
  show ∃ a b, m2.out = _ ∧ _
  have hout : ∃ b, m2.out = m1.out ++ .getStatus :: b := by
    have hG : ∀ x : Mac, x.out = m1.out ++ [.getStatus] → (∃ b, m2.out = x.out ++ b) → ∃ b, m2.out = m1.out ++ .getStatus :: b := by
      rintro x hx ⟨b, hb⟩
      exact ⟨b, by rw [hb, hx, List.append_assoc]; rfl⟩
    have hmiss : ∀ x : Mac, ∃ b, (downlinkMissing cfg e x).out = x.out ++ b := fun x => by
      obtain ⟨l, hl, _⟩ := downlinkMissing_grows (P := fun _ => True) cfg e x (by simp) (by simp) (by simp) (by simp) (by simp)
      exact ⟨l, hl⟩
    have herr : ∀ x : Mac, ∃ b, (handleRadioError cfg e x).out = x.out ++ b := fun x => by
      obtain ⟨l, hl, _⟩ := handleRadioError_grows (P := fun _ => True) cfg e x (by simp) (by simp) (by simp) (by simp) (by simp)
      exact ⟨l, hl⟩
    have hpk : (packetState e m1).out = m1.out ++ [.getStatus] ++ [.readBuffer] ++ [.setMode .sleep] := rfl
    have hs1 : m1.state = .tx ∨ m1.state = .rx1 ∨ m1.state = .rx2 := by rw [hst]; exact hs
    have hreg : ∀ x : Mac, (registerTime x).out = x.out := fun x => by
      obtain ⟨b, hb⟩ := registerTime_shape x
      rw [hb]
    clear heq hp
    cases hd with
    | stay => exact absurd rfl hne
    | txError =>
      obtain ⟨b, hb⟩ := herr (registerTime (statusRead ev m1))
      refine ⟨b, ?_⟩
      rw [hb, hreg, statusRead, if_pos he]
      show m1.out ++ [Event.getStatus] ++ b = _
      simp
    | txDone =>
      obtain ⟨r1, r2, ta, tb, s, h, _⟩ := txComplete_shape cfg e lag (registerTime (m1.emit .getStatus))
      refine ⟨[.setMode .hold], ?_⟩
      rw [h]
      show (registerTime (m1.emit .getStatus)).out ++ [Event.setMode .hold] = _
      rw [hreg]
      show m1.out ++ [Event.getStatus] ++ [Event.setMode .hold] = _
      simp
    | rxError =>
      obtain ⟨b, hb⟩ := herr (m1.emit .getStatus)
      exact hG (m1.emit .getStatus) rfl ⟨b, hb⟩
    | rxRejected =>
      obtain ⟨b, hb⟩ := hmiss (packetState e m1)
      exact ⟨_, by rw [hb, hpk]; simp; rfl⟩
    | rxJoin _ _ _ f buf =>
      obtain ⟨r, cc, cm, v, pc, k, h⟩ := joinAccepted_shape cfg (packetState e m1) f buf
      rw [h]
      exact ⟨_, by simp [pushSessionUpdate, Mac.emit, hpk]; rfl⟩
    | rxData _ _ _ f buf =>
      obtain ⟨c, o, h, _⟩ := dataReceived_shape cfg e (packetState e m1) f buf
      rw [h]
      exact ⟨_, by simp [pushSessionUpdate, Mac.emit, hpk]; rfl⟩
    | rxTimeout1 => exact ⟨_, by simp; rfl⟩
    | rxTimeout2 => exact ⟨_, by simp; rfl⟩
    | init h => simp [h] at hs1
    | reset h => simp [h] at hs1
    | boot h => simp [h] at hs1
    | startEntropy h => simp [h] at hs1
    | entropy h => simp [h] at hs1
    | otaa h => simp [h] at hs1
    | waitA h => rcases h with h | h | h <;> simp [h] at hs1
    | waitB h => simp [h] at hs1
    | startTX h => simp [h] at hs1
    | startRX1 h => simp [h] at hs1
    | startRX2 h => simp [h] at hs1
    | lockout h => simp [h] at hs1
  obtain ⟨b, hb⟩ := hout
  rcases hpr.out with h' | h'
  · exact ⟨[], b, by rw [hb, h']; simp, Or.inl rfl⟩
  · exact ⟨[.channelReady], b, by rw [hb, h'], Or.inr rfl⟩

/-- **C36**: while an interrupt is pending the next event is due now. -/
theorem c36_zero (m : Mac) (e : Env) (hp : m.inputState = true) : ticksUntilNextEvent e m = 0 := by
  unfold ticksUntilNextEvent; rw [hp]; rfl

/-- The device of `Demo`, transmitting: two interrupts, the first of which is kept, and processing, which ends the
transmission; while idle an interrupt is not recorded. -/
example :
    ((step Demo.cfg Demo.idle (Demo.at_ 20) (.radioEvent 20)).1.inputState = false) ∧
    (let m := run Demo.cfg Demo.onAir [(Demo.at_ 70000, .radioEvent 70000), (Demo.at_ 70010, .radioEvent 70010)]
     m.inputState = true ∧ m.inputTime = 70000 ∧ ticksUntilNextEvent (Demo.at_ 70020) m = 0 ∧
     (step Demo.cfg m { now := 70020, statusTx := true } .process).1.state = .waitRX1) := by decide +kernel

end LDL
