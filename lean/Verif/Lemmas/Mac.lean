import Verif.Model.Data

/-!
# The parts of `process` around the state handler
-/

namespace LDL

/-- What happens before the state handler: only clock, off-time counters, interrupt latch, timers and log
change, the log by at most one CHANNEL_READY. -/
structure Prep (e : Env) (m m1 : Mac) (ev : Sme) (lag : Nat) : Prop where
  eq : ∃ tt tr d b ia is ta tb o, m1 = { m with
    timeTicks := tt, timeRemainder := tr, day := d, band := b, inputArmed := ia, inputState := is,
    timerA := ta, timerB := tb, out := o }
  out : m1.out = m.out ∨ m1.out = m.out ++ [Event.channelReady]
  interrupt : ev = .interrupt ↔ m.inputState = true
  latch : (ev = .interrupt ∧ m1.inputArmed = false ∧ m1.inputState = false ∧
      lag = timerDelta m.inputTime e.ticks) ∨
    (ev ≠ .interrupt ∧ m1.inputArmed = m.inputArmed ∧ m1.inputState = false)
  timerA : (ev = .timerA ∧ m.timerA.check e = some lag ∧ m1.timerA = m.timerA.clear) ∨
    (ev ≠ .timerA ∧ m1.timerA = m.timerA)
  timerB : (ev = .timerB ∧ m.timerB.check e = some lag ∧ m1.timerB = m.timerB.clear) ∨
    (ev ≠ .timerB ∧ m1.timerB = m.timerB)
  quietA : ev = .timerB ∨ ev = .band ∨ ev = .none → m.timerA.check e = none
  quietB : ev = .band ∨ ev = .none → m.timerB.check e = none

theorem processBands_shape (cfg : Cfg) (e : Env) (m : Mac) :
    ∃ tt tr d b o, (processBands cfg e m).2 = { m with
      timeTicks := tt, timeRemainder := tr, day := d, band := b, out := o } ∧
      (o = m.out ∨ o = m.out ++ [Event.channelReady]) := by
  unfold processBands
  split
  · exact ⟨_, _, _, _, _, rfl, Or.inl rfl⟩
  · simp only []
    by_cases h : anyExpired m.band (elapsed cfg (timerDelta m.timeTicks e.ticks) m.timeRemainder).1 = true ∧
      (tickBands cfg e m).band GLOBAL = 0
    · rw [if_pos h]; exact ⟨_, _, _, _, _, rfl, Or.inr rfl⟩
    · rw [if_neg h]; exact ⟨_, _, _, _, _, rfl, Or.inl rfl⟩

theorem pickEvent_prep (cfg : Cfg) (e : Env) (m : Mac) :
    Prep e m (pickEvent e (processBands cfg e m).1 (processBands cfg e m).2).2.2
      (pickEvent e (processBands cfg e m).1 (processBands cfg e m).2).1
      (pickEvent e (processBands cfg e m).1 (processBands cfg e m).2).2.1 := by
  obtain ⟨tt, tr, d, b, o, h, ho⟩ := processBands_shape cfg e m
  generalize (processBands cfg e m).1 = ready at *
  rw [h]
  unfold pickEvent inputCheck
  simp only []
  by_cases hi : m.inputState = true
  · simp only [hi, if_true]
    exact ⟨⟨_, _, _, _, _, _, _, _, _, rfl⟩, ho, by simp [hi], Or.inl ⟨rfl, rfl, rfl, rfl⟩,
      Or.inr ⟨by simp, rfl⟩, Or.inr ⟨by simp, rfl⟩, by simp, by simp⟩
  · have hi' : m.inputState = false := by simpa using hi
    simp only [hi']
    simp only [Bool.false_eq_true, if_false]
    cases ha : m.timerA.check e with
    | some lag =>
      exact ⟨⟨_, _, _, _, _, _, _, _, _, rfl⟩, ho, by simp [hi'],
        Or.inr ⟨by simp, rfl, rfl⟩, Or.inl ⟨rfl, ha, rfl⟩, Or.inr ⟨by simp, rfl⟩, by simp, by simp⟩
    | none =>
      simp only []
      cases hb : m.timerB.check e with
      | some lag =>
        exact ⟨⟨_, _, _, _, _, _, _, _, _, rfl⟩, ho, by simp [hi'],
          Or.inr ⟨by simp, rfl, rfl⟩, Or.inr ⟨by simp, rfl⟩, Or.inl ⟨rfl, hb, rfl⟩, fun _ => ha, by simp⟩
      | none =>
        refine ⟨⟨_, _, _, _, _, _, _, _, _, rfl⟩, ho, ?_, Or.inr ⟨?_, rfl, rfl⟩,
          Or.inr ⟨?_, rfl⟩, Or.inr ⟨?_, rfl⟩, fun _ => ha, fun _ => hb⟩ <;> cases ready <;> simp [hi']

theorem setNextBandEvent_shape (cfg : Cfg) (e : Env) (m : Mac) :
    ∃ p t, setNextBandEvent cfg e m = { m with parked := p, timerBand := t } := by
  unfold setNextBandEvent
  simp only []
  generalize (if (if minBand m ≤ m.band GLOBAL then m.band GLOBAL else minBand m) = UINT32_MAX ∧ m.day > 0
    then m.day else if minBand m ≤ m.band GLOBAL then m.band GLOBAL else minBand m) = time
  split
  · exact ⟨_, _, rfl⟩
  · exact ⟨_, _, rfl⟩

/-- `process` is: preparation, handler (unless there is no event), adjustment of the band timer. -/
theorem process_cases (cfg : Cfg) (e : Env) (m : Mac) :
    ∃ ev lag m1, Prep e m m1 ev lag ∧
      process cfg e m = setNextBandEvent cfg e (if ev = .none then m1 else dispatch cfg e ev lag m1) := by
  exact ⟨_, _, _, pickEvent_prep cfg e m, rfl⟩

/-- The events added to the log between two states. -/
def newEvents (m m' : Mac) : List Event := m'.out.drop m.out.length

end LDL
