import Verif.Lemmas.Live
import Verif.Spec.Rest

/-!
# The MAC comes to rest while the clock stands still

`LDL_MAC_process` called again and again at the same time soon has nothing more to do.
-/

namespace LDL
open Spec

/-- The timer counts as expired at time `T`. -/
def dueAt (T : Nat) (t : Timer) : Bool := t.armed && decide (timerDelta t.time T < INT32_MAX)

theorem check_due (e : Env) (t : Timer) : (t.check e).isSome = dueAt e.ticks t := by
  unfold Timer.check dueAt
  cases t.armed <;> simp
  split <;> simp_all

/-- How many times the MAC may still act because of WAITA. -/
def leftA : St → Nat
  | .waitRX2 => 30
  | .radioBoot => 7
  | .rx2Lockout => 6
  | .waitOTAA => 5
  | .waitTX | .waitRX1 | .waitEntropy => 4
  | .startRadioForTX | .startRadioForRX1 => 3
  | .tx | .rx1 | .rx2 | .init | .startRadioForEntropy => 2
  | .idle | .radioReset | .entropy | .startRadioForRX2 => 1

/-- The same for WAITB. -/
def leftB : St → Nat
  | .waitRX2 => 20
  | _ => 10

/-- The same for both. -/
def left (T : Nat) (s : St) (a b : Timer) : Nat :=
  (if dueAt T a then leftA s else 0) + (if dueAt T b then leftB s else 0)

/-- A bound for the number of times the MAC may act at time `T`. -/
def leftAll (T : Nat) (m : Mac) : Nat := (if m.inputState then 60 else 0) + left T m.state m.timerA m.timerB

theorem leftA_pos (s : St) : 1 ≤ leftA s ∧ leftA s ≤ 30 := by cases s <;> decide

theorem leftB_pos (s : St) : 10 ≤ leftB s ∧ leftB s ≤ 20 := by cases s <;> decide

theorem left_le (T : Nat) (s : St) (a b : Timer) : left T s a b ≤ 50 := by
  have := leftA_pos s
  have := leftB_pos s
  unfold left
  split <;> split <;> omega

theorem dueAt_clear (T : Nat) (t : Timer) : dueAt T t.clear = false := rfl

/-- A timer set is not due unless set to nothing. -/
theorem dueAt_set (e : Env) (he : e.later = e.ticks) (x : Nat) (h : x % 2147483648 ≠ 0) : dueAt e.ticks (Timer.set e x) = false := by
  have h1 : e.ticks < 4294967296 := by show u32 e.now < _; unfold u32; omega
  unfold dueAt Timer.set timerDelta u32 UINT32_MAX INT32_MAX
  rw [he]
  generalize e.ticks = T at *
  simp only [Bool.true_and, decide_eq_false_iff_not]
  split <;> omega

/-- Bounds for `left` in terms of the state. -/
theorem left_A (T : Nat) (s : St) (a b : Timer) (h : dueAt T b = false) : left T s a b ≤ leftA s := by
  unfold left; rw [h]; split <;> simp

theorem left_AB (T : Nat) (s : St) (a b : Timer) : left T s a b ≤ leftA s + (if dueAt T b then leftB s else 0) := by
  unfold left; split <;> split <;> omega

theorem left_B (T : Nat) (s : St) (a b : Timer) (h : dueAt T a = false) : left T s a b = if dueAt T b then leftB s else 0 := by
  unfold left; rw [h]; simp

theorem RadioErr.rest {cfg : Cfg} {e : Env} {m m' : Mac} (h : RadioErr cfg e m m') :
    m'.state = .radioReset ∧ m'.timerB = m.timerB.clear := by
  cases h with
  | op => exact ⟨rfl, rfl⟩
  | nextJoin ho hn x hx =>
    obtain ⟨dn, b, bl, t, h⟩ := nextJoinRequest_shape cfg e { m with
      inputArmed := false, timerA := m.timerA.clear, timerB := m.timerB.clear, trials := u32 (m.trials + 1) }
    rw [hx, h]; exact ⟨rfl, rfl⟩
  | exhausted => exact ⟨rfl, rfl⟩

theorem Missing.rest {cfg : Cfg} {e : Env} {m m' : Mac} (h : Missing cfg e m m') :
    m'.timerB = m.timerB ∧ (m'.state = .waitTX ∨ m'.state = .waitOTAA ∨ m'.timerA = m.timerA ∧
      (m'.state = .idle ∨ m'.state = m.state)) := by
  cases h with
  | retry => exact ⟨rfl, Or.inl rfl⟩
  | giveUp => exact ⟨rfl, Or.inr (Or.inr ⟨rfl, Or.inl rfl⟩)⟩
  | nextJoin =>
    obtain ⟨dn, b, bl, t, h⟩ := nextJoinRequest_shape cfg e { m with trials := u32 (m.trials + 1) }
    rw [h]; exact ⟨rfl, Or.inr (Or.inl rfl)⟩
  | exhausted => exact ⟨rfl, Or.inr (Or.inr ⟨rfl, Or.inl rfl⟩)⟩
  | other => exact ⟨rfl, Or.inr (Or.inr ⟨rfl, Or.inr rfl⟩)⟩

/-- WAITA expired. -/
theorem Disp.leftA {cfg : Cfg} (ht : 128 ≤ cfg.tps ∧ cfg.tps < 4294967296) {e : Env} {lag : Nat} {m m' : Mac}
    (h : Disp cfg e .timerA lag m m') (he : e.later = e.ticks) (ha : dueAt e.ticks m.timerA = false) :
    left e.ticks m'.state m'.timerA m'.timerB < LDL.leftA m.state + (if dueAt e.ticks m.timerB then leftB m.state else 0) := by
  have herr : ∀ x : Mac, left e.ticks (handleRadioError cfg e x).state (handleRadioError cfg e x).timerA
      (handleRadioError cfg e x).timerB ≤ 1 := by
    intro x
    obtain ⟨h1, h2⟩ := (handleRadioError_cases cfg e x).rest
    rw [h1, h2]
    exact left_A _ _ _ _ (dueAt_clear ..)
  have key : ∀ s a, LDL.leftA s < LDL.leftA m.state → leftB s = leftB m.state →
      left e.ticks s a m.timerB < LDL.leftA m.state + (if dueAt e.ticks m.timerB then leftB m.state else 0) := by
    intro s a h1 h2
    have := left_AB e.ticks s a m.timerB
    rw [h2] at this
    omega
  have hp := leftA_pos m.state
  cases h with
  | stay => rw [left_B _ _ _ _ ha]; omega
  | init hs => rw [hs] at key ⊢; exact key _ _ (by dsimp only; decide) rfl
  | reset hs =>
    simp only []
    rw [left_B _ _ _ _ (dueAt_set e he _ (by omega)), hs]
    simp only [leftB]
    have : 0 < LDL.leftA .radioReset := by decide
    omega
  | boot hs =>
    refine key _ _ ?_ ?_
    · rw [hs]; dsimp only; cases m.op <;> decide
    · rw [hs]; dsimp only; cases m.op <;> decide
  | startEntropy hs => rw [hs] at key ⊢; exact key _ _ (by dsimp only; decide) rfl
  | entropy hs =>
    simp only []
    rw [left_B _ _ _ _ ha, hs]
    simp only [leftB]
    have : 0 < LDL.leftA .entropy := by decide
    omega
  | otaa hs => rw [hs] at key ⊢; exact key _ _ (by dsimp only; decide) rfl
  | waitA hs =>
    refine key _ _ ?_ ?_ <;> dsimp only <;> rcases hs with hs | hs | hs <;> rw [hs] <;> decide
  | waitB hs =>
    simp only []
    rw [left_B _ _ _ _ ha, hs]
    have : LDL.leftA .waitRX2 = 30 := rfl
    have : leftB (waitNext .waitRX2) = 10 := rfl
    split <;> omega
  | startTX hs => rw [hs] at key ⊢; exact key _ _ (by dsimp only; decide) rfl
  | txError hs =>
    have := herr (registerTime (statusRead .timerA m))
    have : LDL.leftA m.state = 2 := by rw [hs]; rfl
    omega
  | txDone hs h => cases h
  | startRX1 hs => rw [hs] at key ⊢; exact key _ _ (by dsimp only; decide) rfl
  | startRX2 hs he => cases he
  | rxError hs =>
    have := herr (m.emit .getStatus)
    have : LDL.leftA m.state = 2 := by rcases hs with hs | hs <;> rw [hs] <;> rfl
    omega
  | rxRejected hs he => cases he
  | rxJoin hs he => cases he
  | rxData hs he => cases he
  | rxTimeout1 hs he => cases he
  | rxTimeout2 hs he => cases he
  | lockout hs =>
    obtain ⟨h1, h2⟩ := (downlinkMissing_missing cfg e m).rest
    generalize downlinkMissing cfg e m = x at *
    rw [h1]
    rcases h2 with h2 | h2 | ⟨h2, h3⟩
    · rw [h2]; exact key _ _ (by rw [hs]; decide) (by rw [hs]; rfl)
    · rw [h2]; exact key _ _ (by rw [hs]; decide) (by rw [hs]; rfl)
    · have : leftB x.state = leftB m.state := by rcases h3 with h3 | h3 <;> rw [h3]; rw [hs]; rfl
      rw [h2, left_B _ _ _ _ ha, this]
      omega

/-- WAITB expired, or nothing. -/
theorem Disp.leftB {cfg : Cfg} {e : Env} {ev : Sme} {lag : Nat} {m m' : Mac} (h : Disp cfg e ev lag m m')
    (he : ev = .timerB ∨ ev = .band) (ha : dueAt e.ticks m.timerA = false) (hb : dueAt e.ticks m.timerB = false) :
    left e.ticks m'.state m'.timerA m'.timerB < LDL.leftB m.state ∧
    (ev = .band → left e.ticks m'.state m'.timerA m'.timerB ≤ 4) := by
  have hn : ev ≠ .timerA ∧ ev ≠ .interrupt := by rcases he with rfl | rfl <;> decide
  have hp := leftB_pos m.state
  have h4 : ∀ s a, LDL.leftA s ≤ 4 → left e.ticks s a m.timerB < LDL.leftB m.state ∧
      (ev = .band → left e.ticks s a m.timerB ≤ 4) := by
    intro s a h1
    have := left_A e.ticks s a m.timerB hb
    omega
  cases h with
  | stay => rw [left_B _ _ _ _ ha, hb]; simp only [Bool.false_eq_true, if_false]; omega
  | init hs => exact h4 _ _ (by dsimp only; decide)
  | reset hs h => exact absurd h hn.1
  | boot hs h => exact absurd h hn.1
  | startEntropy hs h => exact absurd h hn.1
  | entropy hs h => exact absurd h hn.1
  | otaa hs => exact h4 _ _ (by dsimp only; decide)
  | waitA hs => refine h4 _ _ ?_; dsimp only; rcases hs with hs | hs | hs <;> rw [hs] <;> decide
  | waitB hs h =>
    simp only []
    rw [left_B _ _ _ _ ha, hs]
    have h1 : LDL.leftB .waitRX2 = 20 := rfl
    have h2 : LDL.leftB (waitNext .waitRX2) = 10 := rfl
    refine ⟨by split <;> omega, fun h3 => ?_⟩
    rw [h3] at h
    rcases h with h | h <;> cases h
  | startTX hs h => exact absurd h hn.1
  | txError hs h => rcases h with h | h; exacts [absurd h hn.1, absurd h.1 hn.2]
  | txDone hs h => exact absurd h hn.2
  | startRX1 hs h => exact absurd h hn.1
  | startRX2 hs h => exact h4 _ _ (by dsimp only; decide)
  | rxError hs h => rcases h with h | h; exacts [absurd h hn.1, absurd h.1 hn.2]
  | rxRejected hs h => exact absurd h hn.2
  | rxJoin hs h => exact absurd h hn.2
  | rxData hs h => exact absurd h hn.2
  | rxTimeout1 hs h => exact absurd h hn.2
  | rxTimeout2 hs h => exact absurd h hn.2
  | lockout hs h => exact absurd h hn.1

/-- One call of `process` uses up one reason to act. -/
theorem process_left {cfg : Cfg} (ht : 128 ≤ cfg.tps ∧ cfg.tps < 4294967296) (e : Env) (he : e.later = e.ticks) {m : Mac} (ho : OpOk m)
    (hl : LatchOk m) :
    (0 < leftAll e.ticks m → leftAll e.ticks (process cfg e m) < leftAll e.ticks m) ∧
    leftAll e.ticks (process cfg e m) ≤ max 4 (leftAll e.ticks m) := by
  have hin := (process_latch cfg e m ho hl).2
  obtain ⟨ev, lag, m1, m2, p, t, hp, hd, heq⟩ := process_disp cfg e m
  obtain ⟨_, _, _, _, _, _, _, _, _, hme⟩ := hp.eq
  have hst : m1.state = m.state := by rw [hme]
  have e0 : leftAll e.ticks (process cfg e m) = left e.ticks m2.state m2.timerA m2.timerB := by
    unfold leftAll
    rw [hin, heq]
    simp
  rw [e0]
  have hAB : ∀ tm : Timer, (tm.check e = none ↔ dueAt e.ticks tm = false) := by
    intro tm
    rw [← check_due]
    cases tm.check e <;> simp
  by_cases hi : m.inputState = true
  · have : leftAll e.ticks m ≥ 60 := by unfold leftAll; rw [hi]; simp
    have := left_le e.ticks m2.state m2.timerA m2.timerB
    omega
  have hi' : m.inputState = false := by simpa using hi
  have hne : ev ≠ .interrupt := fun h => hi (hp.interrupt.1 h)
  have e1 : leftAll e.ticks m = left e.ticks m.state m.timerA m.timerB := by
    unfold leftAll; rw [hi']; simp
  rw [e1]
  cases hev : ev with
  | interrupt => exact absurd hev hne
  | timerA =>
    rcases hp.timerA with ⟨_, h2, h3⟩ | ⟨h2, _⟩
    · rcases hp.timerB with ⟨h4, _⟩ | ⟨_, h4⟩
      · rw [hev] at h4; cases h4
      · rcases hd with ⟨h5, _⟩ | ⟨_, hd⟩
        · rw [hev] at h5; cases h5
        · rw [hev] at hd
          have h6 := hd.leftA ht he (by rw [h3]; exact dueAt_clear ..)
          rw [hst, h4] at h6
          have h7 : dueAt e.ticks m.timerA = true := by rw [← check_due, h2]; rfl
          have h8 : left e.ticks m.state m.timerA m.timerB = leftA m.state + (if dueAt e.ticks m.timerB then leftB m.state else 0) := by
            unfold left; rw [h7]; simp
          rw [h8]
          omega
    · exact absurd hev h2
  | timerB =>
    have hqa := hp.quietA (Or.inl hev)
    rcases hp.timerB with ⟨_, h2, h3⟩ | ⟨h2, _⟩
    · rcases hp.timerA with ⟨h4, _⟩ | ⟨_, h4⟩
      · rw [hev] at h4; cases h4
      · rcases hd with ⟨h5, _⟩ | ⟨_, hd⟩
        · rw [hev] at h5; cases h5
        · have h6 := (hd.leftB (Or.inl hev) (by rw [h4]; exact (hAB _).1 hqa) (by rw [h3]; exact dueAt_clear ..)).1
          rw [hst] at h6
          have h7 : dueAt e.ticks m.timerB = true := by rw [← check_due, h2]; rfl
          have h8 : left e.ticks m.state m.timerA m.timerB = leftB m.state := by
            rw [left_B _ _ _ _ ((hAB _).1 hqa), h7]; simp
          rw [h8]
          omega
    · exact absurd hev h2
  | band =>
    have hqa := (hAB _).1 (hp.quietA (Or.inr (Or.inl hev)))
    have hqb := (hAB _).1 (hp.quietB (Or.inl hev))
    have h8 : left e.ticks m.state m.timerA m.timerB = 0 := by rw [left_B _ _ _ _ hqa, hqb]; simp
    have h1 : m1.timerA = m.timerA := by
      rcases hp.timerA with ⟨h, _⟩ | ⟨_, h⟩
      · rw [hev] at h; cases h
      · exact h
    have h2 : m1.timerB = m.timerB := by
      rcases hp.timerB with ⟨h, _⟩ | ⟨_, h⟩
      · rw [hev] at h; cases h
      · exact h
    rcases hd with ⟨h5, _⟩ | ⟨_, hd⟩
    · rw [hev] at h5; cases h5
    · have := (hd.leftB (Or.inr hev) (by rw [h1]; exact hqa) (by rw [h2]; exact hqb)).2 hev
      omega
  | none =>
    have hqa := (hAB _).1 (hp.quietA (Or.inr (Or.inr hev)))
    have hqb := (hAB _).1 (hp.quietB (Or.inr hev))
    have h1 : m1.timerA = m.timerA := by
      rcases hp.timerA with ⟨h, _⟩ | ⟨_, h⟩
      · rw [hev] at h; cases h
      · exact h
    have h2 : m1.timerB = m.timerB := by
      rcases hp.timerB with ⟨h, _⟩ | ⟨_, h⟩
      · rw [hev] at h; cases h
      · exact h
    rcases hd with ⟨_, h5⟩ | ⟨h5, _⟩
    · have h8 : ∀ s, left e.ticks s m.timerA m.timerB = 0 := by intro s; rw [left_B _ _ _ _ hqa, hqb]; simp
      rw [h5, h1, h2, h8, h8]
      omega
    · exact absurd hev h5

/-! ### The band timer -/

/-- The timer is reported as expired at time `T`. -/
def lateAt (T : Nat) (t : Timer) : Bool := t.armed && decide (timerDelta t.time T ≤ INT32_MAX)

theorem late_clear (T : Nat) (t : Timer) : lateAt T t.clear = false := rfl

theorem late_set (e : Env) (he : e.later = e.ticks) (x : Nat) (h : x % 2147483648 ≠ 0) : lateAt e.ticks (Timer.set e x) = false := by
  have h1 : e.ticks < 4294967296 := by show u32 e.now < _; unfold u32; omega
  unfold lateAt Timer.set timerDelta u32 UINT32_MAX INT32_MAX
  rw [he]
  generalize e.ticks = T at *
  simp only [Bool.true_and, decide_eq_false_iff_not]
  split <;> omega

theorem late_due {T : Nat} {t : Timer} (h : lateAt T t = false) : dueAt T t = false := by
  unfold lateAt at h
  unfold dueAt
  cases ha : t.armed
  · rfl
  · rw [ha] at h
    simp only [Bool.true_and, decide_eq_false_iff_not] at h ⊢
    omega

theorem minBand_pos (m : Mac) : 0 < minBand m := by
  unfold minBand
  have : ∀ (l : List Nat) (x : Nat), 0 < x → 0 < l.foldl
      (fun time i => if m.band i > 0 then (if m.band i < time then m.band i else time) else time) x := by
    intro l
    induction l with
    | nil => exact fun _ h => h
    | cons i l ih =>
      intro x hx
      refine ih _ ?_
      show 0 < if _ then _ else _
      split
      · split <;> omega
      · exact hx
  exact this _ _ (by decide)

/-- After `setNextBandEvent` the band timer is not due. -/
theorem setNextBandEvent_rest (cfg : Cfg) (ht : 512 ≤ cfg.tps ∧ cfg.tps ≤ 16000000) (e : Env) (he : e.later = e.ticks) (m : Mac) :
    lateAt e.ticks (setNextBandEvent cfg e m).timerBand = false := by
  unfold setNextBandEvent
  simp only []
  have hpos := minBand_pos m
  have h1 : 0 < (if minBand m ≤ m.band GLOBAL then m.band GLOBAL else minBand m) := by split <;> omega
  generalize (if minBand m ≤ m.band GLOBAL then m.band GLOBAL else minBand m) = x at *
  have h2 : 0 < (if x = UINT32_MAX ∧ m.day > 0 then m.day else x) := by split <;> omega
  generalize (if x = UINT32_MAX ∧ m.day > 0 then m.day else x) = time at *
  split
  · refine late_set e he _ ?_
    have hk : 134 ≤ INT32_MAX / cfg.tps ∧ INT32_MAX / cfg.tps ≤ 4194303 := by
      constructor
      · rw [Nat.le_div_iff_mul_le (by omega)]; unfold INT32_MAX; omega
      · rw [← Nat.lt_succ_iff, Nat.div_lt_iff_lt_mul (by omega)]; unfold INT32_MAX; omega
    have hm : INT32_MAX / cfg.tps * cfg.tps ≤ INT32_MAX := Nat.div_mul_le_self _ _
    generalize INT32_MAX / cfg.tps = k at *
    have hu : u32 (k * timeTPS) = k * 256 := by unfold u32 timeTPS; omega
    rw [hu]
    split
    · rename_i h
      have h3 : time / timeTPS + (if time % timeTPS > 0 then 1 else 0) ≤ k ∧
          1 ≤ time / timeTPS + (if time % timeTPS > 0 then 1 else 0) := by
        unfold timeTPS
        split <;> omega
      generalize time / timeTPS + (if time % timeTPS > 0 then 1 else 0) = q at *
      have h4 : q * cfg.tps ≤ k * cfg.tps := Nat.mul_le_mul_right _ h3.1
      have h5 : 1 * cfg.tps ≤ q * cfg.tps := Nat.mul_le_mul_right _ h3.2
      unfold INT32_MAX at hm
      unfold u32
      omega
    · have h3 : k * INT32_MAX = (k - 1) * 2147483648 + (2147483648 - k) := by unfold INT32_MAX; omega
      have h4 : u32 (k * INT32_MAX) % 2147483648 = 2147483648 - k := by
        unfold u32
        rw [Nat.mod_mod_of_dvd _ (by decide), h3, Nat.mul_add_mod_self_right, Nat.mod_eq_of_lt (by omega)]
      rw [h4]
      omega
  · exact late_clear _ _

theorem process_band (cfg : Cfg) (ht : 512 ≤ cfg.tps ∧ cfg.tps ≤ 16000000) (e : Env) (he : e.later = e.ticks) (m : Mac) :
    lateAt e.ticks (process cfg e m).timerBand = false := by
  obtain ⟨ev, lag, m1, _, h⟩ := process_cases cfg e m
  rw [h]
  exact setNextBandEvent_rest cfg ht e he _

/-! ### Rest -/

/-- Reasons to act, the band timer included. -/
def reasons (T : Nat) (m : Mac) : Nat := leftAll T m + (if lateAt T m.timerBand then 5 else 0)

theorem reasons_le (T : Nat) (m : Mac) : reasons T m ≤ 115 := by
  have := left_le T m.state m.timerA m.timerB
  unfold reasons leftAll
  split <;> split <;> omega

theorem left_zero {T : Nat} {s : St} {a b : Timer} (h : left T s a b = 0) : dueAt T a = false ∧ dueAt T b = false := by
  have h1 := leftA_pos s
  have h2 := leftB_pos s
  unfold left at h
  constructor
  · cases hd : dueAt T a
    · rfl
    · rw [hd, if_pos rfl] at h; omega
  · cases hd : dueAt T b
    · rfl
    · rw [hd, if_pos rfl] at h; omega

theorem until_pos (e : Env) (acc : Nat) (t : Timer) (ha : acc ≠ 0) (hd : dueAt e.ticks t = false)
    (he : ¬Edge e.ticks t) : Timer.untilStep e acc t ≠ 0 := by
  have h1 : e.ticks < 4294967296 := by show u32 e.now < _; unfold u32; omega
  unfold Timer.untilStep
  rw [if_neg ha]
  unfold dueAt at hd
  unfold Edge at he
  generalize e.ticks = T at *
  cases hm : t.armed
  · simpa using ha
  · rw [hm] at hd he
    simp only [Bool.true_and, decide_eq_false_iff_not] at hd
    simp only [if_true, true_and] at he ⊢
    unfold timerDelta UINT32_MAX INT32_MAX at *
    (repeat' split) <;> (repeat' split at hd) <;> (repeat' split at he) <;> omega

/-- Without a reason to act, the MAC reports that. -/
theorem at_rest {e : Env} {m : Mac} (h : reasons e.ticks m = 0) (he : ¬OnEdge e.ticks m) :
    ticksUntilNextEvent e m ≠ 0 := by
  unfold reasons leftAll at h
  have hi : m.inputState = false := by
    cases hi : m.inputState
    · rfl
    · rw [hi, if_pos rfl] at h; omega
  have hb : lateAt e.ticks m.timerBand = false := by
    cases hb : lateAt e.ticks m.timerBand
    · rfl
    · rw [hb, if_pos rfl] at h; omega
  obtain ⟨h1, h2⟩ := left_zero (T := e.ticks) (s := m.state) (a := m.timerA) (b := m.timerB) (by omega)
  have he1 : ¬Edge e.ticks m.timerA := fun h => he (Or.inl h)
  have he2 : ¬Edge e.ticks m.timerB := fun h => he (Or.inr (Or.inl h))
  have he3 : ¬Edge e.ticks m.timerBand := fun h => he (Or.inr (Or.inr h))
  unfold ticksUntilNextEvent
  rw [hi]
  simp only [Bool.false_eq_true, if_false]
  unfold timerTicksUntilNext
  simp only [List.foldl_cons, List.foldl_nil]
  exact until_pos e _ _ (until_pos e _ _ (until_pos e _ _ (by decide) h1 he1) h2 he2) (late_due hb) he3

/-- One call of `process` uses up one reason. -/
theorem process_reasons {cfg : Cfg} (ht : 512 ≤ cfg.tps ∧ cfg.tps ≤ 16000000) (e : Env) (he : e.later = e.ticks) {m : Mac} (ho : OpOk m)
    (hl : LatchOk m) :
    (0 < reasons e.ticks m → reasons e.ticks (process cfg e m) < reasons e.ticks m) ∧
    reasons e.ticks (process cfg e m) ≤ max 4 (reasons e.ticks m) := by
  obtain ⟨h1, h2⟩ := process_left (cfg := cfg) ⟨by omega, by omega⟩ e he ho hl
  unfold reasons
  rw [process_band cfg ht e he m]
  simp only [Bool.false_eq_true, if_false]
  split <;> omega

/-- **The MAC comes to rest**, from any state and at any time. -/
theorem comes_to_rest {cfg : Cfg} (ht : 512 ≤ cfg.tps ∧ cfg.tps ≤ 16000000) (T : Nat) :
    ∀ n (m : Mac) (es : Nat → Env), (∀ i, (es i).ticks = T ∧ (es i).later = T) → Reachable cfg m → reasons T m ≤ n →
      ∃ k ≤ n, ticksUntilNextEvent (es k) (processed cfg es k m) ≠ 0 ∨ OnEdge T (processed cfg es k m) := by
  intro n
  induction n with
  | zero =>
    intro m es he hr hn
    refine ⟨0, Nat.le_refl _, ?_⟩
    by_cases ho : OnEdge T m
    · exact Or.inr ho
    · left
      have hT := (he 0).1
      subst hT
      exact at_rest (m := m) (Nat.le_zero.1 hn) ho
  | succ n ih =>
    intro m es he hr hn
    by_cases h0 : reasons T m = 0
    · refine ⟨0, Nat.zero_le _, ?_⟩
      by_cases ho : OnEdge T m
      · exact Or.inr ho
      · left
        have hT := (he 0).1
        subst hT
        exact at_rest (m := m) h0 ho
    · have hp := (process_reasons ht (es 0) ((he 0).2.trans (he 0).1.symm) hr.reach.opOk hr.latch).1
      rw [(he 0).1] at hp
      obtain ⟨k, hk, h⟩ := ih (step cfg m (es 0) .process).1 (fun i => es (i + 1)) (fun i => he (i + 1)) (hr.step _ _ trivial)
        (by have := hp (by omega); show reasons T (process cfg (es 0) m) ≤ n; omega)
      exact ⟨k + 1, by omega, h⟩

end LDL
