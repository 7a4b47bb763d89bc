import Verif.Spec.Polling
import Verif.Spec.Duty
import Verif.Lemmas.Polling
import Verif.Lemmas.ReentryCases
import Verif.Lemmas.TimerRange
import Verif.Props.Timers
import Verif.Props.JoinBackoff
import Verif.Props.Live

/-!
# C102: calling `LDL_MAC_process` more often than asked
-/

namespace LDL

open LDL.Spec

/-! ### Elapsed time adds up -/

theorem elapsed_rem_lt (cfg : Cfg) (ht : 512 ≤ cfg.tps) (s r : Nat) : (elapsed cfg s r).2 < cfg.tps :=
  Nat.mod_lt _ (by omega)

theorem elapsed_add (cfg : Cfg) (ht : 512 ≤ cfg.tps ∧ cfg.tps ≤ 16000000) (s1 s2 r : Nat) (h1 : s1 + s2 < 4294967296)
    (hr : r < cfg.tps) :
    (elapsed cfg (s1 + s2) r).1 = (elapsed cfg s1 r).1 + (elapsed cfg s2 (elapsed cfg s1 r).2).1 ∧
    (elapsed cfg (s1 + s2) r).2 = (elapsed cfg s2 (elapsed cfg s1 r).2).2 := by
  have a := elapsed_exact cfg ht (s1 + s2) r h1 hr
  have b := elapsed_exact cfg ht s1 r (by omega) hr
  have hb := elapsed_rem_lt cfg ht.1 s1 r
  have c := elapsed_exact cfg ht s2 _ (by omega) hb
  have ha := elapsed_rem_lt cfg ht.1 (s1 + s2) r
  have hc := elapsed_rem_lt cfg ht.1 s2 (elapsed cfg s1 r).2
  generalize elapsed cfg (s1 + s2) r = x at *
  generalize elapsed cfg s1 r = y at *
  generalize elapsed cfg s2 y.2 = z at *
  have key : x.1 * cfg.tps + x.2 = (y.1 + z.1) * cfg.tps + z.2 := by rw [Nat.add_mul]; omega
  generalize cfg.tps = n at *
  generalize y.1 + z.1 = w at *
  have hx : (x.1 * n + x.2) / n = x.1 := by
    rw [Nat.mul_comm, Nat.mul_add_div (by omega), Nat.div_eq_of_lt ha]; rfl
  have hw : (w * n + z.2) / n = w := by
    rw [Nat.mul_comm, Nat.mul_add_div (by omega), Nat.div_eq_of_lt hc]; rfl
  have h5 : x.1 = w := by rw [← hx, key, hw]
  refine ⟨h5, ?_⟩
  rw [h5] at key
  omega

theorem countDown_add (band : Nat → Nat) (t1 t2 : Nat) : countDown (countDown band t1) t2 = countDown band (t1 + t2) := by
  funext i
  unfold countDown
  by_cases h : i < 6
  · simp only [if_pos h, day_down]; omega
  · simp only [if_neg h]

theorem down_expired (d t : Nat) : (updateDownCounter d t).2 = true ↔ 0 < d ∧ d ≤ t := by
  unfold updateDownCounter
  by_cases h : d > 0
  · rw [if_pos h]
    by_cases h2 : d ≤ t
    · rw [if_pos h2]; simp [h, h2]
    · rw [if_neg h2]; simp [h2]
  · rw [if_neg h]; simp [h]

theorem anyExpired_true (band : Nat → Nat) (t : Nat) : anyExpired band t = true ↔ ∃ i, i < 6 ∧ 0 < band i ∧ band i ≤ t := by
  unfold anyExpired
  simp only [List.any_eq_true, down_expired, List.mem_cons, List.not_mem_nil, or_false]
  constructor
  · rintro ⟨i, hi, h⟩; exact ⟨i, by omega, h⟩
  · rintro ⟨i, hi, h⟩; exact ⟨i, by omega, h⟩

theorem countDown_at (band : Nat → Nat) (t i : Nat) (hi : i < 6) : countDown band t i = band i - t := by
  unfold countDown
  rw [if_pos hi, day_down]

/-- A channel becomes ready during an interval when it does during its second part, if it did not in the first. -/
theorem ready_add (band : Nat → Nat) (t1 t2 : Nat) (h : ¬ (anyExpired band t1 = true ∧ countDown band t1 GLOBAL = 0)) :
    (anyExpired (countDown band t1) t2 = true ∧ countDown (countDown band t1) t2 GLOBAL = 0) ↔
    (anyExpired band (t1 + t2) = true ∧ countDown band (t1 + t2) GLOBAL = 0) := by
  have hg : GLOBAL < 6 := by decide
  rw [countDown_add]
  constructor
  · rintro ⟨h1, h2⟩
    refine ⟨?_, h2⟩
    rw [anyExpired_true] at *
    obtain ⟨i, hi, h3, h4⟩ := h1
    rw [countDown_at _ _ _ hi] at h3 h4
    exact ⟨i, hi, by omega, by omega⟩
  · rintro ⟨h1, h2⟩
    refine ⟨?_, h2⟩
    rw [anyExpired_true] at *
    obtain ⟨i, hi, h3, h4⟩ := h1
    by_cases h5 : band i ≤ t1
    · have h6 : countDown band t1 GLOBAL ≠ 0 := fun h7 => h ⟨⟨i, hi, h3, h5⟩, h7⟩
      refine ⟨GLOBAL, hg, by omega, ?_⟩
      rw [countDown_at _ _ _ hg] at h2 ⊢
      omega
    · exact ⟨i, hi, by rw [countDown_at _ _ _ hi]; omega, by rw [countDown_at _ _ _ hi]; omega⟩

/-! ### A timer is not due before the time told -/

theorem untilStep_not_due (e0 x : Env) (acc : Nat) (t : Timer) (ht : t.time < 4294967296) (h0 : e0.now ≤ x.now)
    (h : x.now < e0.now + Timer.untilStep e0 acc t) : t.check x = none := by
  unfold Timer.check
  by_cases ha : t.armed = true
  · rw [if_pos ha, if_neg]
    unfold Timer.untilStep at h
    rw [if_pos ha] at h
    by_cases h1 : acc = 0
    · rw [if_pos h1] at h; omega
    · rw [if_neg h1] at h
      by_cases h2 : timerDelta t.time e0.ticks ≤ INT32_MAX
      · rw [if_pos h2] at h; omega
      · rw [if_neg h2] at h
        have h3 : x.now < e0.now + timerDelta e0.ticks t.time := by
          by_cases h4 : timerDelta e0.ticks t.time < acc
          · rw [if_pos h4] at h; exact h
          · rw [if_neg h4] at h; omega
        have e1 : e0.ticks = e0.now % 4294967296 := rfl
        have e2 : x.ticks = x.now % 4294967296 := rfl
        rw [INT32_MAX_eq] at *
        rw [e1] at h2 h3
        rw [e2]
        simp only [timerDelta_eq] at *
        generalize t.time = T at *
        by_cases c1 : T ≤ e0.now % 4294967296
        · rw [if_pos c1] at h2
          by_cases c2 : e0.now % 4294967296 ≤ T
          · rw [if_pos c2] at h3; omega
          · rw [if_neg c2] at h3
            by_cases c3 : T ≤ x.now % 4294967296
            · rw [if_pos c3]; omega
            · rw [if_neg c3]; omega
        · rw [if_neg c1] at h2
          rw [if_pos (by omega)] at h3
          by_cases c3 : T ≤ x.now % 4294967296
          · rw [if_pos c3]; omega
          · rw [if_neg c3]; omega
  · rw [if_neg ha]

theorem not_due (e0 x : Env) (m : Mac) (hA : m.timerA.time < 4294967296) (hB : m.timerB.time < 4294967296)
    (h0 : e0.now ≤ x.now) (h : x.now < e0.now + ticksUntilNextEvent e0 m) :
    m.inputState = false ∧ m.timerA.check x = none ∧ m.timerB.check x = none := by
  unfold ticksUntilNextEvent at h
  by_cases hi : m.inputState = true
  · rw [if_pos hi] at h; omega
  · rw [if_neg hi] at h
    unfold timerTicksUntilNext at h
    simp only [List.foldl_cons, List.foldl_nil] at h
    have h1 := untilStep_le e0 (Timer.untilStep e0 (Timer.untilStep e0 UINT32_MAX m.timerA) m.timerB) m.timerBand
    have h2 := untilStep_le e0 (Timer.untilStep e0 UINT32_MAX m.timerA) m.timerB
    refine ⟨by simpa using hi, ?_, ?_⟩
    · exact untilStep_not_due e0 x UINT32_MAX _ hA h0 (by omega)
    · exact untilStep_not_due e0 x (Timer.untilStep e0 UINT32_MAX m.timerA) _ hB h0 (by omega)

/-! ### One further call -/

/-- The device with off-time counted up to a time. -/
def Mac.upTo (cfg : Cfg) (m : Mac) (n : Nat) (b : Timer) : Mac :=
  let r := elapsed cfg (timerDelta m.timeTicks (u32 n)) m.timeRemainder
  { m with timeTicks := u32 n, timeRemainder := r.2, day := m.day - r.1, band := countDown m.band r.1, timerBand := b }

/-- A channel becomes ready within a time. -/
def readyIn (band : Nat → Nat) (t : Nat) : Prop := anyExpired band t = true ∧ countDown band t GLOBAL = 0

/-- The off-time counted up to a time. -/
def Mac.since (cfg : Cfg) (m : Mac) (n : Nat) : Nat := (elapsed cfg (timerDelta m.timeTicks (u32 n)) m.timeRemainder).1

theorem tickBands_upTo (cfg : Cfg) (e : Env) (m : Mac) : tickBands cfg e m = m.upTo cfg e.now m.timerBand := by
  unfold tickBands Mac.upTo
  dsimp only
  rw [day_down]
  rfl

theorem since_add (cfg : Cfg) (ht : 512 ≤ cfg.tps ∧ cfg.tps ≤ 16000000) (m : Mac) (last n n' : Nat)
    (hl : m.timeTicks = u32 last) (hr : m.timeRemainder < cfg.tps) (h1 : last ≤ n) (h2 : n ≤ n') (h3 : n' < last + 2 ^ 32)
    (b : Timer) :
    m.since cfg n' = m.since cfg n + (m.upTo cfg n b).since cfg n' ∧
    (m.upTo cfg n b).upTo cfg n' b = m.upTo cfg n' b := by
  have d1 := timerDelta_counted last n h1 (by omega)
  have d2 := timerDelta_counted n n' h2 (by omega)
  have d3 := timerDelta_counted last n' (by omega) h3
  have hd : timerDelta (u32 last) (u32 n') = timerDelta (u32 last) (u32 n) + timerDelta (u32 n) (u32 n') := by omega
  have hlt : timerDelta (u32 last) (u32 n') < 4294967296 := by
    unfold counted at d3
    rw [show (2 : Nat) ^ 32 = 4294967296 from rfl] at h3
    omega
  have ha := elapsed_add cfg ht (timerDelta (u32 last) (u32 n)) (timerDelta (u32 n) (u32 n')) m.timeRemainder
    (by rw [← hd]; exact hlt) hr
  rw [← hd] at ha
  constructor
  · unfold Mac.since Mac.upTo
    dsimp only
    rw [hl]
    exact ha.1
  · unfold Mac.upTo
    dsimp only
    rw [hl, ha.1, ha.2, countDown_add, Nat.sub_sub]

theorem pickEvent_tb (e : Env) (f : Bool) (m : Mac) (b : Timer) :
    pickEvent e f (m.tb b) = ((pickEvent e f m).1, (pickEvent e f m).2.1, (pickEvent e f m).2.2.tb b) := by
  unfold pickEvent inputCheck
  have h1 : (m.tb b).inputState = m.inputState := rfl
  have h2 : (m.tb b).timerA = m.timerA := rfl
  have h3 : (m.tb b).timerB = m.timerB := rfl
  rw [h1]
  by_cases h : m.inputState = true
  · rw [if_pos h, if_pos h]; rfl
  · rw [if_neg h, if_neg h]
    dsimp only
    rw [h2, h3]
    cases m.timerA.check e
    · cases m.timerB.check e <;> rfl
    · rfl

theorem setNextBandEvent_same (cfg : Cfg) (e : Env) (m : Mac) (b : Timer) :
    SameDevice (setNextBandEvent cfg e (m.tb b)) (setNextBandEvent cfg e m) := by
  have h : nextTime (m.tb b) = nextTime m := rfl
  unfold setNextBandEvent
  dsimp only
  show SameDevice (if nextTime (m.tb b) < UINT32_MAX then _ else _) (if nextTime m < UINT32_MAX then _ else _)
  rw [h]
  by_cases hn : nextTime m < UINT32_MAX
  · rw [if_pos hn, if_pos hn]
    exact ⟨rfl, rfl, fun _ => rfl⟩
  · rw [if_neg hn, if_neg hn]
    exact ⟨rfl, rfl, fun h => by cases h⟩

theorem process_same (cfg : Cfg) (e : Env) (m m' : Mac) (b : Timer)
    (h1 : (processBands cfg e m').1 = (processBands cfg e m).1)
    (h2 : (processBands cfg e m').2 = (processBands cfg e m).2.tb b) :
    SameDevice (process cfg e m') (process cfg e m) := by
  unfold process
  dsimp only
  rw [h1, h2, pickEvent_tb]
  generalize pickEvent e (processBands cfg e m).1 (processBands cfg e m).2 = p
  dsimp only
  have h3 : (if p.1 = .none then p.2.2.tb b else dispatch cfg e p.1 p.2.1 (p.2.2.tb b)) =
      (if p.1 = .none then p.2.2 else dispatch cfg e p.1 p.2.1 p.2.2).tb b := by
    rw [dispatch_tb]
    split <;> rfl
  rw [h3]
  exact setNextBandEvent_same cfg e _ b

/-- A call with nothing due and nothing told only counts off-time. -/
theorem process_unnoticed (cfg : Cfg) (x : Env) (m : Mac) (hi : m.inputState = false) (hA : m.timerA.check x = none)
    (hB : m.timerB.check x = none) (ho : Spec.newEvents m (process cfg x m) = []) :
    (processBands cfg x m).1 = false ∧ process cfg x m = setNextBandEvent cfg x (processBands cfg x m).2 := by
  have hout : ∀ y, (setNextBandEvent cfg x y).out = y.out := by
    intro y
    obtain ⟨_, _, h⟩ := setNextBandEvent_shape cfg x y
    rw [h]
  have hp : ∀ f y, y.inputState = false → y.timerA.check x = none → y.timerB.check x = none →
      pickEvent x f y = (if f then .band else .none, 0, y) := by
    intro f y h1 h2 h3
    unfold pickEvent inputCheck
    rw [h1]
    simp only [Bool.false_eq_true, if_false, h2, h3]
  have hs : (processBands cfg x m).2.inputState = m.inputState ∧ (processBands cfg x m).2.timerA = m.timerA ∧
      (processBands cfg x m).2.timerB = m.timerB := by
    unfold processBands
    dsimp only
    split
    · exact ⟨rfl, rfl, rfl⟩
    · split <;> exact ⟨rfl, rfl, rfl⟩
  have hpe := hp (processBands cfg x m).1 (processBands cfg x m).2 (by rw [hs.1, hi]) (by rw [hs.2.1, hA]) (by rw [hs.2.2, hB])
  have hpr : process cfg x m = setNextBandEvent cfg x (if (processBands cfg x m).1 = true then
      dispatch cfg x .band 0 (processBands cfg x m).2 else (processBands cfg x m).2) := by
    unfold process
    dsimp only
    rw [hpe]
    cases (processBands cfg x m).1 <;> rfl
  cases hf : (processBands cfg x m).1 with
  | false =>
    rw [hf] at hpr
    exact ⟨rfl, hpr⟩
  | true =>
    exfalso
    rw [hf] at hpr
    have h1 : (processBands cfg x m).2.out = m.out ++ [.channelReady] := by
      unfold processBands at hf ⊢
      dsimp only at hf ⊢
      split at hf
      · cases hf
      · next hpk =>
        rw [if_neg hpk]
        split at hf
        · next hc => rw [if_pos hc]; rfl
        · cases hf
    obtain ⟨l, hl⟩ := dispatch_out cfg x .band 0 (processBands cfg x m).2
    unfold Spec.newEvents at ho
    rw [hpr, hout, if_pos rfl, hl, h1, List.append_assoc, List.drop_left] at ho
    cases ho

theorem readyIn_iff (cfg : Cfg) (x : Env) (m : Mac) (hp : m.parked = false) :
    (processBands cfg x m).1 = true ↔ readyIn m.band (m.since cfg x.now) := by
  unfold processBands readyIn
  rw [hp]
  simp only [Bool.false_eq_true, if_false]
  show (if anyExpired m.band (m.since cfg x.now) = true ∧ countDown m.band (m.since cfg x.now) GLOBAL = 0 then _ else _ : Bool × Mac).1 = true ↔ _
  by_cases h : anyExpired m.band (m.since cfg x.now) = true ∧ countDown m.band (m.since cfg x.now) GLOBAL = 0
  · rw [if_pos h]; exact ⟨fun _ => h, fun _ => rfl⟩
  · rw [if_neg h]; exact ⟨fun h' => absurd h' Bool.false_ne_true, fun h' => absurd h' h⟩

theorem processBands_state (cfg : Cfg) (x : Env) (m : Mac) (hp : m.parked = false) :
    (processBands cfg x m).2 = if (processBands cfg x m).1 = true then (m.upTo cfg x.now m.timerBand).emit .channelReady
      else m.upTo cfg x.now m.timerBand := by
  rw [← tickBands_upTo]
  unfold processBands
  rw [hp]
  simp only [Bool.false_eq_true, if_false]
  by_cases h : anyExpired m.band (elapsed cfg (timerDelta m.timeTicks x.ticks) m.timeRemainder).1 = true ∧
      (tickBands cfg x m).band GLOBAL = 0
  · rw [if_pos h]; rfl
  · rw [if_neg h]; rfl

/-- What the polls of a device that counts off-time leave. -/
structure CountedTo (cfg : Cfg) (m m' : Mac) (last now : Nat) : Prop where
  state : ∃ n b, last ≤ n ∧ n ≤ now ∧ m' = m.upTo cfg n b ∧ ¬ readyIn m.band (m.since cfg n)

theorem counted_start (cfg : Cfg) (ht : 512 ≤ cfg.tps ∧ cfg.tps ≤ 16000000) (m : Mac) (last now : Nat) (hl : m.timeTicks = u32 last)
    (hr : m.timeRemainder < cfg.tps) (h : last ≤ now) : CountedTo cfg m m last now := by
  have hz : elapsed cfg (timerDelta m.timeTicks (u32 last)) m.timeRemainder = (0, m.timeRemainder) := by
    rw [hl]
    have h0 : timerDelta (u32 last) (u32 last) = 0 := by unfold timerDelta; rw [if_pos (Nat.le_refl _), Nat.sub_self]
    rw [h0]
    have a := elapsed_exact cfg ht 0 m.timeRemainder (by omega) hr
    have b := elapsed_rem_lt cfg ht.1 0 m.timeRemainder
    generalize elapsed cfg 0 m.timeRemainder = y at *
    obtain ⟨y1, y2⟩ := y
    have h1 : y1 = 0 := by
      cases y1 with
      | zero => rfl
      | succ k =>
        exfalso
        dsimp only at a
        rw [Nat.add_mul] at a
        omega
    subst h1
    dsimp only at a
    rw [show y2 = m.timeRemainder by omega]
  have hb : countDown m.band 0 = m.band := by
    funext i
    unfold countDown
    split
    · rw [day_down]; rfl
    · rfl
  refine ⟨last, m.timerBand, Nat.le_refl _, h, ?_, ?_⟩
  · unfold Mac.upTo
    rw [hz]
    dsimp only
    rw [hb, ← hl]
    rfl
  · unfold Mac.since
    rw [hz]
    rintro ⟨h1, _⟩
    rw [anyExpired_true] at h1
    obtain ⟨i, _, h2, h3⟩ := h1
    omega

theorem counted_poll (cfg : Cfg) (ht : 512 ≤ cfg.tps ∧ cfg.tps ≤ 16000000) (m m' : Mac) (last now : Nat) (x : Env)
    (hl : m.timeTicks = u32 last) (hr : m.timeRemainder < cfg.tps) (hp : m.parked = false)
    (hc : CountedTo cfg m m' last now) (h1 : now ≤ x.now) (h2 : x.now < last + 2 ^ 32)
    (hi : m.inputState = false) (hA : m.timerA.check x = none) (hB : m.timerB.check x = none)
    (ho : Spec.newEvents m' (process cfg x m') = []) (hpk : (process cfg x m').parked = false) :
    CountedTo cfg m (process cfg x m') last x.now := by
  obtain ⟨n, b, hn1, hn2, hm', hnr⟩ := hc
  have ha := since_add cfg ht m last n x.now hl hr hn1 (by omega) h2 b
  have hi' : m'.inputState = false := by rw [hm']; exact hi
  have hA' : m'.timerA.check x = none := by rw [hm']; exact hA
  have hB' : m'.timerB.check x = none := by rw [hm']; exact hB
  have hp' : m'.parked = false := by rw [hm']; exact hp
  obtain ⟨hf, hpr⟩ := process_unnoticed cfg x m' hi' hA' hB' ho
  have hst := processBands_state cfg x m' hp'
  rw [hf] at hst
  simp only [Bool.false_eq_true, if_false] at hst
  have hb : m'.timerBand = b := by rw [hm']; rfl
  rw [hb] at hst
  obtain ⟨p, c, hs⟩ := setNextBandEvent_shape cfg x (processBands cfg x m').2
  rw [hpr] at hpk
  rw [hs] at hpk hpr
  dsimp only at hpk
  subst hpk
  rw [hst] at hpr
  refine ⟨x.now, c, by omega, Nat.le_refl _, ?_, ?_⟩
  · rw [hpr, hm', ha.2]
    have h3 : m = { m with parked := false } := by rw [← hp]
    unfold Mac.upTo
    dsimp only
    rw [hp]
  · intro hrd
    have h3 : ¬ readyIn m'.band (m'.since cfg x.now) := by
      rw [← readyIn_iff cfg x m' hp', hf]
      exact Bool.false_ne_true
    apply h3
    rw [ha.1] at hrd
    have h4 : m'.band = countDown m.band (m.since cfg n) := by rw [hm']; rfl
    rw [h4, hm']
    exact (ready_add m.band _ _ hnr).2 hrd

/-- The next call does the same. -/
theorem counted_final (cfg : Cfg) (ht : 512 ≤ cfg.tps ∧ cfg.tps ≤ 16000000) (m m' : Mac) (last now : Nat) (e : Env)
    (hl : m.timeTicks = u32 last) (hr : m.timeRemainder < cfg.tps) (hp : m.parked = false)
    (hc : CountedTo cfg m m' last now) (h1 : now ≤ e.now) (h2 : e.now < last + 2 ^ 32) :
    SameDevice (process cfg e m') (process cfg e m) := by
  obtain ⟨n, b, hn1, hn2, hm', hnr⟩ := hc
  have ha := since_add cfg ht m last n e.now hl hr hn1 (by omega) h2 b
  have hp' : m'.parked = false := by rw [hm']; exact hp
  have hfl : (processBands cfg e m').1 = (processBands cfg e m).1 := by
    rw [Bool.eq_iff_iff, readyIn_iff cfg e m' hp', readyIn_iff cfg e m hp]
    have h4 : m'.band = countDown m.band (m.since cfg n) := by rw [hm']; rfl
    rw [ha.1, h4, hm']
    exact ready_add m.band _ _ hnr
  refine process_same cfg e m m' b hfl ?_
  rw [processBands_state cfg e m' hp', processBands_state cfg e m hp, hfl]
  have hb : m'.timerBand = b := by rw [hm']; rfl
  have h5 : m'.upTo cfg e.now m'.timerBand = (m.upTo cfg e.now m.timerBand).tb b := by
    rw [hb, hm', ha.2]
    rfl
  rw [h5]
  split <;> rfl

/-! ### Any number of further calls -/

theorem polls_cons (cfg : Cfg) (m : Mac) (x : Env) (l : List Env) : polls cfg m (x :: l) = polls cfg (process cfg x m) l := rfl

theorem polls_counting (cfg : Cfg) (ht : 512 ≤ cfg.tps ∧ cfg.tps ≤ 16000000) (m : Mac) (last : Nat)
    (hl : m.timeTicks = u32 last) (hr : m.timeRemainder < cfg.tps) (hp : m.parked = false) (hi : m.inputState = false) :
    ∀ (l : List Env) (m' : Mac) (now : Nat), CountedTo cfg m m' last now → m'.parked = false →
      l.Pairwise (fun x y => x.now ≤ y.now) → (∀ x ∈ l, now ≤ x.now ∧ x.now < last + 2 ^ 32 ∧
        m.timerA.check x = none ∧ m.timerB.check x = none) → Unnoticed cfg m' l →
      ∃ now', CountedTo cfg m (polls cfg m' l) last now' ∧ ∀ n, now ≤ n → (∀ x ∈ l, x.now ≤ n) → now' ≤ n
  | [], m', now, hc, _, _, _, _ => ⟨now, hc, fun _ h _ => h⟩
  | x :: l, m', now, hc, hp', ho, hx, hu => by
    obtain ⟨h1, h2, h3, h4⟩ := hx x (by simp)
    obtain ⟨u1, u2, u3⟩ := hu
    change Spec.newEvents m' (process cfg x m') = [] at u1
    change (process cfg x m').parked = m'.parked at u2
    have hpk : (process cfg x m').parked = false := u2.trans hp'
    have hn := counted_poll cfg ht m m' last now x hl hr hp hc h1 h2 hi h3 h4 u1 hpk
    rw [List.pairwise_cons] at ho
    obtain ⟨n', a, b⟩ := polls_counting cfg ht m last hl hr hp hi l (process cfg x m') x.now hn hpk ho.2
      (fun y hy => ⟨ho.1 y hy, (hx y (by simp [hy])).2⟩) u3
    exact ⟨n', a, fun n _ h => b n (h x (by simp)) fun y hy => h y (by simp [hy])⟩

theorem polls_parked (cfg : Cfg) (m : Mac) (hp : m.parked = true) (hi : m.inputState = false) :
    ∀ (l : List Env) (b : Timer), (∀ x ∈ l, m.timerA.check x = none ∧ m.timerB.check x = none) → Unnoticed cfg (m.tb b) l →
      ∃ c, polls cfg (m.tb b) l = m.tb c
  | [], b, _, _ => ⟨b, rfl⟩
  | x :: l, b, hx, hu => by
    obtain ⟨h1, h2⟩ := hx x (by simp)
    obtain ⟨u1, u2, u3⟩ := hu
    change Spec.newEvents (m.tb b) (process cfg x (m.tb b)) = [] at u1
    change (process cfg x (m.tb b)).parked = (m.tb b).parked at u2
    obtain ⟨_, hpr⟩ := process_unnoticed cfg x (m.tb b) hi h1 h2 u1
    have hb : (processBands cfg x (m.tb b)).2 = m.tb b := by
      unfold processBands
      rw [if_pos (show (m.tb b).parked = true from hp)]
    rw [hb] at hpr
    obtain ⟨p, c, hs⟩ := setNextBandEvent_shape cfg x (m.tb b)
    rw [hs] at hpr
    have hpp : p = true := by
      rw [hpr] at u2
      exact u2.trans hp
    have hm : process cfg x (m.tb b) = m.tb c := by
      rw [hpr, hpp]
      unfold Mac.tb
      dsimp only
      rw [hp]
    rw [polls_cons, hm]
    refine polls_parked cfg m hp hi l c (fun y hy => hx y (by simp [hy])) ?_
    rw [← hm]
    exact u3

theorem inputSignal_shape (m : Mac) (t : Nat) : ∃ i s, inputSignal m t = { m with inputTime := i, inputState := s } := by
  unfold inputSignal
  split
  · exact ⟨_, _, rfl⟩
  · exact ⟨m.inputTime, m.inputState, rfl⟩

theorem inputSignal_upTo (cfg : Cfg) (m : Mac) (t n : Nat) (b : Timer) :
    inputSignal (m.upTo cfg n b) t = (inputSignal m t).upTo cfg n b := by
  unfold inputSignal
  have h1 : (m.upTo cfg n b).inputState = m.inputState := rfl
  have h2 : (m.upTo cfg n b).inputArmed = m.inputArmed := rfl
  rw [h1, h2]
  by_cases h3 : (!m.inputState && m.inputArmed) = true
  · rw [if_pos h3, if_pos h3]; rfl
  · rw [if_neg h3, if_neg h3]

theorem inputSignal_tb (m : Mac) (t : Nat) (b : Timer) : inputSignal (m.tb b) t = (inputSignal m t).tb b := by
  unfold inputSignal
  have h1 : (m.tb b).inputState = m.inputState := rfl
  have h2 : (m.tb b).inputArmed = m.inputArmed := rfl
  rw [h1, h2]
  by_cases h3 : (!m.inputState && m.inputArmed) = true
  · rw [if_pos h3, if_pos h3]; rfl
  · rw [if_neg h3, if_neg h3]

/-- **C102**: an application may sleep until the time `LDL_MAC_ticksUntilNextEvent` told it, or until the radio
interrupts.  If it calls `LDL_MAC_process` any number of times before that, at whatever times, and none of these calls
tells it anything, the next call at `e` does what it would have done without them: it leaves the device in the same
state, has sent the same orders to the radio and told the application the same.  Off-time is counted in units of 1/256 s;
nothing is lost or gained by counting in smaller steps, nor when the clock wraps. -/
theorem c102_sleep_partial {cfg : Cfg} (ht : 512 ≤ cfg.tps ∧ cfg.tps ≤ 16000000) {m : Mac} (hr : Reachable cfg m)
    (e0 e : Env)
    (hlast : m.parked = false → ∃ last, m.timeTicks = last % 2 ^ 32 ∧ last ≤ e0.now ∧ e.now < last + 2 ^ 32)
    (l : List Env) (ho : l.Pairwise fun x y => x.now ≤ y.now)
    (hx : ∀ x ∈ l, e0.now ≤ x.now ∧ x.now < e0.now + ticksUntilNextEvent e0 m ∧ x.now ≤ e.now) (he : e0.now ≤ e.now)
    (hu : Unnoticed cfg m l) (w : Option Nat) :
    SameDevice (step cfg (woken cfg e w (polls cfg m l)) e .process).1 (step cfg (woken cfg e w m) e .process).1 := by
  have hck := clock_ok ht hr
  have hnd := fun x hx' => not_due e0 x m hr.timersFit.1 hr.timersFit.2 (hx x hx').1 (hx x hx').2.1
  cases l with
  | nil => exact ⟨rfl, rfl, fun _ => rfl⟩
  | cons x0 l0 =>
    have hi := (hnd x0 (by simp)).1
    show SameDevice (process cfg e (woken cfg e w (polls cfg m (x0 :: l0)))) (process cfg e (woken cfg e w m))
    generalize x0 :: l0 = l at *
    cases hp : m.parked with
    | true =>
      obtain ⟨c, hc⟩ := polls_parked cfg m hp hi l m.timerBand (fun x hx => (hnd x hx).2) hu
      have hm : m.tb m.timerBand = m := rfl
      rw [hm] at hc
      rw [hc]
      have hb : ∀ y : Mac, y.parked = true → processBands cfg e y = (false, y) := by
        intro y hy
        unfold processBands
        rw [if_pos hy]
      have key : ∀ y : Mac, y.parked = true → SameDevice (process cfg e (y.tb c)) (process cfg e y) := fun y hy =>
        process_same cfg e y (y.tb c) c (by rw [hb y hy, hb (y.tb c) hy]) (by rw [hb y hy, hb (y.tb c) hy])
      cases w with
      | none => exact key m hp
      | some t =>
        show SameDevice (process cfg e (inputSignal (m.tb c) t)) (process cfg e (inputSignal m t))
        rw [inputSignal_tb]
        obtain ⟨i, s, hs⟩ := inputSignal_shape m t
        exact key _ (by rw [hs]; exact hp)
    | false =>
      obtain ⟨last, h1, h2, h3⟩ := hlast hp
      have h1' : m.timeTicks = u32 last := h1
      obtain ⟨n', hc, hn⟩ := polls_counting cfg ht m last h1' hck.2 hp hi l m e0.now
        (counted_start cfg ht m last e0.now h1' hck.2 h2) hp ho
        (fun x hx' => ⟨(hx x hx').1, by have := (hx x hx').2.2; omega, (hnd x hx').2⟩) hu
      have hn' := hn e.now he fun x hx' => (hx x hx').2.2
      cases w with
      | none => exact counted_final cfg ht m _ last n' e h1' hck.2 hp hc hn' h3
      | some t =>
        show SameDevice (process cfg e (inputSignal (polls cfg m l) t)) (process cfg e (inputSignal m t))
        obtain ⟨i, s, hs⟩ := inputSignal_shape m t
        obtain ⟨n, b, c1, c2, c3, c4⟩ := hc
        refine counted_final cfg ht (inputSignal m t) _ last n' e (by rw [hs]; exact h1') (by rw [hs]; exact hck.2)
          (by rw [hs]; exact hp) ⟨n, b, c1, c2, ?_, ?_⟩ hn' h3
        · rw [c3, inputSignal_upTo]
        · rw [hs]; exact c4

/-- **C102**: devices in the same state, in this sense, have done the same and ask to be called at the same time. -/
theorem c102_told {a b : Mac} (h : SameDevice a b) : a.out = b.out ∧ ∀ e, ticksUntilNextEvent e a = ticksUntilNextEvent e b := by
  have h1 : a.out = b.out := by have := congrArg Mac.out h.rest; exact this
  refine ⟨h1, fun e => ?_⟩
  have h2 : a.timerA = b.timerA := by have := congrArg Mac.timerA h.rest; exact this
  have h3 : a.timerB = b.timerB := by have := congrArg Mac.timerB h.rest; exact this
  have h4 : a.inputState = b.inputState := by have := congrArg Mac.inputState h.rest; exact this
  unfold ticksUntilNextEvent timerTicksUntilNext
  simp only [List.foldl_cons, List.foldl_nil]
  rw [h2, h3, h4]
  have h5 : ∀ acc, Timer.untilStep e acc a.timerBand = Timer.untilStep e acc b.timerBand := by
    intro acc
    unfold Timer.untilStep
    rw [← h.armed]
    by_cases ha : a.timerBand.armed = true
    · rw [h.time ha]
    · rw [if_neg ha, if_neg ha]
  rw [h5]

/-! ### And ever after -/

theorem request_tb (cfg : Cfg) (e : Env) (m : Mac) (b : Timer) (c : Call) (hc : Spec.Request c) :
    step cfg (m.tb b) e c = ((step cfg m e c).1.tb b, (step cfg m e c).2) ∧ (step cfg m e c).1.timerBand = m.timerBand := by
  obtain ⟨l, h1, h2⟩ := request_behind cfg e m m.parked b m.out c hc
  obtain ⟨l', h1', h2'⟩ := request_behind cfg e m m.parked m.timerBand m.out c hc
  have h3 : m.behind m.parked m.timerBand m.out = m := rfl
  rw [h3] at h2'
  have h4 : (step cfg m e c).1 = (step cfg m e c).1.behind m.parked m.timerBand (m.out ++ l') := congrArg Prod.fst h2'
  have hp : (step cfg m e c).1.parked = m.parked := by have := congrArg Mac.parked h4; exact this
  have ht : (step cfg m e c).1.timerBand = m.timerBand := by have := congrArg Mac.timerBand h4; exact this
  refine ⟨?_, ht⟩
  rw [tb_behind, h2, tb_behind, hp, h1]

/-- `cancel` in steps: the radio. -/
def cancelRadio (m : Mac) : Mac :=
  match m.state with
  | .init | .radioReset | .radioBoot => m
  | _ =>
    let m := { m with timerA := m.timerA.clear, timerB := m.timerB.clear }
    let m := inputDisarm m
    let m := { m with state := .radioReset }
    m.emit (.setMode .reset)

/-- `cancel` in steps: the transmission. -/
def cancelTx (m : Mac) : Mac := if m.state = .tx then registerTime m else m

/-- `cancel` in steps: the report. -/
def cancelTell (op : Op) (m : Mac) : Mac := if op = .none then m else m.emit .opCancelled

theorem cancel_steps (m : Mac) : cancel m = cancelTell m.op (cancelTx (cancelRadio { m with op := .none })) := rfl

theorem cancel_tb (m : Mac) (b : Timer) : cancel (m.tb b) = (cancel m).tb b ∧ (cancel m).timerBand = m.timerBand := by
  rw [cancel_steps, cancel_steps]
  have h1 : (m.tb b).op = m.op := rfl
  have h0 : ({ m.tb b with op := .none } : Mac) = ({ m with op := .none } : Mac).tb b := rfl
  rw [h1, h0]
  have h2 : ∀ x : Mac, cancelRadio (x.tb b) = (cancelRadio x).tb b ∧ (cancelRadio x).timerBand = x.timerBand := by
    intro x
    unfold cancelRadio
    have h : (x.tb b).state = x.state := rfl
    rw [h]
    cases x.state <;> exact ⟨rfl, rfl⟩
  have h3 : ∀ x : Mac, cancelTx (x.tb b) = (cancelTx x).tb b ∧ (cancelTx x).timerBand = x.timerBand := by
    intro x
    unfold cancelTx
    have h : (x.tb b).state = x.state := rfl
    rw [h, registerTime_tb]
    by_cases h4 : x.state = .tx
    · rw [if_pos h4, if_pos h4]
      obtain ⟨_, hs⟩ := registerTime_shape x
      exact ⟨rfl, by rw [hs]⟩
    · rw [if_neg h4, if_neg h4]; exact ⟨rfl, rfl⟩
  have h4 : ∀ x : Mac, cancelTell m.op (x.tb b) = (cancelTell m.op x).tb b ∧ (cancelTell m.op x).timerBand = x.timerBand := by
    intro x
    unfold cancelTell
    by_cases h4 : m.op = .none
    · rw [if_pos h4, if_pos h4]; exact ⟨rfl, rfl⟩
    · rw [if_neg h4, if_neg h4]; exact ⟨rfl, rfl⟩
  rw [(h2 _).1, (h3 _).1, (h4 _).1]
  refine ⟨rfl, ?_⟩
  rw [(h4 _).2, (h3 _).2, (h2 _).2]

theorem step_tb (cfg : Cfg) (e : Env) (m : Mac) (b : Timer) (c : Call) (hc : c ≠ .process) :
    step cfg (m.tb b) e c = ((step cfg m e c).1.tb b, (step cfg m e c).2) ∧ (step cfg m e c).1.timerBand = m.timerBand := by
  cases c with
  | process => exact absurd rfl hc
  | entropy => exact request_tb cfg e m b _ trivial
  | otaa => exact request_tb cfg e m b _ trivial
  | data => exact request_tb cfg e m b _ trivial
  | abp d =>
    show abp (m.tb b) d = ((abp m d).1.tb b, (abp m d).2) ∧ (abp m d).1.timerBand = _
    unfold abp
    have h1 : (m.tb b).ctx = m.ctx := rfl
    have h2 : (m.tb b).op = m.op := rfl
    rw [h1, h2]
    by_cases h3 : m.ctx.joined = true
    · rw [if_pos h3, if_pos h3]; exact ⟨rfl, rfl⟩
    · rw [if_neg h3, if_neg h3]
      by_cases h4 : m.op = .none
      · rw [if_pos h4, if_pos h4]; exact ⟨rfl, rfl⟩
      · rw [if_neg h4, if_neg h4]; exact ⟨rfl, rfl⟩
  | cancel =>
    show (cancel (m.tb b), Status.ok) = ((cancel m).tb b, Status.ok) ∧ (cancel m).timerBand = _
    rw [(cancel_tb m b).1]
    exact ⟨rfl, (cancel_tb m b).2⟩
  | forget =>
    show (forget (m.tb b), Status.ok) = ((forget m).tb b, Status.ok) ∧ (forget m).timerBand = _
    unfold forget
    dsimp only
    rw [(cancel_tb m b).1]
    have h := (cancel_tb m b).2
    generalize cancel m = x at h ⊢
    have h1 : (x.tb b).ctx = x.ctx := rfl
    rw [h1]
    by_cases h3 : x.ctx.joined = true
    · rw [if_pos h3, if_pos h3]; exact ⟨rfl, h⟩
    · rw [if_neg h3, if_neg h3]; exact ⟨rfl, h⟩
  | setRate r =>
    show setRate (m.tb b) r = ((setRate m r).1.tb b, (setRate m r).2) ∧ (setRate m r).1.timerBand = _
    unfold setRate
    have h1 : (m.tb b).ctx = m.ctx := rfl
    rw [h1]
    by_cases h3 : rateSettingIsValid m.ctx.region r = true
    · rw [if_pos h3, if_pos h3]; exact ⟨rfl, rfl⟩
    · rw [if_neg h3, if_neg h3]; exact ⟨rfl, rfl⟩
  | setPower r =>
    show setPower (m.tb b) r = ((setPower m r).1.tb b, (setPower m r).2) ∧ (setPower m r).1.timerBand = _
    unfold setPower
    have h1 : (m.tb b).ctx = m.ctx := rfl
    rw [h1]
    by_cases h3 : m.ctx.region.validateTXPower r = true
    · rw [if_pos h3, if_pos h3]; exact ⟨rfl, rfl⟩
    · rw [if_neg h3, if_neg h3]; exact ⟨rfl, rfl⟩
  | setADR v => exact ⟨rfl, rfl⟩
  | setMaxDCycle v => exact ⟨rfl, rfl⟩
  | addChannel ch f a d => exact ⟨rfl, rfl⟩
  | maskChannel ch => exact ⟨rfl, rfl⟩
  | unmaskChannel ch => exact ⟨rfl, rfl⟩
  | radioEvent t =>
    show (inputSignal (m.tb b) t, Status.ok) = ((inputSignal m t).tb b, Status.ok) ∧ (inputSignal m t).timerBand = _
    unfold inputSignal
    have h1 : (m.tb b).inputState = m.inputState := rfl
    have h2 : (m.tb b).inputArmed = m.inputArmed := rfl
    rw [h1, h2]
    by_cases h3 : (!m.inputState && m.inputArmed) = true
    · rw [if_pos h3, if_pos h3]; exact ⟨rfl, rfl⟩
    · rw [if_neg h3, if_neg h3]; exact ⟨rfl, rfl⟩
  | lateEvent t =>
    show ((m.tb b).late t, Status.ok) = ((m.late t).tb b, Status.ok) ∧ (m.late t).timerBand = _
    unfold Mac.late
    have h1 : (m.tb b).inputState = m.inputState := rfl
    have h2 : (m.tb b).state = m.state := rfl
    rw [h1, h2]
    by_cases h3 : m.state = .radioReset ∧ m.inputState = false
    · rw [if_pos h3, if_pos h3]; exact ⟨rfl, rfl⟩
    · rw [if_neg h3, if_neg h3]; exact ⟨rfl, rfl⟩

theorem processBands_tb (cfg : Cfg) (e : Env) (m : Mac) (b : Timer) :
    processBands cfg e (m.tb b) = ((processBands cfg e m).1, (processBands cfg e m).2.tb b) := by
  unfold processBands
  have h1 : (m.tb b).parked = m.parked := rfl
  have h2 : tickBands cfg e (m.tb b) = (tickBands cfg e m).tb b := rfl
  have h3 : (m.tb b).timeTicks = m.timeTicks := rfl
  have h4 : (m.tb b).timeRemainder = m.timeRemainder := rfl
  have h5 : (m.tb b).band = m.band := rfl
  dsimp only
  rw [h1, h2, h3, h4, h5]
  have h6 : ((tickBands cfg e m).tb b).band = (tickBands cfg e m).band := rfl
  rw [h6]
  by_cases h7 : m.parked = true
  · rw [if_pos h7, if_pos h7]
  · rw [if_neg h7, if_neg h7]
    split <;> rfl

/-- **C102**: devices in the same state stay so: from then on every call returns the same, and every history does the
same on both. -/
theorem c102_future {cfg : Cfg} {a b : Mac} (h : SameDevice a b) (e : Env) (c : Call) :
    (step cfg a e c).2 = (step cfg b e c).2 ∧ SameDevice (step cfg a e c).1 (step cfg b e c).1 := by
  have hab : a = b.tb a.timerBand := by
    have := congrArg (fun x : Mac => x.tb a.timerBand) h.rest
    exact this
  have ha := h.armed
  have hti := h.time
  generalize a.timerBand = t at *
  rw [hab]
  by_cases hc : c = .process
  · subst hc
    refine ⟨rfl, process_same cfg e b (b.tb t) t ?_ ?_⟩
    · rw [processBands_tb]
    · rw [processBands_tb]
  · obtain ⟨h1, h2⟩ := step_tb cfg e b t c hc
    rw [h1]
    refine ⟨rfl, rfl, ?_, ?_⟩
    · rw [h2]; exact ha
    · intro hx; rw [h2]; exact hti hx

theorem c102_ever_after {cfg : Cfg} : ∀ (calls : List (Env × Call)) {a b : Mac}, SameDevice a b →
    SameDevice (run cfg a calls) (run cfg b calls)
  | [], _, _, h => h
  | (e, c) :: rest, _, _, h => c102_ever_after rest (c102_future h e c).2

/-! ### Examples -/

namespace Demo

/-- A device that has sent a frame and waits for its first receive window. -/
def awaiting : Mac := run cfg start (sending true ++ txDone 1530000)

/-- Further calls, 70 ms to 800 ms after that. -/
def extra : List Env := [at_ 1600000, at_ 1600000, at_ 1734567, at_ 2330000]

instance decUnnoticed (cfg : Cfg) : ∀ (m : Mac) (l : List Env), Decidable (Unnoticed cfg m l)
  | _, [] => .isTrue trivial
  | m, x :: l =>
    have := decUnnoticed cfg (step cfg m x .process).1 l
    inferInstanceAs (Decidable (_ ∧ _ ∧ _))

theorem awaiting_reachable : Reachable cfg awaiting := run_reach start_reachable _ (by decide +kernel)

/-- The device counts off-time and does nothing else during these calls; the window opens at the next one. -/
example : SameDevice (step cfg (woken cfg (at_ 2530000) none (polls cfg awaiting extra)) (at_ 2530000) .process).1
    (step cfg (woken cfg (at_ 2530000) none awaiting) (at_ 2530000) .process).1 :=
  c102_sleep_partial (by decide) awaiting_reachable (at_ 1530000) (at_ 2530000)
    (fun _ => ⟨0, by decide +kernel, by decide +kernel, by decide +kernel⟩) extra (by decide +kernel) (by decide +kernel) (by decide)
    (by decide +kernel) none

example : (polls cfg awaiting extra).band 1 + 200 < awaiting.band 1 ∧ ticksUntilNextEvent (at_ 1530000) awaiting > 900000 ∧
    (step cfg awaiting (at_ 2530000) .process).1.state = .startRadioForRX1 ∧
    woken cfg (at_ 2530000) none awaiting = awaiting :=
  ⟨by decide +kernel, by decide +kernel, by decide +kernel, rfl⟩

/-- A device that has sent a frame without getting an answer. -/
def resting : Mac := run cfg start (sending true ++ txDone 1530000 ++ processAt [2530000, 2532000] ++ rxNone 2570000 ++
  processAt [3530000, 3532000] ++ rxNone 3570000 ++ processAt [6100000])

/-- A device whose application asked for a join while the radio was reset. -/
def early : Mac := run cfg start (processAt [0] ++ [(at_ 100, .otaa)])

end Demo

/-- Why C102 is about calls that tell nothing: the time told is rounded up to whole seconds.  This device tells its
application to call after 110 s, but when called after 109.6 s it reports that a channel is ready, and then accepts a
request it refuses without that call. -/
theorem c102_rounded :
    let m := Demo.resting
    let x := Demo.at_ 115700000
    let m' := (step Demo.cfg m x .process).1
    Reachable Demo.cfg m ∧ ticksUntilNextEvent (Demo.at_ 6100000) m = 110000000 ∧
    x.now - 6100000 = 109600000 ∧
    (newEvents m m').any (fun ev => match ev with | .channelReady => true | _ => false) = true ∧
    (step Demo.cfg m x (.data false 1 (some [1]) 1 none)).2 = .noChannel ∧
    (step Demo.cfg m' x (.data false 1 (some [1]) 1 none)).2 = .ok :=
  ⟨Demo.run_reach Demo.start_reachable _ (by decide +kernel), by decide +kernel, by decide +kernel, by decide +kernel,
    by decide +kernel, by decide +kernel⟩

/-- Why C102 is about calls that do not start the counting of off-time: a join asked for while the radio is reset begins
its day with the first call after that, so that a further call changes how much of it is left. -/
theorem c102_started :
    let m := Demo.early
    let e0 := Demo.at_ 100
    let x := Demo.at_ 500
    let e := Demo.at_ 5000000
    Reachable Demo.cfg m ∧ x.now < e0.now + ticksUntilNextEvent e0 m ∧ newEvents m (step Demo.cfg m x .process).1 = [] ∧
    (step Demo.cfg (step Demo.cfg m x .process).1 e .process).1.day + 1280 = (step Demo.cfg m e .process).1.day :=
  ⟨Demo.run_reach Demo.start_reachable _ (by decide +kernel), by decide +kernel, by decide +kernel, by decide +kernel⟩

end LDL
