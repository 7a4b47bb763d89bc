import Verif.Spec.Dither
import Verif.Props.Repeat
import Mathlib.Data.Int.CardIntervalMod

/-!
# The random delay of join requests: C104
-/

namespace LDL
open Spec

theorem joinDelay_spec {cfg : Cfg} (h : spreadTicks cfg < 2 ^ 32) (e : Env) :
    joinDelay cfg e = if spreadSeconds cfg = 0 then 0 else e.draw 2 % spreadTicks cfg := by
  have hu : ∀ n, n < 2 ^ 32 → u32 n = n := fun n hn => Nat.mod_eq_of_lt hn
  unfold spreadTicks spreadSeconds at *
  unfold joinDelay joinModulus
  cases hd : cfg.dither with
  | none =>
    rw [hd] at h
    simp only [Option.getD_none] at h ⊢
    rw [hu _ h, if_neg (by decide)]
  | some d =>
    rw [hd] at h
    simp only [Option.getD_some] at h ⊢
    cases d with
    | zero => rfl
    | succ d =>
      rw [hu _ h, if_neg (by omega)]
      rfl

/-- A device that waits for its off-time before a join request begins the delay. -/
theorem join_due {cfg : Cfg} {m : Mac} (e : Env) (hs : m.state = .waitOTAA) (hs' : (process cfg e m).state = .waitTX) :
    (process cfg e m).timerA = Timer.set e (joinDelay cfg e) ∧ (process cfg e m).inputState = false := by
  obtain ⟨ev, lag, m1, m2, p, t, hp, hd, heq⟩ := process_disp cfg e m
  rw [heq] at hs' ⊢
  change m2.state = .waitTX at hs'
  show m2.timerA = _ ∧ m2.inputState = false
  obtain ⟨_, _, _, _, _, _, _, _, _, hme⟩ := hp.eq
  have hst : m1.state = .waitOTAA := by rw [hme]; exact hs
  have hi1 : m1.inputState = false := by
    rcases hp.latch with ⟨_, _, h, _⟩ | ⟨_, _, h⟩ <;> exact h
  clear hme hp heq
  rcases hd with ⟨_, h⟩ | ⟨_, h⟩
  · rw [h, hst] at hs'; cases hs'
  · cases h with
    | otaa => exact ⟨rfl, hi1⟩
    | stay => rw [hst] at hs'; cases hs'
    | init h => rw [hst] at h; cases h
    | reset h => rw [hst] at h; cases h
    | boot h => rw [hst] at h; cases h
    | startEntropy h => rw [hst] at h; cases h
    | entropy h => rw [hst] at h; cases h
    | waitA h => rw [hst] at h; simp at h
    | waitB h => rw [hst] at h; cases h
    | startTX h => rw [hst] at h; cases h
    | txError h => rw [hst] at h; cases h
    | txDone h => rw [hst] at h; cases h
    | startRX1 h => rw [hst] at h; cases h
    | startRX2 h => rw [hst] at h; cases h
    | rxError h => rw [hst] at h; simp at h
    | rxRejected h => rw [hst] at h; simp at h
    | rxJoin h => rw [hst] at h; simp at h
    | rxData h => rw [hst] at h; simp at h
    | rxTimeout1 h => rw [hst] at h; cases h
    | rxTimeout2 h => rw [hst] at h; cases h
    | lockout h => rw [hst] at h; cases h

/-- **C104, the delay, partial**: when off-time no longer holds a join request back, the request is transmitted as soon as
a delay (the value of the random source modulo the interval, in ticks) and the start-up of the radio are over, and not
before.  Partial: the interval must be less than 2^31 ticks. -/
theorem c104_delayed_partial {cfg : Cfg} {m : Mac} (hr : Reachable cfg m) (hs : m.state = .waitOTAA)
    (e0 : Env) (hgo : (step cfg m e0 .process).1.state = .waitTX) (hspread : spreadTicks cfg < 2 ^ 31)
    (due l : Nat) (hdue : due = e0.done + if spreadSeconds cfg = 0 then 0 else e0.draw 2 % spreadTicks cfg)
    (htps : 25 * cfg.tps < 2 ^ 32) (hpos : 0 < cfg.tps)
    (calls1 : List (Env × Call)) (hc1 : ∀ x ∈ calls1, x.2.WF) (hb1 : Between e0.done due calls1)
    (e1 : Env) (hn1 : due ≤ e1.now) (hl : noticed due e1.now = l) (hl1 : l ≤ 2 ^ 31 - 2)
    (calls2 : List (Env × Call)) (hc2 : ∀ x ∈ calls2, x.2.WF) (hb2 : Between e1.now (due + (startup cfg - l)) calls2)
    (e2 : Env) (hn2 : due + (startup cfg - l) ≤ e2.now) (hl2 : e2.now - (due + (startup cfg - l)) ≤ 2 ^ 31 - 2) :
    sentTimes cfg (step cfg m e0 .process).1 (calls1 ++ (e1, .process) :: (calls2 ++ [(e2, .process)])) = [e2.done] ∧
    due < e0.done + (spreadTicks cfg + 1) := by
  have h31 : (2 : Nat) ^ 31 = 2147483648 := by decide
  have h32 : (2 : Nat) ^ 32 = 4294967296 := by decide
  have hj := joinDelay_spec (cfg := cfg) (by omega) e0
  rw [← hj] at hdue
  have hlt : joinDelay cfg e0 ≤ spreadTicks cfg := by
    rw [hj]
    split
    · exact Nat.zero_le _
    · rename_i hne
      refine Nat.le_of_lt (Nat.mod_lt _ ?_)
      unfold spreadTicks
      exact Nat.mul_pos hpos (by omega)
  change (process cfg e0 m).state = .waitTX at hgo
  obtain ⟨hta, hi⟩ := join_due e0 hs hgo
  have hreach : Reachable cfg (process cfg e0 m) := .step e0 .process hr trivial
  have hopy : (process cfg e0 m).op ≠ .none := by
    have := hreach.reach.opOk
    unfold OpOk at this
    rw [hgo] at this
    intro h
    rw [h] at this
    cases this
  have hd : DueAt (process cfg e0 m).timerA due := by
    rw [hta, hdue]
    exact c35_set e0 _ (by omega)
  exact ⟨transmits_when_due hreach hgo hopy hi e0.done due l hd (by omega) htps calls1 hc1 hb1 e1 hn1 hl hl1 calls2 hc2
    hb2 e2 hn2 hl2, by omega⟩

theorem countDown_zero {band : Nat → Nat} {i : Nat} (h : band i = 0) (t : Nat) : countDown band t i = 0 := by
  unfold countDown updateDownCounter
  rw [h]
  simp

theorem processBands_global (cfg : Cfg) (e : Env) (m : Mac) (h : m.band GLOBAL = 0) :
    (processBands cfg e m).2.band GLOBAL = 0 ∧ (processBands cfg e m).2.state = m.state ∧
    (processBands cfg e m).2.timerA = m.timerA := by
  unfold processBands
  split
  · exact ⟨h, rfl, rfl⟩
  · have : (tickBands cfg e m).band GLOBAL = 0 := countDown_zero h _
    dsimp only
    split <;> exact ⟨this, rfl, rfl⟩

theorem pickEvent_ready (e : Env) (r : Bool) (m : Mac) (lag : Nat) (h : m.timerA.check e = some lag) :
    (pickEvent e r m).1 ≠ .none ∧ (pickEvent e r m).2.2.band = m.band ∧ (pickEvent e r m).2.2.state = m.state := by
  unfold pickEvent inputCheck
  by_cases hi : m.inputState = true
  · simp [hi]
  · simp [hi, h]

/-- **C104, when there is no off-time**: the delay begins with the next call of `LDL_MAC_process` after a successful
`LDL_MAC_otaa`. -/
theorem c104_begins {cfg : Cfg} {m : Mac} (hs : m.state = .idle) (hb : m.band GLOBAL = 0)
    (e : Env) (ha : (step cfg m e .otaa).2 = .ok) (e0 : Env) (hn : e.done ≤ e0.now) (hl : e0.now - e.done ≤ 2 ^ 31 - 2) :
    (step cfg m e .otaa).1.state = .waitOTAA ∧
    (step cfg (step cfg m e .otaa).1 e0 .process).1.state = .waitTX := by
  have key : (step cfg m e .otaa).1.state = .waitOTAA ∧ (step cfg m e .otaa).1.band = m.band ∧
      (step cfg m e .otaa).1.timerA = Timer.set e 0 := by
    have h := step_api cfg e m .otaa (by simp)
    generalize step cfg m e .otaa = r at h ha
    obtain ⟨x, st⟩ := r
    change st = .ok at ha
    subst ha
    change Api cfg e m .otaa x .ok at h
    cases h with
    | refused _ _ h => exact absurd rfl h.1
    | otaa _ _ _ m' hm s t hst =>
      rcases hst with ⟨_, rfl, rfl⟩ | ⟨h, _⟩
      · refine ⟨rfl, ?_, rfl⟩
        show m'.band = m.band
        obtain ⟨k, hk⟩ := deriveJoinKeys_shape cfg { m with trials := 0, day := 60 * 60 * 24 * timeTPS }
        rw [hk] at hm
        generalize hx : ({ m with trials := 0, day := 60 * 60 * 24 * timeTPS, keys := k } : Mac) = x at hm
        obtain ⟨_, _, _, _, h⟩ := nextJoinRequest_shape cfg e x
        rw [hm, h, ← hx]
      · exact absurd hs h
  refine ⟨key.1, ?_⟩
  generalize (step cfg m e .otaa).1 = y at key
  obtain ⟨k1, k2, k3⟩ := key
  have hd : DueAt y.timerA e.done := by
    rw [k3]; exact c35_set e 0 (by decide)
  obtain ⟨lag, hc, _⟩ := c35_expires y.timerA e.done hd e0 hn hl
  obtain ⟨p1, p2, p3⟩ := processBands_global cfg e0 y (by rw [k2]; exact hb)
  show (process cfg e0 y).state = .waitTX
  unfold process
  dsimp only
  generalize processBands cfg e0 y = r at *
  obtain ⟨q1, q2, q3⟩ := pickEvent_ready e0 r.1 r.2 lag (by rw [p3]; exact hc)
  generalize pickEvent e0 r.1 r.2 = p at *
  rw [if_neg q1]
  have : (dispatch cfg e0 p.1 p.2.1 p.2.2).state = .waitTX := by
    unfold dispatch
    rw [q3, p2, k1]
    show (processWaitOTAA cfg e0 p.2.2).state = _
    unfold processWaitOTAA
    rw [if_pos (by rw [q2]; exact p1)]
  generalize dispatch cfg e0 p.1 p.2.1 p.2.2 = z at *
  obtain ⟨_, _, hz⟩ := setNextBandEvent_shape cfg e0 z
  rw [hz]
  exact this

theorem pickEvent_keeps (e : Env) (r : Bool) (m : Mac) :
    (pickEvent e r m).2.2.band = m.band ∧ (pickEvent e r m).2.2.state = m.state ∧ (r = true → (pickEvent e r m).1 ≠ .none) := by
  unfold pickEvent inputCheck
  by_cases hi : m.inputState = true
  · simp [hi]
  · cases ha : m.timerA.check e <;> cases hb : m.timerB.check e <;> simp [hi, ha, hb]

theorem countDown_expired {band : Nat → Nat} {t : Nat} (h : 0 < band GLOBAL) (h0 : countDown band t GLOBAL = 0) :
    anyExpired band t = true := by
  have hg : GLOBAL < 6 := by decide
  have hx : (updateDownCounter (band GLOBAL) t).2 = true := by
    unfold countDown at h0
    rw [if_pos hg] at h0
    unfold updateDownCounter at h0 ⊢
    rw [if_pos h] at h0 ⊢
    split
    · rfl
    · rename_i hn
      rw [if_neg hn] at h0
      simp at h0
      omega
  unfold anyExpired
  exact List.any_eq_true.2 ⟨GLOBAL, by decide, hx⟩

theorem off_time_step {cfg : Cfg} (e : Env) (r : Bool × Mac) (p : Sme × Nat × Mac)
    (hr : r.2.state = .waitOTAA ∧ (r.2.band GLOBAL = 0 → r.1 = true)) (q1 : p.2.2.band = r.2.band)
    (q2 : p.2.2.state = r.2.state) (q3 : r.1 = true → p.1 ≠ .none) :
    (setNextBandEvent cfg e (if p.1 = .none then p.2.2 else dispatch cfg e p.1 p.2.1 p.2.2)).state =
      if (setNextBandEvent cfg e (if p.1 = .none then p.2.2 else dispatch cfg e p.1 p.2.1 p.2.2)).band GLOBAL = 0
      then .waitTX else .waitOTAA := by
  have key : ∀ z : Mac, (setNextBandEvent cfg e z).state = z.state ∧ (setNextBandEvent cfg e z).band = z.band := by
    intro z
    obtain ⟨_, _, hz⟩ := setNextBandEvent_shape cfg e z
    rw [hz]
    exact ⟨rfl, rfl⟩
  rw [(key _).1, (key _).2]
  have hst : p.2.2.state = .waitOTAA := q2.trans hr.1
  by_cases hb : r.2.band GLOBAL = 0
  · rw [if_neg (q3 (hr.2 hb))]
    have : dispatch cfg e p.1 p.2.1 p.2.2 = { p.2.2 with timerA := Timer.set e (joinDelay cfg e), state := .waitTX } := by
      unfold dispatch
      rw [hst]
      show processWaitOTAA cfg e p.2.2 = _
      unfold processWaitOTAA
      rw [if_pos (by rw [q1]; exact hb)]
    rw [this]
    show St.waitTX = if p.2.2.band GLOBAL = 0 then _ else _
    rw [q1, if_pos hb]
  · have : (if p.1 = .none then p.2.2 else dispatch cfg e p.1 p.2.1 p.2.2) = p.2.2 := by
      split
      · rfl
      · unfold dispatch
        rw [hst]
        show processWaitOTAA cfg e p.2.2 = _
        unfold processWaitOTAA
        rw [if_neg (by rw [q1]; exact hb)]
    rw [this, hst, q1, if_neg hb]

/-- **C104, when off-time ends**: a device that waits before a join request goes on waiting as long as off-time is left,
and begins the delay with the call of `LDL_MAC_process` that finds none left. -/
theorem c104_off_time {cfg : Cfg} {m : Mac} (hs : m.state = .waitOTAA) (h0 : 0 < m.band GLOBAL) (e : Env) :
    (step cfg m e .process).1.state =
      if (step cfg m e .process).1.band GLOBAL = 0 then .waitTX else .waitOTAA := by
  show (process cfg e m).state = if (process cfg e m).band GLOBAL = 0 then .waitTX else .waitOTAA
  have hr : (processBands cfg e m).2.state = .waitOTAA ∧
      ((processBands cfg e m).2.band GLOBAL = 0 → (processBands cfg e m).1 = true) := by
    unfold processBands
    split
    · exact ⟨hs, fun h => absurd (h.symm ▸ h0 : 0 < 0) (by decide)⟩
    · dsimp only
      split
      · exact ⟨hs, fun _ => rfl⟩
      · rename_i hn
        exact ⟨hs, fun h => absurd ⟨countDown_expired h0 h, h⟩ hn⟩
  obtain ⟨q1, q2, q3⟩ := pickEvent_keeps e (processBands cfg e m).1 (processBands cfg e m).2
  exact off_time_step e (processBands cfg e m) (pickEvent e (processBands cfg e m).1 (processBands cfg e m).2) hr q1 q2 q3

/-- **C104, the spread**: every delay below the interval is drawn, and all of them equally often, up to one, by a random
source that gives each number of 32 bits once. -/
theorem c104_even (cfg : Cfg) (h : spreadTicks cfg < 2 ^ 32) (hpos : 0 < spreadTicks cfg) (e : Env) (d : Nat)
    (hd : d < spreadTicks cfg) (n : Nat) (hn : n = drawsGiving (fun r => joinDelay cfg { e with rand := fun _ => r }) d) :
    0 < n ∧ (n = 2 ^ 32 / spreadTicks cfg ∨ n = 2 ^ 32 / spreadTicks cfg + 1) := by
  have hne : spreadSeconds cfg ≠ 0 := by
    intro h0
    unfold spreadTicks at hpos
    rw [h0] at hpos
    omega
  have hc : n = Nat.count (fun r => r ≡ d [MOD spreadTicks cfg]) (2 ^ 32) := by
    rw [hn]
    unfold drawsGiving Nat.count
    refine List.countP_congr fun r hr => ?_
    rw [List.mem_range] at hr
    have : joinDelay cfg { e with rand := fun _ => r } = r % spreadTicks cfg := by
      rw [joinDelay_spec h, if_neg hne]
      show r % 4294967296 % _ = _
      rw [Nat.mod_eq_of_lt (show r < 4294967296 from hr)]
    simp only [decide_eq_true_eq]
    rw [this]
    unfold Nat.ModEq
    rw [Nat.mod_eq_of_lt hd]
  rw [Nat.count_modEq_card _ hpos] at hc
  have h1 : 0 < 2 ^ 32 / spreadTicks cfg := Nat.div_pos (Nat.le_of_lt h) hpos
  split at hc <;> omega

/-- The divisor is not 0 if the interval, in ticks, fits 32 bits, unless the interval is 0, when it is not used. -/
theorem c104_defined {cfg : Cfg} (hpos : 0 < cfg.tps) (h : spreadTicks cfg < 2 ^ 32) :
    0 < joinModulus cfg ∨ cfg.dither = some 0 := by
  have hu : ∀ n, n < 2 ^ 32 → u32 n = n := fun n hn => Nat.mod_eq_of_lt hn
  unfold spreadTicks spreadSeconds at h
  unfold joinModulus
  cases hd : cfg.dither with
  | none =>
    rw [hd] at h
    simp only [Option.getD_none] at h
    left
    show 0 < u32 (cfg.tps * 30)
    rw [hu _ h]
    omega
  | some d =>
    rw [hd] at h
    simp only [Option.getD_some] at h
    cases d with
    | zero => exact Or.inr rfl
    | succ d =>
      left
      show 0 < u32 (cfg.tps * (d + 1))
      rw [hu _ h]
      exact Nat.mul_pos hpos (by omega)

/-! ## Concrete cases -/

namespace DitherDemo

/-- The random source gives 65 million: the delay is 65 s modulo 30 s. -/
def first : Env := { now := 20100, rand := fun _ => 65000000 }

def joining : Mac := (step Demo.cfg Demo.idle (Demo.at_ 20000) .otaa).1

theorem starts : joining.state = .waitOTAA ∧ (step Demo.cfg joining first .process).1.state = .waitTX :=
  c104_begins (by decide +kernel) (by decide +kernel) (Demo.at_ 20000) (by decide +kernel) first (by decide) (by decide)

/-- The request is sent 5 s and the start-up later, although `LDL_MAC_process` is called before. -/
theorem late : sentTimes Demo.cfg (step Demo.cfg joining first .process).1
    ([(Demo.at_ 30000, .process), (Demo.at_ 5020099, .process)] ++ (Demo.at_ 5020100, .process) ::
      ([(Demo.at_ 5045099, .process)] ++ [(Demo.at_ 5045100, .process)])) = [5045100] := by
  have hsu : startup Demo.cfg = 25000 := by decide
  refine (c104_delayed_partial (m := joining) (.step (Demo.at_ 20000) .otaa Demo.idle_reachable trivial) starts.1 first starts.2 (by decide)
    5020100 0 (by decide +kernel) (by decide) (by decide) _ (by decide +kernel) ?_ (Demo.at_ 5020100) (by decide) (by decide) (by decide)
    _ (by decide +kernel) ?_ (Demo.at_ 5045100) (by rw [hsu]; decide) (by rw [hsu]; decide)).1
  · intro x hx
    simp only [List.mem_cons, List.not_mem_nil, or_false] at hx
    rcases hx with rfl | rfl
    · exact ⟨WindowDemo.alone_process, by decide, by decide⟩
    · exact ⟨WindowDemo.alone_process, by decide, by decide⟩
  · rw [hsu]
    intro x hx
    simp only [List.mem_cons, List.not_mem_nil, or_false] at hx
    subst hx
    exact ⟨WindowDemo.alone_process, by decide, by decide⟩

/-- A join request that was not answered, and the device waits for off-time: 586/256 s are left at 10.1 s. -/
def unanswered : Mac := run Demo.cfg Demo.start (
  Demo.boot ++ [(Demo.at_ 20000, .otaa)] ++ Demo.processAt [20000, 20001, 50000] ++ Demo.txDone 1530000 ++
    Demo.processAt [6530000, 6532000] ++ Demo.rxNone 6570000 ++ Demo.processAt [7530000, 7532000] ++ Demo.rxNone 7570000 ++
    Demo.processAt [10100000, 10100001])

/-- Both sides of `c104_off_time` occur. -/
theorem both : unanswered.state = .waitOTAA ∧ unanswered.band GLOBAL = 586 ∧
    (step Demo.cfg unanswered (Demo.at_ 12300000) .process).1.band GLOBAL ≠ 0 ∧
    (step Demo.cfg unanswered (Demo.at_ 12400000) .process).1.band GLOBAL = 0 := by decide +kernel

example : (step Demo.cfg unanswered (Demo.at_ 12400000) .process).1.state = .waitTX ∧
    (step Demo.cfg unanswered (Demo.at_ 12300000) .process).1.state = .waitOTAA := by
  obtain ⟨h1, h2, h3, h4⟩ := both
  have h0 : 0 < unanswered.band GLOBAL := by rw [h2]; decide
  exact ⟨(c104_off_time h1 h0 _).trans (if_pos h4), (c104_off_time h1 h0 _).trans (if_neg h3)⟩

example : spreadTicks Demo.cfg < 2 ^ 32 ∧ 0 < spreadTicks Demo.cfg ∧ 29999999 < spreadTicks Demo.cfg := by decide

/-- A build with `LDL_ENABLE_OTAA_DITHER`. -/
def cfg (tps dither : Nat) : Cfg := { Demo.cfg with tps := tps, dither := some dither }

end DitherDemo

/-- The header says `otaaDither` is a number of ticks (include/ldl_mac.h:626); it is a number of seconds: with 1000 and a
clock of 1 MHz a delay can be more than a million ticks. -/
theorem c104_ticks : ∃ e : Env, 1000000 < joinDelay (DitherDemo.cfg 1000000 1000) e := by
  refine ⟨{ rand := fun _ => 123456789 }, ?_⟩
  decide

/-- The full property does not hold: the interval in ticks is computed in 32 bits, and with a clock of 65536 Hz and an
interval of 65536 s it is 0, by which the random number is divided. -/
theorem c104_undefined : 0 < spreadTicks (DitherDemo.cfg 65536 65536) ∧ (DitherDemo.cfg 65536 65536).dither ≠ some 0 ∧
    joinModulus (DitherDemo.cfg 65536 65536) = 0 := by decide

/-- With a clock of 1 MHz an hour's and a half's interval is cut to less than 19 minutes. -/
theorem c104_cut (e : Env) : spreadTicks (DitherDemo.cfg 1000000 5400) = 5400 * 1000000 ∧
    joinDelay (DitherDemo.cfg 1000000 5400) e < 1140 * 1000000 := by
  refine ⟨by decide, ?_⟩
  exact Nat.lt_trans (Nat.mod_lt _ (show 0 < joinModulus (DitherDemo.cfg 1000000 5400) by decide)) (by decide)

end LDL
