import Verif.Spec.Windows
import Verif.Props.Region
import Verif.Props.Timers
import Verif.Props.Adr

/-!
# Receive windows: C37, C38
-/

namespace LDL
open Spec

/-! ## Arithmetic of a window -/

theorem startup_spec {cfg : Cfg} (ht : 25 * cfg.tps < 2 ^ 32) : msToTicks cfg XTAL_DELAY = startup cfg := by
  show (25 * cfg.tps) % 4294967296 / 1000 + (if (25 * cfg.tps) % 4294967296 % 1000 > 0 then 1 else 0) = _
  unfold startup
  rw [two_pow_32] at ht
  rw [Nat.mod_eq_of_lt ht]
  split <;> omega

theorem startup_small {cfg : Cfg} (ht : 25 * cfg.tps < 2 ^ 32) : startup cfg < 2 ^ 31 := by
  unfold startup
  rw [two_pow_32] at ht
  rw [show (2 : Nat) ^ 31 = 2147483648 from rfl]
  omega

theorem Spec.Window.Fits.computes {cfg : Cfg} {w : Window} {lag : Nat} (h : w.Fits cfg lag) : w.Computes cfg lag :=
  ⟨h.symbol, h.period, h.error, h.symbols, h.wait, by
    have h1 := h.ahead
    have h2 := h.wait
    rw [show (2 : Nat) ^ 31 = 2147483648 from rfl] at h2
    rw [show (2 : Nat) ^ 32 = 4294967296 from rfl]
    omega, h.margin⟩

theorem window_symbols {cfg : Cfg} {w : Window} {lag : Nat} (h : w.Computes cfg lag) (r : RateInfo)
    (hsf : r.sf = w.sf) (hbw : bwToNumber r.bw = w.bw) (ht : 25 * cfg.tps < 2 ^ 32) :
    window cfg r (clockError cfg w.s) (baseAdvance cfg lag) =
      (w.symbols cfg, cfg.advance + lag + startup cfg + w.margin cfg / 2) := by
  have hp : symbolPeriod cfg.tps r.sf r.bw = w.symbol cfg := by
    unfold symbolPeriod Window.symbol symbolTicks
    rw [hsf, hbw, Nat.shiftLeft_eq, Nat.one_mul]
    congr 1
    exact Nat.mod_eq_of_lt h.period
  have hs := h.symbol
  have herr := h.error
  have hsym := h.symbols
  have ha := h.sum
  have hm := h.margin
  have hst := startup_spec ht
  have hext : (if extraSymbols (clockError cfg w.s) (w.symbol cfg) < 3 then 3
      else extraSymbols (clockError cfg w.s) (w.symbol cfg)) = w.extra cfg := by
    have hle : w.extra cfg < 65536 := by
      unfold Window.symbols at hsym
      omega
    have key : extraSymbols (clockError cfg w.s) (w.symbol cfg) =
        (clockError cfg w.s + w.symbol cfg - 1) / w.symbol cfg := by
      have hq : clockError cfg w.s / w.symbol cfg + (if clockError cfg w.s % w.symbol cfg > 0 then 1 else 0) =
          (clockError cfg w.s + w.symbol cfg - 1) / w.symbol cfg := by
        generalize clockError cfg w.s = x at *
        generalize w.symbol cfg = y at *
        have hd := Nat.div_add_mod x y
        have hlt := Nat.mod_lt x hs
        generalize hq : x / y = q at *
        generalize hr : x % y = r at *
        split
        · symm
          refine Nat.div_eq_of_lt_le ?_ ?_
          · rw [Nat.mul_comm, Nat.mul_add, Nat.mul_one]; omega
          · rw [Nat.mul_comm, Nat.mul_add, Nat.mul_add, Nat.mul_one]; omega
        · symm
          refine Nat.div_eq_of_lt_le ?_ ?_
          · rw [Nat.mul_comm, Nat.mul_add, Nat.mul_zero]; omega
          · rw [Nat.mul_comm, Nat.mul_add, Nat.mul_add, Nat.mul_one, Nat.mul_zero]; omega
      unfold extraSymbols
      rw [hq]
      refine Nat.mod_eq_of_lt ?_
      unfold Window.extra marginSymbols at hle
      omega
    rw [key]
    unfold Window.extra marginSymbols
    split <;> omega
  have hadv : baseAdvance cfg lag = cfg.advance + lag + startup cfg := by
    unfold baseAdvance
    rw [hst]
    refine Nat.mod_eq_of_lt ?_
    rw [show (2 : Nat) ^ 32 = 4294967296 from rfl] at ha
    omega
  unfold window
  simp only [hp]
  rw [hext, hadv]
  have hmm : u32 (w.extra cfg * w.symbol cfg) = w.margin cfg := Nat.mod_eq_of_lt hm
  rw [hmm]
  refine Prod.ext ?_ ?_
  · show (5 + w.extra cfg % 65536) % 65536 = 5 + w.extra cfg
    unfold Window.symbols at hsym
    rw [show (2 : Nat) ^ 16 = 65536 from rfl] at hsym
    omega
  · show (cfg.advance + lag + startup cfg + w.margin cfg / 2) % 4294967296 = _
    rw [show (2 : Nat) ^ 32 = 4294967296 from rfl] at ha
    omega

/-! ## C38 -/

theorem extra_covers (cfg : Cfg) (w : Window) (hs : 0 < w.symbol cfg) : clockError cfg w.s ≤ w.margin cfg := by
  unfold Window.margin Window.extra marginSymbols
  generalize clockError cfg w.s = x
  generalize w.symbol cfg = y at *
  have hd := Nat.div_add_mod (x + y - 1) y
  have hlt := Nat.mod_lt (x + y - 1) hs
  have h1 : (x + y - 1) / y * y ≤ max 3 ((x + y - 1) / y) * y := Nat.mul_le_mul_right _ (Nat.le_max_right _ _)
  rw [Nat.mul_comm] at hd
  omega

/-- **C38**: a downlink that begins within the clock error of its time begins while the radio is listening, at least
five symbols before it gives up.  The radio listens from `ideal - margin / 2` (the window is opened `advance` earlier
to allow for the time the radio takes) and for `symbols` symbols of exactly `2^sf / bw` seconds; the inequality is in
units of 1 / (`bw` * `tps`) seconds.  `ideal` is the due time of the downlink and `t` the actual time, in ticks. -/
theorem c38_covers (cfg : Cfg) (w : Window) (hs : 0 < w.symbol cfg) (ideal t : Nat)
    (hi : w.margin cfg / 2 ≤ ideal) (h1 : ideal ≤ t + clockError cfg w.s / 2) (h2 : t ≤ ideal + clockError cfg w.s / 2) :
    ideal - w.margin cfg / 2 ≤ t ∧
    (t - (ideal - w.margin cfg / 2)) * w.bw + 5 * (2 ^ w.sf * cfg.tps) ≤ w.symbols cfg * (2 ^ w.sf * cfg.tps) := by
  have hc := extra_covers cfg w hs
  have hm : t - (ideal - w.margin cfg / 2) ≤ w.margin cfg := by omega
  refine ⟨by omega, ?_⟩
  unfold Window.symbols
  rw [Nat.add_mul]
  have h3 : (t - (ideal - w.margin cfg / 2)) * w.bw ≤ w.margin cfg * w.bw := Nat.mul_le_mul_right _ hm
  have h4 : w.margin cfg * w.bw ≤ w.extra cfg * (2 ^ w.sf * cfg.tps) := by
    unfold Window.margin
    rw [Nat.mul_assoc]
    refine Nat.mul_le_mul_left _ ?_
    exact Nat.div_mul_le_self _ _
  omega

/-- **C38**: the margin is three symbols at least, so that the radio listens for eight at least. -/
theorem c38_three (cfg : Cfg) (w : Window) : 3 ≤ w.extra cfg ∧ 8 ≤ w.symbols cfg := by
  have : 3 ≤ w.extra cfg := Nat.le_max_left _ _
  exact ⟨this, by unfold Window.symbols; omega⟩

/-! ## The state of a device that waits for a window -/

/-- What bears on the receive windows. -/
structure WinView where
  state : St
  op : Op
  timerA : Timer
  timerB : Timer
  inputArmed : Bool
  inputState : Bool
  rx1Symbols : Nat
  rx2Symbols : Nat
  tx : Tx
  region : Region
  rx1DROffset : Nat
  rx2DataRate : Nat
  rx2Freq : Nat

def winView (m : Mac) : WinView :=
  { state := m.state, op := m.op, timerA := m.timerA, timerB := m.timerB, inputArmed := m.inputArmed,
    inputState := m.inputState, rx1Symbols := m.rx1Symbols, rx2Symbols := m.rx2Symbols, tx := m.tx,
    region := m.ctx.region, rx1DROffset := m.ctx.rx1DROffset, rx2DataRate := m.ctx.rx2DataRate,
    rx2Freq := m.ctx.rx2Freq }

theorem setChannel_view (s : Session) (ch f a b : Nat) : ∃ c, (setChannel s ch f a b).2 = { s with chConfig := c } := by
  unfold setChannel
  split
  · split
    · exact ⟨_, rfl⟩
    · split <;> exact ⟨_, rfl⟩
  · exact ⟨_, rfl⟩

/-- Other calls than `process` change nothing that bears on the windows while a transfer is in progress. -/
theorem call_view (cfg : Cfg) (m : Mac) (e : Env) (c : Call) (hc : c ≠ .process) (hl : LeavesAlone c)
    (ho : m.op ≠ .none) : winView (step cfg m e c).1 = winView m := by
  have h := step_api cfg e m c hc
  generalize (step cfg m e c).1 = m' at *
  generalize (step cfg m e c).2 = st at *
  cases h with
  | refused => rfl
  | entropyIdle h => exact absurd h ho
  | entropyLater h => exact absurd h ho
  | otaa _ h => exact absurd h ho
  | abp _ h => exact absurd h ho
  | dataRefused _ _ _ _ _ h => exact absurd h ho
  | data _ _ _ _ _ _ h => exact absurd h ho
  | forget => exact absurd rfl hl.2.1
  | cancel => exact absurd rfl hl.1
  | setRate => rfl
  | setPower => rfl
  | setADR => rfl
  | setMaxDCycle => rfl
  | addChannel ch f a b =>
    obtain ⟨c, hc⟩ := setChannel_view m.ctx ch f a b
    rw [hc]; rfl
  | maskChannel => rfl
  | unmaskChannel => rfl
  | latched t => exact absurd rfl (hl.2.2 t).1
  | ignored => rfl
  | late t => exact absurd rfl (hl.2.2 t).2
  | notLate => rfl

/-- The states between the end of a transmission and the end of its windows, and those before a transmission. -/
def windowStates : List St :=
  [.waitTX, .startRadioForTX, .waitRX1, .startRadioForRX1, .rx1, .waitRX2, .startRadioForRX2, .rx2]

/-- `process` changes nothing that bears on the windows when nothing is due. -/
theorem process_view (cfg : Cfg) (m : Mac) (e : Env) (hs : m.state ∈ windowStates) (hi : m.inputState = false)
    (hA : m.timerA.check e = none) (hB : m.timerB.check e = none) :
    winView (process cfg e m) = winView m ∧
    ((process cfg e m).out = m.out ∨ (process cfg e m).out = m.out ++ [Event.channelReady]) := by
  obtain ⟨ev, lag, m1, m2, p, t, hp, hd, heq⟩ := process_disp cfg e m
  have hev1 : ev ≠ .interrupt := fun h => by
    have := hp.interrupt.1 h
    rw [hi] at this; cases this
  have htA : ev ≠ .timerA ∧ m1.timerA = m.timerA := by
    rcases hp.timerA with ⟨_, h, _⟩ | h
    · rw [hA] at h; cases h
    · exact h
  have htB : ev ≠ .timerB ∧ m1.timerB = m.timerB := by
    rcases hp.timerB with ⟨_, h, _⟩ | h
    · rw [hB] at h; cases h
    · exact h
  have hl : m1.inputArmed = m.inputArmed ∧ m1.inputState = false := by
    rcases hp.latch with ⟨h, _⟩ | ⟨_, h⟩
    · exact absurd h hev1
    · exact h
  have hout := hp.out
  have hst : m1.state = m.state := by
    obtain ⟨_, _, _, _, _, _, _, _, _, h⟩ := hp.eq
    rw [h]
  have hm2 : m2 = m1 := by
    rcases hd with ⟨_, h⟩ | ⟨_, h⟩
    · exact h
    · rw [← hst] at hs
      simp only [windowStates, List.mem_cons, List.not_mem_nil, or_false] at hs
      cases h
      case stay => rfl
      case otaa h _ => rw [h] at hs; simp at hs
      all_goals first
        | (next h => rw [h] at hs; simp at hs)
        | (exfalso; next h => exact absurd h htA.1)
        | (exfalso; next h => exact absurd h htB.1)
        | (exfalso; next h => exact absurd h hev1)
        | (exfalso; simp_all)
  rw [heq, hm2]
  refine ⟨?_, hout⟩
  obtain ⟨_, _, _, _, _, _, _, _, _, h⟩ := hp.eq
  have h1 := htA.2
  have h2 := htB.2
  have h3 := hl
  rw [h] at h1 h2 h3 ⊢
  simp only at h1 h2 h3
  obtain ⟨h3, h4⟩ := h3
  subst h1 h2 h3
  rw [h4]
  unfold winView
  simp only [hi]

theorem listens_append (a b : List Event) : listens (a ++ b) = listens a ++ listens b := List.filterMap_append

theorem listens_trans {m x y : Mac} (h1 : ∃ o, x.out = m.out ++ o) (h2 : ∃ o, y.out = x.out ++ o) :
    listens (newEvents m y) = listens (newEvents m x) ++ listens (newEvents x y) := by
  rw [newEvents_trans h1 h2, listens_append]

theorem listens_none {l : List Event} (h : ∀ t s, Event.receive t s ∉ l) : listens l = [] := by
  unfold listens
  rw [List.filterMap_eq_nil_iff]
  intro x hx
  cases x <;> try rfl
  exact absurd hx (h _ _)

theorem call_listens (cfg : Cfg) (m : Mac) (e : Env) (c : Call) (hc : c ≠ .process) :
    listens (newEvents m (step cfg m e c).1) = [] := by
  refine listens_none fun t s h => ?_
  obtain ⟨l, he, hm⟩ := step_emits cfg e m c
  unfold newEvents at h
  rw [he, List.drop_left] at h
  have := hm _ h
  cases this <;> exact hc rfl

theorem process_out_listens {m m' : Mac} (h : m'.out = m.out ∨ m'.out = m.out ++ [Event.channelReady]) :
    listens (newEvents m m') = [] := by
  unfold newEvents
  rcases h with h | h <;> rw [h] <;> simp [listens]

/-- Nothing happens to the windows as long as no timer has expired. -/
theorem quiet_run (cfg : Cfg) (m : Mac) (calls : List (Env × Call)) (hs : m.state ∈ windowStates) (ho : m.op ≠ .none)
    (hi : m.inputState = false)
    (h : ∀ x ∈ calls, LeavesAlone x.2 ∧ m.timerA.check x.1 = none ∧ m.timerB.check x.1 = none) :
    winView (run cfg m calls) = winView m ∧ listens (newEvents m (run cfg m calls)) = [] := by
  induction calls generalizing m with
  | nil =>
    refine ⟨rfl, ?_⟩
    show listens (m.out.drop m.out.length) = []
    simp [listens]
  | cons x rest ih =>
    obtain ⟨e, c⟩ := x
    have hx := h (e, c) (by simp)
    have h1 : winView (step cfg m e c).1 = winView m ∧ listens (newEvents m (step cfg m e c).1) = [] := by
      by_cases hc : c = .process
      · subst hc
        have := process_view cfg m e hs hi hx.2.1 hx.2.2
        exact ⟨this.1, process_out_listens this.2⟩
      · exact ⟨call_view cfg m e c hc hx.1 ho, call_listens cfg m e c hc⟩
    have h2 := ih (step cfg m e c).1 (by rw [show (step cfg m e c).1.state = m.state from congrArg WinView.state h1.1]; exact hs)
      (by rw [show (step cfg m e c).1.op = m.op from congrArg WinView.op h1.1]; exact ho)
      (by rw [show (step cfg m e c).1.inputState = m.inputState from congrArg WinView.inputState h1.1]; exact hi)
      (by
        intro y hy
        rw [show (step cfg m e c).1.timerA = m.timerA from congrArg WinView.timerA h1.1,
          show (step cfg m e c).1.timerB = m.timerB from congrArg WinView.timerB h1.1]
        exact h y (by simp [hy]))
    refine ⟨h2.1.trans h1.1, ?_⟩
    have := listens_trans (m := m) (x := (step cfg m e c).1) (y := run cfg m ((e, c) :: rest))
      (step_grows cfg m e c) (run_grows cfg _ rest)
    rw [this, h1.2, List.nil_append]
    exact h2.2

/-- WAITA has expired and no interrupt is pending. -/
theorem process_timerA (cfg : Cfg) (m : Mac) (e : Env) (hi : m.inputState = false) (lag : Nat)
    (hA : m.timerA.check e = some lag) : ∃ m1 p t,
    process cfg e m = { dispatch cfg e .timerA lag m1 with parked := p, timerBand := t } ∧
    winView m1 = { winView m with timerA := m.timerA.clear } ∧
    (m1.out = m.out ∨ m1.out = m.out ++ [Event.channelReady]) := by
  obtain ⟨ev, lag', m1, hp, hq⟩ := process_cases cfg e m
  obtain ⟨p, t, hb⟩ := setNextBandEvent_shape cfg e (if ev = .none then m1 else dispatch cfg e ev lag' m1)
  have hev : ev ≠ .interrupt := fun h => by
    have := hp.interrupt.1 h
    rw [hi] at this; cases this
  have hl : m1.inputArmed = m.inputArmed ∧ m1.inputState = false := by
    rcases hp.latch with ⟨h, _⟩ | ⟨_, h⟩
    · exact absurd h hev
    · exact h
  have hA' : ev = .timerA ∧ lag' = lag ∧ m1.timerA = m.timerA.clear := by
    rcases hp.timerA with ⟨h, h', h''⟩ | ⟨h, h'⟩
    · rw [hA] at h'; cases h'
      exact ⟨h, rfl, h''⟩
    · have : m.timerA.check e = none := by
        apply hp.quietA
        cases ev <;> simp_all
      rw [this] at hA; cases hA
  have hB : m1.timerB = m.timerB := by
    rcases hp.timerB with ⟨h, _⟩ | ⟨_, h⟩
    · rw [hA'.1] at h; cases h
    · exact h
  obtain ⟨rfl, rfl, hc⟩ := hA'
  refine ⟨m1, p, t, hq.trans (hb.trans (by rw [if_neg (by simp)])), ?_, hp.out⟩
  obtain ⟨_, _, _, _, _, _, _, _, _, h⟩ := hp.eq
  rw [h] at hc hB hl ⊢
  simp only at hc hB hl
  obtain ⟨h3, h4⟩ := hl
  subst hc hB h3
  rw [h4]
  unfold winView
  simp only [hi]

/-- WAITB has expired, WAITA has not and no interrupt is pending. -/
theorem process_timerB (cfg : Cfg) (m : Mac) (e : Env) (hi : m.inputState = false) (lag : Nat)
    (hA : m.timerA.check e = none) (hB : m.timerB.check e = some lag) : ∃ m1 p t,
    process cfg e m = { dispatch cfg e .timerB lag m1 with parked := p, timerBand := t } ∧
    winView m1 = { winView m with timerB := m.timerB.clear } ∧
    (m1.out = m.out ∨ m1.out = m.out ++ [Event.channelReady]) := by
  obtain ⟨ev, lag', m1, hp, hq⟩ := process_cases cfg e m
  obtain ⟨p, t, hb⟩ := setNextBandEvent_shape cfg e (if ev = .none then m1 else dispatch cfg e ev lag' m1)
  have hev : ev ≠ .interrupt := fun h => by
    have := hp.interrupt.1 h
    rw [hi] at this; cases this
  have hl : m1.inputArmed = m.inputArmed ∧ m1.inputState = false := by
    rcases hp.latch with ⟨h, _⟩ | ⟨_, h⟩
    · exact absurd h hev
    · exact h
  have hA' : ev ≠ .timerA ∧ m1.timerA = m.timerA := by
    rcases hp.timerA with ⟨_, h, _⟩ | h
    · rw [hA] at h; cases h
    · exact h
  have hB' : ev = .timerB ∧ lag' = lag ∧ m1.timerB = m.timerB.clear := by
    rcases hp.timerB with ⟨h, h', h''⟩ | ⟨h, h'⟩
    · rw [hB] at h'; cases h'
      exact ⟨h, rfl, h''⟩
    · have : m.timerB.check e = none := by
        apply hp.quietB
        cases ev <;> simp_all
      rw [this] at hB; cases hB
  obtain ⟨rfl, rfl, hc⟩ := hB'
  refine ⟨m1, p, t, hq.trans (hb.trans (by rw [if_neg (by simp)])), ?_, hp.out⟩
  obtain ⟨_, _, _, _, _, _, _, _, _, h⟩ := hp.eq
  have hA := hA'.2
  rw [h] at hc hA hl ⊢
  simp only at hc hA hl
  obtain ⟨h3, h4⟩ := hl
  subst hc hA h3
  rw [h4]
  unfold winView
  simp only [hi]

/-- An interrupt is pending. -/
theorem process_interrupt (cfg : Cfg) (m : Mac) (e : Env) (hi : m.inputState = true) : ∃ m1 p t,
    process cfg e m = { dispatch cfg e .interrupt (timerDelta m.inputTime e.ticks) m1 with parked := p, timerBand := t } ∧
    winView m1 = { winView m with inputArmed := false, inputState := false } ∧ m1.ctx = m.ctx ∧
    (m1.out = m.out ∨ m1.out = m.out ++ [Event.channelReady]) := by
  obtain ⟨ev, lag', m1, hp, hq⟩ := process_cases cfg e m
  obtain ⟨p, t, hb⟩ := setNextBandEvent_shape cfg e (if ev = .none then m1 else dispatch cfg e ev lag' m1)
  have hev : ev = .interrupt := hp.interrupt.2 hi
  have hl : m1.inputArmed = false ∧ m1.inputState = false ∧ lag' = timerDelta m.inputTime e.ticks := by
    rcases hp.latch with ⟨_, h⟩ | ⟨h, _⟩
    · exact h
    · exact absurd hev h
  have hA : m1.timerA = m.timerA := by
    rcases hp.timerA with ⟨h, _⟩ | ⟨_, h⟩
    · rw [hev] at h; cases h
    · exact h
  have hB : m1.timerB = m.timerB := by
    rcases hp.timerB with ⟨h, _⟩ | ⟨_, h⟩
    · rw [hev] at h; cases h
    · exact h
  obtain ⟨h3, h4, rfl⟩ := hl
  subst hev
  refine ⟨m1, p, t, hq.trans (hb.trans (by rw [if_neg (by simp)])), ?_, ?_, hp.out⟩
  · obtain ⟨_, _, _, _, _, _, _, _, _, h⟩ := hp.eq
    rw [h] at hA hB h3 h4 ⊢
    simp only at hA hB h3 h4
    subst hA hB
    rw [h3, h4]
    rfl
  · obtain ⟨_, _, _, _, _, _, _, _, _, h⟩ := hp.eq
    rw [h]

theorem timerDelta_noticed (a b : Nat) (h : a ≤ b) (hd : b < a + 2 ^ 32) :
    timerDelta (a % 2 ^ 32) (b % 2 ^ 32) = noticed a b := by
  unfold noticed
  rw [timerDelta_eq, two_pow_32] at *
  have h1 := Nat.div_add_mod a 4294967296
  have h2 := Nat.div_add_mod b 4294967296
  have h3 := Nat.mod_lt a (show 4294967296 > 0 by decide)
  have h4 := Nat.mod_lt b (show 4294967296 > 0 by decide)
  generalize a % 4294967296 = x at *
  generalize b % 4294967296 = y at *
  generalize a / 4294967296 = q at *
  generalize b / 4294967296 = r at *
  split
  · split <;> omega
  · split <;> omega

theorem noticed_bounds (a b : Nat) (h : a ≤ b) : noticed a b ≤ b - a ∧ b - a ≤ noticed a b + 1 := by
  unfold noticed
  split <;> omega

theorem windowRX1_spec (cfg : Cfg) (m : Mac) (lag : Nat) (hr : RatesOk m) (h : (rx1Window m).Computes cfg lag)
    (ht : 25 * cfg.tps < 2 ^ 32) :
    windowRX1 cfg lag m =
      ((rx1Window m).symbols cfg, cfg.advance + lag + startup cfg + (rx1Window m).margin cfg / 2) := by
  have hc := convertRate_spec m.ctx.region (rx1Rate m.ctx.region m.tx.rate m.ctx.rx1DROffset)
    (List.mem_append.2 (Or.inr (rx1Rate_mem _ _ _ hr.up hr.offset)))
  have he : rx1Error cfg m = clockError cfg (rx1Window m).s := by
    have h1 : waitSeconds m * cfg.a * 2 + cfg.b = clockError cfg (rx1Window m).s := by
      show (if m.op = .joining then 5 else m.ctx.rx1Delay) * cfg.a * 2 + cfg.b =
        2 * cfg.a * (if m.op = .joining then 5 else m.ctx.rx1Delay) + cfg.b
      generalize (if m.op = .joining then 5 else m.ctx.rx1Delay) = s
      rw [Nat.mul_comm s, Nat.mul_right_comm, Nat.mul_comm cfg.a 2]
    unfold rx1Error
    rw [h1]
    exact Nat.mod_eq_of_lt h.error
  unfold windowRX1
  rw [c39_rx1_rate_partial _ _ _ hr.up hr.offset, he]
  exact window_symbols h _ hc.1 hc.2.1 ht

theorem windowRX2_spec (cfg : Cfg) (m : Mac) (lag : Nat) (hr : RatesOk m) (h : (rx2Window m).Computes cfg lag)
    (ht : 25 * cfg.tps < 2 ^ 32) :
    windowRX2 cfg lag m =
      ((rx2Window m).symbols cfg, cfg.advance + lag + startup cfg + (rx2Window m).margin cfg / 2) := by
  have hc := convertRate_spec m.ctx.region m.ctx.rx2DataRate hr.rx2
  have he : u32 (rx1Error cfg m + cfg.a * 2) = clockError cfg (rx2Window m).s := by
    have h0 := h.error
    have h1 : waitSeconds m * cfg.a * 2 + cfg.b + cfg.a * 2 = clockError cfg (rx2Window m).s := by
      show (if m.op = .joining then 5 else m.ctx.rx1Delay) * cfg.a * 2 + cfg.b + cfg.a * 2 =
        2 * cfg.a * ((if m.op = .joining then 5 else m.ctx.rx1Delay) + 1) + cfg.b
      generalize (if m.op = .joining then 5 else m.ctx.rx1Delay) = s
      rw [Nat.mul_add, Nat.mul_one, Nat.mul_comm s, Nat.mul_right_comm, Nat.mul_comm cfg.a 2]
      omega
    unfold rx1Error
    rw [← h1] at h0 ⊢
    rw [two_pow_32] at h0
    generalize waitSeconds m * cfg.a * 2 = x at *
    show ((x + cfg.b) % 4294967296 + cfg.a * 2) % 4294967296 = _
    omega
  unfold windowRX2
  rw [he]
  exact window_symbols h _ hc.1 hc.2.1 ht

/-- The end of a transmission sets the timers for the windows. -/
theorem tx_core (cfg : Cfg) (m : Mac) (e : Env) (hs : m.state = .tx) (hi : m.inputState = true) (T S : Nat)
    (hT : m.inputTime = T % 2 ^ 32) (hle : T ≤ e.now) (hnr : e.now < T + 2 ^ 32) (hS : e.done = S + noticed T e.now)
    (hst : e.statusTx = true)
    (hr : RatesOk m) (h1 : (rx1Window m).Computes cfg (e.done - S)) (h2 : (rx2Window m).Computes cfg (e.done - S))
    (ht : 25 * cfg.tps < 2 ^ 32) : ∃ r,
    r = armWindows cfg e ((rx1Window m).s * cfg.tps)
      (cfg.advance + (e.done - S) + startup cfg + (rx1Window m).margin cfg / 2)
      (cfg.advance + (e.done - S) + startup cfg + (rx2Window m).margin cfg / 2) m.timerA ∧
    winView (process cfg e m) = { winView m with
      state := r.2.2, timerA := r.1, timerB := r.2.1, inputArmed := false, inputState := false
      rx1Symbols := (rx1Window m).symbols cfg, rx2Symbols := (rx2Window m).symbols cfg } ∧
    listens (newEvents m (process cfg e m)) = [] := by
  obtain ⟨m1, p, t, hq, hv, hctx, hout⟩ := process_interrupt cfg m e hi
  have hlag : timerDelta m.inputTime e.ticks = e.done - S := by
    rw [hT]
    have := timerDelta_noticed T e.now hle hnr
    exact this.trans (by omega)
  have hs1 : m1.state = .tx := (congrArg WinView.state hv).trans hs
  have hop : m1.op = m.op := congrArg WinView.op hv
  have htx : m1.tx = m.tx := congrArg WinView.tx hv
  rw [hlag] at hq
  have hd : dispatch cfg e .interrupt (e.done - S) m1 = txComplete cfg e (e.done - S) (registerTime (m1.emit .getStatus)) := by
    unfold dispatch
    rw [hs1]
    unfold processTX
    simp [hst]
  obtain ⟨b, hb⟩ := registerTime_shape (m1.emit .getStatus)
  rw [hd, hb] at hq
  generalize hm2 : ({ m1.emit .getStatus with band := b } : Mac) = m2 at *
  have hv2 : winView m2 = winView m1 := by rw [← hm2]; rfl
  have e1 : rx1Window m2 = rx1Window m := by
    rw [← hm2]
    show rx1Window { m1 with band := b } = _
    unfold rx1Window rx1Seconds
    simp only [hop, hctx, htx]
  have e2 : rx2Window m2 = rx2Window m := by
    rw [← hm2]
    show rx2Window { m1 with band := b } = _
    unfold rx2Window rx1Seconds
    simp only [hop, hctx]
  have hr2 : RatesOk m2 := by
    rw [← hm2]
    constructor
    · show m1.tx.rate ∈ upRates m1.ctx.region
      rw [htx, hctx]; exact hr.up
    · show m1.ctx.rx1DROffset ≤ maxRx1Offset m1.ctx.region
      rw [hctx]; exact hr.offset
    · show m1.ctx.rx2DataRate ∈ upRates m1.ctx.region ++ downRates m1.ctx.region
      rw [hctx]; exact hr.rx2
  have w1 := windowRX1_spec cfg m2 (e.done - S) hr2 (by rw [e1]; exact h1) ht
  have w2 := windowRX2_spec cfg m2 (e.done - S) hr2 (by rw [e2]; exact h2) ht
  rw [e1] at w1
  rw [e2] at w2
  have hws : waitSeconds m2 = (rx1Window m).s := by
    rw [← e1]; rfl
  have hs2 : (rx2Window m).s = (rx1Window m).s + 1 := rfl
  have hwait : u32 (waitSeconds m2 * cfg.tps) = (rx1Window m).s * cfg.tps := by
    rw [hws]
    refine Nat.mod_eq_of_lt ?_
    have := h1.wait
    rw [show (2 : Nat) ^ 31 = 2147483648 from rfl] at this
    omega
  have hta : m2.timerA = m.timerA := congrArg WinView.timerA (hv2.trans hv)
  refine ⟨_, rfl, ?_, ?_⟩
  · rw [hq]
    have hvc : winView { txComplete cfg e (e.done - S) m2 with parked := p, timerBand := t } =
        { winView m2 with
          state := (armWindows cfg e (u32 (waitSeconds m2 * cfg.tps)) (windowRX1 cfg (e.done - S) m2).2
            (windowRX2 cfg (e.done - S) m2).2 m2.timerA).2.2
          timerA := (armWindows cfg e (u32 (waitSeconds m2 * cfg.tps)) (windowRX1 cfg (e.done - S) m2).2
            (windowRX2 cfg (e.done - S) m2).2 m2.timerA).1
          timerB := (armWindows cfg e (u32 (waitSeconds m2 * cfg.tps)) (windowRX1 cfg (e.done - S) m2).2
            (windowRX2 cfg (e.done - S) m2).2 m2.timerA).2.1
          rx1Symbols := (windowRX1 cfg (e.done - S) m2).1
          rx2Symbols := (windowRX2 cfg (e.done - S) m2).1 } := rfl
    rw [hvc, w1, w2, hwait, hta, hv2, hv]
  · have ho : (process cfg e m).out = m1.out ++ [.getStatus, .setMode .hold] := by
      rw [hq]
      show (m2.out ++ [.setMode .hold]) = _
      rw [← hm2]
      show m1.out ++ [.getStatus] ++ [.setMode .hold] = _
      simp
    unfold newEvents
    rw [ho]
    rcases hout with h | h <;> rw [h] <;> simp [listens]

/-- The end of a transmission sets the timers for both windows. -/
theorem tx_phase (cfg : Cfg) (m : Mac) (e : Env) (hs : m.state = .tx) (hi : m.inputState = true) (T S : Nat)
    (hT : m.inputTime = T % 2 ^ 32) (hle : T ≤ e.now) (hnr : e.now < T + 2 ^ 32) (hS : e.done = S + noticed T e.now)
    (hst : e.statusTx = true)
    (hr : RatesOk m) (h1 : (rx1Window m).Fits cfg (e.done - S)) (h2 : (rx2Window m).Fits cfg (e.done - S))
    (ht : 25 * cfg.tps < 2 ^ 32) : ∃ ta tb,
    winView (process cfg e m) = { winView m with
      state := .waitRX1, timerA := ta, timerB := tb, inputArmed := false, inputState := false
      rx1Symbols := (rx1Window m).symbols cfg, rx2Symbols := (rx2Window m).symbols cfg } ∧
    DueAt ta ((rx1Window m).wakes cfg S) ∧ DueAt tb ((rx2Window m).wakes cfg S) ∧
    listens (newEvents m (process cfg e m)) = [] := by
  obtain ⟨r, hr, hv, hl⟩ := tx_core cfg m e hs hi T S hT hle hnr hS hst hr h1.computes h2.computes ht
  have hs2 : (rx2Window m).s = (rx1Window m).s + 1 := rfl
  have a1 := h1.ahead
  have a2 := h2.ahead
  have b1 := h1.wait
  have b2 := h2.wait
  rw [show (2 : Nat) ^ 31 = 2147483648 from rfl] at b1 b2
  have hwait2 : u32 ((rx1Window m).s * cfg.tps + cfg.tps) = (rx2Window m).s * cfg.tps := by
    rw [hs2, Nat.add_mul, Nat.one_mul] at *
    exact Nat.mod_eq_of_lt (by omega)
  have harm : r =
      (Timer.set e ((rx1Window m).s * cfg.tps - (cfg.advance + (e.done - S) + startup cfg + (rx1Window m).margin cfg / 2)),
       Timer.set e ((rx2Window m).s * cfg.tps - (cfg.advance + (e.done - S) + startup cfg + (rx2Window m).margin cfg / 2)),
       .waitRX1) := by
    rw [hr]
    unfold armWindows
    rw [hwait2]
    rw [if_pos a2, if_pos a1]
  have hsub : ∀ x y, x + (e.done - S) + startup cfg + y ≤ (rx2Window m).s * cfg.tps →
      e.done + ((rx2Window m).s * cfg.tps - (x + (e.done - S) + startup cfg + y)) =
        S + (rx2Window m).s * cfg.tps - x - y - startup cfg := by
    intro x y h; omega
  have hsub1 : ∀ x y, x + (e.done - S) + startup cfg + y ≤ (rx1Window m).s * cfg.tps →
      e.done + ((rx1Window m).s * cfg.tps - (x + (e.done - S) + startup cfg + y)) =
        S + (rx1Window m).s * cfg.tps - x - y - startup cfg := by
    intro x y h; omega
  refine ⟨Timer.set e ((rx1Window m).s * cfg.tps -
      (cfg.advance + (e.done - S) + startup cfg + (rx1Window m).margin cfg / 2)),
    Timer.set e ((rx2Window m).s * cfg.tps -
      (cfg.advance + (e.done - S) + startup cfg + (rx2Window m).margin cfg / 2)), ?_, ?_, ?_, ?_⟩
  · rw [hv, harm]
  · have := c35_set e ((rx1Window m).s * cfg.tps - (cfg.advance + (e.done - S) + startup cfg + (rx1Window m).margin cfg / 2))
      (by rw [show (2 : Nat) ^ 31 = 2147483648 from rfl]; omega)
    rw [hsub1 _ _ a1] at this
    exact this
  · have := c35_set e ((rx2Window m).s * cfg.tps - (cfg.advance + (e.done - S) + startup cfg + (rx2Window m).margin cfg / 2))
      (by rw [show (2 : Nat) ^ 31 = 2147483648 from rfl]; omega)
    rw [hsub _ _ a2] at this
    exact this
  · exact hl

/-- The end of a transmission that is processed too late for the first window. -/
theorem tx_late (cfg : Cfg) (m : Mac) (e : Env) (hs : m.state = .tx) (hi : m.inputState = true) (T S : Nat)
    (hT : m.inputTime = T % 2 ^ 32) (hle : T ≤ e.now) (hnr : e.now < T + 2 ^ 32) (hS : e.done = S + noticed T e.now)
    (hst : e.statusTx = true)
    (hr : RatesOk m) (h1 : (rx1Window m).Computes cfg (e.done - S)) (h2 : (rx2Window m).Computes cfg (e.done - S))
    (ht : 25 * cfg.tps < 2 ^ 32) (hl1 : ¬ (rx1Window m).Ahead cfg (e.done - S)) : ∃ ta tb,
    winView (process cfg e m) = { winView m with
      state := .waitRX2, timerA := ta, timerB := tb, inputArmed := false, inputState := false
      rx1Symbols := (rx1Window m).symbols cfg, rx2Symbols := (rx2Window m).symbols cfg } ∧
    ta.armed = false ∧
    ((rx2Window m).Ahead cfg (e.done - S) → DueAt tb ((rx2Window m).wakes cfg S)) ∧
    (¬ (rx2Window m).Ahead cfg (e.done - S) → DueAt tb e.done) ∧
    listens (newEvents m (process cfg e m)) = [] := by
  obtain ⟨r, hr, hv, hl⟩ := tx_core cfg m e hs hi T S hT hle hnr hS hst hr h1 h2 ht
  have hs2 : (rx2Window m).s = (rx1Window m).s + 1 := rfl
  have b2 := h2.wait
  rw [show (2 : Nat) ^ 31 = 2147483648 from rfl] at b2
  have hwait2 : u32 ((rx1Window m).s * cfg.tps + cfg.tps) = (rx2Window m).s * cfg.tps := by
    rw [hs2, Nat.add_mul, Nat.one_mul] at *
    exact Nat.mod_eq_of_lt (by omega)
  unfold Window.Ahead at hl1 ⊢
  unfold armWindows at hr
  rw [hwait2] at hr
  by_cases a2 : cfg.advance + (e.done - S) + startup cfg + (rx2Window m).margin cfg / 2 ≤ (rx2Window m).s * cfg.tps
  · rw [if_pos a2, if_neg hl1] at hr
    refine ⟨m.timerA.clear, _, by rw [hv, hr], rfl, fun _ => ?_, fun h => absurd a2 h, hl⟩
    have := c35_set e ((rx2Window m).s * cfg.tps - (cfg.advance + (e.done - S) + startup cfg + (rx2Window m).margin cfg / 2))
      (by rw [show (2 : Nat) ^ 31 = 2147483648 from rfl]; omega)
    rw [show e.done + ((rx2Window m).s * cfg.tps - (cfg.advance + (e.done - S) + startup cfg + (rx2Window m).margin cfg / 2)) =
      (rx2Window m).wakes cfg S by unfold Window.wakes Window.opens; omega] at this
    exact this
  · rw [if_neg a2] at hr
    exact ⟨m.timerA.clear, _, by rw [hv, hr], rfl, fun h => absurd h a2, fun _ => c35_set e 0 (by decide), hl⟩

/-- The radio is started up for the first window. -/
theorem wait1_phase (cfg : Cfg) (m : Mac) (e : Env) (hs : m.state = .waitRX1) (hi : m.inputState = false) (due l : Nat)
    (hd : DueAt m.timerA due) (hn : due ≤ e.now) (hk : noticed due e.now = l) (hl : l ≤ 2 ^ 31 - 2)
    (ht : 25 * cfg.tps < 2 ^ 32) : ∃ ta,
    winView (process cfg e m) = { winView m with state := .startRadioForRX1, timerA := ta } ∧
    DueAt ta (due + (startup cfg - l)) ∧ listens (newEvents m (process cfg e m)) = [] := by
  have hst := startup_spec ht
  have hsm : startup cfg < 2 ^ 31 := startup_small ht
  have hc : m.timerA.check e = some l := by
    unfold Timer.check
    rw [hd.1, if_pos rfl, hd.2]
    have : timerDelta (due % 2 ^ 32) e.ticks = l := by
      have := noticed_bounds due e.now hn
      have := timerDelta_noticed due e.now hn (by omega)
      exact this.trans hk
    rw [this, INT32_MAX_eq]
    rw [if_pos (by omega)]
  obtain ⟨m1, p, t, hq, hv, hout⟩ := process_timerA cfg m e hi l hc
  have hs1 : m1.state = .waitRX1 := (congrArg WinView.state hv).trans hs
  have hta : m1.timerA = m.timerA.clear := congrArg WinView.timerA hv
  have hdis : dispatch cfg e .timerA l m1 =
      { m1 with state := .startRadioForRX1, timerA := m1.timerA.append (startup cfg - l), out := m1.out ++ [.setMode .rx] } := by
    unfold dispatch
    rw [hs1]
    unfold processWait
    simp only [true_or, if_true, hs1, hst]
    rw [show (if l > startup cfg then 0 else startup cfg - l) = startup cfg - l by split <;> omega]
    rfl
  rw [hdis] at hq
  refine ⟨m1.timerA.append (startup cfg - l), ?_, ?_, ?_⟩
  · rw [hq]
    have : winView { m1 with state := .startRadioForRX1, timerA := m1.timerA.append (startup cfg - l), out := m1.out ++ [.setMode .rx], parked := p, timerBand := t } = { winView m1 with state := .startRadioForRX1, timerA := m1.timerA.append (startup cfg - l) } := rfl
    rw [this, hv]
  · rw [hta]
    have := c35_append m.timerA.clear due (startup cfg - l) hd.2 (by omega)
    exact this
  · have ho : (process cfg e m).out = m1.out ++ [.setMode .rx] := by rw [hq]
    unfold newEvents
    rw [ho]
    rcases hout with h | h <;> rw [h] <;> simp [listens]

/-- What the radio is told for the first window. -/
def listenRX1 (m : Mac) : Listen :=
  { freq := rx1Freq m.ctx.region m.tx.freq m.tx.chIndex
    sf := (rx1Window m).sf, bw := (rx1Window m).bw, symbols := m.rx1Symbols }

/-- What the radio is told for the second window. -/
def listenRX2 (m : Mac) : Listen :=
  { freq := m.ctx.rx2Freq, sf := (rx2Window m).sf, bw := (rx2Window m).bw, symbols := m.rx2Symbols }

/-- The first window is opened. -/
theorem start1_phase (cfg : Cfg) (m : Mac) (e : Env) (hs : m.state = .startRadioForRX1) (hi : m.inputState = false)
    (due : Nat) (hd : DueAt m.timerA due) (hn : due ≤ e.now) (hl : e.now - due ≤ 2 ^ 31 - 2) (h4 : 4 * (cfg.tps + cfg.a) < 2 ^ 31)
    (hr : m.tx.rate ∈ upRates m.ctx.region) (ho : m.ctx.rx1DROffset ≤ maxRx1Offset m.ctx.region) : ∃ ta,
    winView (process cfg e m) = { winView m with state := .rx1, timerA := ta, inputArmed := true } ∧
    DueAt ta (e.done + 4 * (cfg.tps + cfg.a)) ∧
    listens (newEvents m (process cfg e m)) = [(e.done, listenRX1 m)] := by
  obtain ⟨lag, hc, _⟩ := c35_expires m.timerA due hd e hn hl
  obtain ⟨m1, p, t, hq, hv, hout⟩ := process_timerA cfg m e hi lag hc
  have hs1 : m1.state = .startRadioForRX1 := (congrArg WinView.state hv).trans hs
  have hdis : dispatch cfg e .timerA lag m1 =
      { m1 with
        inputState := false, inputArmed := true, out := m1.out ++ [receive1Event e m1], state := .rx1
        timerA := Timer.set e (u32 ((cfg.tps + cfg.a) <<< 2)) } := by
    unfold dispatch
    rw [hs1]
    rfl
  rw [hdis] at hq
  have hev : receive1Event e m1 = receive1Event e m := by
    unfold receive1Event
    rw [show m1.ctx.region = m.ctx.region from congrArg WinView.region hv, show m1.tx = m.tx from congrArg WinView.tx hv,
      show m1.ctx.rx1DROffset = m.ctx.rx1DROffset from congrArg WinView.rx1DROffset hv,
      show m1.rx1Symbols = m.rx1Symbols from congrArg WinView.rx1Symbols hv]
  refine ⟨Timer.set e (u32 ((cfg.tps + cfg.a) <<< 2)), ?_, ?_, ?_⟩
  · rw [hq]
    have : winView { m1 with
        inputState := false, inputArmed := true, out := m1.out ++ [receive1Event e m1], state := .rx1
        timerA := Timer.set e (u32 ((cfg.tps + cfg.a) <<< 2)), parked := p, timerBand := t } =
      { winView m1 with
        inputState := false, inputArmed := true, state := .rx1
        timerA := Timer.set e (u32 ((cfg.tps + cfg.a) <<< 2)) } := rfl
    rw [this, hv]
    unfold winView
    simp only [hi]
  · have : u32 ((cfg.tps + cfg.a) <<< 2) = 4 * (cfg.tps + cfg.a) := by
      rw [Nat.shiftLeft_eq, Nat.mul_comm]
      refine Nat.mod_eq_of_lt ?_
      rw [show (2 : Nat) ^ 31 = 2147483648 from rfl] at h4
      omega
    rw [this]
    exact c35_set e _ h4
  · have hou : (process cfg e m).out = m1.out ++ [receive1Event e m] := by rw [hq, hev]
    have hcv := convertRate_spec m.ctx.region (rx1Rate m.ctx.region m.tx.rate m.ctx.rx1DROffset)
      (List.mem_append.2 (Or.inr (rx1Rate_mem _ _ _ hr ho)))
    have hli : listens [receive1Event e m] = [(e.done, listenRX1 m)] := by
      simp only [listens, receive1Event, List.filterMap_cons, List.filterMap_nil]
      rw [c39_rx1_rate_partial _ _ _ hr ho, hcv.1, hcv.2.1, rx1Freq_spec]
      rfl
    unfold newEvents
    rw [hou]
    rcases hout with h | h <;> rw [h]
    · rw [List.drop_left, hli]
    · rw [List.append_assoc, List.drop_left, listens_append, hli]; rfl

/-- A first window without a downlink. -/
theorem rx1_phase (cfg : Cfg) (m : Mac) (e : Env) (hs : m.state = .rx1) (hi : m.inputState = true)
    (hr : e.statusRx = false) (ht : e.statusTimeout = true) :
    winView (process cfg e m) = { winView m with
      state := .waitRX2, timerA := m.timerA.clear, inputArmed := false, inputState := false } ∧
    listens (newEvents m (process cfg e m)) = [] := by
  obtain ⟨m1, p, t, hq, hv, hctx, hout⟩ := process_interrupt cfg m e hi
  have hs1 : m1.state = .rx1 := (congrArg WinView.state hv).trans hs
  have hdis : dispatch cfg e .interrupt (timerDelta m.inputTime e.ticks) m1 =
      { m1 with
        timerA := m1.timerA.clear, state := .waitRX2, out := m1.out ++ [.getStatus, .setMode .hold] } := by
    unfold dispatch
    rw [hs1]
    unfold processRX rxTimeout
    simp [hr, ht, Mac.emit, hs1]
  rw [hdis] at hq
  refine ⟨?_, ?_⟩
  · rw [hq]
    have : winView { m1 with
        timerA := m1.timerA.clear, state := .waitRX2, out := m1.out ++ [.getStatus, .setMode .hold]
        parked := p, timerBand := t } = { winView m1 with timerA := m1.timerA.clear, state := .waitRX2 } := rfl
    rw [this, hv, show m1.timerA = m.timerA from congrArg WinView.timerA hv]
  · have ho : (process cfg e m).out = m1.out ++ [.getStatus, .setMode .hold] := by rw [hq]
    unfold newEvents
    rw [ho]
    rcases hout with h | h <;> rw [h] <;> simp [listens]

/-- The radio is started up for the second window. -/
theorem wait2_phase (cfg : Cfg) (m : Mac) (e : Env) (hs : m.state = .waitRX2) (hi : m.inputState = false)
    (hA : m.timerA.check e = none) (due l : Nat)
    (hd : DueAt m.timerB due) (hn : due ≤ e.now) (hk : noticed due e.now = l) (hl : l ≤ 2 ^ 31 - 2)
    (ht : 25 * cfg.tps < 2 ^ 32) : ∃ tb,
    winView (process cfg e m) = { winView m with state := .startRadioForRX2, timerB := tb } ∧
    DueAt tb (due + (startup cfg - l)) ∧ listens (newEvents m (process cfg e m)) = [] := by
  have hst := startup_spec ht
  have hsm : startup cfg < 2 ^ 31 := startup_small ht
  have hc : m.timerB.check e = some l := by
    unfold Timer.check
    rw [hd.1, if_pos rfl, hd.2]
    have : timerDelta (due % 2 ^ 32) e.ticks = l := by
      have := noticed_bounds due e.now hn
      have := timerDelta_noticed due e.now hn (by omega)
      exact this.trans hk
    rw [this, INT32_MAX_eq]
    rw [if_pos (by omega)]
  obtain ⟨m1, p, t, hq, hv, hout⟩ := process_timerB cfg m e hi l hA hc
  have hs1 : m1.state = .waitRX2 := (congrArg WinView.state hv).trans hs
  have hta : m1.timerB = m.timerB.clear := congrArg WinView.timerB hv
  have hdis : dispatch cfg e .timerB l m1 =
      { m1 with state := .startRadioForRX2, timerB := m1.timerB.append (startup cfg - l), out := m1.out ++ [.setMode .rx] } := by
    unfold dispatch
    rw [hs1]
    unfold processWait
    simp only [or_true, if_true, hs1, hst]
    rw [show (if l > startup cfg then 0 else startup cfg - l) = startup cfg - l by split <;> omega]
    rfl
  rw [hdis] at hq
  refine ⟨m1.timerB.append (startup cfg - l), ?_, ?_, ?_⟩
  · rw [hq]
    have : winView { m1 with state := .startRadioForRX2, timerB := m1.timerB.append (startup cfg - l), out := m1.out ++ [.setMode .rx], parked := p, timerBand := t } = { winView m1 with state := .startRadioForRX2, timerB := m1.timerB.append (startup cfg - l) } := rfl
    rw [this, hv]
  · rw [hta]
    have := c35_append m.timerB.clear due (startup cfg - l) hd.2 (by omega)
    exact this
  · have ho : (process cfg e m).out = m1.out ++ [.setMode .rx] := by rw [hq]
    unfold newEvents
    rw [ho]
    rcases hout with h | h <;> rw [h] <;> simp [listens]

/-- The second window is opened. -/
theorem start2_phase (cfg : Cfg) (m : Mac) (e : Env) (hs : m.state = .startRadioForRX2) (hi : m.inputState = false)
    (hA : m.timerA.check e = none) (due : Nat) (hd : DueAt m.timerB due) (hn : due ≤ e.now)
    (hl : e.now - due ≤ 2 ^ 31 - 2) (hr : m.ctx.rx2DataRate ∈ upRates m.ctx.region ++ downRates m.ctx.region) :
    listens (newEvents m (process cfg e m)) = [(e.done, listenRX2 m)] := by
  obtain ⟨lag, hc, _⟩ := c35_expires m.timerB due hd e hn hl
  obtain ⟨m1, p, t, hq, hv, hout⟩ := process_timerB cfg m e hi lag hA hc
  have hs1 : m1.state = .startRadioForRX2 := (congrArg WinView.state hv).trans hs
  have hdis : dispatch cfg e .timerB lag m1 =
      { m1 with
        inputState := false, inputArmed := true, out := m1.out ++ [receive2Event e m1], state := .rx2
        timerA := Timer.set e (u32 ((cfg.tps + cfg.a) * 4)) } := by
    unfold dispatch
    rw [hs1]
    rfl
  rw [hdis] at hq
  have hev : receive2Event e m1 = receive2Event e m := by
    unfold receive2Event
    rw [show m1.ctx.region = m.ctx.region from congrArg WinView.region hv,
      show m1.ctx.rx2DataRate = m.ctx.rx2DataRate from congrArg WinView.rx2DataRate hv,
      show m1.ctx.rx2Freq = m.ctx.rx2Freq from congrArg WinView.rx2Freq hv,
      show m1.rx2Symbols = m.rx2Symbols from congrArg WinView.rx2Symbols hv]
  have hou : (process cfg e m).out = m1.out ++ [receive2Event e m] := by rw [hq, hev]
  have hcv := convertRate_spec m.ctx.region m.ctx.rx2DataRate hr
  have hli : listens [receive2Event e m] = [(e.done, listenRX2 m)] := by
    simp only [listens, receive2Event, List.filterMap_cons, List.filterMap_nil]
    rw [hcv.1, hcv.2.1]
    rfl
  unfold newEvents
  rw [hou]
  rcases hout with h | h <;> rw [h]
  · rw [List.drop_left, hli]
  · rw [List.append_assoc, List.drop_left, listens_append, hli]; rfl

theorem run_append (cfg : Cfg) (m : Mac) (a b : List (Env × Call)) : run cfg m (a ++ b) = run cfg (run cfg m a) b := by
  induction a generalizing m with
  | nil => rfl
  | cons x rest ih => exact ih (step cfg m x.1 x.2).1

theorem listens_run (cfg : Cfg) (m : Mac) (a b : List (Env × Call)) :
    listens (newEvents m (run cfg m (a ++ b))) =
      listens (newEvents m (run cfg m a)) ++ listens (newEvents (run cfg m a) (run cfg (run cfg m a) b)) := by
  rw [run_append]
  exact listens_trans (run_grows cfg m a) (run_grows cfg _ b)

/-- Quiet until `due` if the other timer is not due earlier. -/
theorem quiet_until (cfg : Cfg) (m : Mac) (calls : List (Env × Call)) (hs : m.state ∈ windowStates) (ho : m.op ≠ .none)
    (hi : m.inputState = false) (a b dA dB : Nat) (hA : DueAt m.timerA dA ∨ m.timerA.armed = false) (hB : DueAt m.timerB dB)
    (hbA : m.timerA.armed = true → b ≤ dA) (hbB : b ≤ dB) (hdA : m.timerA.armed = true → dA < a + 2 ^ 31)
    (hdB : dB < a + 2 ^ 31) (hc : Between a b calls) :
    winView (run cfg m calls) = winView m ∧ listens (newEvents m (run cfg m calls)) = [] := by
  refine quiet_run cfg m calls hs ho hi fun x hx => ?_
  obtain ⟨h1, h2, h3⟩ := hc x hx
  refine ⟨h1, ?_, c35_not_early _ dB hB x.1 (by omega) (by omega)⟩
  rcases hA with h | h
  · have := hbA h.1
    have := hdA h.1
    exact c35_not_early _ dA h x.1 (by omega) (by omega)
  · unfold Timer.check
    rw [h, if_neg (by simp)]

theorem rx1_opens {cfg : Cfg} {m : Mac} (hr : RatesOk m) (ho : m.op ≠ .none) {T S : Nat} {e0 : Env}
    {calls1 : List (Env × Call)} {e1 : Env} {l : Nat} {calls2 : List (Env × Call)} {e2 : Env}
    (h : Schedule1 cfg m T S e0 calls1 e1 l calls2 e2) : ∃ ta tb,
    winView (run cfg m (schedule1 e0 calls1 e1 calls2 e2)) = { winView m with
      state := .rx1, timerA := ta, timerB := tb, inputArmed := true, inputState := false
      rx1Symbols := (rx1Window m).symbols cfg, rx2Symbols := (rx2Window m).symbols cfg } ∧
    DueAt ta (e2.done + 4 * (cfg.tps + cfg.a)) ∧ DueAt tb ((rx2Window m).wakes cfg S) ∧
    listens (newEvents m (run cfg m (schedule1 e0 calls1 e1 calls2 e2))) = [(e2.done, rx1Listen cfg m)] := by
  obtain ⟨ta, tb, hv0, hA0, hB0, hl0⟩ := tx_phase cfg m e0 h.ended.state h.ended.reported T S h.ended.time h.after h.near
    h.seen h.done hr h.fits1 h.fits2 h.tps
  have f1 := h.fits1.ahead
  have f2 := h.fits2.ahead
  have g1 := h.fits1.wait
  have g2 := h.fits2.wait
  have haf : S ≤ e0.done := by
    have := h.seen
    omega
  have hsm : startup cfg < 2 ^ 31 := startup_small h.tps
  have hord := h.order
  have hwk := h.wake
  have hlg := h.lag
  have o1 : (rx1Window m).opens cfg S = S + (rx1Window m).s * cfg.tps - cfg.advance - (rx1Window m).margin cfg / 2 := rfl
  have o2 : (rx1Window m).wakes cfg S = (rx1Window m).opens cfg S - startup cfg := rfl
  have o3 : (rx2Window m).wakes cfg S =
    S + (rx2Window m).s * cfg.tps - cfg.advance - (rx2Window m).margin cfg / 2 - startup cfg := rfl
  have hsched : run cfg m (schedule1 e0 calls1 e1 calls2 e2) =
      run cfg m ([(e0, .process)] ++ (calls1 ++ ([(e1, .process)] ++ (calls2 ++ [(e2, .process)])))) := by
    unfold schedule1
    simp
  rw [hsched]
  clear hsched
  -- end of the transmission
  rw [listens_run, run_append cfg m]
  generalize hm1 : run cfg m [(e0, .process)] = m1
  have hm1' : m1 = process cfg e0 m := hm1.symm
  rw [← hm1'] at hv0 hl0
  rw [hl0, List.nil_append]
  -- until the radio is started up
  obtain ⟨hv1, hl1⟩ := quiet_until cfg m1 calls1
    (by rw [show m1.state = .waitRX1 from congrArg WinView.state hv0]; simp [windowStates])
    (by rw [show m1.op = m.op from congrArg WinView.op hv0]; exact ho)
    (congrArg WinView.inputState hv0) e0.done _ _ _
    (Or.inl (by rw [show m1.timerA = ta from congrArg WinView.timerA hv0]; exact hA0))
    (by rw [show m1.timerB = tb from congrArg WinView.timerB hv0]; exact hB0)
    (fun _ => Nat.le_refl _) (by omega) (fun _ => by omega) (by omega) h.quiet1
  rw [listens_run, run_append cfg m1]
  rw [hl1, List.nil_append]
  generalize run cfg m1 calls1 = m2 at *
  rw [hv0] at hv1
  -- start-up of the radio
  obtain ⟨ta2, hv2, hA2, hl2⟩ := wait1_phase cfg m2 e1 (congrArg WinView.state hv1) (congrArg WinView.inputState hv1)
    ((rx1Window m).wakes cfg S) l (by rw [show m2.timerA = ta from congrArg WinView.timerA hv1]; exact hA0) h.wake
    h.late h.lag h.tps
  rw [listens_run, run_append cfg m2]
  generalize hm3 : run cfg m2 [(e1, .process)] = m3
  have hm3' : m3 = process cfg e1 m2 := hm3.symm
  rw [← hm3'] at hv2 hl2
  rw [hl2, List.nil_append]
  rw [hv1] at hv2
  -- until the window
  obtain ⟨hv3, hl3⟩ := quiet_until cfg m3 calls2
    (by rw [show m3.state = .startRadioForRX1 from congrArg WinView.state hv2]; simp [windowStates])
    (by rw [show m3.op = m.op from congrArg WinView.op hv2]; exact ho)
    (congrArg WinView.inputState hv2) e1.now _ _ _
    (Or.inl (by rw [show m3.timerA = ta2 from congrArg WinView.timerA hv2]; exact hA2))
    (by rw [show m3.timerB = tb from congrArg WinView.timerB hv2]; exact hB0)
    (fun _ => Nat.le_refl _) (by omega) (fun _ => by omega) (by omega) h.quiet2
  rw [listens_run, run_append cfg m3]
  rw [hl3, List.nil_append]
  generalize run cfg m3 calls2 = m4 at *
  rw [hv2] at hv3
  -- the window
  have hreg : m4.ctx.region = m.ctx.region := congrArg WinView.region hv3
  have htx : m4.tx = m.tx := congrArg WinView.tx hv3
  have hoff : m4.ctx.rx1DROffset = m.ctx.rx1DROffset := congrArg WinView.rx1DROffset hv3
  obtain ⟨ta4, hv4, hA4, hl4⟩ := start1_phase cfg m4 e2 (congrArg WinView.state hv3) (congrArg WinView.inputState hv3)
    ((rx1Window m).wakes cfg S + (startup cfg - l)) (by rw [show m4.timerA = ta2 from congrArg WinView.timerA hv3]; exact hA2)
    h.opened h.soon h.guard (by rw [htx, hreg]; exact hr.up) (by rw [hoff, hreg]; exact hr.offset)
  have hm5 : run cfg m4 [(e2, .process)] = process cfg e2 m4 := rfl
  rw [hm5, hl4]
  refine ⟨ta4, tb, ?_, hA4, hB0, ?_⟩
  · rw [hv4, hv3]
  · have : listenRX1 m4 = rx1Listen cfg m := by
      unfold listenRX1 rx1Listen rx1Window
      rw [hreg, htx, hoff, show m4.rx1Symbols = (rx1Window m).symbols cfg from congrArg WinView.rx1Symbols hv3]
      rfl
    rw [this]

theorem armed_clear (tm : Timer) (e : Env) (h : tm.armed = false) : tm.check e = none := by
  unfold Timer.check
  rw [h, if_neg (by simp)]

/-- The second window from the wait for it: the radio is to be started up at `due`. -/
theorem rx2_waited {cfg : Cfg} {m0 m3 : Mac} (hr : RatesOk m0) (ho : m0.op ≠ .none) {ta tb : Timer}
    (hv3 : winView m3 = { winView m0 with
      state := .waitRX2, timerA := ta, timerB := tb, inputArmed := false, inputState := false
      rx1Symbols := (rx1Window m0).symbols cfg, rx2Symbols := (rx2Window m0).symbols cfg })
    (hA : ta.armed = false) {due : Nat} (hB : DueAt tb due) (ht : 25 * cfg.tps < 2 ^ 32) {a : Nat}
    (hnear : due < a + 2 ^ 31)
    {calls4 : List (Env × Call)} {e5 : Env} {l : Nat} {calls5 : List (Env × Call)} {e6 : Env}
    (hq4 : Between a due calls4) (hwake : due ≤ e5.now) (hlate : noticed due e5.now = l)
    (hlag : l ≤ 2 ^ 31 - 2) (hq5 : Between e5.now (due + (startup cfg - l)) calls5)
    (hop : due + (startup cfg - l) ≤ e6.now) (hsoon : e6.now - (due + (startup cfg - l)) ≤ 2 ^ 31 - 2) :
    listens (newEvents m3 (run cfg m3 (calls4 ++ ([(e5, .process)] ++ (calls5 ++ [(e6, .process)]))))) =
      [(e6.done, rx2Listen cfg m0)] := by
  have hsm : startup cfg < 2 ^ 31 := startup_small ht
  have hA3 : m3.timerA.armed = false := by
    rw [show m3.timerA = ta from congrArg WinView.timerA hv3]; exact hA
  -- until the radio is started up
  obtain ⟨hv4, hl4⟩ := quiet_until cfg m3 calls4
    (by rw [show m3.state = .waitRX2 from congrArg WinView.state hv3]; simp [windowStates])
    (by rw [show m3.op = m0.op from congrArg WinView.op hv3]; exact ho)
    (congrArg WinView.inputState hv3) a _ 0 _ (Or.inr hA3)
    (by rw [show m3.timerB = tb from congrArg WinView.timerB hv3]; exact hB)
    (fun hc => by rw [hA3] at hc; cases hc) (Nat.le_refl _) (fun hc => by rw [hA3] at hc; cases hc) (by omega) hq4
  rw [listens_run, hl4, List.nil_append]
  generalize run cfg m3 calls4 = m4 at *
  rw [hv3] at hv4
  clear hv3 hl4 hA3
  have hA4 : m4.timerA.armed = false := by
    rw [show m4.timerA = ta from congrArg WinView.timerA hv4]; exact hA
  -- start-up of the radio
  obtain ⟨tb5, hv5, hB5, hl5⟩ := wait2_phase cfg m4 e5 (congrArg WinView.state hv4) (congrArg WinView.inputState hv4)
    (armed_clear _ _ hA4) due l
    (by rw [show m4.timerB = tb from congrArg WinView.timerB hv4]; exact hB) hwake hlate hlag ht
  rw [listens_run]
  have hm5 : run cfg m4 [(e5, .process)] = process cfg e5 m4 := rfl
  rw [hm5, hl5, List.nil_append]
  generalize process cfg e5 m4 = m5 at *
  rw [hv4] at hv5
  clear hv4 hl5 hm5 hA4
  have hA5 : m5.timerA.armed = false := by
    rw [show m5.timerA = ta from congrArg WinView.timerA hv5]; exact hA
  -- until the window
  obtain ⟨hv6, hl6⟩ := quiet_until cfg m5 calls5
    (by rw [show m5.state = .startRadioForRX2 from congrArg WinView.state hv5]; simp [windowStates])
    (by rw [show m5.op = m0.op from congrArg WinView.op hv5]; exact ho)
    (congrArg WinView.inputState hv5) e5.now _ 0 _ (Or.inr hA5)
    (by rw [show m5.timerB = tb5 from congrArg WinView.timerB hv5]; exact hB5)
    (fun hc => by rw [hA5] at hc; cases hc) (Nat.le_refl _) (fun hc => by rw [hA5] at hc; cases hc) (by omega) hq5
  rw [listens_run, hl6, List.nil_append]
  generalize run cfg m5 calls5 = m6 at *
  rw [hv5] at hv6
  clear hv5 hl6 hA5
  have hA6 : m6.timerA.armed = false := by
    rw [show m6.timerA = ta from congrArg WinView.timerA hv6]; exact hA
  -- the window
  have hreg : m6.ctx.region = m0.ctx.region := congrArg WinView.region hv6
  have hrate : m6.ctx.rx2DataRate = m0.ctx.rx2DataRate := congrArg WinView.rx2DataRate hv6
  have hfr : m6.ctx.rx2Freq = m0.ctx.rx2Freq := congrArg WinView.rx2Freq hv6
  have hl7 := start2_phase cfg m6 e6 (congrArg WinView.state hv6) (congrArg WinView.inputState hv6)
    (armed_clear _ _ hA6) (due + (startup cfg - l))
    (by rw [show m6.timerB = tb5 from congrArg WinView.timerB hv6]; exact hB5) hop hsoon
    (by rw [hrate, hreg]; exact hr.rx2)
  have hm7 : run cfg m6 [(e6, .process)] = process cfg e6 m6 := rfl
  rw [hm7, hl7]
  have : listenRX2 m6 = rx2Listen cfg m0 := by
    unfold listenRX2 rx2Listen rx2Window
    rw [hreg, hrate, hfr, show m6.rx2Symbols = (rx2Window m0).symbols cfg from congrArg WinView.rx2Symbols hv6]
    rfl
  rw [this]

theorem rx2_opens {cfg : Cfg} {m0 m : Mac} (hr : RatesOk m0) (ho : m0.op ≠ .none) {S : Nat} {ta tb : Timer}
    (hv : winView m = { winView m0 with
      state := .rx1, timerA := ta, timerB := tb, inputArmed := true, inputState := false
      rx1Symbols := (rx1Window m0).symbols cfg, rx2Symbols := (rx2Window m0).symbols cfg })
    {e2 : Env} (hA : DueAt ta (e2.done + 4 * (cfg.tps + cfg.a))) (hB : DueAt tb ((rx2Window m0).wakes cfg S)) (hT : S ≤ e2.done)
    {x : Nat} (hf : (rx2Window m0).Fits cfg x) (h4 : 4 * (cfg.tps + cfg.a) < 2 ^ 31) (ht : 25 * cfg.tps < 2 ^ 32)
    {calls3 : List (Env × Call)} {e3 : Env} {t3 : Nat} {e4 : Env}
    {calls4 : List (Env × Call)} {e5 : Env} {l : Nat} {calls5 : List (Env × Call)} {e6 : Env}
    (h : Schedule2 cfg m0 S e2 calls3 e4 calls4 e5 l calls5 e6) :
    listens (newEvents m (run cfg m (schedule2 calls3 e3 t3 e4 calls4 e5 calls5 e6))) = [(e6.done, rx2Listen cfg m0)] := by
  have f2 := hf.ahead
  have g2 := hf.wait
  have hwk := h.wake
  have hlg := h.lag
  have hlt := h.later
  have o1 : (rx2Window m0).opens cfg S =
    S + (rx2Window m0).s * cfg.tps - cfg.advance - (rx2Window m0).margin cfg / 2 := rfl
  have o2 : (rx2Window m0).wakes cfg S = (rx2Window m0).opens cfg S - startup cfg := rfl
  have hsched : run cfg m (schedule2 calls3 e3 t3 e4 calls4 e5 calls5 e6) =
      run cfg m (calls3 ++ ([(e3, .radioEvent t3)] ++ ([(e4, .process)] ++ (calls4 ++ ([(e5, .process)] ++
        (calls5 ++ [(e6, .process)])))))) := by
    unfold schedule2
    simp
  rw [hsched]
  clear hsched
  -- listening
  obtain ⟨hv1, hl1⟩ := quiet_until cfg m calls3
    (by rw [show m.state = .rx1 from congrArg WinView.state hv]; simp [windowStates])
    (by rw [show m.op = m0.op from congrArg WinView.op hv]; exact ho)
    (congrArg WinView.inputState hv) e2.done _ _ _
    (Or.inl (by rw [show m.timerA = ta from congrArg WinView.timerA hv]; exact hA))
    (by rw [show m.timerB = tb from congrArg WinView.timerB hv]; exact hB)
    (fun _ => Nat.min_le_right _ _) (Nat.min_le_left _ _) (fun _ => by omega) (by omega) h.quiet3
  rw [listens_run, hl1, List.nil_append]
  generalize run cfg m calls3 = m1 at *
  rw [hv] at hv1
  clear hv hl1
  -- the radio reports the end of the window
  have hs1 : m1.state = .rx1 := congrArg WinView.state hv1
  have hstep : run cfg m1 [(e3, .radioEvent t3)] = { m1 with inputTime := t3, inputState := true } := by
    show inputSignal m1 t3 = _
    unfold inputSignal
    rw [show m1.inputArmed = true from congrArg WinView.inputArmed hv1,
      show m1.inputState = false from congrArg WinView.inputState hv1]
    rfl
  have hl2 : listens (newEvents m1 (run cfg m1 [(e3, .radioEvent t3)])) = [] :=
    call_listens cfg m1 e3 (.radioEvent t3) (by simp)
  rw [listens_run, hl2, List.nil_append, hstep]
  have hv2 : winView { m1 with inputTime := t3, inputState := true } = { winView m1 with inputState := true } := rfl
  generalize ({ m1 with inputTime := t3, inputState := true } : Mac) = m2 at *
  rw [hv1] at hv2
  clear hv1 hl2 hstep
  obtain ⟨hv3, hl3⟩ := rx1_phase cfg m2 e4 (congrArg WinView.state hv2) (congrArg WinView.inputState hv2)
    h.nothing.1 h.nothing.2
  rw [listens_run]
  have hm3 : run cfg m2 [(e4, .process)] = process cfg e4 m2 := rfl
  rw [hm3, hl3, List.nil_append]
  generalize process cfg e4 m2 = m3 at *
  rw [hv2, show m2.timerA = ta from congrArg WinView.timerA hv2] at hv3
  clear hv2 hl3 hm3
  exact rx2_waited hr ho hv3 rfl hB ht (by omega) h.quiet4 h.wake h.late h.lag h.quiet5 h.opened h.soon

/-! ## C37 -/

theorem sending_op {cfg : Cfg} {m : Mac} (hr : Reachable cfg m) (hs : m.state = .tx) : m.op ≠ .none := by
  intro h
  have := hr.reach.opOk
  unfold OpOk at this
  rw [hs, h] at this
  exact absurd this (by decide)

/-- **C37**: the first window.  The transmission ended at `T` (at `S` as the device takes it: later by the time the call of
`process` that notices the end takes until it sets the timers, and by a tick if the clock wraps before that call, see
`c37_on_time`); that was processed at any time `e0.now` after it.  Whatever calls are made meanwhile, no window is
opened before its time less the ticks `l` by which the start-up of the radio was processed late (and not earlier than the
start-up was due), and it is opened by the first call of `process` from then on, with the radio set as specified.
For `l = 0` this is the property: the window opens at `S` + delay - advance - half the margin (`c37_on_time`). -/
theorem c37_rx1_partial {cfg : Cfg} {m : Mac} (hr : Reachable cfg m) (hrate : RatesOk m) {T S : Nat} {e0 : Env}
    {calls1 : List (Env × Call)} {e1 : Env} {l : Nat} {calls2 : List (Env × Call)} {e2 : Env}
    (h : Schedule1 cfg m T S e0 calls1 e1 l calls2 e2) :
    listens (newEvents m (run cfg m (schedule1 e0 calls1 e1 calls2 e2))) = [(e2.done, rx1Listen cfg m)] := by
  obtain ⟨_, _, _, _, _, hl⟩ := rx1_opens hrate (sending_op hr h.ended.state) h
  exact hl

/-- **C37**: the times of the schedules.  The device takes the transmission to have ended when it did, but later by the
time the call that processes the end takes until it sets the timers, and by a tick if the clock has wrapped between the end
and that call; and a window whose start-up is processed on time is opened from its time on. -/
theorem c37_on_time {cfg : Cfg} {w : Window} {T S lag : Nat} {e : Env} (hT : T ≤ e.now) (hS : e.done = S + noticed T e.now)
    (hf : w.Fits cfg lag) : (T / 2 ^ 32 = e.now / 2 ^ 32 → S = T + e.took) ∧ (S = T + e.took ∨ S = T + e.took + 1) ∧
    w.wakes cfg S + (startup cfg - 0) = S + w.s * cfg.tps - cfg.advance - w.margin cfg / 2 := by
  have ha := hf.ahead
  have hd : e.done = e.now + e.took := rfl
  unfold noticed at hS
  refine ⟨fun h => ?_, ?_, ?_⟩
  · rw [if_pos h] at hS; omega
  · split at hS <;> omega
  · unfold Window.wakes Window.opens; omega

/-- **C37**: both windows, when nothing is received in the first. -/
theorem c37_rx2_partial {cfg : Cfg} {m : Mac} (hr : Reachable cfg m) (hrate : RatesOk m) {T S : Nat} {e0 : Env}
    {calls1 : List (Env × Call)} {e1 : Env} {l : Nat} {calls2 : List (Env × Call)} {e2 : Env}
    (h : Schedule1 cfg m T S e0 calls1 e1 l calls2 e2) {calls3 : List (Env × Call)} {e3 : Env} {t3 : Nat} {e4 : Env}
    {calls4 : List (Env × Call)} {e5 : Env} {l2 : Nat} {calls5 : List (Env × Call)} {e6 : Env}
    (h2 : Schedule2 cfg m S e2 calls3 e4 calls4 e5 l2 calls5 e6) :
    listens (newEvents m (run cfg m (schedule1 e0 calls1 e1 calls2 e2 ++ schedule2 calls3 e3 t3 e4 calls4 e5 calls5 e6))) =
      [(e2.done, rx1Listen cfg m), (e6.done, rx2Listen cfg m)] := by
  obtain ⟨ta, tb, hv, hA, hB, hl⟩ := rx1_opens hrate (sending_op hr h.ended.state) h
  rw [listens_run, hl]
  have hT : S ≤ e2.done := by
    have := e2.now_le_done
    have o1 : (rx1Window m).opens cfg S = S + (rx1Window m).s * cfg.tps - cfg.advance - (rx1Window m).margin cfg / 2 := rfl
    have f1 := h.fits1.ahead
    have := h.opened
    have := h.seen
    have o2 : (rx1Window m).wakes cfg S = (rx1Window m).opens cfg S - startup cfg := rfl
    omega
  rw [rx2_opens hrate (sending_op hr h.ended.state) hv hA hB hT h.fits2 h.guard h.tps h2]
  rfl

theorem late_opens {cfg : Cfg} {m : Mac} (hr : Reachable cfg m) (hrate : RatesOk m) {T S due : Nat} {e0 : Env}
    {calls4 : List (Env × Call)} {e5 : Env} {l : Nat} {calls5 : List (Env × Call)} {e6 : Env}
    (h : ScheduleLate cfg m T S due e0 calls4 e5 l calls5 e6)
    (hdue : ((rx2Window m).Ahead cfg (e0.done - S) ∧ due = (rx2Window m).wakes cfg S) ∨
      (¬ (rx2Window m).Ahead cfg (e0.done - S) ∧ due = e0.done)) :
    listens (newEvents m (run cfg m (scheduleLate e0 calls4 e5 calls5 e6))) = [(e6.done, rx2Listen cfg m)] := by
  obtain ⟨ta, tb, hv, hA, hB1, hB2, hl⟩ := tx_late cfg m e0 h.ended.state h.ended.reported T S h.ended.time h.after h.near
    h.seen h.done hrate h.computes1 h.computes2 h.tps h.late1
  have hw2 := h.computes2.wait
  have haf : S ≤ e0.done := by
    have := h.seen
    omega
  have hsched : run cfg m (scheduleLate e0 calls4 e5 calls5 e6) =
      run cfg m ([(e0, .process)] ++ (calls4 ++ ([(e5, .process)] ++ (calls5 ++ [(e6, .process)])))) := by
    unfold scheduleLate
    simp
  rw [hsched, listens_run]
  have hm1 : run cfg m [(e0, .process)] = process cfg e0 m := rfl
  rw [hm1, hl, List.nil_append]
  have hB : DueAt tb due ∧ due < e0.done + 2 ^ 31 := by
    rcases hdue with ⟨h1, rfl⟩ | ⟨h1, rfl⟩
    · refine ⟨hB1 h1, ?_⟩
      unfold Window.wakes Window.opens
      omega
    · exact ⟨hB2 h1, by omega⟩
  exact rx2_waited hrate (sending_op hr h.ended.state) hv hA hB.1 h.tps hB.2 h.quiet4 h.wake h.late h.lag h.quiet5
    h.opened h.soon

/-- **C37**: a device that processes the end of a transmission too late for the start-up of its radio for the first window
opens only the second, at the same time as else: by the first call of `process` from its time on (less the `l` ticks by
which the start-up of the radio was processed late). -/
theorem c37_direct_partial {cfg : Cfg} {m : Mac} (hr : Reachable cfg m) (hrate : RatesOk m) {T S : Nat} {e0 : Env}
    {calls4 : List (Env × Call)} {e5 : Env} {l : Nat} {calls5 : List (Env × Call)} {e6 : Env}
    (h : ScheduleLate cfg m T S ((rx2Window m).wakes cfg S) e0 calls4 e5 l calls5 e6)
    (h2 : (rx2Window m).Ahead cfg (e0.done - S)) :
    listens (newEvents m (run cfg m (scheduleLate e0 calls4 e5 calls5 e6))) = [(e6.done, rx2Listen cfg m)] :=
  late_opens hr hrate h (Or.inl ⟨h2, rfl⟩)

/-- **C37**: a device that processes the end of a transmission too late for both windows starts up its radio at once and
opens the second, with the radio set as specified but at a time that is late by as much as the processing was. -/
theorem c37_missed_partial {cfg : Cfg} {m : Mac} (hr : Reachable cfg m) (hrate : RatesOk m) {T S : Nat} {e0 : Env}
    {calls4 : List (Env × Call)} {e5 : Env} {l : Nat} {calls5 : List (Env × Call)} {e6 : Env}
    (h : ScheduleLate cfg m T S e0.done e0 calls4 e5 l calls5 e6) (h2 : ¬ (rx2Window m).Ahead cfg (e0.done - S)) :
    listens (newEvents m (run cfg m (scheduleLate e0 calls4 e5 calls5 e6))) = [(e6.done, rx2Listen cfg m)] :=
  late_opens hr hrate h (Or.inr ⟨h2, rfl⟩)

/-- A radio that begins to listen `advance` ticks after it was told to at `t`, with setting `w`, hears five symbols of
every downlink that begins within half of `error` of `ideal`. -/
def Hears (cfg : Cfg) (t : Nat) (w : Listen) (ideal error : Nat) : Prop :=
  ∀ x, ideal ≤ x + error / 2 → x ≤ ideal + error / 2 →
    t + cfg.advance ≤ x ∧ (x - (t + cfg.advance)) * w.bw + 5 * (2 ^ w.sf * cfg.tps) ≤ w.symbols * (2 ^ w.sf * cfg.tps)

theorem hears_window {cfg : Cfg} {w : Window} {lag T : Nat} (h : w.Fits cfg lag) (f : Nat) :
    Hears cfg (w.opens cfg T) { freq := f, sf := w.sf, bw := w.bw, symbols := w.symbols cfg } (T + w.s * cfg.tps)
      (clockError cfg w.s) := by
  intro x h1 h2
  have ha := h.ahead
  have ho : w.opens cfg T + cfg.advance = T + w.s * cfg.tps - w.margin cfg / 2 := by
    unfold Window.opens
    omega
  rw [ho]
  exact c38_covers cfg w h.symbol _ x (by omega) h1 h2

/-- **C38**: the windows of a device that is processed on time hear every downlink within the clock error, five symbols
at least. -/
theorem c38_windows {cfg : Cfg} {m : Mac} (hr : Reachable cfg m) (hrate : RatesOk m) {T : Nat} {e0 : Env}
    {calls1 : List (Env × Call)} {e1 : Env} {calls2 : List (Env × Call)} {e2 : Env}
    (h : Schedule1 cfg m T T e0 calls1 e1 0 calls2 e2) (hn : e2.done = (rx1Window m).opens cfg T)
    {calls3 : List (Env × Call)} {e3 : Env} {t3 : Nat} {e4 : Env}
    {calls4 : List (Env × Call)} {e5 : Env} {calls5 : List (Env × Call)} {e6 : Env}
    (h2 : Schedule2 cfg m T e2 calls3 e4 calls4 e5 0 calls5 e6) (hn2 : e6.done = (rx2Window m).opens cfg T) : ∃ w1 w2,
    listens (newEvents m (run cfg m (schedule1 e0 calls1 e1 calls2 e2 ++ schedule2 calls3 e3 t3 e4 calls4 e5 calls5 e6))) =
      [(e2.done, w1), (e6.done, w2)] ∧
    Hears cfg e2.done w1 (T + rx1Seconds m * cfg.tps) (clockError cfg (rx1Seconds m)) ∧ 8 ≤ w1.symbols ∧
    Hears cfg e6.done w2 (T + (rx1Seconds m + 1) * cfg.tps) (clockError cfg (rx1Seconds m + 1)) ∧ 8 ≤ w2.symbols := by
  refine ⟨_, _, c37_rx2_partial hr hrate h h2, ?_, (c38_three cfg _).2, ?_, (c38_three cfg _).2⟩
  · rw [hn]
    exact hears_window h.fits1 _
  · rw [hn2]
    exact hears_window h.fits2 _

/-! ## Concrete cases for C37 -/

namespace WindowDemo

/-- A transmission at data rate 5 that ended at time 120000. -/
def ended : Mac := run Demo.cfg Demo.joined ([(Demo.at_ 25000, .setRate 5), Demo.send false 30000] ++
  Demo.processAt [30000, 60000] ++ [(Demo.at_ 120000, .radioEvent 120000)])

theorem ended_reachable : Reachable Demo.cfg ended := Demo.run_reach Demo.joined_reachable _ (by decide +kernel)

theorem ended_rates : RatesOk ended := by constructor <;> decide +kernel

/-- Calls around the window: the end of the transmission is processed 300 ticks late. -/
def calls1 : List (Env × Call) := [(Demo.at_ 120400, .process), (Demo.at_ 130000, .setADR true), (Demo.at_ 1000000, .process)]
def calls2 (t : Nat) : List (Env × Call) := [(Demo.at_ (t + 100), .process)]

theorem opens_rx1 : (rx1Window ended).opens Demo.cfg 120000 = 1118464 ∧ (rx1Window ended).wakes Demo.cfg 120000 = 1093464 ∧
    (rx1Window ended).symbols Demo.cfg = 8 := by decide +kernel

theorem opens_rx2 : (rx2Window ended).opens Demo.cfg 120000 = 2070848 ∧ (rx2Window ended).wakes Demo.cfg 120000 = 2045848 := by
  decide +kernel

theorem alone_process : LeavesAlone .process := ⟨by simp, by simp, by simp⟩
theorem alone_setADR (b : Bool) : LeavesAlone (.setADR b) := ⟨by simp, by simp, by simp⟩

/-- The start-up is processed `l` ticks late and the window opened when it is due. -/
theorem schedule (l : Nat) (hl : 2 * l + 200 ≤ 25000) : Schedule1 Demo.cfg ended 120000 120000
    { now := 120300, statusTx := true } calls1 (Demo.at_ (1093464 + l)) l (calls2 (1093464 + l))
    (Demo.at_ (1118464 - l)) := by
  obtain ⟨h1, h2, _⟩ := opens_rx1
  have hst : startup Demo.cfg = 25000 := by decide +kernel
  constructor
  case ended => constructor <;> decide +kernel
  case fits1 => constructor <;> decide +kernel
  case fits2 => constructor <;> decide +kernel
  case quiet1 =>
    rw [h2]
    intro x hx
    simp only [calls1, List.mem_cons, List.not_mem_nil, or_false] at hx
    rcases hx with rfl | rfl | rfl
    · exact ⟨alone_process, by decide, by decide⟩
    · exact ⟨alone_setADR _, by decide, by decide⟩
    · exact ⟨alone_process, by decide, by decide⟩
  case wake => rw [h2]; exact Nat.le_add_right _ _
  case late =>
    rw [h2]
    show (if 1093464 / 4294967296 = (1093464 + l) / 4294967296 then 1093464 + l - 1093464 else 1093464 + l - 1093464 - 1) = l
    split <;> omega
  case lag => omega
  case quiet2 =>
    rw [h2, hst]
    intro x hx
    simp only [calls2, List.mem_cons, List.not_mem_nil, or_false] at hx
    subst hx
    refine ⟨alone_process, ?_, ?_⟩
    · show 1093464 + l ≤ 1093464 + l + 100; omega
    · show 1093464 + l + 100 < 1093464 + (25000 - l); omega
  case opened => rw [h2, hst]; show 1093464 + (25000 - l) ≤ 1118464 - l; omega
  case soon => rw [h2, hst]; show 1118464 - l - (1093464 + (25000 - l)) ≤ _; omega
  all_goals decide +kernel

/-- The hypotheses of `c37_rx1_partial` are met, without delay and with delays: the window is opened too early by as many
ticks as the start-up of the radio was processed late. -/
theorem opened (l : Nat) (hl : 2 * l + 200 ≤ 25000) :
    listens (newEvents ended (run Demo.cfg ended (schedule1 { now := 120300, statusTx := true } calls1
      (Demo.at_ (1093464 + l)) (calls2 (1093464 + l)) (Demo.at_ (1118464 - l))))) =
      [((rx1Window ended).opens Demo.cfg 120000 - l, rx1Listen Demo.cfg ended)] := by
  rw [c37_rx1_partial ended_reachable ended_rates (schedule l hl), opens_rx1.1]
  rfl

theorem schedule_rx2 : Schedule2 Demo.cfg ended 120000 (Demo.at_ 1118464) [(Demo.at_ 1120000, .process)]
    { now := 1130000, statusTimeout := true } [(Demo.at_ 1140000, .process)] (Demo.at_ 2045848) 0
    [(Demo.at_ 2050000, .process)] (Demo.at_ 2070848) := by
  obtain ⟨h1, h2⟩ := opens_rx2
  have hst : startup Demo.cfg = 25000 := by decide +kernel
  constructor
  case quiet3 =>
    rw [h2]
    intro x hx
    simp only [List.mem_cons, List.not_mem_nil, or_false] at hx
    subst hx
    exact ⟨alone_process, by decide, by decide +kernel⟩
  case quiet4 =>
    rw [h2]
    intro x hx
    simp only [List.mem_cons, List.not_mem_nil, or_false] at hx
    subst hx
    exact ⟨alone_process, by decide, by decide⟩
  case wake => rw [h2]; exact Nat.le_refl _
  case late => rw [h2]; decide +kernel
  case quiet5 =>
    rw [h2, hst]
    intro x hx
    simp only [List.mem_cons, List.not_mem_nil, or_false] at hx
    subst hx
    exact ⟨alone_process, by decide, by decide⟩
  case opened => rw [h2, hst]; decide
  case soon => rw [h2, hst]; decide
  all_goals decide +kernel

/-- The hypotheses of `c37_rx2_partial` are met. -/
theorem opened_rx2 : listens (newEvents ended (run Demo.cfg ended (
    schedule1 { now := 120300, statusTx := true } calls1 (Demo.at_ 1093464) (calls2 1093464) (Demo.at_ 1118464) ++
    schedule2 [(Demo.at_ 1120000, .process)] (Demo.at_ 1129000) 1129000 { now := 1130000, statusTimeout := true }
      [(Demo.at_ 1140000, .process)] (Demo.at_ 2045848) [(Demo.at_ 2050000, .process)] (Demo.at_ 2070848)))) =
    [((rx1Window ended).opens Demo.cfg 120000, rx1Listen Demo.cfg ended),
     ((rx2Window ended).opens Demo.cfg 120000, rx2Listen Demo.cfg ended)] := by
  rw [c37_rx2_partial ended_reachable ended_rates (schedule 0 (by decide)) schedule_rx2, opens_rx1.1, opens_rx2.1]
  rfl

/-- The end of the transmission is processed 1.2 s late: the second window is opened when it is due. -/
theorem late_schedule : ScheduleLate Demo.cfg ended 120000 120000 ((rx2Window ended).wakes Demo.cfg 120000)
    { now := 1320000, statusTx := true } [(Demo.at_ 1400000, .process)] (Demo.at_ 2045848) 0
    [(Demo.at_ 2050000, .process)] (Demo.at_ 2070848) := by
  obtain ⟨h1, h2⟩ := opens_rx2
  have hst : startup Demo.cfg = 25000 := by decide +kernel
  rw [h2]
  constructor
  case ended => constructor <;> decide +kernel
  case computes1 => constructor <;> decide +kernel
  case computes2 => constructor <;> decide +kernel
  case late1 => unfold Window.Ahead; decide +kernel
  case quiet4 =>
    intro x hx
    simp only [List.mem_cons, List.not_mem_nil, or_false] at hx
    subst hx
    exact ⟨alone_process, by decide, by decide⟩
  case quiet5 =>
    intro x hx
    simp only [List.mem_cons, List.not_mem_nil, or_false] at hx
    subst hx
    exact ⟨alone_process, by decide, by rw [hst]; decide⟩
  all_goals decide +kernel

/-- The hypotheses of `c37_direct_partial` are met. -/
theorem opened_direct : listens (newEvents ended (run Demo.cfg ended (scheduleLate { now := 1320000, statusTx := true }
    [(Demo.at_ 1400000, .process)] (Demo.at_ 2045848) [(Demo.at_ 2050000, .process)] (Demo.at_ 2070848)))) =
    [((rx2Window ended).opens Demo.cfg 120000, rx2Listen Demo.cfg ended)] := by
  rw [c37_direct_partial ended_reachable ended_rates late_schedule (by unfold Window.Ahead; decide +kernel), opens_rx2.1]
  rfl

/-- The end of the transmission is processed 3 s late. -/
theorem missed_schedule : ScheduleLate Demo.cfg ended 120000 120000 3120000
    { now := 3120000, statusTx := true } [] (Demo.at_ 3120000) 0 [(Demo.at_ 3130000, .process)] (Demo.at_ 3145000) := by
  have hst : startup Demo.cfg = 25000 := by decide +kernel
  constructor
  case ended => constructor <;> decide +kernel
  case computes1 => constructor <;> decide +kernel
  case computes2 => constructor <;> decide +kernel
  case late1 => unfold Window.Ahead; decide +kernel
  case quiet4 => intro x hx; cases hx
  case quiet5 =>
    intro x hx
    simp only [List.mem_cons, List.not_mem_nil, or_false] at hx
    subst hx
    exact ⟨alone_process, by decide, by rw [hst]; decide⟩
  all_goals decide +kernel

/-- The hypotheses of `c37_missed_partial` are met: the window is opened a second after its time. -/
theorem opened_missed : listens (newEvents ended (run Demo.cfg ended (scheduleLate { now := 3120000, statusTx := true }
    [] (Demo.at_ 3120000) [(Demo.at_ 3130000, .process)] (Demo.at_ 3145000)))) =
    [((rx2Window ended).opens Demo.cfg 120000 + 1074152, rx2Listen Demo.cfg ended)] := by
  rw [c37_missed_partial ended_reachable ended_rates missed_schedule (by unfold Window.Ahead; decide +kernel), opens_rx2.1]
  rfl

/-- A transmission that ended 100 ticks before the clock wraps. -/
def endedWrap : Mac := run Demo.cfg Demo.joined ([(Demo.at_ 25000, .setRate 5), Demo.send false 4294877196] ++
  Demo.processAt [4294877196, 4294907196] ++ [(Demo.at_ 4294967196, .radioEvent 4294967196)])

theorem endedWrap_reachable : Reachable Demo.cfg endedWrap :=
  Demo.run_reach Demo.joined_reachable _ (by decide +kernel)

theorem endedWrap_rates : RatesOk endedWrap := by constructor <;> decide +kernel

theorem wakes_wrap : (rx1Window endedWrap).wakes Demo.cfg 4294967197 = 4295940661 := by decide +kernel

/-- The end is processed after the clock has wrapped: the device takes it to have been a tick later. -/
theorem wrap_schedule : Schedule1 Demo.cfg endedWrap 4294967196 4294967197 { now := 4294967596, statusTx := true }
    [] (Demo.at_ 4295940661) 0 [] (Demo.at_ 4295965661) := by
  have h2 := wakes_wrap
  have hst : startup Demo.cfg = 25000 := by decide +kernel
  constructor
  case ended => constructor <;> decide +kernel
  case fits1 => constructor <;> decide +kernel
  case fits2 => constructor <;> decide +kernel
  case quiet1 => intro x hx; cases hx
  case quiet2 => intro x hx; cases hx
  all_goals decide +kernel

theorem opened_wrap : listens (newEvents endedWrap (run Demo.cfg endedWrap (schedule1 { now := 4294967596, statusTx := true }
    [] (Demo.at_ 4295940661) [] (Demo.at_ 4295965661)))) =
    [((rx1Window endedWrap).opens Demo.cfg 4294967196 + 1, rx1Listen Demo.cfg endedWrap)] := by
  rw [c37_rx1_partial endedWrap_reachable endedWrap_rates wrap_schedule,
    show (rx1Window endedWrap).opens Demo.cfg 4294967196 = 4295965660 by decide +kernel]
  rfl

/-- The call that processes the end of the transmission takes 12 ms until it sets the timers. -/
theorem slow_schedule : Schedule1 Demo.cfg ended 120000 132000 { now := 120300, took := 12000, statusTx := true }
    [(Demo.at_ 140000, .process)] (Demo.at_ 1105464) 0 [] (Demo.at_ 1130464) := by
  have h2 : (rx1Window ended).wakes Demo.cfg 132000 = 1105464 := by decide +kernel
  have hst : startup Demo.cfg = 25000 := by decide +kernel
  constructor
  case ended => constructor <;> decide +kernel
  case fits1 => constructor <;> decide +kernel
  case fits2 => constructor <;> decide +kernel
  case quiet1 =>
    rw [h2]
    intro x hx
    simp only [List.mem_cons, List.not_mem_nil, or_false] at hx
    subst hx
    exact ⟨alone_process, by decide, by decide⟩
  case quiet2 => intro x hx; cases hx
  all_goals decide +kernel

theorem opened_slow : listens (newEvents ended (run Demo.cfg ended (schedule1
    { now := 120300, took := 12000, statusTx := true } [(Demo.at_ 140000, .process)] (Demo.at_ 1105464) []
    (Demo.at_ 1130464)))) = [((rx1Window ended).opens Demo.cfg 120000 + 12000, rx1Listen Demo.cfg ended)] := by
  rw [c37_rx1_partial ended_reachable ended_rates slow_schedule, opens_rx1.1]
  rfl

end WindowDemo

/-- The hypotheses of `c38_windows` are met. -/
example := c38_windows (e3 := Demo.at_ 1129000) (t3 := 1129000) WindowDemo.ended_reachable WindowDemo.ended_rates
  (WindowDemo.schedule 0 (by decide)) WindowDemo.opens_rx1.1.symm WindowDemo.schedule_rx2 WindowDemo.opens_rx2.1.symm

/-- A tick rate so low that a symbol has no whole tick: the computation divides by zero. -/
theorem c38_symbol_zero : symbolPeriod 1000 7 .b500 = 0 := by decide

/-- **C37** does not hold when the start-up of the radio is processed late: here, 10 ms late, the window is opened 10 ms
early, and with its 8 symbols is over before the downlink is due (a second after the end of the transmission). -/
theorem c37_late_startup : ∃ (t : Nat) (w : Listen),
    listens (newEvents WindowDemo.ended (run Demo.cfg WindowDemo.ended (schedule1 { now := 120300, statusTx := true }
      WindowDemo.calls1 (Demo.at_ (1093464 + 10000)) (WindowDemo.calls2 (1093464 + 10000)) (Demo.at_ 1108464)))) = [(t, w)] ∧
    t + w.symbols * symbolTicks Demo.cfg.tps w.sf w.bw < 120000 + 1 * Demo.cfg.tps := by
  refine ⟨_, _, WindowDemo.opened 10000 (by decide), ?_⟩
  decide +kernel

/-- **C37** does not hold when the call that processes the end of the transmission takes long: here it takes 12 ms from the
time it looks at the clock first to the time it sets the timers, and the window is opened 12 ms late, when the eight symbols
of preamble of a downlink that is on time are over. -/
theorem c37_slow_processing : ∃ (t : Nat) (w : Listen),
    listens (newEvents WindowDemo.ended (run Demo.cfg WindowDemo.ended (schedule1
      { now := 120300, took := 12000, statusTx := true } [(Demo.at_ 140000, .process)] (Demo.at_ 1105464) []
      (Demo.at_ 1130464)))) = [(t, w)] ∧
    120000 + 1 * Demo.cfg.tps + 8 * symbolTicks Demo.cfg.tps w.sf w.bw < t := by
  refine ⟨_, _, WindowDemo.opened_slow, ?_⟩
  decide +kernel

end LDL
