import Verif.Lemmas.Mac
import Verif.Spec.Regional

/-!
# C39, C41, C57: regional tables and settings
-/

namespace LDL
open LDL.Region

/-- Decide the conditions of nested `if`s over numbers, from the outside in. -/
local macro "ifs" : tactic =>
  `(tactic| (simp only []; repeat (first | rw [if_pos (by omega)] | rw [if_neg (by omega)])))

/-! ## C39 -/

/-- **C39**: the RX1 data rate is that of the regional parameters, for every uplink rate and legal offset. -/
theorem c39_rx1_rate_partial (r : Region) (dr off : Nat) (hdr : dr ∈ Spec.upRates r)
    (hoff : off ≤ Spec.maxRx1Offset r) : getRX1DataRate r dr off = Spec.rx1Rate r dr off := by
  have key : ∀ r : Region, ∀ dr ∈ Spec.upRates r, ∀ off ∈ List.range (Spec.maxRx1Offset r + 1),
      getRX1DataRate r dr off = Spec.rx1Rate r dr off := by
    intro r; cases r <;> decide +kernel
  exact key r dr hdr off (List.mem_range.2 (by omega))

theorem rx1Rate_mem (r : Region) (dr off : Nat) (hdr : dr ∈ Spec.upRates r)
    (hoff : off ≤ Spec.maxRx1Offset r) : Spec.rx1Rate r dr off ∈ Spec.downRates r := by
  have key : ∀ r : Region, ∀ dr ∈ Spec.upRates r, ∀ off ∈ List.range (Spec.maxRx1Offset r + 1),
      Spec.rx1Rate r dr off ∈ Spec.downRates r := by
    intro r; cases r <;> decide +kernel
  exact key r dr hdr off (List.mem_range.2 (by omega))

/-- Data rates mean the spreading factor, bandwidth and payload limit of the regional parameters. -/
theorem convertRate_spec (r : Region) (dr : Nat) (h : dr ∈ Spec.upRates r ++ Spec.downRates r) :
    (convertRate r dr).sf = Spec.sfOf r dr ∧ bwToNumber (convertRate r dr).bw = Spec.bwOf r dr ∧
    (convertRate r dr).mtu = Spec.maxPayload r dr := by
  have key : ∀ r : Region, ∀ dr ∈ Spec.upRates r ++ Spec.downRates r,
      (convertRate r dr).sf = Spec.sfOf r dr ∧ bwToNumber (convertRate r dr).bw = Spec.bwOf r dr ∧
      (convertRate r dr).mtu = Spec.maxPayload r dr := by
    intro r; cases r <;> decide +kernel
  exact key r dr h

theorem rx1Freq_spec (r : Region) (f ch : Nat) : getRX1Freq r f ch = Spec.rx1Freq r f ch := by
  cases r <;> simp only [getRX1Freq, Spec.rx1Freq, Nat.mul_comm]

/-- **C39**: when the first receive window is opened, the radio is set to the frequency, spreading factor and
bandwidth of the regional parameters. -/
theorem c39_rx1_window_partial (cfg : Cfg) (e : Env) (m : Mac) (hs : m.state = .startRadioForRX1)
    (hdr : m.tx.rate ∈ Spec.upRates m.ctx.region)
    (hoff : m.ctx.rx1DROffset ≤ Spec.maxRx1Offset m.ctx.region)
    (t : Nat) (s : RxSetting) (h : Event.receive t s ∈ newEvents m (process cfg e m)) :
    s.freq = Spec.rx1Freq m.ctx.region m.tx.freq m.tx.chIndex ∧
    s.sf = Spec.sfOf m.ctx.region (Spec.rx1Rate m.ctx.region m.tx.rate m.ctx.rx1DROffset) ∧
    bwToNumber s.bw = Spec.bwOf m.ctx.region (Spec.rx1Rate m.ctx.region m.tx.rate m.ctx.rx1DROffset) := by
  obtain ⟨ev, lag, m1, hp, hq⟩ := process_cases cfg e m
  obtain ⟨p, tb, hb⟩ := setNextBandEvent_shape cfg e (if ev = .none then m1 else dispatch cfg e ev lag m1)
  rw [hq, hb] at h
  have hout := hp.out
  obtain ⟨tt, tr, d, b, ia, is, ta, tb, o, h1⟩ := hp.eq
  have hst : m1.state = .startRadioForRX1 := by rw [h1]; exact hs
  have hr := convertRate_spec m.ctx.region (Spec.rx1Rate m.ctx.region m.tx.rate m.ctx.rx1DROffset)
    (List.mem_append.2 (Or.inr (rx1Rate_mem _ _ _ hdr hoff)))
  have hrate := c39_rx1_rate_partial _ _ _ hdr hoff
  have hctx : m1.ctx = m.ctx := by rw [h1]
  have htx : m1.tx = m.tx := by rw [h1]
  have noRecv : ∀ ev : Event, ev ∈ m1.out.drop m.out.length → ev = Event.channelReady := by
    rcases hout with ho | ho <;> rw [ho] <;> simp
  simp only [newEvents] at h
  by_cases hn : ev = .none
  · rw [if_pos hn] at h; exact absurd (noRecv _ h) (by simp)
  · rw [if_neg hn] at h
    simp only [dispatch, hst, processStartRadioForRX1] at h
    by_cases ha : ev = .timerA
    · rw [if_pos ha] at h
      simp only [inputArm, Mac.emit, hctx, htx, hrate] at h
      have hlen : m.out.length ≤ m1.out.length := by
        rcases hout with ho | ho <;> rw [ho] <;> simp
      rw [List.drop_append_of_le_length hlen] at h
      rcases List.mem_append.1 h with h | h
      · exact absurd (noRecv _ h) (by simp)
      · simp only [List.mem_singleton, Event.receive.injEq] at h
        obtain ⟨_, rfl⟩ := h
        exact ⟨rx1Freq_spec _ _ _, hr.1, hr.2.1⟩
    · rw [if_neg ha] at h; exact absurd (noRecv _ h) (by simp)

/-- An RX1 window of an EU868 device after an uplink at DR3 with offset 2: opened at DR1. -/
example : (process { E := fun _ b => b } { now := 5 }
    { state := .startRadioForRX1, ctx := { region := .eu868, rx1DROffset := 2 },
      tx := { rate := 3, freq := 868100000 }, timerA := { time := 5, armed := true } }).out.length = 1 ∧
    3 ∈ Spec.upRates .eu868 ∧ 2 ≤ Spec.maxRx1Offset .eu868 := by decide

/-- C39 does not hold for all offsets a network can set: offset 6 (reserved) is stored and acknowledged as
acceptable, and the window after an uplink at DR0 is then opened at DR1, faster than the uplink. -/
theorem c39_reserved_offset_wrong :
    let m := processCommands { E := fun _ b => b } {} { ctx := { region := .eu868 } } [5, 0x60, 0xd2, 0xad, 0x84]
    m.ctx.rx1DROffset = 6 ∧ m.ctx.rxParamSetupAns = ⟨true, true, true⟩ ∧
    getRX1DataRate .eu868 0 m.ctx.rx1DROffset = 1 ∧ Spec.rx1Rate .eu868 0 m.ctx.rx1DROffset = 0 := by
  decide +kernel

/-! ## C41 -/

theorem rateSettingIsValid_iff (r : Region) (rate : Nat) :
    rateSettingIsValid r rate = true ↔ rate ∈ Spec.upRates r := by
  unfold rateSettingIsValid
  rw [List.any_eq_true]
  simp only [List.mem_range, validateRate]
  constructor
  · rintro ⟨i, hi, h⟩
    have hr : ∃ p, upRateRange r i = some p ∧ p.1 ≤ rate ∧ rate ≤ p.2 := by
      revert h; cases upRateRange r i <;> simp
    obtain ⟨p, hp, h1, h2⟩ := hr
    have hup : ∀ r : Region, ∀ i < 72, ∀ p, upRateRange r i = some p → p.2 ≤ (Spec.upRates r).length - 1 := by
      intro r i _ p hp
      cases r <;> simp only [upRateRange] at hp <;> split at hp <;> (try split at hp) <;>
        (try cases hp) <;> decide
    have hi72 : i < 72 := by have : numChannels r ≤ 72 := by cases r <;> decide
                             omega
    have := hup r i hi72 p hp
    cases r <;> simp only [Spec.upRates, List.length_cons, List.length_nil] at this <;>
      simp only [Spec.upRates, List.mem_cons, List.not_mem_nil] <;> omega
  · intro h
    have key : ∀ r : Region, ∀ rate ∈ Spec.upRates r, ∃ i, i < numChannels r ∧
        (match upRateRange r i with
          | some (min, max) => decide (rate ≥ min ∧ rate ≤ max)
          | none => false) = true := by
      intro r; cases r <;> decide +kernel
    exact key r rate h

/-- **C41**: a rate is accepted exactly when it is an uplink rate of the region; it then becomes the rate of
the session and is reported, otherwise nothing changes. -/
theorem c41_set_rate (cfg : Cfg) (m : Mac) (e : Env) (rate : Nat) :
    (rate ∈ Spec.upRates m.ctx.region → step cfg m e (.setRate rate) =
      ({ m with
          ctx := { m.ctx with rate := rate }
          out := m.out ++ [.sessionUpdated { m.ctx with rate := rate }] }, .ok)) ∧
    (rate ∉ Spec.upRates m.ctx.region → step cfg m e (.setRate rate) = (m, .rate)) := by
  rw [← rateSettingIsValid_iff]
  constructor <;> intro h <;> simp only [step, setRate]
  · rw [if_pos h]; rfl
  · rw [if_neg h]

/-- **C41**: the same for the power setting. -/
theorem c41_set_power (cfg : Cfg) (m : Mac) (e : Env) (power : Nat) :
    (power ≤ Spec.maxPowerIndex m.ctx.region → step cfg m e (.setPower power) =
      ({ m with
          ctx := { m.ctx with power := power }
          out := m.out ++ [.sessionUpdated { m.ctx with power := power }] }, .ok)) ∧
    (Spec.maxPowerIndex m.ctx.region < power → step cfg m e (.setPower power) = (m, .power)) := by
  have hv : m.ctx.region.validateTXPower power = true ↔ power ≤ Spec.maxPowerIndex m.ctx.region := by
    cases m.ctx.region <;> simp [validateTXPower, Spec.maxPowerIndex]
  constructor <;> intro h <;> simp only [step, setPower]
  · rw [if_pos (hv.2 h)]; rfl
  · rw [if_neg (fun x => by have := hv.1 x; omega)]

/-- **C41**: the getters return what was set. -/
theorem c41_getters (cfg : Cfg) (m : Mac) (e : Env) (v : Nat) :
    ((step cfg m e (.setRate v)).2 = .ok → getRate (step cfg m e (.setRate v)).1 = v) ∧
    ((step cfg m e (.setPower v)).2 = .ok → getPower (step cfg m e (.setPower v)).1 = v) := by
  constructor
  · intro h
    by_cases hv : v ∈ Spec.upRates m.ctx.region
    · rw [(c41_set_rate cfg m e v).1 hv]; rfl
    · rw [(c41_set_rate cfg m e v).2 hv] at h; exact absurd h (by simp)
  · intro h
    by_cases hv : v ≤ Spec.maxPowerIndex m.ctx.region
    · rw [(c41_set_power cfg m e v).1 hv]; rfl
    · rw [(c41_set_power cfg m e v).2 (by omega)] at h; exact absurd h (by simp)

/-- DR6 is accepted in Australia (500 kHz channels) and refused in Europe. -/
example : 6 ∈ Spec.upRates .au915 ∧ 6 ∉ Spec.upRates .eu868 := by decide

/-! ## C57 -/

/-- The frequencies of EU868 that are accepted for a channel but lie between the sub-bands. -/
def EuGap (f : Nat) : Prop :=
  (868600000 < f ∧ f < 868700000) ∨ (869200000 < f ∧ f < 869400000) ∨ (869650000 < f ∧ f < 869700000)

/-- **C57**: outside the gaps of EU868, a frequency accepted for a channel has a band, the band number is that of
a counter other than the aggregate one, and its off-time factor is the one the regulations give for that
frequency. -/
theorem c57_band_partial (r : Region) (f : Nat) (h : validateFreq r f = true) (hg : r = .eu868 → ¬ EuGap f) :
    ∃ b, getBand r f = some b ∧ b < GLOBAL ∧ Spec.offTimeFactor r f = some (getOffTimeFactor r b) := by
  cases r with
  | eu868 =>
    have hg := hg rfl
    simp only [validateFreq, decide_eq_true_eq] at h
    simp only [EuGap] at hg
    have h0 : f ≤ 868000000 ∨ (868000000 < f ∧ f ≤ 868600000) ∨ (868700000 ≤ f ∧ f ≤ 869200000) ∨
        (869400000 ≤ f ∧ f ≤ 869650000) ∨ 869700000 ≤ f := by omega
    rcases h0 with h0 | h0 | h0 | h0 | h0
    · exact ⟨0, by unfold getBand; ifs, by decide, by unfold Spec.offTimeFactor; ifs; rfl⟩
    · exact ⟨1, by unfold getBand; ifs, by decide, by unfold Spec.offTimeFactor; ifs; rfl⟩
    · exact ⟨2, by unfold getBand; ifs, by decide, by unfold Spec.offTimeFactor; ifs; rfl⟩
    · exact ⟨3, by unfold getBand; ifs, by decide, by unfold Spec.offTimeFactor; ifs; rfl⟩
    · exact ⟨4, by unfold getBand; ifs, by decide, by unfold Spec.offTimeFactor; ifs; rfl⟩
  | us915 => exact ⟨0, rfl, by decide, rfl⟩
  | au915 => exact ⟨0, rfl, by decide, rfl⟩
  | eu433 => exact ⟨0, rfl, by decide, rfl⟩

/-- **C57**: an accepted frequency lies in the allocation of the region. -/
theorem c57_legal (r : Region) (f : Nat) (h : validateFreq r f = true) :
    (Spec.freqRange r).1 ≤ f ∧ f ≤ (Spec.freqRange r).2 := by
  cases r <;> simp only [validateFreq, decide_eq_true_eq] at h <;> simp only [Spec.freqRange] <;> omega

/-- C57 is false in the gaps: 868.65 MHz is accepted for a channel and has no band, so the channel is never
available, whatever the limit on off-time. -/
theorem c57_gap_wrong : validateFreq .eu868 868650000 = true ∧
    ∀ (m : Mac) (ch limit : Nat), m.ctx.region = .eu868 →
      isAvailable { m with ctx := (setChannel m.ctx ch 868650000 0 5).2 } ch limit = true →
      16 ≤ ch := by
  refine ⟨by decide, ?_⟩
  intro m ch limit hr h
  rcases Nat.lt_or_ge ch 16 with hc | hc
  · exfalso
    have hf : validateFreq .eu868 868650000 = true := by decide
    unfold setChannel at h
    rw [if_pos (by rw [hr]; exact ⟨hc, hc⟩), if_neg (by decide), if_pos (by rw [hr]; exact hf)] at h
    simp only [isAvailable] at h
    split at h
    · next b hb =>
      simp only [usableBand, getChannel, hr, isDynamic, numChannels, upd] at hb
      split at hb
      · simp at hb
      · rw [if_pos trivial, if_pos ⟨hc, hc⟩] at hb
        simp only [if_true] at hb
        have key : ∀ x : Option Nat, x = some b → x = none → False := by
          intro x h1 h2; rw [h1] at h2; cases h2
        exact key _ hb (by decide)
    · simp at h
  · exact hc

/-- A frequency in each EU868 band meets the hypotheses of `c57_band_partial`. -/
example : ∀ f ∈ [867100000, 868100000, 868800000, 869525000, 869850000],
    validateFreq .eu868 f = true ∧ ¬ EuGap f := by
  simp [validateFreq, EuGap]

end LDL
