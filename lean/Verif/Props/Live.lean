import Verif.Lemmas.Live
import Verif.Lemmas.Wedge
import Verif.Lemmas.Demo
import Verif.Props.Timers
import Verif.Props.Duty

/-!
# A device goes on: C27
-/

namespace LDL
open Spec

namespace Spec

/-- The calls of an execution satisfy `P`, which may refer to the state they are made in. -/
def Each (cfg : Cfg) (P : Mac → Env → Call → Prop) : Mac → List (Env × Call) → Prop
  | _, [] => True
  | m, (e, c) :: rest => P m e c ∧ Each cfg P (step cfg m e c).1 rest

/-- The application does not cancel, or forget the network, once the radio was started. -/
def NotCut (m : Mac) (_ : Env) (c : Call) : Prop :=
  c = .cancel ∨ c = .forget → m.state = .init ∨ m.state = .radioReset ∨ m.state = .radioBoot

/-- The first receive window is over before the second is due: the application does not call `LDL_MAC_process` so late
that the timer of the second window has expired while the device waits for the first, or listens in it, and neither an
interrupt nor the timer of the first window are pending. -/
def InTime (m : Mac) (e : Env) (c : Call) : Prop :=
  c = .process → m.state = .waitRX1 ∨ m.state = .startRadioForRX1 ∨ m.state = .rx1 →
    m.timerB.check e ≠ none → m.inputState = true ∨ m.timerA.check e ≠ none

/-- Off-time of a joining device has passed: so many units of 1/256 s since the counters were brought up to date. -/
def OffTimeOver (cfg : Cfg) (m : Mac) (e : Env) : Prop :=
  m.band GLOBAL * cfg.tps ≤ timerDelta m.timeTicks e.ticks * 256

end Spec

theorem step_carried {cfg : Cfg} {m : Mac} (hr : Reachable cfg m) (h : Carried m) (e : Env) (c : Call)
    (h1 : NotCut m e c) (h2 : InTime m e c) : Carried (step cfg m e c).1 := by
  by_cases hc : c = .process
  · subst hc
    refine process_carried e hr h ?_
    rintro ⟨a, b, d, f⟩
    rcases h2 rfl a f with h | h
    · rw [b] at h; cases h
    · exact h d
  · refine (step_api cfg e m c hc).carried hr.reach.opOk h ?_
    rintro ⟨a, b1, b2, b3⟩
    rcases h1 a with h | h | h
    · exact b1 h
    · exact b2 h
    · exact b3 h

theorem init_carried (cfg : Cfg) (region : Region) (arg : InitArg) (e : Env) : Carried (init cfg region arg e) := by
  obtain ⟨c, k, h, _⟩ := init_fields cfg region arg e
  rw [h]
  exact .of_timerA rfl (by simp)

theorem run_carried {cfg : Cfg} {m : Mac} (hr : Reachable cfg m) (h : Carried m) (calls : List (Env × Call))
    (hw : ∀ x ∈ calls, x.2.WF) (h1 : Each cfg NotCut m calls) (h2 : Each cfg InTime m calls) :
    Carried (run cfg m calls) := by
  induction calls generalizing m with
  | nil => exact h
  | cons x l ih =>
    obtain ⟨e, c⟩ := x
    exact ih (.step e c hr (hw (e, c) (by simp))) (step_carried hr h e c h1.1 h2.1) (fun y hy => hw y (by simp [hy])) h1.2 h2.2

/-- **C27** (partial): from initialisation on, if the application does not cancel and is in time, a device that is not idle
has an armed timer.  When it waits for off-time and only the band timer is armed, off-time is being counted. -/
theorem c27_carried_partial (cfg : Cfg) (region : Region) (arg : InitArg) (e : Env)
    (hs : ∀ s, arg.session = some s → SessionOk s) (ha : ArgOk arg) (calls : List (Env × Call))
    (hw : ∀ x ∈ calls, x.2.WF) (h1 : Each cfg NotCut (init cfg region arg e) calls)
    (h2 : Each cfg InTime (init cfg region arg e) calls) (m : Mac) (hm : m = run cfg (init cfg region arg e) calls) :
    m.state = .idle ∨ m.timerA.armed = true ∨ m.timerB.armed = true ∨
      m.state = .waitOTAA ∧ m.timerBand.armed = true ∧ 0 < m.band GLOBAL ∧ m.parked = false := by
  have := run_carried (.init region arg e hs ha) (init_carried cfg region arg e) calls hw h1 h2
  rw [← hm] at this
  clear hm
  unfold Carried at this
  cases hst : m.state <;> rw [hst] at this <;> simp only [] at this
  case waitOTAA =>
    rcases this with h | ⟨a, b, c⟩
    · exact Or.inr (Or.inl h)
    · exact Or.inr (Or.inr (Or.inr ⟨rfl, c, a, b⟩))
  case idle => exact Or.inl rfl
  all_goals first | exact Or.inr (Or.inl this) | exact Or.inr (Or.inl this.1) | exact Or.inr (Or.inr (Or.inl this.2))

theorem parked_global {cfg : Cfg} {m : Mac} (h : Reachable cfg m) (hp : m.parked = true) :
    m.band GLOBAL = 0 ∨ UINT32_MAX ≤ m.band GLOBAL := by
  induction h with
  | init region arg e _ _ =>
    obtain ⟨c, k, h, _⟩ := init_fields cfg region arg e
    rw [h] at hp; cases hp
  | @step m e c h _ ih =>
    by_cases hc : c = .process
    · subst hc
      change (process cfg e m).parked = true at hp
      show (process cfg e m).band GLOBAL = 0 ∨ _ ≤ (process cfg e m).band GLOBAL
      obtain ⟨ev, lag, m1, m2, _, _, _, _, heq⟩ := process_parts cfg e m
      have hb : (process cfg e m).band = m2.band := by rw [heq]; exact Mac.clock_band (setNextBandEvent_clock cfg e m2)
      rw [hb]
      by_cases h0 : m2.band GLOBAL = 0
      · exact Or.inl h0
      · right
        refine Nat.le_of_not_lt fun hlt => ?_
        have := (setNextBandEvent_armed cfg e m2 (by omega) hlt).1
        rw [← heq, hp] at this
        cases this
    · obtain ⟨_, _, hpk, hcl⟩ := (step_api cfg e m c hc).clock
      rw [hpk] at hp
      have := ih hp
      rcases hcl with ⟨_, hcl⟩ | ⟨_, _, _, _, hcl⟩ | ⟨_, _, hcl⟩ | ⟨_, _, _, hcl⟩
      · rw [hcl]; exact this
      · rw [hcl]; exact this
      · rw [hcl]; exact Or.inl rfl
      · rw [hcl]; exact Or.inl rfl

theorem timerDelta_lt (x y : Nat) (hx : x < 4294967296) (hy : y < 4294967296) : timerDelta x y < 4294967296 := by
  unfold timerDelta
  have hM : UINT32_MAX = 4294967295 := rfl
  rw [hM]
  split <;> omega

/-- The time counted is not less than the time passed, rounded down. -/
theorem elapsed_ge (cfg : Cfg) (ht : 512 ≤ cfg.tps ∧ cfg.tps ≤ 16000000) (since rem x : Nat) (hs : since < 4294967296)
    (hr : rem < cfg.tps) (hx : x * cfg.tps ≤ since * 256) : x ≤ (elapsed cfg since rem).1 := by
  have key : ∀ n a b : Nat, 512 ≤ n → n ≤ 16000000 → a * n + b = since → b < n → rem < n → x * n ≤ since * 256 →
      x ≤ (a * 256 + ((b * 256 + rem) % 4294967296) / n) % 4294967296 := by
    intro n a b h1 h2 h3 h4 h5 h6
    have hF : (b * 256 + rem) % 4294967296 = b * 256 + rem := Nat.mod_eq_of_lt (by omega)
    rw [hF]
    have hd : (b * 256 + rem) / n < 257 := by
      rw [Nat.div_lt_iff_lt_mul (by omega)]
      omega
    have ha : a ≤ 8388608 := by
      refine Nat.le_of_not_lt fun h => ?_
      have : 8388609 * 512 ≤ a * n := Nat.mul_le_mul (by omega) h1
      omega
    rw [Nat.mod_eq_of_lt (by omega)]
    have hdm := Nat.div_add_mod (b * 256 + rem) n
    have hml : (b * 256 + rem) % n < n := Nat.mod_lt _ (by omega)
    generalize (b * 256 + rem) / n = q at *
    generalize (b * 256 + rem) % n = r at *
    refine Nat.le_of_not_lt fun hlt => ?_
    have h7 : (a * 256 + q + 1) * n ≤ x * n := Nat.mul_le_mul_right n hlt
    have h8 : (a * 256 + q + 1) * n = 256 * (a * n) + n * q + n := by
      rw [Nat.add_mul, Nat.add_mul, Nat.one_mul, Nat.mul_right_comm, Nat.mul_comm q n, Nat.mul_comm (a * n) 256]
    omega
  have := key cfg.tps (since / cfg.tps) (since % cfg.tps) ht.1 ht.2
    (by rw [Nat.mul_comm]; exact Nat.div_add_mod _ _) (Nat.mod_lt _ (by omega)) hr hx
  exact this

theorem clock_ok {cfg : Cfg} (ht : 512 ≤ cfg.tps ∧ cfg.tps ≤ 16000000) {m : Mac} (hr : Reachable cfg m) :
    m.timeTicks < 4294967296 ∧ m.timeRemainder < cfg.tps := by
  induction hr with
  | init region arg e _ _ =>
    obtain ⟨c, k, h, _⟩ := init_fields cfg region arg e
    rw [h]
    exact ⟨Nat.mod_lt _ (by decide), by show 0 < cfg.tps; omega⟩
  | @step m e c h _ ih =>
    obtain ⟨B, _, hB, _⟩ := step_band (cfg := cfg) (b := 0) m (by decide) e c
    rcases hB with ⟨h1, h2, _⟩ | ⟨_, _, h1, ⟨n, h2⟩, _⟩
    · rw [h1, h2]; exact ih
    · rw [h1, h2]
      exact ⟨Nat.mod_lt _ (by decide), Nat.mod_lt _ (by omega)⟩

theorem offTime_over {cfg : Cfg} (ht : 512 ≤ cfg.tps ∧ cfg.tps ≤ 16000000) {m : Mac} (hr : Reachable cfg m)
    (hj : m.ctx.joined = false) (e : Env) (h : OffTimeOver cfg m e) : (ticked cfg e m).band GLOBAL = 0 := by
  obtain ⟨c1, c2⟩ := clock_ok ht hr
  have hlt := hr.globalOk.bound hj
  rcases ticked_eq cfg e m with ⟨hp, h'⟩ | ⟨_, h'⟩
  · rw [h']
    rcases parked_global hr hp with h | h
    · exact h
    · omega
  · rw [Mac.clock_band h']
    have := elapsed_ge cfg ht _ m.timeRemainder _ (timerDelta_lt _ e.ticks c1 (Nat.mod_lt _ (by decide))) c2 h
    show countDown m.band (elapsed cfg (timerDelta m.timeTicks e.ticks) m.timeRemainder).1 GLOBAL = 0
    generalize (elapsed cfg (timerDelta m.timeTicks e.ticks) m.timeRemainder).1 = t at *
    unfold countDown updateDownCounter
    rw [if_pos (show GLOBAL < 6 by decide)]
    by_cases hb : m.band GLOBAL > 0
    · rw [if_pos hb, if_pos this]
    · rw [if_neg hb]; show m.band GLOBAL = 0; omega

theorem carried_acts {cfg : Cfg} (ht : 512 ≤ cfg.tps ∧ cfg.tps ≤ 16000000) {m : Mac} (hr : Reachable cfg m) (hc : Carried m)
    (hn : m.state ≠ .idle) (hi : m.inputState = false) (e : Env)
    (hA : m.timerA.armed = true → m.timerA.check e ≠ none) (hB : m.timerB.armed = true → m.timerB.check e ≠ none)
    (hO : m.state = .waitOTAA → OffTimeOver cfg m e) :
    (step cfg m e .process).1.state ≠ m.state := by
  show (process cfg e m).state ≠ m.state
  obtain ⟨ev, lag, m1, m2, hp, hcl, hready, hd, heq⟩ := process_parts cfg e m
  obtain ⟨_, _, _, _, _, _, _, _, _, hme⟩ := hp.eq
  have hst : m1.state = m.state := by rw [hme]
  have hei : ev ≠ .interrupt := fun h => by have := hp.interrupt.1 h; rw [hi] at this; cases this
  have heA : m.timerA.armed = true → ev = .timerA := by
    intro ha
    have h1 := hA ha
    have h2 := hp.quietA
    cases ev with
    | interrupt => exact absurd rfl hei
    | timerA => rfl
    | _ => exact absurd (h2 (by simp)) h1
  have heB : m.timerA.armed = false → m.timerB.armed = true → ev = .timerB := by
    intro ha hb
    have h1 := hB hb
    have h2 := hp.quietB
    cases ev with
    | interrupt => exact absurd rfl hei
    | timerA =>
      rcases hp.timerA with ⟨_, h, _⟩ | ⟨h, _⟩
      · have := check_armed h; rw [ha] at this; cases this
      · exact absurd rfl h
    | timerB => rfl
    | _ => exact absurd (h2 (by simp)) h1
  have hzero : m.state = .waitOTAA → m1.band GLOBAL = 0 := by
    intro hs
    have hop : m.op = .joining := by
      have := hr.reach.opOk
      unfold OpOk at this
      rw [hs] at this
      simpa [opAllowed] using this
    rw [Mac.clock_band hcl]
    exact offTime_over ht hr (hr.globalOk.unjoined hop) e (hO hs)
  have hnone : ev ≠ .none := by
    intro hn'
    unfold Carried at hc
    cases hs : m.state <;> rw [hs] at hc <;> simp only [] at hc
    case idle => exact hn hs
    case waitOTAA =>
      rcases hc with hc | ⟨hg, _⟩
      · have := heA hc; rw [hn'] at this; cases this
      · have := (ticked_global cfg e m).2 hg (by rw [← Mac.clock_band hcl]; exact hzero hs)
        rw [hready hn'] at this; cases this
    all_goals first
      | (have := heA hc; rw [hn'] at this; cases this)
      | (have := heA hc.1; rw [hn'] at this; cases this)
      | (have := heB hc.1 hc.2; rw [hn'] at this; cases this)
  have hdd : Disp cfg e ev lag m1 m2 := by
    rcases hd with ⟨h, _⟩ | ⟨_, h⟩
    · exact absurd h hnone
    · exact h
  obtain ⟨p, t, hsn⟩ := setNextBandEvent_shape cfg e m2
  have hfin : (process cfg e m).state = m2.state := by rw [heq, hsn]
  rw [hfin, ← hst]
  rcases hdd.moves (hp.opOk hr.reach.opOk) with ⟨_, hig⟩ | h
  · exfalso
    unfold Ignores at hig
    unfold Carried at hc
    rw [hst] at hig
    cases hs : m.state <;> rw [hs] at hc hig <;> simp only [] at hc hig
    case idle => exact hn hs
    case waitOTAA => exact hig (hzero hs)
    all_goals first
      | exact hig (heA hc)
      | exact hig.1 (heA hc)
      | exact hig (heA hc.1)
      | exact hig.1 (heA hc.1)
      | exact hig (heB hc.1 hc.2)
      | exact hig.2 (heB hc.1 hc.2)
  · exact h

/-- **C27** (partial): when the armed timers have expired, and off-time is over, the next `LDL_MAC_process` does something:
the device goes to another state. -/
theorem c27_acts_partial (cfg : Cfg) (ht : 512 ≤ cfg.tps ∧ cfg.tps ≤ 16000000) (region : Region) (arg : InitArg) (e0 : Env)
    (hs : ∀ s, arg.session = some s → SessionOk s) (ha : ArgOk arg) (calls : List (Env × Call))
    (hw : ∀ x ∈ calls, x.2.WF) (h1 : Each cfg NotCut (init cfg region arg e0) calls)
    (h2 : Each cfg InTime (init cfg region arg e0) calls) (m : Mac) (hm : m = run cfg (init cfg region arg e0) calls)
    (hn : m.state ≠ .idle) (hi : m.inputState = false) (e : Env)
    (hA : m.timerA.armed = true → m.timerA.check e ≠ none) (hB : m.timerB.armed = true → m.timerB.check e ≠ none)
    (hO : m.state = .waitOTAA → OffTimeOver cfg m e) :
    (step cfg m e .process).1.state ≠ m.state := by
  have hr : Reachable cfg m := hm ▸ Demo.run_reach (.init region arg e0 hs ha) calls hw
  have hc := run_carried (.init region arg e0 hs ha) (init_carried cfg region arg e0) calls hw h1 h2
  rw [← hm] at hc
  exact carried_acts ht hr hc hn hi e hA hB hO

/-- **C27**: off-time that holds back a join request is counted: as long as the device stays in that state, its
counter goes down by the time counted, which is not less than the time that has passed, rounded down to 1/256 s. -/
theorem c27_counts {cfg : Cfg} (ht : 512 ≤ cfg.tps ∧ cfg.tps ≤ 16000000) {m : Mac} (hr : Reachable cfg m)
    (hs : m.state = .waitOTAA) (hb : 0 < m.band GLOBAL) (e : Env) (d : Nat)
    (hd : d * cfg.tps ≤ timerDelta m.timeTicks e.ticks * 256) :
    (step cfg m e .process).1.state = .waitTX ∨
    (step cfg m e .process).1.state = .waitOTAA ∧ (step cfg m e .process).1.band GLOBAL + d ≤ m.band GLOBAL := by
  have hop : m.op = .joining := by
    have := hr.reach.opOk
    unfold OpOk at this
    rw [hs] at this
    simpa [opAllowed] using this
  have hg := hr.globalOk
  have hlt := hg.bound (hg.unjoined hop)
  have hpk : m.parked = false := by
    cases hpk : m.parked with
    | false => rfl
    | true => rcases parked_global hr hpk with h | h <;> omega
  obtain ⟨c1, c2⟩ := clock_ok ht hr
  have hge := elapsed_ge cfg ht _ m.timeRemainder d (timerDelta_lt _ e.ticks c1 (Nat.mod_lt _ (by decide))) c2 hd
  show (process cfg e m).state = .waitTX ∨ (process cfg e m).state = .waitOTAA ∧ (process cfg e m).band GLOBAL + d ≤ _
  obtain ⟨ev, lag, m1, m2, hp, hcl, hready, hdd, heq⟩ := process_parts cfg e m
  obtain ⟨_, _, _, _, _, _, _, _, _, hme⟩ := hp.eq
  have hst : m1.state = .waitOTAA := by rw [hme]; exact hs
  have hbd : m1.band GLOBAL = countDown m.band (elapsed cfg (timerDelta m.timeTicks e.ticks) m.timeRemainder).1 GLOBAL := by
    rw [Mac.clock_band hcl]
    rcases ticked_eq cfg e m with ⟨h, _⟩ | ⟨_, h⟩
    · rw [hpk] at h; cases h
    · rw [Mac.clock_band h]; rfl
  have hle : m1.band GLOBAL = 0 ∨ m1.band GLOBAL + d ≤ m.band GLOBAL := by
    rw [hbd]
    generalize (elapsed cfg (timerDelta m.timeTicks e.ticks) m.timeRemainder).1 = t at *
    unfold countDown updateDownCounter
    rw [if_pos (show GLOBAL < 6 by decide)]
    rw [if_pos hb]
    by_cases h : m.band GLOBAL ≤ t
    · rw [if_pos h]; exact Or.inl rfl
    · rw [if_neg h]; right; show m.band GLOBAL - t + d ≤ _; omega
  have hzero : m1.band GLOBAL = 0 → ev ≠ .none := by
    intro h0 hn
    have := (ticked_global cfg e m).2 hb (by rw [← Mac.clock_band hcl]; exact h0)
    rw [hready hn] at this; cases this
  obtain ⟨p, t, hsn⟩ := setNextBandEvent_shape cfg e m2
  rw [heq, hsn]
  show m2.state = _ ∨ m2.state = _ ∧ m2.band GLOBAL + d ≤ _
  rcases hdd with ⟨hn, rfl⟩ | ⟨_, hdd⟩
  · right
    refine ⟨hst, ?_⟩
    rcases hle with h | h
    · exact absurd hn (hzero h)
    · exact h
  · cases hdd with
    | stay hi =>
      right
      unfold Ignores at hi
      rw [hst] at hi
      rcases hle with h | h
      · exact absurd h hi
      · exact ⟨hst, h⟩
    | otaa => exact Or.inl rfl
    | waitA h => rw [hst] at h; simp at h
    | waitB h => rw [hst] at h; simp at h
    | rxError h => rw [hst] at h; simp at h
    | rxRejected h => rw [hst] at h; simp at h
    | rxJoin h => rw [hst] at h; simp at h
    | rxData h => rw [hst] at h; simp at h
    | _ h => rw [hst] at h; simp at h

/-! The claim of C27 is false of the code in two ways. -/

/-- **C27**, negation: cancelling, or forgetting the network, in any state after the radio was started, idle included,
stops the device for good: whatever is called afterwards, it stays in the same state and transmits nothing. -/
theorem c27_cancel_stuck (cfg : Cfg) (m : Mac) (hs : m.state ≠ .init ∧ m.state ≠ .radioReset ∧ m.state ≠ .radioBoot)
    (e : Env) (c : Call) (hc : c = .cancel ∨ c = .forget) (calls : List (Env × Call)) :
    (run cfg (step cfg m e c).1 calls).state = .radioReset ∧ history cfg (step cfg m e c).1 calls = [] := by
  have hw := cancel_wedged cfg e m c hc hs
  generalize (step cfg m e c).1 = m' at *
  induction calls generalizing m' with
  | nil => exact ⟨hw.1, rfl⟩
  | cons x l ih =>
    obtain ⟨e1, c1⟩ := x
    obtain ⟨i1, i2⟩ := ih _ (step_wedged cfg e1 m' c1 hw)
    refine ⟨i1, ?_⟩
    show transmitted _ ++ history cfg _ l = []
    rw [i2, List.append_nil]
    exact wedged_silent cfg e1 m' c1 hw

/-- Waiting for the second receive window without a timer. -/
def Deaf (m : Mac) : Prop := m.state = .waitRX2 ∧ m.op ≠ .none ∧ m.timerA.armed = false ∧ m.timerB.armed = false

theorem step_deaf (cfg : Cfg) (e : Env) (m : Mac) (c : Call) (hc : c ≠ .cancel ∧ c ≠ .forget) (h : Deaf m) :
    Deaf (step cfg m e c).1 := by
  obtain ⟨h1, h2, h3, h4⟩ := h
  by_cases hp : c = .process
  · subst hp
    show Deaf (process cfg e m)
    obtain ⟨ev, lag, m1, hp, heq⟩ := process_cases cfg e m
    have hA : ev ≠ .timerA ∧ m1.timerA = m.timerA := by
      rcases hp.timerA with ⟨_, h, _⟩ | h
      · have := check_armed h; rw [h3] at this; cases this
      · exact h
    have hB : ev ≠ .timerB ∧ m1.timerB = m.timerB := by
      rcases hp.timerB with ⟨_, h, _⟩ | h
      · have := check_armed h; rw [h4] at this; cases this
      · exact h
    obtain ⟨_, _, _, _, _, _, _, _, _, hme⟩ := hp.eq
    have hst : m1.state = .waitRX2 := by rw [hme]; exact h1
    have hop : m1.op = m.op := by rw [hme]
    have hd : dispatch cfg e ev lag m1 = m1 := by
      unfold dispatch processWait
      simp only [hst, hA.1, hB.1, or_self, if_false]
    rw [hd, ite_self] at heq
    obtain ⟨p, t, hsn⟩ := setNextBandEvent_shape cfg e m1
    rw [heq, hsn]
    exact ⟨hst, by show m1.op ≠ _; rw [hop]; exact h2, by show m1.timerA.armed = _; rw [hA.2, h3],
      by show m1.timerB.armed = _; rw [hB.2, h4]⟩
  · have hapi := step_api cfg e m c hp
    generalize (step cfg m e c).1 = m' at *
    generalize (step cfg m e c).2 = st at *
    cases hapi
    case forget => exact absurd rfl hc.2
    case cancel => exact absurd rfl hc.1
    case entropyIdle h _ => exact absurd h h2
    case entropyLater h _ => exact absurd h h2
    case otaa h _ _ _ _ _ _ => exact absurd h h2
    case abp h _ => exact absurd h h2
    case data h _ _ _ _ _ _ _ _ _ => exact absurd h h2
    all_goals exact ⟨h1, h2, h3, h4⟩

/-- **C27**, negation: so does a timer of the second window that expires while the device listens in the first, if then
nothing was received.  The device reached in this way waits for the second window without a timer; whatever is called
afterwards, except cancelling, which does not help, it stays there. -/
theorem c27_late_stuck (cfg : Cfg) (m : Mac) (h : Deaf m) (calls : List (Env × Call))
    (hc : ∀ x ∈ calls, x.2 ≠ .cancel ∧ x.2 ≠ .forget) : Deaf (run cfg m calls) := by
  induction calls generalizing m with
  | nil => exact h
  | cons x l ih => exact ih _ (step_deaf cfg x.1 m x.2 (hc x (by simp)) h) fun y hy => hc y (by simp [hy])

/-- Such a device: it processes after a second of listening in the first window, and only then the radio reports that
it heard nothing. -/
def lateCalls : List (Env × Call) :=
  Demo.sending true ++ Demo.txDone 1530000 ++ Demo.processAt [2530000, 2532000, 3570000] ++ Demo.rxNone 3571000

theorem c27_late_witness : Reachable Demo.cfg (run Demo.cfg Demo.start lateCalls) ∧
    Deaf (run Demo.cfg Demo.start lateCalls) := by
  refine ⟨Demo.run_reach Demo.start_reachable _ (by decide +kernel), ?_⟩
  unfold Deaf
  decide +kernel

instance (m : Mac) (e : Env) (c : Call) : Decidable (NotCut m e c) :=
  match c with
  | .cancel => decidable_of_iff (m.state = .init ∨ m.state = .radioReset ∨ m.state = .radioBoot) ⟨fun h _ => h, fun h => h (Or.inl rfl)⟩
  | .forget => decidable_of_iff (m.state = .init ∨ m.state = .radioReset ∨ m.state = .radioBoot) ⟨fun h _ => h, fun h => h (Or.inr rfl)⟩
  | .entropy | .otaa | .abp _ | .data .. | .process | .setRate _ | .setPower _ | .setADR _ | .setMaxDCycle _ | .addChannel ..
  | .maskChannel _ | .unmaskChannel _ | .radioEvent _ | .lateEvent _ => isTrue (by intro h; simp at h)

instance (m : Mac) (e : Env) (c : Call) : Decidable (InTime m e c) :=
  match c with
  | .process => decidable_of_iff (m.state = .waitRX1 ∨ m.state = .startRadioForRX1 ∨ m.state = .rx1 →
    m.timerB.check e ≠ none → m.inputState = true ∨ m.timerA.check e ≠ none) ⟨fun h _ => h, fun h => h rfl⟩
  | .cancel | .forget | .entropy | .otaa | .abp _ | .data .. | .setRate _ | .setPower _ | .setADR _ | .setMaxDCycle _ | .addChannel ..
  | .maskChannel _ | .unmaskChannel _ | .radioEvent _ | .lateEvent _ => isTrue (by intro h; cases h)

instance instDecidableEach (cfg : Cfg) (P : Mac → Env → Call → Prop) [∀ m e c, Decidable (P m e c)] (m : Mac) :
    (l : List (Env × Call)) → Decidable (Each cfg P m l)
  | [] => isTrue trivial
  | (e, c) :: rest =>
    have := instDecidableEach cfg P (step cfg m e c).1 rest
    inferInstanceAs (Decidable (_ ∧ _))

/-- The hypotheses of `c27_carried_partial` and `c27_acts_partial` are met by a device that sends and opens both windows,
and not by the one of `c27_late_witness`.  Between transmission and first window the timers are as claimed, and when
they have expired the device acts. -/
example : Each Demo.cfg NotCut Demo.start (Demo.boot ++ [(Demo.at_ 20000, .abp 1), Demo.send true 30000] ++ Demo.cycle 30000) ∧
    Each Demo.cfg InTime Demo.start (Demo.boot ++ [(Demo.at_ 20000, .abp 1), Demo.send true 30000] ++ Demo.cycle 30000) ∧
    ¬ Each Demo.cfg InTime Demo.start lateCalls ∧
    (let m := run Demo.cfg Demo.start (Demo.sending true ++ Demo.txDone 1530000)
    m.state = .waitRX1 ∧ m.timerA.armed = true ∧ m.timerB.armed = true ∧
    (step Demo.cfg m (Demo.at_ 3600000) .process).1.state = .startRadioForRX1) := by decide +kernel

/-- A join request, and no answer. -/
def joinUnanswered : List (Env × Call) :=
  Demo.boot ++ [(Demo.at_ 20000, .otaa)] ++ Demo.processAt [20000, 20001, 50000] ++ Demo.txDone 1530000 ++
    Demo.processAt [6530000, 6532000] ++ Demo.rxNone 6570000 ++ Demo.processAt [7530000, 7532000] ++ Demo.rxNone 7570000 ++
    Demo.processAt [10100000, 10100001]

/-- The same for a device that joins: the next request waits for off-time, only the band timer is armed, and when the
off-time is over the device acts. -/
example : Each Demo.cfg NotCut Demo.start joinUnanswered ∧ Each Demo.cfg InTime Demo.start joinUnanswered ∧
    (let m := run Demo.cfg Demo.start joinUnanswered
    m.state = .waitOTAA ∧ m.timerA.armed = false ∧ m.timerB.armed = false ∧ m.timerBand.armed = true ∧
    m.band GLOBAL = 586 ∧ m.band GLOBAL * Demo.cfg.tps ≤ timerDelta m.timeTicks (Demo.at_ 12400000).ticks * 256 ∧
    (step Demo.cfg m (Demo.at_ 12400000) .process).1.state = .waitTX ∧
    (step Demo.cfg m (Demo.at_ 12300000) .process).1.state = .waitOTAA) := by decide +kernel

end LDL
