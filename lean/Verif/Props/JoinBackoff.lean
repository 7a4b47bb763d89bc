import Verif.Spec.Backoff
import Verif.Props.Live

/-!
# Join back-off: C34
-/

namespace LDL
open Spec

/-- Ticks counted by a clock of 32 bits that loses one per wrap. -/
def counted (t : Nat) : Nat := t - t / 4294967296

theorem timerDelta_counted (a b : Nat) (h : a ≤ b) (hlt : b < a + 2 ^ 32) :
    timerDelta (u32 a) (u32 b) + counted a = counted b := by
  have h3 : UINT32_MAX = 4294967295 := rfl
  have h1 := u32_eq a
  have h2 := u32_eq b
  unfold timerDelta counted
  by_cases hc : u32 a ≤ u32 b
  · rw [if_pos hc]; omega
  · rw [if_neg hc]; omega

/-- No time is lost or invented. -/
theorem elapsed_exact (cfg : Cfg) (ht : 512 ≤ cfg.tps ∧ cfg.tps ≤ 16000000) (since rem : Nat) (hs : since < 4294967296)
    (hr : rem < cfg.tps) :
    (elapsed cfg since rem).1 * cfg.tps + (elapsed cfg since rem).2 = since * 256 + rem := by
  have key : ∀ n a b : Nat, 512 ≤ n → n ≤ 16000000 → a * n + b = since → b < n → rem < n →
      (a * 256 + ((b * 256 + rem) % 4294967296) / n) % 4294967296 * n + ((b * 256 + rem) % 4294967296) % n =
        since * 256 + rem := by
    intro n a b h1 h2 h3 h4 h5
    have hF : (b * 256 + rem) % 4294967296 = b * 256 + rem := Nat.mod_eq_of_lt (by omega)
    rw [hF]
    have hd : (b * 256 + rem) / n < 257 := by
      rw [Nat.div_lt_iff_lt_mul (by omega)]
      omega
    have ha : a ≤ 8388608 := by
      refine Nat.le_of_not_lt fun h => ?_
      have : 8388609 * 512 ≤ a * n := Nat.mul_le_mul (by omega) h1
      omega
    rw [Nat.mod_eq_of_lt (by omega)]
    have hdm := Nat.div_add_mod (b * 256 + rem) n
    generalize (b * 256 + rem) / n = q at *
    generalize (b * 256 + rem) % n = r at *
    have h8 : (a * 256 + q) * n = 256 * (a * n) + n * q := by
      rw [Nat.add_mul, Nat.mul_right_comm, Nat.mul_comm q n, Nat.mul_comm (a * n) 256]
    omega
  exact key cfg.tps (since / cfg.tps) (since % cfg.tps) ht.1 ht.2
    (by rw [Nat.mul_comm]; exact Nat.div_add_mod _ _) (Nat.mod_lt _ (by omega)) hr

theorem day_down (d t : Nat) : (updateDownCounter d t).1 = d - t := by
  unfold updateDownCounter
  by_cases h : d > 0
  · rw [if_pos h]
    by_cases h2 : d ≤ t
    · rw [if_pos h2]; show 0 = _; omega
    · rw [if_neg h2]
  · rw [if_neg h]; show d = _; omega

/-- The factor in use is that of the time counted. -/
theorem otaaFactor_backoff (u : Nat) : otaaFactor (86400 * 256 - u) = backoff u := by
  unfold otaaFactor backoff timeTPS
  by_cases h1 : u < 1 * 3600 * 256
  · rw [if_pos h1, if_pos (by omega)]
  · rw [if_neg h1, if_neg (by omega)]
    by_cases h2 : u < 11 * 3600 * 256
    · rw [if_pos h2, if_pos (by omega)]
    · rw [if_neg h2, if_neg (by omega)]

/-- A join request has 23 bytes. -/
theorem join_length {cfg : Cfg} (hE : ∀ k, BlockFn (cfg.E k)) {m : Mac} (hr : Reachable cfg m) :
    m.op = .joining → m.bufferLen = 23 := by
  induction hr with
  | init region arg e _ _ =>
    obtain ⟨c, k, h, _⟩ := init_fields cfg region arg e
    intro ho; rw [h] at ho; cases ho
  | @step m e c h hw ih =>
    obtain ⟨o, _, hs, _⟩ := step_does cfg e _ c h.reach.opOk
    have hb := h.bufOk hE
    generalize (step cfg m e c).1 = m' at *
    generalize transmissions o = t at *
    generalize nonceReports o = n at *
    intro ho
    cases hs with
    | idle _ h' => rw [ho] at h'; simp at h'
    | keep _ hk => rw [hk.len]; exact ih (hk.op ▸ ho)
    | ended _ h' => rw [ho] at h'; cases h'
    | sent _ _ _ _ hk => rw [hk.len]; exact ih (hk.op ▸ ho)
    | repeated ho' _ _ _ hk => rw [hk.op] at ho; rw [ho] at ho'; simp at ho'
    | request _ _ _ hr => exact (hr.frame hE hb).1
    | join _ _ _ hr => exact (hr.frame hE hb).1
    | send _ confirmed port data len opts hc hj hp hg freq ch rate hsel hl hm' =>
      obtain ⟨x, hx, _, _, _, _, h6, _⟩ := sendData_fields cfg e _ confirmed port data len opts _ m' hm'
      rw [h6, hx] at ho
      simp only [] at ho
      split at ho <;> cases ho

theorem convertRate_sf (r : Region) (rate : Nat) : 7 ≤ (r.convertRate rate).sf ∧ (r.convertRate rate).sf ≤ 12 := by
  unfold Region.convertRate
  cases r <;> simp only [] <;> split <;> simp

theorem join_air (bw : Bw) (sf : Nat) (h : 7 ≤ sf ∧ sf ≤ 12) : getAirTime bw sf 23 true ≤ 1500 := by
  have key : ∀ bw ∈ [Bw.b125, .b250, .b500], ∀ sf ∈ [7, 8, 9, 10, 11, 12], getAirTime bw sf 23 true ≤ 1500 := by
    decide +kernel
  refine key bw ?_ sf ?_
  · cases bw <;> simp
  · simp only [List.mem_cons, List.not_mem_nil, or_false]; omega

/-- The join request in progress: the last transmission, and its air time. -/
theorem joinInProgress {cfg : Cfg} (hE : ∀ k, BlockFn (cfg.E k)) {m : Mac} (hr : Reachable cfg m) :
    m.state = .tx → m.op = .joining → m.tx.airTime ≤ 384 ∧ ∃ y, (transmitted m.out).getLast? = some y ∧
      airUnits y = m.tx.airTime := by
  induction hr with
  | init region arg e h ha =>
    obtain ⟨c, k, h, _⟩ := init_fields cfg region arg e
    intro hs; rw [h] at hs; simp at hs
  | @step m e c hr hw ih =>
    have hout := step_out cfg e m c
    have ha := step_air cfg e m c hr.reach.opOk
    have hlen := join_length hE hr
    have hbuf := hr.bufOk hE
    obtain ⟨o, _, hs, _⟩ := step_does cfg e _ c hr.reach.opOk
    have hop : (step cfg m e c).1.op = .joining → (step cfg m e c).1.state = .tx → m.op = .joining := by
      intro h1 h2
      generalize (step cfg m e c).1 = m' at *
      generalize transmissions o = t at *
      generalize nonceReports o = n at *
      cases hs with
      | idle _ h' => rw [h1] at h'; simp at h'
      | keep _ hk => rw [← hk.op]; exact h1
      | ended _ h' => rw [h1] at h'; cases h'
      | sent _ _ _ _ hk => rw [← hk.op]; exact h1
      | repeated ho' _ _ _ hk => rw [← hk.op]; exact h1
      | request h _ _ hr => exact h
      | join h hc _ hr' =>
        subst hc
        cases ha with
        | off _ h => exact absurd h2 h
        | start h => cases h
        | on h =>
          have := hr.reach.opOk
          unfold OpOk at this
          rw [h, ‹m.op = .none›] at this
          simp [opAllowed] at this
        | finish _ _ h => exact absurd h2 h
        | cancelled _ _ h => exact absurd h2 h
      | send _ confirmed port data len opts hc hj hp hg freq ch rate hsel hl hm' =>
        obtain ⟨x, hx, _, _, _, _, h6, _⟩ := sendData_fields cfg e _ confirmed port data len opts _ m' hm'
        rw [h6, hx] at h1
        simp only [] at h1
        split at h1 <;> cases h1
    clear hs
    intro hs ho
    have hopm := hop ho hs
    generalize (step cfg m e c).1 = m' at *
    cases ha with
    | off _ h => exact absurd hs h
    | finish _ _ h => exact absurd hs h
    | cancelled _ _ h => exact absurd hs h
    | start hcp hst hs' htr htx =>
      change transmitted (m'.out.drop m.out.length) = _ at htr
      have hl := hlen hopm
      have hair : txAirTime m ≤ 1500 := by
        unfold txAirTime
        simp only []
        rw [hl]
        exact join_air _ _ (convertRate_sf _ _)
      have hms := msToTime_eq (txAirTime m) (by omega)
      refine ⟨by rw [htx]; show msToTime (txAirTime m) ≤ 384; rw [hms]; omega, (txSetting m, m.frame), ?_, ?_⟩
      · rw [hout]
        have : transmitted (m.out ++ m'.out.drop m.out.length) = transmitted m.out ++ [(txSetting m, m.frame)] := by
          rw [← htr]; exact List.filterMap_append ..
        rw [this, List.getLast?_append]
        rfl
      · rw [htx]
        show airUnits _ = msToTime (txAirTime m)
        rw [hms]
        unfold airUnits
        have hfl : m.frame.length = m.bufferLen := by
          unfold Mac.frame
          rw [List.length_take, hbuf.buffer]
          omega
        simp only [hfl]
        rfl
    | on hst hs' hn htx htr =>
      change transmitted (m'.out.drop m.out.length) = _ at htr
      obtain ⟨j1, y, j2, j3⟩ := ih hst hopm
      refine ⟨by rw [htx]; exact j1, y, ?_, by rw [htx]; exact j3⟩
      rw [hout]
      have : transmitted (m.out ++ m'.out.drop m.out.length) = transmitted m.out ++ transmitted (m'.out.drop m.out.length) :=
        List.filterMap_append ..
      rw [this, htr, List.append_nil, j2]

theorem joinsWith_op {cfg : Cfg} {e : Env} {m : Mac} {f : Frame.Down} {buf : Bytes}
    (h : JoinsWith cfg e m .process f buf) : (process cfg e m).op = .none := by
  obtain ⟨_, ha, ht⟩ := h
  obtain ⟨lag, x, p, t, hp, hx⟩ := receiving (cfg := cfg) (m := m) (e := e) ⟨ha.1, ha.2.1, ha.2.2.1⟩
  rw [ha.2.2.2] at hx
  simp only [] at hx
  rw [if_neg (by rw [ht]; decide)] at hx
  obtain ⟨_, _, _, _, _, _, hs⟩ := joinAccepted_shape cfg (packetState e x) f buf
  generalize joinAccepted cfg (packetState e x) f buf = y at hx hs
  rw [hx]
  show y.op = _
  rw [hs]

/-- A call during a join. -/
theorem step_joining {cfg : Cfg} {m : Mac} (e : Env) (c : Call) (ho : m.op = .joining)
    (hj : m.ctx.joined = false) (ho' : (step cfg m e c).1.op = .joining) :
    (c = .process ∧ (step cfg m e c).1.timeTicks = (ticked cfg e m).timeTicks ∧
      (step cfg m e c).1.timeRemainder = (ticked cfg e m).timeRemainder ∧
      (step cfg m e c).1.day = (ticked cfg e m).day ∧
      ((Charges m e ∧ (step cfg m e c).1.band = charged (ticked cfg e m)) ∨
        (¬ Charges m e ∧ (step cfg m e c).1.band = (ticked cfg e m).band)) ∧
      (0 < (step cfg m e c).1.day → (step cfg m e c).1.day < UINT32_MAX →
        (step cfg m e c).1.band GLOBAL < UINT32_MAX → (step cfg m e c).1.parked = false)) ∨
    (c ≠ .process ∧ (step cfg m e c).1.timeTicks = m.timeTicks ∧ (step cfg m e c).1.timeRemainder = m.timeRemainder ∧
      (step cfg m e c).1.day = m.day ∧ (step cfg m e c).1.band = m.band ∧ (step cfg m e c).1.parked = m.parked) := by
  by_cases hp : c = .process
  · subst hp
    left
    change (process cfg e m).op = .joining at ho'
    show _ ∧ (process cfg e m).timeTicks = _ ∧ (process cfg e m).timeRemainder = _ ∧ (process cfg e m).day = _ ∧
      (_ ∧ (process cfg e m).band = _ ∨ _ ∧ (process cfg e m).band = _) ∧ (_ → _ → _ → (process cfg e m).parked = false)
    obtain ⟨hcl, hpk⟩ := process_clock cfg e m
    have hpark : 0 < (process cfg e m).day → (process cfg e m).day < UINT32_MAX →
        (process cfg e m).band GLOBAL < UINT32_MAX → (process cfg e m).parked = false := by
      intro h1 h2 h3
      rw [hpk]
      have : nextTime (process cfg e m) < UINT32_MAX := by
        unfold nextTime
        simp only []
        generalize (process cfg e m).day = d at *
        generalize (process cfg e m).band GLOBAL = g at *
        have hmin : minBand (process cfg e m) ≤ UINT32_MAX := by
          unfold minBand
          generalize (process cfg e m).band = b
          simp only [List.foldl_cons, List.foldl_nil]
          have key : ∀ x y z : Nat, y ≤ z → (if x > 0 then (if x < y then x else y) else y) ≤ z := by
            intro x y z h
            split
            · split <;> omega
            · exact h
          exact key _ _ _ (key _ _ _ (key _ _ _ (key _ _ _ (key _ _ _ (key _ _ _ (Nat.le_refl _))))))
        generalize minBand (process cfg e m) = x at *
        generalize UINT32_MAX = M at *
        by_cases hxg : x ≤ g
        · rw [if_pos hxg]
          split <;> omega
        · rw [if_neg hxg]
          split <;> omega
      simp [this]
    rcases hcl with ⟨h1, h2⟩ | ⟨h1, h2⟩ | ⟨h1, ⟨f, buf, hjw⟩, h2⟩
    · simp only [Mac.clock, Prod.mk.injEq] at h2
      exact ⟨rfl, h2.1, h2.2.1, h2.2.2.1, Or.inl ⟨h1, h2.2.2.2⟩, hpark⟩
    · simp only [Mac.clock, Prod.mk.injEq] at h2
      exact ⟨rfl, h2.1, h2.2.1, h2.2.2.1, Or.inr ⟨h1, h2.2.2.2⟩, hpark⟩
    · rw [joinsWith_op hjw] at ho'
      cases ho'
  · right
    obtain ⟨a1, a2, a3, a4⟩ := (step_api cfg e m c hp).clock
    rcases a4 with ⟨h1, h2⟩ | ⟨_, h, _⟩ | ⟨⟨_, _, h⟩, _⟩ | ⟨_, h, _⟩
    · exact ⟨hp, a1, a2, h1, h2, a3⟩
    · rw [ho] at h; cases h
    · rw [ho] at h; cases h
    · rw [hj] at h; cases h

/-- The factor never decreases during a join. -/
theorem day_down_step {cfg : Cfg} {m : Mac} (e : Env) (c : Call) (ho : m.op = .joining)
    (hj : m.ctx.joined = false) (ho' : (step cfg m e c).1.op = .joining) : (step cfg m e c).1.day ≤ m.day := by
  rcases step_joining e c ho hj ho' with ⟨_, _, _, h, _⟩ | ⟨_, _, _, h, _⟩
  · rw [h]
    rcases ticked_eq cfg e m with ⟨_, h'⟩ | ⟨_, h'⟩
    · rw [h']
    · simp only [Mac.clock, Prod.mk.injEq] at h'
      rw [h'.2.2.1]
      show (updateDownCounter m.day _).1 ≤ _
      rw [day_down]
      exact Nat.sub_le _ _
  · rw [h]

theorem otaaFactor_mono (d d' : Nat) (h : d' ≤ d) : otaaFactor d ≤ otaaFactor d' := by
  unfold otaaFactor
  by_cases h1 : d' > timeTPS * 23 * 60 * 60
  · rw [if_pos h1, if_pos (by omega)]
  · rw [if_neg h1]
    by_cases h2 : d' > timeTPS * 13 * 60 * 60
    · rw [if_pos h2]
      split
      · omega
      · rw [if_pos (by omega)]
    · rw [if_neg h2]
      split
      · omega
      · split <;> omega

/-- **C34**: the off-time factor never decreases during one join. -/
theorem c34_never_decreases {cfg : Cfg} {m : Mac} (hr : Reachable cfg m) (calls : List (Env × Call))
    (hw : ∀ x ∈ calls, x.2.WF) (hj : Throughout cfg (fun m => m.op = .joining) m calls) :
    getOTAAOffTime m ≤ getOTAAOffTime (run cfg m calls) := by
  have key : ∀ (calls : List (Env × Call)) (m : Mac), Reachable cfg m → (∀ x ∈ calls, x.2.WF) →
      Throughout cfg (fun m => m.op = .joining) m calls → (run cfg m calls).day ≤ m.day := by
    intro calls
    induction calls with
    | nil => intro m _ _ _; exact Nat.le_refl _
    | cons x rest ih =>
      obtain ⟨e, c⟩ := x
      intro m hr hw hj
      have hr' : Reachable cfg (step cfg m e c).1 := .step e c hr (hw (e, c) (by simp))
      have h1 := ih _ hr' (fun y hy => hw y (by simp [hy])) hj.2
      have ho' : (step cfg m e c).1.op = .joining := by
        have := hj.2
        cases rest with
        | nil => exact this
        | cons y rest => exact this.1
      exact Nat.le_trans h1 (day_down_step e c hj.1 (hr.globalOk.unjoined hj.1) ho')
  exact otaaFactor_mono _ _ (key calls m hr hw hj)

/-- The clock of a join that began when the counters were up to date at time `T0`, with remainder `R0`; they now are up to
date at `T`. -/
structure JoinClock (cfg : Cfg) (T0 R0 T : Nat) (m : Mac) : Prop where
  ticks : u32 T = m.timeTicks
  order : T0 ≤ T
  count : ∃ C, C * cfg.tps + m.timeRemainder + counted T0 * 256 = counted T * 256 + R0 ∧ m.day = 86400 * 256 - C
  parked : m.parked = true → m.day = 0 ∨ m.state ≠ .tx

open Classical in
theorem JoinClock.step {cfg : Cfg} (ht : 512 ≤ cfg.tps ∧ cfg.tps ≤ 16000000) {T0 R0 T : Nat} {m : Mac}
    (h : JoinClock cfg T0 R0 T m) (hr : Reachable cfg m) (e : Env) (c : Call) (hw : c.WF) (hle : T ≤ e.now)
    (ho : m.op = .joining) (ho' : (LDL.step cfg m e c).1.op = .joining)
    (hoft : c = .process → m.parked = false → e.now < T + 2 ^ 32) :
    JoinClock cfg T0 R0 (if c = .process ∧ m.parked = false then e.now else T) (LDL.step cfg m e c).1 := by
  have hr' : Reachable cfg (LDL.step cfg m e c).1 := .step e c hr hw
  have hun := hr.globalOk.unjoined ho
  have hbound := hr'.globalOk.bound (hr'.globalOk.unjoined ho')
  have hair := step_air cfg e m c hr.reach.opOk
  have hclk := clock_ok ht hr
  obtain ⟨C, hC, hday⟩ := h.count
  have hM : UINT32_MAX = 4294967295 := rfl
  rcases step_joining e c ho hun ho' with ⟨hc, h1, h2, h3, _, h5⟩ | ⟨hc, h1, h2, h3, h4, h5⟩
  · subst hc
    generalize LDL.step cfg m e .process = r at *
    have hle2 : r.1.day ≤ 86400 * 256 := by
      rw [h3]
      rcases ticked_eq cfg e m with ⟨_, hq⟩ | ⟨_, hq⟩
      · rw [hq, hday]; omega
      · simp only [Mac.clock, Prod.mk.injEq] at hq
        rw [hq.2.2.1]
        show (updateDownCounter m.day _).1 ≤ _
        rw [day_down, hday]; omega
    have hpark : r.1.parked = true → r.1.day = 0 ∨ r.1.state ≠ .tx := by
      intro hp
      by_cases hd : r.1.day = 0
      · exact Or.inl hd
      · have := h5 (by omega) (by omega) hbound
        rw [hp] at this; cases this
    rcases ticked_eq cfg e m with ⟨hp, hq⟩ | ⟨hp, hq⟩
    · rw [if_neg (by rw [hp]; simp)]
      rw [hq] at h1 h2 h3
      exact ⟨by rw [h1]; exact h.ticks, h.order, ⟨C, by rw [h2]; exact hC, by rw [h3]; exact hday⟩, hpark⟩
    · rw [if_pos ⟨rfl, hp⟩]
      simp only [Mac.clock, Prod.mk.injEq] at hq
      obtain ⟨q1, q2, q3, _⟩ := hq
      have hx := elapsed_exact cfg ht (timerDelta m.timeTicks e.ticks) m.timeRemainder
        (timerDelta_lt _ _ hclk.1 (Nat.mod_lt _ (by decide))) hclk.2
      have hcnt := timerDelta_counted T e.now hle (hoft rfl hp)
      rw [h.ticks] at hcnt
      change timerDelta m.timeTicks e.ticks + _ = _ at hcnt
      refine ⟨by rw [h1, q1]; rfl, Nat.le_trans h.order hle, ⟨C + (elapsed cfg (timerDelta m.timeTicks e.ticks) m.timeRemainder).1, ?_, ?_⟩, hpark⟩
      · rw [h2, q2]
        show _ + (elapsed cfg (timerDelta m.timeTicks e.ticks) m.timeRemainder).2 + _ = _
        rw [Nat.add_mul]
        omega
      · rw [h3, q3]
        show (updateDownCounter m.day _).1 = _
        rw [day_down, hday]
        omega
  · rw [if_neg (fun h => hc h.1)]
    generalize LDL.step cfg m e c = r at *
    refine ⟨by rw [h1]; exact h.ticks, h.order, ⟨C, by rw [h2]; exact hC, by rw [h3]; exact hday⟩, fun hp => ?_⟩
    rw [h5] at hp
    rcases h.parked hp with h' | h'
    · left; rw [h3]; exact h'
    · right
      cases hair with
      | off _ h => exact h
      | start h => exact absurd h hc
      | on h => exact absurd h h'
      | finish _ h => exact absurd h h'
      | cancelled _ h => exact absurd h h'

open Classical in
theorem often_cons {cfg : Cfg} {t : Nat} {m : Mac} {e : Env} {c : Call} {rest : List (Env × Call)}
    (h : Often cfg t m ((e, c) :: rest)) : (c = .process → m.parked = false → e.now < t + 2 ^ 32) ∧
      Often cfg (if c = .process ∧ m.parked = false then e.now else t) (step cfg m e c).1 rest := by
  unfold Often at h
  by_cases hc : c = .process ∧ m.parked = false
  · rw [if_pos hc]
    obtain ⟨hc, hp⟩ := hc
    subst hc
    rw [hp] at h
    exact ⟨fun _ _ => h.1, h.2⟩
  · rw [if_neg hc]
    refine ⟨fun h1 h2 => absurd ⟨h1, h2⟩ hc, ?_⟩
    split at h
    · exact absurd ⟨rfl, ‹_›⟩ hc
    · exact h

theorem throughout_head {cfg : Cfg} {P : Mac → Prop} {m : Mac} {l : List (Env × Call)} (h : Throughout cfg P m l) : P m := by
  cases l with
  | nil => exact h
  | cons x l => exact h.1

theorem throughout_append {cfg : Cfg} {P : Mac → Prop} {l l' : List (Env × Call)} : ∀ {m : Mac},
    Throughout cfg P m (l ++ l') → Throughout cfg P m l ∧ Throughout cfg P (run cfg m l) l' := by
  induction l with
  | nil => intro m h; exact ⟨throughout_head h, h⟩
  | cons x l ih => intro m h; exact ⟨⟨h.1, (ih h.2).1⟩, (ih h.2).2⟩

theorem owed_counts {cfg : Cfg} {m : Mac} (hr : Reachable cfg m) (ho : m.op = .joining) (hb : 0 < m.band GLOBAL) :
    m.parked = false := by
  have hlt := hr.globalOk.bound (hr.globalOk.unjoined ho)
  cases hpk : m.parked with
  | false => rfl
  | true => rcases parked_global hr hpk with h | h <;> omega

open Classical in
theorem JoinClock.run {cfg : Cfg} (ht : 512 ≤ cfg.tps ∧ cfg.tps ≤ 16000000) {T0 R0 : Nat} (rest : List (Env × Call))
    (calls : List (Env × Call)) : ∀ {m : Mac} {T t : Nat}, JoinClock cfg T0 R0 T m → Reachable cfg m → T ≤ t →
    InOrder t calls → (∀ x ∈ calls, x.2.WF) → Throughout cfg (fun m => m.op = .joining) m calls →
    Often cfg T m (calls ++ rest) →
    ∃ T', T ≤ T' ∧ T' ≤ endTime t calls ∧ JoinClock cfg T0 R0 T' (LDL.run cfg m calls) ∧
      Often cfg T' (LDL.run cfg m calls) rest ∧ CountedUntil cfg m calls T' := by
  induction calls with
  | nil =>
    intro m T t h _ hle _ _ _ hoft
    exact ⟨T, Nat.le_refl _, hle, h, hoft, fun b e a h => by simp at h⟩
  | cons x calls ih =>
    obtain ⟨e, c⟩ := x
    intro m T t h hr hle ho hw hj hoft
    obtain ⟨o1, o2⟩ := often_cons (rest := calls ++ rest) hoft
    have hwc : c.WF := hw (e, c) (by simp)
    have h1 := h.step ht hr e c hwc (Nat.le_trans hle ho.1) hj.1 (throughout_head hj.2) o1
    obtain ⟨T', k1, k2, k3, k4, k5⟩ := ih h1 (.step e c hr hwc) (by
      split
      · exact e.now_le_done
      · exact Nat.le_trans hle (Nat.le_trans ho.1 e.now_le_done)) ho.2 (fun y hy => hw y (by simp [hy])) hj.2 o2
    refine ⟨T', ?_, k2, k3, k4, ?_⟩
    · refine Nat.le_trans ?_ k1
      split
      · exact Nat.le_trans hle ho.1
      · exact Nat.le_refl _
    · intro before ep after heq hb
      cases before with
      | nil =>
        simp only [List.nil_append, List.cons.injEq, Prod.mk.injEq] at heq
        obtain ⟨⟨rfl, rfl⟩, rfl⟩ := heq
        rw [if_pos ⟨rfl, owed_counts hr hj.1 hb⟩] at k1
        exact k1
      | cons y before =>
        simp only [List.cons_append, List.cons.injEq] at heq
        obtain ⟨rfl, rfl⟩ := heq
        exact k5 before ep after rfl hb

/-- Off-time that was counted from the right moment on stays for its duration, during a join. -/
theorem join_off_time_stays {cfg : Cfg} (calls : List (Env × Call)) :
    ∀ (m : Mac) (t0 t T C D : Nat), Reachable cfg m → t0 ≤ T → T ≤ t → u32 T = m.timeTicks →
    C * cfg.tps + m.timeRemainder ≤ (T - t0) * 256 + cfg.tps → D ≤ C + m.band GLOBAL → InOrder t calls →
    (∀ x ∈ calls, x.2.WF) → Throughout cfg (fun m => m.op = .joining) m calls →
    ∃ C', C' * cfg.tps ≤ (endTime t calls - t0) * 256 + cfg.tps ∧ D ≤ C' + (run cfg m calls).band GLOBAL := by
  induction calls with
  | nil =>
    intro m t0 t T C D _ h1 h2 _ h4 h5 _ _ _
    refine ⟨C, Nat.le_trans (Nat.le_trans (Nat.le_add_right _ _) h4) (Nat.add_le_add_right (Nat.mul_le_mul_right _ ?_) _), h5⟩
    exact Nat.sub_le_sub_right h2 _
  | cons x rest ih =>
    obtain ⟨e, c⟩ := x
    intro m t0 t T C D hr h1 h2 h3 h4 h5 ho hw hj
    have hun := hr.globalOk.unjoined hj.1
    have hwc : c.WF := hw (e, c) (by simp)
    have hr' : Reachable cfg (step cfg m e c).1 := .step e c hr hwc
    have hzero := hr.globalOk.zero hj.1
    have hw' : ∀ y ∈ rest, y.2.WF := fun y hy => hw y (by simp [hy])
    rcases step_joining e c hj.1 hun (throughout_head hj.2) with ⟨hc, g1, g2, g3, g4, _⟩ | ⟨hc, g1, g2, g3, g4, _⟩
    · have hge : (ticked cfg e m).band GLOBAL ≤ (step cfg m e c).1.band GLOBAL := by
        rcases g4 with ⟨hch, _⟩ | ⟨_, g4⟩
        · have := (ticked_global cfg e m).1
          rw [hzero (Or.inr (Or.inr hch.1))] at this
          omega
        · rw [g4]
      rcases ticked_eq cfg e m with ⟨hp, hq⟩ | ⟨hp, hq⟩
      · rw [hq] at g1 g2 hge
        exact ih _ t0 e.done T C D hr' h1 (Nat.le_trans h2 (Nat.le_trans ho.1 e.now_le_done)) (by rw [g1, h3]) (by rw [g2]; exact h4) (by omega) ho.2 hw' hj.2
      · simp only [Mac.clock, Prod.mk.injEq] at hq
        obtain ⟨q1, q2, _, q4⟩ := hq
        have hb := (countDown_bounds m.band (elapsed cfg (timerDelta m.timeTicks e.ticks) m.timeRemainder).1 GLOBAL).1
        have hel := elapsed_le cfg (timerDelta m.timeTicks e.ticks) m.timeRemainder
        have hd := timerDelta_le T e.now (Nat.le_trans h2 ho.1)
        rw [h3] at hd
        change timerDelta m.timeTicks e.ticks ≤ _ at hd
        rw [q4] at hge
        change countDown m.band (elapsed cfg (timerDelta m.timeTicks e.ticks) m.timeRemainder).1 GLOBAL ≤ _ at hge
        have hq2 : (step cfg m e c).1.timeRemainder = (elapsed cfg (timerDelta m.timeTicks e.ticks) m.timeRemainder).2 := by
          rw [g2, q2]; rfl
        have hq1 : (step cfg m e c).1.timeTicks = u32 e.now := by rw [g1, q1]; rfl
        generalize elapsed cfg (timerDelta m.timeTicks e.ticks) m.timeRemainder = el at *
        have hlt := ho.1
        refine ih _ t0 e.done e.now (C + el.1) D hr' (by omega) e.now_le_done hq1.symm ?_ (by omega) ho.2 hw' hj.2
        rw [hq2, Nat.add_mul]
        omega
    · exact ih _ t0 e.done T C D hr' h1 (Nat.le_trans h2 (Nat.le_trans ho.1 e.now_le_done)) (by rw [g1, h3]) (by rw [g2]; exact h4) (by rw [g4]; exact h5)
        ho.2 hw' hj.2

/-- What a join request costs. -/
theorem charged_join (m : Mac) (hop : m.op = .joining) (hz : m.band GLOBAL = 0) (ha : m.tx.airTime ≤ 384) :
    charged m GLOBAL = m.tx.airTime * otaaFactor m.day := by
  rw [charged_eq]
  unfold chargeAll
  rw [if_pos (Or.inl hop), if_pos hop]
  have hb : chargeBand m.ctx.region m.tx.freq m.tx.airTime m.band GLOBAL = 0 := by
    unfold chargeBand
    cases hf : m.ctx.region.getBand m.tx.freq with
    | none => exact hz
    | some b =>
      have hne : b ≠ GLOBAL := by
        unfold Region.getBand at hf
        intro h
        rw [h] at hf
        revert hf
        generalize m.tx.freq = f
        cases m.ctx.region <;> simp only [] <;> repeat' split
        all_goals simp [GLOBAL]
      show addOffTime m.band b _ GLOBAL = 0
      unfold addOffTime
      split <;> simp [upd, Ne.symm hne, hz]
  have hf : otaaFactor m.day ≤ 10000 := by
    have := otaaFactor_mono m.day 0 (Nat.zero_le _)
    exact Nat.le_trans this (by decide)
  have hle : m.tx.airTime * otaaFactor m.day ≤ 384 * 10000 := Nat.mul_le_mul ha hf
  have hu : ∀ x, x ≤ 384 * 10000 → u32 x = x := fun x hx => Nat.mod_eq_of_lt (by omega)
  rw [addOffTime_self, hb, if_neg (Nat.not_lt_zero _), hu _ hle, Nat.zero_add, hu _ hle]

theorem otaa_started {cfg : Cfg} (e : Env) (m : Mac) (h : (step cfg m e .otaa).2 = .ok) :
    m.op = .none ∧ (step cfg m e .otaa).1.day = 86400 * 256 := by
  have ha := step_api cfg e m .otaa (by simp)
  generalize (step cfg m e .otaa).1 = m' at *
  generalize (step cfg m e .otaa).2 = st at *
  cases ha with
  | refused _ _ h' => exact absurd h h'.1
  | otaa _ ho _ m1 hm =>
    refine ⟨ho, ?_⟩
    obtain ⟨_, _, _, _, hs⟩ := nextJoinRequest_shape cfg e
      (Ops.deriveJoinKeys cfg { m with trials := 0, day := 60 * 60 * 24 * timeTPS })
    obtain ⟨k, hk⟩ := deriveJoinKeys_shape cfg { m with trials := 0, day := 60 * 60 * 24 * timeTPS }
    show m1.day = _
    rw [hm, hs, hk]
    rfl

theorem inOrder_append {l l' : List (Env × Call)} : ∀ {t : Nat}, InOrder t (l ++ l') →
    InOrder t l ∧ InOrder (endTime t l) l' := by
  induction l with
  | nil => intro t h; exact ⟨trivial, h⟩
  | cons x l ih => intro t h; exact ⟨⟨h.1, (ih h.2).1⟩, (ih h.2).2⟩

/-- **C34, partial**: a device joins from time `e0.now` on.  After a join request `y` that ended at `e.now` the next one is
not sent before the off-time of `y` is over (but for one unit of 1/256 s), and that off-time is the air time of `y` times
the factor for the time `u` the join has lasted.  The device counts that time up to one unit and one tick per wrap of its
clock, but from the time `T` its clock was last up to date: `c34_after_idle` shows that the factor 100 of the first hour
can be missed because of it.  The off-time is counted from `L` on, which during the first day is the end of the request.
After the first day the clock stands still while no off-time is left, and `L` is the last time it was up to date:
`c34_after_day` shows that the gap then is too short by as much. -/
theorem c34_backoff_partial {cfg : Cfg} (hE : ∀ k, BlockFn (cfg.E k)) (ht : 512 ≤ cfg.tps ∧ cfg.tps ≤ 16000000)
    {m0 : Mac} (hr0 : Reachable cfg m0) (e0 : Env) (hok : (step cfg m0 e0 .otaa).2 = .ok)
    (T : Nat) (hT : T ≤ e0.now) (hclock : m0.timeTicks = u32 T)
    (calls : List (Env × Call)) (e : Env) (calls' : List (Env × Call)) (e' : Env) (c' : Call)
    (hw : ∀ x ∈ calls ++ (e, .process) :: calls' ++ [(e', c')], x.2.WF)
    (ho : InOrder e0.now (calls ++ (e, .process) :: calls' ++ [(e', c')]))
    (hj : Throughout cfg (fun m => m.op = .joining) (step cfg m0 e0 .otaa).1 (calls ++ (e, .process) :: calls'))
    (hoft : Often cfg T (step cfg m0 e0 .otaa).1 (calls ++ [(e, .process)]))
    (m : Mac) (hm : m = run cfg (step cfg m0 e0 .otaa).1 calls)
    (m' : Mac) (hm' : m' = (step cfg m e .process).1)
    (hs : m.state = .tx) (hend : m'.state ≠ .tx)
    (y : TxSetting × Bytes) (hy : (transmitted m.out).getLast? = some y)
    (hx : transmitted (Spec.newEvents (run cfg m' calls') (step cfg (run cfg m' calls') e' c').1) ≠ []) :
    ∃ u L, ((e.now - e0.now - wraps e0.now e.now) * 256 ≤ (u + 1) * cfg.tps ∨ 86400 * 256 ≤ u) ∧
      u * cfg.tps ≤ (e.now - T) * 256 + cfg.tps ∧
      getOTAAOffTime m' = backoff u ∧ airUnits y * backoff u * cfg.tps ≤ (e'.now - L) * 256 + cfg.tps ∧
      L ≤ e.now ∧ CountedUntil cfg (step cfg m0 e0 .otaa).1 calls L ∧ (u < 86400 * 256 → L = e.now) := by
  have hr1 : Reachable cfg (step cfg m0 e0 .otaa).1 := .step e0 .otaa hr0 trivial
  have hclk0 := clock_ok ht hr0
  obtain ⟨hopn, hday0⟩ := otaa_started e0 m0 hok
  have hjc : JoinClock cfg T m0.timeRemainder T (step cfg m0 e0 .otaa).1 := by
    obtain ⟨a1, a2, a3, a4⟩ := (step_api cfg e0 m0 .otaa (by simp)).clock
    have hair := step_air cfg e0 m0 .otaa hr0.reach.opOk
    have hopok := hr0.reach.opOk
    generalize step cfg m0 e0 .otaa = r at *
    refine ⟨by rw [a1, hclock], Nat.le_refl _, ⟨0, by rw [a2]; omega, hday0⟩, fun _ => Or.inr ?_⟩
    cases hair with
    | off _ h => exact h
    | start h => cases h
    | on h =>
      unfold OpOk at hopok
      rw [h, hopn] at hopok
      simp [opAllowed] at hopok
    | finish h => cases h
    | cancelled h => rcases h with h | h <;> cases h
  generalize (step cfg m0 e0 .otaa).1 = m1 at *
  rw [List.append_assoc] at ho hw
  obtain ⟨ho1, ho2⟩ := inOrder_append ho
  obtain ⟨ho3, ho4⟩ := inOrder_append (l := calls') ho2.2
  obtain ⟨hj1, hj2⟩ := throughout_append hj
  have hw1 : ∀ x ∈ calls, x.2.WF := fun x hx => hw x (by simp [hx])
  have hw2 : ∀ x ∈ calls', x.2.WF := fun x hx => hw x (by simp [hx])
  have hrm : Reachable cfg m := by rw [hm]; exact Demo.run_reach hr1 calls hw1
  have hrm' : Reachable cfg m' := by rw [hm']; exact .step e .process hrm trivial
  obtain ⟨T', hT1, hT', hc, hoft', hcu⟩ := hjc.run ht [(e, .process)] calls hr1 hT ho1 hw1 hj1 hoft
  rw [← hm] at hc hoft' hj2
  have hopm : m.op = .joining := hj2.1
  have hj3 : Throughout cfg (fun m => m.op = .joining) m' calls' := by rw [hm']; exact hj2.2
  have hopm' : m'.op = .joining := throughout_head hj3
  have hTe : T' ≤ e.now := Nat.le_trans hT' ho2.1
  obtain ⟨o1, _⟩ := often_cons (rest := []) hoft'
  have hc' := hc.step ht hrm e .process trivial hTe hopm (hm' ▸ hopm') o1
  rw [← hm'] at hc'
  -- off-time was being counted, or the day is over
  have hpk : m.parked = false ∨ m'.day = 0 := by
    cases hp : m.parked with
    | false => exact Or.inl rfl
    | true =>
      right
      have hd : m.day = 0 := by
        rcases hc.parked hp with h | h
        · exact h
        · exact absurd hs h
      have := day_down_step e .process hopm (hrm.globalOk.unjoined hopm) (hm' ▸ hopm')
      rw [← hm'] at this
      omega
  have hL : ∃ L, T' ≤ L ∧ L ≤ e.now ∧ (m.parked = false → L = e.now) ∧ JoinClock cfg T m0.timeRemainder L m' := by
    refine ⟨_, ?_, ?_, fun hp => if_pos ⟨rfl, hp⟩, hc'⟩
    · split
      · exact hTe
      · exact Nat.le_refl _
    · split
      · exact Nat.le_refl _
      · exact hTe
  clear hc'
  obtain ⟨L, hL1, hL2, hL3, hc'⟩ := hL
  obtain ⟨u, hu1, hu2⟩ := hc'.count
  have hfac : getOTAAOffTime m' = backoff u := by
    rw [← otaaFactor_backoff, ← hu2]; rfl
  have hrem := (clock_ok ht hrm').2
  have hch : Charges m e := by
    have hair := step_air cfg e m .process hrm.reach.opOk
    rw [← hm'] at hair
    cases hair with
    | off h => exact absurd hs h
    | start _ h => rw [hs] at h; cases h
    | on _ h => exact absurd h hend
    | finish _ _ _ h => exact h
    | cancelled h => rcases h with h | h <;> cases h
  obtain ⟨ha, y', hy', hya⟩ := joinInProgress hE hrm hs hopm
  rw [hy] at hy'
  cases hy'
  have hband : m'.band GLOBAL = airUnits y * backoff u := by
    have hz := hrm.globalOk.zero hopm (Or.inr (Or.inr hs))
    have htg := (ticked_global cfg e m).1
    rw [hz] at htg
    have hsj := step_joining e .process hopm (hrm.globalOk.unjoined hopm) (hm' ▸ hopm')
    rw [← hm'] at hsj
    rcases hsj with ⟨_, _, _, h3, h4, _⟩ | ⟨h, _⟩
    · rcases h4 with ⟨_, h4⟩ | ⟨h4, _⟩
      · obtain ⟨_, _, f3⟩ := ticked_fields cfg e m
        have ftx : (ticked cfg e m).tx = m.tx := (ticked_fields cfg e m).2.1
        have fop : (ticked cfg e m).op = .joining := by
          obtain ⟨_, _, _, _, _, h, _⟩ := processBands_shape cfg e m
          unfold ticked
          rw [h]
          exact hopm
        rw [h4, charged_join _ fop (by omega) (by rw [ftx]; exact ha), ftx, ← h3, hya]
        congr 1
      · exact absurd hch h4
    · exact absurd rfl h
  obtain ⟨C', k1, k2⟩ := join_off_time_stays (cfg := cfg) calls' m' L e.done L 0 (airUnits y * backoff u) hrm'
    (Nat.le_refl _) (Nat.le_trans hL2 e.now_le_done) hc'.ticks (by omega) (by omega) ho3 hw2 hj3
  have hz2 : (run cfg m' calls').band GLOBAL = 0 := by
    have hr2 : Reachable cfg (run cfg m' calls') := Demo.run_reach hrm' calls' hw2
    have hop2 : (run cfg m' calls').op = .joining := by
      have : Throughout cfg (fun m => m.op = .joining) m' (calls' ++ []) := by rw [List.append_nil]; exact hj3
      exact throughout_head (throughout_append this).2
    have hair := step_air cfg e' (run cfg m' calls') c' hr2.reach.opOk
    change transmissions (newEvents _ _) ≠ [] at hx
    cases hair with
    | off _ _ h => exact absurd h hx
    | start _ h => exact hr2.globalOk.zero hop2 (Or.inr (Or.inl h))
    | on _ _ _ _ h => exact absurd h hx
    | finish _ _ _ _ h => exact absurd h hx
    | cancelled _ _ _ h => exact absurd h hx
  rw [hz2, Nat.add_zero] at k2
  have hend' : ∀ C, m'.day = 86400 * 256 - C → m.parked = true → 86400 * 256 ≤ C := by
    intro C hC hp
    rcases hpk with h | h
    · rw [hp] at h; cases h
    · omega
  refine ⟨u, L, ?_, ?_, hfac, ?_, hL2, fun b e a h1 h2 => Nat.le_trans (hcu b e a h1 h2) hL1, fun hu => ?_⟩
  · cases hp : m.parked with
    | true => exact Or.inr (hend' u hu2 hp)
    | false =>
      left
      have hLe := hL3 hp
      have h1 : e.now - e0.now - wraps e0.now e.now + counted T ≤ counted e.now := by
        have : endTime e0.now calls ≤ e.now := ho2.1
        have := endTime_snoc e0.now calls ho1
        unfold wraps counted
        omega
      rw [Nat.add_mul]
      rw [hLe] at hu1
      omega
  · have h1 : counted L ≤ counted T + (e.now - T) := by
      have := hc'.order
      unfold counted; omega
    have := hclk0.2
    omega
  · have h1 := Nat.mul_le_mul_right cfg.tps k2
    have h2 : endTime e.done calls' ≤ e'.now := ho4.1
    have h3 : (endTime e.done calls' - L) * 256 ≤ (e'.now - L) * 256 :=
      Nat.mul_le_mul_right _ (Nat.sub_le_sub_right h2 _)
    omega
  · cases hp : m.parked with
    | true => have := hend' u hu2 hp; omega
    | false => exact hL3 hp

instance (cfg : Cfg) : (t : Nat) → (m : Mac) → (l : List (Env × Call)) → Decidable (Often cfg t m l)
  | _, _, [] => isTrue trivial
  | t, m, (e, c) :: rest => by
    have h1 := instDecidableOften cfg e.now (step cfg m e c).1 rest
    have h2 := instDecidableOften cfg t (step cfg m e c).1 rest
    unfold Often
    split
    · exact inferInstanceAs (Decidable (_ ∧ _))
    · exact h2

instance (cfg : Cfg) (P : Mac → Prop) [∀ m, Decidable (P m)] : (m : Mac) → (l : List (Env × Call)) →
    Decidable (Throughout cfg P m l)
  | m, [] => inferInstanceAs (Decidable (P m))
  | m, (e, c) :: rest =>
    have := instDecidableThroughout cfg P (step cfg m e c).1 rest
    inferInstanceAs (Decidable (_ ∧ _))

/-- From `LDL_MAC_otaa` at time `t` to the end of the first join request. -/
def firstRequest (t : Nat) : List (Env × Call) :=
  Demo.processAt [t, t + 1, t + 30000, t + 60000] ++ [(Demo.at_ (t + 1500000), .radioEvent (t + 1500000))]

/-- Both receive windows without reception, and on to the next join request. -/
def nextRequest : List (Env × Call) :=
  Demo.processAt [6530000, 6532000] ++ Demo.rxNone 6570000 ++ Demo.processAt [7530000, 7532000] ++ Demo.rxNone 7570000 ++
    Demo.processAt [10100000, 10100001, 10100002, 10101000]

/-- The hypotheses of `c34_backoff_partial` for a device that is started, joins, and gets no answer. -/
example : (let m0 := Demo.idle
    let r := step Demo.cfg m0 (Demo.at_ 20000) .otaa
    let e : Env := { now := 1520000, statusTx := true }
    let m := run Demo.cfg r.1 (firstRequest 20000)
    let m' := (step Demo.cfg m e .process).1
    r.2 = .ok ∧ m0.timeTicks = u32 0 ∧
    (∀ x ∈ firstRequest 20000 ++ (e, .process) :: nextRequest ++ [(Demo.at_ 10150000, .process)], x.2.WF) ∧
    InOrder 20000 (firstRequest 20000 ++ (e, .process) :: nextRequest ++ [(Demo.at_ 10150000, .process)]) ∧
    Throughout Demo.cfg (fun m => m.op = .joining) r.1 (firstRequest 20000 ++ (e, .process) :: nextRequest) ∧
    Often Demo.cfg 0 r.1 (firstRequest 20000 ++ [(e, .process)]) ∧
    m.state = .tx ∧ m'.state ≠ .tx ∧ (transmitted m.out).getLast?.map airUnits = some 15 ∧
    transmitted (Spec.newEvents (run Demo.cfg m' nextRequest)
      (step Demo.cfg (run Demo.cfg m' nextRequest) (Demo.at_ 10150000) .process).1) ≠ []) := by decide +kernel

/-- C34 is false of the code: a device that was idle for 70 minutes and then joins uses the factor 1000 from the first
join request on, one and a half seconds after the join began.  The clock stands still while nothing is counted, and the
time since it stopped is taken for time spent joining. -/
theorem c34_after_idle :
    let t := 4200000000
    let m0 := run Demo.cfg Demo.start (Demo.boot ++ Demo.processAt [t])
    let r := step Demo.cfg m0 (Demo.at_ t) .otaa
    let m' := run Demo.cfg r.1 (firstRequest t ++ [({ now := t + 1500000, statusTx := true }, .process)])
    Reachable Demo.cfg m0 ∧ r.2 = .ok ∧ InOrder t (firstRequest t) ∧ m'.state = .waitRX1 ∧
    (transmitted m'.out).map airUnits = [15] ∧ m'.band GLOBAL = 15 * 1000 ∧ getOTAAOffTime m' = 1000 :=
  ⟨Demo.run_reach Demo.start_reachable _ (by decide +kernel), by decide +kernel, by decide +kernel, by decide +kernel,
    by decide +kernel, by decide +kernel, by decide +kernel⟩

/-! ## After the first day -/

namespace DayDemo

/-- A clock of 32768 ticks a second. -/
def cfg : Cfg := { E := fun _ b => b, a := 30, tps := 32768 }

/-- The clock at a time in tenths of a second. -/
def at_ (t : Nat) : Env := { now := t * 32768 / 10 }

def processAt (ts : List Nat) : List (Env × Call) := ts.map fun t => (at_ t, .process)

def idle : Mac := run cfg (init cfg .eu868 {} (at_ 0)) (processAt [0, 1, 2])

def start : Mac := (step cfg idle (at_ 10) .otaa).1

/-- A join request that is on the air for two seconds, without the processing of its end. -/
def request (t : Nat) : List (Env × Call) :=
  processAt [t, t + 1, t + 2] ++ [(at_ (t + 20), .radioEvent ((at_ (t + 20)).now % 2 ^ 32))]

def done (t : Nat) : Env := { at_ (t + 20) with statusTx := true }

def rxNone (t : Nat) : List (Env × Call) :=
  [(at_ t, .radioEvent ((at_ t).now % 2 ^ 32)), ({ at_ t with statusTimeout := true }, .process)]

/-- Both windows of the request, without reception. -/
def windows (t : Nat) : List (Env × Call) :=
  processAt [t + 70, t + 71] ++ rxNone (t + 75) ++ processAt [t + 80, t + 81] ++ rxNone (t + 85) ++ processAt [t + 130]

/-- Requests after a second, 10 hours and 25 hours. -/
def calls : List (Env × Call) :=
  request 11 ++ (done 11, .process) :: windows 11 ++ processAt [359999] ++
  request 360000 ++ (done 360000, .process) :: windows 360000 ++ processAt [900000, 900001] ++ request 900300

/-- On to the next request. -/
def calls' : List (Env × Call) := windows 900300 ++ processAt [918760, 918761]

end DayDemo

open DayDemo in
/-- The hypotheses of `c34_backoff_partial` for the third request. -/
example : (let m := run DayDemo.cfg DayDemo.start calls
    let e := done 900300
    let m' := (step DayDemo.cfg m e .process).1
    (step DayDemo.cfg DayDemo.idle (DayDemo.at_ 10) .otaa).2 = .ok ∧ DayDemo.idle.timeTicks = u32 0 ∧
    (∀ x ∈ calls ++ (e, .process) :: calls' ++ [(DayDemo.at_ 918762, .process)], x.2.WF) ∧
    InOrder (DayDemo.at_ 10).now (calls ++ (e, .process) :: calls' ++ [(DayDemo.at_ 918762, .process)]) ∧
    Throughout DayDemo.cfg (fun m => m.op = .joining) DayDemo.start (calls ++ (e, .process) :: calls') ∧
    Often DayDemo.cfg 0 DayDemo.start (calls ++ [(e, .process)]) ∧ m.state = .tx ∧ m'.state ≠ .tx) := by decide +kernel

open DayDemo in
/-- The gap after a request is too short after the first day: the third request is followed by another 1844.2 s later,
although its off-time by the factor 10000 is 1875 s.  The clock stands still while no off-time is left, here for 32 s, and
the time since it stopped is taken off the new off-time. -/
theorem c34_after_day :
    let m := run DayDemo.cfg DayDemo.start (calls ++ [(done 900300, .process)])
    let r := step DayDemo.cfg (run DayDemo.cfg m calls') (DayDemo.at_ 918762) .process
    Reachable DayDemo.cfg m ∧ m.state = .waitRX1 ∧ getOTAAOffTime m = 10000 ∧
    (transmitted m.out).getLast?.map airUnits = some 48 ∧
    Throughout DayDemo.cfg (fun m => m.op = .joining) m calls' ∧
    (transmitted (Spec.newEvents (run DayDemo.cfg m calls') r.1)).length = 1 ∧
    ((DayDemo.at_ 918762).now - (done 900300).now) * 256 + DayDemo.cfg.tps < 48 * 10000 * DayDemo.cfg.tps := by
  refine ⟨?_, by decide +kernel, by decide +kernel, by decide +kernel, by decide +kernel, by decide +kernel, by decide +kernel⟩
  refine Demo.run_reach ?_ _ (by decide +kernel)
  refine .step _ _ (Demo.run_reach (.init _ _ _ (by simp) ⟨rfl, rfl, rfl, rfl, by decide, by decide⟩) _ (by decide +kernel)) ?_
  trivial

end LDL
