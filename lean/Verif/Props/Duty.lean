import Verif.Lemmas.Wedge
import Verif.Lemmas.Buffer
import Verif.Props.Transmit
import Verif.Spec.Duty

/-!
# Duty cycle: C32, C33, C60
-/

namespace LDL
open Spec

theorem u32_eq (a : Nat) : u32 a = a % 4294967296 := rfl

theorem timerDelta_le (a b : Nat) (h : a ≤ b) : timerDelta (u32 a) (u32 b) ≤ b - a := by
  have h3 : UINT32_MAX = 4294967295 := rfl
  have h1 := u32_eq a
  have h2 := u32_eq b
  unfold timerDelta
  by_cases hc : u32 a ≤ u32 b
  · rw [if_pos hc]; omega
  · rw [if_neg hc]; omega

theorem elapsed_le (cfg : Cfg) (since rem : Nat) :
    (elapsed cfg since rem).1 * cfg.tps + (elapsed cfg since rem).2 ≤ since * 256 + rem := by
  have key : ∀ n F T : Nat, F ≤ since % n * 256 + rem → T ≤ since / n * 256 + F / n →
      T * n + F % n ≤ since * 256 + rem := by
    intro n F T hf ht
    have h2 := Nat.mul_le_mul_right n ht
    have h3 := Nat.div_add_mod since n
    have h4 := Nat.div_add_mod F n
    rw [Nat.add_mul] at h2
    have h5 : since / n * 256 * n = 256 * (n * (since / n)) := by
      rw [Nat.mul_comm (since / n) 256, Nat.mul_assoc, Nat.mul_comm (since / n) n]
    have h6 : F / n * n = n * (F / n) := Nat.mul_comm _ _
    omega
  exact key cfg.tps _ _ (Nat.mod_le _ _) (Nat.mod_le _ _)

theorem countDown_bounds (band : Nat → Nat) (time i : Nat) :
    band i ≤ countDown band time i + time ∧ countDown band time i ≤ band i := by
  unfold countDown updateDownCounter
  split
  · split
    · split <;> simp only [] <;> omega
    · simp only []; omega
  · omega

theorem addOffTime_other (band : Nat → Nat) (i j off : Nat) (h : j ≠ i) : addOffTime band i off j = band j := by
  unfold addOffTime
  split <;> simp [upd, h]

theorem addOffTime_self (band : Nat → Nat) (i off : Nat) :
    addOffTime band i off i = if u32 (band i + off) < band i then UINT32_MAX else u32 (band i + off) := by
  unfold addOffTime
  by_cases hc : u32 (band i + off) < band i
  · rw [if_pos hc]; simp only [hc, if_true, upd]
  · rw [if_neg hc]; simp only [hc, if_false, upd, if_true]

theorem factor_band (r : Region) (f b : Nat) (h : band r f = some b) :
    b < GLOBAL ∧ r.getOffTimeFactor b = (offTimeFactor r f).getD 0 ∧ r.getOffTimeFactor b ≤ 1000 := by
  unfold band at h
  unfold Region.getOffTimeFactor offTimeFactor
  cases r <;> simp only [] at h ⊢
  case eu868 =>
    by_cases h1 : 863000000 ≤ f ∧ f ≤ 868000000
    · rw [if_pos h1] at h; cases h; rw [if_pos (show 863000000 ≤ f ∧ f ≤ 868600000 by omega)]; simp [GLOBAL]
    · rw [if_neg h1] at h
      by_cases h2 : 868000000 < f ∧ f ≤ 868600000
      · rw [if_pos h2] at h; cases h; rw [if_pos (show 863000000 ≤ f ∧ f ≤ 868600000 by omega)]; simp [GLOBAL]
      · rw [if_neg h2] at h; rw [if_neg (show ¬ (863000000 ≤ f ∧ f ≤ 868600000) by omega)]
        by_cases h3 : 868700000 ≤ f ∧ f ≤ 869200000
        · rw [if_pos h3] at h; cases h; rw [if_pos h3]; simp [GLOBAL]
        · rw [if_neg h3] at h; rw [if_neg h3]
          by_cases h4 : 869400000 ≤ f ∧ f ≤ 869650000
          · rw [if_pos h4] at h; cases h; rw [if_pos h4]; simp [GLOBAL]
          · rw [if_neg h4] at h; rw [if_neg h4]
            by_cases h5 : 869700000 ≤ f ∧ f < 870000000
            · rw [if_pos h5] at h; cases h; rw [if_pos h5]; simp [GLOBAL]
            · rw [if_neg h5] at h; cases h
  all_goals cases h; simp [GLOBAL]

/-- The off-time of the transmission in progress that is not charged yet. -/
def inFlight (b : Nat) (m : Mac) : Nat :=
  if m.state = .tx then
    if band m.ctx.region m.tx.freq = some b then m.tx.airTime * m.ctx.region.getOffTimeFactor b else 0
  else 0

theorem getAirTime_le (bw : Bw) (sf size : Nat) (crc : Bool) : getAirTime bw sf size crc ≤ 4294968 := by
  unfold getAirTime
  simp only []
  generalize u32 _ + u32 _ = x
  unfold u32
  omega

theorem msToTime_eq (ms : Nat) (h : ms ≤ 4294968) : msToTime ms = (ms * 256 + 999) / 1000 := by
  have hu : u32 (ms * timeTPS) = ms * 256 := Nat.mod_eq_of_lt (by unfold timeTPS; omega)
  unfold msToTime
  rw [hu]
  generalize ms * 256 = x
  dsimp only
  by_cases h : x % 1000 > 0
  · rw [if_pos h]; omega
  · rw [if_neg h]; omega

/-- What a transmission costs, when it begins. -/
theorem owed_start {cfg : Cfg} (m : Mac) (hb : BufOk cfg m) (ho : m.op.isTx) (b : Nat) :
    owed m.ctx.region b (txSetting m, m.frame) =
      (if band m.ctx.region m.tx.freq = some b then
        msToTime (txAirTime m) * m.ctx.region.getOffTimeFactor b else 0) ∧ msToTime (txAirTime m) ≤ 1100000 := by
  have hle : txAirTime m ≤ 4294968 := getAirTime_le _ _ _ _
  have hlen : m.frame.length = m.bufferLen := by
    unfold Mac.frame
    rw [List.length_take, hb.buffer]
    have := (hb.len ho)
    omega
  have hu : airUnits (txSetting m, m.frame) = msToTime (txAirTime m) := by
    rw [msToTime_eq _ hle]
    unfold airUnits
    simp only [hlen]
    rfl
  refine ⟨?_, ?_⟩
  · unfold owed
    show (if band m.ctx.region m.tx.freq = some b then _ else 0) = _
    by_cases h : band m.ctx.region m.tx.freq = some b
    · rw [if_pos h, if_pos h, hu, (factor_band _ _ _ h).2.1]
      rfl
    · rw [if_neg h, if_neg h]
  · rw [msToTime_eq _ hle]; omega

/-- The counter of a band after a transmission was charged. -/
theorem charged_band (m : Mac) (b : Nat) (hb : b ≠ GLOBAL) :
    charged m b = if band m.ctx.region m.tx.freq = some b then
      addOffTime m.band b (u32 (m.tx.airTime * m.ctx.region.getOffTimeFactor b)) b else m.band b := by
  rw [charged_eq]
  have h1 : ∀ (op : Op) (dc day at_ : Nat) (bd : Nat → Nat), chargeAll op dc day at_ bd b = bd b := by
    intro op dc day at_ bd
    unfold chargeAll
    split
    · exact addOffTime_other _ _ _ _ hb
    · rfl
  rw [h1]
  unfold chargeBand
  rw [getBand_spec]
  cases h : band m.ctx.region m.tx.freq with
  | none => simp
  | some b' =>
    simp only [Option.some.injEq]
    by_cases hbb : b' = b
    · subst hbb; rw [if_pos rfl]
    · rw [if_neg hbb]; exact addOffTime_other _ _ _ _ (fun h => hbb h.symm)

theorem ticked_fields (cfg : Cfg) (e : Env) (m : Mac) :
    (ticked cfg e m).ctx = m.ctx ∧ (ticked cfg e m).tx = m.tx ∧ (ticked cfg e m).state = m.state := by
  obtain ⟨_, _, _, _, _, h, _⟩ := processBands_shape cfg e m
  unfold ticked
  rw [h]
  exact ⟨rfl, rfl, rfl⟩

theorem ticked_eq (cfg : Cfg) (e : Env) (m : Mac) :
    (m.parked = true ∧ ticked cfg e m = m) ∨ (m.parked = false ∧ (ticked cfg e m).clock = (tickBands cfg e m).clock) := by
  unfold ticked processBands
  cases hp : m.parked
  · right
    refine ⟨rfl, ?_⟩
    simp only [Bool.false_eq_true, if_false]
    split <;> rfl
  · left
    exact ⟨rfl, by simp⟩

open Classical in
/-- The effect of a call on the counter of a band: the time since the last update is counted, and a transmission that
ends is charged. -/
theorem step_band {cfg : Cfg} {b : Nat} (m : Mac) (hb : b ≠ GLOBAL) (e : Env) (c : Call) :
    ∃ B, B ≤ m.band b ∧
      ((step cfg m e c).1.timeTicks = m.timeTicks ∧ (step cfg m e c).1.timeRemainder = m.timeRemainder ∧ B = m.band b ∧
          (c = .process → m.parked = true) ∨
       c = .process ∧ m.parked = false ∧ (step cfg m e c).1.timeTicks = e.ticks ∧
        (∃ n, (step cfg m e c).1.timeRemainder = n % cfg.tps) ∧
        ∃ d, d * cfg.tps + (step cfg m e c).1.timeRemainder ≤ timerDelta m.timeTicks e.ticks * 256 + m.timeRemainder ∧
          m.band b ≤ d + B) ∧
      (step cfg m e c).1.band b =
        if c = .process ∧ Charges m e ∧ band m.ctx.region m.tx.freq = some b then
          (fun off => if u32 (B + off) < B then UINT32_MAX else u32 (B + off))
            (u32 (m.tx.airTime * m.ctx.region.getOffTimeFactor b)) else B := by
  by_cases hp : c = .process
  · subst hp
    generalize hm' : (step cfg m e .process).1 = m'
    have hclk := (process_clock cfg e m).1
    change process cfg e m = m' at hm'
    rw [hm'] at hclk
    obtain ⟨f1, f2, _⟩ := ticked_fields cfg e m
    refine ⟨(ticked cfg e m).band b, ?_, ?_, ?_⟩
    · rcases ticked_eq cfg e m with ⟨_, hq⟩ | ⟨_, hq⟩
      · rw [hq]
      · simp only [Mac.clock, Prod.mk.injEq] at hq
        rw [hq.2.2.2]
        exact (countDown_bounds _ _ _).2
    · have h1 : m'.timeTicks = (ticked cfg e m).timeTicks := by
        rcases hclk with ⟨_, hq⟩ | ⟨_, hq⟩ | ⟨_, _, hq⟩ <;> simp only [Mac.clock, Prod.mk.injEq] at hq <;> rw [hq.1]
      have h2 : m'.timeRemainder = (ticked cfg e m).timeRemainder := by
        rcases hclk with ⟨_, hq⟩ | ⟨_, hq⟩ | ⟨_, _, hq⟩ <;> simp only [Mac.clock, Prod.mk.injEq] at hq <;> rw [hq.2.1]
      rcases ticked_eq cfg e m with ⟨hpk, hq⟩ | ⟨hpk, hq⟩
      · left
        rw [h1, h2, hq]
        exact ⟨rfl, rfl, rfl, fun _ => hpk⟩
      · right
        simp only [Mac.clock, Prod.mk.injEq] at hq
        obtain ⟨q1, q2, _, q4⟩ := hq
        rw [h1, h2, q1, q2, q4]
        exact ⟨rfl, hpk, rfl, ⟨_, rfl⟩, _, elapsed_le cfg _ _,
          Nat.add_comm _ _ ▸ (countDown_bounds m.band (elapsed cfg (timerDelta m.timeTicks e.ticks) m.timeRemainder).1 b).1⟩
    · rcases hclk with ⟨hch, hq⟩ | ⟨hch, hq⟩ | ⟨hch, _, hq⟩ <;> simp only [Mac.clock, Prod.mk.injEq] at hq
      · rw [hq.2.2.2, charged_band _ _ hb, f1, f2]
        by_cases hbd : band m.ctx.region m.tx.freq = some b
        · rw [if_pos hbd, if_pos ⟨rfl, hch, hbd⟩]
          rw [addOffTime_self]
        · rw [if_neg hbd, if_neg (fun h => hbd h.2.2)]
      · rw [hq.2.2.2, if_neg (fun h => hch h.2.1)]
      · rw [hq.2.2.2, if_neg (fun h => hch h.2.1)]
        simp [upd, hb]
  · obtain ⟨a1, a2, _, a3⟩ := (step_api cfg e m c hp).clock
    refine ⟨m.band b, Nat.le_refl _, Or.inl ⟨a1, a2, rfl, fun h => absurd h hp⟩, ?_⟩
    rw [if_neg (fun h => hp h.1)]
    rcases a3 with ⟨_, h⟩ | ⟨_, _, _, _, h⟩ | ⟨_, _, h⟩ | ⟨_, _, _, h⟩ <;> rw [h]
    all_goals simp [upd, hb]

open Classical in
/-- The same with `T`, the time at which the counters were up to date. -/
theorem step_counter {cfg : Cfg} {b : Nat} (m : Mac) (hb : b ≠ GLOBAL) (e : Env) (c : Call) {T : Nat} (h2 : T ≤ e.now)
    (h3 : u32 T = m.timeTicks) :
    ∃ T' d B, T ≤ T' ∧ T' ≤ e.now ∧ u32 T' = (step cfg m e c).1.timeTicks ∧
      d * cfg.tps + (step cfg m e c).1.timeRemainder ≤ (T' - T) * 256 + m.timeRemainder ∧
      m.band b ≤ d + B ∧ B ≤ m.band b ∧
      (step cfg m e c).1.band b =
        if c = .process ∧ Charges m e ∧ band m.ctx.region m.tx.freq = some b then
          (fun off => if u32 (B + off) < B then UINT32_MAX else u32 (B + off))
            (u32 (m.tx.airTime * m.ctx.region.getOffTimeFactor b)) else B := by
  obtain ⟨B, h4, h5, h6⟩ := step_band (cfg := cfg) m hb e c
  rcases h5 with ⟨a1, a2, a3, _⟩ | ⟨_, _, a1, _, d, a2, a3⟩
  · exact ⟨T, 0, B, Nat.le_refl _, h2, by rw [a1, h3], by rw [a2]; omega, by omega, h4, h6⟩
  · have hd := timerDelta_le T e.now h2
    rw [h3] at hd
    refine ⟨e.now, d, B, h2, Nat.le_refl _, a1.symm, ?_, a3, h4, h6⟩
    exact Nat.le_trans a2 (Nat.add_le_add_right (Nat.mul_le_mul_right _ hd) _)

/-- The invariant: `T` is the time up to which the counters are up to date, `C` the time counted (in units of 1/256 s)
and `H` the off-time of all transmissions. -/
structure DutyInv (cfg : Cfg) (b t0 t H : Nat) (m : Mac) : Prop where
  time : ∃ T C, t0 ≤ T ∧ T ≤ t ∧ u32 T = m.timeTicks ∧ C * cfg.tps + m.timeRemainder ≤ (T - t0) * 256 ∧
    H ≤ C + m.band b + inFlight b m
  air : m.state = .tx → m.tx.airTime ≤ 1100000
  upper : m.band b + inFlight b m ≤ H
  word : m.band b < 4294967296

open Classical in
/-- The invariant is kept, as long as the counter is not full. -/
theorem DutyInv.step {cfg : Cfg} (hE : ∀ k, BlockFn (cfg.E k)) {b t0 t H : Nat} {m : Mac} (hb : b ≠ GLOBAL)
    (h : DutyInv cfg b t0 t H m) (hr : Reachable cfg m) (e : Env) (c : Call) (hw : c.WF) (ht : t ≤ e.now)
    (hc : m.state = .tx → c ≠ .cancel ∧ c ≠ .forget) (hsat : (LDL.step cfg m e c).1.band b < UINT32_MAX ∨
      H + owedAll m.ctx.region b (transmitted ((LDL.step cfg m e c).1.out.drop m.out.length)) < UINT32_MAX) :
    DutyInv cfg b t0 e.done (H + owedAll m.ctx.region b (transmitted ((LDL.step cfg m e c).1.out.drop m.out.length)))
      (LDL.step cfg m e c).1 := by
  obtain ⟨⟨T, C, h1, h2, h3, h4, h5⟩, hair, hup, hword⟩ := h
  have hreg : (LDL.step cfg m e c).1.ctx.region = m.ctx.region :=
    step_session (region_closed cfg m.ctx.region) e m c hw rfl
  have ha := step_air cfg e m c hr.reach.opOk
  have hbuf := hr.bufOk hE
  have hclock := step_counter (cfg := cfg) m hb e c (Nat.le_trans h2 ht) h3
  change AirStep cfg e m c (LDL.step cfg m e c).1 at ha
  generalize LDL.step cfg m e c = r at ha hclock hsat hreg
  generalize r.1 = m' at ha hclock hsat hreg
  obtain ⟨T', d, B, g1, g2, g3, g4, g5, g6, g7⟩ := hclock
  replace g2 : T' ≤ e.done := Nat.le_trans g2 e.now_le_done
  obtain ⟨C', hC⟩ : ∃ C', C' = C + d := ⟨_, rfl⟩
  replace g4 : C' * cfg.tps + m'.timeRemainder ≤ (T' - t0) * 256 := by rw [hC, Nat.add_mul]; omega
  replace g1 : t0 ≤ T' := Nat.le_trans h1 g1
  have hzero : owedAll m.ctx.region b [] = 0 := rfl
  have hB : B < 4294967296 := by omega
  cases ha with
  | off hs hs' htr =>
    change transmitted (m'.out.drop m.out.length) = [] at htr
    rw [htr, hzero]
    rw [if_neg (fun h => hs h.2.1.1)] at g7
    have i1 : inFlight b m = 0 := if_neg hs
    have i2 : inFlight b m' = 0 := if_neg hs'
    exact ⟨⟨T', C', g1, g2, g3, g4, by rw [i2]; omega⟩, fun h => absurd h hs', by rw [i2]; omega, by omega⟩
  | start hcp hs hs' htr htx =>
    change transmitted (m'.out.drop m.out.length) = _ at htr
    rw [htr]
    have htx' : m.op.isTx := by
      have := hr.reach.opOk
      unfold OpOk at this
      rw [hs] at this
      revert this
      generalize m.op = o
      cases o <;> simp [opAllowed, Op.isTx]
    obtain ⟨o1, o2⟩ := owed_start m hbuf htx' b
    have hone : owedAll m.ctx.region b [(txSetting m, m.frame)] = owed m.ctx.region b (txSetting m, m.frame) := by
      simp [owedAll]
    rw [hone, o1]
    rw [if_neg (fun h => by have := h.2.1.1; rw [hs] at this; cases this)] at g7
    have i1 : inFlight b m = 0 := if_neg (by rw [hs]; decide)
    have i2 : inFlight b m' = if band m.ctx.region m.tx.freq = some b then
        msToTime (txAirTime m) * m.ctx.region.getOffTimeFactor b else 0 := by
      unfold inFlight
      rw [if_pos hs', hreg, htx]
    exact ⟨⟨T', C', g1, g2, g3, g4, by rw [i2]; omega⟩, fun _ => by rw [htx]; exact o2, by rw [i2]; omega, by omega⟩
  | on hs hs' hn htx htr =>
    change transmitted (m'.out.drop m.out.length) = [] at htr
    rw [htr, hzero]
    rw [if_neg (fun h => hn ⟨h.1, h.2.1⟩)] at g7
    have i2 : inFlight b m' = inFlight b m := by
      unfold inFlight
      rw [if_pos hs', if_pos hs, hreg, htx]
    exact ⟨⟨T', C', g1, g2, g3, g4, by rw [i2]; omega⟩, fun _ => by rw [htx]; exact hair hs, by rw [i2]; omega, by omega⟩
  | finish hcp hs hs' hn htr =>
    change transmitted (m'.out.drop m.out.length) = [] at htr
    rw [htr, hzero] at hsat ⊢
    have i2 : inFlight b m' = 0 := if_neg hs'
    by_cases hbd : band m.ctx.region m.tx.freq = some b
    · rw [if_pos ⟨hcp, hn, hbd⟩] at g7
      have i1 : inFlight b m = m.tx.airTime * m.ctx.region.getOffTimeFactor b := by
        unfold inFlight
        rw [if_pos hs, if_pos hbd]
      have hoff : m.tx.airTime * m.ctx.region.getOffTimeFactor b ≤ 1100000 * 1000 :=
        Nat.mul_le_mul (hair hs) (factor_band _ _ _ hbd).2.2
      rw [i1] at h5 hup
      generalize m.tx.airTime * m.ctx.region.getOffTimeFactor b = off at *
      have hu : u32 off = off := Nat.mod_eq_of_lt (by omega)
      rw [hu] at g7
      have hM : UINT32_MAX = 4294967295 := rfl
      have hv := u32_eq (B + off)
      have hfin : m'.band b = B + off := by
        by_cases hov : u32 (B + off) < B
        · simp only [hov, if_true] at g7; omega
        · simp only [hov, if_false] at g7; omega
      exact ⟨⟨T', C', g1, g2, g3, g4, by rw [i2]; omega⟩, fun h => absurd h hs', by rw [i2]; omega,
        by omega⟩
    · rw [if_neg (fun h => hbd h.2.2)] at g7
      have i1 : inFlight b m = 0 := by
        unfold inFlight
        rw [if_pos hs, if_neg hbd]
      exact ⟨⟨T', C', g1, g2, g3, g4, by rw [i2]; omega⟩, fun h => absurd h hs', by rw [i2]; omega, by omega⟩
  | cancelled hcc hs => rcases hcc with h | h; exact absurd h (hc hs).1; exact absurd h (hc hs).2

theorem owedAll_append (r : Region) (b : Nat) (l l' : List (TxSetting × Bytes)) :
    owedAll r b (l ++ l') = owedAll r b l + owedAll r b l' := by
  simp [owedAll]

/-- The invariant over a sequence of calls. -/
theorem DutyInv.run {cfg : Cfg} (hE : ∀ k, BlockFn (cfg.E k)) {b t0 : Nat} (hb : b ≠ GLOBAL) :
    ∀ (calls : List (Env × Call)) (t H : Nat) (m : Mac), DutyInv cfg b t0 t H m → Reachable cfg m →
    (∀ x ∈ calls, x.2.WF) → InOrder t calls → NoCut cfg m calls →
    (Throughout cfg (fun m => m.band b < UINT32_MAX) m calls ∨
      H + owedAll m.ctx.region b (history cfg m calls) < UINT32_MAX) →
    DutyInv cfg b t0 (endTime t calls) (H + owedAll m.ctx.region b (history cfg m calls)) (LDL.run cfg m calls) := by
  intro calls
  induction calls with
  | nil => intro t H m h _ _ _ _ _; exact h
  | cons x rest ih =>
    obtain ⟨e, c⟩ := x
    intro t H m h hr hw ho hn hs
    have hreg : (LDL.step cfg m e c).1.ctx.region = m.ctx.region :=
      step_session (region_closed cfg m.ctx.region) e m c (hw (e, c) (by simp)) rfl
    have h1 := h.step hE hb hr e c (hw (e, c) (by simp)) ho.1 hn.1 (by
      rcases hs with hs | hs
      · left
        have h2 := hs.2
        cases rest with
        | nil => exact h2
        | cons y l => exact h2.1
      · right
        simp only [history, owedAll_append] at hs
        omega)
    have h2 := ih _ _ _ h1 (.step e c hr (hw (e, c) (by simp))) (fun x hx => hw x (by simp [hx])) ho.2
      hn.2 (by
        rcases hs with hs | hs
        · exact Or.inl hs.2
        · right
          simp only [history, owedAll_append] at hs
          rw [hreg]
          omega)
    rw [hreg] at h2
    simp only [history, owedAll_append]
    rw [← Nat.add_assoc]
    exact h2

theorem run_region {cfg : Cfg} {calls : List (Env × Call)} (hw : ∀ x ∈ calls, x.2.WF) {m : Mac} :
    (LDL.run cfg m calls).ctx.region = m.ctx.region := by
  induction calls generalizing m with
  | nil => rfl
  | cons x l ih =>
    obtain ⟨e, c⟩ := x
    show (LDL.run cfg (step cfg m e c).1 l).ctx.region = _
    rw [ih (fun x hx => hw x (by simp [hx]))]
    exact step_session (region_closed cfg m.ctx.region) e m c (hw (e, c) (by simp)) rfl

theorem init_region (cfg : Cfg) (region : Region) (arg : InitArg) (e : Env) :
    (LDL.init cfg region arg e).ctx.region = region := by
  obtain ⟨c, k, h, hc⟩ := init_fields cfg region arg e
  rw [h]
  rcases hc with ⟨s, _, _, h, h'⟩ | ⟨_, h, _⟩
  · show c.region = _; rw [h', h]
  · show c.region = _; rw [h]; rfl

theorem DutyInv.init {cfg : Cfg} (region : Region) (arg : InitArg) (e : Env) {b : Nat} (hb : b ≠ GLOBAL) :
    DutyInv cfg b e.now e.now 0 (LDL.init cfg region arg e) := by
  obtain ⟨c, k, h, _⟩ := init_fields cfg region arg e
  have h0 : (LDL.init cfg region arg e).band b = 0 := by rw [h]; simp [upd, hb]
  have hs : (LDL.init cfg region arg e).state ≠ .tx := by rw [h]; simp
  have hi : inFlight b (LDL.init cfg region arg e) = 0 := if_neg hs
  refine ⟨⟨e.now, 0, Nat.le_refl _, Nat.le_refl _, by rw [h]; rfl, ?_, by rw [h0, hi]⟩, fun h => absurd h hs,
    by rw [h0, hi], by rw [h0]; decide⟩
  have : (LDL.init cfg region arg e).timeRemainder = 0 := by rw [h]
  rw [this]
  omega

/-! ## C32 -/

/-- **C32, partial**: for a device started at some time and used in any way, except that no transmission is cut short:
in every band, the off-time of all transmissions so far is not more than the time passed and the off-time outstanding, that
is, counted and not over, or of the transmission in progress.  As long as that fits the counters, 194 days of off-time.
Cancelling in the middle of a transmission has to be excluded (`c32_cancelled`). -/
theorem c32_duty_cycle_partial {cfg : Cfg} (hE : ∀ k, BlockFn (cfg.E k)) (region : Region) (arg : InitArg) (e : Env)
    (hs : ∀ s, arg.session = some s → SessionOk s) (ha : ArgOk arg) (b : Nat) (hb : b < 5)
    (calls : List (Env × Call)) (hw : ∀ x ∈ calls, x.2.WF) (ho : InOrder e.now calls) (hn : NoCut cfg (init cfg region arg e) calls)
    (hsat : Throughout cfg (fun m => m.band b < 2 ^ 32 - 1) (init cfg region arg e) calls ∨
      owedAll region b (history cfg (init cfg region arg e) calls) < 2 ^ 32 - 1) :
    owedAll region b (history cfg (init cfg region arg e) calls) * cfg.tps ≤
      (endTime e.now calls - e.now) * 256 +
        ((run cfg (init cfg region arg e) calls).band b + inFlight b (run cfg (init cfg region arg e) calls)) * cfg.tps := by
  have h := DutyInv.run hE (show b ≠ GLOBAL by unfold GLOBAL; omega) calls e.now 0 _ (DutyInv.init region arg e (by unfold GLOBAL; omega))
    (.init region arg e hs ha) hw ho hn (by rw [init_region, Nat.zero_add]; exact hsat)
  rw [init_region, Nat.zero_add] at h
  obtain ⟨⟨T, C, h1, h2, _, h4, h5⟩, _⟩ := h
  rw [Nat.add_assoc] at h5
  have := Nat.mul_le_mul_right cfg.tps h5
  rw [Nat.add_mul] at this
  have : (T - e.now) * 256 ≤ (endTime e.now calls - e.now) * 256 := Nat.mul_le_mul_right _ (by omega)
  omega

theorem endTime_snoc (t : Nat) (calls : List (Env × Call)) : InOrder t calls → t ≤ endTime t calls := by
  induction calls generalizing t with
  | nil => intro _; exact Nat.le_refl _
  | cons x l ih => intro h; exact Nat.le_trans (Nat.le_trans h.1 x.1.now_le_done) (ih _ h.2)

theorem run_wedged (cfg : Cfg) (calls : List (Env × Call)) (m : Mac) (h : Wedged m) : Wedged (run cfg m calls) := by
  induction calls generalizing m with
  | nil => exact h
  | cons x l ih => exact ih _ (step_wedged cfg x.1 m x.2 h)

/-- After a transmission was cut short, nothing happens any more. -/
theorem noCut_or_wedged (cfg : Cfg) (calls : List (Env × Call)) (m : Mac) :
    NoCut cfg m calls ∨ Wedged (run cfg m calls) := by
  induction calls generalizing m with
  | nil => exact Or.inl trivial
  | cons x l ih =>
    obtain ⟨e, c⟩ := x
    by_cases hcut : m.state = .tx ∧ (c = .cancel ∨ c = .forget)
    · right
      exact run_wedged cfg l _ (cancel_wedged cfg e m c hcut.2 (by rw [hcut.1]; decide))
    · rcases ih (step cfg m e c).1 with h | h
      · exact Or.inl ⟨fun hs => ⟨fun hc => hcut ⟨hs, Or.inl hc⟩, fun hc => hcut ⟨hs, Or.inr hc⟩⟩, h⟩
      · exact Or.inr h

/-- **C32**, for a user: when a send request is accepted, and its frame goes out in some band, the off-times of
all the transmissions made in that band before are over. -/
theorem c32_send {cfg : Cfg} (hE : ∀ k, BlockFn (cfg.E k)) (region : Region) (arg : InitArg) (e : Env)
    (hs : ∀ s, arg.session = some s → SessionOk s) (ha : ArgOk arg)
    (calls : List (Env × Call)) (hw : ∀ x ∈ calls, x.2.WF) (ho : InOrder e.now calls)
    (m : Mac) (hm : m = run cfg (init cfg region arg e) calls) (e' : Env) (ht : endTime e.now calls ≤ e'.now)
    (confirmed : Bool) (port : Nat) (payload : Option Bytes) (len : Nat) (opts : Option DataOpts)
    (hd : (Call.data confirmed port payload len opts).WF)
    (hacc : Accepted (step cfg m e' (.data confirmed port payload len opts)).2)
    (later : List (Env × Call)) (hl : ∀ x ∈ later, x.2.WF) (x : TxSetting × Bytes)
    (hx : x ∈ sentBy cfg (step cfg m e' (.data confirmed port payload len opts)).1 later) (b : Nat)
    (hbx : band region x.1.freq = some b)
    (hsat : owedAll region b (history cfg (init cfg region arg e) calls) < 2 ^ 32 - 1) :
    owedAll region b (history cfg (init cfg region arg e) calls) * cfg.tps ≤ (e'.now - e.now) * 256 := by
  have hb5 : b < 5 := (factor_band _ _ _ hbx).1
  have hn : NoCut cfg (init cfg region arg e) calls := by
    rcases noCut_or_wedged cfg calls (init cfg region arg e) with h | h
    · exact h
    · rw [← hm] at h
      rw [wedged_sentBy cfg later _ (step_wedged cfg e' m _ h)] at hx
      simp at hx
  have h := c32_duty_cycle_partial hE region arg e hs ha b hb5 calls hw ho hn (Or.inr hsat)
  have hr : Reachable cfg m := by rw [hm]; exact Demo.run_reach (.init region arg e hs ha) calls hw
  rw [← hm] at h
  obtain ⟨s, frame⟩ := x
  obtain ⟨ch, lo, hi, _, _, ⟨b', h1, h2⟩, _⟩ :=
    c30_legal_channel_partial hE hr e' confirmed port payload len opts hd hacc later hl s frame hx
  have hreg : m.ctx.region = region := by
    rw [hm, run_region hw, init_region]
  rw [hreg] at h1
  simp only [] at hbx
  rw [hbx] at h1
  cases h1
  have hi : inFlight b m = 0 := by
    obtain ⟨_, _, _, _, hop, _⟩ := accepted_send e' confirmed port payload len opts hacc
    refine if_neg fun hst => ?_
    have hok := hr.reach.opOk
    unfold OpOk at hok
    rw [hst, hop] at hok
    exact absurd hok (by decide)
  rw [h2, hi, Nat.zero_add, Nat.zero_mul, Nat.add_zero] at h
  exact Nat.le_trans h (Nat.mul_le_mul_right _ (Nat.sub_le_sub_right ht _))

/-- The first frame of a device, and the next request when its off-time, 29600 units of 1/256 s, is just over. -/
def twoFrames : List (Env × Call) := Demo.sending false ++ (Demo.cycle 30000).drop 2 ++ Demo.processAt [117200000]

example : InOrder 0 twoFrames ∧ (∀ x ∈ twoFrames, x.2.WF) ∧
    owedAll .eu868 1 (history Demo.cfg Demo.start twoFrames) = 29600 ∧
    (step Demo.cfg (run Demo.cfg Demo.start twoFrames) (Demo.at_ 117200000) (.data false 1 none 0 none)).2 = .ok ∧
    (sentBy Demo.cfg (step Demo.cfg (run Demo.cfg Demo.start twoFrames) (Demo.at_ 117200000) (.data false 1 none 0 none)).1
      (Demo.cycle 117200000)).length = 1 := by
  decide +kernel

/-- With the counter not yet expired, the request is refused: no other channel is in another band. -/
example : (step Demo.cfg (run Demo.cfg Demo.start (Demo.sending false ++ (Demo.cycle 30000).drop 2 ++
    Demo.processAt [115000000])) (Demo.at_ 115000000) (.data false 1 none 0 none)).2 = .noChannel := by
  decide +kernel

/-- A transmission cut short. -/
def cutShort : List (Env × Call) := Demo.sending false ++ [(Demo.at_ 1500000, .cancel)]

/-- The inequality of `c32_duty_cycle_partial` is false after a transmission was cut short: 29600 units of off-time are
owed, 384 units of time have passed and none is outstanding.  The next request is accepted, though its frame will never
be sent. -/
theorem c32_cancelled : ArgOk {} ∧ (∀ x ∈ cutShort, x.2.WF) ∧ InOrder 0 cutShort ∧
    owedAll .eu868 1 (history Demo.cfg Demo.start cutShort) = 29600 ∧ endTime 0 cutShort = 1500000 ∧
    (run Demo.cfg Demo.start cutShort).band 1 = 0 ∧ inFlight 1 (run Demo.cfg Demo.start cutShort) = 0 ∧
    (step Demo.cfg (run Demo.cfg Demo.start cutShort) (Demo.at_ 1500000) (.data false 1 none 0 none)).2 = .ok :=
  ⟨⟨rfl, rfl, rfl, rfl, by decide, by decide⟩, by decide +kernel, by decide +kernel, by decide +kernel, by decide +kernel,
    by decide +kernel, by decide +kernel, by decide +kernel⟩

/-! ## C60 -/

/-- **C60, partial**: each transmission is charged at most once.  (That it is charged once is
`c32_duty_cycle_partial`.) -/
theorem c60_charged_once_partial {cfg : Cfg} (hE : ∀ k, BlockFn (cfg.E k)) (region : Region) (arg : InitArg) (e : Env)
    (hs : ∀ s, arg.session = some s → SessionOk s) (ha : ArgOk arg) (b : Nat) (hb : b < 5)
    (calls : List (Env × Call)) (hw : ∀ x ∈ calls, x.2.WF) (ho : InOrder e.now calls)
    (hn : NoCut cfg (init cfg region arg e) calls)
    (hsat : owedAll region b (history cfg (init cfg region arg e) calls) < 2 ^ 32 - 1) :
    (run cfg (init cfg region arg e) calls).band b + inFlight b (run cfg (init cfg region arg e) calls) ≤
      owedAll region b (history cfg (init cfg region arg e) calls) := by
  have h := DutyInv.run hE (show b ≠ GLOBAL by unfold GLOBAL; omega) calls e.now 0 _
    (DutyInv.init region arg e (by unfold GLOBAL; omega))
    (.init region arg e hs ha) hw ho hn (by rw [init_region, Nat.zero_add]; exact Or.inr hsat)
  rw [init_region, Nat.zero_add] at h
  exact h.upper

/-! ## C33 -/

theorem step_out (cfg : Cfg) (e : Env) (m : Mac) (c : Call) :
    (step cfg m e c).1.out = m.out ++ (step cfg m e c).1.out.drop m.out.length := by
  obtain ⟨l, h, _⟩ := step_emits cfg e m c
  rw [h, List.drop_left]

/-- The transmission in progress is the last one, and its off-time is what will be charged. -/
theorem inProgress {cfg : Cfg} (hE : ∀ k, BlockFn (cfg.E k)) {m : Mac} (hr : Reachable cfg m) :
    m.timeTicks < 2 ^ 32 ∧ (∀ b, b ≠ GLOBAL → m.band b < 2 ^ 32) ∧
    (m.state = .tx → m.tx.airTime ≤ 1100000 ∧ ∃ y, (transmitted m.out).getLast? = some y ∧
      y.1.freq = m.tx.freq ∧ ∀ b, owed m.ctx.region b y = inFlight b m) := by
  induction hr with
  | init region arg e h ha =>
    obtain ⟨c, k, h, _⟩ := init_fields cfg region arg e
    refine ⟨by rw [h]; exact Nat.mod_lt _ (by decide), fun b hb => ?_, fun hs => ?_⟩
    · rw [h]; simp [upd, hb]
    · rw [h] at hs; simp at hs
  | @step m e c hr hw ih =>
    obtain ⟨i1, i2, i3⟩ := ih
    have hreg : (step cfg m e c).1.ctx.region = m.ctx.region :=
      step_session (region_closed cfg m.ctx.region) e m c hw rfl
    have hout := step_out cfg e m c
    have ha := step_air cfg e m c hr.reach.opOk
    have hbuf := hr.bufOk hE
    refine ⟨?_, fun b hb => ?_, fun hs => ?_⟩
    · by_cases hp : c = .process
      · subst hp
        show (process cfg e m).timeTicks < _
        have hclk := (process_clock cfg e m).1
        have ht : (ticked cfg e m).timeTicks < 2 ^ 32 := by
          rcases ticked_eq cfg e m with ⟨_, h⟩ | ⟨_, h⟩
          · rw [h]; exact i1
          · simp only [Mac.clock, Prod.mk.injEq] at h
            rw [h.1]; exact Nat.mod_lt _ (by decide)
        rcases hclk with ⟨_, hq⟩ | ⟨_, hq⟩ | ⟨_, _, hq⟩ <;> simp only [Mac.clock, Prod.mk.injEq] at hq <;> rw [hq.1] <;>
          exact ht
      · rw [(step_api cfg e m c hp).clock.1]; exact i1
    · have h2 := i2 b hb
      obtain ⟨B, hB, _, hq⟩ := step_band (cfg := cfg) m hb e c
      rw [hq]
      split
      · have h1 : ∀ x, u32 x < 2 ^ 32 := fun x => Nat.mod_lt _ (by decide)
        dsimp only
        split
        · decide
        · exact h1 _
      · omega
    · generalize (step cfg m e c).1 = m' at *
      cases ha with
      | off _ h => exact absurd hs h
      | finish _ _ h => exact absurd hs h
      | cancelled _ _ h => exact absurd hs h
      | start hcp hst hs' htr htx =>
        change transmitted (m'.out.drop m.out.length) = _ at htr
        have htx' : m.op.isTx := by
          have := hr.reach.opOk
          unfold OpOk at this
          rw [hst] at this
          revert this
          generalize m.op = o
          cases o <;> simp [opAllowed, Op.isTx]
        refine ⟨by rw [htx]; exact (owed_start m hbuf htx' 0).2, (txSetting m, m.frame), ?_, by rw [htx]; rfl, fun b => ?_⟩
        · rw [hout]
          have : transmitted (m.out ++ m'.out.drop m.out.length) = transmitted m.out ++ [(txSetting m, m.frame)] := by
            rw [← htr]; exact List.filterMap_append ..
          rw [this, List.getLast?_append]
          rfl
        · rw [hreg, (owed_start m hbuf htx' b).1]
          unfold inFlight
          rw [if_pos hs', hreg, htx]
      | on hst hs' hn htx htr =>
        change transmitted (m'.out.drop m.out.length) = _ at htr
        obtain ⟨j1, y, j2, j4, j3⟩ := i3 hst
        refine ⟨by rw [htx]; exact j1, y, ?_, by rw [htx]; exact j4, fun b => ?_⟩
        · rw [hout]
          have : transmitted (m.out ++ m'.out.drop m.out.length) = transmitted m.out := by
            have := List.filterMap_append (l := m.out) (l' := m'.out.drop m.out.length)
              (f := fun | Event.transmit _ s b => some (s, b) | _ => none)
            refine this.trans ?_
            change transmitted m.out ++ transmitted (m'.out.drop m.out.length) = _
            rw [htr, List.append_nil]
          rw [this, j2]
        · rw [hreg, j3 b]
          unfold inFlight
          rw [if_pos hs', if_pos hst, hreg, htx]

/-- Off-time that was counted from the right moment on stays for its duration. -/
theorem off_time_stays {cfg : Cfg} {b : Nat} (hb : b ≠ GLOBAL) (calls : List (Env × Call)) :
    ∀ (m : Mac) (t0 t T C D : Nat), t0 ≤ T → T ≤ t → u32 T = m.timeTicks →
    C * cfg.tps + m.timeRemainder ≤ (T - t0) * 256 + cfg.tps → D ≤ C + m.band b → InOrder t calls →
    m.band b < 2 ^ 32 →
    ∃ C', C' * cfg.tps + (run cfg m calls).timeRemainder ≤ (endTime t calls - t0) * 256 + cfg.tps ∧
      D ≤ C' + (run cfg m calls).band b := by
  induction calls with
  | nil =>
    intro m t0 t T C D h1 h2 _ h4 h5 _ _
    refine ⟨C, Nat.le_trans h4 (Nat.add_le_add_right (Nat.mul_le_mul_right _ ?_) _), h5⟩
    exact Nat.sub_le_sub_right h2 _
  | cons x rest ih =>
    obtain ⟨e, c⟩ := x
    intro m t0 t T C D h1 h2 h3 h4 h5 ho hword
    obtain ⟨T', d, B, g1, g2, g3, g4, g5, g6, g7⟩ := step_counter (cfg := cfg) m hb e c (Nat.le_trans h2 ho.1) h3
    have hge : B ≤ (step cfg m e c).1.band b ∧ (step cfg m e c).1.band b < 2 ^ 32 := by
      rw [g7]
      have h32 : ∀ x, u32 x < 2 ^ 32 := fun x => Nat.mod_lt _ (by decide)
      have hM : UINT32_MAX = 2 ^ 32 - 1 := rfl
      split
      · dsimp only
        split
        · omega
        · next h => exact ⟨by omega, h32 _⟩
      · omega
    exact ih _ t0 e.done T' (C + d) D (Nat.le_trans h1 g1) (Nat.le_trans g2 e.now_le_done) g3 (by rw [Nat.add_mul]; omega) (by omega) ho.2 hge.2

/-- **C33, partial**: when a transmission ends and off-time was being counted at that time (of another band, or of a
join), a frame sent later goes out in the same band only if the off-time of that transmission is over, but for one unit
of 1/256 s.  Without off-time being counted the property is false (`c33_after_idle`). -/
theorem c33_off_time_partial {cfg : Cfg} (hE : ∀ k, BlockFn (cfg.E k)) (hpos : 0 < cfg.tps) {m : Mac} (hr : Reachable cfg m)
    (e : Env) (hs : m.state = .tx) (hend : (step cfg m e .process).1.state ≠ .tx) (hpark : m.parked = false)
    (y : TxSetting × Bytes) (hy : (transmitted m.out).getLast? = some y) (b : Nat)
    (hyb : band m.ctx.region y.1.freq = some b)
    (calls : List (Env × Call)) (hw : ∀ x ∈ calls, x.2.WF) (ho : InOrder e.now calls)
    (m' : Mac) (hm' : m' = run cfg (step cfg m e .process).1 calls) (e' : Env) (ht : endTime e.now calls ≤ e'.now)
    (confirmed : Bool) (port : Nat) (payload : Option Bytes) (len : Nat) (opts : Option DataOpts)
    (hd : (Call.data confirmed port payload len opts).WF)
    (hacc : Accepted (step cfg m' e' (.data confirmed port payload len opts)).2)
    (later : List (Env × Call)) (hl : ∀ x ∈ later, x.2.WF) (x : TxSetting × Bytes)
    (hx : x ∈ sentBy cfg (step cfg m' e' (.data confirmed port payload len opts)).1 later)
    (hbx : band m.ctx.region x.1.freq = some b) :
    owed m.ctx.region b y * cfg.tps ≤ (e'.now - e.now) * 256 + cfg.tps := by
  obtain ⟨hticks, hword, hair⟩ := inProgress hE hr
  obtain ⟨hair, y', hy', hfreq, howed⟩ := hair hs
  rw [hy] at hy'
  cases hy'
  have hb5 := factor_band _ _ _ hyb
  have hbG : b ≠ GLOBAL := by have := hb5.1; omega
  have hr1 : Reachable cfg (step cfg m e .process).1 := .step e .process hr trivial
  have hch : Charges m e := by
    cases step_air cfg e m .process hr.reach.opOk with
    | off h => exact absurd hs h
    | start _ h => rw [hs] at h; cases h
    | on _ h => exact absurd h hend
    | finish _ _ _ h => exact h
    | cancelled h => rcases h with h | h <;> cases h
  have hreg1 : (step cfg m e .process).1.ctx.region = m.ctx.region :=
    step_session (region_closed cfg m.ctx.region) e m .process trivial rfl
  have hb32 := (inProgress hE hr1).2.1 b hbG
  have hoff : owed m.ctx.region b y ≤ (step cfg m e .process).1.band b ∧
      (step cfg m e .process).1.timeTicks = e.ticks ∧ (step cfg m e .process).1.timeRemainder ≤ cfg.tps := by
    obtain ⟨B, h4, h5, h6⟩ := step_band (cfg := cfg) m hbG e .process
    have hBw : B < 2 ^ 32 := Nat.lt_of_le_of_lt h4 (hword b hbG)
    rcases h5 with ⟨_, _, _, h⟩ | ⟨_, _, h5, ⟨n, h7⟩, _⟩
    · rw [hpark] at h; exact absurd (h rfl) (by decide)
    · refine ⟨?_, h5, by rw [h7]; exact Nat.le_of_lt (Nat.mod_lt _ hpos)⟩
      rw [hfreq] at hyb
      rw [if_pos ⟨rfl, hch, hyb⟩] at h6
      have hi : inFlight b m = m.tx.airTime * m.ctx.region.getOffTimeFactor b := by
        unfold inFlight
        rw [if_pos hs, if_pos hyb]
      have hle : m.tx.airTime * m.ctx.region.getOffTimeFactor b ≤ 1100000 * 1000 := Nat.mul_le_mul hair hb5.2.2
      rw [howed b, hi, h6]
      generalize m.tx.airTime * m.ctx.region.getOffTimeFactor b = off at *
      have hu : u32 off = off := Nat.mod_eq_of_lt (by omega)
      have hM : UINT32_MAX = 2 ^ 32 - 1 := rfl
      have hv := u32_eq (B + off)
      dsimp only
      rw [hu]
      by_cases hov : u32 (B + off) < B
      · rw [if_pos hov]; omega
      · rw [if_neg hov]; omega
  obtain ⟨o1, o2, o3⟩ := hoff
  generalize step cfg m e .process = r1 at *
  obtain ⟨C', k1, k2⟩ := off_time_stays (cfg := cfg) hbG calls r1.1 e.now e.now e.now 0 (owed m.ctx.region b y) (Nat.le_refl _)
    (Nat.le_refl _) o2.symm (by omega) (by omega) ho hb32
  rw [← hm'] at k1 k2
  have hr' : Reachable cfg m' := by rw [hm']; exact Demo.run_reach hr1 calls hw
  have hreg : m'.ctx.region = m.ctx.region := by rw [hm', run_region hw, hreg1]
  obtain ⟨s, frame⟩ := x
  obtain ⟨ch, lo, hi, _, _, ⟨b', h1, h2⟩, _⟩ :=
    c30_legal_channel_partial hE hr' e' confirmed port payload len opts hd hacc later hl s frame hx
  rw [hreg] at h1
  simp only [] at hbx
  rw [hbx] at h1
  cases h1
  rw [h2, Nat.add_zero] at k2
  have := Nat.mul_le_mul_right cfg.tps k2
  have : (endTime e.now calls - e.now) * 256 ≤ (e'.now - e.now) * 256 :=
    Nat.mul_le_mul_right _ (Nat.sub_le_sub_right ht _)
  omega

/-- A second frame, in another band, while the off-time of the first is counted: about to end. -/
def secondFrame : List (Env × Call) := Demo.sending false ++ (Demo.cycle 30000).drop 2 ++
  [(Demo.at_ 7000000, .addChannel 3 867100000 0 5), Demo.send false 7000000] ++ Demo.processAt [7000000, 7030000] ++
  [(Demo.at_ 8530000, .radioEvent 8530000)]

example : (run Demo.cfg Demo.start secondFrame).state = .tx ∧ (run Demo.cfg Demo.start secondFrame).parked = false ∧
    (step Demo.cfg (run Demo.cfg Demo.start secondFrame) { now := 8530000, statusTx := true } .process).1.state ≠ .tx ∧
    (transmitted (run Demo.cfg Demo.start secondFrame).out).getLast?.map (fun y => (y.1.freq, owed .eu868 0 y)) =
      some (867100000, 29600) := by
  decide +kernel

/-- An idle device, fifteen minutes after it was started, sends a frame and waits for the end of the operation, six
seconds later. -/
def afterIdle : List (Env × Call) := Demo.boot ++ [(Demo.at_ 20000, .abp 1)] ++ Demo.processAt [900000000] ++
  [Demo.send false 900000000] ++ Demo.cycle 900000000

/-- C33 is false of the code: with no off-time being counted, the clock of the counters stands still, and the time since
it stopped is taken off the off-time charged next.  Here a frame has cost 29600 units of 1/256 s, almost two minutes; six
seconds later the next frame is accepted, and sent, in the same band. -/
theorem c33_after_idle : Reachable Demo.cfg (run Demo.cfg Demo.start afterIdle) ∧ InOrder 0 afterIdle ∧
    owedAll .eu868 1 (history Demo.cfg Demo.start afterIdle) = 29600 ∧ endTime 0 afterIdle = 906100000 ∧
    (step Demo.cfg (run Demo.cfg Demo.start afterIdle) (Demo.at_ 906100000) (.data false 1 none 0 none)).2 = .ok ∧
    (sentBy Demo.cfg (step Demo.cfg (run Demo.cfg Demo.start afterIdle) (Demo.at_ 906100000) (.data false 1 none 0 none)).1
      (Demo.cycle 906100000)).map (fun x => band .eu868 x.1.freq) = [some 1] :=
  ⟨Demo.run_reach Demo.start_reachable _ (by decide +kernel), by decide +kernel, by decide +kernel, by decide +kernel,
    by decide +kernel, by decide +kernel⟩

end LDL
