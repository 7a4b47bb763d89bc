import Verif.Lemmas.Interrupt
import Verif.Props.Timers

/-!
# Interrupts during calls: C91
-/

namespace LDL
open Spec

theorem processDuring_nil (cfg : Cfg) (e : Env) (m : Mac) : processDuring cfg e m [] = process cfg e m := rfl

theorem processDuring_cons (cfg : Cfg) (e : Env) (m : Mac) (t : Nat) (ts : List Nat) :
    ∃ ev lag m1, Prep e m m1 ev lag ∧
      process cfg e m = setNextBandEvent cfg e (if ev = .none then m1 else dispatch cfg e ev lag m1) ∧
      processDuring cfg e m (t :: ts) = setNextBandEvent cfg e
        (if ev = .none then inputSignal m1 t else dispatch cfg e ev lag (inputSignal m1 t)) := by
  refine ⟨_, _, _, pickEvent_prep cfg e m, rfl, ?_⟩
  unfold processDuring
  simp only [inputSignals_cons]

/-- A radio in use, nothing reported before: what an interrupt during `process` leaves. -/
theorem processDuring_armed (cfg : Cfg) (e : Env) (m : Mac) (ho : OpOk m) (hl : LatchOk m) (t : Nat) (ts : List Nat)
    (hi : m.inputState = false) (hs : m.state = .tx ∨ m.state = .rx1 ∨ m.state = .rx2) :
    processDuring cfg e m (t :: ts) = recorded (process cfg e m) t ∧
    ((process cfg e m).state = m.state ∨ (process cfg e m).state = .radioReset) := by
  obtain ⟨ev, lag, m1, hp, h1, h2⟩ := processDuring_cons cfg e m t ts
  have hne : ev ≠ .interrupt := fun h => by
    have := hp.interrupt.1 h
    rw [hi] at this; cases this
  have ha : m.inputArmed = true := by
    have : m.inputArmed = radioInUse m.state := hl
    rw [this, radioInUse_iff]; exact hs
  obtain ⟨_, _, _, _, _, _, _, _, _, hme⟩ := hp.eq
  have hst : m1.state = m.state := by rw [hme]
  have hs1 : m1.state = .tx ∨ m1.state = .rx1 ∨ m1.state = .rx2 := by rw [hst]; exact hs
  obtain ⟨ha1, hi1⟩ : m1.inputArmed = true ∧ m1.inputState = false := by
    rcases hp.latch with ⟨h, _⟩ | ⟨_, h3, h4⟩
    · exact absurd h hne
    · exact ⟨h3.trans ha, h4⟩
  rw [inputSignal_armed m1 t hi1 ha1] at h2
  rw [h1, h2]
  have hb : ∀ x : Mac, (setNextBandEvent cfg e x).state = x.state := by
    intro x
    obtain ⟨p, t, h⟩ := setNextBandEvent_shape cfg e x
    rw [h]
  by_cases hev : ev = .none
  · rw [if_pos hev, if_pos hev, band_recorded, hb]
    exact ⟨rfl, Or.inl hst⟩
  · rw [if_neg hev, if_neg hev, hb]
    obtain ⟨hd1, hd2⟩ := dispatch_recorded cfg e ev lag m1 t hne hs1
    rw [hd1, band_recorded]
    refine ⟨rfl, ?_⟩
    rcases hd2 with h | h
    · rw [h]; exact Or.inl hst
    · exact Or.inr h

theorem run_late (cfg : Cfg) (e : Env) (m : Mac) (t : Nat) :
    run cfg m [(e, .process), (e, .lateEvent t)] = Mac.late (process cfg e m) t := by simp only [run, step]

theorem run_after (cfg : Cfg) (e : Env) (m : Mac) (t : Nat) :
    run cfg m [(e, .process), (e, .radioEvent t)] = inputSignal (process cfg e m) t := by simp only [run, step]

/-- **C91**: what interrupts during `LDL_MAC_process` do.  Only the first counts.  If the radio is not in use, or an
interrupt was pending, it is as if it had come before the call.  Otherwise it is as if it had come after the call,
unless the call has found the radio to have failed and has reset it. -/
theorem c91_process {cfg : Cfg} {m : Mac} (h : Reachable cfg m) (e : Env) (t : Nat) (ts : List Nat) :
    processDuring cfg e m (t :: ts) =
      if m.inputState = true ∨ ¬ (m.state = .tx ∨ m.state = .rx1 ∨ m.state = .rx2) then
        run cfg m [(e, .radioEvent t), (e, .process)]
      else if (step cfg m e .process).1.state = .radioReset then run cfg m [(e, .process), (e, .lateEvent t)]
      else run cfg m [(e, .process), (e, .radioEvent t)] := by
  by_cases hc : m.inputState = true ∨ ¬ (m.state = .tx ∨ m.state = .rx1 ∨ m.state = .rx2)
  · rw [if_pos hc]
    show _ = process cfg e (inputSignal m t)
    have hn : inputSignal m t = m := by
      rcases hc with hi | hs
      · exact inputSignal_pending m t hi
      · refine inputSignal_unarmed m t ?_
        have : m.inputArmed = radioInUse m.state := h.latch
        rw [this]
        cases hr : radioInUse m.state with
        | false => rfl
        | true => exact absurd ((radioInUse_iff _).1 hr) hs
    rw [hn]
    obtain ⟨ev, lag, m1, hp, h1, h2⟩ := processDuring_cons cfg e m t ts
    have ha1 : m1.inputArmed = false := by
      rcases hp.latch with ⟨_, h, _⟩ | ⟨h3, h4, _⟩
      · exact h
      · rcases hc with hi | hs
        · exact absurd (hp.interrupt.2 hi) h3
        · rw [h4, show m.inputArmed = radioInUse m.state from h.latch]
          cases hr : radioInUse m.state with
          | false => rfl
          | true => exact absurd ((radioInUse_iff _).1 hr) hs
    rw [h2, h1, inputSignal_unarmed m1 t ha1]
  · rw [if_neg hc]
    have hi : m.inputState = false := by
      cases hi : m.inputState with
      | false => rfl
      | true => exact absurd (Or.inl hi) hc
    have hs : m.state = .tx ∨ m.state = .rx1 ∨ m.state = .rx2 := Decidable.byContradiction fun h => hc (Or.inr h)
    obtain ⟨h1, h2⟩ := processDuring_armed cfg e m h.reach.opOk h.latch t ts hi hs
    obtain ⟨hl, hp⟩ := process_latch cfg e m h.reach.opOk h.latch
    rw [h1]
    rw [run_late, run_after, show (step cfg m e .process).1 = process cfg e m from rfl]
    generalize process cfg e m = x at hl hp h2
    by_cases hr : x.state = .radioReset
    · rw [if_pos hr]
      unfold Mac.late
      rw [if_pos ⟨hr, hp⟩]
      rfl
    · rw [if_neg hr]
      have hl : x.inputArmed = radioInUse x.state := hl
      rw [inputSignal_armed _ t hp]
      rw [hl, radioInUse_iff]
      rcases h2 with h2 | h2
      · rw [h2]; exact hs
      · exact absurd h2 hr

/-- The commands that start something leave the latch alone. -/
theorem Api.armed {cfg : Cfg} {e : Env} {m m' : Mac} {c : Call} {st : Status} (h : Api cfg e m c m' st)
    (h1 : c ≠ .cancel) (h2 : c ≠ .forget) : m'.inputArmed = m.inputArmed := by
  cases h
  case otaa x hx s t hst =>
    obtain ⟨k, hk⟩ := deriveJoinKeys_shape cfg { m with trials := 0, day := 60 * 60 * 24 * timeTPS }
    obtain ⟨dn, b, bl, t, h⟩ := nextJoinRequest_shape cfg e
      (Ops.deriveJoinKeys cfg { m with trials := 0, day := 60 * 60 * 24 * timeTPS })
    rw [hx, h, hk]
  case data m1 hm1 =>
    obtain ⟨_, _, _, s, t, h, _, hst⟩ := sendData_shape cfg e m1 _ _ _ _ _ _
    rw [h, hm1]
  case forget => exact absurd rfl h2
  case cancel => exact absurd rfl h1
  all_goals rfl

/-- A call during a transfer does the same with an interrupt recorded. -/
theorem call_recorded (cfg : Cfg) (e : Env) (m : Mac) (c : Call) (t : Nat) (ho : m.op ≠ .none)
    (hi : m.inputState = false) (hc : c ≠ .process ∧ c ≠ .cancel ∧ c ≠ .forget) (hr : ∀ t, c ≠ .radioEvent t)
    (hs : m.state ≠ .radioReset) :
    (step cfg (recorded m t) e c).1 = recorded (step cfg m e c).1 t ∧
    (step cfg (recorded m t) e c).2 = (step cfg m e c).2 := by
  have ho' : (recorded m t).op ≠ .none := ho
  cases c with
  | process => exact absurd rfl hc.1
  | cancel => exact absurd rfl hc.2.1
  | forget => exact absurd rfl hc.2.2
  | radioEvent t => exact absurd rfl (hr t)
  | lateEvent t' =>
    show Mac.late (recorded m t) t' = recorded (m.late t') t ∧ _
    unfold Mac.late
    rw [if_neg (fun h => hs h.1), if_neg (fun h => hs h.1)]
    exact ⟨rfl, rfl⟩
  | entropy =>
    show (entropy e (recorded m t)).1 = recorded (entropy e m).1 t ∧ (entropy e (recorded m t)).2 = (entropy e m).2
    unfold entropy
    rw [if_neg ho, if_neg ho']
    exact ⟨rfl, rfl⟩
  | otaa =>
    have : ∀ x : Mac, x.op ≠ .none → otaa cfg e x = if x.ctx.joined then (x, .joined) else (x, .busy) := by
      intro x hx; unfold otaa; rw [if_neg hx]
    show (otaa cfg e (recorded m t)).1 = recorded (otaa cfg e m).1 t ∧ (otaa cfg e (recorded m t)).2 = (otaa cfg e m).2
    rw [this _ ho, this _ ho', show (recorded m t).ctx = m.ctx from rfl]
    split <;> exact ⟨rfl, rfl⟩
  | abp d =>
    have : ∀ x : Mac, x.op ≠ .none → abp x d = if x.ctx.joined then (x, .joined) else (x, .busy) := by
      intro x hx; unfold abp; rw [if_neg hx]
    show (abp (recorded m t) d).1 = recorded (abp m d).1 t ∧ (abp (recorded m t) d).2 = (abp m d).2
    rw [this _ ho, this _ ho', show (recorded m t).ctx = m.ctx from rfl]
    split <;> exact ⟨rfl, rfl⟩
  | data b p d l o =>
    have : ∀ x : Mac, x.op ≠ .none → dataCommand cfg e x b p d l o = if x.ctx.joined then (x, .busy) else (x, .notJoined) := by
      intro x hx; unfold dataCommand; rw [if_neg hx]
    show (dataCommand cfg e (recorded m t) b p d l o).1 = recorded (dataCommand cfg e m b p d l o).1 t ∧
      (dataCommand cfg e (recorded m t) b p d l o).2 = (dataCommand cfg e m b p d l o).2
    rw [this _ ho, this _ ho', show (recorded m t).ctx = m.ctx from rfl]
    split <;> exact ⟨rfl, rfl⟩
  | setRate r =>
    show (setRate (recorded m t) r).1 = recorded (setRate m r).1 t ∧ (setRate (recorded m t) r).2 = (setRate m r).2
    unfold setRate
    rw [show (recorded m t).ctx = m.ctx from rfl]
    split <;> exact ⟨rfl, rfl⟩
  | setPower p =>
    show (setPower (recorded m t) p).1 = recorded (setPower m p).1 t ∧ (setPower (recorded m t) p).2 = (setPower m p).2
    unfold setPower
    rw [show (recorded m t).ctx = m.ctx from rfl]
    split <;> exact ⟨rfl, rfl⟩
  | setADR v => exact ⟨rfl, rfl⟩
  | setMaxDCycle v => exact ⟨rfl, rfl⟩
  | addChannel ch f a b => exact ⟨rfl, rfl⟩
  | maskChannel ch => exact ⟨rfl, rfl⟩
  | unmaskChannel ch => exact ⟨rfl, rfl⟩

/-- **C91**: for every other call but cancel and forget it makes no difference whether an interrupt comes before or
after. -/
theorem c91_calls {cfg : Cfg} {m : Mac} (h : Reachable cfg m) (e e' : Env) (c : Call) (t : Nat)
    (hc : c ≠ .process ∧ c ≠ .cancel ∧ c ≠ .forget) (hr : ∀ t, c ≠ .radioEvent t) :
    run cfg m [(e', .radioEvent t), (e, c)] = run cfg m [(e, c), (e', .radioEvent t)] ∧
    (step cfg (step cfg m e' (.radioEvent t)).1 e c).2 = (step cfg m e c).2 := by
  show (step cfg (inputSignal m t) e c).1 = inputSignal (step cfg m e c).1 t ∧
    (step cfg (inputSignal m t) e c).2 = (step cfg m e c).2
  have hapi := step_api cfg e m c hc.1
  have harm := hapi.armed hc.2.1 hc.2.2
  cases ha : m.inputArmed with
  | false => rw [inputSignal_unarmed m t ha, inputSignal_unarmed _ t (harm.trans ha)]; exact ⟨rfl, rfl⟩
  | true =>
    have hs : m.state = .tx ∨ m.state = .rx1 ∨ m.state = .rx2 := by
      rw [← radioInUse_iff, ← show m.inputArmed = radioInUse m.state from h.latch]; exact ha
    have ho : m.op ≠ .none := by
      have hop := h.reach.opOk
      unfold OpOk at hop
      intro hn
      rw [hn] at hop
      rcases hs with hs | hs | hs <;> rw [hs] at hop <;> simp [opAllowed] at hop
    have hs' : m.state ≠ .radioReset := by rcases hs with h | h | h <;> rw [h] <;> simp
    cases hi : m.inputState with
    | true =>
      have hkeep : (step cfg m e c).1.inputState = true := (c36_kept cfg m e c hc.1 hi).1
      rw [inputSignal_pending m t hi, inputSignal_pending _ t hkeep]; exact ⟨rfl, rfl⟩
    | false =>
      have hkeep : (step cfg m e c).1.inputState = false := by
        by_cases hl : ∃ t, c = .lateEvent t
        · obtain ⟨t', rfl⟩ := hl
          show (m.late t').inputState = false
          unfold Mac.late
          rw [if_neg fun h => hs' h.1]
          exact hi
        · exact c36_only h e c (fun t => ⟨hr t, fun h => hl ⟨t, h⟩⟩) hi
      rw [inputSignal_armed m t hi ha, inputSignal_armed _ t hkeep (harm.trans ha)]
      exact call_recorded cfg e m c t ho hi hc hr hs'

/-- **C91**: a history with interrupts during calls is one in which all calls are one after the other. -/
theorem c91_history {cfg : Cfg} (xs : List (Env × CallI)) {m : Mac} (h : Reachable cfg m) (hw : ∀ x ∈ xs, x.2.WF) :
    ∃ ys, Serial xs ys ∧ (∀ y ∈ ys, y.2.WF) ∧ runI cfg m xs = run cfg m ys := by
  induction xs generalizing m with
  | nil => exact ⟨[], .nil, by simp, rfl⟩
  | cons x xs ih =>
    obtain ⟨e, c⟩ := x
    have hx : c.WF := hw (e, c) List.mem_cons_self
    have hxs : ∀ x ∈ xs, x.2.WF := fun x hx => hw x (List.mem_cons_of_mem _ hx)
    cases c with
    | plain c =>
      obtain ⟨ys, h1, h2, h3⟩ := ih (Reachable.step e c h hx) hxs
      refine ⟨(e, c) :: ys, .plain e c h1, ?_, h3⟩
      intro y hy
      rcases List.mem_cons.1 hy with rfl | hy
      · exact hx
      · exact h2 y hy
    | process ts =>
      cases ts with
      | nil =>
        obtain ⟨ys, h1, h2, h3⟩ := ih (m := process cfg e m) (Reachable.step e .process h trivial) hxs
        refine ⟨(e, .process) :: ys, .none e h1, ?_, h3⟩
        intro y hy
        rcases List.mem_cons.1 hy with rfl | hy
        · trivial
        · exact h2 y hy
      | cons t ts =>
        have ht : t < 4294967296 := hx t List.mem_cons_self
        have key := c91_process h e t ts
        have fin : ∀ c1 c2 : Call, c1.WF → c2.WF → processDuring cfg e m (t :: ts) = run cfg m [(e, c1), (e, c2)] →
            (∀ ys, Serial xs ys → Serial ((e, .process (t :: ts)) :: xs) ((e, c1) :: (e, c2) :: ys)) →
            ∃ ys, Serial ((e, .process (t :: ts)) :: xs) ys ∧ (∀ y ∈ ys, y.2.WF) ∧
              runI cfg m ((e, .process (t :: ts)) :: xs) = run cfg m ys := by
          intro c1 c2 w1 w2 hk hser
          obtain ⟨ys, h1, h2, h3⟩ := ih (Reachable.step e c2 (Reachable.step e c1 h w1) w2) hxs
          refine ⟨(e, c1) :: (e, c2) :: ys, hser ys h1, ?_, ?_⟩
          · intro y hy
            rcases List.mem_cons.1 hy with rfl | hy
            · exact w1
            · rcases List.mem_cons.1 hy with rfl | hy
              · exact w2
              · exact h2 y hy
          · show runI cfg (processDuring cfg e m (t :: ts)) xs = _
            rw [hk]
            exact h3
        split at key
        · exact fin (.radioEvent t) .process ht trivial key fun ys hs => .before e t ts hs
        · split at key
          · exact fin .process (.lateEvent t) trivial ht key fun ys hs => .late e t ts hs
          · exact fin .process (.radioEvent t) trivial ht key fun ys hs => .after e t ts hs

/-- **C91**: interrupts during calls lead to no state that is not reachable without. -/
theorem c91_reachable {cfg : Cfg} {m : Mac} (h : ReachableI cfg m) : Reachable cfg m := by
  induction h with
  | init region arg e h ha => exact .init region arg e h ha
  | @step m e c _ hc ih =>
    obtain ⟨ys, _, hw, hr⟩ := c91_history [(e, c)] ih (by simpa using hc)
    rw [show stepI cfg m e c = run cfg m ys from hr]
    exact Demo.run_reach ih ys hw

/-- **C91**: an interrupt that was too late, because the radio is being reset, does nothing.  The next
`LDL_MAC_process` drops it. -/
theorem c91_dropped {cfg : Cfg} {m : Mac} (h : Reachable cfg m) (e : Env) (hs : m.state = .radioReset)
    (hp : m.inputState = true) :
    let m' := (step cfg m e .process).1
    m'.state = .radioReset ∧ m'.inputState = false ∧ m'.op = m.op ∧ m'.timerA = m.timerA ∧ m'.timerB = m.timerB ∧
      m'.ctx = m.ctx ∧ (m'.out = m.out ∨ m'.out = m.out ++ [.channelReady]) := by
  intro m'
  have hin : m'.inputState = false := (process_latch cfg e m h.reach.opOk h.latch).2
  obtain ⟨ev, lag, m1, hpr, h1⟩ := process_cases cfg e m
  have hev : ev = .interrupt := hpr.interrupt.2 hp
  obtain ⟨_, _, _, _, _, _, _, _, _, hme⟩ := hpr.eq
  have hst : m1.state = .radioReset := by rw [hme]; exact hs
  have hd : dispatch cfg e ev lag m1 = m1 := by
    unfold dispatch processRadioReset
    simp only [hst, hev]
    rw [if_neg (by simp)]
  rw [if_neg (by rw [hev]; simp), hd] at h1
  obtain ⟨p, tb, hb⟩ := setNextBandEvent_shape cfg e m1
  have hm' : m' = { m1 with parked := p, timerBand := tb } := h1.trans hb
  have hA : m1.timerA = m.timerA := by
    rcases hpr.timerA with ⟨h, _⟩ | ⟨_, h⟩
    · rw [hev] at h; cases h
    · exact h
  have hB : m1.timerB = m.timerB := by
    rcases hpr.timerB with ⟨h, _⟩ | ⟨_, h⟩
    · rw [hev] at h; cases h
    · exact h
  refine ⟨?_, hin, ?_, ?_, ?_, ?_, ?_⟩ <;> rw [hm']
  · exact hst
  · show m1.op = _
    rw [hme]
  · exact hA
  · exact hB
  · show m1.ctx = _
    rw [hme]
  · exact hpr.out

/-- The device of `Demo`, transmitting: an interrupt during a call of `LDL_MAC_process` is acted on by the next; one
during the call that finds the radio to have failed is dropped. -/
example :
    let m := processDuring Demo.cfg (Demo.at_ 70000) Demo.onAir [70001, 70002]
    m.state = .tx ∧ m.inputState = true ∧ m.inputTime = 70001 ∧
    (step Demo.cfg m { now := 70020, statusTx := true } .process).1.state = .waitRX1 := by decide +kernel

example :
    let m := processDuring Demo.cfg (Demo.at_ 70000000) Demo.onAir [70000001]
    m.state = .radioReset ∧ m.inputState = true ∧ m.inputArmed = false := by decide +kernel

end LDL
