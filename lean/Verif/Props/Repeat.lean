import Verif.Spec.Repeat
import Verif.Props.Windows
import Verif.Props.Transmit

/-!
# The time between the transmissions of a frame: C89
-/

namespace LDL
open Spec

/-! ## The second timer is in use between a transmission and its second window only -/

/-- States in which the second timer may be set. -/
def usesTimerB (s : St) : Prop :=
  s = .waitRX1 ∨ s = .startRadioForRX1 ∨ s = .rx1 ∨ s = .waitRX2 ∨ s = .startRadioForRX2

def TimerBOk (m : Mac) : Prop := ¬ usesTimerB m.state → m.timerB.armed = false

theorem Missing.timerB {cfg : Cfg} {e : Env} {m m' : Mac} (h : Missing cfg e m m') : m'.timerB = m.timerB := by
  cases h with
  | nextJoin =>
    obtain ⟨dn, b, bl, t, hn⟩ := nextJoinRequest_shape cfg e { m with trials := u32 (m.trials + 1) }
    rw [hn]
  | _ => rfl

theorem RadioErr.timerB {cfg : Cfg} {e : Env} {m m' : Mac} (h : RadioErr cfg e m m') : m'.timerB.armed = false := by
  cases h with
  | op => rfl
  | nextJoin ho hn x hx =>
    obtain ⟨dn, b, bl, t, h⟩ := nextJoinRequest_shape cfg e { m with
      inputArmed := false, timerA := m.timerA.clear, timerB := m.timerB.clear, trials := u32 (m.trials + 1) }
    rw [hx, h]; rfl
  | exhausted => rfl

theorem Disp.timerB {cfg : Cfg} {e : Env} {ev : Sme} {lag : Nat} {m0 m m' : Mac} (h : Disp cfg e ev lag m m')
    (hp : Prep e m0 m ev lag) (hb : TimerBOk m0) : TimerBOk m' := by
  obtain ⟨_, _, _, _, _, _, _, _, _, hme⟩ := hp.eq
  have hst : m0.state = m.state := by rw [hme]
  have hb1 : TimerBOk m := by
    intro hn
    rcases hp.timerB with ⟨_, _, h'⟩ | ⟨_, h'⟩
    · rw [h']; rfl
    · rw [h']; exact hb (by rw [hst]; exact hn)
  have hnot : ∀ s, m.state = s → ¬ usesTimerB s → m.timerB.armed = false := fun s h h' => hb1 (by rw [h]; exact h')
  have hcl : ev = .timerB → m.timerB.armed = false := fun h => by
    rcases hp.timerB with ⟨_, _, h'⟩ | ⟨h', _⟩
    · rw [h']; rfl
    · exact absurd h h'
  clear hme hp hb hst
  intro hn
  cases h with
  | stay => exact hb1 hn
  | init hs => exact hnot _ hs (by simp [usesTimerB])
  | reset hs => exact hnot _ hs (by simp [usesTimerB])
  | boot hs => exact hnot _ hs (by simp [usesTimerB])
  | startEntropy hs => exact hnot _ hs (by simp [usesTimerB])
  | entropy hs => exact hnot _ hs (by simp [usesTimerB])
  | otaa hs => exact hnot _ hs (by simp [usesTimerB])
  | waitA hs =>
    rcases hs with hs | hs | hs
    · exact absurd (by simp [usesTimerB, hs, waitNext]) hn
    · exact hnot _ hs (by simp [usesTimerB])
    · exact hnot _ hs (by simp [usesTimerB])
  | waitB hs => exact absurd (by simp [usesTimerB, hs, waitNext]) hn
  | startTX hs => exact hnot _ hs (by simp [usesTimerB])
  | startRX1 => exact absurd (by simp [usesTimerB]) hn
  | startRX2 hs he => exact hcl he
  | txError => exact (handleRadioError_cases ..).timerB
  | txDone =>
    obtain ⟨r1, r2, ta, tb, s, h, hst⟩ := txComplete_shape cfg e lag (registerTime (m.emit .getStatus))
    rw [h] at hn
    rcases hst with ⟨rfl, _⟩ | ⟨rfl, _⟩ <;> exact absurd (by simp [usesTimerB]) hn
  | rxError => exact (handleRadioError_cases ..).timerB
  | rxRejected => rw [(downlinkMissing_missing ..).timerB]; rfl
  | rxJoin hs he hr f buf =>
    obtain ⟨r, cc, cm, v, pc, k, h⟩ := joinAccepted_shape cfg (packetState e m) f buf
    rw [h]; rfl
  | rxData hs he hr f buf =>
    obtain ⟨c, o, h, _⟩ := dataReceived_shape cfg e (packetState e m) f buf
    rw [h]; rfl
  | rxTimeout1 => exact absurd (by simp [usesTimerB]) hn
  | rxTimeout2 => rfl
  | lockout hs =>
    rw [(downlinkMissing_missing ..).timerB]
    exact hnot _ hs (by simp [usesTimerB])

theorem process_timerBOk (cfg : Cfg) (e : Env) (m : Mac) (hb : TimerBOk m) : TimerBOk (process cfg e m) := by
  obtain ⟨ev, lag, m1, m2, p, t, hp, hd, heq⟩ := process_disp cfg e m
  rw [heq]
  rcases hd with ⟨_, rfl⟩ | ⟨_, hd⟩
  · obtain ⟨_, _, _, _, _, _, _, _, _, hme⟩ := hp.eq
    have hst : m.state = m2.state := by rw [hme]
    intro hn
    rcases hp.timerB with ⟨_, _, h'⟩ | ⟨_, h'⟩
    · show m2.timerB.armed = false
      rw [h']; rfl
    · show m2.timerB.armed = false
      rw [h']; exact hb (by rw [hst]; exact hn)
  · exact hd.timerB hp hb

theorem Api.timerB {cfg : Cfg} {e : Env} {m m' : Mac} {c : Call} {st : Status} (h : Api cfg e m c m' st)
    (hb : TimerBOk m) : TimerBOk m' := by
  have hcan : TimerBOk (LDL.cancel m) := by
    rcases cancel_shape m with ⟨h1, h⟩ | ⟨h1, h⟩ <;> rw [h]
    · exact hb
    · exact fun _ => rfl
  cases h with
  | entropyIdle _ hs => exact fun _ => hb (by rw [hs]; simp [usesTimerB])
  | otaa hj ho hn x hx s t hst =>
    obtain ⟨k, hk⟩ := deriveJoinKeys_shape cfg { m with trials := 0, day := 60 * 60 * 24 * timeTPS }
    obtain ⟨dn, b, bl, t', h⟩ := nextJoinRequest_shape cfg e
      (Ops.deriveJoinKeys cfg { m with trials := 0, day := 60 * 60 * 24 * timeTPS })
    have hB : x.timerB = m.timerB := by rw [hx, h, hk]
    intro hn
    show x.timerB.armed = false
    rw [hB]
    rcases hst with ⟨h, rfl, rfl⟩ | ⟨_, rfl, rfl⟩
    · exact hb (by rw [h]; simp [usesTimerB])
    · exact hb hn
  | data _ _ _ _ _ _ _ _ _ _ _ _ _ _ m1 hm1 =>
    obtain ⟨_, _, op, s, t, h', hopp, hst⟩ := sendData_shape cfg e m1 _ _ _ _ _ _
    rw [h']
    have e1 : m1.state = m.state := by rw [hm1]
    have e3 : m1.timerB = m.timerB := by rw [hm1]
    intro hn
    show m1.timerB.armed = false
    rw [e3]
    rcases hst with ⟨h, rfl, rfl⟩ | ⟨_, rfl, rfl⟩
    · exact hb (by rw [← e1, h]; simp [usesTimerB])
    · exact hb (by rw [← e1]; exact hn)
  | forget =>
    obtain ⟨_, _, _, _, _, h'⟩ := forget_shape m
    rw [h']; exact hcan
  | cancel => exact hcan
  | _ => exact hb

theorem Spec.Reachable.timerBOk {cfg : Cfg} {m : Mac} (hr : Reachable cfg m) : TimerBOk m := by
  induction hr with
  | init region arg e _ _ =>
    obtain ⟨c, k, h, _⟩ := init_fields cfg region arg e
    rw [h]; exact fun _ => rfl
  | @step m e c h _ ih =>
    by_cases hc : c = .process
    · subst hc; exact process_timerBOk cfg e m ih
    · exact (step_api cfg e m c hc).timerB ih

/-! ## The wait before a repetition -/

/-- A frame is to be repeated: how long the device waits. -/
theorem repeat_due {cfg : Cfg} {m : Mac} (hr : Reachable cfg m) (e : Env) (hl : afterTx m.state = true)
    (hs : (process cfg e m).state = .waitTX) : (process cfg e m).timerA =
      Timer.set e (if m.op = .dataConfirmed then u32 (cfg.tps <<< u32 (m.trials + 1)) else 0) ∧
    (process cfg e m).inputState = false := by
  obtain ⟨ev, lag, m1, m2, p, t, hp, hd, heq⟩ := process_disp cfg e m
  rw [heq] at hs ⊢
  change m2.state = .waitTX at hs
  show m2.timerA = _ ∧ m2.inputState = false
  have hop := hr.reach.opOk.of_afterTx hl
  obtain ⟨_, _, _, _, _, _, _, _, _, hme⟩ := hp.eq
  have hst : m1.state = m.state := by rw [hme]
  have ho1 : m1.op = m.op := by rw [hme]
  have ht1 : m1.trials = m.trials := by rw [hme]
  have hi1 : m1.inputState = false := by
    rcases hp.latch with ⟨_, _, h, _⟩ | ⟨_, _, h⟩ <;> exact h
  have hm : ∀ x : Mac, x.op = m.op → x.trials = m.trials → x.inputState = false → Missing cfg e x m2 →
      m2.timerA = Timer.set e (if m.op = .dataConfirmed then u32 (cfg.tps <<< u32 (m.trials + 1)) else 0) ∧
        m2.inputState = false := by
    intro x h1 h2 h4 h3
    cases h3 with
    | retry ho hr t b hb ht => exact ⟨by rw [ht, h1, h2], h4⟩
    | giveUp => cases hs
    | nextJoin => cases hs
    | exhausted => cases hs
    | other ho =>
      rw [h1] at ho
      rcases hop with h | h | h <;> rw [h] at ho <;> simp at ho
  rw [← hst] at hl
  rcases hd with ⟨_, h⟩ | ⟨_, h⟩
  · rw [h] at hs
    rw [hs] at hl; cases hl
  · clear hme hp heq
    cases h with
    | stay => rw [hs] at hl; cases hl
    | init h => rw [h] at hl; cases hl
    | reset h => rw [h] at hl; cases hl
    | boot h => rw [h] at hl; cases hl
    | startEntropy h => rw [h] at hl; cases hl
    | entropy h => rw [h] at hl; cases hl
    | otaa h => rw [h] at hl; cases hl
    | waitA h =>
      rcases h with h | h | h <;> rw [h] at hl hs <;> first | cases hs | cases hl
    | waitB h => rw [h] at hs; cases hs
    | startTX h => cases hs
    | txError => rw [(handleRadioError_cases cfg e _).latch.2.2.1] at hs; cases hs
    | txDone =>
      obtain ⟨r1, r2, ta, tb, s, h, hst⟩ := txComplete_shape cfg e lag (registerTime (m1.emit .getStatus))
      rw [h] at hs
      rcases hst with ⟨rfl, _⟩ | ⟨rfl, _⟩ <;> cases hs
    | startRX1 => cases hs
    | startRX2 => cases hs
    | rxError => rw [(handleRadioError_cases cfg e _).latch.2.2.1] at hs; cases hs
    | rxRejected => exact hm (packetState e m1) ho1 ht1 hi1 (downlinkMissing_missing ..)
    | rxJoin h he hr f buf =>
      obtain ⟨r, cc, cm, v, pc, k, h⟩ := joinAccepted_shape cfg (packetState e m1) f buf
      rw [h] at hs; cases hs
    | rxData h he hr f buf =>
      obtain ⟨c, o, h, _⟩ := dataReceived_shape cfg e (packetState e m1) f buf
      rw [h] at hs; cases hs
    | rxTimeout1 => cases hs
    | rxTimeout2 => cases hs
    | lockout => exact hm _ ho1 ht1 hi1 (downlinkMissing_missing ..)

/-- While the time to transmit has not come, nothing moves a device that waits for it, but a cancelled operation. -/
theorem waiting_step {cfg : Cfg} {m : Mac} (hr : Reachable cfg m) (e : Env) (c : Call) (hs : m.state = .waitTX)
    (hA : m.timerA.check e = none) (ho : m.op ≠ .none) :
    (step cfg m e c).1.op = .none ∨ (step cfg m e c).1.state = .waitTX ∧ (step cfg m e c).1.timerA = m.timerA := by
  have hB := hr.timerBOk (by rw [hs]; simp [usesTimerB])
  by_cases hc : c = .process
  · subst hc
    right
    show (process cfg e m).state = _ ∧ (process cfg e m).timerA = _
    obtain ⟨ev, lag, m1, m2, p, t, hp, hd, heq⟩ := process_disp cfg e m
    rw [heq]
    show m2.state = _ ∧ m2.timerA = _
    have htA : ev ≠ .timerA ∧ m1.timerA = m.timerA := by
      rcases hp.timerA with ⟨_, h, _⟩ | h
      · rw [hA] at h; cases h
      · exact h
    have htB : ev ≠ .timerB := by
      rcases hp.timerB with ⟨_, h, _⟩ | h
      · rw [check_armed h] at hB; cases hB
      · exact h.1
    obtain ⟨_, _, _, _, _, _, _, _, _, hme⟩ := hp.eq
    have hst : m1.state = .waitTX := by rw [hme]; exact hs
    have : m2 = m1 := by
      rcases hd with ⟨_, h⟩ | ⟨_, h⟩
      · exact h
      · clear hme hp heq
        cases h with
        | stay => rfl
        | waitA _ he => rcases he with he | he
                        · exact absurd he htA.1
                        · exact absurd he htB
        | rxError h => rcases h with h | h <;> rw [h] at hst <;> cases hst
        | rxRejected h => rcases h with h | h <;> rw [h] at hst <;> cases hst
        | rxJoin h => rcases h with h | h <;> rw [h] at hst <;> cases hst
        | rxData h => rcases h with h | h <;> rw [h] at hst <;> cases hst
        | init h => rw [h] at hst; cases hst
        | reset h => rw [h] at hst; cases hst
        | boot h => rw [h] at hst; cases hst
        | startEntropy h => rw [h] at hst; cases hst
        | entropy h => rw [h] at hst; cases hst
        | otaa h => rw [h] at hst; cases hst
        | waitB h => rw [h] at hst; cases hst
        | startTX h => rw [h] at hst; cases hst
        | txError h => rw [h] at hst; cases hst
        | txDone h => rw [h] at hst; cases hst
        | startRX1 h => rw [h] at hst; cases hst
        | startRX2 h => rw [h] at hst; cases hst
        | rxTimeout1 h => rw [h] at hst; cases hst
        | rxTimeout2 h => rw [h] at hst; cases hst
        | lockout h => rw [h] at hst; cases hst
    rw [this]
    exact ⟨hst, htA.2⟩
  · have h := step_api cfg e m c hc
    generalize (step cfg m e c).1 = m' at *
    generalize (step cfg m e c).2 = st at *
    cases h with
    | refused => exact Or.inr ⟨hs, rfl⟩
    | entropyIdle h => exact absurd h ho
    | entropyLater h => exact absurd h ho
    | otaa _ h => exact absurd h ho
    | abp _ h => exact absurd h ho
    | dataRefused _ _ _ _ _ h => exact absurd h ho
    | data _ _ _ _ _ _ h => exact absurd h ho
    | forget =>
      left
      obtain ⟨_, _, _, _, _, h'⟩ := forget_shape m
      rw [h']
      rcases cancel_shape m with ⟨_, h⟩ | ⟨_, h⟩ <;> simp only [h]
    | cancel => left; rcases cancel_shape m with ⟨_, h⟩ | ⟨_, h⟩ <;> rw [h]
    | _ => exact Or.inr ⟨hs, rfl⟩

theorem inOrder_le {t : Nat} {calls : List (Env × Call)} (h : InOrder t calls) : ∀ x ∈ calls, t ≤ x.1.now := by
  induction calls generalizing t with
  | nil => simp
  | cons y rest ih =>
    intro x hx
    rcases List.mem_cons.1 hx with rfl | hx
    · exact h.1
    · exact Nat.le_trans h.1 (Nat.le_trans y.1.now_le_done (ih h.2 x hx))

theorem sentTimes_ge {cfg : Cfg} {t : Nat} {calls : List (Env × Call)} (m : Mac) (h : ∀ x ∈ calls, t ≤ x.1.now) :
    ∀ a ∈ sentTimes cfg m calls, t ≤ a := by
  induction calls generalizing m with
  | nil => intro a ha; simp [sentTimes] at ha
  | cons y rest ih =>
    intro a ha
    obtain ⟨e, c⟩ := y
    simp only [sentTimes, List.mem_append, List.mem_map] at ha
    rcases ha with ⟨_, _, rfl⟩ | ha
    · exact Nat.le_trans (h (e, c) (by simp)) e.now_le_done
    · split at ha
      · simp at ha
      · exact ih _ (fun x hx => h x (by simp [hx])) a ha

theorem doubling_cons {tps k a : Nat} {l : List Nat} (h : Doubling tps (k + 1) l) (hl : ∀ b ∈ l, a + 2 ^ k * tps ≤ b) :
    Doubling tps k (a :: l) := by
  cases l with
  | nil => trivial
  | cons b rest => exact ⟨hl b (by simp), h⟩

/-- Three stages of a confirmed operation: after a transmission, before one, and while waiting to repeat. -/
theorem sentTimes_doubling {cfg : Cfg} (n : Nat) (hn : n < 4294967296) (hw : ∀ k, k < n → 2 ^ k * cfg.tps < 2 ^ 31)
    (calls : List (Env × Call)) (hc : ∀ x ∈ calls, x.2.WF) {m : Mac} (hr : Reachable cfg m)
    (ho : m.op = .dataConfirmed) (hnb : nbTransOf m = n) (ht : m.trials < n) (now : Nat) (hord : InOrder now calls) :
    (afterTx m.state = true → Doubling cfg.tps (m.trials + 1) (now :: sentTimes cfg m calls)) ∧
    (afterTx m.state = false → Doubling cfg.tps (m.trials + 1) (sentTimes cfg m calls)) ∧
    (∀ due, m.state = .waitTX → DueAt m.timerA due → due < now + 2 ^ 31 → ∀ a ∈ sentTimes cfg m calls, due ≤ a) := by
  induction calls generalizing m now with
  | nil => exact ⟨fun _ => trivial, fun _ => trivial, fun _ _ _ _ a ha => by simp [sentTimes] at ha⟩
  | cons x rest ih =>
    obtain ⟨e, c⟩ := x
    have hcc : c.WF := hc (e, c) (by simp)
    have hcr : ∀ x ∈ rest, x.2.WF := fun y hy => hc y (by simp [hy])
    have hr' : Reachable cfg (step cfg m e c).1 := .step e c hr hcc
    obtain ⟨o, h1, h2, _⟩ := step_does cfg e m c hr.reach.opOk
    have hnew : (step cfg m e c).1.out.drop m.out.length = o := by rw [h1, List.drop_left]
    have hwait := waiting_step hr e c
    have hrep := repeat_due hr e
    have hge := inOrder_le hord
    have hdone := e.now_le_done
    have hall : ∀ a ∈ sentTimes cfg m ((e, c) :: rest), e.now ≤ a :=
      sentTimes_ge m (fun y hy => by
        rcases List.mem_cons.1 hy with rfl | hy
        · exact Nat.le_refl _
        · exact Nat.le_trans e.now_le_done (inOrder_le hord.2 y hy))
    simp only [sentTimes] at hall ⊢
    rw [hnew] at hall ⊢
    have hproc : c = .process → step cfg m e c = (process cfg e m, .ok) := by rintro rfl; rfl
    generalize hm' : (step cfg m e c).1 = m' at h2 hr' hwait hall ⊢
    have hproc : c = .process → process cfg e m = m' := fun h => by rw [← hm', hproc h]
    change OpStep cfg e m c m' (transmitted o) (nonceReports o) at h2
    generalize transmitted o = tr at h2 hall ⊢
    generalize nonceReports o = nr at h2
    have hno : m.op ≠ .none := by rw [ho]; decide
    have htx : m.op.isTx := by rw [ho]; exact Or.inr (Or.inr rfl)
    cases h2 with
    | idle ho2 => exact absurd htx (isTx_not ho2)
    | keep ho2 hk ht2 hb2 hl =>
      have hop' : m'.op = .dataConfirmed := hk.op.trans ho
      obtain ⟨i1, i2, i3⟩ := ih hcr hr' hop' (hk.nbTransOf.trans hnb) (ht2 ▸ ht) e.done hord.2
      rw [if_neg (by rw [hop']; decide)] at hall ⊢
      rw [ht2, hl] at i1
      rw [ht2, hl] at i2
      simp only [List.map_nil, List.nil_append] at hall ⊢
      refine ⟨fun h => ?_, i2, fun due hs hd hn' => ?_⟩
      · have hd := i1 h
        cases hst : sentTimes cfg m' rest with
        | nil => trivial
        | cons b l =>
          rw [hst] at hd
          have := hord.1
          exact ⟨by have := hd.1; omega, hd.2⟩
      · by_cases hdn : due ≤ e.now
        · exact fun a ha => Nat.le_trans hdn (hall a ha)
        · have hcheck := c35_not_early m.timerA due hd e (by omega) (by have := hord.1; omega)
          rcases hwait hs hcheck hno with h | ⟨h, h'⟩
          · rw [hop'] at h; cases h
          · exact i3 due h (by rw [h']; exact hd) (by have := hord.1; omega)
    | ended ho2 ho' =>
      rw [if_pos ho']
      exact ⟨fun _ => trivial, fun _ => trivial, fun _ _ _ _ a ha => by simp at ha⟩
    | sent ho2 hcp hs hs' hk ht2 hb2 =>
      have hop' : m'.op = .dataConfirmed := hk.op.trans ho
      obtain ⟨i1, i2, i3⟩ := ih hcr hr' hop' (hk.nbTransOf.trans hnb) (ht2 ▸ ht) e.done hord.2
      rw [if_neg (by rw [hop']; decide)]
      refine ⟨(fun h => by rw [hs] at h; cases h), fun _ => ?_, (fun _ h => by rw [hs] at h; cases h)⟩
      have := i1 (by rw [hs']; rfl)
      rw [ht2] at this
      exact this
    | repeated ho2 hcp hl hs hk ht2 hn2 hb2 =>
      have hop' : m'.op = .dataConfirmed := hk.op.trans ho
      have htr : m'.trials = m.trials + 1 := by rw [ht2]; exact Nat.mod_eq_of_lt (by omega)
      rw [hnb] at hn2
      obtain ⟨i1, i2, i3⟩ := ih hcr hr' hop' (hk.nbTransOf.trans hnb) hn2 e.done hord.2
      rw [if_neg (by rw [hop']; decide)]
      rw [hproc hcp] at hrep
      have hta := (hrep hl hs).1
      rw [if_pos ho, ← ht2, htr] at hta
      rw [htr] at hn2 i2
      have hlt := hw _ hn2
      have hsh : u32 (cfg.tps <<< (m.trials + 1)) = 2 ^ (m.trials + 1) * cfg.tps := by
        rw [Nat.shiftLeft_eq, Nat.mul_comm]
        refine Nat.mod_eq_of_lt ?_
        rw [show (2 : Nat) ^ 31 = 2147483648 from rfl] at hlt
        omega
      rw [hsh] at hta
      have hd : DueAt m'.timerA (e.done + 2 ^ (m.trials + 1) * cfg.tps) := by
        rw [hta]; exact c35_set e _ hlt
      have hfar := i3 _ hs hd (by omega)
      have h2' := i2 (by rw [hs]; rfl)
      have := hord.1
      refine ⟨fun _ => doubling_cons h2' fun b hb => ?_, (fun h => by rw [hl] at h; cases h),
        (fun _ h => by rw [h] at hl; cases hl)⟩
      have := hfar b hb
      omega
    | request ho2 => rw [ho] at ho2; cases ho2
    | join ho2 => rw [ho] at ho2; cases ho2
    | send ho2 => rw [ho] at ho2; cases ho2

/-- An accepted request makes the operation asked for. -/
theorem accepted_op {cfg : Cfg} {m : Mac} (e : Env) (confirmed : Bool) (port : Nat) (payload : Option Bytes) (len : Nat)
    (opts : Option DataOpts) (ha : (step cfg m e (.data confirmed port payload len opts)).2 = .ok) :
    m.op = .none ∧ (step cfg m e (.data confirmed port payload len opts)).1.op =
      if confirmed then .dataConfirmed else .dataUnconfirmed := by
  obtain ⟨freq, ch, rate, h1, _, h2, _, _, _, hstep⟩ := accepted_send e confirmed port payload len opts (Or.inl ha)
  rw [hstep] at ha ⊢
  refine ⟨by assumption, ?_⟩
  generalize ({ m with tx := { m.tx with freq := freq, chIndex := ch, rate := rate, power := m.ctx.power } } : Mac) = y at *
  obtain ⟨x, hx, _, _, _, _, a5, _⟩ := sendData_fields cfg e y confirmed port payload len opts _ _ rfl
  rw [a5, hx]
  have ha : (uplinkFrame cfg y confirmed port payload len (dataOptions opts) (m.ctx.region.convertRate m.ctx.rate).mtu).2.2 = .ok := ha
  have : (uplinkFrame cfg y confirmed port payload len (dataOptions opts) (m.ctx.region.convertRate m.ctx.rate).mtu).2.1 = confirmed := by
    unfold uplinkFrame placeMacData at *
    simp only [] at *
    split at ha
    · cases ha
    · next h1 =>
      split at ha
      · cases ha
      · next h2 => rw [if_neg h1, if_neg h2]
  simp only [this]

/-- A frame just accepted has not been transmitted. -/
theorem accepted_state {cfg : Cfg} {m : Mac} (hr : Reachable cfg m) (e : Env) (confirmed : Bool) (port : Nat)
    (payload : Option Bytes) (len : Nat) (opts : Option DataOpts) (hmo : m.op = .none)
    (hop : (step cfg m e (.data confirmed port payload len opts)).1.op = if confirmed then .dataConfirmed else .dataUnconfirmed) :
    afterTx (step cfg m e (.data confirmed port payload len opts)).1.state = false := by
  obtain ⟨o, h1, hs, _⟩ := step_does cfg e m (.data confirmed port payload len opts) hr.reach.opOk
  generalize (step cfg m e (.data confirmed port payload len opts)).1 = m' at *
  generalize transmissions o = tt at *
  generalize nonceReports o = nn at *
  cases hs with
  | idle _ h => rw [hop] at h; cases confirmed <;> simp at h
  | keep h => rw [hmo] at h; exact absurd h (by unfold Op.isTx; simp)
  | ended _ h => rw [hop] at h; cases confirmed <;> cases h
  | sent _ h => cases h
  | repeated _ h => cases h
  | request _ h => cases h
  | join _ h => cases h
  | send _ _ _ _ _ _ _ _ _ _ _ _ _ _ _ _ h => exact h

/-- **C89**: whatever is called after a confirmed send was accepted, at least 2^k s pass between the k-th and the next
transmission of its frame, until its operation is over. -/
theorem c89_doubling_partial {cfg : Cfg} {m : Mac} (hr : Reachable cfg m) (e : Env)
    (port : Nat) (payload : Option Bytes) (len : Nat) (opts : Option DataOpts)
    (hw : (Call.data true port payload len opts).WF)
    (ha : (step cfg m e (.data true port payload len opts)).2 = .ok)
    (hf : 2 ^ (repetitions opts m.ctx - 1) * cfg.tps < 2 ^ 31) -- the longest wait fits a timer
    (calls : List (Env × Call)) (hc : ∀ x ∈ calls, x.2.WF) (hord : InOrder e.now calls) :
    Doubling cfg.tps 1 (sentTimes cfg (step cfg m e (.data true port payload len opts)).1 calls) := by
  have hr' : Reachable cfg (step cfg m e (.data true port payload len opts)).1 := .step e _ hr hw
  obtain ⟨_, h2, h3⟩ := accepted_counts hr e true port payload len opts (Or.inl ha) _ rfl
  have hl := repetitions_lt opts hr.sessionOk
  obtain ⟨hmo, hop⟩ := accepted_op e true port payload len opts ha
  have hat := accepted_state hr e true port payload len opts hmo hop
  have := (sentTimes_doubling (repetitions opts m.ctx) (by omega) (fun k hk => by
    refine Nat.lt_of_le_of_lt (Nat.mul_le_mul_right _ (Nat.pow_le_pow_right (by decide) ?_)) hf
    omega) calls hc hr' (hop.trans (if_pos rfl)) h3 (by rw [h2]; omega) e.now hord).2.1 hat
  rw [h2] at this
  exact this

/-! ## The repetition is made -/

/-- The transmissions of an operation that goes on are counted. -/
theorem sentTimes_count {cfg : Cfg} (n : Nat) (hn : n < 4294967296) (calls : List (Env × Call)) (hc : ∀ x ∈ calls, x.2.WF)
    {m : Mac} (hr : Reachable cfg m) (ho : m.op = .dataUnconfirmed ∨ m.op = .dataConfirmed) (hnb : nbTransOf m = n)
    (ht : m.trials < n) (hg : GoesOn cfg m calls) :
    (sentTimes cfg m calls).length + m.trials + onAir m = (run cfg m calls).trials + onAir (run cfg m calls) ∧
    (run cfg m calls).op = m.op ∧ (run cfg m calls).trials < n ∧ nbTransOf (run cfg m calls) = n ∧
    Reachable cfg (run cfg m calls) := by
  induction calls generalizing m with
  | nil => exact ⟨by simp [sentTimes, run], rfl, ht, hnb, hr⟩
  | cons x rest ih =>
    obtain ⟨e, c⟩ := x
    have hcc : c.WF := hc (e, c) (by simp)
    have hcr : ∀ x ∈ rest, x.2.WF := fun y hy => hc y (by simp [hy])
    have hr' : Reachable cfg (step cfg m e c).1 := .step e c hr hcc
    obtain ⟨o, h1, h2, _⟩ := step_does cfg e m c hr.reach.opOk
    have hnew : (step cfg m e c).1.out.drop m.out.length = o := by rw [h1, List.drop_left]
    have hno : (step cfg m e c).1.op ≠ .none := hg [(e, c)] rest rfl
    have hg' : GoesOn cfg (step cfg m e c).1 rest := fun a b hab => hg ((e, c) :: a) b (by rw [hab]; rfl)
    simp only [sentTimes]
    rw [hnew]
    show _ = (run cfg (step cfg m e c).1 rest).trials + onAir (run cfg (step cfg m e c).1 rest) ∧
      (run cfg (step cfg m e c).1 rest).op = _ ∧ (run cfg (step cfg m e c).1 rest).trials < n ∧
      nbTransOf (run cfg (step cfg m e c).1 rest) = n ∧ Reachable cfg (run cfg (step cfg m e c).1 rest)
    generalize hm' : (step cfg m e c).1 = m' at h2 hr' hno hg' ⊢
    change OpStep cfg e m c m' (transmitted o) (nonceReports o) at h2
    generalize transmitted o = tr at h2 ⊢
    generalize nonceReports o = nr at h2
    rw [if_neg hno]
    have htx : m.op.isTx := isData_tx ho
    cases h2 with
    | idle ho2 => exact absurd htx (isTx_not ho2)
    | keep ho2 hk ht2 hb2 hl =>
      obtain ⟨i1, i2, i3⟩ := ih hcr hr' (hk.op ▸ ho) (hk.nbTransOf.trans hnb) (ht2 ▸ ht) hg'
      refine ⟨?_, i2.trans hk.op, i3⟩
      rw [← i1, ht2]
      unfold onAir
      rw [hl]
      rfl
    | ended ho2 ho' => exact absurd ho' hno
    | sent ho2 hcp hs hs' hk ht2 hb2 =>
      obtain ⟨i1, i2, i3⟩ := ih hcr hr' (hk.op ▸ ho) (hk.nbTransOf.trans hnb) (ht2 ▸ ht) hg'
      refine ⟨?_, i2.trans hk.op, i3⟩
      rw [← i1, ht2]
      have e1 : onAir m = 0 := by unfold onAir; rw [hs]; rfl
      have e2 : onAir m' = 1 := by unfold onAir; rw [hs']; rfl
      rw [e1, e2]
      simp only [List.map_cons, List.map_nil, List.cons_append, List.nil_append, List.length_cons]
      omega
    | repeated ho2 hcp hl hs hk ht2 hn2 hb2 =>
      rw [hnb] at hn2
      obtain ⟨i1, i2, i3⟩ := ih hcr hr' (hk.op ▸ ho) (hk.nbTransOf.trans hnb) hn2 hg'
      refine ⟨?_, i2.trans hk.op, i3⟩
      have htr : m'.trials = m.trials + 1 := by rw [ht2]; exact Nat.mod_eq_of_lt (by omega)
      rw [← i1, htr]
      have e1 : onAir m = 1 := by unfold onAir; rw [hl]; rfl
      have e2 : onAir m' = 0 := by unfold onAir; rw [hs]; rfl
      rw [e1, e2]
      simp only [List.map_nil, List.nil_append]
      omega
    | request ho2 => rw [ho2] at ho; simp at ho
    | join ho2 => rw [ho2] at ho; simp at ho
    | send ho2 => rw [ho2] at ho; simp at ho

/-- A call that leaves the state as it is transmits nothing. -/
theorem step_silent {cfg : Cfg} {m : Mac} (hr : Reachable cfg m) (e : Env) (c : Call)
    (hs : (step cfg m e c).1.state = m.state) : transmitted ((step cfg m e c).1.out.drop m.out.length) = [] := by
  obtain ⟨o, h1, h2, _⟩ := step_does cfg e m c hr.reach.opOk
  rw [show (step cfg m e c).1.out.drop m.out.length = o by rw [h1, List.drop_left]]
  generalize (step cfg m e c).1 = m' at h2 hs
  change OpStep cfg e m c m' (transmitted o) (nonceReports o) at h2
  generalize transmitted o = tr at h2
  generalize nonceReports o = nr at h2
  cases h2 with
  | sent _ _ h h' => rw [h, h'] at hs; cases hs
  | _ => rfl

theorem sentTimes_silent {cfg : Cfg} {m : Mac} {e : Env} {c : Call} (rest : List (Env × Call))
    (ht : transmitted ((step cfg m e c).1.out.drop m.out.length) = []) (ho : (step cfg m e c).1.op ≠ .none) :
    sentTimes cfg m ((e, c) :: rest) = sentTimes cfg (step cfg m e c).1 rest := by
  simp only [sentTimes]
  rw [ht, if_neg ho]; rfl

/-- Nothing happens before the time to transmit has come. -/
theorem quiet_sent (cfg : Cfg) {m : Mac} (hr : Reachable cfg m) (calls rest : List (Env × Call)) (hw : ∀ x ∈ calls, x.2.WF)
    (hs : m.state = .waitTX ∨ m.state = .startRadioForTX) (ho : m.op ≠ .none) (hi : m.inputState = false) (a due : Nat)
    (hd : DueAt m.timerA due) (hn : due < a + 2 ^ 31) (hc : Between a due calls) :
    winView (run cfg m calls) = winView m ∧ sentTimes cfg m (calls ++ rest) = sentTimes cfg (run cfg m calls) rest ∧
      Reachable cfg (run cfg m calls) := by
  induction calls generalizing m with
  | nil => exact ⟨rfl, rfl, hr⟩
  | cons x more ih =>
    obtain ⟨e, c⟩ := x
    obtain ⟨h1, h2, h3⟩ := hc (e, c) (by simp)
    have hA : m.timerA.check e = none := c35_not_early _ due hd e h3 (by have : a ≤ e.now := h2; omega)
    have hB : m.timerB.check e = none := by
      unfold Timer.check
      rw [hr.timerBOk (by unfold usesTimerB; rcases hs with h | h <;> simp [h])]
      rfl
    have hr' : Reachable cfg (step cfg m e c).1 := .step e c hr (hw (e, c) (by simp))
    have hv : winView (step cfg m e c).1 = winView m := by
      by_cases hcp : c = .process
      · subst hcp
        exact (process_view cfg m e (by rcases hs with h | h <;> rw [h] <;> decide) hi hA hB).1
      · exact call_view cfg m e c hcp h1 ho
    have e1 : (step cfg m e c).1.state = m.state := congrArg WinView.state hv
    have e2 : (step cfg m e c).1.op = m.op := congrArg WinView.op hv
    have e3 : (step cfg m e c).1.inputState = m.inputState := congrArg WinView.inputState hv
    have e4 : (step cfg m e c).1.timerA = m.timerA := congrArg WinView.timerA hv
    obtain ⟨i1, i2, i3⟩ := ih hr' (fun y hy => hw y (by simp [hy])) (by rw [e1]; exact hs) (by rw [e2]; exact ho)
      (by rw [e3]; exact hi) (by rw [e4]; exact hd) (fun y hy => hc y (by simp [hy]))
    refine ⟨i1.trans hv, ?_, i3⟩
    have := sentTimes_silent (cfg := cfg) (m := m) (e := e) (c := c) (more ++ rest) (step_silent hr e c e1) (by rw [e2]; exact ho)
    exact this.trans i2

/-- The radio is started up for a transmission. -/
theorem waitTX_phase (cfg : Cfg) (m : Mac) (e : Env) (hs : m.state = .waitTX) (hi : m.inputState = false) (due l : Nat)
    (hd : DueAt m.timerA due) (hn : due ≤ e.now) (hk : noticed due e.now = l) (hl : l ≤ 2 ^ 31 - 2)
    (ht : 25 * cfg.tps < 2 ^ 32) : ∃ ta,
    winView (process cfg e m) = { winView m with state := .startRadioForTX, timerA := ta } ∧
    DueAt ta (due + (startup cfg - l)) := by
  have hst := startup_spec ht
  have hsm : startup cfg < 2 ^ 31 := startup_small ht
  have hc : m.timerA.check e = some l := by
    unfold Timer.check
    rw [hd.1, if_pos rfl, hd.2]
    have : timerDelta (due % 2 ^ 32) e.ticks = l := by
      have := noticed_bounds due e.now hn
      have := timerDelta_noticed due e.now hn (by omega)
      exact this.trans hk
    rw [this, INT32_MAX_eq]
    rw [if_pos (by omega)]
  obtain ⟨m1, p, t, hq, hv, hout⟩ := process_timerA cfg m e hi l hc
  have hs1 : m1.state = .waitTX := (congrArg WinView.state hv).trans hs
  have hta : m1.timerA = m.timerA.clear := congrArg WinView.timerA hv
  have hdis : dispatch cfg e .timerA l m1 =
      { m1 with state := .startRadioForTX, timerA := m1.timerA.append (startup cfg - l), out := m1.out ++ [.setMode .tx] } := by
    unfold dispatch
    rw [hs1]
    unfold processWait
    simp only [true_or, if_true, hs1, hst]
    rw [show (if l > startup cfg then 0 else startup cfg - l) = startup cfg - l by split <;> omega]
    rfl
  rw [hdis] at hq
  refine ⟨m1.timerA.append (startup cfg - l), ?_, ?_⟩
  · rw [hq]
    have : winView { m1 with state := .startRadioForTX, timerA := m1.timerA.append (startup cfg - l), out := m1.out ++ [.setMode .tx], parked := p, timerBand := t } = { winView m1 with state := .startRadioForTX, timerA := m1.timerA.append (startup cfg - l) } := rfl
    rw [this, hv]
  · rw [hta]
    exact c35_append m.timerA.clear due (startup cfg - l) hd.2 (by omega)

/-- A frame is handed to the radio. -/
theorem startTX_phase (cfg : Cfg) (m : Mac) (e : Env) (hs : m.state = .startRadioForTX) (hi : m.inputState = false)
    (due : Nat) (hd : DueAt m.timerA due) (hn : due ≤ e.now) (hl : e.now - due ≤ 2 ^ 31 - 2) :
    (transmitted ((process cfg e m).out.drop m.out.length)).length = 1 := by
  obtain ⟨lag, hc, _⟩ := c35_expires m.timerA due hd e hn hl
  obtain ⟨m1, p, t, hq, hv, hout⟩ := process_timerA cfg m e hi lag hc
  have hs1 : m1.state = .startRadioForTX := (congrArg WinView.state hv).trans hs
  have hdis : (dispatch cfg e .timerA lag m1).out = m1.out ++ [.transmit e.done (txSetting m1) (m1.buffer.take m1.bufferLen)] := by
    unfold dispatch
    rw [hs1]
    rfl
  have ho : (process cfg e m).out = m1.out ++ [.transmit e.done (txSetting m1) (m1.buffer.take m1.bufferLen)] := by
    rw [hq]; exact hdis
  rw [ho]
  rcases hout with h | h <;> rw [h]
  · rw [List.drop_left]; rfl
  · rw [List.append_assoc, List.drop_left]; rfl

/-- A device that waits until `due` to transmit does so. -/
theorem transmits_when_due {cfg : Cfg} {y : Mac} (hreach : Reachable cfg y) (hend : y.state = .waitTX) (hopy : y.op ≠ .none)
    (hi : y.inputState = false) (since due l : Nat) (hd : DueAt y.timerA due) (hfar : due < since + 2 ^ 31) (htps : 25 * cfg.tps < 2 ^ 32)
    (calls1 : List (Env × Call)) (hc1 : ∀ x ∈ calls1, x.2.WF) (hb1 : Between since due calls1)
    (e1 : Env) (hn1 : due ≤ e1.now) (hl : noticed due e1.now = l) (hl1 : l ≤ 2 ^ 31 - 2)
    (calls2 : List (Env × Call)) (hc2 : ∀ x ∈ calls2, x.2.WF) (hb2 : Between e1.now (due + (startup cfg - l)) calls2)
    (e2 : Env) (hn2 : due + (startup cfg - l) ≤ e2.now) (hl2 : e2.now - (due + (startup cfg - l)) ≤ 2 ^ 31 - 2) :
    sentTimes cfg y (calls1 ++ (e1, .process) :: (calls2 ++ [(e2, .process)])) = [e2.done] := by
  obtain ⟨a1, a2, a3⟩ := quiet_sent cfg hreach calls1 ((e1, .process) :: (calls2 ++ [(e2, .process)])) hc1 (Or.inl hend) hopy hi
    since due hd hfar hb1
  rw [a2]
  generalize run cfg y calls1 = z at *
  have z1 : z.state = .waitTX := (congrArg WinView.state a1).trans hend
  have z2 : z.op ≠ .none := by rw [show z.op = y.op from congrArg WinView.op a1]; exact hopy
  have z3 : z.inputState = false := (congrArg WinView.inputState a1).trans hi
  have z4 : DueAt z.timerA due := by rw [show z.timerA = y.timerA from congrArg WinView.timerA a1]; exact hd
  obtain ⟨ta, b1, b2⟩ := waitTX_phase cfg z e1 z1 z3 due l z4 hn1 hl hl1 htps
  have w1 : (process cfg e1 z).state = .startRadioForTX := congrArg WinView.state b1
  have w2 : (process cfg e1 z).op ≠ .none := by rw [show (process cfg e1 z).op = z.op from congrArg WinView.op b1]; exact z2
  have w3 : (process cfg e1 z).inputState = false := (congrArg WinView.inputState b1).trans z3
  have w4 : DueAt (process cfg e1 z).timerA (due + (startup cfg - l)) := by
    rw [show (process cfg e1 z).timerA = ta from congrArg WinView.timerA b1]; exact b2
  have hrw : Reachable cfg (process cfg e1 z) := .step e1 .process a3 trivial
  have hsil : transmitted ((step cfg z e1 .process).1.out.drop z.out.length) = [] := by
    obtain ⟨o, h1, h2, _⟩ := step_does cfg e1 z .process a3.reach.opOk
    rw [show (step cfg z e1 .process).1.out.drop z.out.length = o by rw [h1, List.drop_left]]
    have hst : (step cfg z e1 .process).1.state = .startRadioForTX := w1
    generalize (step cfg z e1 .process).1 = v at h2 hst
    change OpStep cfg e1 z .process v (transmitted o) (nonceReports o) at h2
    generalize transmitted o = tr at h2
    generalize nonceReports o = nr at h2
    cases h2 with
    | sent _ _ h h' => rw [h'] at hst; cases hst
    | _ => rfl
  rw [sentTimes_silent _ hsil w2]
  show sentTimes cfg (process cfg e1 z) _ = _
  generalize process cfg e1 z = w at *
  have hsu := startup_small htps
  have hnb := noticed_bounds due e1.now hn1
  obtain ⟨c1, c2, c3⟩ := quiet_sent cfg hrw calls2 [(e2, .process)] hc2 (Or.inr w1) w2 w3 e1.now _ w4 (by omega) hb2
  rw [c2]
  generalize run cfg w calls2 = v at *
  have hone := startTX_phase cfg v e2 ((congrArg WinView.state c1).trans w1) ((congrArg WinView.inputState c1).trans w3) _
    (by rw [show v.timerA = w.timerA from congrArg WinView.timerA c1]; exact w4) hn2 hl2
  simp only [sentTimes, ite_self, List.append_nil]
  change (transmitted ((process cfg e2 v).out.drop v.out.length)).map (fun _ => e2.done) = _
  generalize transmitted ((process cfg e2 v).out.drop v.out.length) = tr at *
  match tr, hone with
  | [_], _ => rfl

/-- **C89**: when an attempt at a frame has ended without an answer and the frame is to be repeated, it is transmitted
again as soon as the wait of 2^k s after k transmissions (none if it is unconfirmed) and the start-up of the radio are
over, and not before. -/
theorem c89_repeated {cfg : Cfg} {m : Mac} (hr : Reachable cfg m) (e : Env) (confirmed : Bool)
    (port : Nat) (payload : Option Bytes) (len : Nat) (opts : Option DataOpts)
    (hw : (Call.data confirmed port payload len opts).WF)
    (ha : (step cfg m e (.data confirmed port payload len opts)).2 = .ok) (m' x : Mac)
    (hm' : m' = (step cfg m e (.data confirmed port payload len opts)).1)
    -- calls up to the end of an attempt
    (calls0 : List (Env × Call)) (hc0 : ∀ x ∈ calls0, x.2.WF) (hg : GoesOn cfg m' calls0)
    (hx : x = run cfg m' calls0) (hin : x.state = .rx1 ∨ x.state = .rx2 ∨ x.state = .rx2Lockout)
    (e0 : Env) (hend : (process cfg e0 x).state = .waitTX)
    -- the wait, and the start-up processed `l` ticks late
    (due l : Nat) (hdue : due = e0.done + repeatWait confirmed (sentTimes cfg m' calls0).length * cfg.tps)
    (hfit : repeatWait confirmed (sentTimes cfg m' calls0).length * cfg.tps < 2 ^ 31) (htps : 25 * cfg.tps < 2 ^ 32)
    (calls1 : List (Env × Call)) (hc1 : ∀ x ∈ calls1, x.2.WF) (hb1 : Between e0.done due calls1)
    (e1 : Env) (hn1 : due ≤ e1.now) (hl : noticed due e1.now = l) (hl1 : l ≤ 2 ^ 31 - 2)
    (calls2 : List (Env × Call)) (hc2 : ∀ x ∈ calls2, x.2.WF) (hb2 : Between e1.now (due + (startup cfg - l)) calls2)
    (e2 : Env) (hn2 : due + (startup cfg - l) ≤ e2.now) (hl2 : e2.now - (due + (startup cfg - l)) ≤ 2 ^ 31 - 2) :
    sentTimes cfg (process cfg e0 x) (calls1 ++ (e1, .process) :: (calls2 ++ [(e2, .process)])) = [e2.done] := by
  have hr' : Reachable cfg m' := hm' ▸ .step e _ hr hw
  obtain ⟨h1, h2, h3⟩ := accepted_counts hr e confirmed port payload len opts (Or.inl ha) m' hm'
  have hlt := repetitions_lt opts hr.sessionOk
  obtain ⟨hmo, hop⟩ := accepted_op e confirmed port payload len opts ha
  have hat := accepted_state hr e confirmed port payload len opts hmo hop
  rw [← hm'] at hop hat
  obtain ⟨k1, k2, k3, k4, k5⟩ := sentTimes_count (repetitions opts m.ctx) (by omega) calls0 hc0 hr' h1 h3 (by omega) hg
  rw [← hx] at k1 k2 k3 k4 k5
  have hafter : afterTx x.state = true := by rcases hin with h | h | h <;> rw [h] <;> rfl
  have hlen : x.trials + 1 = (sentTimes cfg m' calls0).length := by
    unfold onAir at k1
    rw [hafter, hat, h2] at k1
    simp at k1
    omega
  obtain ⟨hta, hi⟩ := repeat_due k5 e0 hafter hend
  have hreach : Reachable cfg (process cfg e0 x) := .step e0 .process k5 trivial
  have hopy : (process cfg e0 x).op ≠ .none := by
    have := hreach.reach.opOk
    unfold OpOk at this
    rw [hend] at this
    intro h
    rw [h] at this
    cases this
  have hd : DueAt (process cfg e0 x).timerA due := by
    rw [hta, hdue]
    have hxop : x.op = .dataConfirmed ↔ confirmed = true := by
      rw [k2, hop]; cases confirmed <;> simp
    have : (if x.op = .dataConfirmed then u32 (cfg.tps <<< u32 (x.trials + 1)) else 0) =
        repeatWait confirmed (sentTimes cfg m' calls0).length * cfg.tps := by
      unfold repeatWait at hfit ⊢
      cases confirmed with
      | false => rw [if_neg (by rw [hxop]; simp)]; simp
      | true =>
        rw [if_pos (by rw [hxop])]
        simp only [if_true] at hfit ⊢
        rw [show u32 (x.trials + 1) = x.trials + 1 from Nat.mod_eq_of_lt (by omega), hlen, Nat.shiftLeft_eq, Nat.mul_comm]
        refine Nat.mod_eq_of_lt ?_
        rw [show (2 : Nat) ^ 31 = 2147483648 from rfl] at hfit
        omega
    rw [this]
    exact c35_set e0 _ hfit
  exact transmits_when_due hreach hend hopy hi e0.done due l hd (by omega) htps calls1 hc1 hb1 e1 hn1 hl hl1 calls2 hc2 hb2 e2 hn2 hl2

/-! ## Concrete cases -/

namespace RepeatDemo

/-- A confirmed frame, to be sent up to `n` times. -/
def send (n : Nat) : Mac × Status :=
  step Demo.cfg Demo.joined (Demo.at_ 30000) (.data true 1 (some [1, 2, 3]) 3 (some { nbTrans := n }))

/-- Three transmissions, the second as early as it may be. -/
theorem three : (send 3).2 = .ok ∧
    sentTimes Demo.cfg (send 3).1 (Demo.cycle 30000 ++ Demo.cycle 8130000 ++ Demo.cycle 30000000) =
      [60000, 8160000, 30030000] ∧
    2 ^ (repetitions (some { nbTrans := 3 }) Demo.joined.ctx - 1) * Demo.cfg.tps < 2 ^ 31 := by
  decide +kernel

example : Doubling 1000000 1 [60000, 8160000, 30030000] ∧ ¬ Doubling 1000000 1 [60000, 8160000, 11000000] := by
  refine ⟨⟨by decide, by decide, trivial⟩, fun h => ?_⟩
  exact absurd h.2.1 (by decide)

/-- The calls of the first attempt, but for the last. -/
def attempt : List (Env × Call) := (Demo.cycle 30000).dropLast

theorem goes_on : GoesOn Demo.cfg (send 3).1 attempt := by
  have key : ∀ n, n ≤ 14 → (run Demo.cfg (send 3).1 (attempt.take n)).op ≠ .none := by
    have : ∀ n ∈ List.range 15, (run Demo.cfg (send 3).1 (attempt.take n)).op ≠ .none := by decide +kernel
    exact fun n hn => this n (List.mem_range.2 (by omega))
  intro before after h
  have h1 : before = attempt.take before.length := by rw [h, List.take_left]
  have h2 : before.length ≤ attempt.length := by rw [h, List.length_append]; omega
  have h3 : attempt.length = 12 := by decide +kernel
  rw [h1]
  exact key _ (by omega)

/-- The attempt ends at 6.13 s; the frame is sent again two seconds and the start-up later, with calls in between. -/
theorem again : sentTimes Demo.cfg (process Demo.cfg (Demo.at_ 6130000) (run Demo.cfg (send 3).1 attempt))
    ([(Demo.at_ 7000000, .process), (Demo.at_ 8129999, .setADR true)] ++ (Demo.at_ 8130000, .process) ::
      ([(Demo.at_ 8154999, .process)] ++ [(Demo.at_ 8155000, .process)])) = [8155000] := by
  have hone : (sentTimes Demo.cfg (send 3).1 attempt).length = 1 := by decide +kernel
  have hsu : startup Demo.cfg = 25000 := by decide
  have hn : noticed 8130000 (Demo.at_ 8130000).now = 0 := by decide
  refine c89_repeated Demo.joined_reachable (Demo.at_ 30000) true 1 (some [1, 2, 3]) 3 (some { nbTrans := 3 }) (by decide)
    (by decide +kernel) (send 3).1 _ rfl attempt (by decide +kernel) goes_on rfl ?_ (Demo.at_ 6130000) (by decide +kernel) 8130000 0 ?_ ?_
    (by decide) _ (by decide +kernel) ?_ (Demo.at_ 8130000) (by decide) hn (by decide) _ (by decide +kernel) ?_ (Demo.at_ 8155000) ?_ ?_
  · right; right; decide +kernel
  · rw [hone]; decide
  · rw [hone]; decide
  · intro x hx
    simp only [List.mem_cons, List.not_mem_nil, or_false] at hx
    rcases hx with rfl | rfl
    · exact ⟨WindowDemo.alone_process, by decide, by decide⟩
    · exact ⟨WindowDemo.alone_setADR true, by decide, by decide⟩
  · rw [hsu]
    intro x hx
    simp only [List.mem_cons, List.not_mem_nil, or_false] at hx
    subst hx
    exact ⟨WindowDemo.alone_process, by decide, by decide⟩
  · rw [hsu]; decide
  · rw [hsu]; decide

/-- Start times of the attempts at a frame sent again and again, as early as it may be. -/
def starts : Nat → Nat → List Nat
  | 0, _ => []
  | n + 1, t => t :: starts n (t + 6100000 + 2 ^ (12 - n) * 1000000)

/-- Twelve attempts, and a thirteenth half an hour later. -/
def many : List (Env × Call) := (starts 12 30000).flatMap Demo.cycle ++ Demo.cycle 6115746352

end RepeatDemo

/-- The full property does not hold: with a clock of 1 MHz, the wait of 4096 s after twelve transmissions does not fit a
timer, and the thirteenth is made 1955 s after the twelfth. -/
theorem c89_overflow : (RepeatDemo.send 15).2 = .ok ∧ InOrder 30000 RepeatDemo.many ∧
    sentTimes Demo.cfg (RepeatDemo.send 15).1 RepeatDemo.many = [60000, 8160000, 18260000, 32360000, 54460000, 92560000,
      162660000, 296760000, 558860000, 1076960000, 2107060000, 4161160000, 6115776352] ∧
    ¬ Doubling Demo.cfg.tps 1 (sentTimes Demo.cfg (RepeatDemo.send 15).1 RepeatDemo.many) := by
  have h : sentTimes Demo.cfg (RepeatDemo.send 15).1 RepeatDemo.many = [60000, 8160000, 18260000, 32360000, 54460000, 92560000,
      162660000, 296760000, 558860000, 1076960000, 2107060000, 4161160000, 6115776352] := by decide +kernel
  refine ⟨by decide +kernel, by decide +kernel, h, ?_⟩
  rw [h]
  intro hd
  have := hd.2.2.2.2.2.2.2.2.2.2.2.1
  exact absurd this (by decide)

end LDL
