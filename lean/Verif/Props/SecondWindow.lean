import Verif.Spec.SecondWindow
import Verif.Props.Windows
import Verif.Props.Decode
import Verif.Props.Downlink

/-!
# The second receive window: C97
-/

namespace LDL
open Spec

/-- A device that has sent and not yet listened in the second window. -/
def beforeSecond : List St := [.tx, .waitRX1, .startRadioForRX1, .rx1, .waitRX2, .startRadioForRX2]

/-- What the second window is made of. -/
def SameSecond (m m' : Mac) : Prop :=
  m'.ctx.region = m.ctx.region ∧ m'.ctx.rx2DataRate = m.ctx.rx2DataRate ∧ m'.ctx.rx2Freq = m.ctx.rx2Freq

/-- The first events after the transmission: nothing yet, the radio listens in the second window, it was read, or it
was reset. -/
inductive Course (m : Mac) (l : List Event) : Prop
  | second (a b : List Event) (h : l = a ++ b) (ha : ∀ x ∈ a, through x = false) (hl : ListensSecond m a)
  | read (h : Event.readBuffer ∈ l)
  | reset (h : Event.setMode .reset ∈ l)

theorem Course.append {m : Mac} {l : List Event} (h : Course m l) (r : List Event) : Course m (l ++ r) := by
  cases h with
  | second a b h ha hl => exact .second a (b ++ r) (by rw [h, List.append_assoc]) ha hl
  | read h => exact .read (List.mem_append_left _ h)
  | reset h => exact .reset (List.mem_append_left _ h)

theorem Course.prepend {m : Mac} {l r : List Event} (hr : ∀ x ∈ r, through x = false) (h : Course m l) : Course m (r ++ l) := by
  cases h with
  | second a b h ha hl =>
    refine .second (r ++ a) b (by rw [h, List.append_assoc]) ?_ ?_
    · intro x hx
      rcases List.mem_append.1 hx with hx | hx
      · exact hr x hx
      · exact ha x hx
    · obtain ⟨x, hx, h'⟩ := hl
      exact ⟨x, by rw [listens_append]; exact List.mem_append_right _ hx, h'⟩
  | read h => exact .read (List.mem_append_right _ h)
  | reset h => exact .reset (List.mem_append_right _ h)

theorem SameSecond.listens {m m' : Mac} (h : SameSecond m m') {l : List Event} (hl : ListensSecond m' l) : ListensSecond m l := by
  obtain ⟨x, hx, h1, h2, h3⟩ := hl
  refine ⟨x, hx, h1.trans h.2.2, ?_, ?_⟩
  · rw [h2]; simp only [rx2Window, h.1, h.2.1]
  · rw [h3]; simp only [rx2Window, h.1, h.2.1]

theorem SameSecond.course {m m' : Mac} (h : SameSecond m m') {l : List Event} (hl : Course m' l) : Course m l := by
  cases hl with
  | second a b h1 ha hl => exact .second a b h1 ha (h.listens hl)
  | read h => exact .read h
  | reset h => exact .reset h

/-- After an error of the radio it is reset. -/
theorem error_resets (cfg : Cfg) (e : Env) (m : Mac) :
    ∃ o, (handleRadioError cfg e m).out = m.out ++ o ∧ Event.setMode .reset ∈ o := by
  have h := handleRadioError_cases cfg e m
  generalize handleRadioError cfg e m = y at h
  cases h with
  | op => exact ⟨[.opError, .setMode .reset], by simp, by simp⟩
  | nextJoin _ _ m' hm =>
    obtain ⟨_, _, _, _, h⟩ := nextJoinRequest_shape cfg e
      { m with inputArmed := false, timerA := m.timerA.clear, timerB := m.timerB.clear, trials := u32 (m.trials + 1) }
    rw [h] at hm
    subst hm
    exact ⟨_, List.append_assoc _ _ _, by simp⟩
  | exhausted => exact ⟨[.joinExhausted, .setMode .reset], by simp, by simp⟩

/-- One call of `process` before the second window: nothing yet, or one of the courses. -/
theorem process_course (cfg : Cfg) (m : Mac) (e : Env) (hs : m.state ∈ beforeSecond)
    (hr : m.ctx.rx2DataRate ∈ upRates m.ctx.region ++ downRates m.ctx.region) :
    ((process cfg e m).state ∈ beforeSecond ∧ (process cfg e m).op = m.op ∧ SameSecond m (process cfg e m) ∧
      ∃ o, (process cfg e m).out = m.out ++ o ∧ ∀ x ∈ o, through x = false) ∨
    ∃ o, (process cfg e m).out = m.out ++ o ∧ Course m o := by
  obtain ⟨ev, lag, m1, m2, p, t, hp, hd, heq⟩ := process_disp cfg e m
  obtain ⟨q, hq, hqt⟩ : ∃ q, m1.out = m.out ++ q ∧ ∀ x ∈ q, through x = false := by
    rcases hp.out with h | h
    · exact ⟨[], by rw [h, List.append_nil], by simp⟩
    · exact ⟨[.channelReady], h, by simp [through]⟩
  have hst : m1.state = m.state ∧ m1.op = m.op ∧ m1.ctx = m.ctx := by
    obtain ⟨_, _, _, _, _, _, _, _, _, h⟩ := hp.eq
    rw [h]; exact ⟨rfl, rfl, rfl⟩
  obtain ⟨hs1, ho1, hc1⟩ := hst
  have same : SameSecond m m1 := by unfold SameSecond; rw [hc1]; exact ⟨rfl, rfl, rfl⟩
  have close : ∀ o, m2.out = m1.out ++ o → (m2.state ∈ beforeSecond ∧ m2.op = m1.op ∧ m2.ctx = m1.ctx ∧
      (∀ x ∈ o, through x = false)) ∨ Course m1 o →
      ((process cfg e m).state ∈ beforeSecond ∧ (process cfg e m).op = m.op ∧ SameSecond m (process cfg e m) ∧
        ∃ o, (process cfg e m).out = m.out ++ o ∧ ∀ x ∈ o, through x = false) ∨
      ∃ o, (process cfg e m).out = m.out ++ o ∧ Course m o := by
    intro o ho h
    have hout : (process cfg e m).out = m.out ++ (q ++ o) := by rw [heq]; show m2.out = _; rw [ho, hq, List.append_assoc]
    rcases h with ⟨h1, h2, h3, h4⟩ | h
    · refine Or.inl ⟨by rw [heq]; exact h1, by rw [heq]; exact h2.trans ho1, ?_, _, hout, ?_⟩
      · rw [heq]
        show SameSecond m { m2 with parked := p, timerBand := t }
        unfold SameSecond
        show m2.ctx.region = _ ∧ m2.ctx.rx2DataRate = _ ∧ m2.ctx.rx2Freq = _
        rw [h3, hc1]; exact ⟨rfl, rfl, rfl⟩
      · intro x hx
        rcases List.mem_append.1 hx with hx | hx
        · exact hqt x hx
        · exact h4 x hx
    · exact Or.inr ⟨_, hout, (same.course h).prepend hqt⟩
  rw [← hs1] at hs
  have packet : ∀ P : Event → Prop, Grows P (packetState e m1) m2 → ∃ o, m2.out = m1.out ++ o ∧ Event.readBuffer ∈ o := by
    rintro P ⟨l, hl, _⟩
    refine ⟨[.getStatus] ++ [.readBuffer] ++ [.setMode .sleep] ++ l, ?_, by simp⟩
    rw [hl]; simp [packetState]
  have failed : ∀ x : Mac, (∃ l, x.out = m1.out ++ l) → m2 = handleRadioError cfg e x →
      ∃ o, m2.out = m1.out ++ o ∧ Event.setMode .reset ∈ o := by
    rintro x ⟨l, hl⟩ rfl
    obtain ⟨o, ho, hm⟩ := error_resets cfg e x
    exact ⟨l ++ o, by rw [ho, hl, List.append_assoc], List.mem_append_right _ hm⟩
  simp only [beforeSecond, List.mem_cons, List.not_mem_nil, or_false] at hs
  rcases hd with ⟨_, rfl⟩ | ⟨_, h⟩
  · exact close [] (by simp) (Or.inl ⟨by simpa [beforeSecond] using hs, rfl, rfl, by simp⟩)
  · cases h
    case stay => exact close [] (by simp) (Or.inl ⟨by simpa [beforeSecond] using hs, rfl, rfl, by simp⟩)
    case waitA h he d mode =>
      refine close [.setMode mode] rfl (Or.inl ⟨?_, rfl, rfl, by simp [through]⟩)
      rcases h with h | h | h <;> rw [h] at hs <;> simp at hs
      simp [waitNext, h, beforeSecond]
    case waitB h he d mode =>
      refine close [.setMode mode] rfl (Or.inl ⟨?_, rfl, rfl, by simp [through]⟩)
      simp [waitNext, h, beforeSecond]
    case txError =>
      obtain ⟨o, ho, hm⟩ := failed _ ⟨if ev = .interrupt then [.getStatus] else [], by
        rw [registerTime_out]; unfold statusRead; split <;> simp [Mac.emit]⟩ rfl
      exact close o ho (Or.inr (.reset hm))
    case txDone =>
      obtain ⟨r1, r2, ta, tb, s, h, hs'⟩ := txComplete_shape cfg e lag (registerTime (m1.emit .getStatus))
      obtain ⟨b, hb⟩ := registerTime_shape (m1.emit .getStatus)
      rw [hb] at h
      rw [hb, h] at close
      rw [hb] at heq
      rw [h] at heq
      refine close [.getStatus, .setMode .hold] (by simp [Mac.emit]) (Or.inl ⟨?_, rfl, rfl, by simp [through]⟩)
      rcases hs' with ⟨rfl, _⟩ | ⟨rfl, _⟩ <;> simp [beforeSecond]
    case startRX1 =>
      exact close [receive1Event e m1] rfl (Or.inl ⟨by simp [beforeSecond], rfl, rfl, by simp [through, receive1Event]⟩)
    case startRX2 =>
      refine close [receive2Event e m1] rfl (Or.inr (.second [receive2Event e m1] [] rfl (by simp [through, receive2Event]) ?_))
      rw [← hc1] at hr
      have hcv := convertRate_spec m1.ctx.region m1.ctx.rx2DataRate hr
      refine ⟨(e.done, _), List.mem_cons_self, rfl, ?_, ?_⟩
      · exact hcv.1
      · exact hcv.2.1
    case rxError =>
      obtain ⟨o, ho, hm⟩ := failed _ ⟨[.getStatus], rfl⟩ rfl
      exact close o ho (Or.inr (.reset hm))
    case rxRejected =>
      obtain ⟨o, ho, hm⟩ := packet (fun _ => True) (downlinkMissing_grows cfg e _ (fun _ => trivial) (fun _ => trivial) (fun _ => trivial)
        (fun _ _ => trivial) (fun _ _ => trivial))
      exact close o ho (Or.inr (.read hm))
    case rxJoin f buf _ _ _ =>
      obtain ⟨r, cc, cm, v, pc, k, h⟩ := joinAccepted_shape cfg (packetState e m1) f buf
      obtain ⟨o, ho, hm⟩ := packet (fun _ => True) ⟨[.joinComplete (u32 (f.joinNonce + 1)) f.netID f.devAddr,
        .sessionUpdated (joinAccepted cfg (packetState e m1) f buf).ctx], by
          simp only [pushSessionUpdate, Mac.emit]; rw [h]; simp, fun _ _ => trivial⟩
      exact close o ho (Or.inr (.read hm))
    case rxData f buf _ _ _ =>
      obtain ⟨c, o', h, _⟩ := dataReceived_shape cfg e (packetState e m1) f buf
      obtain ⟨o, ho, hm⟩ := packet (fun _ => True) ⟨o' ++ dataEndEvents (packetState e m1).op f.ack ++ [.sessionUpdated c], by
          rw [h]; simp only [pushSessionUpdate, Mac.emit, List.append_assoc], fun _ _ => trivial⟩
      exact close o ho (Or.inr (.read hm))
    case rxTimeout1 =>
      exact close [.getStatus, .setMode .hold] (by simp) (Or.inl ⟨by simp [beforeSecond], rfl, rfl, by simp [through]⟩)
    case rxTimeout2 h _ _ _ _ => exfalso; clear close packet failed heq; rw [h] at hs; simp at hs
    case otaa h _ => exfalso; clear close packet failed heq; rw [h] at hs; simp at hs
    case init h => exfalso; clear close packet failed heq; rw [h] at hs; simp at hs
    all_goals (exfalso; clear close packet failed heq; next h _ => rw [h] at hs; simp at hs)

/-- Other calls before the second window. -/
theorem call_course (cfg : Cfg) (m : Mac) (e : Env) (c : Call) (hp : c ≠ .process) (hc : Continues c) (ho : m.op ≠ .none)
    (hs : m.state ∈ beforeSecond) :
    (step cfg m e c).1.state ∈ beforeSecond ∧ (step cfg m e c).1.op = m.op ∧ SameSecond m (step cfg m e c).1 ∧
      ∃ o, (step cfg m e c).1.out = m.out ++ o ∧ ∀ x ∈ o, through x = false := by
  have h := step_api cfg e m c hp
  generalize (step cfg m e c).1 = m' at *
  generalize (step cfg m e c).2 = st at *
  have none' : ∃ o, m.out = m.out ++ o ∧ ∀ x ∈ o, through x = false := ⟨[], by simp, by simp⟩
  cases h with
  | entropyIdle h => exact absurd h ho
  | entropyLater h => exact absurd h ho
  | otaa _ h => exact absurd h ho
  | abp _ h => exact absurd h ho
  | dataRefused _ _ _ _ _ h => exact absurd h ho
  | data _ _ _ _ _ _ h => exact absurd h ho
  | forget => exact absurd rfl hc.2
  | cancel => exact absurd rfl hc.1
  | setRate => exact ⟨hs, rfl, ⟨rfl, rfl, rfl⟩, _, rfl, by simp [through]⟩
  | setPower => exact ⟨hs, rfl, ⟨rfl, rfl, rfl⟩, _, rfl, by simp [through]⟩
  | setADR => exact ⟨hs, rfl, ⟨rfl, rfl, rfl⟩, _, rfl, by simp [through]⟩
  | setMaxDCycle => exact ⟨hs, rfl, ⟨rfl, rfl, rfl⟩, _, rfl, by simp [through]⟩
  | addChannel ch f a b =>
    obtain ⟨c, hc⟩ := setChannel_view m.ctx ch f a b
    rw [hc]
    exact ⟨hs, rfl, ⟨rfl, rfl, rfl⟩, none'⟩
  | refused => exact ⟨hs, rfl, ⟨rfl, rfl, rfl⟩, none'⟩
  | maskChannel => exact ⟨hs, rfl, ⟨rfl, rfl, rfl⟩, none'⟩
  | unmaskChannel => exact ⟨hs, rfl, ⟨rfl, rfl, rfl⟩, none'⟩
  | latched => exact ⟨hs, rfl, ⟨rfl, rfl, rfl⟩, none'⟩
  | ignored => exact ⟨hs, rfl, ⟨rfl, rfl, rfl⟩, none'⟩
  | late => exact ⟨hs, rfl, ⟨rfl, rfl, rfl⟩, none'⟩
  | notLate => exact ⟨hs, rfl, ⟨rfl, rfl, rfl⟩, none'⟩

theorem run_course (cfg : Cfg) (calls : List (Env × Call)) (hc : ∀ x ∈ calls, Continues x.2) (m : Mac) (ho : m.op ≠ .none)
    (hs : m.state ∈ beforeSecond) (hr : m.ctx.rx2DataRate ∈ upRates m.ctx.region ++ downRates m.ctx.region) :
    ∃ o, (run cfg m calls).out = m.out ++ o ∧ ((∀ x ∈ o, through x = false) ∨ Course m o) := by
  induction calls generalizing m with
  | nil => exact ⟨[], (List.append_nil _).symm, Or.inl (by simp)⟩
  | cons x rest ih =>
    obtain ⟨e, c⟩ := x
    have h1 : ((step cfg m e c).1.state ∈ beforeSecond ∧ (step cfg m e c).1.op = m.op ∧ SameSecond m (step cfg m e c).1 ∧
        ∃ o, (step cfg m e c).1.out = m.out ++ o ∧ ∀ x ∈ o, through x = false) ∨
        ∃ o, (step cfg m e c).1.out = m.out ++ o ∧ Course m o := by
      by_cases hp : c = .process
      · subst hp
        exact process_course cfg m e hs hr
      · exact Or.inl (call_course cfg m e c hp (hc (e, c) List.mem_cons_self) ho hs)
    have hrun : run cfg m ((e, c) :: rest) = run cfg (step cfg m e c).1 rest := rfl
    rw [hrun]
    rcases h1 with ⟨h1, h2, h3, o, h4, h5⟩ | ⟨o, h4, h5⟩
    · obtain ⟨o', h6, h7⟩ := ih (fun x hx => hc x (List.mem_cons_of_mem _ hx)) (step cfg m e c).1 (by rw [h2]; exact ho) h1
        (by rw [h3.1, h3.2.1]; exact hr)
      refine ⟨o ++ o', by rw [h6, h4, List.append_assoc], ?_⟩
      rcases h7 with h7 | h7
      · refine Or.inl fun x hx => ?_
        rcases List.mem_append.1 hx with hx | hx
        · exact h5 x hx
        · exact h7 x hx
      · exact Or.inr ((h3.course h7).prepend h5)
    · obtain ⟨o', h6⟩ := run_grows cfg (step cfg m e c).1 rest
      exact ⟨o ++ o', by rw [h6, h4, List.append_assoc], Or.inr (h5.append o')⟩

/-- **C97** (partial: for a device whose radio delivers no packet): whatever calls are made and whenever, a device that has
transmitted and is not interrupted by cancel, forget or a failure of the radio (after which the radio is reset) is through
with the transmission only after it has listened in the second window.  `l` are the events between the transmission and
the event `x` by which it is through. -/
theorem c97_silence_partial {cfg : Cfg} {m : Mac} (hm : Reachable cfg m) (hs : m.state = .tx)
    (hrate : m.ctx.rx2DataRate ∈ upRates m.ctx.region ++ downRates m.ctx.region) (calls : List (Env × Call))
    (hc : ∀ x ∈ calls, Continues x.2) {l l' : List Event} {x : Event}
    (hl : newEvents m (run cfg m calls) = l ++ x :: l') (hx : through x = true)
    (hread : Event.readBuffer ∉ l ++ x :: l') (hreset : Event.setMode .reset ∉ l ++ x :: l') : ListensSecond m l := by
  obtain ⟨o, ho, h⟩ := run_course cfg calls hc m (sending_op hm hs) (by rw [hs]; simp [beforeSecond]) hrate
  rw [newEvents_append ho] at hl
  subst hl
  rcases h with h | h
  · rw [h x (by simp)] at hx; cases hx
  · cases h with
    | read h => exact absurd h hread
    | reset h => exact absurd h hreset
    | second a b h ha hs =>
      rw [List.append_eq_append_iff] at h
      rcases h with ⟨c, h1, h2⟩ | ⟨c, h1, _⟩
      · cases c with
        | nil => rw [List.append_nil] at h1; rw [h1] at hs; exact hs
        | cons y c =>
          rw [List.cons_append, List.cons.injEq] at h2
          rw [← h2.1] at h1
          rw [ha x (by rw [h1]; simp)] at hx
          cases hx
      · obtain ⟨y, hy, h'⟩ := hs
        exact ⟨y, by rw [h1, listens_append]; exact List.mem_append_left _ hy, h'⟩

/-- A packet that is not accepted, in the first window. -/
theorem rejected_ends {cfg : Cfg} {m : Mac} {e : Env} (hm : Reachable cfg m) (hs : m.state = .rx1) (hi : m.inputState = true)
    (hst : e.statusRx = true) {buf : Bytes} (hnone : Ops.receiveFrame cfg m e.rxBuffer e.received.length = (none, buf)) :
    let m' := (step cfg m e .process).1
    listens (newEvents m m') = [] ∧ m'.timerB.armed = false ∧
    (m'.state = .idle ∧ m'.op = .none ∨ (m'.state = .waitTX ∨ m'.state = .waitOTAA) ∧ m'.op = m.op) := by
  intro m'
  have hm' : m' = process cfg e m := rfl
  obtain ⟨ev, lag, m1, m2, p, t, hp, hd, heq⟩ := process_disp cfg e m
  have hev : ev = .interrupt := hp.interrupt.2 hi
  obtain ⟨q, hq, hql⟩ : ∃ q, m1.out = m.out ++ q ∧ listens q = [] := by
    rcases hp.out with h | h
    · exact ⟨[], by rw [h, List.append_nil], rfl⟩
    · exact ⟨[.channelReady], h, rfl⟩
  have hst1 : m1.state = m.state ∧ m1.op = m.op ∧
      Ops.receiveFrame cfg m1 e.rxBuffer e.received.length = Ops.receiveFrame cfg m e.rxBuffer e.received.length := by
    obtain ⟨_, _, _, _, _, _, _, _, _, h⟩ := hp.eq
    rw [h]; exact ⟨rfl, rfl, receiveFrame_congr _ _ _ _ _ rfl rfl rfl rfl rfl⟩
  obtain ⟨hs1, ho1, hf1⟩ := hst1
  have hop := hm.reach.opOk
  have key : ∀ y, Missing cfg e (packetState e m1) y → (∃ o, y.out = m1.out ++ o ∧ listens o = []) ∧ y.timerB.armed = false ∧
      (y.state = .idle ∧ y.op = .none ∨ (y.state = .waitTX ∨ y.state = .waitOTAA) ∧ y.op = m1.op) := by
    intro y hy
    cases hy with
    | retry => exact ⟨⟨[.getStatus] ++ [.readBuffer] ++ [.setMode .sleep], by simp [packetState], rfl⟩, rfl, Or.inr ⟨Or.inl rfl, rfl⟩⟩
    | giveUp ho _ _ _ _ _ _ o ho' =>
      refine ⟨⟨[.getStatus] ++ [.readBuffer] ++ [.setMode .sleep] ++ o ++
        [if (packetState e m1).op = .dataConfirmed then .dataTimeout else .dataComplete], by simp [packetState], ?_⟩, rfl, Or.inl ⟨rfl, rfl⟩⟩
      rcases ho' with rfl | ⟨s, rfl, _⟩ <;> split <;> rfl
    | nextJoin =>
      obtain ⟨_, _, _, _, h⟩ := nextJoinRequest_shape cfg e
        { packetState e m1 with trials := u32 ((packetState e m1).trials + 1) }
      rw [h]
      exact ⟨⟨[.getStatus] ++ [.readBuffer] ++ [.setMode .sleep] ++ [.devNonceUpdated (u32 ((packetState e m1).devNonce + 1))],
        by simp [packetState], rfl⟩, rfl, Or.inr ⟨Or.inr rfl, rfl⟩⟩
    | exhausted => exact ⟨⟨[.getStatus] ++ [.readBuffer] ++ [.setMode .sleep] ++ [.joinExhausted], by simp [packetState], rfl⟩, rfl,
        Or.inl ⟨rfl, rfl⟩⟩
    | other ho =>
      exfalso
      have ho : m1.op = .none ∨ m1.op = .entropy ∨ m1.op = .rejoining := ho
      rw [ho1] at ho
      unfold OpOk at hop
      rw [hs] at hop
      rcases ho with h | h | h <;> rw [h] at hop <;> exact absurd hop (by decide)
  have hm2 : m2 = downlinkMissing cfg e (packetState e m1) := by
    rw [hs] at hs1
    rw [hnone] at hf1
    rcases hd with ⟨h, _⟩ | ⟨_, h⟩
    · rw [hev] at h; cases h
    · cases h
      case rxRejected => rfl
      case rxJoin hf _ _ => rw [hf1] at hf; cases hf
      case rxData hf _ _ => rw [hf1] at hf; cases hf
      case stay h => unfold Ignores at h; rw [hs1] at h; exact absurd hev h.2
      case rxError h => rw [hev, hst] at h; simp at h
      case rxTimeout1 h _ => rw [hst] at h; cases h
      case rxTimeout2 h _ _ => rw [hst] at h; cases h
      case waitA h _ _ _ => rw [hs1] at h; simp at h
      case waitB h _ _ _ => rw [hs1] at h; simp at h
      case otaa h _ => rw [hs1] at h; simp at h
      case init h => rw [hs1] at h; simp at h
      all_goals (exfalso; first | (next h _ => rw [hs1] at h; simp at h) | (next h _ _ => rw [hs1] at h; simp at h))
  obtain ⟨⟨o, h6, h7⟩, h8, h9⟩ := key _ (downlinkMissing_missing cfg e (packetState e m1))
  rw [← hm2] at h6 h8 h9
  have hout : m'.out = m.out ++ (q ++ o) := by rw [hm', heq]; show m2.out = _; rw [h6, hq, List.append_assoc]
  refine ⟨?_, ?_, ?_⟩
  · rw [newEvents_append hout, listens_append, hql, h7]; rfl
  · rw [hm', heq]; exact h8
  · rw [hm', heq, ← ho1]; exact h9

/-- **C97** is not true of the code: any packet received in the first window that is neither a data downlink nor a join
accept, such as an uplink of another device, closes the second one.  The device is at once through with the transmission:
idle, or about to send again. -/
theorem c97_stray {cfg : Cfg} {m : Mac} {e : Env} (hm : Reachable cfg m) (hs : m.state = .rx1) (hi : m.inputState = true)
    (hst : e.statusRx = true) (h1 : e.packet.head? ≠ some 0x20) (h3 : e.packet.head? ≠ some 0x60)
    (h5 : e.packet.head? ≠ some 0xa0) :
    let m' := (step cfg m e .process).1
    listens (newEvents m m') = [] ∧ m'.timerB.armed = false ∧
    (m'.state = .idle ∧ m'.op = .none ∨ (m'.state = .waitTX ∨ m'.state = .waitOTAA) ∧ m'.op = m.op) := by
  obtain ⟨tail, ht⟩ := rxBuffer_eq e
  have hh : e.received.head? = e.packet.head? := by
    unfold Env.received
    cases e.packet <;> rfl
  refine rejected_ends hm hs hi hst (buf := e.rxBuffer) ?_
  unfold Ops.receiveFrame
  rw [ht, decode_other cfg.v11 e.received tail (received_length e) (by rwa [hh]) (by rwa [hh]) (by rwa [hh])]

/-- **C97** is not true of the code: nor does a device that has sent data listen in the second window when the packet
received in the first is any that a receiver written from the specification does not accept under the keys of the session,
forged or for another device (but for frames of 244 bytes and those whose options overrun the frame, which this leaves open). -/
theorem c97_forged {cfg : Cfg} (hE : ∀ k, BlockFn (cfg.E k)) {m : Mac} {e : Env} (hm : Reachable cfg m) (hk : KeysOk cfg m)
    (hs : m.state = .rx1) (hi : m.inputState = true) (hst : e.statusRx = true) (ho : DataOp m)
    (hne : e.received.length ≠ 244) (hov : ¬ OptsOverrun e.received) (hd : ∀ msg, ¬ Delivered cfg m e msg) :
    let m' := (step cfg m e .process).1
    listens (newEvents m m') = [] ∧ m'.timerB.armed = false ∧
    (m'.state = .idle ∧ m'.op = .none ∨ (m'.state = .waitTX ∨ m'.state = .waitOTAA) ∧ m'.op = m.op) := by
  obtain ⟨tail, ht⟩ := rxBuffer_eq e
  have hr := receive_open hE hk ⟨hm.sessionOk.appDown, hm.sessionOk.nwkDown⟩ ho tail (received_length e) hne hov
  cases hcase : openDown cfg.E (sess11 cfg m) (deviceKeys cfg m) m.ctx.devAddr (leValue (Frame.slice e.received 6 2))
      (u16 (m.ctx.up + 65535)) e.received with
  | some msg => exact absurd hcase (hd msg)
  | none =>
    rw [hcase] at hr
    obtain ⟨buf, h1⟩ := hr
    exact rejected_ends hm hs hi hst (by rw [ht]; exact h1)

namespace SecondDemo

/-- The device of `WindowDemo.ended`, in its first window. -/
def calls1 : List (Env × Call) := [({ now := 120300, statusTx := true }, .process)] ++ Demo.processAt [1093464, 1118464]

/-- Nothing in the first window, and nothing in the second. -/
def silent : List (Env × Call) :=
  calls1 ++ Demo.rxNone 1200000 ++ Demo.processAt [2045848, 2070848] ++ Demo.rxNone 2200000 ++ Demo.processAt [5000000]

/-- The uplink of another device in the first window. -/
def stray : List (Env × Call) := calls1 ++ Demo.rxPacket [0x40, 1, 2, 3, 4, 0, 0, 0, 1, 9, 9, 9, 9] 1200000

theorem rate : WindowDemo.ended.ctx.rx2DataRate ∈ upRates WindowDemo.ended.ctx.region ++ downRates WindowDemo.ended.ctx.region :=
  WindowDemo.ended_rates.rx2

def isComplete : Event → Bool
  | .dataComplete => true
  | _ => false

def isRead : Event → Bool
  | .readBuffer => true
  | _ => false

def isReset : Event → Bool
  | .setMode .reset => true
  | _ => false

theorem ends_complete {l : List Event} (h : l.getLast?.any isComplete = true) : l = l.dropLast ++ [.dataComplete] := by
  cases hg : l.getLast? with
  | none => rw [hg] at h; cases h
  | some x =>
    rw [hg] at h
    have : x = .dataComplete := by cases x <;> first | rfl | cases h
    subst this
    obtain ⟨k, hk⟩ := List.getLast?_eq_some_iff.1 hg
    rw [hk, List.dropLast_concat]

/-- The hypotheses of `c97_silence_partial` are met: the device reports the result after both windows. -/
example : WindowDemo.ended.state = .tx ∧ (∀ x ∈ silent, Continues x.2) ∧
    ∃ l, newEvents WindowDemo.ended (run Demo.cfg WindowDemo.ended silent) = l ++ [.dataComplete] ∧
      Event.readBuffer ∉ l ++ [.dataComplete] ∧ Event.setMode .reset ∉ l ++ [.dataComplete] ∧
      (listens l).map (fun x => x.2) = [rx1Listen Demo.cfg WindowDemo.ended, rx2Listen Demo.cfg WindowDemo.ended] := by
  have h : newEvents WindowDemo.ended (run Demo.cfg WindowDemo.ended silent) = _ := ends_complete (by decide +kernel)
  refine ⟨by decide +kernel, ?_, _, h, ?_, ?_, by decide +kernel⟩
  · simp [silent, calls1, Demo.processAt, Demo.rxNone, Continues]
  · rw [← h]
    intro hm
    have : (newEvents WindowDemo.ended (run Demo.cfg WindowDemo.ended silent)).any isRead = true := List.any_eq_true.2 ⟨_, hm, rfl⟩
    exact absurd this (by decide +kernel)
  · rw [← h]
    intro hm
    have : (newEvents WindowDemo.ended (run Demo.cfg WindowDemo.ended silent)).any isReset = true := List.any_eq_true.2 ⟨_, hm, rfl⟩
    exact absurd this (by decide +kernel)

/-- **C97**, a witness: the uplink of another device is received in the first window.  The device, which has sent an
unconfirmed frame, reports the result at once, and has listened in the first window only.  The hypotheses of `c97_stray`
are met. -/
theorem c97_not : Reachable Demo.cfg WindowDemo.ended ∧ WindowDemo.ended.state = .tx ∧ (∀ x ∈ stray, Continues x.2) ∧
    ∃ l, newEvents WindowDemo.ended (run Demo.cfg WindowDemo.ended stray) = l ++ [.dataComplete] ∧
      listens l = [(1118464, rx1Listen Demo.cfg WindowDemo.ended)] ∧ ¬ ListensSecond WindowDemo.ended l := by
  have h1 : listens (newEvents WindowDemo.ended (run Demo.cfg WindowDemo.ended stray)).dropLast =
      [(1118464, rx1Listen Demo.cfg WindowDemo.ended)] := by decide +kernel
  refine ⟨WindowDemo.ended_reachable, by decide +kernel, ?_, _, ends_complete (by decide +kernel), h1, ?_⟩
  · simp [stray, calls1, Demo.processAt, Demo.rxPacket, Continues]
  · rintro ⟨x, hx, hf, _⟩
    rw [h1, List.mem_singleton] at hx
    subst hx
    exact absurd hf (by decide +kernel)

example : (run Demo.cfg WindowDemo.ended (calls1 ++ [(Demo.at_ 1200000, .radioEvent 1200000)])).state = .rx1 ∧
    (run Demo.cfg WindowDemo.ended (calls1 ++ [(Demo.at_ 1200000, .radioEvent 1200000)])).inputState = true := by decide +kernel

/-- The hypotheses of `c97_forged` are met: a data downlink with a wrong MIC. -/
example : let m := run Demo.cfg WindowDemo.ended (calls1 ++ [(Demo.at_ 1200000, .radioEvent 1200000)])
    let e : Env := { now := 1200000, statusRx := true, packet := [0x60, 1, 0, 0, 0, 0, 0, 0, 9, 9, 9, 9] }
    m.state = .rx1 ∧ m.inputState = true ∧ DataOp m ∧ KeysOk Demo.cfg m ∧ e.received.length ≠ 244 ∧ ¬ OptsOverrun e.received ∧
    ∀ msg, ¬ Delivered Demo.cfg m e msg := by
  intro m e
  refine ⟨by decide +kernel, by decide +kernel, by decide +kernel, by unfold KeysOk; decide +kernel, by decide +kernel,
    by unfold OptsOverrun; decide +kernel, ?_⟩
  intro msg h
  have hn : (openDown Demo.cfg.E (sess11 Demo.cfg m) (deviceKeys Demo.cfg m) m.ctx.devAddr (leValue (Frame.slice e.received 6 2))
      (u16 (m.ctx.up + 65535)) e.received).isNone = true := by decide +kernel
  unfold Delivered at h
  rw [h] at hn
  cases hn

end SecondDemo

end LDL
