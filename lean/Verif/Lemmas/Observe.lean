import Verif.Lemmas.OpState
import Verif.Spec.Trace

/-!
# The observer and the state machine agree
-/

namespace LDL
open Spec

theorem observeEvents_append (k : Option Kind) (a b : List Event) :
    observeEvents k (a ++ b) = (observeEvents k a).bind fun k' => observeEvents k' b := by
  induction a generalizing k with
  | nil => rfl
  | cons x a ih =>
    simp only [List.cons_append, observeEvents]
    cases observeEvent k x with
    | none => rfl
    | some k' => exact ih k'

theorem observeEvents_quiet (k : Option Kind) (a : List Event) (h : ∀ x ∈ a, terminal x = false) :
    observeEvents k a = some k := by
  induction a generalizing k with
  | nil => rfl
  | cons x a ih =>
    simp only [observeEvents, observeEvent, h x (by simp)]
    exact ih k fun y hy => h y (by simp [hy])

/-- The events between `m` and `m'` take the observer from the operation of `m` to that of `m'`. -/
def Obs (m m' : Mac) : Prop :=
  ∃ o, m'.out = m.out ++ o ∧ observeEvents (kindOf m.op) o = some (kindOf m'.op)

theorem Obs.trans {a b c : Mac} (h1 : Obs a b) (h2 : Obs b c) : Obs a c := by
  obtain ⟨o1, e1, p1⟩ := h1
  obtain ⟨o2, e2, p2⟩ := h2
  refine ⟨o1 ++ o2, by rw [e2, e1, List.append_assoc], ?_⟩
  rw [observeEvents_append, p1]
  exact p2

theorem Obs.quiet {m m' : Mac} (o : List Event) (h : m'.out = m.out ++ o) (hop : m'.op = m.op)
    (hq : ∀ x ∈ o, terminal x = false) : Obs m m' :=
  ⟨o, h, by rw [hop]; exact observeEvents_quiet _ _ hq⟩

theorem Obs.same {m m' : Mac} (h : m'.out = m.out) (hop : m'.op = m.op) : Obs m m' :=
  .quiet [] (by rw [h, List.append_nil]) hop (by simp)

/-- A quiet list of events and then the terminal event of the operation. -/
theorem Obs.ends {m m' : Mac} (o o' : List Event) (ev : Event) (k : Kind) (h : m'.out = m.out ++ (o ++ ev :: o'))
    (hk : kindOf m.op = some k) (he : ends k ev = true) (ht : terminal ev = true) (hop : m'.op = .none)
    (hq : ∀ x ∈ o, terminal x = false) (hq' : ∀ x ∈ o', terminal x = false) : Obs m m' := by
  refine ⟨_, h, ?_⟩
  rw [observeEvents_append, observeEvents_quiet _ _ hq, hk]
  simp only [Option.bind, observeEvents, observeEvent, ht, he, if_true]
  rw [observeEvents_quiet _ _ hq', hop]
  rfl

theorem nextJoinRequest_obs (cfg : Cfg) (e : Env) (m : Mac) :
    (nextJoinRequest cfg e m).out = m.out ++ [.devNonceUpdated (u32 (m.devNonce + 1))] ∧
    (nextJoinRequest cfg e m).op = m.op := by
  obtain ⟨dn, b, bl, t, h⟩ := nextJoinRequest_shape cfg e m
  rw [h]
  exact ⟨rfl, rfl⟩

theorem Missing.obs {cfg : Cfg} {e : Env} {m m' : Mac} (h : Missing cfg e m m') : Obs m m' := by
  cases h with
  | retry => exact .same rfl rfl
  | giveUp ho _ _ _ _ _ _ o ho' =>
    have hq : ∀ x ∈ o, terminal x = false := by
      rcases ho' with rfl | ⟨s, rfl, _⟩ <;> simp [terminal]
    rcases ho with ho | ho
    · refine .ends o [] .dataComplete .unconfirmed ?_ (by rw [ho]; rfl) rfl rfl rfl hq (by simp)
      simp [ho]
    · refine .ends o [] .dataTimeout .confirmed ?_ (by rw [ho]; rfl) rfl rfl rfl hq (by simp)
      simp [ho]
  | nextJoin ho =>
    obtain ⟨h1, h2⟩ := nextJoinRequest_obs cfg e { m with trials := u32 (m.trials + 1) }
    exact .quiet _ h1 h2 (by simp [terminal])
  | exhausted ho =>
    exact .ends [] [] .joinExhausted .join (by simp) (by rw [ho]; rfl) rfl rfl rfl (by simp) (by simp)
  | other => exact .same rfl rfl

theorem RadioErr.obs {cfg : Cfg} {e : Env} {m m' : Mac} (h : RadioErr cfg e m m')
    (hop : m.op = .joining ∨ m.op = .dataUnconfirmed ∨ m.op = .dataConfirmed) : Obs m m' := by
  cases h with
  | op ho =>
    rcases hop with h | h | h
    · exact absurd h ho
    · exact .ends [] [.setMode .reset] .opError .unconfirmed (by simp) (by rw [h]; rfl) rfl rfl rfl (by simp)
        (by simp [terminal])
    · exact .ends [] [.setMode .reset] .opError .confirmed (by simp) (by rw [h]; rfl) rfl rfl rfl (by simp)
        (by simp [terminal])
  | nextJoin ho hn x hx =>
    obtain ⟨h1, h2⟩ := nextJoinRequest_obs cfg e { m with
        inputArmed := false, timerA := m.timerA.clear, timerB := m.timerB.clear, trials := u32 (m.trials + 1) }
    rw [← hx] at h1 h2
    refine .quiet ([.devNonceUpdated (u32 (m.devNonce + 1))] ++ [.setMode .reset]) ?_ h2 (by simp [terminal])
    simp only [h1, List.append_assoc]
  | exhausted ho =>
    exact .ends [] [.setMode .reset] .joinExhausted .join (by simp) (by rw [ho]; rfl) rfl rfl rfl (by simp)
        (by simp [terminal])

theorem Obs.shift {m m0 m' : Mac} (h : Obs m0 m') (h0 : Obs m m0) : Obs m m' := h0.trans h

/-- In a state of a radio exchange a join or a data operation is in progress. -/
theorem OpOk.busy {m : Mac} (hm : OpOk m) (hs : m.state = .tx ∨ m.state = .rx1 ∨ m.state = .rx2 ∨ m.state = .rx2Lockout) :
    m.op = .joining ∨ m.op = .dataUnconfirmed ∨ m.op = .dataConfirmed := by
  unfold OpOk at hm
  rcases hs with hs | hs | hs | hs <;> rw [hs] at hm <;> simpa [opAllowed, or_assoc] using hm

theorem Disp.obs {cfg : Cfg} {e : Env} {ev : Sme} {lag : Nat} {m m' : Mac} (h : Disp cfg e ev lag m m')
    (hm : OpOk m) : Obs m m' := by
  cases h with
  | stay => exact .same rfl rfl
  | init => exact .quiet _ rfl rfl (by simp [terminal])
  | reset => exact .quiet _ rfl rfl (by simp [terminal])
  | boot => exact .quiet _ rfl rfl (by simp [terminal])
  | startEntropy => exact .quiet _ rfl rfl (by simp [terminal])
  | entropy hs =>
    have : m.op = .entropy := by
      unfold OpOk at hm; rw [hs] at hm; simpa [opAllowed] using hm
    exact .ends [.readEntropy, .setMode .sleep] [] (.entropy (u32 e.entropy)) .entropy (by simp) (by rw [this]; rfl)
      rfl rfl rfl (by simp [terminal]) (by simp)
  | otaa => exact .same rfl rfl
  | waitA => exact .quiet _ rfl rfl (by simp [terminal])
  | waitB => exact .quiet _ rfl rfl (by simp [terminal])
  | startTX => exact .quiet _ rfl rfl (by simp [terminal, transmitEvent])
  | txError hs =>
    obtain ⟨b, hb⟩ := registerTime_shape (statusRead ev m)
    have h1 : Obs m (registerTime (statusRead ev m)) := by
      rw [hb]
      unfold statusRead
      split
      · exact .quiet [.getStatus] rfl rfl (by simp [terminal])
      · exact .same rfl rfl
    refine h1.trans ((handleRadioError_cases ..).obs ?_)
    have := hm.busy (Or.inl hs)
    rw [hb]
    unfold statusRead
    split <;> exact this
  | txDone hs =>
    obtain ⟨b, hb⟩ := registerTime_shape (m.emit .getStatus)
    rw [hb]
    obtain ⟨r1, r2, ta, tb, s, h, hst⟩ := txComplete_shape cfg e lag { m.emit .getStatus with band := b }
    rw [h]
    exact .quiet ([.getStatus] ++ [.setMode .hold]) (by simp [Mac.emit]) rfl (by simp [terminal])
  | startRX1 => exact .quiet _ rfl rfl (by simp [terminal, receive1Event])
  | startRX2 => exact .quiet _ rfl rfl (by simp [terminal, receive2Event])
  | rxError hs =>
    have h1 : Obs m (m.emit .getStatus) := .quiet [.getStatus] rfl rfl (by simp [terminal])
    refine h1.trans ((handleRadioError_cases ..).obs ?_)
    exact hm.busy (by rcases hs with h | h <;> simp [h])
  | rxRejected hs =>
    have h1 : Obs m (packetState e m) := by
      refine .quiet ([.getStatus] ++ [.readBuffer] ++ [.setMode .sleep]) ?_ rfl (by simp [terminal])
      simp [packetState]
    exact h1.trans (downlinkMissing_missing ..).obs
  | rxJoin hs _ _ f buf _ _ ho =>
    obtain ⟨r, cc, cm, v, pc, k, h⟩ := joinAccepted_shape cfg (packetState e m) f buf
    have hj : m.op = .joining := by
      rcases ho with ho | ho
      · exact ho
      · have := hm.busy (by rcases hs with h | h <;> simp [h])
        simp [ho] at this
    refine .ends ([.getStatus] ++ [.readBuffer] ++ [.setMode .sleep])
      [.sessionUpdated (joinAccepted cfg (packetState e m) f buf).ctx] (.joinComplete (u32 (f.joinNonce + 1)) f.netID f.devAddr) .join ?_ (by rw [hj]; rfl)
      rfl rfl (by rw [h]; rfl) (by simp [terminal]) (by simp [terminal])
    simp only [pushSessionUpdate, Mac.emit]
    generalize (joinAccepted cfg (packetState e m) f buf).ctx = c
    rw [h]
    simp [packetState]
  | rxData hs _ _ f buf _ _ ho =>
    obtain ⟨c, o, h, hq⟩ := dataReceived_shape cfg e (packetState e m) f buf
    rw [h]
    have hq' : ∀ x ∈ [.getStatus] ++ [.readBuffer] ++ [.setMode .sleep] ++ o, terminal x = false := by
      intro x hx
      rcases List.mem_append.1 hx with hx | hx
      · simp only [List.append_assoc, List.cons_append, List.nil_append, List.mem_cons, List.not_mem_nil, or_false] at hx
        rcases hx with rfl | rfl | rfl <;> rfl
      · rcases hq x hx with hi | ⟨off, _, _, rfl⟩
        · cases x <;> simp [InfoEvent] at hi <;> rfl
        · rfl
    have hb := hm.busy (by rcases hs with h | h <;> simp [h])
    rcases ho with ho | ho | ho
    · simp [ho] at hb
    · refine .ends ([.getStatus] ++ [.readBuffer] ++ [.setMode .sleep] ++ o) [.sessionUpdated c] .dataComplete .unconfirmed
        ?_ (by rw [ho]; rfl) rfl rfl rfl hq' (by simp [terminal])
      simp [pushSessionUpdate, Mac.emit, packetState, ho, dataEndEvents]
    · refine .ends ([.getStatus] ++ [.readBuffer] ++ [.setMode .sleep] ++ o) [.sessionUpdated c]
        (if f.ack then .dataComplete else .dataTimeout) .confirmed
        ?_ (by rw [ho]; rfl) (by split <;> rfl) (by split <;> rfl) rfl hq' (by simp [terminal])
      simp [pushSessionUpdate, Mac.emit, packetState, ho, dataEndEvents]
  | rxTimeout1 => exact .quiet ([.getStatus] ++ [.setMode .hold]) (by simp) rfl (by simp [terminal])
  | rxTimeout2 => exact .quiet ([.getStatus] ++ [.setMode .sleep]) (by simp) rfl (by simp [terminal])
  | lockout => exact (downlinkMissing_missing ..).obs

theorem process_obs (cfg : Cfg) (e : Env) (m : Mac) (hm : OpOk m) : Obs m (process cfg e m) := by
  obtain ⟨ev, lag, m1, m2, p, t, hp, hd, h⟩ := process_disp cfg e m
  rw [h]
  have h1 : Obs m m1 := by
    have hop : m1.op = m.op := by
      obtain ⟨tt, tr, d, b, ia, is, ta, tb, o, heq⟩ := hp.eq
      rw [heq]
    rcases hp.out with ho | ho
    · exact .same ho hop
    · exact .quiet _ ho hop (by simp [terminal])
  rcases hd with ⟨_, hd⟩ | ⟨_, hd⟩
  · rw [hd]; exact h1.trans (.same rfl rfl)
  · exact (h1.trans (hd.obs (hp.opOk hm))).trans (.same rfl rfl)

theorem cancel_obs (m : Mac) (hm : OpOk m) : Obs m (cancel m) := by
  have hr : m.op ≠ .rejoining := by
    intro h
    unfold OpOk at hm
    rw [h] at hm
    cases hs : m.state <;> rw [hs] at hm <;> exact absurd hm (by decide)
  have hk : m.op = .none ∨ ∃ k, kindOf m.op = some k := by
    cases h : m.op
    case none => exact Or.inl rfl
    case rejoining => exact absurd h hr
    all_goals exact Or.inr ⟨_, rfl⟩
  have he : ∀ k, ends k .opCancelled = true := by intro k; cases k <;> rfl
  rcases cancel_shape m with ⟨_, h⟩ | ⟨_, h⟩ <;> rw [h]
  · rcases hk with hk | ⟨k, hk⟩
    · exact .quiet [] (by simp [hk]) hk.symm (by simp)
    · refine .ends [] [] .opCancelled k ?_ hk (he k) rfl rfl (by simp) (by simp)
      have : m.op ≠ .none := by intro h; rw [h] at hk; cases hk
      simp [this]
  · rcases hk with hk | ⟨k, hk⟩
    · exact .quiet [.setMode .reset] (by simp [hk]) hk.symm (by simp [terminal])
    · refine .ends [.setMode .reset] [] .opCancelled k ?_ hk (he k) rfl rfl (by simp [terminal]) (by simp)
      have : m.op ≠ .none := by intro h; rw [h] at hk; cases hk
      simp [this]

/-- The status of a send request tells what kind of operation it started. -/
theorem sendData_kind (cfg : Cfg) (e : Env) (m : Mac) (confirmed : Bool) (port : Nat) (data : Option Bytes)
    (len : Nat) (opts : Option DataOpts) (maxPayload : Nat) :
    let r := sendData cfg e m confirmed port data len opts maxPayload
    (r.2 = .macPriority ∧ r.1.op = .dataUnconfirmed) ∨
      (r.2 = .ok ∧ r.1.op = if confirmed then .dataConfirmed else .dataUnconfirmed) := by
  simp only []
  have h : (uplinkFrame cfg m confirmed port data len (dataOptions opts) maxPayload).2 = (false, .macPriority) ∨
      (uplinkFrame cfg m confirmed port data len (dataOptions opts) maxPayload).2 = (confirmed, .ok) := by
    unfold uplinkFrame placeMacData
    simp only []
    split
    · exact Or.inl rfl
    · split
      · exact Or.inl rfl
      · exact Or.inr rfl
  unfold sendData
  simp only []
  generalize uplinkFrame cfg m confirmed port data len (dataOptions opts) maxPayload = p at h
  have hs : ∀ x : Mac, (startIfIdle e x).op = x.op := by
    intro x; unfold startIfIdle; split <;> rfl
  rcases h with h | h
  · left
    rw [h]
    refine ⟨rfl, ?_⟩
    rw [hs]; rfl
  · right
    rw [h]
    refine ⟨rfl, ?_⟩
    rw [hs]; rfl

/-- Starting an operation: no terminal event, and the observer sees it start. -/
def Starts (m m' : Mac) (n : Option Kind) : Prop :=
  (∃ o, m'.out = m.out ++ o ∧ ∀ x ∈ o, terminal x = false) ∧
    match n with
    | some k => m.op = .none ∧ kindOf m'.op = some k
    | none => m'.op = m.op

theorem Api.obs {cfg : Cfg} {e : Env} {m m' : Mac} {c : Call} {st : Status} (h : Api cfg e m c m' st)
    (hm : OpOk m) : Starts m m' (starts c st) ∨ (starts c st = none ∧ Obs m m') := by
  have hnone : ∀ {m'' : Mac} (o : List Event), m''.out = m.out ++ o → m''.op = m.op →
      (∀ x ∈ o, terminal x = false) → starts c st = none →
      Starts m m'' (starts c st) ∨ (starts c st = none ∧ Obs m m'') := by
    intro m'' o h1 h2 h3 h4
    exact Or.inr ⟨h4, .quiet o h1 h2 h3⟩
  cases h with
  | refused _ _ h =>
    refine hnone [] (by simp) rfl (by simp) ?_
    obtain ⟨h1, h2⟩ := h
    cases c <;> cases st <;> first | rfl | exact absurd rfl h1 | exact absurd rfl h2
  | entropyIdle ho => exact Or.inl ⟨⟨[], by simp, by simp⟩, ho, rfl⟩
  | entropyLater ho => exact Or.inl ⟨⟨[], by simp, by simp⟩, ho, rfl⟩
  | otaa hj ho hn x hx s t hst =>
    obtain ⟨k, hk⟩ := deriveJoinKeys_shape cfg { m with trials := 0, day := 60 * 60 * 24 * timeTPS }
    have h1 := (nextJoinRequest_obs cfg e (Ops.deriveJoinKeys cfg { m with trials := 0, day := 60 * 60 * 24 * timeTPS })).1
    rw [← hx, hk] at h1
    refine Or.inl ⟨⟨_, h1, by simp [terminal]⟩, ho, rfl⟩
  | abp _ _ d => exact hnone [] (by simp) rfl (by simp) rfl
  | dataRefused c p d l o ho tx st hst =>
    refine hnone [] (by simp) rfl (by simp) ?_
    rcases hst with rfl | rfl <;> rfl
  | data c p d l o hj ho hp hb freq ch rate hc hl x hx =>
    obtain ⟨b, bl, op, s, t, h, _⟩ := sendData_shape cfg e x c p d l o (m.ctx.region.convertRate m.ctx.rate).mtu
    have hk := sendData_kind cfg e x c p d l o (m.ctx.region.convertRate m.ctx.rate).mtu
    simp only [] at hk
    left
    refine ⟨⟨[.sessionUpdated (uplinkAnswers cfg x (dataOptions o)).2], ?_, by simp [terminal]⟩, ?_⟩
    · rw [h, hx]
    · rcases hk with ⟨h1, h2⟩ | ⟨h1, h2⟩
      · rw [h1]; exact ⟨ho, by rw [h2]; rfl⟩
      · rw [h1]; exact ⟨ho, by rw [h2]; cases c <;> rfl⟩
  | forget =>
    right
    refine ⟨rfl, ?_⟩
    have h1 := cancel_obs m hm
    refine h1.trans ?_
    unfold LDL.forget
    simp only []
    split
    · exact .quiet [.sessionUpdated _] rfl rfl (by simp [terminal])
    · exact .same rfl rfl
  | cancel => exact Or.inr ⟨rfl, cancel_obs m hm⟩
  | setRate r => exact hnone [.sessionUpdated _] rfl rfl (by simp [terminal]) rfl
  | setPower r => exact hnone [.sessionUpdated _] rfl rfl (by simp [terminal]) rfl
  | setADR r => exact hnone [.sessionUpdated _] rfl rfl (by simp [terminal]) rfl
  | setMaxDCycle r => exact hnone [.sessionUpdated _] rfl rfl (by simp [terminal]) rfl
  | addChannel => exact hnone [] (by simp) rfl (by simp) rfl
  | maskChannel => exact hnone [] (by simp) rfl (by simp) rfl
  | unmaskChannel => exact hnone [] (by simp) rfl (by simp) rfl
  | latched => exact hnone [] (by simp) rfl (by simp) rfl
  | ignored => exact hnone [] (by simp) rfl (by simp) rfl
  | late => exact hnone [] (by simp) rfl (by simp) rfl
  | notLate => exact hnone [] (by simp) rfl (by simp) rfl

/-- One call, as the observer sees it. -/
theorem step_observed (cfg : Cfg) (m : Mac) (e : Env) (c : Call) (hm : OpOk m) :
    observeRec (kindOf m.op)
      { call := c, status := (step cfg m e c).2, events := (step cfg m e c).1.out.drop m.out.length } =
        some (kindOf (step cfg m e c).1.op) := by
  have key : (Starts m (step cfg m e c).1 (starts c (step cfg m e c).2)) ∨
      (starts c (step cfg m e c).2 = none ∧ Obs m (step cfg m e c).1) := by
    by_cases hc : c = .process
    · subst hc
      exact Or.inr ⟨rfl, process_obs cfg e m hm⟩
    · exact (step_api cfg e m c hc).obs hm
  unfold observeRec
  simp only []
  rcases key with ⟨⟨o, ho, hq⟩, hk⟩ | ⟨h1, o, ho, hk⟩
  · rw [ho, List.drop_left, observeEvents_quiet _ _ hq]
    cases hs : starts c (step cfg m e c).2 with
    | none => rw [hs] at hk; simp only [] at hk ⊢; rw [hk]
    | some k =>
      rw [hs] at hk
      simp only [] at hk ⊢
      rw [hk.1, hk.2]
      rfl
  · rw [ho, List.drop_left, hk, h1]

end LDL
