import Verif.Props.JoinChannel

/-!
# Repetitions and off-time: C88

A data frame may be repeated before the off-time of its earlier transmissions is over, up to a limit of half an hour.
-/

namespace LDL
open Spec

/-- Half an hour, in the units in which off-time is counted (1/256 s). -/
def Spec.halfHour : Nat := 30 * 60 * 256

/-- The off-time owed is low: less than half an hour in aggregate, and no more than that in some band of the region. -/
def Low (m : Mac) : Prop :=
  m.band GLOBAL < halfHour ∧ ∃ f b, Spec.band m.ctx.region f = some b ∧ m.band b ≤ halfHour

theorem Low.mono {m m' : Mac} (h : Low m) (hr : m'.ctx.region = m.ctx.region) (hb : ∀ i, m'.band i ≤ m.band i) : Low m' := by
  obtain ⟨h1, f, b, h2, h3⟩ := h
  exact ⟨Nat.lt_of_le_of_lt (hb _) h1, f, b, by rw [hr]; exact h2, Nat.le_trans (hb b) h3⟩

theorem low_of_retry {e : Env} {m : Mac} (hw : ChanWords m.ctx) (h : shouldRetry e m = true) : Low m := by
  unfold shouldRetry at h
  simp only [Bool.and_eq_true, decide_eq_true_eq] at h
  obtain ⟨⟨_, h1⟩, h2⟩ := h
  obtain ⟨ch, _, f, _, _, b, _, h3, h4⟩ := (selectChannel_isSome m hw _ _ _).1 h2
  exact ⟨h1, f, b, h3, h4⟩

/-- How a data frame comes to wait for its transmission: it waited before, or it is to be repeated. -/
theorem Disp.intoWait {cfg : Cfg} {e : Env} {ev : Sme} {lag : Nat} {m m' : Mac} (h : Disp cfg e ev lag m m')
    (hw : ChanWords m.ctx) (hop : DataOp m') (hs : afterTx m'.state = false) :
    DataOp m ∧ m'.band = m.band ∧ m'.ctx.region = m.ctx.region ∧ (afterTx m.state = false ∨ Low m) := by
  have herr : ∀ x, ¬ DataOp (handleRadioError cfg e x) := by
    intro x hx
    have := handleRadioError_cases cfg e x
    generalize handleRadioError cfg e x = y at *
    cases this with
    | op => rcases hx with h | h <;> cases h
    | exhausted => rcases hx with h | h <;> cases h
    | nextJoin ho _ z hz =>
      obtain ⟨_, _, _, _, h'⟩ := nextJoinRequest_shape cfg e { x with
        inputArmed := false, timerA := x.timerA.clear, timerB := x.timerB.clear, trials := u32 (x.trials + 1) }
      rw [h'] at hz
      have hx : z.op = .dataUnconfirmed ∨ z.op = .dataConfirmed := hx
      rw [hz] at hx
      have hx : x.op = .dataUnconfirmed ∨ x.op = .dataConfirmed := hx
      simp [ho] at hx
  have hmiss : ∀ x y : Mac, x.op = m.op → x.ctx = m.ctx → x.band = m.band → Missing cfg e x y → DataOp y →
      afterTx y.state = false → DataOp m ∧ y.band = m.band ∧ y.ctx.region = m.ctx.region ∧ Low m := by
    intro x y h1 h2 h3 hy hop hs
    cases hy with
    | retry ho hr =>
      have hl := low_of_retry (m := { x with trials := u32 (x.trials + 1) }) (by show ChanWords x.ctx; rw [h2]; exact hw) hr
      refine ⟨?_, h3, by show x.ctx.region = _; rw [h2], hl.mono (by show _ = x.ctx.region; rw [h2]) ?_⟩
      · unfold DataOp; rw [← h1]; exact ho
      · intro i; show _ ≤ x.band i; rw [h3]
    | giveUp => rcases hop with h | h <;> cases h
    | exhausted => rcases hop with h | h <;> cases h
    | nextJoin ho =>
      obtain ⟨_, _, _, _, h'⟩ := nextJoinRequest_shape cfg e { x with trials := u32 (x.trials + 1) }
      rw [h'] at hop
      have hop : x.op = .dataUnconfirmed ∨ x.op = .dataConfirmed := hop
      simp [ho] at hop
    | other ho =>
      have hop : x.op = .dataUnconfirmed ∨ x.op = .dataConfirmed := hop
      rcases hop with h | h <;> simp [h] at ho
  cases h with
  | stay => exact ⟨hop, rfl, rfl, Or.inl hs⟩
  | init h1 => exact ⟨hop, rfl, rfl, Or.inl (by rw [h1]; rfl)⟩
  | reset h1 => exact ⟨hop, rfl, rfl, Or.inl (by rw [h1]; rfl)⟩
  | boot h1 => exact ⟨hop, rfl, rfl, Or.inl (by rw [h1]; rfl)⟩
  | startEntropy h1 => exact ⟨hop, rfl, rfl, Or.inl (by rw [h1]; rfl)⟩
  | entropy => rcases hop with h | h <;> cases h
  | otaa h1 => exact ⟨hop, rfl, rfl, Or.inl (by rw [h1]; rfl)⟩
  | waitA h1 =>
    refine ⟨hop, rfl, rfl, Or.inl ?_⟩
    rcases h1 with h1 | h1 | h1
    · simp [waitNext, h1, afterTx] at hs
    · rw [h1]; rfl
    · rw [h1]; rfl
  | waitB h1 => simp [waitNext, h1, afterTx] at hs
  | startTX => simp [afterTx] at hs
  | txError => exact absurd hop (herr _)
  | txDone =>
    obtain ⟨r1, r2, ta, tb, s, h, hst⟩ := txComplete_shape cfg e lag (registerTime (m.emit .getStatus))
    rw [h] at hs
    rcases hst with ⟨rfl, _⟩ | ⟨rfl, _⟩ <;> simp [afterTx] at hs
  | startRX1 => simp [afterTx] at hs
  | startRX2 => simp [afterTx] at hs
  | rxError => exact absurd hop (herr _)
  | rxRejected =>
    obtain ⟨h1, h2, h3, h4⟩ := hmiss (packetState e m) _ rfl rfl rfl (downlinkMissing_missing cfg e _) hop hs
    exact ⟨h1, h2, h3, Or.inr h4⟩
  | rxJoin _ _ _ f buf =>
    obtain ⟨r, cc, cm, v, pc, k, h⟩ := joinAccepted_shape cfg (packetState e m) f buf
    rw [h] at hop; rcases hop with h | h <;> cases h
  | rxData _ _ _ f buf =>
    obtain ⟨c, o, h, _⟩ := dataReceived_shape cfg e (packetState e m) f buf
    rw [h] at hop; rcases hop with h | h <;> cases h
  | rxTimeout1 => simp [afterTx] at hs
  | rxTimeout2 => simp [afterTx] at hs
  | lockout =>
    obtain ⟨h1, h2, h3, h4⟩ := hmiss m _ rfl rfl rfl (downlinkMissing_missing cfg e _) hop hs
    exact ⟨h1, h2, h3, Or.inr h4⟩

/-- While a data frame waits for its transmission the off-time is low. -/
def WaitLow (m : Mac) : Prop := DataOp m → afterTx m.state = false → Low m

theorem WaitLow.step {cfg : Cfg} {m : Mac} (h : WaitLow m) (hw : ChanWords m.ctx) (e : Env) (c : Call) :
    WaitLow (LDL.step cfg m e c).1 := by
  intro hop hs
  by_cases hc : c = .process
  · subst hc
    obtain ⟨ev, lag, m1, m2, hp, hcl, _, hdd, heq⟩ := process_parts cfg e m
    have hb : ∀ i, m1.band i ≤ m.band i := by
      intro i
      rw [Mac.clock_band hcl]; exact ticked_le cfg e m i
    obtain ⟨_, _, _, _, _, _, _, _, _, hme⟩ := hp.eq
    have hst : m1.state = m.state := by rw [hme]
    have hop1 : m1.op = m.op := by rw [hme]
    have hctx : m1.ctx = m.ctx := by rw [hme]
    obtain ⟨p, t, hsn⟩ := setNextBandEvent_shape cfg e m2
    have heq : (LDL.step cfg m e .process).1 = { m2 with parked := p, timerBand := t } := heq.trans hsn
    rw [heq] at hop hs ⊢
    change DataOp m2 at hop
    change afterTx m2.state = false at hs
    show Low m2
    rcases hdd with ⟨_, rfl⟩ | ⟨_, hdd⟩
    · exact (h (by unfold DataOp at hop ⊢; rw [← hop1]; exact hop) (by rw [← hst]; exact hs)).mono (by rw [hctx]) hb
    · obtain ⟨g1, g2, g3, g4⟩ := hdd.intoWait (by rw [hctx]; exact hw) hop hs
      have hl : Low m1 := by
        rcases g4 with g4 | g4
        · exact (h (by unfold DataOp at g1 ⊢; rw [← hop1]; exact g1) (by rw [← hst]; exact g4)).mono (by rw [hctx]) hb
        · exact g4
      exact hl.mono g3 (fun i => by rw [g2])
  · have hapi := step_api cfg e m c hc
    have hcan : (LDL.cancel m).op = .none := by
      rcases cancel_shape m with ⟨_, h⟩ | ⟨_, h⟩ <;> rw [h]
    generalize (LDL.step cfg m e c).1 = m' at *
    generalize (LDL.step cfg m e c).2 = st at *
    cases hapi
    case data con port pay len opts hj ho hp hb freq ch rate hsel hl m1 hm1 =>
      obtain ⟨_, _, op, s, t, h', _⟩ := sendData_shape cfg e m1 con port pay len opts
        (m.ctx.region.convertRate m.ctx.rate).mtu
      rw [h']
      obtain ⟨_, ⟨_, f, _, _, b, _, h3, h4⟩, _⟩ := selectChannel_some _ hw _ _ _ _ _ _ hsel
      have hreg : (uplinkAnswers cfg m1 (dataOptions opts)).2.region = m1.ctx.region := by
        obtain ⟨pc, hpc⟩ := (putAnswers_inv cfg { m1.ctx with up := u32 (m1.ctx.up + 1) } (dataOptions opts)).session
        show (putAnswers cfg { m1.ctx with up := u32 (m1.ctx.up + 1) } (dataOptions opts)).2.region = _
        rw [hpc]
      subst hm1
      refine ⟨?_, f, b, ?_, ?_⟩
      · show m.band GLOBAL < _
        rw [hb]; decide
      · exact (congrArg (Spec.band · f) hreg).trans h3
      · exact Nat.le_trans h4 (Nat.zero_le _)
    case forget =>
      obtain ⟨_, _, _, _, _, h'⟩ := forget_shape m
      rw [h'] at hop
      have hop : (LDL.cancel m).op = .dataUnconfirmed ∨ (LDL.cancel m).op = .dataConfirmed := hop
      simp [hcan] at hop
    case cancel =>
      have hop : (LDL.cancel m).op = .dataUnconfirmed ∨ (LDL.cancel m).op = .dataConfirmed := hop
      simp [hcan] at hop
    case otaa => rcases hop with h | h <;> cases h
    case entropyIdle => rcases hop with h | h <;> cases h
    case entropyLater => rcases hop with h | h <;> cases h
    case abp hno _ =>
      have hop : m.op = .dataUnconfirmed ∨ m.op = .dataConfirmed := hop
      simp [hno] at hop
    case addChannel a b c d =>
      obtain ⟨cc, hsc⟩ := setChannel_shape m.ctx a b c d
      refine (h hop hs).mono ?_ (fun i => Nat.le_refl _)
      show (setChannel m.ctx _ _ _ _).2.region = _
      rw [hsc]
    all_goals exact (h hop hs).mono rfl (fun i => Nat.le_refl _)

theorem Spec.Reachable.waitLow {cfg : Cfg} {m : Mac} (h : Reachable cfg m) : WaitLow m := by
  induction h with
  | init region arg e _ _ =>
    obtain ⟨_, h2, _⟩ := init_opOk cfg region arg e
    intro hop
    rcases hop with h | h <;> rw [h2] at h <;> cases h
  | step e c h _ ih => exact ih.step h.sessionOk.words e c

/-- **C88** (partial): whenever a frame of a send request is given to the radio, for the first time or again, less than
half an hour of off-time is owed in aggregate; outside EU868, where all channels share one band, no more than half an
hour is owed in the band of the frame either.  Missing: the band of the frame in EU868 (`c88_own_band`). -/
theorem c88_off_time_partial {cfg : Cfg} {m : Mac} (hr : Reachable cfg m) (e : Env) (c : Call)
    (hd : m.op = .dataUnconfirmed ∨ m.op = .dataConfirmed) (x : TxSetting × Bytes)
    (hx : x ∈ transmitted ((step cfg m e c).1.out.drop m.out.length)) :
    (step cfg m e c).1.band GLOBAL < halfHour ∧
    (m.ctx.region ≠ .eu868 → ∀ b, Spec.band m.ctx.region x.1.freq = some b → (step cfg m e c).1.band b ≤ halfHour) := by
  obtain ⟨o, ho, hs, _⟩ := step_does cfg e m c hr.reach.opOk
  rw [ho, List.drop_left] at hx
  have hlow : Low m ∧ c = .process ∧ m.state = .startRadioForTX := by
    generalize nonceReports o = n at hs
    generalize hl : transmissions o = l at hs
    have hx : x ∈ l := hl ▸ hx
    cases hs with
    | sent _ hc hst => exact ⟨hr.waitLow hd (by rw [hst]; rfl), hc, hst⟩
    | _ => cases hx
  obtain ⟨⟨h1, f, b, h2, h3⟩, rfl, hst⟩ := hlow
  have hle : ∀ i, (step cfg m e .process).1.band i ≤ m.band i := by
    intro i
    show (process cfg e m).band i ≤ _
    have ht := ticked_le cfg e m i
    rcases (process_clock cfg e m).1 with ⟨hch, _⟩ | ⟨_, hcl⟩ | ⟨_, _, hcl⟩
    · rw [hch.1] at hst; cases hst
    · simp only [Mac.clock, Prod.mk.injEq] at hcl
      rw [hcl.2.2.2]; exact ht
    · simp only [Mac.clock, Prod.mk.injEq] at hcl
      rw [hcl.2.2.2]
      unfold upd
      split
      · exact Nat.zero_le _
      · exact ht
  refine ⟨Nat.lt_of_le_of_lt (hle _) h1, fun hne b' hb' => ?_⟩
  have hone : ∀ g, Spec.band m.ctx.region g = some 0 := by
    intro g
    cases hreg : m.ctx.region with
    | eu868 => exact absurd hreg hne
    | _ => rfl
  rw [hone] at h2 hb'
  cases h2; cases hb'
  exact Nat.le_trans (hle 0) h3

namespace Demo

/-- A second repetition, when off-time of the first transmission is owed in the band. -/
def again : Mac := run cfg joined
  ((at_ 30000, .data false 1 (some [1, 2, 3]) 3 (some { nbTrans := 2 })) :: cycle 30000 ++ processAt [7000000])

example : Reachable cfg again := run_reach joined_reachable _ (by decide +kernel)

example : again.op = .dataUnconfirmed ∧
    transmitted ((step cfg again (at_ 7030000) .process).1.out.drop again.out.length) =
      [(⟨868100000, .b125, 12, 1600⟩, [64, 1, 0, 0, 0, 128, 0, 0, 1, 0, 2, 3, 9, 1, 0, 0])] ∧
    0 < (step cfg again (at_ 7030000) .process).1.band 1 := by decide +kernel

/-- Joined, with a channel in the band 868.7 - 869.2 MHz, which may be used a thousandth of the time. -/
def thousandth : Mac := run cfg joined [(at_ 25000, .addChannel 3 868800000 0 5)]

/-- A send request which draws that channel, and the first transmission. -/
def burst : Mac := run cfg thousandth
  (({ at_ 30000 with rand := fun _ => 3 }, .data false 1 (some (List.replicate 30 0)) 30 (some { nbTrans := 2 })) ::
    cycle 30000 ++ processAt [7000000])

theorem burst_reachable : Reachable cfg burst :=
  run_reach (run_reach joined_reachable _ (by decide +kernel)) _ (by decide +kernel)

end Demo

/-- **C88** is false in EU868: a frame is repeated, five seconds after its first transmission, while 1969 s (504201/256)
of off-time are owed in its band.  The check for the half hour is satisfied by other channels in other bands, but the
frame is repeated on the channel of its first transmission. -/
theorem c88_own_band : ∃ m, Reachable Demo.cfg m ∧ m.op = .dataUnconfirmed ∧ ∃ e x,
    transmitted ((step Demo.cfg m e .process).1.out.drop m.out.length) = [x] ∧
    Spec.band m.ctx.region x.1.freq = some 2 ∧ (step Demo.cfg m e .process).1.band 2 = 504201 ∧ halfHour < 504201 := by
  refine ⟨Demo.burst, Demo.burst_reachable, by decide +kernel, Demo.at_ 7030000, (txSetting Demo.burst, Demo.burst.frame), ?_⟩
  decide +kernel

end LDL
