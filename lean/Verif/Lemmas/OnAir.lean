import Verif.Lemmas.Bands
import Verif.Lemmas.Life

/-!
# Being on air: how a transmission begins and ends
-/

namespace LDL

theorem Missing.notTx {cfg : Cfg} {e : Env} {m m' : Mac} (h : Missing cfg e m m') (hs : m.state ≠ .tx) :
    m'.state ≠ .tx := by
  cases h
  all_goals first | exact hs | simp

theorem RadioErr.notTx {cfg : Cfg} {e : Env} {m m' : Mac} (h : RadioErr cfg e m m') : m'.state ≠ .tx := by
  cases h <;> simp

/-- How a handler begins or ends a transmission. -/
theorem Disp.onAir {cfg : Cfg} {e : Env} {ev : Sme} {lag : Nat} {m m' : Mac} (h : Disp cfg e ev lag m m') :
    (m' = m) ∨ (m'.state ≠ .tx ∧ m.state ≠ .startRadioForTX) ∨
    (m.state = .startRadioForTX ∧ ev = .timerA ∧ m'.state = .tx ∧
      m'.tx = { m.tx with airTime := msToTime (txAirTime m) }) := by
  cases h
  case stay => exact Or.inl rfl
  case startTX hs he => exact Or.inr (Or.inr ⟨hs, he, rfl, rfl⟩)
  case txError hs he => exact Or.inr (Or.inl ⟨(handleRadioError_cases cfg e _).notTx, by rw [hs]; decide⟩)
  case txDone hs he ht =>
    obtain ⟨_, _, _, _, s, h, h2⟩ := txComplete_shape cfg e lag (registerTime (m.emit .getStatus))
    refine Or.inr (Or.inl ⟨?_, by rw [hs]; decide⟩)
    rw [h]
    rcases h2 with ⟨h2, _⟩ | ⟨h2, _⟩ <;> subst h2 <;> simp
  case rxError hs he =>
    exact Or.inr (Or.inl ⟨(handleRadioError_cases cfg e _).notTx, by rcases hs with h | h <;> rw [h] <;> decide⟩)
  case rxRejected hs _ _ _ _ =>
    exact Or.inr (Or.inl ⟨(downlinkMissing_missing cfg e _).notTx
      (by show m.state ≠ _; rcases hs with h | h <;> rw [h] <;> decide), by rcases hs with h | h <;> rw [h] <;> decide⟩)
  case rxJoin hs _ _ f buf _ _ _ =>
    obtain ⟨_, _, _, _, _, _, h⟩ := joinAccepted_shape cfg (packetState e m) f buf
    refine Or.inr (Or.inl ⟨?_, by rcases hs with h | h <;> rw [h] <;> decide⟩)
    show (joinAccepted cfg (packetState e m) f buf).state ≠ _
    rw [h]; simp
  case rxData hs _ _ f buf _ _ _ =>
    obtain ⟨_, _, h, _⟩ := dataReceived_shape cfg e (packetState e m) f buf
    refine Or.inr (Or.inl ⟨?_, by rcases hs with h | h <;> rw [h] <;> decide⟩)
    show (dataReceived cfg e (packetState e m) f buf).state ≠ _
    rw [h]; simp
  case lockout hs _ =>
    exact Or.inr (Or.inl ⟨(downlinkMissing_missing cfg e _).notTx (by rw [hs]; decide), by rw [hs]; decide⟩)
  case boot hs he =>
    refine Or.inr (Or.inl ⟨?_, by rw [hs]; decide⟩)
    show bootState m.op ≠ _
    cases m.op <;> decide
  case waitA hs _ _ _ =>
    refine Or.inr (Or.inl ⟨?_, by rcases hs with h | h | h <;> rw [h] <;> decide⟩)
    show waitNext m.state ≠ _
    rcases hs with h | h | h <;> rw [h] <;> decide
  case waitB hs _ _ _ =>
    refine Or.inr (Or.inl ⟨?_, by rw [hs]; decide⟩)
    show waitNext m.state ≠ _
    rw [hs]; decide
  all_goals
    refine Or.inr (Or.inl ⟨by simp, ?_⟩)
    simp_all

theorem newTransmissions (cfg : Cfg) (e : Env) (m : Mac) (c : Call) :
    (m.state ≠ .startRadioForTX ∨ c ≠ .process) → transmissions (newEvents m (step cfg m e c).1) = [] := by
  intro h
  obtain ⟨l, h1, h2⟩ := step_emits cfg e m c
  unfold newEvents
  rw [h1, List.drop_left]
  refine List.filterMap_eq_nil_iff.2 fun x hx => ?_
  have := h2 x hx
  cases x with
  | transmit a s b =>
    exfalso
    generalize hy : Event.transmit a s b = y at this
    cases this with
    | transmit hs hi ht => rcases h with h | h; exact h hs; exact h rfl
    | info _ _ _ _ hi => rw [← hy] at hi; cases hi
    | _ => cases hy
  | _ => rfl

/-- The effect of a call on transmissions. -/
inductive AirStep (cfg : Cfg) (e : Env) (m : Mac) (c : Call) (m' : Mac) : Prop
  | off (hs : m.state ≠ .tx) (hs' : m'.state ≠ .tx) (ht : transmissions (newEvents m m') = [])
  | start (hc : c = .process) (hs : m.state = .startRadioForTX) (hs' : m'.state = .tx)
      (ht : transmissions (newEvents m m') = [(txSetting m, m.frame)])
      (htx : m'.tx = { m.tx with airTime := msToTime (txAirTime m) })
  | on (hs : m.state = .tx) (hs' : m'.state = .tx) (hn : ¬ (c = .process ∧ Charges m e)) (htx : m'.tx = m.tx)
      (ht : transmissions (newEvents m m') = [])
  | finish (hc : c = .process) (hs : m.state = .tx) (hs' : m'.state ≠ .tx) (hn : Charges m e)
      (ht : transmissions (newEvents m m') = [])
  | cancelled (hc : c = .cancel ∨ c = .forget) (hs : m.state = .tx) (hs' : m'.state ≠ .tx)
      (ht : transmissions (newEvents m m') = [])

theorem step_air (cfg : Cfg) (e : Env) (m : Mac) (c : Call) (hm : OpOk m) : AirStep cfg e m c (step cfg m e c).1 := by
  by_cases hc : c = .process
  · subst hc
    have hnt := newTransmissions cfg e m .process
    obtain ⟨o, ho, hop, _⟩ := step_does cfg e m .process hm
    have hnew : newEvents m (step cfg m e .process).1 = o := by unfold newEvents; rw [ho, List.drop_left]
    rw [← hnew] at hop
    change AirStep cfg e m .process (process cfg e m)
    change _ → transmissions (newEvents m (process cfg e m)) = [] at hnt
    change OpStep cfg e m .process (process cfg e m) (transmissions (newEvents m (process cfg e m))) _ at hop
    generalize htr : transmissions (newEvents m (process cfg e m)) = tr at *
    generalize nonceReports (newEvents m (step cfg m e .process).1) = nr at *
    clear ho hnew
    have hprep := pickEvent_prep cfg e m
    have hproc : process cfg e m = setNextBandEvent cfg e
      (if (pickEvent e (processBands cfg e m).1 (processBands cfg e m).2).1 = .none
        then (pickEvent e (processBands cfg e m).1 (processBands cfg e m).2).2.2
        else dispatch cfg e (pickEvent e (processBands cfg e m).1 (processBands cfg e m).2).1
          (pickEvent e (processBands cfg e m).1 (processBands cfg e m).2).2.1
          (pickEvent e (processBands cfg e m).1 (processBands cfg e m).2).2.2) := rfl
    generalize (pickEvent e (processBands cfg e m).1 (processBands cfg e m).2).1 = ev at hprep hproc
    generalize (pickEvent e (processBands cfg e m).1 (processBands cfg e m).2).2.1 = lag at hprep hproc
    generalize (pickEvent e (processBands cfg e m).1 (processBands cfg e m).2).2.2 = m1 at hprep hproc
    generalize hm2 : (if ev = .none then m1 else dispatch cfg e ev lag m1) = m2 at hproc
    obtain ⟨p, t, hsn⟩ := setNextBandEvent_shape cfg e m2
    rw [hsn] at hproc
    have q1 : (process cfg e m).state = m2.state := by rw [hproc]
    have q2 : (process cfg e m).tx = m2.tx := by rw [hproc]
    obtain ⟨_, _, _, _, _, _, _, _, _, hme⟩ := hprep.eq
    have hst : m1.state = m.state := by rw [hme]
    have htx : m1.tx = m.tx := by rw [hme]
    have hat : txAirTime m1 = txAirTime m := by rw [hme]; rfl
    have hch : Charges m e ↔ m.state = .tx ∧ (ev = .interrupt ∨ ev = .timerA) := by
      unfold Charges
      refine and_congr_right fun _ => ?_
      rw [← hprep.interrupt]
      constructor
      · rintro (h | h)
        · exact Or.inl h
        · by_cases hi : ev = .interrupt
          · exact Or.inl hi
          · right
            rcases hprep.timerA with ⟨h1, _⟩ | ⟨h1, _⟩
            · exact h1
            · have := hprep.quietA
              cases ev with
              | interrupt => exact absurd rfl hi
              | timerA => exact absurd rfl h1
              | _ => rw [this (by simp)] at h; simp at h
      · rintro (h | h)
        · exact Or.inl h
        · right
          rcases hprep.timerA with ⟨_, h1, _⟩ | ⟨h1, _⟩
          · rw [h1]; rfl
          · exact absurd h h1
    -- whether the handler did nothing
    have hstay : m2 = m1 → ¬ Charges m e → AirStep cfg e m .process (process cfg e m) := by
      intro h hnc
      have hs' : (process cfg e m).state = m.state := by rw [q1, h, hst]
      have htr0 : tr = [] := by
        cases hop with
        | sent _ _ h1 h2 => rw [h1, h2] at hs'; cases hs'
        | _ => rfl
      by_cases hs : m.state = .tx
      · exact .on hs (hs'.trans hs) (fun h => hnc h.2) (by rw [q2, h, htx]) (htr.trans htr0)
      · exact .off hs (by rw [hs']; exact hs) (htr.trans htr0)
    by_cases hn : ev = .none
    · rw [if_pos hn] at hm2
      refine hstay hm2.symm ?_
      rw [hch, hn]; simp
    · rw [if_neg hn] at hm2
      have hd := dispatch_disp cfg e ev lag m1
      rw [hm2] at hd
      by_cases hc : m.state = .tx ∧ (ev = .interrupt ∨ ev = .timerA)
      · have htr0 : tr = [] := hnt (Or.inl (by rw [hc.1]; decide))
        have hs' : m2.state ≠ .tx := by
          rw [← hm2]
          unfold dispatch processTX
          simp only [hst, hc.1]
          rcases hc.2 with he | he <;> subst he
          · simp only [reduceCtorEq, if_false, true_or, if_true, true_and]
            split
            · exact (handleRadioError_cases cfg e _).notTx
            · obtain ⟨_, _, _, _, s, h, h2⟩ := txComplete_shape cfg e lag (registerTime (m1.emit .getStatus))
              show (txComplete cfg e lag (registerTime (m1.emit .getStatus))).state ≠ _
              rw [h]
              rcases h2 with ⟨h2, _⟩ | ⟨h2, _⟩ <;> subst h2 <;> simp
          · simp only [if_true, or_true]
            exact (handleRadioError_cases cfg e _).notTx
        exact .finish rfl hc.1 (q1 ▸ hs') (hch.2 hc) (htr.trans htr0)
      · have hnc : ¬ Charges m e := fun h => hc (hch.1 h)
        rcases hd.onAir with h | ⟨h1, h2⟩ | ⟨h1, h2, h3, h4⟩
        · exact hstay h hnc
        · have htr0 : tr = [] := hnt (Or.inl (hst ▸ h2))
          by_cases hs : m.state = .tx
          · exfalso
            have : m2 = m1 := by
              rw [← hm2]
              unfold dispatch processTX
              simp only [hst, hs]
              have hi : ev ≠ .interrupt := fun h => hc ⟨hs, Or.inl h⟩
              have ha : ev ≠ .timerA := fun h => hc ⟨hs, Or.inr h⟩
              simp only [hi, ha, if_false, or_self, false_and]
            rw [this, hst] at h1
            exact h1 hs
          · exact .off hs (q1 ▸ h1) (htr.trans htr0)
        · refine .start rfl (hst ▸ h1) (q1 ▸ h3) ?_ (by rw [q2, h4, htx, hat])
          rw [htr]
          have hstx : (process cfg e m).state = .tx := q1.trans h3
          rw [hst] at h1
          cases hop with
          | sent => rfl
          | idle ho =>
            exfalso
            unfold OpOk at hm
            rw [h1] at hm
            rcases ho with ho | ho <;> rw [ho] at hm <;> exact absurd hm (by decide)
          | keep _ _ _ _ hl =>
            rw [hstx, h1] at hl; exact absurd hl (by decide)
          | ended ho ho' =>
            exfalso
            have : OpOk (process cfg e m) := process_opOk cfg e m hm
            unfold OpOk at this
            rw [ho', hstx] at this
            exact absurd this (by decide)
          | repeated _ _ _ h => rw [hstx] at h; cases h
          | request _ _ hl => rw [h1] at hl; exact absurd hl (by decide)
          | join _ hc => cases hc
          | send _ _ _ _ _ _ hc => cases hc
  · have htr := newTransmissions cfg e m c (Or.inr hc)
    have ha := step_api cfg e m c hc
    generalize (step cfg m e c).1 = m' at ha htr
    generalize (step cfg m e c).2 = st at ha
    have hno : m.state = .tx → m.op ≠ .none := by
      intro h ho
      unfold OpOk at hm
      rw [h, ho] at hm
      exact absurd hm (by decide)
    have same : m'.state = m.state → m'.tx = m.tx → AirStep cfg e m c m' := by
      intro h1 h2
      by_cases hs : m.state = .tx
      · exact .on hs (h1.trans hs) (fun h => hc h.1) h2 htr
      · exact .off hs (by rw [h1]; exact hs) htr
    cases ha
    case entropyIdle ho hs => exact .off (by rw [hs]; decide) (by simp) htr
    case otaa ho _ m1 hm1 s t hst =>
      have hs : m.state ≠ .tx := fun h => hno h ho
      refine .off hs ?_ htr
      rcases hst with ⟨_, h, _⟩ | ⟨_, h, _⟩
      · show s ≠ _; rw [h]; decide
      · show s ≠ _; rw [h]; exact hs
    case dataRefused ho _ _ => exact .off (fun h => hno h ho) (fun h => hno h ho) htr
    case data ho _ _ _ _ _ _ _ m1 hm1 =>
      obtain ⟨_, _, _, s, _, h, _, hst⟩ := sendData_shape cfg e m1 _ _ _ _ _ _
      have hs : m.state ≠ .tx := fun h => hno h ho
      refine .off hs ?_ htr
      rw [h]
      show s ≠ _
      have : m1.state = m.state := by rw [hm1]
      rcases hst with ⟨_, h, _⟩ | ⟨_, h, _⟩
      · rw [h]; decide
      · rw [h, this]; exact hs
    case forget =>
      have hst : (LDL.forget m).state = (LDL.cancel m).state := by
        obtain ⟨_, _, _, _, _, h⟩ := forget_shape m; rw [h]
      have hct : (LDL.cancel m).state ≠ .tx := by
        rcases cancel_shape m with ⟨h0, h⟩ | ⟨_, h⟩ <;> rw [h]
        · show m.state ≠ _; rcases h0 with h0 | h0 | h0 <;> rw [h0] <;> decide
        · simp
      by_cases hs : m.state = .tx
      · exact .cancelled (Or.inr rfl) hs (hst ▸ hct) htr
      · exact .off hs (hst ▸ hct) htr
    case cancel =>
      have hct : (LDL.cancel m).state ≠ .tx := by
        rcases cancel_shape m with ⟨h0, h⟩ | ⟨_, h⟩ <;> rw [h]
        · show m.state ≠ _; rcases h0 with h0 | h0 | h0 <;> rw [h0] <;> decide
        · simp
      by_cases hs : m.state = .tx
      · exact .cancelled (Or.inl rfl) hs hct htr
      · exact .off hs hct htr
    all_goals exact same rfl rfl

end LDL
