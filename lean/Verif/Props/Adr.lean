import Verif.Spec.Adr
import Verif.Props.Downlink
import Verif.Props.Uplink
import Verif.Lemmas.Live

/-!
# ADR back-off: C48
-/

namespace LDL
open Spec

/-- What ADR back-off depends on and changes. -/
structure AdrView where
  adr : Bool
  limit : Nat
  delay : Nat
  rate : Nat
  power : Nat
  mask : Nat → Nat
  count : Nat
  asks : Bool

/-- The view of a state. -/
def adrView (m : Mac) : AdrView :=
  ⟨m.ctx.adr, m.ctx.adrAckLimit, m.ctx.adrAckDelay, m.ctx.rate, m.ctx.power, m.ctx.chMask, m.adrAckCounter, m.adrAckReq⟩

/-- A step is due. -/
def AdrView.due (v : AdrView) : Prop := v.limit + v.delay ≤ v.count ∧ (v.count - (v.limit + v.delay)) % v.delay = 0

theorem adapt_off {cfg : Cfg} {m : Mac} (h : m.ctx.adr = false ∨ 255 ≤ m.adrAckCounter) :
    adrView (adaptRate cfg m).2 = { adrView m with asks := false } := by
  unfold adaptRate
  simp only []
  by_cases ha : m.ctx.adr = true
  · rw [if_pos ha, if_neg (by rcases h with h | h; rw [h] at ha; cases ha; omega)]
    rfl
  · rw [if_neg ha]; rfl

theorem adapt_quiet {cfg : Cfg} {m : Mac} (ha : m.ctx.adr = true) (hc : m.adrAckCounter < 255) (hd : ¬ (adrView m).due) :
    adrView (adaptRate cfg m).2 =
      { adrView m with asks := decide (m.ctx.adrAckLimit ≤ m.adrAckCounter), count := m.adrAckCounter + 1 } := by
  have hu : u8 (m.adrAckCounter + 1) = m.adrAckCounter + 1 := Nat.mod_eq_of_lt (by omega)
  unfold adaptRate
  simp only []
  rw [if_pos ha, if_pos hc]
  by_cases hl : m.adrAckCounter ≥ m.ctx.adrAckLimit
  · rw [if_pos hl]
    have hn : ¬ (m.adrAckCounter ≥ m.ctx.adrAckLimit + m.ctx.adrAckDelay ∧
        (m.adrAckCounter - (m.ctx.adrAckLimit + m.ctx.adrAckDelay)) % m.ctx.adrAckDelay = 0) := hd
    rw [if_neg hn]
    simp only [adrView, hu]
    rw [decide_eq_true hl]
  · rw [if_neg hl]
    simp only [adrView, hu]
    rw [decide_eq_false (show ¬ m.ctx.adrAckLimit ≤ m.adrAckCounter by omega)]

theorem adapt_step {cfg : Cfg} {m : Mac} (ha : m.ctx.adr = true) (hc : m.adrAckCounter < 255) (hd : (adrView m).due) :
    adrView (adaptRate cfg m).2 =
      if m.ctx.power = 0 then
        if cfg.minRate < m.ctx.rate then { adrView m with asks := true, count := m.adrAckCounter + 1, rate := m.ctx.rate - 1 }
        else { adrView m with asks := true, count := 0, mask := fun _ => 0 }
      else { adrView m with asks := true, count := m.adrAckCounter + 1, power := 0 } := by
  have hu : u8 (m.adrAckCounter + 1) = m.adrAckCounter + 1 := Nat.mod_eq_of_lt (by omega)
  have hn : m.adrAckCounter ≥ m.ctx.adrAckLimit + m.ctx.adrAckDelay ∧
        (m.adrAckCounter - (m.ctx.adrAckLimit + m.ctx.adrAckDelay)) % m.ctx.adrAckDelay = 0 := hd
  unfold adaptRate
  simp only []
  rw [if_pos ha, if_pos hc, if_pos (show m.adrAckCounter ≥ m.ctx.adrAckLimit by omega), if_pos hn]
  by_cases hp : m.ctx.power = 0
  · rw [if_pos hp, if_pos hp]
    by_cases hr : m.ctx.rate > cfg.minRate
    · rw [if_pos hr, if_pos (show cfg.minRate < m.ctx.rate from hr)]
      simp only [adrView, hu]
    · rw [if_neg hr, if_neg (show ¬ cfg.minRate < m.ctx.rate from hr)]
      simp only [adrView, show u8 (255 + 1) = 0 from by decide]
      rfl
  · rw [if_neg hp, if_neg hp]
    simp only [adrView, hu]

/-- `adaptRate` looks at the view only. -/
theorem adapt_congr {cfg : Cfg} {m m' : Mac} (h : adrView m' = adrView m) : adrView (adaptRate cfg m').2 = adrView (adaptRate cfg m).2 := by
  have h1 : m'.ctx.adr = m.ctx.adr := congrArg AdrView.adr h
  have h2 : m'.adrAckCounter = m.adrAckCounter := congrArg AdrView.count h
  have h3 : m'.ctx.power = m.ctx.power := congrArg AdrView.power h
  have h4 : m'.ctx.rate = m.ctx.rate := congrArg AdrView.rate h
  have h5 : m'.ctx.adrAckLimit = m.ctx.adrAckLimit := congrArg AdrView.limit h
  by_cases hoff : m.ctx.adr = false ∨ 255 ≤ m.adrAckCounter
  · rw [adapt_off hoff, adapt_off (by rw [h1, h2]; exact hoff), h]
  · have ha : m.ctx.adr = true := by
      cases hh : m.ctx.adr with
      | true => rfl
      | false => exact absurd (Or.inl hh) hoff
    have hc : m.adrAckCounter < 255 := by omega
    by_cases hd : (adrView m).due
    · rw [adapt_step ha hc hd, adapt_step (h1.trans ha) (h2 ▸ hc) (h ▸ hd), h, h2, h3, h4]
    · rw [adapt_quiet ha hc hd, adapt_quiet (h1.trans ha) (h2 ▸ hc) (h ▸ hd), h, h2, h5]

/-- An uplink was not answered, or nothing of the kind happened. -/
inductive AdrStep (cfg : Cfg) (m m' : Mac) : Prop
  | same (hv : adrView m' = adrView m) (he : uplinksEnded (newEvents m m') = 0)
  | unanswered (hv : adrView m' = adrView (adaptRate cfg m).2) (he : uplinksEnded (newEvents m m') = 1)

theorem uplinksEnded_append (a b : List Event) : uplinksEnded (a ++ b) = uplinksEnded a + uplinksEnded b :=
  List.countP_append ..

theorem AdrStep.quiet {cfg : Cfg} {m m' : Mac} (hv : adrView m' = adrView m) (o : List Event) (ho : m'.out = m.out ++ o)
    (he : uplinksEnded o = 0) : AdrStep cfg m m' := .same hv (by rw [newEvents_append ho]; exact he)

theorem AdrStep.ended {cfg : Cfg} {m m' : Mac} (hv : adrView m' = adrView (adaptRate cfg m).2) (o : List Event) (ho : m'.out = m.out ++ o)
    (he : uplinksEnded o = 1) : AdrStep cfg m m' := .unanswered hv (by rw [newEvents_append ho]; exact he)

theorem AdrStep.after {cfg : Cfg} {m x y : Mac} {o : List Event} (h : AdrStep cfg x y) (hx : ∃ o', y.out = x.out ++ o')
    (hv : adrView x = adrView m) (ho : x.out = m.out ++ o) (he : uplinksEnded o = 0) : AdrStep cfg m y := by
  obtain ⟨o', hy⟩ := hx
  have h1 : newEvents m y = o ++ newEvents x y := by
    rw [newEvents_append hy]
    refine newEvents_append ?_
    rw [hy, ho, List.append_assoc]
  cases h with
  | same g1 g2 => exact .same (g1.trans hv) (by rw [h1, uplinksEnded_append, he, g2])
  | unanswered g1 g2 => exact .unanswered (g1.trans (adapt_congr hv)) (by rw [h1, uplinksEnded_append, he, g2])

theorem missing_adr (cfg : Cfg) (e : Env) (m : Mac) (hj : m.op ≠ .joining) : AdrStep cfg m (downlinkMissing cfg e m) ∧
    ∃ o, (downlinkMissing cfg e m).out = m.out ++ o := by
  have hdata : AdrStep cfg m
      (if shouldRetry e { m with trials := u32 (m.trials + 1) } then
        retryData cfg e { m with trials := u32 (m.trials + 1) } else giveUpData cfg { m with trials := u32 (m.trials + 1) }) ∧
      ∃ o, (if shouldRetry e { m with trials := u32 (m.trials + 1) } then
        retryData cfg e { m with trials := u32 (m.trials + 1) } else
        giveUpData cfg { m with trials := u32 (m.trials + 1) }).out = m.out ++ o := by
    by_cases hr : shouldRetry e { m with trials := u32 (m.trials + 1) } = true
    · rw [if_pos hr]
      exact ⟨.quiet rfl [] (List.append_nil _).symm rfl, [], (List.append_nil _).symm⟩
    · rw [if_neg hr]
      have ha : adrView (adaptRate cfg { m with trials := u32 (m.trials + 1) }).2 = adrView (adaptRate cfg m).2 := adapt_congr rfl
      obtain ⟨ch, r, p, c, q, hs⟩ := adaptRate_shape cfg { m with trials := u32 (m.trials + 1) }
      have hout : (adaptRate cfg { m with trials := u32 (m.trials + 1) }).2.out = m.out := by rw [hs]
      unfold giveUpData
      simp only []
      generalize adaptRate cfg { m with trials := u32 (m.trials + 1) } = rr at *
      obtain ⟨b, y⟩ := rr
      simp only [] at ha hout ⊢
      cases b with
      | true =>
        have ho : ({ (pushSessionUpdate y).emit
          (if (pushSessionUpdate y).op = .dataConfirmed then .dataTimeout else .dataComplete) with
            state := .idle, op := .none } : Mac).out = m.out ++ ([.sessionUpdated y.ctx] ++
            [if (pushSessionUpdate y).op = .dataConfirmed then .dataTimeout else .dataComplete]) := by
          show y.out ++ _ ++ _ = _
          rw [hout, List.append_assoc]
        refine ⟨.ended ha _ ho ?_, _, ho⟩
        split <;> rfl
      | false =>
        have ho : ({ y.emit (if y.op = .dataConfirmed then .dataTimeout else .dataComplete) with
            state := .idle, op := .none } : Mac).out = m.out ++
            [if y.op = .dataConfirmed then .dataTimeout else .dataComplete] := by
          show y.out ++ _ = _
          rw [hout]
        refine ⟨.ended ha _ ho ?_, _, ho⟩
        split <;> rfl
  unfold downlinkMissing
  simp only []
  cases hop : m.op with
  | joining => exact absurd hop hj
  | dataUnconfirmed => rw [hop] at hdata; exact hdata
  | dataConfirmed => rw [hop] at hdata; exact hdata
  | _ => exact ⟨.quiet rfl [] (List.append_nil _).symm rfl, [], (List.append_nil _).symm⟩

/-- If a packet is waiting for a device in a data operation, it is not one of the network: its octets fail the check of
the specification (as in C15). -/
def NotHeard (cfg : Cfg) (m : Mac) (e : Env) : Prop :=
  Receiving m e → DataOp m → KeysOk cfg m ∧ e.received.length ≠ 244 ∧
    ¬ authenticOctets cfg.E (sess11 cfg m) (deviceKeys cfg m) m.ctx.devAddr (leValue ((e.received.drop 6).take 2))
      (m.tx.counter % 65536) e.received

/-- The network is not heard during some calls. -/
def Unheard (cfg : Cfg) : Mac → List (Env × Call) → Prop
  | _, [] => True
  | m, (e, c) :: rest => (c = .process → NotHeard cfg m e) ∧ Unheard cfg (step cfg m e c).1 rest

theorem joined_step {cfg : Cfg} {m : Mac} (hr : Reachable cfg m) (hj : m.ctx.joined = true) (e : Env) (c : Call)
    (hc : c ≠ .forget) : (step cfg m e c).1.ctx.joined = true := by
  have hk := step_keys cfg e m c hr.globalOk.unjoined
  cases hk with
  | quiet hq hr =>
    rcases hr hj with h | h
    · exact h
    · exact absurd h hc
  | abp a hc hk ho' =>
    subst hc
    show (LDL.abp m a).1.ctx.joined = true
    unfold LDL.abp
    rw [if_pos hj]
    exact hj
  | otaa _ _ hj' => rw [hj] at hj'; cases hj'
  | join f buf hj' hc hk ho' hev =>
    obtain ⟨_, _, _, _, _, h'⟩ := joinSession_shape cfg m f buf
    rw [hc, h']

theorem process_adr {cfg : Cfg} (hE : ∀ k, BlockFn (cfg.E k)) {m : Mac} (hr : Reachable cfg m)
    (hnj : m.op ≠ .joining) (e : Env) (hn : NotHeard cfg m e) : AdrStep cfg m (process cfg e m) := by
  have hnr : m.state = .rx1 ∨ m.state = .rx2 → m.op ≠ .rejoining := by
    intro hs h
    have := hr.reach.opOk
    unfold OpOk at this
    rw [h] at this
    rcases hs with hs | hs <;> rw [hs] at this <;> simp [opAllowed] at this
  have prep : ∀ {ev lag} {x : Mac}, Prep e m x ev lag → adrView x = adrView m ∧ x.op = m.op ∧ x.state = m.state ∧
      (∃ o, x.out = m.out ++ o ∧ uplinksEnded o = 0) := by
    intro ev lag x hp
    have ho : ∃ o, x.out = m.out ++ o ∧ uplinksEnded o = 0 := by
      rcases hp.out with h | h
      · exact ⟨[], by rw [h, List.append_nil], rfl⟩
      · exact ⟨_, h, rfl⟩
    obtain ⟨_, _, _, _, _, _, _, _, _, h⟩ := hp.eq
    refine ⟨?_, ?_, ?_, ho⟩ <;> rw [h] <;> rfl
  -- the clock of the bands does not matter
  have tail : ∀ {y : Mac} (p t), AdrStep cfg m y → AdrStep cfg m { y with parked := p, timerBand := t } := by
    intro y p t h
    cases h with
    | same h1 h2 => exact .same h1 h2
    | unanswered h1 h2 => exact .unanswered h1 h2
  have miss : ∀ {x y : Mac} {o : List Event}, y.op = m.op → adrView y = adrView m → y.out = m.out ++ o →
      uplinksEnded o = 0 → AdrStep cfg m (downlinkMissing cfg e y) := by
    intro x y o h1 h2 h3 h4
    have := missing_adr cfg e y (by rw [h1]; exact hnj)
    exact this.1.after this.2 h2 h3 h4
  have pstate : ∀ {ev lag} {x : Mac}, Prep e m x ev lag → AdrStep cfg m (downlinkMissing cfg e (packetState e x)) := by
    intro ev lag x hp
    obtain ⟨h1, h2, _, o, h4, h5⟩ := prep hp
    refine miss (x := x) (o := o ++ [.getStatus, .readBuffer, .setMode .sleep]) h2 h1 ?_ ?_
    · show x.out ++ [.getStatus] ++ [.readBuffer] ++ [.setMode .sleep] = _
      rw [h4]
      simp only [List.append_assoc, List.cons_append, List.nil_append]
    · rw [uplinksEnded_append, h5]; rfl
  by_cases hrx : Receiving m e ∧ DataOp m
  · obtain ⟨lag, x, p, t, hp, h⟩ := receiving (cfg := cfg) hrx.1
    obtain ⟨hk, hne, hna⟩ := hn hrx.1 hrx.2
    rw [← conf_eq hr hrx.2] at hna
    obtain ⟨tl, ht⟩ := rxBuffer_eq e
    have hs := hr.sessionOk
    rw [h]
    cases hcase : Ops.receiveFrame cfg m e.rxBuffer e.received.length with
    | mk f buf =>
      cases f with
      | some f =>
        exfalso
        rw [ht] at hcase
        exact hna (receive_authentic hE hk ⟨hs.appDown, hs.nwkDown⟩ hrx.2 (received_length e) hne hcase)
      | none => exact tail p t (pstate hp)
  · obtain ⟨ev, lag, m1, m2, p, t, hp, hd, h⟩ := process_disp cfg e m
    rw [h]
    refine tail p t ?_
    obtain ⟨h1, h2, h3, o, h4, h5⟩ := prep hp
    have add : ∀ {y : Mac} (o' : List Event), adrView y = adrView m1 → y.out = m1.out ++ o' → uplinksEnded o' = 0 →
        AdrStep cfg m y := by
      intro y o' g1 g2 g3
      refine .quiet (g1.trans h1) (o ++ o') ?_ ?_
      · rw [g2, h4, List.append_assoc]
      · rw [uplinksEnded_append, h5, g3]
    have err : ∀ {x y : Mac} (o' : List Event), RadioErr cfg e x y → x.op = m1.op → adrView x = adrView m1 →
        x.out = m1.out ++ o' → uplinksEnded o' = 0 → AdrStep cfg m y := by
      intro x y o' g g1 g2 g3 g4
      cases g with
      | op _ =>
        refine add (o' ++ [.opError] ++ [.setMode .reset]) g2 ?_ ?_
        · show x.out ++ _ ++ _ = _
          rw [g3]; simp only [List.append_assoc]
        · rw [uplinksEnded_append, uplinksEnded_append, g4]; rfl
      | nextJoin ho => exact absurd (h2 ▸ g1 ▸ ho) hnj
      | exhausted ho => exact absurd (h2 ▸ g1 ▸ ho) hnj
    rcases hd with ⟨_, rfl⟩ | ⟨_, hd⟩
    · exact add [] rfl (List.append_nil _).symm rfl
    · cases hd with
      | stay => exact add [] rfl (List.append_nil _).symm rfl
      | otaa => exact add [] rfl (List.append_nil _).symm rfl
      | startTX => exact add [transmitEvent e m1] rfl rfl rfl
      | startRX1 => exact add [receive1Event e m1] rfl rfl rfl
      | startRX2 => exact add [receive2Event e m1] rfl rfl rfl
      | txError hs he =>
        obtain ⟨b, hb⟩ := registerTime_shape (statusRead ev m1)
        rw [hb]
        by_cases hi : ev = .interrupt
        · unfold statusRead
          rw [if_pos hi]
          exact err [.getStatus] (handleRadioError_cases cfg e _) rfl rfl rfl rfl
        · unfold statusRead
          rw [if_neg hi]
          exact err [] (handleRadioError_cases cfg e _) rfl rfl (List.append_nil _).symm rfl
      | txDone =>
        obtain ⟨b, hb⟩ := registerTime_shape (m1.emit .getStatus)
        obtain ⟨_, _, _, _, _, hx, _⟩ := txComplete_shape cfg e lag (registerTime (m1.emit .getStatus))
        rw [hx, hb]
        exact add ([.getStatus] ++ [.setMode .hold]) rfl (List.append_assoc ..) rfl
      | rxError => exact err [.getStatus] (handleRadioError_cases cfg e _) rfl rfl rfl rfl
      | rxRejected => exact pstate hp
      | rxJoin hs he hr' f buf hf ht ho =>
        exact absurd ho (by rw [h2]; exact fun h => h.elim hnj (hnr (h3 ▸ hs)))
      | rxData hs he hr' f buf hf ht ho =>
        rw [h2] at ho
        rw [h3] at hs
        refine absurd ⟨⟨hs, hp.interrupt.1 he, hr'⟩, ?_⟩ hrx
        exact ho.elim (fun h => absurd h (hnr hs)) id
      | rxTimeout1 => exact add ([.getStatus] ++ [.setMode .hold]) rfl (List.append_assoc ..) rfl
      | rxTimeout2 => exact add ([.getStatus] ++ [.setMode .sleep]) rfl (List.append_assoc ..) rfl
      | lockout => exact miss (x := m1) h2 h1 h4 h5
      | _ => exact add _ rfl rfl rfl

theorem step_adr {cfg : Cfg} (hE : ∀ k, BlockFn (cfg.E k)) {m : Mac} (hr : Reachable cfg m) (hj : m.ctx.joined = true)
    (e : Env) (c : Call) (hc : ¬ changesAdr c) (hn : c = .process → NotHeard cfg m e) : AdrStep cfg m (step cfg m e c).1 := by
  by_cases hp : c = .process
  · subst hp
    refine process_adr hE hr ?_ e (hn rfl)
    intro h
    have := hr.globalOk.unjoined h
    rw [hj] at this
    cases this
  · have ha := step_api cfg e m c hp
    generalize (step cfg m e c).1 = m' at *
    generalize (step cfg m e c).2 = st at *
    have same : ∀ {y : Mac}, adrView y = adrView m → y.out = m.out → AdrStep cfg m y := fun h1 h2 =>
      .quiet h1 [] (by rw [h2, List.append_nil]) rfl
    cases ha with
    | otaa hj' => rw [hj] at hj'; cases hj'
    | abp hj' => rw [hj] at hj'; cases hj'
    | data _ _ _ _ o _ _ _ _ _ _ _ _ _ m1 hm =>
      obtain ⟨_, _, _, _, _, h, _⟩ := sendData_shape cfg e m1 _ _ _ _ _ _
      rw [h]
      obtain ⟨pc, hpc⟩ := (putAnswers_inv cfg { m1.ctx with up := u32 (m1.ctx.up + 1) } (dataOptions o)).session
      have hu : (uplinkAnswers cfg m1 (dataOptions o)).2 =
        { m1.ctx with up := u32 (m1.ctx.up + 1), pendingCmds := pc } := hpc
      rw [hu]
      have hctx : m1.ctx = m.ctx := by rw [hm]
      have ho : m1.out = m.out := by rw [hm]
      have h1 : m1.adrAckCounter = m.adrAckCounter := by rw [hm]
      have h2 : m1.adrAckReq = m.adrAckReq := by rw [hm]
      refine .quiet ?_ [_] (congrArg (· ++ _) ho) rfl
      simp only [adrView, hctx, h1, h2]
    | forget => exact absurd trivial hc
    | cancel =>
      rcases cancel_shape m with ⟨_, h⟩ | ⟨_, h⟩ <;> rw [h]
      · refine .quiet rfl _ rfl ?_
        split <;> rfl
      · refine .quiet rfl _ rfl ?_
        split <;> rfl
    | setRate => exact absurd trivial hc
    | setPower => exact absurd trivial hc
    | setADR => exact absurd trivial hc
    | maskChannel => exact absurd trivial hc
    | unmaskChannel => exact absurd trivial hc
    | setMaxDCycle => exact .quiet rfl [_] rfl rfl
    | addChannel ch f a b =>
      obtain ⟨cc, h⟩ := setChannel_shape m.ctx ch f a b
      rw [h]
      exact same rfl rfl
    | _ => exact same rfl rfl

/-! ## The closed form -/

theorem adrSteps_succ {limit delay k : Nat} (hd : 0 < delay) :
    adrSteps limit delay (k + 1) = adrSteps limit delay k +
      if limit + delay ≤ k ∧ (k - (limit + delay)) % delay = 0 then 1 else 0 := by
  unfold adrSteps
  rw [Nat.add_sub_cancel]
  by_cases hk : limit < k
  · obtain ⟨j, rfl⟩ : ∃ j, k = limit + (j + 1) := ⟨k - limit - 1, by omega⟩
    have e1 : limit + (j + 1) - limit = j + 1 := by omega
    have e2 : limit + (j + 1) - 1 - limit = j := by omega
    rw [e1, e2, Nat.succ_div]
    congr 1
    by_cases hdv : delay ∣ j + 1
    · have hle := Nat.le_of_dvd (by omega) hdv
      rw [if_pos hdv, if_pos]
      refine ⟨by omega, ?_⟩
      have e3 : limit + (j + 1) - (limit + delay) = j + 1 - delay := by omega
      rw [e3]
      exact Nat.mod_eq_zero_of_dvd (Nat.dvd_sub hdv (Nat.dvd_refl _))
    · rw [if_neg hdv, if_neg]
      rintro ⟨h1, h2⟩
      have e3 : limit + (j + 1) - (limit + delay) = j + 1 - delay := by omega
      rw [e3] at h2
      apply hdv
      have := Nat.dvd_add (Nat.dvd_of_mod_eq_zero h2) (Nat.dvd_refl delay)
      rwa [Nat.sub_add_cancel (by omega)] at this
  · have e1 : k - limit = 0 := by omega
    have e2 : k - 1 - limit = 0 := by omega
    rw [e1, e2, if_neg (by omega), Nat.add_zero]

/-- The view after `k` unanswered uplinks from `v`. -/
def adrAfter (low : Nat) (v : AdrView) (k : Nat) : AdrView :=
  let n := adrSteps v.limit v.delay k
  { v with
    power := backoffPower v.power n
    rate := backoffRate low v.power v.rate n
    mask := if n = lastStep low v.power v.rate then fun _ => 0 else v.mask
    count := if n = lastStep low v.power v.rate then 0 else k
    asks := if k = 0 then v.asks else decide (v.limit < k) }

theorem backoffRate_eq (low power rate n : Nat) :
    backoffRate low power rate n = rate - min (n - powerSteps power) (rate - low) := by
  unfold backoffRate
  split <;> omega

theorem adrAfter_succ {cfg : Cfg} {low : Nat} (hlow : low = cfg.minRate) {v : AdrView} {m : Mac} {k : Nat} (ha : v.adr = true) (hd : 0 < v.delay)
    (hm : adrView m = adrAfter low v k) (h255 : k < 255) (hk : k ≤ v.limit + v.delay * lastStep low v.power v.rate) :
    adrView (adaptRate cfg m).2 = adrAfter low v (k + 1) := by
  have hlt : adrSteps v.limit v.delay k < lastStep low v.power v.rate := by
    unfold adrSteps
    rw [Nat.div_lt_iff_lt_mul hd, Nat.mul_comm]
    have : 0 < v.delay * lastStep low v.power v.rate := Nat.mul_pos hd (by unfold lastStep; omega)
    omega
  have hsucc := adrSteps_succ (limit := v.limit) (k := k) hd
  unfold adrAfter at hm ⊢
  simp only [] at hm ⊢
  rw [if_neg (by omega), if_neg (by omega)] at hm
  have h1 : m.ctx.adr = v.adr := congrArg AdrView.adr hm
  have h2 : m.adrAckCounter = k := congrArg AdrView.count hm
  have h3 : m.ctx.power = backoffPower v.power (adrSteps v.limit v.delay k) := congrArg AdrView.power hm
  have h4 : m.ctx.rate = backoffRate low v.power v.rate (adrSteps v.limit v.delay k) := congrArg AdrView.rate hm
  have h5 : m.ctx.adrAckLimit = v.limit := congrArg AdrView.limit hm
  have hdue : (adrView m).due ↔ (v.limit + v.delay ≤ k ∧ (k - (v.limit + v.delay)) % v.delay = 0) := by
    unfold AdrView.due
    rw [hm]
  generalize adrSteps v.limit v.delay k = n at *
  by_cases hdu : v.limit + v.delay ≤ k ∧ (k - (v.limit + v.delay)) % v.delay = 0
  · rw [if_pos hdu] at hsucc
    rw [adapt_step (h1.trans ha) (by omega) (hdue.2 hdu), hsucc, h2, h3, h4, hm, ← hlow]
    have hask : (if k + 1 = 0 then v.asks else decide (v.limit < k + 1)) = true := by
      rw [if_neg (by omega)]
      exact decide_eq_true (by omega)
    rw [hask]
    rw [backoffRate_eq, backoffRate_eq]
    unfold backoffPower lastStep powerSteps at *
    obtain ⟨va, vl, vd, vr, vp, vm, vc, vk⟩ := v
    simp only [] at *
    by_cases hp : vp = 0
    · subst hp
      simp only [if_true, Nat.zero_add, Nat.sub_zero, ite_self] at *
      by_cases hr : low < vr - min n (vr - low)
      · rw [if_pos hr, if_neg (by omega), if_neg (by omega)]
        simp only [AdrView.mk.injEq, true_and, and_true]
        omega
      · rw [if_neg hr, if_pos (by omega), if_pos (by omega)]
        simp only [AdrView.mk.injEq, true_and, and_true]
        omega
    · have hq : 0 < vp := Nat.pos_of_ne_zero hp
      simp only [hp, if_false] at *
      by_cases hn : n = 0
      · subst hn
        rw [if_pos rfl, if_neg (show ¬ vp = 0 by omega), if_neg (show 0 + 1 ≠ 0 by omega),
          if_neg (show ¬ 0 + 1 = 1 + (vr - low) + 1 by omega), if_neg (show ¬ 0 + 1 = 1 + (vr - low) + 1 by omega)]
      · rw [if_neg hn, if_pos rfl, if_neg (show n + 1 ≠ 0 by omega)]
        by_cases hr : low < vr - min (n - 1) (vr - low)
        · rw [if_pos hr, if_neg (by omega), if_neg (by omega)]
          simp only [AdrView.mk.injEq, true_and, and_true]
          omega
        · rw [if_neg hr, if_pos (by omega), if_pos (by omega)]
          simp only [AdrView.mk.injEq, true_and, and_true]
          omega
  · rw [if_neg hdu] at hsucc
    have hs' : adrSteps v.limit v.delay (k + 1) = n := hsucc
    rw [adapt_quiet (h1.trans ha) (by omega) (fun h => hdu (hdue.1 h)), hs', hm, h2, h5,
      if_neg (show ¬ n = lastStep low v.power v.rate by omega), if_neg (show ¬ n = lastStep low v.power v.rate by omega)]
    rw [if_neg (show ¬ k + 1 = 0 by omega)]
    simp only [AdrView.mk.injEq, true_and, decide_eq_decide]
    omega

theorem newEvents_trans {m x y : Mac} (h1 : ∃ o, x.out = m.out ++ o) (h2 : ∃ o, y.out = x.out ++ o) :
    newEvents m y = newEvents m x ++ newEvents x y := by
  obtain ⟨a, ha⟩ := h1
  obtain ⟨b, hb⟩ := h2
  rw [newEvents_append ha, newEvents_append hb]
  refine newEvents_append ?_
  rw [hb, ha, List.append_assoc]

theorem step_grows (cfg : Cfg) (m : Mac) (e : Env) (c : Call) : ∃ o, (step cfg m e c).1.out = m.out ++ o := by
  obtain ⟨l, h, _⟩ := step_emits cfg e m c
  exact ⟨l, h⟩

theorem run_grows (cfg : Cfg) (m : Mac) (calls : List (Env × Call)) : ∃ o, (run cfg m calls).out = m.out ++ o := by
  induction calls generalizing m with
  | nil => exact ⟨[], (List.append_nil _).symm⟩
  | cons x rest ih =>
    obtain ⟨a, ha⟩ := step_grows cfg m x.1 x.2
    obtain ⟨b, hb⟩ := ih (step cfg m x.1 x.2).1
    refine ⟨a ++ b, ?_⟩
    show (run cfg (step cfg m x.1 x.2).1 rest).out = _
    rw [hb, ha, List.append_assoc]

theorem backoff {cfg : Cfg} {low : Nat} (hlow : low = cfg.minRate) (hE : ∀ k, BlockFn (cfg.E k)) {v : AdrView} (ha : v.adr = true) (hd : 0 < v.delay)
    (calls : List (Env × Call)) (hw : ∀ x ∈ calls, x.2.WF) (hc : ∀ x ∈ calls, ¬ changesAdr x.2) (k : Nat) {m : Mac}
    (hr : Reachable cfg m) (hj : m.ctx.joined = true) (hm : adrView m = adrAfter low v k) (hu : Unheard cfg m calls)
    (hk : k + uplinksEnded (newEvents m (run cfg m calls)) ≤ 255)
    (hl : k + uplinksEnded (newEvents m (run cfg m calls)) ≤ v.limit + v.delay * lastStep low v.power v.rate + 1) :
    adrView (run cfg m calls) = adrAfter low v (k + uplinksEnded (newEvents m (run cfg m calls))) := by
  induction calls generalizing m k with
  | nil =>
    have : newEvents m (run cfg m []) = [] := newEvents_append (List.append_nil _).symm
    rw [this]
    exact hm
  | cons x rest ih =>
    obtain ⟨e, c⟩ := x
    have hcw := hc (e, c) (by simp)
    have hs := step_adr hE hr hj e c hcw hu.1
    have hj' := joined_step hr hj e c (fun h => hcw (by rw [h]; trivial))
    have hr' : Reachable cfg (step cfg m e c).1 := .step e c hr (hw (e, c) (by simp))
    have hrun : run cfg m ((e, c) :: rest) = run cfg (step cfg m e c).1 rest := rfl
    have hev : newEvents m (run cfg m ((e, c) :: rest)) =
        newEvents m (step cfg m e c).1 ++ newEvents (step cfg m e c).1 (run cfg (step cfg m e c).1 rest) := by
      rw [hrun]
      exact newEvents_trans (step_grows cfg m e c) (run_grows cfg _ rest)
    have hu' := hu.2
    rw [hev, uplinksEnded_append] at hk hl ⊢
    rw [hrun]
    have hih := fun k => ih (fun x hx => hw x (by simp [hx])) (fun x hx => hc x (by simp [hx])) k hr' hj'
    generalize (step cfg m e c).1 = m' at *
    cases hs with
    | same h1 h2 =>
      rw [h2] at hk hl ⊢
      rw [Nat.zero_add] at hk hl ⊢
      exact hih k (h1.trans hm) hu' hk hl
    | unanswered h1 h2 =>
      rw [h2] at hk hl ⊢
      rw [← Nat.add_assoc] at hk hl ⊢
      exact hih (k + 1) (h1.trans (adrAfter_succ hlow ha hd hm (by omega) (by omega))) hu' hk hl

/-! ## C48 -/

/-- The counter of unanswered uplinks starts at nought. -/
theorem c48_start (cfg : Cfg) (region : Region) (arg : InitArg) (e : Env) :
    (init cfg region arg e).adrAckCounter = 0 ∧ (init cfg region arg e).adrAckReq = false := by
  obtain ⟨_, _, h, _⟩ := init_fields cfg region arg e
  rw [h]
  exact ⟨rfl, rfl⟩

/-- An authentic downlink starts the count again, and ends the request. -/
theorem c48_answered {cfg : Cfg} (hE : ∀ k, BlockFn (cfg.E k)) {m : Mac} {e : Env} (hr : Reachable cfg m)
    (hk : KeysOk cfg m) (hrx : Receiving m e) (ho : DataOp m) (f : DataFrame) (hf : LegalDown m f) (fcnt : Nat)
    (hc : fcnt < 65536)
    (hp : e.packet = sendDown cfg.E (sess11 cfg m) (deviceKeys cfg m) (m.tx.counter % 65536) fcnt f)
    (hl : e.packet.length ≤ 255) (hne : e.packet.length ≠ 244) :
    (process cfg e m).adrAckCounter = 0 ∧ (process cfg e m).adrAckReq = false := by
  have hs := hr.sessionOk
  have hrec : e.received = e.packet := List.take_of_length_le hl
  obtain ⟨h1, h2⟩ := open_send hE (m := m) (sess11 cfg m) (deviceKeys cfg m) fcnt (m.tx.counter % 65536) hc hs.devAddr hf
  have hd : Delivered cfg m e { confirmed := decide (f.mtype = 5), ack := f.ack, pending := f.fPending, fopts := f.fopts
                                payload := f.payload } := by
    unfold Delivered
    rw [conf_eq hr ho, hrec, hp, h2, Stream.leValue_le, Nat.mod_eq_of_lt (by simpa using hc)]
    exact h1
  obtain ⟨lag, x, p, t, hpr, h⟩ := delivered hE hk ⟨hs.appDown, hs.nwkDown⟩ hrx ho (by rw [hrec]; exact hne) hd
  obtain ⟨c, o, hsh, _⟩ := deliver_shape cfg e (packetState e x)
    { confirmed := decide (f.mtype = 5), ack := f.ack, pending := f.fPending, fopts := f.fopts, payload := f.payload }
  rw [h, hsh]
  exact ⟨rfl, rfl⟩

/-- The number of uplinks between two steps is never nought. -/
theorem c48_delay_positive {cfg : Cfg} {m : Mac} (hr : Reachable cfg m) : 0 < m.ctx.adrAckDelay := by
  obtain ⟨k, _, h⟩ := hr.sessionOk.adrAckDelay
  rw [h]
  exact Nat.pow_pos (by decide)

theorem adr_closed {cfg : Cfg} (hE : ∀ k, BlockFn (cfg.E k)) {m : Mac} (hr : Reachable cfg m)
    (hj : m.ctx.joined = true) (ha : m.ctx.adr = true) (h0 : m.adrAckCounter = 0) (calls : List (Env × Call))
    (hw : ∀ x ∈ calls, x.2.WF) (hc : ∀ x ∈ calls, ¬ changesAdr x.2) (hu : Unheard cfg m calls) (k : Nat)
    (hk : k = uplinksEnded (newEvents m (run cfg m calls))) (h255 : k ≤ 255)
    (hl : k ≤ m.ctx.adrAckLimit + m.ctx.adrAckDelay * lastStep (lowest cfg) m.ctx.power m.ctx.rate + 1) :
    adrView (run cfg m calls) = adrAfter (lowest cfg) (adrView m) k := by
  have hd : 0 < (adrView m).delay := c48_delay_positive hr
  have hz : adrSteps (adrView m).limit (adrView m).delay 0 = 0 := by
    unfold adrSteps
    rw [show 0 - 1 - (adrView m).limit = 0 by omega, Nat.zero_div]
  have hv : adrView m = adrAfter (lowest cfg) (adrView m) 0 := by
    unfold adrAfter
    simp only [hz]
    rw [if_neg (by unfold lastStep; omega), if_neg (by unfold lastStep; omega)]
    have e1 : (adrView m).count = 0 := h0
    have e2 : backoffPower (adrView m).power 0 = (adrView m).power := rfl
    have e3 : backoffRate (lowest cfg) (adrView m).power (adrView m).rate 0 = (adrView m).rate := by
      rw [backoffRate_eq]
      omega
    rw [e2, e3, if_pos trivial]
    conv => rhs; rw [← e1]
  have h := backoff (low := lowest cfg) rfl hE (v := adrView m) ha hd calls hw hc 0 hr hj hv hu (by rw [Nat.zero_add, ← hk]; exact h255)
    (by rw [Nat.zero_add, ← hk]; exact hl)
  rw [Nat.zero_add, ← hk] at h
  exact h

/-- **C48**: from a state where no unanswered uplink has been counted, with ADR on, after `k` uplinks that ended without
anything heard from the network, the power and the rate are those of the specification, all channels are enabled exactly
if the last step has been taken, and the next uplink asks for an answer exactly if `k` is more than the limit
(`c48_asks`).  All other calls of the application may be interleaved, except those that change the rate, the power, ADR
or the channel mask, or drop the session.  Partial: up to the 255th unanswered uplink (`c48_stuck`) and up to the last
step, where the count starts again (`c48_starts_again`). -/
theorem c48_backoff_partial {cfg : Cfg} (hE : ∀ k, BlockFn (cfg.E k)) {m : Mac} (hr : Reachable cfg m)
    (hj : m.ctx.joined = true) (ha : m.ctx.adr = true) (h0 : m.adrAckCounter = 0) (calls : List (Env × Call))
    (hw : ∀ x ∈ calls, x.2.WF) (hc : ∀ x ∈ calls, ¬ changesAdr x.2) (hu : Unheard cfg m calls) (k : Nat)
    (hk : k = uplinksEnded (newEvents m (run cfg m calls))) (h255 : k ≤ 255)
    (hl : k ≤ m.ctx.adrAckLimit + m.ctx.adrAckDelay * lastStep (lowest cfg) m.ctx.power m.ctx.rate + 1) :
    let m' := run cfg m calls
    let n := adrSteps m.ctx.adrAckLimit m.ctx.adrAckDelay k
    m'.ctx.power = backoffPower m.ctx.power n ∧ m'.ctx.rate = backoffRate (lowest cfg) m.ctx.power m.ctx.rate n ∧
    m'.ctx.chMask = (if n = lastStep (lowest cfg) m.ctx.power m.ctx.rate then fun _ => 0 else m.ctx.chMask) ∧
    (0 < k → m'.adrAckReq = decide (m.ctx.adrAckLimit < k)) := by
  have h := adr_closed hE hr hj ha h0 calls hw hc hu k hk h255 hl
  refine ⟨congrArg AdrView.power h, congrArg AdrView.rate h, congrArg AdrView.mask h, fun h1 => ?_⟩
  have := congrArg AdrView.asks h
  unfold adrAfter at this
  simp only [] at this
  rw [if_neg (by omega)] at this
  exact this

/-- After the last step the count starts again, so that `c48_backoff_partial` applies again. -/
theorem c48_starts_again {cfg : Cfg} (hE : ∀ k, BlockFn (cfg.E k)) {m : Mac} (hr : Reachable cfg m)
    (hj : m.ctx.joined = true) (ha : m.ctx.adr = true) (h0 : m.adrAckCounter = 0) (calls : List (Env × Call))
    (hw : ∀ x ∈ calls, x.2.WF) (hc : ∀ x ∈ calls, ¬ changesAdr x.2) (hu : Unheard cfg m calls) (k : Nat)
    (hk : k = uplinksEnded (newEvents m (run cfg m calls))) (h255 : k ≤ 255)
    (hl : k = m.ctx.adrAckLimit + m.ctx.adrAckDelay * lastStep (lowest cfg) m.ctx.power m.ctx.rate + 1) :
    (run cfg m calls).adrAckCounter = 0 ∧ (run cfg m calls).ctx.adr = true ∧ (run cfg m calls).ctx.power = 0 ∧
      (run cfg m calls).ctx.rate = min m.ctx.rate (lowest cfg) := by
  have h := adr_closed hE hr hj ha h0 calls hw hc hu k hk h255 (Nat.le_of_eq hl)
  have hd := c48_delay_positive hr
  have hn : adrSteps (adrView m).limit (adrView m).delay k = lastStep (lowest cfg) (adrView m).power (adrView m).rate := by
    show (k - 1 - m.ctx.adrAckLimit) / m.ctx.adrAckDelay = lastStep (lowest cfg) m.ctx.power m.ctx.rate
    rw [show k - 1 - m.ctx.adrAckLimit = m.ctx.adrAckDelay * lastStep (lowest cfg) m.ctx.power m.ctx.rate by omega,
      Nat.mul_div_cancel_left _ hd]
  unfold adrAfter at h
  simp only [hn, if_true] at h
  refine ⟨congrArg AdrView.count h, (congrArg AdrView.adr h).trans ha, (congrArg AdrView.power h).trans ?_,
    (congrArg AdrView.rate h).trans ?_⟩
  · unfold backoffPower lastStep
    simp only []
    refine if_neg ?_
    omega
  · show backoffRate (lowest cfg) m.ctx.power m.ctx.rate (lastStep (lowest cfg) m.ctx.power m.ctx.rate) = _
    rw [backoffRate_eq]
    unfold lastStep
    omega

/-- The back-off stops: once 255 unanswered uplinks are counted, the rate, the power and the channels stay as they are
whatever the number of further unanswered uplinks, and from the next one on the device does not ask for an answer any
more.  With the default limit 64 and delay 32 only five steps are taken before that. -/
theorem c48_stuck {cfg : Cfg} (hE : ∀ k, BlockFn (cfg.E k)) {m : Mac} (hr : Reachable cfg m)
    (hj : m.ctx.joined = true) (h0 : m.adrAckCounter = 255) (calls : List (Env × Call)) (hw : ∀ x ∈ calls, x.2.WF)
    (hc : ∀ x ∈ calls, ¬ changesAdr x.2) (hu : Unheard cfg m calls) :
    let m' := run cfg m calls
    m'.ctx.power = m.ctx.power ∧ m'.ctx.rate = m.ctx.rate ∧ m'.ctx.chMask = m.ctx.chMask ∧
    (m'.adrAckReq = true → m.adrAckReq = true ∧ uplinksEnded (newEvents m m') = 0) := by
  have h : (adrView (run cfg m calls) = adrView m ∧ uplinksEnded (newEvents m (run cfg m calls)) = 0) ∨
      adrView (run cfg m calls) = { adrView m with asks := false } := by
    induction calls generalizing m with
    | nil => exact Or.inl ⟨rfl, by rw [show newEvents m (run cfg m []) = [] from newEvents_append (List.append_nil _).symm]; rfl⟩
    | cons x rest ih =>
      obtain ⟨e, c⟩ := x
      have hcw := hc (e, c) (by simp)
      have hs := step_adr hE hr hj e c hcw hu.1
      have hj' := joined_step hr hj e c (fun h => hcw (by rw [h]; trivial))
      have hr' : Reachable cfg (step cfg m e c).1 := .step e c hr (hw (e, c) (by simp))
      have hrun : run cfg m ((e, c) :: rest) = run cfg (step cfg m e c).1 rest := rfl
      have hev : newEvents m (run cfg m ((e, c) :: rest)) =
          newEvents m (step cfg m e c).1 ++ newEvents (step cfg m e c).1 (run cfg (step cfg m e c).1 rest) := by
        rw [hrun]
        exact newEvents_trans (step_grows cfg m e c) (run_grows cfg _ rest)
      have hu' := hu.2
      rw [hev, uplinksEnded_append, hrun]
      have hih := fun h0 => ih hr' hj' h0 (fun x hx => hw x (by simp [hx])) (fun x hx => hc x (by simp [hx])) hu'
      generalize (step cfg m e c).1 = m' at *
      cases hs with
      | same h1 h2 =>
        have h0' : m'.adrAckCounter = 255 := (congrArg AdrView.count h1).trans h0
        rw [h1] at hih
        rw [h2, Nat.zero_add]
        exact hih h0'
      | unanswered h1 h2 =>
        rw [adapt_off (Or.inr (by omega))] at h1
        have h0' : m'.adrAckCounter = 255 := (congrArg AdrView.count h1).trans h0
        rw [h1] at hih
        rcases hih h0' with h | h
        · exact Or.inr h.1
        · exact Or.inr h
  rcases h with ⟨h, h'⟩ | h
  · exact ⟨congrArg AdrView.power h, congrArg AdrView.rate h, congrArg AdrView.mask h,
      fun hq => ⟨(congrArg AdrView.asks h).symm.trans hq, h'⟩⟩
  · refine ⟨congrArg AdrView.power h, congrArg AdrView.rate h, congrArg AdrView.mask h, fun hq => ?_⟩
    rw [show (run cfg m calls).adrAckReq = false from congrArg AdrView.asks h] at hq
    cases hq

/-- **C48**, second part: the device itself never raises its rate and never lowers its power; it touches the channel
mask only to enable all channels.  For every call but those by which the application changes these settings, in every
state, as long as the network is not heard. -/
theorem c48_never_back_up {cfg : Cfg} (hE : ∀ k, BlockFn (cfg.E k)) {m : Mac} (hr : Reachable cfg m)
    (hj : m.ctx.joined = true) (e : Env) (c : Call) (hc : ¬ changesAdr c) (hn : c = .process → NotHeard cfg m e) :
    let m' := (step cfg m e c).1
    m'.ctx.rate ≤ m.ctx.rate ∧ (m'.ctx.power = m.ctx.power ∨ m'.ctx.power = 0) ∧
    (m'.ctx.chMask = m.ctx.chMask ∨ m'.ctx.chMask = fun _ => 0) ∧
    (m.ctx.adr = false → m'.ctx.rate = m.ctx.rate ∧ m'.ctx.power = m.ctx.power ∧ m'.ctx.chMask = m.ctx.chMask) := by
  have hs := step_adr hE hr hj e c hc hn
  generalize (step cfg m e c).1 = m' at *
  cases hs with
  | same h _ =>
    have h1 : m'.ctx.power = m.ctx.power := congrArg AdrView.power h
    have h2 : m'.ctx.rate = m.ctx.rate := congrArg AdrView.rate h
    have h3 : m'.ctx.chMask = m.ctx.chMask := congrArg AdrView.mask h
    exact ⟨Nat.le_of_eq h2, Or.inl h1, Or.inl h3, fun _ => ⟨h2, h1, h3⟩⟩
  | unanswered h _ =>
    by_cases hoff : m.ctx.adr = false ∨ 255 ≤ m.adrAckCounter
    · rw [adapt_off hoff] at h
      have h1 : m'.ctx.power = m.ctx.power := congrArg AdrView.power h
      have h2 : m'.ctx.rate = m.ctx.rate := congrArg AdrView.rate h
      have h3 : m'.ctx.chMask = m.ctx.chMask := congrArg AdrView.mask h
      exact ⟨Nat.le_of_eq h2, Or.inl h1, Or.inl h3, fun _ => ⟨h2, h1, h3⟩⟩
    · have ha : m.ctx.adr = true := by
        cases hh : m.ctx.adr with
        | true => rfl
        | false => exact absurd (Or.inl hh) hoff
      have hcnt : m.adrAckCounter < 255 := by omega
      have hno : m.ctx.adr ≠ false := by rw [ha]; decide
      by_cases hd : (adrView m).due
      · rw [adapt_step ha hcnt hd] at h
        by_cases hp : m.ctx.power = 0
        · rw [if_pos hp] at h
          by_cases hrt : cfg.minRate < m.ctx.rate
          · rw [if_pos hrt] at h
            have h2 : m'.ctx.rate = m.ctx.rate - 1 := congrArg AdrView.rate h
            exact ⟨by omega, Or.inl (congrArg AdrView.power h), Or.inl (congrArg AdrView.mask h), fun h => absurd h hno⟩
          · rw [if_neg hrt] at h
            exact ⟨Nat.le_of_eq (congrArg AdrView.rate h), Or.inl (congrArg AdrView.power h),
              Or.inr (congrArg AdrView.mask h), fun h => absurd h hno⟩
        · rw [if_neg hp] at h
          exact ⟨Nat.le_of_eq (congrArg AdrView.rate h), Or.inr (congrArg AdrView.power h),
            Or.inl (congrArg AdrView.mask h), fun h => absurd h hno⟩
      · rw [adapt_quiet ha hcnt hd] at h
        exact ⟨Nat.le_of_eq (congrArg AdrView.rate h), Or.inl (congrArg AdrView.power h),
          Or.inl (congrArg AdrView.mask h), fun h => absurd h hno⟩

/-- The request seen by a network server: the message it gets from an accepted send request has the flag ADRACKReq
exactly if the device asks, and the flag ADR exactly if ADR is on. -/
theorem c48_asks {cfg : Cfg} (hE : ∀ k, BlockFn (cfg.E k)) {m : Mac} (hr : Reachable cfg m)
    (e : Env) (confirmed : Bool) (port : Nat) (payload : Option Bytes) (len : Nat) (opts : Option DataOpts)
    (hw : (Call.data confirmed port payload len opts).WF) (hnull : payload = none → len = 0)
    (ha : Accepted (step cfg m e (.data confirmed port payload len opts)).2)
    (hup : m.ctx.up < 65536) (conf : Nat) (hconf : sess11 cfg m = true → conf = 0)
    (calls : List (Env × Call)) (hc : ∀ x ∈ calls, x.2.WF) (s : TxSetting) (frame : Bytes)
    (hx : (s, frame) ∈ sentBy cfg (step cfg m e (.data confirmed port payload len opts)).1 calls)
    (h244 : frame.length ≠ 244) :
    ∃ dr ch msg, receiveUp cfg.E (sess11 cfg m) (deviceKeys cfg m) m.ctx.devAddr m.ctx.up conf dr ch frame = some msg ∧
      msg.adrAckReq = m.adrAckReq ∧ msg.adr = m.ctx.adr := by
  obtain ⟨dr, ch, _, _, msg, _, _, h1, h2⟩ := c17_accepted_by_server_partial hE hr e confirmed port payload len opts hw
    hnull ha hup conf hconf calls hc s frame hx h244
  exact ⟨dr, ch, msg, h1, h2.2.1, h2.1⟩

/-! ## A device that is not heard -/

/-- The demonstration device with limit 1, delay 1, rate 1, not at full power and channel 0 masked. -/
def quickAdr : Session :=
  { Demo.joined.ctx with
    adrAckLimit := 1, adrAckDelay := 1, rate := 1, power := 1, chMask := fun i => if i = 0 then 1 else 0 }

/-- An uplink that is not answered, and the wait for the channel. -/
def unansweredAt (t : Nat) : List (Env × Call) :=
  Demo.send false t :: Demo.cycle t ++ Demo.processAt [t + 100000000, t + 190000000]

/-- `n` of them. -/
def manyUnanswered (t : Nat) : Nat → List (Env × Call)
  | 0 => []
  | n + 1 => unansweredAt t ++ manyUnanswered (t + 200000000) n

/-- Spreading factor, power (in hundredths of dBm) and the flag ADRACKReq of the frames sent. -/
def adrFrames (m : Mac) : List (Nat × Int × Bool) :=
  (transmitted m.out).map fun x => (x.1.sf, x.1.eirp, ((x.2.drop 5).headD 0).toNat / 64 % 2 == 1)

def quietNetwork (n : Nat) : Mac := run Demo.cfg (Demo.restored Demo.cfg quickAdr) (manyUnanswered 30000 n)

/-- All the steps, as the network would see them: the third uplink asks, the fourth is at full power, the fifth at the
lowest rate, then the channels are enabled.  The seventh uplink does not ask, since the count has started again:
**C48 does not hold** after the last step. -/
theorem c48_quiet_network : adrFrames (quietNetwork 8) = [(11, 1400, false), (11, 1400, false), (11, 1400, true),
      (11, 1600, true), (12, 1600, true), (12, 1600, true), (12, 1600, false), (12, 1600, true)] ∧
    (quietNetwork 8).ctx.chMask 0 = 0 := ⟨by decide +kernel, by decide +kernel⟩

theorem quickAdr_ok : SessionOk quickAdr := by
  have h := Demo.joined_reachable.sessionOk
  have hj : Demo.joined.ctx.joined = true := by decide +kernel
  exact ⟨by decide +kernel, by decide +kernel, h.words, h.up, h.appDown, h.nwkDown, h.devAddr, h.netID, h.joinNonce,
    h.devNonce, h.nbTrans, h.rx1DROffset, h.rx2DataRate, h.rx1Delay, ⟨0, by decide, rfl⟩, ⟨0, by decide, rfl⟩,
    (fun hc => absurd (hj.symm.trans hc) (by decide)), h.magic,
    (fun i => by show (if i = 0 then 1 else 0) < 256; split <;> decide), h.txParamSetup⟩

/-- Nothing is received where the radio never reports a packet. -/
theorem unheard_of_silent (cfg : Cfg) (m : Mac) (calls : List (Env × Call)) (h : ∀ x ∈ calls, x.1.statusRx = false) :
    Unheard cfg m calls := by
  induction calls generalizing m with
  | nil => trivial
  | cons x rest ih =>
    refine ⟨fun _ hr => ?_, ih _ fun y hy => h y (by simp [hy])⟩
    have := hr.2.2
    rw [h x (by simp)] at this
    cases this

instance (c : Call) : Decidable (changesAdr c) := by
  cases c <;> simp only [changesAdr] <;> infer_instance

/-- The hypotheses of `c48_backoff_partial` and `c48_starts_again` are met by that device: five uplinks end, none is
answered. -/
example : Reachable Demo.cfg (Demo.restored Demo.cfg quickAdr) ∧
    Unheard Demo.cfg (Demo.restored Demo.cfg quickAdr) (manyUnanswered 30000 5) ∧
    (∀ x ∈ manyUnanswered 30000 5, x.2.WF ∧ ¬ changesAdr x.2) ∧
    (Demo.restored Demo.cfg quickAdr).adrAckCounter = 0 ∧
    uplinksEnded (newEvents (Demo.restored Demo.cfg quickAdr) (quietNetwork 5)) = 5 ∧
    5 = quickAdr.adrAckLimit + quickAdr.adrAckDelay * lastStep (lowest Demo.cfg) quickAdr.power quickAdr.rate + 1 := by
  exact ⟨Demo.restored_reachable _ quickAdr_ok, unheard_of_silent _ _ _ (by decide +kernel), by decide +kernel,
    by decide +kernel, by decide +kernel, by decide +kernel⟩

/-- The count and the request outlive the session, which `forget` drops (C51). -/
theorem c48_outlives_session (cfg : Cfg) (m : Mac) (e : Env) :
    (step cfg m e .forget).1.adrAckCounter = m.adrAckCounter ∧ (step cfg m e .forget).1.adrAckReq = m.adrAckReq := by
  obtain ⟨_, _, _, _, _, h⟩ := forget_shape m
  rcases cancel_shape m with ⟨_, h'⟩ | ⟨_, h'⟩ <;> simp only [step, h] <;> rw [h'] <;> exact ⟨rfl, rfl⟩

end LDL
