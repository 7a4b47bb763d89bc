import Verif.Spec.NoSf12
import Verif.Props.Dwell
import Verif.Props.Adr
import Verif.Props.Session

/-!
# Without SF12: C103
-/

namespace LDL
open Spec

/-! ## The data rate -/

/-- ADR back-off does not go below the lowest data rate of the build. -/
theorem adapt_above {cfg : Cfg} (hno : cfg.noSf12 = true) {m : Mac} (h : 1 ≤ m.ctx.rate) :
    1 ≤ (adrView (adaptRate cfg m).2).rate := by
  have hmin : cfg.minRate = 1 := by unfold Cfg.minRate; rw [hno]; rfl
  by_cases hoff : m.ctx.adr = false ∨ 255 ≤ m.adrAckCounter
  · rw [adapt_off hoff]; exact h
  · have ha : m.ctx.adr = true := by
      cases hh : m.ctx.adr with
      | true => rfl
      | false => exact absurd (Or.inl hh) hoff
    have hc : m.adrAckCounter < 255 := by omega
    by_cases hd : (adrView m).due
    · rw [adapt_step ha hc hd]
      split
      · split
        · show 1 ≤ m.ctx.rate - 1
          omega
        · exact h
      · exact h
    · rw [adapt_quiet ha hc hd]; exact h

theorem joinRate_above {cfg : Cfg} (hno : cfg.noSf12 = true) (r : Region) (t : Nat) : 1 ≤ r.getJoinRate cfg.minRate t := by
  have hmin : cfg.minRate = 1 := by unfold Cfg.minRate; rw [hno]; rfl
  rw [hmin]
  cases r <;> simp only [Region.getJoinRate]
  all_goals first | omega | (have := Nat.mod_lt t (show 0 < 6 - 1 by decide); omega)

theorem nextRequest_rate (cfg : Cfg) (e : Env) (x : Mac) : (nextJoinRequest cfg e x).ctx.rate = x.ctx.rate := by
  obtain ⟨_, _, _, _, hs⟩ := nextJoinRequest_shape cfg e x
  rw [hs]

theorem missing_rate {cfg : Cfg} {e : Env} {x y : Mac} (hm : Missing cfg e x y) (hj : x.op = .joining) :
    y.ctx.rate = x.ctx.rate := by
  cases hm with
  | retry ho => simp [hj] at ho
  | giveUp ho => rw [hj] at ho; simp at ho
  | nextJoin =>
    have := nextRequest_rate cfg e { x with trials := u32 (x.trials + 1) }
    generalize nextJoinRequest cfg e _ = z at *
    exact this
  | exhausted => rfl
  | other ho => simp [hj] at ho

theorem radioErr_rate {cfg : Cfg} {e : Env} {x y : Mac} (hm : RadioErr cfg e x y) (hj : x.op = .joining) :
    y.ctx.rate = x.ctx.rate := by
  cases hm with
  | op ho => exact absurd hj ho
  | nextJoin _ _ m' hm' =>
    have := nextRequest_rate cfg e { x with
        inputArmed := false, timerA := x.timerA.clear, timerB := x.timerB.clear, trials := u32 (x.trials + 1) }
    rw [← hm'] at this
    exact this
  | exhausted => rfl

theorem cfList_rate (s : Session) (l : Bytes) : (processCFList s l).rate = s.rate := by
  obtain ⟨cc, cm, h⟩ := processCFList_ids s l
  rw [h]

theorem joinSession_rate (cfg : Cfg) (m : Mac) (f : Frame.Down) (buf : Bytes) :
    (joinSession cfg m f buf).rate = if m.ctx.adr then m.ctx.region.getJoinRate cfg.minRate m.trials else m.ctx.rate := by
  have h1 : ∀ ctx : Session, (joinVersion cfg ctx f).rate = ctx.rate := by
    intro ctx
    unfold joinVersion
    split
    · split
      · rfl
      · rfl
    · rfl
  have h2 : ∀ ctx : Session, (joinCFList ctx f buf).rate = ctx.rate := by
    intro ctx
    unfold joinCFList
    split
    · exact cfList_rate _ _
    · rfl
  unfold joinSession
  simp only []
  rw [h1]
  exact h2 _

/-- While joining, the data rate is kept, or it is the one of a join accept. -/
theorem joining_rate {cfg : Cfg} (hno : cfg.noSf12 = true) {m : Mac} (hj : m.op = .joining) (e : Env)
    (h : 1 ≤ m.ctx.rate) : 1 ≤ (process cfg e m).ctx.rate := by
  obtain ⟨ev, lag, m1, m2, p, t, hp, hd, hh⟩ := process_disp cfg e m
  rw [hh]
  show 1 ≤ m2.ctx.rate
  have hm1 : m1.ctx = m.ctx ∧ m1.op = m.op := by
    obtain ⟨_, _, _, _, _, _, _, _, _, h⟩ := hp.eq
    rw [h]
    exact ⟨rfl, rfl⟩
  obtain ⟨hctx, hop⟩ := hm1
  rw [hj] at hop
  rw [← hctx] at h
  have miss : ∀ {x y : Mac}, Missing cfg e x y → x.op = .joining → x.ctx = m1.ctx → 1 ≤ y.ctx.rate := by
    intro x y hm g1 g2
    rw [missing_rate hm g1, g2]; exact h
  have err : ∀ {x y : Mac}, RadioErr cfg e x y → x.op = .joining → x.ctx = m1.ctx → 1 ≤ y.ctx.rate := by
    intro x y hm g1 g2
    rw [radioErr_rate hm g1, g2]; exact h
  rcases hd with ⟨_, rfl⟩ | ⟨_, hd⟩
  · exact h
  · cases hd with
    | txError =>
      obtain ⟨b, hb⟩ := registerTime_shape (statusRead ev m1)
      have hs : (statusRead ev m1).ctx = m1.ctx ∧ (statusRead ev m1).op = m1.op := by
        unfold statusRead; split <;> exact ⟨rfl, rfl⟩
      rw [hb]
      exact err (handleRadioError_cases cfg e _) (hs.2.trans hop) hs.1
    | txDone =>
      obtain ⟨b, hb⟩ := registerTime_shape (m1.emit .getStatus)
      obtain ⟨_, _, _, _, _, hx, _⟩ := txComplete_shape cfg e lag (registerTime (m1.emit .getStatus))
      rw [hx, hb]
      exact h
    | rxError => exact err (handleRadioError_cases cfg e _) hop rfl
    | rxRejected => exact miss (downlinkMissing_missing cfg e _) hop rfl
    | lockout => exact miss (downlinkMissing_missing cfg e _) hop rfl
    | rxData _ _ _ _ _ _ _ ho => rw [hop] at ho; simp at ho
    | rxJoin _ _ _ f buf =>
      have hk : ∀ x : Mac, (Ops.deriveKeys cfg x).ctx = x.ctx := by
        intro x
        obtain ⟨k, hk⟩ := deriveKeys_shape cfg x
        rw [hk]
      show 1 ≤ (joinAccepted cfg (packetState e m1) f buf).ctx.rate
      have : (joinAccepted cfg (packetState e m1) f buf).ctx = joinSession cfg (packetState e m1) f buf := by
        unfold joinAccepted
        exact hk _
      rw [this, joinSession_rate]
      split
      · exact joinRate_above hno _ _
      · exact h
    | _ => exact h

/-- **C103, the data rate, partial**: in a build without SF12, once the data rate is above 0 it stays there, whatever
is called, unless the application sets it to 0 or the network is heard (the network may ask for data rate 0, and gets
it, `c103_ordered`). -/
theorem c103_rate_partial {cfg : Cfg} (hE : ∀ k, BlockFn (cfg.E k)) (hno : cfg.noSf12 = true) {m : Mac}
    (hr : Reachable cfg m) (h : 1 ≤ getRate m) (e : Env) (c : Call) (hc : c ≠ .setRate 0)
    (hn : c = .process → NotHeard cfg m e) : 1 ≤ getRate (step cfg m e c).1 := by
  change 1 ≤ m.ctx.rate at h
  show 1 ≤ (step cfg m e c).1.ctx.rate
  by_cases hp : c = .process
  · subst hp
    by_cases hj : m.op = .joining
    · exact joining_rate hno hj e h
    · have hs := process_adr hE hr hj e (hn rfl)
      show 1 ≤ (process cfg e m).ctx.rate
      cases hs with
      | same hv => rw [show (process cfg e m).ctx.rate = m.ctx.rate from congrArg AdrView.rate hv]; exact h
      | unanswered hv =>
        rw [show (process cfg e m).ctx.rate = _ from congrArg AdrView.rate hv]
        exact adapt_above hno h
  · have ha := step_api cfg e m c hp
    generalize (step cfg m e c).1 = m' at *
    generalize (step cfg m e c).2 = st at *
    cases ha with
    | otaa hj ho hn m1 hm =>
      obtain ⟨_, _, _, _, hs⟩ := nextJoinRequest_shape cfg e
        (Ops.deriveJoinKeys cfg { m with trials := 0, day := 60 * 60 * 24 * timeTPS })
      obtain ⟨k, hk⟩ := deriveJoinKeys_shape cfg { m with trials := 0, day := 60 * 60 * 24 * timeTPS }
      show 1 ≤ m1.ctx.rate
      rw [hm, hs, hk]
      exact h
    | data _ _ _ _ o _ _ _ _ _ _ _ _ _ m1 hm =>
      obtain ⟨_, _, _, _, _, hs, _⟩ := sendData_shape cfg e m1 _ _ _ _ _ _
      rw [hs]
      obtain ⟨pc, hpc⟩ := (putAnswers_inv cfg { m1.ctx with up := u32 (m1.ctx.up + 1) } (dataOptions o)).session
      have hu : (uplinkAnswers cfg m1 (dataOptions o)).2 =
        { m1.ctx with up := u32 (m1.ctx.up + 1), pendingCmds := pc } := hpc
      show 1 ≤ (uplinkAnswers cfg m1 (dataOptions o)).2.rate
      rw [hu, hm]
      exact h
    | forget =>
      have hcn : (cancel m).ctx = m.ctx := by
        rcases cancel_shape m with ⟨_, hs⟩ | ⟨_, hs⟩ <;> rw [hs]
      unfold forget
      simp only []
      split
      · show 1 ≤ (forgetNetwork { cancel m with band := upd (cancel m).band GLOBAL 0 }).ctx.rate
        unfold forgetNetwork
        simp only []
        obtain ⟨cc, hcc⟩ := getDefaultChannels_shape { region := (cancel m).ctx.region, rate := (cancel m).ctx.rate, power := (cancel m).ctx.power, adr := (cancel m).ctx.adr, magic := magicNumber, rx1DROffset := (cancel m).ctx.region.getRX1Offset, rx1Delay := (cancel m).ctx.region.getRX1Delay, rx2DataRate := (cancel m).ctx.region.getRX2Rate, rx2Freq := (cancel m).ctx.region.getRX2Freq, adrAckLimit := 64, adrAckDelay := 32, txParamSetup := 0xff, maxDutyCycle := (cancel m).maxDutyCycle }
        rw [hcc, hcn]
        exact h
      · rw [hcn]; exact h
    | cancel =>
      rcases cancel_shape m with ⟨_, hs⟩ | ⟨_, hs⟩ <;> rw [hs] <;> exact h
    | setRate r =>
      show 1 ≤ r
      rcases r with _ | r
      · exact absurd rfl hc
      · omega
    | addChannel ch f a b =>
      obtain ⟨cc, hs⟩ := setChannel_shape m.ctx ch f a b
      show 1 ≤ (setChannel m.ctx ch f a b).2.rate
      rw [hs]
      exact h
    | _ => exact h

/-! ## Transmissions -/

/-- Of the data rates that can be selected for an uplink, only 0 has spreading factor 12. -/
theorem sf_of_required {s : Session} {ch f lo hi d : Nat} (hc : chan s ch = some (f, lo, hi)) (hd : 1 ≤ d)
    (hroom : s.region = .eu868 ∨ s.region = .eu433 → 0 < hi) :
    (s.region.convertRate (requiredRate d lo hi)).sf ≠ 12 := by
  have hpos : ∀ hi, 0 < hi → 1 ≤ requiredRate d lo hi := by
    intro hi hh
    unfold requiredRate
    split
    · omega
    · split <;> omega
  have heu : ∀ r : Region, r = .eu868 ∨ r = .eu433 → ∀ x, 1 ≤ x → (r.convertRate x).sf ≠ 12 := by
    intro r hr x hx
    rcases hr with rfl | rfl <;> rcases x with _ | _ | _ | _ | _ | _ | _ | x <;>
      first | omega | simp [Region.convertRate]
  cases hreg : s.region with
  | eu868 => exact heu _ (Or.inl rfl) _ (hpos _ (hroom (Or.inl hreg)))
  | eu433 => exact heu _ (Or.inr rfl) _ (hpos _ (hroom (Or.inr hreg)))
  | us915 =>
    have hle : requiredRate d lo hi ≤ 4 := by
      rcases us_range hreg hc with ⟨rfl, rfl⟩ | ⟨rfl, rfl⟩ <;> unfold requiredRate <;> (repeat' split) <;> omega
    generalize requiredRate d lo hi = x at *
    rcases x with _ | _ | _ | _ | _ | x <;> first | omega | simp [Region.convertRate]
  | au915 =>
    have hle : requiredRate d lo hi ≤ 6 ∧ 1 ≤ requiredRate d lo hi := by
      rcases au_range hreg hc with ⟨rfl, rfl⟩ | ⟨rfl, rfl⟩ <;> unfold requiredRate <;> (repeat' split) <;> omega
    generalize requiredRate d lo hi = x at *
    rcases x with _ | _ | _ | _ | _ | _ | _ | x <;> first | omega | simp [Region.convertRate]

/-- The setting selected is not one with spreading factor 12. -/
def TxFast (m : Mac) : Prop := (m.ctx.region.convertRate m.tx.rate).sf ≠ 12

theorem selectJoin_above {cfg : Cfg} (hno : cfg.noSf12 = true) {m : Mac} (hw : ChanWords m.ctx) (hb : BandOk m)
    (hroom : RoomAboveZero m.ctx) (e : Env) :
    (m.ctx.region.convertRate (selectJoinChannelAndRate cfg e m).rate).sf ≠ 12 := by
  by_cases hfix : m.ctx.region = .us915 ∨ m.ctx.region = .au915
  · rcases selectJoin_fast (cfg := cfg) e hfix with ⟨h1, (h2 | h2) | h2⟩ | ⟨h1, h2 | h2⟩ <;> rw [h1, h2] <;>
      simp [Region.convertRate]
  · have hdyn : m.ctx.region = .eu868 ∨ m.ctx.region = .eu433 := by
      revert hfix
      cases m.ctx.region <;> simp
    obtain ⟨hhi, ch0, f0, lo0, hi0, b0, u1, u2, u3⟩ := hroom hdyn
    have hd : 1 ≤ m.ctx.region.applyUplinkDwell (uplinkDwell m.ctx.txParamSetup)
        (m.ctx.region.getJoinRate cfg.minRate m.trials) := by
      have := joinRate_above hno m.ctx.region m.trials
      rcases hdyn with h | h <;> rw [h] at this ⊢ <;> exact this
    unfold selectJoinChannelAndRate
    simp only []
    generalize m.ctx.region.applyUplinkDwell (uplinkDwell m.ctx.txParamSetup)
      (m.ctx.region.getJoinRate cfg.minRate m.trials) = d at *
    rw [if_pos (by rcases hdyn with h | h <;> rw [h] <;> rfl)]
    rcases hs : selectChannel m (e.draw 1) d (timeUntilNextChannel m) with _ | ⟨f, ch, r⟩
    · exfalso
      have := (selectChannel_isSome m hw (e.draw 1) d (timeUntilNextChannel m)).2
        (open_of_usable hw hb ⟨u1, f0, lo0, hi0, b0, u2, u3⟩)
      rw [hs] at this
      cases this
    · obtain ⟨_, _, lo, hi, h3, h4⟩ := selectChannel_some _ hw _ _ _ _ _ _ hs
      show (m.ctx.region.convertRate r).sf ≠ 12
      rw [h4]
      exact sf_of_required h3 hd fun _ => hhi _ _ _ _ h3

theorem NewRequest.above {cfg : Cfg} (hno : cfg.noSf12 = true) {e : Env} {m m' : Mac} (h : NewRequest cfg e m m')
    (hw : ChanWords m.ctx) (hb : BandOk m') (hroom : RoomAboveZero m.ctx) : TxFast m' := by
  obtain ⟨x, _, _, _, h4, _, _, h7, _, _, h10, h11, h12, h13, _, h15⟩ := h.made
  have hreg : (nextJoinRequest cfg e x).ctx.region = x.ctx.region := by
    obtain ⟨dn, _, _, _, h⟩ := nextJoinRequest_shape cfg e x
    rw [h]
  have key : ∃ (y : Mac) (dn : Nat), y.ctx = { x.ctx with devNonce := dn } ∧ y.band = x.band ∧
      (nextJoinRequest cfg e x).tx = selectJoinChannelAndRate cfg e y := by
    unfold nextJoinRequest fillJoinBuffer
    dsimp only [Mac.emit]
    generalize (if cfg.version = .v103 then u16 (e.draw 0) else u16 x.devNonce) = dn
    generalize Ops.prepareJoinRequest cfg _ _ _ _ = p
    exact ⟨{ x with ctx := { x.ctx with devNonce := dn }, bufferLen := p.1, buffer := p.2 }, dn, rfl, rfl, rfl⟩
  obtain ⟨y, dn, y1, y2, y4⟩ := key
  have hry : y.ctx.region = m.ctx.region := by rw [y1, h4]
  have hwy : ChanWords y.ctx := by rw [y1, h4]; exact hw
  have hby : BandOk y := by unfold BandOk; rw [y2, h7]; exact hb
  have hroomy : RoomAboveZero y.ctx := by rw [y1, h4]; exact hroom
  unfold TxFast
  rw [h12, y4, h13, hreg, h4, ← hry]
  exact selectJoin_above hno hwy hby hroomy e

/-- One call: what is transmitted, and what is selected for later. -/
theorem step_above {cfg : Cfg} (hno : cfg.noSf12 = true) {m : Mac} (hr : Reachable cfg m) (e : Env) (c : Call)
    (hcw : c.WF) (hrate : 1 ≤ getRate m) (hroom : RoomAboveZero m.ctx) (hf : m.op.isTx → TxFast m) :
    NoSf12 (newEvents m (step cfg m e c).1) ∧ ((step cfg m e c).1.op.isTx → TxFast (step cfg m e c).1) := by
  have hr' : Reachable cfg (step cfg m e c).1 := .step e c hr hcw
  obtain ⟨o, hout, hstep, _⟩ := step_does cfg e m c hr.reach.opOk
  have hb' := hr'.bandOk
  rw [newEvents_append hout]
  have ht : transmitted o = transmissions o := rfl
  unfold NoSf12
  rw [ht]
  generalize (step cfg m e c).1 = m' at *
  generalize transmissions o = tr at *
  generalize nonceReports o = nr at *
  have kept : Keep m m' → m.op.isTx → TxFast m' := by
    intro hk ho
    unfold TxFast
    rw [hk.region, hk.rate]
    exact hf ho
  have idle : ∀ {x : Mac}, x.op = .none ∨ x.op = .entropy → x.op.isTx → TxFast x := by
    intro x h1 h2
    rcases h1 with h1 | h1 <;> rw [h1] at h2 <;> simp [Op.isTx] at h2
  cases hstep with
  | idle _ ho' => exact ⟨by simp, idle ho'⟩
  | keep ho hk => exact ⟨by simp, fun _ => kept hk ho⟩
  | ended _ ho' => exact ⟨by simp, idle (Or.inl ho')⟩
  | sent ho _ _ _ hk =>
    refine ⟨?_, fun _ => kept hk ho⟩
    intro x hx
    rw [List.mem_singleton] at hx
    rw [hx]
    exact hf ho
  | repeated ho _ _ _ hk =>
    exact ⟨by simp, fun _ => kept hk (by rcases ho with ho | ho <;> rw [ho] <;> simp [Op.isTx])⟩
  | request _ _ _ hn => exact ⟨by simp, fun _ => hn.above hno hr.sessionOk.words hb' hroom⟩
  | join _ _ _ hn => exact ⟨by simp, fun _ => hn.above hno hr.sessionOk.words hb' hroom⟩
  | send ho confirmed port data len opts hc hj hp hg freq ch rate hsel hl hm =>
    refine ⟨by simp, fun _ => ?_⟩
    obtain ⟨x, hx, a1, a2, a3, a4, _⟩ := sendData_fields cfg e _ confirmed port data len opts _ m' hm
    obtain ⟨pc, hpc⟩ := (putAnswers_inv cfg { m.ctx with up := u32 (m.ctx.up + 1) } (dataOptions opts)).session
    have hreg : m'.ctx.region = m.ctx.region := by
      rw [a4, hx]
      show (putAnswers cfg { m.ctx with up := u32 (m.ctx.up + 1) } (dataOptions opts)).2.region = _
      rw [hpc]
    obtain ⟨h1, h2, lo, hi, h3, h4⟩ := selectChannel_some _ hr.sessionOk.words _ _ _ _ _ _ hsel
    unfold TxFast
    rw [hreg, a3, hx]
    show (m.ctx.region.convertRate rate).sf ≠ 12
    rw [h4]
    exact sf_of_required h3 hrate fun hd => (hroom hd).1 _ _ _ _ h3

theorem NoSf12.append {a b : List Event} (ha : NoSf12 a) (hb : NoSf12 b) : NoSf12 (a ++ b) := by
  intro x hx
  unfold transmitted at hx
  rw [List.filterMap_append, List.mem_append] at hx
  exact hx.elim (ha x) (hb x)

theorem run_above {cfg : Cfg} (hno : cfg.noSf12 = true) (calls : List (Env × Call)) (hc : ∀ x ∈ calls, x.2.WF)
    {m : Mac} (hr : Reachable cfg m) (hf : m.op.isTx → TxFast m)
    (hk : ∀ k < calls.length, 1 ≤ getRate (run cfg m (calls.take k)) ∧ RoomAboveZero (run cfg m (calls.take k)).ctx) :
    ∃ o, (run cfg m calls).out = m.out ++ o ∧ NoSf12 o := by
  induction calls generalizing m with
  | nil => exact ⟨[], (List.append_nil _).symm, fun x hx => by cases hx⟩
  | cons x rest ih =>
    obtain ⟨e, c⟩ := x
    have hcw : c.WF := hc (e, c) (by simp)
    have h0 := hk 0 (by simp)
    obtain ⟨h1, h2⟩ := step_above hno hr e c hcw h0.1 h0.2 hf
    obtain ⟨o1, ho1, _⟩ := step_does cfg e m c hr.reach.opOk
    rw [newEvents_append ho1] at h1
    obtain ⟨o2, ho2, h3⟩ := ih (fun x hx => hc x (by simp [hx])) (.step e c hr hcw) h2 fun k hk' => by
      have := hk (k + 1) (by simp only [List.length_cons]; omega)
      exact this
    refine ⟨o1 ++ o2, ?_, NoSf12.append h1 h3⟩
    show (run cfg (step cfg m e c).1 rest).out = _
    rw [ho2, ho1, List.append_assoc]

/-- **C103, transmissions, partial**: in a build without SF12, from a state in which no operation is in progress, and
whatever is called: as long as the data rate the device reports is above 0 and the channels leave room for a data rate
above 0, nothing is transmitted with spreading factor 12, neither data nor join requests. -/
theorem c103_transmissions_partial {cfg : Cfg} (hno : cfg.noSf12 = true) {m : Mac} (hr : Reachable cfg m)
    (ho : m.op = .none) (calls : List (Env × Call)) (hc : ∀ x ∈ calls, x.2.WF)
    (hk : ∀ k < calls.length, 1 ≤ getRate (run cfg m (calls.take k)) ∧ RoomAboveZero (run cfg m (calls.take k)).ctx) :
    NoSf12 (newEvents m (run cfg m calls)) := by
  obtain ⟨o, h1, h2⟩ := run_above hno calls hc hr (fun h => by rw [ho] at h; simp [Op.isTx] at h) hk
  rw [newEvents_append h1]
  exact h2

theorem run_rate {cfg : Cfg} (hE : ∀ k, BlockFn (cfg.E k)) (hno : cfg.noSf12 = true) (calls : List (Env × Call))
    (hc : ∀ x ∈ calls, x.2.WF ∧ x.2 ≠ .setRate 0) {m : Mac} (hr : Reachable cfg m) (hq : Unheard cfg m calls)
    (h : 1 ≤ getRate m) (k : Nat) : 1 ≤ getRate (run cfg m (calls.take k)) := by
  induction calls generalizing m k with
  | nil => rw [List.take_nil]; exact h
  | cons x rest ih =>
    obtain ⟨e, c⟩ := x
    cases k with
    | zero => exact h
    | succ k =>
      have hx := hc (e, c) (by simp)
      exact ih (fun x hx => hc x (by simp [hx])) (.step e c hr hx.1) hq.2
        (c103_rate_partial hE hno hr h e c hx.2 hq.1) k

/-- **C103, a new device, partial**: in a build without SF12, a device started without a stored session never transmits
with spreading factor 12, whatever is called, as long as the application does not set data rate 0, no data message of
the network is heard (join accepts are), and the channels leave room for a data rate above 0. -/
theorem c103_new_partial {cfg : Cfg} (hE : ∀ k, BlockFn (cfg.E k)) (hno : cfg.noSf12 = true) (region : Region)
    (arg : InitArg) (e : Env) (hs : arg.session = none) (ha : ArgOk arg) (calls : List (Env × Call))
    (hc : ∀ x ∈ calls, x.2.WF ∧ x.2 ≠ .setRate 0) (hq : Unheard cfg (init cfg region arg e) calls)
    (hk : ∀ k < calls.length, RoomAboveZero (run cfg (init cfg region arg e) (calls.take k)).ctx) :
    NoSf12 (newEvents (init cfg region arg e) (run cfg (init cfg region arg e) calls)) := by
  have hr : Reachable cfg (init cfg region arg e) := .init _ _ _ (by rw [hs]; simp) ha
  obtain ⟨⟨h1, _⟩, _, h3⟩ := c50_restore_partial cfg region arg e
  obtain ⟨_, _, h4, _⟩ := h3 (by rw [hs]; simp)
  rw [if_pos hno] at h4
  refine c103_transmissions_partial hno hr h1 calls (fun x hx => (hc x hx).1) fun k hk' => ⟨?_, hk k hk'⟩
  refine run_rate hE hno calls hc hr hq ?_ k
  show 1 ≤ (init cfg region arg e).ctx.rate
  rw [h4]

/-! ## Where SF12 is still used -/

/-- The device of the examples, built without SF12. -/
def cfg12 : Cfg := { Demo.cfg with noSf12 := true }

def start12 : Mac := init cfg12 .eu868 {} (Demo.at_ 0)

theorem start12_reachable : Reachable cfg12 start12 := .init _ _ _ (by simp) ⟨rfl, rfl, rfl, rfl, by decide, by decide⟩

/-- Booted and personalised. -/
def joined12 : Mac := run cfg12 start12 (Demo.boot ++ [(Demo.at_ 20000, .abp 1)])

/-- A send request and its transmissions: the spreading factors. -/
def sfs (m : Mac) (t : Nat) : List Nat :=
  (sentBy cfg12 (step cfg12 m (Demo.at_ t) (.data false 1 (some [1, 2, 3]) 3 none)).1 (Demo.cycle t)).map fun x => x.1.sf

/-- The application sets data rate 0. -/
def set12 : Mac := (step cfg12 joined12 (Demo.at_ 25000) (.setRate 0)).1

/-- The only channel left allows data rate 0 only. -/
def channel12 : Mac := run cfg12 joined12
  [(Demo.at_ 25000, .addChannel 0 868100000 0 0), (Demo.at_ 25000, .maskChannel 1), (Demo.at_ 25000, .maskChannel 2)]

/-- The network asks for data rate 0 with LinkADRReq. -/
def adrDown : DataFrame :=
  { mtype := 3, devAddr := 1, adr := false, adrAckReq := false, ack := false, fPending := false, fcnt := 0
    fopts := [3, 0x00, 7, 0, 1], payload := none, mic := 0 }

def ordered12 : Mac :=
  run cfg12 joined12 ([(Demo.at_ 30000, .data false 1 none 0 none)] ++ Demo.untilRx1 30000 ++
    Demo.rxPacket (sendDown cfg12.E false (deviceKeys cfg12 joined12) 0 0 adrDown) 2600000 ++
    Demo.processAt [600000000])

/-- **C103 does not hold** without the conditions: in a build without SF12 data rate 0 can be set by the application,
by the network, and by the range of a channel, and is used. -/
theorem c103_ordered :
    (Reachable cfg12 joined12 ∧ getRate joined12 = 1 ∧ sfs joined12 30000 = [11]) ∧
    (Reachable cfg12 set12 ∧ getRate set12 = 0 ∧ sfs set12 30000 = [12]) ∧
    (Reachable cfg12 ordered12 ∧ getRate ordered12 = 0 ∧ sfs ordered12 700000000 = [12]) ∧
    (Reachable cfg12 channel12 ∧ getRate channel12 = 1 ∧ sfs channel12 30000 = [12]) := by
  have hj : Reachable cfg12 joined12 := Demo.run_reach start12_reachable _ (by decide +kernel)
  refine ⟨⟨hj, by decide +kernel, by decide +kernel⟩, ⟨.step _ _ hj (by decide), by decide +kernel, by decide +kernel⟩,
    ⟨Demo.run_reach hj _ (by decide +kernel), by decide +kernel, by decide +kernel⟩,
    ⟨Demo.run_reach hj _ (by decide +kernel), by decide +kernel, by decide +kernel⟩⟩

/-- **C103 does not hold** for reception: in EU868 the second receive window of a device built without SF12 is opened
with spreading factor 12. -/
theorem c103_window : ((newEvents joined12 (run cfg12 joined12 ([Demo.send false 30000] ++ Demo.cycle 30000))).filterMap
    fun | .receive _ s => some (s.freq, s.sf) | _ => none) = [(868100000, 11), (869525000, 12)] := by
  decide +kernel

/-! ## Cases -/

theorem room_of {s : Session} (h : ∀ ch < 16, 256 ≤ s.chConfig ch → 0 < s.chConfig ch % 16)
    (h0 : ¬ Masked s 0 ∧ ((chan s 0).bind fun x => band s.region x.1).isSome) : RoomAboveZero s := by
  intro hd
  refine ⟨?_, ?_⟩
  · intro ch f lo hi hc
    unfold chan at hc
    have : (if ch < 16 ∧ 256 ≤ s.chConfig ch then
        some (s.chConfig ch / 256 * 100, s.chConfig ch / 16 % 16, s.chConfig ch % 16) else none) = some (f, lo, hi) := by
      rcases hd with hd | hd <;> rw [hd] at hc <;> exact hc
    split at this
    · rename_i hh
      cases this
      exact h ch hh.1 hh.2
    · cases this
  · obtain ⟨hm, hb⟩ := h0
    cases hc : chan s 0 with
    | none => rw [hc] at hb; cases hb
    | some x =>
      obtain ⟨f, lo, hi⟩ := x
      rw [hc] at hb
      obtain ⟨b, hb⟩ := Option.isSome_iff_exists.1 hb
      exact ⟨0, f, lo, hi, b, hm, hc, hb⟩

/-- A join that is not answered and is cancelled, then a send after personalisation. -/
def joining12 : List (Env × Call) :=
  Demo.boot ++ [(Demo.at_ 20000, .otaa)] ++ Demo.processAt [20000] ++ Demo.cycle 40000 ++ Demo.processAt [20000000] ++
    Demo.cycle 20040000 ++ [(Demo.at_ 400000000, .cancel)] ++ Demo.processAt [400000000, 400010000, 400020000] ++
    [(Demo.at_ 400030000, .abp 1)] ++ [Demo.send false 400040000] ++ Demo.processAt [400040000, 400080000]

/-- Nothing is heard if nothing is received. -/
theorem unheard_of {cfg : Cfg} (calls : List (Env × Call)) (h : ∀ x ∈ calls, x.1.statusRx = false) (m : Mac) :
    Unheard cfg m calls := by
  induction calls generalizing m with
  | nil => exact trivial
  | cons x rest ih =>
    refine ⟨fun _ hrx => ?_, ih (fun y hy => h y (by simp [hy])) _⟩
    have h1 := hrx.2.2
    have h2 := h x (by simp)
    rw [h2] at h1
    cases h1

/-- Such calls meet the hypotheses of `c103_new_partial`; the join requests have SF7 and SF8, the data SF11. -/
example : (transmitted (run cfg12 start12 joining12).out).map (fun x => x.1.sf) = [7, 8, 11] ∧
    (∀ x ∈ joining12, x.2.WF ∧ x.2 ≠ .setRate 0) ∧
    Unheard cfg12 start12 joining12 ∧
    (∀ k < joining12.length, RoomAboveZero (run cfg12 start12 (joining12.take k)).ctx) := by
  refine ⟨by decide +kernel, fun x hx => ⟨?_, ?_⟩, unheard_of _ (by decide +kernel) _, fun k hk => room_of ?_ ?_⟩
  · revert x; decide +kernel
  · have : ∀ x ∈ joining12, (match x.2 with | .setRate _ => true | _ => false) = false := by decide +kernel
    intro h
    have := this x hx
    rw [h] at this
    cases this
  · revert k; decide +kernel
  · revert k; decide +kernel

end LDL
