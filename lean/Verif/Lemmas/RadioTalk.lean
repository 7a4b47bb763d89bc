import Verif.Lemmas.OpState
import Verif.Lemmas.Buffer
import Verif.Spec.RadioProtocol
import Verif.Spec.LoRaRate

/-!
# The calls made on the radio follow the protocol
-/

namespace LDL
open Spec

theorem follow_append (d : Phase) (a b : List Event) : follow d (a ++ b) = (follow d a).bind fun d' => follow d' b := by
  induction a generalizing d with
  | nil => rfl
  | cons x l ih =>
    show (accepts d x).bind _ = ((accepts d x).bind _).bind _
    cases accepts d x with
    | none => rfl
    | some d' => exact ih d'

/-- An event that is not a call on the radio. -/
def NotRadio : Event → Bool
  | .setMode _ | .transmit .. | .receive .. | .receiveEntropy | .readEntropy | .readBuffer | .getStatus => false
  | _ => true

theorem accepts_notRadio {ev : Event} (h : NotRadio ev = true) (d : Phase) : accepts d ev = some d := by
  cases ev <;> first | rfl | cases h

theorem follow_notRadio {l : List Event} (h : ∀ x ∈ l, NotRadio x = true) (d : Phase) : follow d l = some d := by
  induction l with
  | nil => rfl
  | cons x l ih =>
    show (accepts d x).bind _ = _
    rw [accepts_notRadio (h x (List.mem_cons_self ..))]
    exact ih fun y hy => h y (List.mem_cons_of_mem _ hy)

/-- Going from `m` to `m'` the protocol is followed. -/
def Says (m m' : Mac) : Prop :=
  ∃ l, m'.out = m.out ++ l ∧ ∀ d, RadioIn m.state d → ∃ d', follow d l = some d' ∧ RadioIn m'.state d'

theorem Says.quiet {m m' : Mac} (l : List Event) (h : m'.out = m.out ++ l) (hl : ∀ x ∈ l, NotRadio x = true)
    (hs : ∀ d, RadioIn m.state d → RadioIn m'.state d) : Says m m' :=
  ⟨l, h, fun d hd => ⟨d, follow_notRadio hl d, hs d hd⟩⟩

theorem Says.rfl {m : Mac} : Says m m := .quiet [] (by simp) (by simp) fun _ h => h

theorem Says.trans {m m1 m2 : Mac} (h : Says m m1) (h' : Says m1 m2) : Says m m2 := by
  obtain ⟨l, a, b⟩ := h
  obtain ⟨l', a', b'⟩ := h'
  refine ⟨l ++ l', by rw [a', a, List.append_assoc], fun d hd => ?_⟩
  obtain ⟨d1, c1, c2⟩ := b d hd
  obtain ⟨d2, c3, c4⟩ := b' d1 c2
  exact ⟨d2, by rw [follow_append, c1]; exact c3, c4⟩

/-- Looks only at state and log. -/
theorem Says.congr {m m' a b : Mac} (h : Says m m') (h1 : a.state = m.state) (h2 : a.out = m.out)
    (h3 : b.state = m'.state) (h4 : b.out = m'.out) : Says a b := by
  unfold Says at *
  rw [h1, h2, h3, h4]; exact h

theorem Missing.says {cfg : Cfg} {e : Env} {m m' : Mac} (h : Missing cfg e m m') (d : Phase) (hd : d = .sleep)
    (ho : m.op = .joining ∨ m.op = .dataUnconfirmed ∨ m.op = .dataConfirmed) :
    ∃ l, m'.out = m.out ++ l ∧ (∀ x ∈ l, NotRadio x = true) ∧ RadioIn m'.state d := by
  subst hd
  cases h with
  | retry => exact ⟨[], by simp, by simp, rfl⟩
  | giveUp h hr ch r p c q o ho' =>
    refine ⟨o ++ [if m.op = .dataConfirmed then .dataTimeout else .dataComplete], by simp, ?_, rfl⟩
    intro x hx
    rcases List.mem_append.1 hx with hx | hx
    · rcases ho' with ho' | ⟨s, ho', _⟩
      · rw [ho'] at hx; simp at hx
      · rw [ho'] at hx; simp only [List.mem_singleton] at hx; rw [hx]; rfl
    · simp only [List.mem_singleton] at hx
      rw [hx]; split <;> rfl
  | nextJoin h =>
    obtain ⟨dn, b, bl, t, hn⟩ := nextJoinRequest_shape cfg e { m with trials := u32 (m.trials + 1) }
    rw [hn]
    exact ⟨[_], rfl, by simp [NotRadio], rfl⟩
  | exhausted => exact ⟨[_], rfl, by simp [NotRadio], rfl⟩
  | other h => rcases ho with ho | ho | ho <;> simp [ho] at h

theorem RadioErr.says {cfg : Cfg} {e : Env} {m m' : Mac} (h : RadioErr cfg e m m') :
    m'.state = .radioReset ∧ ∃ l, m'.out = m.out ++ l ++ [.setMode .reset] ∧ (∀ x ∈ l, NotRadio x = true) := by
  cases h with
  | op => exact ⟨rfl, [_], rfl, by simp [NotRadio]⟩
  | nextJoin ho hn x hx =>
    obtain ⟨dn, b, bl, t, h⟩ := nextJoinRequest_shape cfg e { m with
      inputArmed := false, timerA := m.timerA.clear, timerB := m.timerB.clear, trials := u32 (m.trials + 1) }
    rw [hx, h]
    exact ⟨rfl, [_], rfl, by simp [NotRadio]⟩
  | exhausted => exact ⟨rfl, [_], rfl, by simp [NotRadio]⟩

theorem RadioErr.saysFrom {cfg : Cfg} {e : Env} {m m1 m' : Mac} (h : RadioErr cfg e m1 m') (o : List Event)
    (ho : m1.out = m.out ++ o) (hd : ∀ d, RadioIn m.state d → (follow d o).isSome = true) : Says m m' := by
  obtain ⟨hs, l, hl, hq⟩ := h.says
  refine ⟨o ++ (l ++ [.setMode .reset]), by rw [hl, ho]; simp, fun d h => ?_⟩
  obtain ⟨d1, h1⟩ := Option.isSome_iff_exists.1 (hd d h)
  refine ⟨.reset, ?_, by rw [hs]; rfl⟩
  rw [follow_append, h1]
  show follow d1 (l ++ _) = _
  rw [follow_append, follow_notRadio hq]
  rfl

/-- A step that adds the given calls. -/
theorem Says.step {m m' : Mac} (l : List Event) (h : m'.out = m.out ++ l) (d d' : Phase)
    (h1 : ∀ x, RadioIn m.state x → x = d) (h2 : follow d l = some d') (h3 : RadioIn m'.state d') : Says m m' := by
  refine ⟨l, h, fun x hx => ?_⟩
  rw [h1 x hx]
  exact ⟨d', h2, h3⟩

theorem infoEvent_notRadio {x : Event} (h : InfoEvent x) : NotRadio x = true := by
  cases x <;> first | rfl | cases h

theorem Disp.says {cfg : Cfg} {e : Env} {ev : Sme} {lag : Nat} {m m' : Mac} (h : Disp cfg e ev lag m m') (hm : OpOk m)
    (hw : m.state ≠ .waitRX1 ∧ m.state ≠ .waitRX2 ∧ m.state ≠ .waitEntropy ∧ m.state ≠ .waitTX) : Says m m' := by
  have hop : m.state = .rx1 ∨ m.state = .rx2 ∨ m.state = .rx2Lockout →
      m.op = .joining ∨ m.op = .dataUnconfirmed ∨ m.op = .dataConfirmed := by
    intro h
    unfold OpOk at hm
    rcases h with h | h | h <;> rw [h] at hm <;> cases ho : m.op <;> rw [ho] at hm <;> simp [opAllowed] at hm ⊢
  have rx : m.state = .rx1 ∨ m.state = .rx2 → ∀ x, RadioIn m.state x → x = .receiving := by
    intro h x hx
    rcases h with h | h <;> rw [h] at hx <;> exact hx
  cases h
  case stay => exact .rfl
  case init hs => exact .step [_] rfl .unknown .reset (fun x hx => by rw [hs] at hx; exact hx) rfl rfl
  case reset hs he => exact .step [_] rfl .reset .boot (fun x hx => by rw [hs] at hx; exact hx) rfl (Or.inl rfl)
  case boot hs he =>
    refine ⟨[_], rfl, fun d hd => ⟨.sleep, ?_, ?_⟩⟩
    · rw [hs] at hd
      rcases hd with hd | hd <;> rw [hd] <;> rfl
    · show RadioIn (bootState m.op) _
      cases m.op <;> rfl
  case startEntropy hs he => exact .step [_] rfl .rx .receiving (fun x hx => by rw [hs] at hx; exact hx) rfl rfl
  case entropy hs he => exact .step _ rfl .receiving .sleep (fun x hx => by rw [hs] at hx; exact hx) rfl rfl
  case otaa hs hb => exact .step [] (by simp) .sleep .sleep (fun x hx => by rw [hs] at hx; exact hx) rfl rfl
  case waitA hs _ _ _ => rcases hs with h | h | h <;> simp [h] at hw
  case waitB hs _ _ _ => simp [hs] at hw
  case startTX hs he => exact .step [_] rfl .tx .transmitting (fun x hx => by rw [hs] at hx; exact hx) rfl rfl
  case txError hs he =>
    have h := handleRadioError_cases cfg e (registerTime (statusRead ev m))
    refine h.saysFrom (if ev = .interrupt then [.getStatus] else []) ?_ ?_
    · rw [registerTime_out]
      unfold statusRead
      split
      · rfl
      · simp
    · intro d hd
      rw [hs] at hd
      have hd : d = .transmitting := hd
      rw [hd]
      split <;> rfl
  case txDone hs he ht =>
    obtain ⟨_, _, _, _, s, h, h2⟩ := txComplete_shape cfg e lag (registerTime (m.emit .getStatus))
    rw [h]
    refine .step [.getStatus, .setMode .hold] ?_ .transmitting .hold (fun x hx => by rw [hs] at hx; exact hx) rfl ?_
    · show (registerTime (m.emit .getStatus)).out ++ _ = _
      rw [registerTime_out]
      simp [Mac.emit]
    · show RadioIn s _
      rcases h2 with ⟨h2, _⟩ | ⟨h2, _⟩ <;> rw [h2] <;> rfl
  case startRX1 hs he => exact .step [_] rfl .rx .receiving (fun x hx => by rw [hs] at hx; exact hx) rfl rfl
  case startRX2 hs he => exact .step [_] rfl .rx .receiving (fun x hx => by rw [hs] at hx; exact hx) rfl rfl
  case rxError hs he =>
    have h := handleRadioError_cases cfg e (m.emit .getStatus)
    refine h.saysFrom [.getStatus] rfl ?_
    intro d hd
    rw [rx hs d hd]
    rfl
  case rxRejected hs _ _ _ _ =>
    obtain ⟨l, h1, h2, h3⟩ := (downlinkMissing_missing cfg e (packetState e m)).says .sleep rfl
      (hop (by rcases hs with h | h <;> simp [h]))
    refine .step ([.getStatus, .readBuffer, .setMode .sleep] ++ l) ?_ .receiving .sleep (rx hs) ?_ h3
    · rw [h1]
      simp [packetState]
    · rw [follow_append]
      exact follow_notRadio h2 _
  case rxJoin hs _ _ f buf _ _ _ =>
    obtain ⟨r, cc, cm, v, pc, k, h⟩ := joinAccepted_shape cfg (packetState e m) f buf
    refine .step ([.getStatus, .readBuffer, .setMode .sleep] ++
      [.joinComplete (u32 (f.joinNonce + 1)) f.netID f.devAddr, .sessionUpdated (joinAccepted cfg (packetState e m) f buf).ctx])
      ?_ .receiving .sleep (rx hs) rfl ?_
    · show (joinAccepted cfg (packetState e m) f buf).out ++ _ = _
      have : (joinAccepted cfg (packetState e m) f buf).out =
        (packetState e m).out ++ [.joinComplete (u32 (f.joinNonce + 1)) f.netID f.devAddr] := by rw [h]
      rw [this]
      simp [packetState]
    · show RadioIn (joinAccepted cfg (packetState e m) f buf).state _
      rw [h]; rfl
  case rxData hs _ _ f buf _ _ _ =>
    obtain ⟨c, o, h, ho⟩ := dataReceived_shape cfg e (packetState e m) f buf
    refine .step ([.getStatus, .readBuffer, .setMode .sleep] ++
      (o ++ dataEndEvents m.op f.ack ++ [.sessionUpdated (dataReceived cfg e (packetState e m) f buf).ctx]))
      ?_ .receiving .sleep (rx hs) ?_ ?_
    · show (dataReceived cfg e (packetState e m) f buf).out ++ _ = _
      have : (dataReceived cfg e (packetState e m) f buf).out =
        (packetState e m).out ++ o ++ dataEndEvents m.op f.ack := by rw [h]; rfl
      rw [this]
      simp [packetState]
    · rw [follow_append]
      refine follow_notRadio ?_ _
      intro x hx
      rcases List.mem_append.1 hx with hx | hx
      · rcases List.mem_append.1 hx with hx | hx
        · rcases ho x hx with h | ⟨_, _, _, h⟩
          · exact infoEvent_notRadio h
          · rw [h]; rfl
        · unfold dataEndEvents at hx
          split at hx
          · simp only [List.mem_singleton] at hx; rw [hx]; split <;> rfl
          · simp at hx
          · simp only [List.mem_singleton] at hx; rw [hx]; rfl
      · simp only [List.mem_singleton] at hx; rw [hx]; rfl
    · show RadioIn (dataReceived cfg e (packetState e m) f buf).state _
      rw [h]; rfl
  case rxTimeout1 hs _ _ _ =>
    exact .step [.getStatus, .setMode .hold] (by simp) .receiving .hold (rx (Or.inl hs)) rfl rfl
  case rxTimeout2 hs _ _ _ d =>
    exact .step [.getStatus, .setMode .sleep] (by simp) .receiving .sleep (rx (Or.inr hs)) rfl rfl
  case lockout hs _ =>
    obtain ⟨l, h1, h2, h3⟩ := (downlinkMissing_missing cfg e m).says .sleep rfl (hop (by simp [hs]))
    exact .step l h1 .sleep .sleep (fun x hx => by rw [hs] at hx; exact hx) (follow_notRadio h2 _) h3

theorem processWait_says (cfg : Cfg) (ev : Sme) (lag : Nat) (m : Mac)
    (hs : m.state = .waitRX1 ∨ m.state = .waitRX2 ∨ m.state = .waitEntropy ∨ m.state = .waitTX) :
    Says m (processWait cfg ev lag m) := by
  unfold processWait
  split
  · rcases hs with h | h | h | h <;> rw [h] <;> simp only []
    · exact .step [.setMode .rx] rfl .hold .rx (fun x hx => by rw [h] at hx; exact hx) rfl rfl
    · exact .step [.setMode .rx] rfl .hold .rx (fun x hx => by rw [h] at hx; exact hx) rfl rfl
    · exact .step [.setMode .rx] rfl .sleep .rx (fun x hx => by rw [h] at hx; exact hx) rfl rfl
    · exact .step [.setMode .tx] rfl .sleep .tx (fun x hx => by rw [h] at hx; exact hx) rfl rfl
  · exact .rfl

theorem dispatch_says (cfg : Cfg) (e : Env) (ev : Sme) (lag : Nat) (m : Mac) (hm : OpOk m) :
    Says m (dispatch cfg e ev lag m) := by
  by_cases hs : m.state = .waitRX1 ∨ m.state = .waitRX2 ∨ m.state = .waitEntropy ∨ m.state = .waitTX
  · have h : dispatch cfg e ev lag m = processWait cfg ev lag m := by
      unfold dispatch
      rcases hs with h | h | h | h <;> rw [h]
    rw [h]
    exact processWait_says cfg ev lag m hs
  · exact (dispatch_disp cfg e ev lag m).says hm (by simpa [not_or] using hs)

theorem process_says (cfg : Cfg) (e : Env) (m : Mac) (hm : OpOk m) : Says m (process cfg e m) := by
  obtain ⟨ev, lag, m1, hp, h⟩ := process_cases cfg e m
  obtain ⟨tt, tr, d, b, ia, is, ta, tb, o, heq⟩ := hp.eq
  have hst : m1.state = m.state := by rw [heq]
  have hop : m1.op = m.op := by rw [heq]
  have h1 : Says m m1 := by
    rcases hp.out with h | h
    · exact .quiet [] (by rw [h]; simp) (by simp) fun d hd => by rw [hst]; exact hd
    · exact .quiet [_] h (by simp [NotRadio]) fun d hd => by rw [hst]; exact hd
  have h2 : Says m1 (if ev = .none then m1 else dispatch cfg e ev lag m1) := by
    split
    · exact .rfl
    · exact dispatch_says cfg e ev lag m1 (by unfold OpOk at *; rw [hst, hop]; exact hm)
  rw [h]
  obtain ⟨p, t, hs⟩ := setNextBandEvent_shape cfg e (if ev = .none then m1 else dispatch cfg e ev lag m1)
  generalize (if ev = .none then m1 else dispatch cfg e ev lag m1) = m2 at *
  rw [hs]
  exact (h1.trans h2).congr rfl rfl rfl rfl

theorem cancel_says (m : Mac) : Says m (cancel m) := by
  rcases cancel_shape m with ⟨_, h⟩ | ⟨_, h⟩
  · rw [h]
    refine .quiet _ rfl ?_ fun _ h => h
    intro x hx
    split at hx
    · simp at hx
    · simp only [List.mem_singleton] at hx; rw [hx]; rfl
  · rw [h]
    refine ⟨_, rfl, fun d hd => ⟨.reset, ?_, rfl⟩⟩
    show follow .reset _ = _
    refine follow_notRadio ?_ _
    intro x hx
    split at hx
    · simp at hx
    · simp only [List.mem_singleton] at hx; rw [hx]; rfl

theorem step_says (cfg : Cfg) (e : Env) (m : Mac) (c : Call) (hm : OpOk m) : Says m (step cfg m e c).1 := by
  by_cases hc : c = .process
  · subst hc; exact process_says cfg e m hm
  · have h := step_api cfg e m c hc
    generalize (step cfg m e c).1 = m' at *
    generalize (step cfg m e c).2 = st at *
    cases h
    case refused => exact .rfl
    case entropyIdle ho hs => exact .quiet [] (by simp) (by simp) fun d hd => by rw [hs] at hd; exact Or.inr hd
    case entropyLater ho hs => exact .quiet [] (by simp) (by simp) fun d hd => hd
    case otaa hj ho hn x hx s t hst =>
      obtain ⟨k, hk⟩ := deriveJoinKeys_shape cfg { m with trials := 0, day := 60 * 60 * 24 * timeTPS }
      obtain ⟨dn, b, bl, t', h⟩ := nextJoinRequest_shape cfg e
        (Ops.deriveJoinKeys cfg { m with trials := 0, day := 60 * 60 * 24 * timeTPS })
      rw [hk] at h
      have hxo : x.out = m.out ++ [.devNonceUpdated (u32 (m.devNonce + 1))] := by rw [hx, hk, h]
      refine .quiet [_] hxo (by simp [NotRadio]) fun d hd => ?_
      show RadioIn s d
      rcases hst with ⟨h1, h2, _⟩ | ⟨_, h2, _⟩
      · rw [h2]; rw [h1] at hd; exact hd
      · rw [h2]; exact hd
    case abp => exact .quiet [] (by simp) (by simp) fun d hd => hd
    case dataRefused => exact .quiet [] (by simp) (by simp) fun d hd => hd
    case data cf p dd l o hj ho hp hb freq ch rate hsel hl m0 hm0 =>
      obtain ⟨b, bl, op, s, t, h, _, h2⟩ := sendData_shape cfg e m0 cf p dd l o (m.ctx.region.convertRate m.ctx.rate).mtu
      have h0 : m0.state = m.state ∧ m0.out = m.out := by rw [hm0]; exact ⟨rfl, rfl⟩
      rw [h]
      refine .quiet [_] (congrArg (· ++ _) h0.2) (by simp [NotRadio]) fun d hd => ?_
      show RadioIn s d
      rw [h0.1] at h2
      rcases h2 with ⟨h1, h2, _⟩ | ⟨_, h2, _⟩
      · rw [h2]; rw [h1] at hd; exact hd
      · rw [h2]; exact hd
    case forget =>
      refine (cancel_says m).trans ?_
      unfold forget
      simp only []
      split
      · exact .quiet [_] rfl (by simp [NotRadio]) fun d hd => hd
      · exact .rfl
    case cancel => exact cancel_says m
    case setRate => exact .quiet [_] rfl (by simp [NotRadio]) fun d hd => hd
    case setPower => exact .quiet [_] rfl (by simp [NotRadio]) fun d hd => hd
    case setADR => exact .quiet [_] rfl (by simp [NotRadio]) fun d hd => hd
    case setMaxDCycle => exact .quiet [_] rfl (by simp [NotRadio]) fun d hd => hd
    case addChannel => exact .quiet [] (by simp) (by simp) fun d hd => hd
    case maskChannel => exact .quiet [] (by simp) (by simp) fun d hd => hd
    case unmaskChannel => exact .quiet [] (by simp) (by simp) fun d hd => hd
    case latched => exact .quiet [] (by simp) (by simp) fun d hd => hd
    case ignored => exact .rfl
    case late => exact .quiet [] (by simp) (by simp) fun d hd => hd
    case notLate => exact .rfl

/-- The protocol is followed in every execution. -/
theorem reachable_says {cfg : Cfg} {m : Mac} (h : Spec.Reachable cfg m) :
    ∃ d, follow .unknown m.out = some d ∧ RadioIn m.state d := by
  induction h with
  | init region arg e _ _ =>
    obtain ⟨h1, h2⟩ : (init cfg region arg e).out = [] ∧ (init cfg region arg e).state = .init := by
      obtain ⟨_, _, h, _⟩ := init_fields cfg region arg e
      rw [h]; exact ⟨rfl, rfl⟩
    rw [h1, h2]
    exact ⟨.unknown, rfl, rfl⟩
  | step e c h hc ih =>
    obtain ⟨d, h1, h2⟩ := ih
    obtain ⟨l, h3, h4⟩ := step_says cfg e _ c h.reach.opOk
    obtain ⟨d', h5, h6⟩ := h4 d h2
    exact ⟨d', by rw [h3, follow_append, h1]; exact h5, h6⟩

theorem convertRate_usable (r : Region) (rate : Nat) : Spec.Usable (r.convertRate rate).bw (r.convertRate rate).sf := by
  unfold Region.convertRate Spec.Usable
  cases r <;> dsimp only <;> split <;> simp

theorem maxEIRP_range (i : Nat) : 0 ≤ maxEIRP i ∧ maxEIRP i ≤ 36 := by
  unfold maxEIRP
  by_cases h : i < 16
  · have : ∀ i < 16, 0 ≤ [8, 10, 12, 13, 14, 16, 18, 20, 21, 24, 26, 27, 29, 30, 33, 36].getD i (0 : Int) ∧
        [8, 10, 12, 13, 14, 16, 18, 20, 21, 24, 26, 27, 29, 30, 33, 36].getD i (0 : Int) ≤ 36 := by decide
    exact this i h
  · rw [List.getD_eq_getElem?_getD, List.getElem?_eq_none (by simp; omega)]
    decide

theorem txEirp_range (m : Mac) : 0 ≤ txEirp m ∧ txEirp m ≤ 3600 := by
  have h1 : 0 ≤ m.ctx.region.getTXPower m.tx.power ∧ m.ctx.region.getTXPower m.tx.power ≤ 3600 := by
    unfold Region.getTXPower
    cases m.ctx.region <;> dsimp only <;> split <;> omega
  have h2 := maxEIRP_range (m.ctx.txParamSetup &&& 0xf)
  unfold txEirp
  dsimp only
  (repeat' split) <;> omega

theorem mayEmit_fine {cfg : Cfg} {e : Env} {m : Mac} {c : Call} {ev : Event} (hb : m.buffer.length = 255)
    (h : MayEmit cfg e m c ev) : Spec.Fine ev := by
  cases h with
  | transmit hs hi ht => exact ⟨convertRate_usable _ _, by rw [List.length_take, hb]; omega, txEirp_range m⟩
  | receive1 hs hi ht => exact ⟨convertRate_usable _ _, Nat.le_of_lt_succ (Nat.mod_lt _ (by decide))⟩
  | receive2 hs hi ht => exact ⟨convertRate_usable _ _, Nat.le_of_lt_succ (Nat.mod_lt _ (by decide))⟩
  | info _ _ _ _ hi => cases ev <;> first | exact trivial | cases hi
  | _ => exact trivial

/-- All calls on the radio are within its ranges. -/
theorem reachable_fine {cfg : Cfg} (hE : ∀ k, BlockFn (cfg.E k)) {m : Mac} (h : Spec.Reachable cfg m) :
    ∀ x ∈ m.out, Spec.Fine x := by
  induction h with
  | init region arg e _ _ =>
    have h1 : (init cfg region arg e).out = [] := by
      obtain ⟨_, _, h, _⟩ := init_fields cfg region arg e
      rw [h]
    rw [h1]
    simp
  | step e c h hc ih =>
    obtain ⟨l, h1, h2⟩ := step_emits cfg e _ c
    intro x hx
    rw [h1] at hx
    rcases List.mem_append.1 hx with hx | hx
    · exact ih x hx
    · exact mayEmit_fine (h.bufOk hE).buffer (h2 x hx)

end LDL
