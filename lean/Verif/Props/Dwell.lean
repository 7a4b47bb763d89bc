import Verif.Spec.Dwell
import Verif.Props.JoinChannel

/-!
# Dwell time: C94
-/

namespace LDL
open Spec

/-! ## Data -/

/-- The rate and the size of the frame of an accepted send. -/
theorem sent_size {cfg : Cfg} (hE : ∀ k, BlockFn (cfg.E k)) {m : Mac} (hr : Reachable cfg m) (e : Env)
    (confirmed : Bool) (port : Nat) (payload : Option Bytes) (len : Nat) (opts : Option DataOpts)
    (hw : (Call.data confirmed port payload len opts).WF) (hnull : payload = none → len = 0)
    (ha : Accepted (step cfg m e (.data confirmed port payload len opts)).2)
    (hfix : m.ctx.region = .us915 ∨ m.ctx.region = .au915)
    (calls : List (Env × Call)) (hc : ∀ x ∈ calls, x.2.WF) (s : TxSetting) (frame : Bytes)
    (hx : (s, frame) ∈ sentBy cfg (step cfg m e (.data confirmed port payload len opts)).1 calls) :
    ∃ ch lo hi, chan m.ctx ch = some (s.freq, lo, hi) ∧ ¬ Masked m.ctx ch ∧
      s.sf = sfOf m.ctx.region (requiredRate m.ctx.rate lo hi) ∧
      bwToNumber s.bw = bwOf m.ctx.region (requiredRate m.ctx.rate lo hi) ∧ 4 ≤ frame.length ∧
      ((step cfg m e (.data confirmed port payload len opts)).2 = .ok →
        frame.length ≤ maxPayload m.ctx.region m.ctx.rate + 5) ∧ 
      ((step cfg m e (.data confirmed port payload len opts)).2 ≠ .ok → frame.length ≤ 34) := by
  have hs := sent_setting hE hr e confirmed port payload len opts hw ha calls hc _ hx
  obtain ⟨lo, hi, h1, h2, h3, h4, _⟩ := sent_channel hr e confirmed port payload len opts ha _ rfl
  obtain ⟨freq, ch, rate, f, c, _, hp, ho, _, hlen, hfr, _⟩ :=
    send_frame hE hr e confirmed port payload len opts hw hnull ha _ rfl
  have hrt := hr.sessionOk.rate
  have hmtu : (m.ctx.region.convertRate m.ctx.rate).mtu = maxPayload m.ctx.region m.ctx.rate :=
    (convertRate_spec m.ctx.region m.ctx.rate (List.mem_append_left _ hrt)).2.2
  rw [hmtu] at hp hlen
  generalize (step cfg m e (.data confirmed port payload len opts)).1 = m' at hs h1 h2 h3 h4 hfr
  generalize (step cfg m e (.data confirmed port payload len opts)).2 = st at hp ha
  simp only [Prod.mk.injEq] at hs
  obtain ⟨hs, hfrm⟩ := hs
  have hok := rangeOk_fixed hfix h2
  obtain ⟨r1, r2, r3⟩ := requiredRate_range hrt hok
  obtain ⟨c1, c2, _⟩ := convertRate_spec m.ctx.region (requiredRate m.ctx.rate lo hi) (List.mem_append_left _ r3)
  have hl : frame.length = (sealed cfg m f).body.length + 4 := by
    rw [hfrm, hfr, List.length_append, Stream.le_length]
  have hpl := placed_length hE m (dataHeader m confirmed port) f c st ⟨rfl, rfl, rfl⟩ confirmed _
    (uplinkAnswers_bytes cfg m (dataOptions opts)).2 payload len _ hw.2.2.1 hp ho
  rw [hl]
  refine ⟨m'.tx.chIndex, lo, hi, ?_, h1.1, ?_, ?_, by omega, hpl.1, hpl.2⟩
  · rw [hs]; exact h2
  · rw [hs]
    show (m'.ctx.region.convertRate m'.tx.rate).sf = _
    rw [h4, h3, c1]
  · rw [hs]
    show bwToNumber (m'.ctx.region.convertRate m'.tx.rate).bw = _
    rw [h4, h3, c2]

/-- The channels of US915: two ranges of rates. -/
theorem us_range {s : Session} (hs : s.region = .us915) {ch f lo hi : Nat} (h : chan s ch = some (f, lo, hi)) :
    (lo = 0 ∧ hi = 3) ∨ (lo = 4 ∧ hi = 4) := by
  unfold chan at h
  rw [hs] at h
  simp only [] at h
  split at h
  · cases h; exact Or.inl ⟨rfl, rfl⟩
  · split at h
    · cases h; exact Or.inr ⟨rfl, rfl⟩
    · cases h

/-- **C94, US915, partial**: whatever is called after a send request was accepted, its frame is on the air for at most
400 ms each time it is transmitted.  MAC commands sent in place of the payload at data rate 0 are excluded (see
`c94_us_commands`). -/
theorem c94_us_partial {cfg : Cfg} (hE : ∀ k, BlockFn (cfg.E k)) {m : Mac} (hr : Reachable cfg m) (e : Env)
    (confirmed : Bool) (port : Nat) (payload : Option Bytes) (len : Nat) (opts : Option DataOpts)
    (hw : (Call.data confirmed port payload len opts).WF) (hnull : payload = none → len = 0)
    (ha : Accepted (step cfg m e (.data confirmed port payload len opts)).2)
    (hreg : m.ctx.region = .us915)
    (hmac : (step cfg m e (.data confirmed port payload len opts)).2 = .macPriority → m.ctx.rate ≠ 0)
    (calls : List (Env × Call)) (hc : ∀ x ∈ calls, x.2.WF) (s : TxSetting) (frame : Bytes)
    (hx : (s, frame) ∈ sentBy cfg (step cfg m e (.data confirmed port payload len opts)).1 calls) :
    WithinDwell s frame := by
  obtain ⟨ch, lo, hi, h1, _, h2, h3, _, h4, h5⟩ :=
    sent_size hE hr e confirmed port payload len opts hw hnull ha (Or.inl hreg) calls hc s frame hx
  have hrt := hr.sessionOk.rate
  have hn : frame.length ≤ maxPayload m.ctx.region m.ctx.rate + 5 := by
    rcases ha with ha | ha
    · exact h4 ha
    · have h6 := h5 (by rw [ha]; simp)
      have h7 := hmac ha
      rw [hreg] at hrt ⊢
      have : ∀ r ∈ upRates .us915, r ≠ 0 → 34 ≤ maxPayload .us915 r + 5 := by decide
      have := this _ hrt h7
      omega
  unfold WithinDwell
  rw [h2, h3]
  have hr2 := us_range hreg h1
  rw [hreg] at hrt hn ⊢
  generalize m.ctx.rate = r at *
  generalize frame.length = n at *
  have hr5 : r = 0 ∨ r = 1 ∨ r = 2 ∨ r = 3 ∨ r = 4 := by
    have : ∀ r ∈ upRates .us915, r = 0 ∨ r = 1 ∨ r = 2 ∨ r = 3 ∨ r = 4 := by decide
    exact this r hrt
  clear hrt h1 h2 h3 h4 h5 hmac
  rcases hr2 with ⟨rfl, rfl⟩ | ⟨rfl, rfl⟩ <;> rcases hr5 with rfl | rfl | rfl | rfl | rfl <;>
    simp only [requiredRate, sfOf, bwOf, maxPayload, AirTimeAtMost, quarterSymbols, payloadSymbols, lowDataRate] at hn ⊢ <;>
    simp at hn ⊢ <;> omega

/-- **C94 does not hold** for MAC commands sent in place of the payload: a US915 device with an answer due to every
request of LoRaWAN 1.0 sends 26 bytes at data rate 0, which takes more than 400 ms. -/
theorem c94_us_commands :
    Reachable Demo.cfg (run Demo.cfg (init Demo.cfg .us915 { session := some usBusy } (Demo.at_ 0)) Demo.boot) ∧
    (∀ x ∈ sentBy Demo.cfg (step Demo.cfg (run Demo.cfg (init Demo.cfg .us915 { session := some usBusy } (Demo.at_ 0))
      Demo.boot) (Demo.at_ 30000) (.data false 1 (some [1, 2, 3]) 3 none)).1 (Demo.cycle 30000),
        ¬ WithinDwell x.1 x.2) ∧
    (sentBy Demo.cfg (step Demo.cfg (run Demo.cfg (init Demo.cfg .us915 { session := some usBusy } (Demo.at_ 0))
      Demo.boot) (Demo.at_ 30000) (.data false 1 (some [1, 2, 3]) 3 none)).1 (Demo.cycle 30000)).length = 1 := by
  refine ⟨c43_mac_priority.1, ?_, by decide +kernel⟩
  unfold WithinDwell AirTimeAtMost
  decide +kernel

/-- The largest frame of US915 data rate 0 is sent within the limit. -/
example : (step Demo.cfg usJoined (Demo.at_ 30000) (.data false 1 (some (List.replicate 11 7)) 11 none)).2 = .ok ∧
    usJoined.ctx.region = .us915 ∧
    (sentBy Demo.cfg (step Demo.cfg usJoined (Demo.at_ 30000)
      (.data false 1 (some (List.replicate 11 7)) 11 none)).1 (Demo.cycle 30000)).map
        (fun x => (x.1.sf, x.2.length)) = [(10, 24)] := by
  refine ⟨by decide +kernel, by decide +kernel, by decide +kernel⟩

/-! ## Join requests -/

/-- The rate selected is one that keeps a join request within the limit. -/
def JoinFast (r : Region) (rate : Nat) : Prop :=
  r = .us915 ∧ ((rate = 0 ∨ rate = 1) ∨ rate = 4) ∨ r = .au915 ∧ (rate = 2 ∨ rate = 6)

theorem selectJoin_fast {cfg : Cfg} (e : Env) {m : Mac} (h : m.ctx.region = .us915 ∨ m.ctx.region = .au915) :
    JoinFast m.ctx.region (selectJoinChannelAndRate cfg e m).rate := by
  have hlt := joinIndex_lt m.ctx.region h m.trials (e.draw 1)
  unfold selectJoinChannelAndRate JoinFast
  simp only []
  generalize m.ctx.region.getJoinIndex m.trials (e.draw 1) = ch at *
  generalize uplinkDwell m.ctx.txParamSetup = b
  rcases h with h | h <;> rw [h] <;> simp only [Region.isDynamic, Region.getChannel, Bool.false_eq_true, if_false] <;>
    by_cases h64 : ch < 64
  · rw [if_pos h64]; left
    unfold Cfg.minRate
    cases cfg.noSf12
    · exact ⟨trivial, Or.inl (Or.inl rfl)⟩
    · exact ⟨trivial, Or.inl (Or.inr rfl)⟩
  · rw [if_neg h64, if_pos hlt]; left
    unfold Cfg.minRate
    cases cfg.noSf12 <;> exact ⟨trivial, Or.inr rfl⟩
  · rw [if_pos h64]; right; cases b <;> exact ⟨trivial, Or.inl rfl⟩
  · rw [if_neg h64, if_pos hlt]; right; cases b <;> exact ⟨trivial, Or.inr rfl⟩

theorem NewRequest.fast {cfg : Cfg} {e : Env} {m m' : Mac} (hn : NewRequest cfg e m m')
    (h : m.ctx.region = .us915 ∨ m.ctx.region = .au915) :
    m'.ctx.region = m.ctx.region ∧ JoinFast m.ctx.region m'.tx.rate := by
  obtain ⟨x, _, _, _, h4, _, _, _, _, _, _, _, h12, h13, _, _⟩ := hn.made
  have hreg : (nextJoinRequest cfg e x).ctx.region = x.ctx.region := by
    obtain ⟨dn, _, _, _, h⟩ := nextJoinRequest_shape cfg e x
    rw [h]
  refine ⟨by rw [h13, hreg, h4], ?_⟩
  have key : ∃ (y : Mac), y.ctx.region = x.ctx.region ∧
      (nextJoinRequest cfg e x).tx = selectJoinChannelAndRate cfg e y := by
    unfold nextJoinRequest fillJoinBuffer
    dsimp only [Mac.emit]
    generalize (if cfg.version = .v103 then u16 (e.draw 0) else u16 x.devNonce) = dn
    generalize Ops.prepareJoinRequest cfg _ _ _ _ = p
    exact ⟨{ x with ctx := { x.ctx with devNonce := dn }, bufferLen := p.1, buffer := p.2 }, rfl, rfl⟩
  obtain ⟨y, y1, y2⟩ := key
  have hy : y.ctx.region = m.ctx.region := by rw [y1, h4]
  rw [h12, y2, ← hy]
  exact selectJoin_fast e (hy ▸ h)

theorem JoinFast.dwell {m : Mac} (h : JoinFast m.ctx.region m.tx.rate) (hl : m.bufferLen = 23) :
    WithinDwell (txSetting m) m.frame := by
  have hn : m.frame.length ≤ 23 := by
    unfold Mac.frame
    rw [hl]
    exact List.length_take_le _ _
  unfold WithinDwell
  show AirTimeAtMost (bwToNumber (m.ctx.region.convertRate m.tx.rate).bw) (m.ctx.region.convertRate m.tx.rate).sf _ _ _ _
  generalize m.frame.length = n at *
  rcases h with ⟨h1, (h2 | h2) | h2⟩ | ⟨h1, h2 | h2⟩ <;> rw [h1, h2] <;>
    simp only [Region.convertRate, bwToNumber, AirTimeAtMost, quarterSymbols, payloadSymbols, lowDataRate] <;>
    simp <;> omega

theorem joining_dwell {cfg : Cfg} (hE : ∀ k, BlockFn (cfg.E k)) (calls : List (Env × Call)) (hc : ∀ x ∈ calls, x.2.WF)
    {m : Mac} (hr : Reachable cfg m) (ho : m.op = .joining) (hw : JoinFast m.ctx.region m.tx.rate)
    (hl : m.bufferLen = 23) (s : TxSetting) (frame : Bytes) (hs : (s, frame) ∈ sentBy cfg m calls) :
    WithinDwell s frame := by
  induction calls generalizing m with
  | nil => cases hs
  | cons x rest ih =>
    obtain ⟨e, c⟩ := x
    have hcw : c.WF := hc (e, c) (by simp)
    have hr' : Reachable cfg (step cfg m e c).1 := .step e c hr hcw
    obtain ⟨o, hout, hstep, _⟩ := step_does cfg e m c hr.reach.opOk
    unfold sentBy at hs
    simp only [] at hs
    rw [hout, List.drop_left] at hs
    have ht : transmitted o = transmissions o := rfl
    rw [ht] at hs
    have hih := ih (fun x hx => hc x (by simp [hx])) hr'
    have hfix : m.ctx.region = .us915 ∨ m.ctx.region = .au915 := hw.elim (fun h => Or.inl h.1) fun h => Or.inr h.1
    have hbuf := hr.bufOk hE
    generalize (step cfg m e c).1 = m' at *
    have later : m'.op = .joining → JoinFast m'.ctx.region m'.tx.rate → m'.bufferLen = 23 →
        (s, frame) ∈ (if m'.op = .none then [] else sentBy cfg m' rest) → WithinDwell s frame := by
      intro g1 g2 g3 g4
      rw [if_neg (by rw [g1]; simp)] at g4
      exact hih g1 g2 g3 g4
    generalize transmissions o = tr at *
    generalize nonceReports o = nr at *
    cases hstep with
    | idle ho1 => rw [ho] at ho1; simp at ho1
    | keep _ hk => exact later (hk.op.trans ho) (by rw [hk.region, hk.rate]; exact hw) (hk.len.trans hl) hs
    | ended _ ho' =>
      rw [if_pos ho'] at hs
      simp at hs
    | sent _ _ _ _ hk =>
      rw [List.cons_append, List.nil_append, List.mem_cons] at hs
      rcases hs with hs | hs
      · simp only [Prod.mk.injEq] at hs
        rw [hs.1, hs.2]
        exact hw.dwell hl
      · exact later (hk.op.trans ho) (by rw [hk.region, hk.rate]; exact hw) (hk.len.trans hl) hs
    | repeated ho1 => rw [ho] at ho1; simp at ho1
    | request _ _ _ hn =>
      obtain ⟨n1, n2⟩ := hn.fast hfix
      exact later hn.op (by rw [n1]; exact n2) (hn.frame hE hbuf).1 hs
    | join ho1 => rw [ho] at ho1; cases ho1
    | send ho1 => rw [ho] at ho1; cases ho1

/-- **C94, join requests**: in US915 and AU915, whatever is called after a join was started, every join request is on the
air for at most 400 ms. -/
theorem c94_join {cfg : Cfg} (hE : ∀ k, BlockFn (cfg.E k)) {m : Mac} (hr : Reachable cfg m) (e : Env)
    (ha : (step cfg m e .otaa).2 = .ok) (hreg : m.ctx.region = .us915 ∨ m.ctx.region = .au915)
    (calls : List (Env × Call)) (hc : ∀ x ∈ calls, x.2.WF) (s : TxSetting) (frame : Bytes)
    (hx : (s, frame) ∈ sentBy cfg (step cfg m e .otaa).1 calls) : WithinDwell s frame := by
  have hr' : Reachable cfg (step cfg m e .otaa).1 := .step e .otaa hr trivial
  obtain ⟨o, hout, hstep, _⟩ := step_does cfg e m .otaa hr.reach.opOk
  have hop : (step cfg m e .otaa).1.op = .joining := otaa_joining e m ha
  have hon : m.op = .none := (otaa_started e m ha).1
  have hbuf := hr.bufOk hE
  generalize (step cfg m e .otaa).1 = m' at *
  generalize transmissions o = tr at *
  generalize nonceReports o = nr at *
  have hn : NewRequest cfg e m m' := by
    cases hstep with
    | join _ _ _ hn => exact hn
    | idle _ ho' => rw [hop] at ho'; simp at ho'
    | keep ho => rw [hon] at ho; simp [Op.isTx] at ho
    | ended ho => rw [hon] at ho; simp [Op.isTx] at ho
    | sent ho => rw [hon] at ho; simp [Op.isTx] at ho
    | repeated ho => rw [hon] at ho; simp at ho
    | request ho => rw [hon] at ho; cases ho
    | send _ _ _ _ _ _ hc => cases hc
  obtain ⟨n1, n2⟩ := hn.fast hreg
  exact joining_dwell hE calls hc hr' hop (by rw [n1]; exact n2) (hn.frame hE hbuf).1 s frame hx

/-! ## AU915 -/

/-- The channels of AU915: two ranges of rates. -/
theorem au_range {s : Session} (hs : s.region = .au915) {ch f lo hi : Nat} (h : chan s ch = some (f, lo, hi)) :
    (lo = 0 ∧ hi = 5) ∨ (lo = 6 ∧ hi = 6) := by
  unfold chan at h
  rw [hs] at h
  simp only [] at h
  split at h
  · cases h; exact Or.inl ⟨rfl, rfl⟩
  · split at h
    · cases h; exact Or.inr ⟨rfl, rfl⟩
    · cases h

/-- **C94 does not hold** in AU915: the limit, in force or not, has no influence on data frames.  In every reachable
state in which the data rate is 0 or 1, every frame of an accepted send that goes out on a 125 kHz channel is on the
air for longer than 400 ms. -/
theorem c94_au_ignored {cfg : Cfg} (hE : ∀ k, BlockFn (cfg.E k)) {m : Mac} (hr : Reachable cfg m) (e : Env)
    (confirmed : Bool) (port : Nat) (payload : Option Bytes) (len : Nat) (opts : Option DataOpts)
    (hw : (Call.data confirmed port payload len opts).WF) (hnull : payload = none → len = 0)
    (ha : Accepted (step cfg m e (.data confirmed port payload len opts)).2)
    (hreg : m.ctx.region = .au915) (hrate : m.ctx.rate ≤ 1)
    (calls : List (Env × Call)) (hc : ∀ x ∈ calls, x.2.WF) (s : TxSetting) (frame : Bytes)
    (hx : (s, frame) ∈ sentBy cfg (step cfg m e (.data confirmed port payload len opts)).1 calls)
    (hbw : s.bw = .b125) : ¬ WithinDwell s frame := by
  obtain ⟨ch, lo, hi, h1, _, h2, h3, h4, _⟩ :=
    sent_size hE hr e confirmed port payload len opts hw hnull ha (Or.inr hreg) calls hc s frame hx
  rw [hreg] at h2 h3
  have hr2 := au_range hreg h1
  unfold WithinDwell
  have hr01 : m.ctx.rate = 0 ∨ m.ctx.rate = 1 := by omega
  generalize m.ctx.rate = r at *
  generalize frame.length = n at *
  rcases hr2 with ⟨rfl, rfl⟩ | ⟨rfl, rfl⟩
  · rw [h2, h3]
    rcases hr01 with rfl | rfl <;>
      simp only [requiredRate, sfOf, bwOf, AirTimeAtMost, quarterSymbols, payloadSymbols, lowDataRate] <;> simp <;> omega
  · rw [hbw] at h3
    rcases hr01 with rfl | rfl <;> simp [requiredRate, bwOf, bwToNumber] at h3

/-- A new AU915 device, personalised. -/
def auJoined : Mac := run Demo.cfg (init Demo.cfg .au915 {} (Demo.at_ 0)) (Demo.boot ++ [(Demo.at_ 20000, .abp 1)])

/-- Such a device: the limit is in force by default, the data rate is 0, and a frame of 13 bytes goes out at spreading
factor 12, for more than a second. -/
theorem c94_au_default : Reachable Demo.cfg auJoined ∧ DwellLimited auJoined.ctx ∧ auJoined.ctx.rate = 0 ∧
    (step Demo.cfg auJoined (Demo.at_ 30000) (.data false 1 (some [1]) 1 none)).2 = .ok ∧
    (sentBy Demo.cfg (step Demo.cfg auJoined (Demo.at_ 30000) (.data false 1 (some [1]) 1 none)).1
      (Demo.cycle 30000)).map (fun x => (x.1.sf, bwToNumber x.1.bw, x.2.length)) = [(12, 125000, 14)] ∧
    ¬ AirTimeAtMost 125000 12 14 true false 1000000 := by
  refine ⟨Demo.run_reach (.init _ _ _ (by simp) ⟨rfl, rfl, rfl, rfl, by decide, by decide⟩) _ (by decide +kernel),
    ⟨by decide +kernel, by decide +kernel⟩, by decide +kernel, by decide +kernel, by decide +kernel, ?_⟩
  unfold AirTimeAtMost
  decide +kernel

/-- A join in AU915: the first request takes 371 ms. -/
example : (step Demo.cfg (run Demo.cfg (init Demo.cfg .au915 {} (Demo.at_ 0)) Demo.boot) (Demo.at_ 20000) .otaa).2 = .ok ∧
    (sentBy Demo.cfg (step Demo.cfg (run Demo.cfg (init Demo.cfg .au915 {} (Demo.at_ 0)) Demo.boot) (Demo.at_ 20000)
      .otaa).1 (Demo.processAt [20000, 30000, 60000])).map (fun x => (x.1.sf, bwToNumber x.1.bw, x.2.length)) =
      [(10, 125000, 23)] := by
  refine ⟨by decide +kernel, by decide +kernel⟩

end LDL
