import Verif.Lemmas.Cases

/-!
# Executions, and which operation can be in progress in which state
-/

namespace LDL

/-- States reachable from an initialisation by API calls, with arguments within the ranges of their C types. -/
inductive Reach (cfg : Cfg) : Mac → Prop
  | init (region : Region) (arg : InitArg) (e : Env) : Reach cfg (init cfg region arg e)
  | step {m : Mac} (e : Env) (c : Call) (h : Reach cfg m) (hc : c.WF) : Reach cfg (step cfg m e c).1

/-- The operations that can be in progress in a state. -/
def opAllowed : St → Op → Bool
  | .init, op | .radioReset, op | .radioBoot, op => op != .rejoining
  | .idle, op => op == .none
  | .waitEntropy, op | .startRadioForEntropy, op | .entropy, op => op == .entropy
  | .waitOTAA, op => op == .joining
  | _, op => op == .joining || op == .dataUnconfirmed || op == .dataConfirmed

/-- The operation fits the state. -/
def OpOk (m : Mac) : Prop := opAllowed m.state m.op = true

theorem Missing.opOk {cfg : Cfg} {e : Env} {m m' : Mac} (h : Missing cfg e m m')
    (ho : m.op = .joining ∨ m.op = .dataUnconfirmed ∨ m.op = .dataConfirmed) : OpOk m' := by
  cases h with
  | retry h => rcases h with h | h <;> simp [OpOk, opAllowed, h]
  | giveUp h => rfl
  | nextJoin h =>
    obtain ⟨dn, b, bl, t, hn⟩ := nextJoinRequest_shape cfg e { m with trials := u32 (m.trials + 1) }
    rw [hn]; simp [OpOk, opAllowed, h]
  | exhausted => rfl
  | other h => rcases ho with ho | ho | ho <;> simp [ho] at h

theorem RadioErr.opOk {cfg : Cfg} {e : Env} {m m' : Mac} (h : RadioErr cfg e m m') : OpOk m' := by
  cases h with
  | op => rfl
  | nextJoin ho hn x hx =>
    obtain ⟨dn, b, bl, t, h⟩ := nextJoinRequest_shape cfg e { m with
      inputArmed := false, timerA := m.timerA.clear, timerB := m.timerB.clear, trials := u32 (m.trials + 1) }
    rw [hx, h]; simp [OpOk, opAllowed, ho]
  | exhausted => rfl

theorem Disp.opOk {cfg : Cfg} {e : Env} {ev : Sme} {lag : Nat} {m m' : Mac} (h : Disp cfg e ev lag m m')
    (hm : OpOk m) : OpOk m' := by
  unfold OpOk at hm
  cases h with
  | stay => exact hm
  | init hs => rw [hs] at hm; exact hm
  | reset hs => rw [hs] at hm; exact hm
  | boot hs =>
    rw [hs] at hm
    simp only [OpOk]
    cases ho : m.op <;> rw [ho] at hm <;> first | rfl | exact absurd hm (by decide)
  | startEntropy hs => rw [hs] at hm; exact hm
  | entropy => rfl
  | otaa hs => rw [hs] at hm; simp only [opAllowed, beq_iff_eq] at hm; simp [OpOk, opAllowed, hm]
  | waitA hs =>
    rcases hs with hs | hs | hs <;> rw [hs] at hm <;> simp only [OpOk, waitNext, hs] <;> exact hm
  | waitB hs => rw [hs] at hm; simp only [OpOk, waitNext, hs]; exact hm
  | startTX hs => rw [hs] at hm; exact hm
  | txError => exact (handleRadioError_cases ..).opOk
  | txDone hs =>
    rw [hs] at hm
    obtain ⟨b, hb⟩ := registerTime_shape (m.emit .getStatus)
    rw [hb]
    obtain ⟨r1, r2, ta, tb, s, h, hst⟩ := txComplete_shape cfg e lag { m.emit .getStatus with band := b }
    rw [h]
    rcases hst with ⟨rfl, _⟩ | ⟨rfl, _⟩ <;> exact hm
  | startRX1 hs => rw [hs] at hm; exact hm
  | startRX2 hs => rw [hs] at hm; exact hm
  | rxError => exact (handleRadioError_cases ..).opOk
  | rxRejected hs =>
    refine (downlinkMissing_missing ..).opOk ?_
    show m.op = .joining ∨ m.op = .dataUnconfirmed ∨ m.op = .dataConfirmed
    rcases hs with hs | hs <;> rw [hs] at hm <;> simpa [opAllowed, or_assoc] using hm
  | rxJoin =>
    obtain ⟨r, cc, cm, v, pc, k, h⟩ := joinAccepted_shape cfg (packetState e m) ‹_› ‹_›
    rw [h]; rfl
  | rxData =>
    obtain ⟨c, o, h, _⟩ := dataReceived_shape cfg e (packetState e m) ‹_› ‹_›
    rw [h]; rfl
  | rxTimeout1 hs => rw [hs] at hm; exact hm
  | rxTimeout2 hs => rw [hs] at hm; exact hm
  | lockout hs =>
    refine (downlinkMissing_missing ..).opOk ?_
    rw [hs] at hm; simpa [opAllowed, or_assoc] using hm

theorem Prep.opOk {e : Env} {m m1 : Mac} {ev : Sme} {lag : Nat} (h : Prep e m m1 ev lag) (hm : OpOk m) : OpOk m1 := by
  obtain ⟨tt, tr, d, b, ia, is, ta, tb, o, heq⟩ := h.eq
  rw [heq]; exact hm

theorem process_opOk (cfg : Cfg) (e : Env) (m : Mac) (hm : OpOk m) : OpOk (process cfg e m) := by
  obtain ⟨ev, lag, m1, m2, p, t, hp, hd, h⟩ := process_disp cfg e m
  rw [h]
  rcases hd with ⟨_, hd⟩ | ⟨_, hd⟩
  · rw [hd]; exact hp.opOk hm
  · exact hd.opOk (hp.opOk hm)

theorem cancel_opOk (m : Mac) : OpOk (cancel m) := by
  rcases cancel_shape m with ⟨hs, h⟩ | ⟨_, h⟩
  · rw [h]; rcases hs with hs | hs | hs <;> simp [OpOk, opAllowed, hs]
  · rw [h]; rfl

theorem forget_shape (m : Mac) : ∃ fp pa c b o, forget m = { cancel m with
    fPending := fp, pendingACK := pa, ctx := c, band := b, out := o } := by
  unfold forget
  simp only []
  split
  · exact ⟨_, _, _, _, _, rfl⟩
  · exact ⟨_, _, _, _, _, rfl⟩

theorem Api.opOk {cfg : Cfg} {e : Env} {m m' : Mac} {c : Call} {st : Status} (h : Api cfg e m c m' st)
    (hm : OpOk m) : OpOk m' := by
  cases h with
  | refused => exact hm
  | entropyIdle => rfl
  | entropyLater ho hs =>
    unfold OpOk at hm ⊢
    rw [ho] at hm
    cases hst : m.state <;> rw [hst] at hm hs <;> simp_all [opAllowed]
  | otaa hj ho hn x hx s t hst =>
    unfold OpOk at hm ⊢
    rcases hst with ⟨h1, rfl, rfl⟩ | ⟨h1, rfl, rfl⟩
    · rfl
    · rw [ho] at hm
      cases hst : m.state <;> rw [hst] at hm h1 <;> simp_all [opAllowed]
  | abp => exact hm
  | dataRefused => exact hm
  | data c p d l o hj ho hp hb freq ch rate hc hl x hx =>
    obtain ⟨b, bl, op, s, t, h, hop, hst⟩ := sendData_shape cfg e x c p d l o (m.ctx.region.convertRate m.ctx.rate).mtu
    rw [h]
    have hs : x.state = m.state := by rw [hx]
    rw [hs] at hst
    unfold OpOk at hm ⊢
    rw [ho] at hm
    have hop' : op = .dataUnconfirmed ∨ op = .dataConfirmed := by
      rcases hop with h | ⟨h, _⟩
      · exact Or.inl h
      · exact Or.inr h
    rcases hst with ⟨h1, rfl, rfl⟩ | ⟨h1, rfl, rfl⟩
    · rcases hop' with rfl | rfl <;> rfl
    · show opAllowed m.state op = true
      cases hst : m.state <;> rw [hst] at hm h1 <;> rcases hop' with rfl | rfl <;> simp_all [opAllowed]
  | forget =>
    obtain ⟨fp, pa, c, b, o, h⟩ := forget_shape m
    have := cancel_opOk m
    rw [h]; exact this
  | cancel => exact cancel_opOk m
  | setRate => exact hm
  | setPower => exact hm
  | setADR => exact hm
  | setMaxDCycle => exact hm
  | addChannel => exact hm
  | maskChannel => exact hm
  | unmaskChannel => exact hm
  | latched => exact hm
  | ignored => exact hm
  | late => exact hm
  | notLate => exact hm

theorem step_opOk (cfg : Cfg) (m : Mac) (e : Env) (c : Call) (hm : OpOk m) : OpOk (step cfg m e c).1 := by
  by_cases hc : c = .process
  · subst hc; exact process_opOk cfg e m hm
  · exact (step_api cfg e m c hc).opOk hm

theorem init_opOk (cfg : Cfg) (region : Region) (arg : InitArg) (e : Env) :
    (init cfg region arg e).state = .init ∧ (init cfg region arg e).op = .none ∧ (init cfg region arg e).out = [] := by
  unfold init
  simp only []
  cases h : arg.session with
  | none => exact ⟨rfl, rfl, rfl⟩
  | some s =>
    simp only []
    by_cases hm : s.magic = magicNumber
    · rw [if_pos hm]
      by_cases hr : s.region = region
      · rw [if_pos hr]
        obtain ⟨k, hk⟩ := deriveKeys_shape cfg { initSession cfg {
          tx := { chIndex := UINT8_MAX }
          devNonce := u32 arg.devNonce
          joinNonce := u32 arg.joinNonce
          devEUI := arg.devEUI
          joinEUI := arg.joinEUI
          keys := Sm.init cfg arg.appKey arg.nwkKey } region with ctx := s }
        rw [hk]
        exact ⟨rfl, rfl, rfl⟩
      · rw [if_neg hr]; exact ⟨rfl, rfl, rfl⟩
    · rw [if_neg hm]; exact ⟨rfl, rfl, rfl⟩

theorem Reach.opOk {cfg : Cfg} {m : Mac} (h : Reach cfg m) : OpOk m := by
  induction h with
  | init region arg e =>
    obtain ⟨h1, h2, _⟩ := init_opOk cfg region arg e
    unfold OpOk
    rw [h1, h2]; rfl
  | step e c _ _ ih => exact step_opOk cfg _ e c ih

end LDL
