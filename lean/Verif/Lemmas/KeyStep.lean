import Verif.Lemmas.JoinKeys

/-!
# When keys and session identity change
-/

namespace LDL
open Spec

/-- What the session keys are derived from, and the address. -/
def Session.ident (s : Session) : Nat × Nat × Nat × Nat × Nat := (s.version, s.netID, s.joinNonce, s.devNonce, s.devAddr)

/-- Nothing happened to the keys. -/
structure KeyQuiet (m m' : Mac) : Prop where
  keys : m'.keys = m.keys
  op : m'.op = .joining → m.op = .joining
  ident : m'.ctx.joined = true → m.ctx.joined = true ∧ m'.ctx.ident = m.ctx.ident
  nonce : m'.devNonce = m.devNonce → m'.op = .joining → m'.ctx.devNonce = m.ctx.devNonce

theorem KeyQuiet.of_eq {m m' : Mac} (hk : m'.keys = m.keys) (ho : m'.op = .joining → m.op = .joining) (hc : m'.ctx = m.ctx) :
    KeyQuiet m m' := ⟨hk, ho, fun h => ⟨hc ▸ h, by rw [hc]⟩, fun _ _ => by rw [hc]⟩

theorem KeyQuiet.of_core {m m' : Mac} (hk : m'.keys = m.keys) (ho : m'.op = .joining → m.op = .joining)
    (hc : m'.ctx.core = m.ctx.core) : KeyQuiet m m' := by
  simp only [Session.core, Prod.mk.injEq] at hc
  obtain ⟨_, _, c3, c4, c5, c6, c7, c8, _⟩ := hc
  exact ⟨hk, ho, fun h => ⟨c4 ▸ h, by simp only [Session.ident, c3, c5, c6, c7, c8]⟩, fun _ _ => c8⟩

theorem nextJoinRequest_quiet (cfg : Cfg) (e : Env) (m m' : Mac) (hn : m.devNonce ≤ 65535) (hj : m.ctx.joined = false)
    (ho : m.op = .joining) (hk : m'.keys = (nextJoinRequest cfg e m).keys) (hc : m'.ctx = (nextJoinRequest cfg e m).ctx)
    (hd : m'.devNonce = (nextJoinRequest cfg e m).devNonce) : KeyQuiet m m' := by
  obtain ⟨_, _, _, _, h⟩ := nextJoinRequest_shape cfg e m
  rw [h] at hk hc hd
  refine ⟨hk, fun _ => ho, fun h' => ?_, fun h' => ?_⟩
  · rw [hc] at h'; rw [hj] at h'; cases h'
  · exfalso
    rw [hd] at h'
    simp only [u32] at h'
    omega

theorem Missing.quiet {cfg : Cfg} {e : Env} {m m' : Mac} (h : Missing cfg e m m')
    (hj : m.op = .joining → m.ctx.joined = false) : KeyQuiet m m' := by
  cases h
  case retry => exact .of_eq rfl (fun h => h) rfl
  case giveUp => exact .of_core rfl (fun h => by simp at h) rfl
  case nextJoin ho hn =>
    exact ⟨(nextJoinRequest_quiet cfg e { m with trials := u32 (m.trials + 1) } _ hn (hj ho) ho rfl rfl rfl).keys,
      (nextJoinRequest_quiet cfg e { m with trials := u32 (m.trials + 1) } _ hn (hj ho) ho rfl rfl rfl).op,
      (nextJoinRequest_quiet cfg e { m with trials := u32 (m.trials + 1) } _ hn (hj ho) ho rfl rfl rfl).ident,
      (nextJoinRequest_quiet cfg e { m with trials := u32 (m.trials + 1) } _ hn (hj ho) ho rfl rfl rfl).nonce⟩
  case exhausted => exact .of_eq rfl (fun h => by simp at h) rfl
  case other => exact .of_eq rfl (fun h => h) rfl

theorem RadioErr.quiet {cfg : Cfg} {e : Env} {m m' : Mac} (h : RadioErr cfg e m m')
    (hj : m.op = .joining → m.ctx.joined = false) : KeyQuiet m m' := by
  cases h
  case op => exact .of_eq rfl (fun h => by simp at h) rfl
  case nextJoin ho hn m1 hm =>
    have := nextJoinRequest_quiet cfg e { m with
        inputArmed := false, timerA := m.timerA.clear, timerB := m.timerB.clear, trials := u32 (m.trials + 1) } m1 hn
        (hj ho) ho (by rw [hm]) (by rw [hm]) (by rw [hm])
    exact ⟨this.keys, this.op, this.ident, this.nonce⟩
  case exhausted => exact .of_eq rfl (fun h => by simp at h) rfl

theorem KeyQuiet.trans {a b c : Mac} (h : KeyQuiet a b) (h' : KeyQuiet b c) (hd : b.devNonce = a.devNonce) : KeyQuiet a c :=
  ⟨h'.keys.trans h.keys, fun x => h.op (h'.op x), fun x =>
    ⟨(h.ident (h'.ident x).1).1, (h'.ident x).2.trans (h.ident (h'.ident x).1).2⟩,
    fun x y => (h'.nonce (x.trans hd.symm) y).trans (h.nonce hd (h'.op y))⟩

theorem Disp.quiet {cfg : Cfg} {e : Env} {ev : Sme} {lag : Nat} {m m' : Mac} (h : Disp cfg e ev lag m m')
    (hj : m.op = .joining → m.ctx.joined = false) :
    KeyQuiet m m' ∨
      ev = .interrupt ∧ (m.state = .rx1 ∨ m.state = .rx2) ∧ e.statusRx = true ∧
        ∃ f buf, Ops.receiveFrame cfg m e.rxBuffer e.received.length = (some f, buf) ∧ f.type = Frame.JOIN_ACCEPT ∧
          m' = pushSessionUpdate (joinAccepted cfg (packetState e m) f buf) := by
  cases h
  case txError hs he =>
    left
    have hx : KeyQuiet m (registerTime (statusRead ev m)) ∧ (registerTime (statusRead ev m)).devNonce = m.devNonce ∧
        (registerTime (statusRead ev m)).op = m.op ∧ (registerTime (statusRead ev m)).ctx = m.ctx := by
      obtain ⟨b, hb⟩ := registerTime_shape (statusRead ev m)
      rw [hb]
      unfold statusRead
      split <;> exact ⟨.of_eq rfl (fun h => h) rfl, rfl, rfl, rfl⟩
    obtain ⟨h1, h2, h3, h4⟩ := hx
    exact h1.trans ((handleRadioError_cases cfg e _).quiet (by rw [h3, h4]; exact hj)) h2
  case txDone hs he ht =>
    left
    obtain ⟨_, _, _, _, _, h, _⟩ := txComplete_shape cfg e lag (registerTime (m.emit .getStatus))
    obtain ⟨b, hb⟩ := registerTime_shape (m.emit .getStatus)
    rw [h, hb]
    exact .of_eq rfl (fun h => h) rfl
  case rxError =>
    exact Or.inl (KeyQuiet.trans (b := m.emit .getStatus) (.of_eq rfl (fun h => h) rfl)
      ((handleRadioError_cases cfg e _).quiet hj) rfl)
  case rxRejected =>
    exact Or.inl (KeyQuiet.trans (b := packetState e m) (.of_eq rfl (fun h => h) rfl)
      ((downlinkMissing_missing cfg e _).quiet hj) rfl)
  case rxJoin hs he hr f buf hf ht _ => exact Or.inr ⟨he, hs, hr, f, buf, hf, ht, rfl⟩
  case rxData hs he hr f buf hf _ _ =>
    left
    have hc := dataReceived_core cfg e (packetState e m) f buf
    obtain ⟨_, _, h, _⟩ := dataReceived_shape cfg e (packetState e m) f buf
    generalize dataReceived cfg e (packetState e m) f buf = y at hc h
    refine .of_core ?_ ?_ hc
    · show y.keys = _
      rw [h]; rfl
    · intro h'
      have h' : y.op = .joining := h'
      rw [h] at h'
      simp at h'
  case lockout => exact Or.inl ((downlinkMissing_missing cfg e _).quiet hj)
  case entropy => exact Or.inl (.of_eq rfl (fun h => by simp at h) rfl)
  all_goals exact Or.inl (.of_eq rfl (fun h => h) rfl)

/-- What a call does to the keys. -/
inductive KeyStep (cfg : Cfg) (e : Env) (m : Mac) (c : Call) (m' : Mac) : Prop
  | quiet (h : KeyQuiet m m') (hr : m.ctx.joined = true → m'.ctx.joined = true ∨ c = .forget)
  | abp (a : Nat) (hc : c = .abp a) (hk : m'.keys = m.keys) (ho : m'.op = .none)
  | otaa (hc : c = .otaa) (hj : m'.ctx.joined = false) (hj' : m.ctx.joined = false) (ho : m.op = .none)
      (hk : m'.keys = (Ops.deriveJoinKeys cfg m).keys)
  | join (f : Frame.Down) (buf : Bytes) (hj : JoinsWith cfg e m c f buf) (hc : m'.ctx = joinSession cfg m f buf)
      (hk : m'.keys = (Ops.deriveKeys cfg { m with ctx := joinSession cfg m f buf }).keys) (ho : m'.op = .none)
      (hev : Event.sessionUpdated m'.ctx ∈ newEvents m m')

theorem Api.keyStep {cfg : Cfg} {e : Env} {m m' : Mac} {c : Call} {st : Status} (h : Api cfg e m c m' st) :
    KeyStep cfg e m c m' := by
  have hcancel : (LDL.cancel m).ctx = m.ctx ∧ (LDL.cancel m).keys = m.keys ∧ (LDL.cancel m).op = .none := by
    rcases cancel_shape m with ⟨_, h⟩ | ⟨_, h⟩ <;> rw [h] <;> exact ⟨rfl, rfl, rfl⟩
  cases h
  case entropyIdle => exact .quiet (.of_eq rfl (fun h => by simp at h) rfl) Or.inl
  case entropyLater => exact .quiet (.of_eq rfl (fun h => by simp at h) rfl) Or.inl
  case otaa hj ho hn m1 hm _ _ _ =>
    obtain ⟨_, _, _, _, h⟩ := nextJoinRequest_shape cfg e
      (Ops.deriveJoinKeys cfg { m with trials := 0, day := 60 * 60 * 24 * timeTPS })
    refine .otaa rfl ?_ hj ho ?_
    · show m1.ctx.joined = _
      rw [hm, h]
      obtain ⟨k, hk⟩ := deriveJoinKeys_shape cfg { m with trials := 0, day := 60 * 60 * 24 * timeTPS }
      rw [hk]
      exact hj
    · show m1.keys = _
      rw [hm, h]
      show (Ops.deriveJoinKeys cfg { m with trials := 0, day := 60 * 60 * 24 * timeTPS }).keys = _
      unfold Ops.deriveJoinKeys
      split <;> rfl
  case abp hj ho d => exact .abp d rfl rfl ho
  case data hj ho hp hb freq ch rate hc hl m1 hm =>
    obtain ⟨b, bl, op, s, t, h, hop, _⟩ := sendData_shape cfg e m1 _ _ _ _ _ _
    rw [h]
    rename_i _ _ _ _ o _
    obtain ⟨pc, hpc⟩ := (putAnswers_inv cfg { m1.ctx with up := u32 (m1.ctx.up + 1) } (dataOptions o)).session
    have hx : (uplinkAnswers cfg m1 (dataOptions o)).2.ident = m.ctx.ident ∧
        (uplinkAnswers cfg m1 (dataOptions o)).2.joined = m.ctx.joined ∧
        (uplinkAnswers cfg m1 (dataOptions o)).2.devNonce = m.ctx.devNonce := by
      have : (uplinkAnswers cfg m1 (dataOptions o)).2 =
        (putAnswers cfg { m1.ctx with up := u32 (m1.ctx.up + 1) } (dataOptions o)).2 := rfl
      rw [this, hpc, hm]
      exact ⟨rfl, rfl, rfl⟩
    refine .quiet ⟨by rw [hm], ?_, fun h' => ⟨hj, hx.1⟩, fun _ _ => hx.2.2⟩ (fun _ => Or.inl (hx.2.1.trans hj))
    intro h'
    rcases hop with h'' | ⟨h'', _⟩ <;> rw [h''] at h' <;> simp at h'
  case forget =>
    refine .quiet ⟨?_, ?_, ?_, ?_⟩ (fun _ => Or.inr rfl)
    · obtain ⟨_, _, _, _, _, h⟩ := forget_shape m
      rw [h]
      exact hcancel.2.1
    · intro h'
      obtain ⟨_, _, _, _, _, h⟩ := forget_shape m
      rw [h] at h'
      rw [show ({ LDL.cancel m with fPending := _, pendingACK := _, ctx := _, band := _, out := _ } : Mac).op =
        (LDL.cancel m).op from rfl, hcancel.2.2] at h'
      cases h'
    · intro h'
      by_cases hjn : m.ctx.joined = true
      · exfalso
        unfold LDL.forget at h'
        simp only [] at h'
        rw [if_pos (by rw [hcancel.1]; exact hjn)] at h'
        have h'' : (forgetNetwork { LDL.cancel m with band := upd (LDL.cancel m).band GLOBAL 0 }).ctx.joined = true := h'
        rw [(forgetNetwork_facts _).2.1] at h''
        cases h''
      · unfold LDL.forget at h' ⊢
        simp only [] at h' ⊢
        rw [if_neg (by rw [hcancel.1]; exact hjn)] at h' ⊢
        rw [hcancel.1] at h' ⊢
        exact ⟨h', rfl⟩
    · intro _ h'
      obtain ⟨_, _, _, _, _, h⟩ := forget_shape m
      rw [h] at h'
      rw [show ({ LDL.cancel m with fPending := _, pendingACK := _, ctx := _, band := _, out := _ } : Mac).op =
        (LDL.cancel m).op from rfl, hcancel.2.2] at h'
      cases h'
  case cancel =>
    exact .quiet (.of_eq hcancel.2.1 (fun h => by rw [hcancel.2.2] at h; cases h) hcancel.1)
      (fun h => Or.inl (hcancel.1 ▸ h))
  case addChannel ch f a b =>
    obtain ⟨cc, hc⟩ := setChannel_shape m.ctx ch f a b
    rw [hc]
    exact .quiet (.of_core rfl (fun h => h) rfl) Or.inl
  all_goals exact .quiet ⟨rfl, fun h => h, fun h => ⟨h, rfl⟩, fun _ _ => rfl⟩ Or.inl

theorem Disp.joined {cfg : Cfg} {e : Env} {ev : Sme} {lag : Nat} {m m' : Mac} (h : Disp cfg e ev lag m m')
    (hj : m.ctx.joined = true) : m'.ctx.joined = true := by
  have hnj : ∀ x : Mac, (nextJoinRequest cfg e x).ctx.joined = x.ctx.joined := by
    intro x
    obtain ⟨_, _, _, _, h⟩ := nextJoinRequest_shape cfg e x
    rw [h]
  have hmiss : ∀ x x', Missing cfg e x x' → x.ctx.joined = true → x'.ctx.joined = true := by
    intro x x' h hx
    cases h
    case nextJoin =>
      simp only [hnj]
      exact hx
    all_goals exact hx
  have herr : ∀ x x', RadioErr cfg e x x' → x.ctx.joined = true → x'.ctx.joined = true := by
    intro x x' h hx
    cases h
    case nextJoin hm =>
      show Session.joined (Mac.ctx _) = _
      rw [hm, hnj]
      exact hx
    all_goals exact hx
  cases h
  case txError hs he =>
    refine herr _ _ (handleRadioError_cases cfg e _) ?_
    obtain ⟨b, hb⟩ := registerTime_shape (statusRead ev m)
    rw [hb]
    unfold statusRead
    split <;> exact hj
  case txDone hs he ht =>
    obtain ⟨_, _, _, _, _, h, _⟩ := txComplete_shape cfg e lag (registerTime (m.emit .getStatus))
    obtain ⟨b, hb⟩ := registerTime_shape (m.emit .getStatus)
    rw [h, hb]
    exact hj
  case rxError => exact herr _ _ (handleRadioError_cases cfg e _) hj
  case rxRejected => exact hmiss _ _ (downlinkMissing_missing cfg e _) hj
  case rxJoin hs he hr f buf hf ht _ =>
    obtain ⟨_, _, _, _, _, _, h⟩ := joinAccepted_shape cfg (packetState e m) f buf
    show (joinAccepted cfg (packetState e m) f buf).ctx.joined = true
    rw [h]
  case rxData hs he hr f buf hf _ _ =>
    have hc := dataReceived_core cfg e (packetState e m) f buf
    simp only [Session.core, Prod.mk.injEq] at hc
    show (dataReceived cfg e (packetState e m) f buf).ctx.joined = true
    rw [hc.2.2.2.1]
    exact hj
  case lockout => exact hmiss _ _ (downlinkMissing_missing cfg e _) hj
  all_goals exact hj

theorem joinAccepted_ctx (cfg : Cfg) (m : Mac) (f : Frame.Down) (buf : Bytes) :
    (joinAccepted cfg m f buf).ctx = joinSession cfg m f buf ∧
    (joinAccepted cfg m f buf).keys = (Ops.deriveKeys cfg { m with ctx := joinSession cfg m f buf }).keys := by
  unfold joinAccepted
  simp only []
  generalize joinSession cfg m f buf = s
  constructor
  · obtain ⟨k, hk⟩ := deriveKeys_shape cfg { m with ctx := s, joinNonce := f.joinNonce }
    simp only [Mac.emit]
    rw [hk]
  · simp only [Mac.emit]
    unfold Ops.deriveKeys
    simp only []
    split <;> rfl

theorem deriveKeys_congr (cfg : Cfg) (m m' : Mac) (h1 : m'.ctx = m.ctx) (h2 : m'.keys = m.keys)
    (h3 : m'.joinEUI = m.joinEUI) : (Ops.deriveKeys cfg m').keys = (Ops.deriveKeys cfg m).keys := by
  unfold Ops.deriveKeys
  simp only [h1, h2, h3]
  split <;> rfl

theorem step_keys (cfg : Cfg) (e : Env) (m : Mac) (c : Call) (hj : m.op = .joining → m.ctx.joined = false) :
    KeyStep cfg e m c (step cfg m e c).1 := by
  by_cases hc : c = .process
  · subst hc
    show KeyStep cfg e m .process (process cfg e m)
    by_cases h : ∃ f buf, JoinsWith cfg e m .process f buf
    · obtain ⟨f, buf, hjw⟩ := h
      obtain ⟨_, ha, ht⟩ := id hjw
      obtain ⟨lag, x, p, t, hp, hx⟩ := receiving (cfg := cfg) (m := m) (e := e) ⟨ha.1, ha.2.1, ha.2.2.1⟩
      rw [ha.2.2.2] at hx
      simp only [] at hx
      rw [if_neg (by rw [ht]; decide)] at hx
      obtain ⟨_, _, _, _, _, _, hs⟩ := joinAccepted_shape cfg (packetState e x) f buf
      obtain ⟨h1, h2⟩ := joinAccepted_ctx cfg (packetState e x) f buf
      obtain ⟨_, _, _, _, _, _, _, _, _, hm⟩ := hp.eq
      have e1 : joinSession cfg (packetState e x) f buf = joinSession cfg m f buf := by rw [hm]; rfl
      rw [e1] at h1 h2
      have h2 := h2.trans (deriveKeys_congr cfg { m with ctx := joinSession cfg m f buf }
        { packetState e x with ctx := joinSession cfg m f buf } rfl (by rw [hm]; rfl) (by rw [hm]; rfl))
      generalize joinAccepted cfg (packetState e x) f buf = y at hx hs h1 h2
      refine .join f buf hjw ?_ ?_ ?_ ?_
      · rw [hx]; exact h1
      · rw [hx]; exact h2
      · rw [hx]; show y.op = _; rw [hs]
      · unfold newEvents
        rw [hx]
        show Event.sessionUpdated y.ctx ∈ (y.out ++ [Event.sessionUpdated y.ctx]).drop m.out.length
        rw [List.drop_append_of_le_length]
        · simp
        · rw [hs]
          show m.out.length ≤ (x.out ++ [Event.getStatus] ++ [Event.readBuffer] ++ [Event.setMode .sleep] ++ [_]).length
          rcases hp.out with ho | ho <;> rw [ho] <;> simp <;> omega
    · obtain ⟨ev, lag, m1, m2, p, t, hp, hd, hpr⟩ := process_disp cfg e m
      rw [hpr]
      obtain ⟨_, _, _, _, _, _, _, _, _, hm⟩ := hp.eq
      have q1 : KeyQuiet m m1 := .of_eq (by rw [hm]) (by rw [hm]; exact fun h => h) (by rw [hm])
      have d1 : m1.devNonce = m.devNonce := by rw [hm]
      have c1 : m1.ctx = m.ctx := by rw [hm]
      have o1 : m1.op = m.op := by rw [hm]
      rcases hd with ⟨_, hd⟩ | ⟨_, hd⟩
      · subst hd
        exact .quiet ⟨q1.keys, q1.op, q1.ident, q1.nonce⟩ (fun h => Or.inl (by show m2.ctx.joined = true; rw [c1]; exact h))
      · rcases hd.quiet (by rw [o1, c1]; exact hj) with h' | ⟨h2, h3, h4, f, buf, h5, h6, _⟩
        · have := q1.trans h' d1
          exact .quiet ⟨this.keys, this.op, this.ident, this.nonce⟩ (fun h => Or.inl (hd.joined (by rw [c1]; exact h)))
        · refine absurd ⟨f, buf, rfl, ⟨?_, hp.interrupt.mp h2, h4, ?_⟩, h6⟩ h
          · rw [hm] at h3; exact h3
          · rw [← h5]
            exact receiveFrame_congr cfg m1 m _ _ (by rw [hm]) (by rw [hm]) (by rw [hm]) (by rw [hm]) (by rw [hm])
  · exact (step_api cfg e m c hc).keyStep

end LDL
