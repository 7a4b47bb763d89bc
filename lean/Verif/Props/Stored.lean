import Verif.Spec.Stored
import Verif.Lemmas.Life
import Verif.Lemmas.Live
import Verif.Lemmas.Demo
import Verif.Props.Conversation

/-!
# Nothing is lost with the power: C107
-/

namespace LDL
open Spec

/-- No session is reported. -/
def Silent (l : List Event) : Prop := ∀ s, .sessionUpdated s ∉ l

/-- What is reported between two states: the session of the later one, and none after it; or none, and the session is
the same but for the DevNonce of a device that has not joined. -/
def Tells (m m' : Mac) : Prop :=
  ∃ l, m'.out = m.out ++ l ∧
    ((∃ a b, l = a ++ .sessionUpdated m'.ctx :: b ∧ Silent b) ∨
     Silent l ∧ (m'.ctx = m.ctx ∨ m.ctx.joined = false ∧ ∃ k, m'.ctx = { m.ctx with devNonce := k }))

theorem Tells.same {m m' : Mac} (l : List Event) (ho : m'.out = m.out ++ l) (hc : m'.ctx = m.ctx) (hl : Silent l) :
    Tells m m' := ⟨l, ho, Or.inr ⟨hl, Or.inl hc⟩⟩

theorem Tells.push {m x : Mac} (l : List Event) (ho : x.out = m.out ++ l) : Tells m (pushSessionUpdate x) :=
  ⟨l ++ [.sessionUpdated x.ctx], by show x.out ++ _ = _; rw [ho, List.append_assoc], Or.inl ⟨l, [], rfl, by intro s hs; cases hs⟩⟩

/-- More of the state may change. -/
theorem Tells.of {m x y m' : Mac} (h : Tells x y) (h1 : x.ctx = m.ctx) (l : List Event) (h2 : x.out = m.out ++ l)
    (hl : Silent l) (h3 : m'.ctx = y.ctx) (l' : List Event) (h4 : m'.out = y.out ++ l') (hl' : Silent l') : Tells m m' := by
  obtain ⟨o, ho, h⟩ := h
  refine ⟨l ++ o ++ l', by rw [h4, ho, h2]; simp only [List.append_assoc], ?_⟩
  rcases h with ⟨a, b, rfl, hb⟩ | ⟨hs, hc⟩
  · refine Or.inl ⟨l ++ a, b ++ l', by rw [h3]; simp only [List.append_assoc, List.cons_append], fun s h => ?_⟩
    rcases List.mem_append.1 h with h | h
    · exact hb s h
    · exact hl' s h
  · refine Or.inr ⟨fun s h => ?_, by rw [h3, ← h1]; exact hc⟩
    rcases List.mem_append.1 h with h | h
    · rcases List.mem_append.1 h with h | h
      · exact hl s h
      · exact hs s h
    · exact hl' s h

theorem nextJoin_tells {cfg : Cfg} {e : Env} {m x : Mac} (hx : x.ctx = m.ctx) (l : List Event) (ho : x.out = m.out ++ l)
    (hl : Silent l) (hj : m.ctx.joined = false) : Tells m (nextJoinRequest cfg e x) := by
  obtain ⟨k, _, h⟩ := nextJoinRequest_ctx cfg e x
  refine ⟨l ++ [.devNonceUpdated (u32 (x.devNonce + 1))], ?_, Or.inr ⟨fun s h => ?_, Or.inr ⟨hj, k, by rw [h, hx]⟩⟩⟩
  · rw [(nextJoinRequest_obs cfg e x).1, ho, List.append_assoc]
  · rcases List.mem_append.1 h with h | h
    · exact hl s h
    · simp at h

theorem silent_nil : Silent [] := by intro s h; cases h

theorem adaptRate_quiet (cfg : Cfg) (m : Mac) (h : (adaptRate cfg m).1 = false) : (adaptRate cfg m).2.ctx = m.ctx := by
  unfold adaptRate at h ⊢
  simp only [] at h ⊢
  split
  · rename_i h1
    rw [if_pos h1] at h
    split
    · rename_i h2
      rw [if_pos h2] at h
      split
      · rename_i h3
        rw [if_pos h3] at h
        split
        · rename_i h4
          rw [if_pos h4] at h
          split
          · rename_i h5
            rw [if_pos h5] at h
            split
            · rename_i h6
              rw [if_pos h6] at h
              cases h
            · rename_i h6
              rw [if_neg h6] at h
              cases h
          · rename_i h5
            rw [if_neg h5] at h
            cases h
        · rfl
      · rfl
    · rfl
  · rfl

theorem giveUp_tells (cfg : Cfg) (m : Mac) : Tells m (giveUpData cfg m) := by
  have ho : (adaptRate cfg m).2.out = m.out := by
    obtain ⟨_, _, _, _, _, h⟩ := adaptRate_shape cfg m
    rw [h]
  have hq := adaptRate_quiet cfg m
  unfold giveUpData
  simp only []
  generalize adaptRate cfg m = r at *
  have one : ∀ b : Bool, Silent [if b then Event.dataTimeout else .dataComplete] := by
    intro b s h
    cases b <;> simp at h
  by_cases hr : r.1 = true
  · rw [if_pos hr]
    refine Tells.of (Tells.push (m := m) (x := r.2) [] (by simpa using ho)) rfl [] (by simp) silent_nil rfl
      [if r.2.op = .dataConfirmed then .dataTimeout else .dataComplete] rfl ?_
    intro s h
    split at h <;> simp at h
  · rw [if_neg hr]
    refine Tells.same [if r.2.op = .dataConfirmed then .dataTimeout else .dataComplete] ?_ (hq (by simpa using hr)) ?_
    · show r.2.out ++ _ = _
      rw [ho]
    · intro s h
      split at h <;> simp at h

theorem missing_tells (cfg : Cfg) (e : Env) (m : Mac) (hj : m.op = .joining → m.ctx.joined = false) :
    Tells m (downlinkMissing cfg e m) := by
  by_cases hg : (m.op = .dataUnconfirmed ∨ m.op = .dataConfirmed) ∧
      shouldRetry e { m with trials := u32 (m.trials + 1) } = false
  · have : downlinkMissing cfg e m = giveUpData cfg { m with trials := u32 (m.trials + 1) } := by
      unfold downlinkMissing
      simp only []
      have hr := hg.2
      split
      · rw [if_neg (by rw [hr]; decide)]
      · rw [if_neg (by rw [hr]; decide)]
      · rename_i h
        have h : m.op = .joining := h
        rw [h] at hg
        rcases hg.1 with hg | hg <;> cases hg
      · rename_i h1 h2 h3
        rcases hg.1 with hg | hg
        · exact absurd hg h1
        · exact absurd hg h2
    rw [this]
    exact Tells.of (giveUp_tells cfg { m with trials := u32 (m.trials + 1) }) rfl [] (by simp) silent_nil rfl [] (by simp) silent_nil
  · have h := downlinkMissing_missing cfg e m
    generalize downlinkMissing cfg e m = x at h
    cases h with
    | retry => exact Tells.same [] (by simp) rfl silent_nil
    | giveUp ho hr => exact absurd ⟨ho, hr⟩ hg
    | nextJoin ho _ =>
      exact Tells.of (nextJoin_tells (cfg := cfg) (e := e) (m := m) (x := { m with trials := u32 (m.trials + 1) }) rfl []
        (by simp) silent_nil (hj ho)) rfl [] (by simp) silent_nil rfl [] (by simp) silent_nil
    | exhausted => exact Tells.same [.joinExhausted] rfl rfl (by intro s h; simp at h)
    | other => exact Tells.same [] (by simp) rfl silent_nil

theorem error_tells (cfg : Cfg) (e : Env) (m : Mac) (hj : m.op = .joining → m.ctx.joined = false) :
    Tells m (handleRadioError cfg e m) := by
  have h := handleRadioError_cases cfg e m
  generalize handleRadioError cfg e m = x at h
  cases h with
  | op => exact Tells.same [.opError, .setMode .reset] (by simp) rfl (by intro s h; simp at h)
  | nextJoin ho _ y hy =>
    subst hy
    exact Tells.of (nextJoin_tells (cfg := cfg) (e := e) (m := m) (x := { m with
        inputArmed := false, timerA := m.timerA.clear, timerB := m.timerB.clear, trials := u32 (m.trials + 1) }) rfl []
        (by simp) silent_nil (hj ho)) rfl [] (by simp) silent_nil rfl [.setMode .reset] rfl (by intro s h; simp at h)
  | exhausted => exact Tells.same [.joinExhausted, .setMode .reset] (by simp) rfl (by intro s h; simp at h)

theorem Disp.tells {cfg : Cfg} {e : Env} {ev : Sme} {lag : Nat} {m m' : Mac} (h : Disp cfg e ev lag m m')
    (hj : m.op = .joining → m.ctx.joined = false) : Tells m m' := by
  cases h
  case stay => exact Tells.same [] (by simp) rfl silent_nil
  case init => exact Tells.same _ rfl rfl (by intro s h; simp at h)
  case reset => exact Tells.same _ rfl rfl (by intro s h; simp at h)
  case boot => exact Tells.same _ rfl rfl (by intro s h; simp at h)
  case startEntropy => exact Tells.same _ rfl rfl (by intro s h; simp at h)
  case entropy => exact Tells.same _ rfl rfl (by intro s h; simp at h)
  case otaa => exact Tells.same [] (by simp) rfl silent_nil
  case waitA => exact Tells.same _ rfl rfl (by intro s h; simp at h)
  case waitB => exact Tells.same _ rfl rfl (by intro s h; simp at h)
  case startTX => exact Tells.same _ rfl rfl (by intro s h; simp [transmitEvent] at h)
  case txError =>
    have hs : ∃ l, (registerTime (statusRead ev m)).out = m.out ++ l ∧ Silent l ∧
        (registerTime (statusRead ev m)).ctx = m.ctx ∧ (registerTime (statusRead ev m)).op = m.op := by
      rw [registerTime_out, registerTime_ctx, registerTime_op]
      unfold statusRead
      split
      · exact ⟨[.getStatus], rfl, by intro s h; simp at h, rfl, rfl⟩
      · exact ⟨[], by simp, silent_nil, rfl, rfl⟩
    obtain ⟨l, h1, h2, h3, h4⟩ := hs
    exact Tells.of (error_tells cfg e _ (by rw [h3, h4]; exact hj)) h3 l h1 h2 rfl [] (by simp) silent_nil
  case txDone =>
    refine Tells.same [.getStatus, .setMode .hold] ?_ ?_ (by intro s h; simp at h)
    · show (registerTime (m.emit .getStatus)).out ++ _ = _
      rw [registerTime_out]
      simp [Mac.emit]
    · show (registerTime (m.emit .getStatus)).ctx = _
      rw [registerTime_ctx]
      rfl
  case startRX1 => exact Tells.same _ rfl rfl (by intro s h; simp [receive1Event] at h)
  case startRX2 => exact Tells.same _ rfl rfl (by intro s h; simp [receive2Event] at h)
  case rxError =>
    exact Tells.of (error_tells cfg e (m.emit .getStatus) hj) rfl [.getStatus] rfl (by intro s h; simp at h) rfl [] (by simp) silent_nil
  case rxRejected =>
    exact Tells.of (missing_tells cfg e (packetState e m) hj) rfl [.getStatus, .readBuffer, .setMode .sleep]
      (by simp [packetState]) (by intro s h; simp at h) rfl [] (by simp) silent_nil
  case rxJoin f buf _ _ _ =>
    obtain ⟨_, _, _, _, _, _, hs⟩ := joinAccepted_shape cfg (packetState e m) f buf
    refine Tells.push ([.getStatus, .readBuffer, .setMode .sleep] ++ [.joinComplete (u32 (f.joinNonce + 1)) f.netID f.devAddr]) ?_
    rw [hs]
    simp [packetState]
  case rxData f buf _ _ _ =>
    obtain ⟨c, o, hs, _⟩ := dataReceived_shape cfg e (packetState e m) f buf
    refine Tells.push ([.getStatus, .readBuffer, .setMode .sleep] ++ (o ++ dataEndEvents (packetState e m).op f.ack)) ?_
    rw [hs]
    simp [packetState]
  case rxTimeout1 => exact Tells.same [.getStatus, .setMode .hold] (by simp) rfl (by intro s h; simp at h)
  case rxTimeout2 => exact Tells.same [.getStatus, .setMode .sleep] (by simp) rfl (by intro s h; simp at h)
  case lockout => exact missing_tells cfg e m hj

theorem Api.tells {cfg : Cfg} {e : Env} {m m' : Mac} {c : Call} {st : Status} (h : Api cfg e m c m' st) (hr : Documented c) :
    Tells m m' := by
  cases h
  case otaa hj _ _ x hx _ _ _ =>
    obtain ⟨k, hk⟩ := deriveJoinKeys_shape cfg { m with trials := 0, day := 60 * 60 * 24 * timeTPS }
    subst hx
    rw [hk]
    exact Tells.of (nextJoin_tells (cfg := cfg) (e := e) (m := m) (x := { m with
      trials := 0, day := 60 * 60 * 24 * timeTPS, keys := k }) rfl [] (by simp) silent_nil hj) rfl [] (by simp) silent_nil rfl []
      (by simp) silent_nil
  case abp => exact hr.elim
  case addChannel => exact hr.elim
  case maskChannel => exact hr.elim
  case unmaskChannel => exact hr.elim
  case data hm =>
    obtain ⟨_, _, _, _, _, h, _⟩ := sendData_shape cfg e _ _ _ _ _ _ _
    rw [h]
    subst hm
    exact ⟨_, rfl, Or.inl ⟨[], [], rfl, silent_nil⟩⟩
  case forget =>
    obtain ⟨_, hc, _, _, _, _, _, o, ho, _, hs⟩ := cancel_keeps m
    unfold LDL.forget
    simp only []
    split
    · exact Tells.push o ho
    · exact Tells.same o ho hc hs
  case cancel =>
    obtain ⟨_, hc, _, _, _, _, _, o, ho, _, hs⟩ := cancel_keeps m
    exact Tells.same o ho hc hs
  case setRate => exact Tells.push [] (by simp)
  case setPower => exact Tells.push [] (by simp)
  case setADR => exact Tells.push [] (by simp)
  case setMaxDCycle => exact Tells.push [] (by simp)
  all_goals exact Tells.same [] (by simp) rfl silent_nil

theorem step_tells {cfg : Cfg} {m : Mac} (hj : m.op = .joining → m.ctx.joined = false) (e : Env) (c : Call) (hr : Documented c) :
    Tells m (step cfg m e c).1 := by
  by_cases hc : c = .process
  · subst hc
    show Tells m (process cfg e m)
    obtain ⟨ev, lag, m1, m2, p, t, hp, hd, hpr⟩ := process_disp cfg e m
    obtain ⟨_, _, _, _, _, _, _, _, _, hm⟩ := hp.eq
    have h1 : m1.ctx = m.ctx ∧ m1.op = m.op := by rw [hm]; exact ⟨rfl, rfl⟩
    have h2 : Tells m1 m2 := by
      rcases hd with ⟨_, rfl⟩ | ⟨_, hd⟩
      · exact Tells.same [] (by simp) rfl silent_nil
      · exact hd.tells (by rw [h1.1, h1.2]; exact hj)
    rw [hpr]
    rcases hp.out with ho | ho
    · exact Tells.of h2 h1.1 [] (by simpa using ho) silent_nil rfl [] (by simp) silent_nil
    · exact Tells.of h2 h1.1 _ ho (by intro s h; simp at h) rfl [] (by simp) silent_nil
  · exact (step_api cfg e m c hc).tells hr

theorem after_silent {l : List Event} (h : Silent l) (n : Nvm) : (n.after l).session = n.session := by
  induction l generalizing n with
  | nil => rfl
  | cons ev l ih =>
    show ((n.store ev).after l).session = _
    rw [ih (fun s hs => h s (List.mem_cons_of_mem _ hs))]
    cases ev
    case sessionUpdated s => exact absurd (List.mem_cons_self ..) (h s)
    all_goals rfl

theorem after_append (n : Nvm) (a b : List Event) : n.after (a ++ b) = (n.after a).after b := List.foldl_append ..

theorem Tells.stored {m m' : Mac} (h : Tells m m') (n : Nvm) :
    (n.after (Spec.newEvents m m')).session = some m'.ctx ∨
    (n.after (Spec.newEvents m m')).session = n.session ∧
      (m'.ctx = m.ctx ∨ m.ctx.joined = false ∧ ∃ k, m'.ctx = { m.ctx with devNonce := k }) := by
  obtain ⟨l, ho, h⟩ := h
  have hn : Spec.newEvents m m' = l := by unfold Spec.newEvents; rw [ho, List.drop_left]
  rw [hn]
  rcases h with ⟨a, b, rfl, hb⟩ | ⟨hs, hc⟩
  · left
    rw [after_append]
    show (((n.after a).store _).after b).session = _
    rw [after_silent hb]
    rfl
  · exact Or.inr ⟨after_silent hs n, hc⟩

/-- What the session is after a start. -/
theorem boot_session (cfg : Cfg) (d : Device) (n : Nvm) (e : Env) :
    (∀ s, n.session = some s → s.magic = magicNumber → s.region = d.region → (d.boot cfg n e).ctx = s) ∧
    (∀ (n' : Nvm) e', n'.session = n.session → (d.boot cfg n' e').ctx = (d.boot cfg n e).ctx) := by
  obtain ⟨c, k, h, hc⟩ := init_fields cfg d.region (d.arg n) e
  have hb : (d.boot cfg n e).ctx = c := congrArg Mac.ctx h
  refine ⟨fun s hs hm hr => ?_, fun n' e' hn => ?_⟩
  · rw [hb]
    rcases hc with ⟨t, h1, _, _, h4⟩ | ⟨h1, _⟩
    · have h1 : n.session = some t := h1
      rw [hs] at h1
      cases h1
      exact h4
    · exact absurd hr (h1 s hs hm)
  · obtain ⟨c', k', h', hc'⟩ := init_fields cfg d.region (d.arg n') e'
    have hb' : (d.boot cfg n' e').ctx = c' := congrArg Mac.ctx h'
    rw [hb, hb']
    rcases hc with ⟨t, h1, h2, h3, h4⟩ | ⟨h1, h2, _⟩ <;> rcases hc' with ⟨t', g1, g2, g3, g4⟩ | ⟨g1, g2, _⟩
    · have h1 : n.session = some t := h1
      have g1 : n'.session = some t' := g1
      rw [hn, h1] at g1
      cases g1
      rw [h4, g4]
    · exact absurd h3 (g1 t (hn.trans h1) h2)
    · exact absurd g3 (h1 t' (hn.symm.trans g1) g2)
    · rw [h2, g2]

theorem Spec.ReportingLife.life {cfg : Cfg} {d : Device} {m : Mac} {n : Nvm} (h : ReportingLife cfg d m n) :
    (∃ log, Life cfg d m n log) ∧ (m.op = .joining → m.ctx.joined = false) := by
  have boot : ∀ (n : Nvm) (e : Env), (d.boot cfg n e).op = .joining → (d.boot cfg n e).ctx.joined = false := by
    intro n e ho
    obtain ⟨c, k, h, _⟩ := init_fields cfg d.region (d.arg n) e
    have : (d.boot cfg n e).op = .none := congrArg Mac.op h
    rw [this] at ho
    cases ho
  induction h with
  | first n e hn ha => exact ⟨⟨[], .first n e hn ha⟩, boot n e⟩
  | call h e c hc hp hr ih =>
    obtain ⟨⟨log, hl⟩, hj⟩ := ih
    exact ⟨⟨_, .call hl e c hc hp⟩, unjoined_step hj⟩
  | crash h e c hc hp hr k e' ih =>
    obtain ⟨⟨log, hl⟩, hj⟩ := ih
    exact ⟨⟨_, .crash hl e c hc hp k e'⟩, boot _ e'⟩

/-- **C107** (partial): a device that loses power, at any moment, and starts again has the session it had, whatever it
has been through: joined or not, with the counters, channels, rate, power and all that the network has set.
Missing: `LDL_MAC_abp` (`c107_abp_lost`) and channels set by hand, which are not reported. -/
theorem c107_survives_partial {cfg : Cfg} (hE : ∀ k, BlockFn (cfg.E k)) {d : Device} {m : Mac} {n : Nvm}
    (h : ReportingLife cfg d m n) : Survives cfg d m n := by
  have boot : ∀ (n : Nvm) (e : Env), Survives cfg d (d.boot cfg n e) n := by
    intro n e e'
    have := (boot_session cfg d n e).2 n e' rfl
    rw [this]
    exact ⟨fun _ => rfl, rfl⟩
  induction h with
  | first n e => exact boot n e
  | @call m n h e c hc hp hr ih =>
    obtain ⟨⟨log, hl⟩, hj⟩ := h.life
    have hl' := Life.call hl e c hc hp
    have ha := (hl'.inv hE).2
    intro e'
    rcases (step_tells hj e c hr).stored n with hs | ⟨hs, hc'⟩
    · have := (boot_session cfg d (n.after (Spec.newEvents m (step cfg m e c).1)) e').1 _ hs ha.reach.sessionOk.magic ha.region
      rw [this]
      exact ⟨fun _ => rfl, rfl⟩
    · have hb := (boot_session cfg d n e').2 _ e' hs
      rw [hb]
      obtain ⟨h1, h2⟩ := ih e'
      rcases hc' with hc' | ⟨hc', k, hk⟩
      · rw [hc']
        exact ⟨h1, h2⟩
      · rw [hk]
        refine ⟨fun hx => ?_, ?_⟩
        · have hx : m.ctx.joined = true := hx
          rw [hc'] at hx
          cases hx
        · exact h2
  | crash h e c hc hp hr k e' ih => exact boot _ e'

/-- **C107, uplinks**: whatever happened before, also `LDL_MAC_abp` and channels set by hand: when an uplink has been
accepted the session is in storage. -/
theorem c107_uplink {cfg : Cfg} (hE : ∀ k, BlockFn (cfg.E k)) {d : Device} {m : Mac} {n : Nvm} {log : List (Nvm × Event)}
    (h : Life cfg d m n log) (e : Env) (confirmed : Bool) (port : Nat) (payload : Option Bytes) (len : Nat)
    (opts : Option DataOpts) (hc : (Call.data confirmed port payload len opts).WF)
    (hp : Proper (.data confirmed port payload len opts))
    (hok : (step cfg m e (.data confirmed port payload len opts)).2 = .ok ∨
      (step cfg m e (.data confirmed port payload len opts)).2 = .macPriority) :
    let m' := (step cfg m e (.data confirmed port payload len opts)).1
    m'.ctx.joined = true ∧ Survives cfg d m' (n.after (Spec.newEvents m m')) := by
  intro m'
  have hl' := Life.call h e _ hc hp
  have ha := (hl'.inv hE).2
  have key : ∀ x st, Api cfg e m (.data confirmed port payload len opts) x st → (st = .ok ∨ st = .macPriority) →
      DataOp x ∧ ∃ a b, x.out = m.out ++ (a ++ .sessionUpdated x.ctx :: b) ∧ Silent b := by
    intro x st hs hok
    cases hs with
    | refused _ _ hn => rcases hok with h | h <;> simp_all
    | dataRefused _ _ _ _ _ _ _ _ hst =>
      rcases hok with h | h <;> rcases hst with h' | h' <;> rw [h'] at h <;> cases h
    | data _ _ _ _ _ hj _ _ _ _ _ _ _ _ y hy =>
      obtain ⟨_, _, _, _, _, h, ho, _⟩ := sendData_shape cfg e y confirmed port payload len opts (m.ctx.region.convertRate m.ctx.rate).mtu
      rw [h]
      subst hy
      refine ⟨?_, [], [], rfl, silent_nil⟩
      rcases ho with ho | ⟨ho, _⟩
      · exact Or.inl ho
      · exact Or.inr ho
  obtain ⟨hd, a, b, ho, hb⟩ := key _ _ (step_api cfg e m (.data confirmed port payload len opts) (by simp)) hok
  have hj : m'.ctx.joined = true := (ha.reach.inData hd).joined
  refine ⟨hj, fun e' => ?_⟩
  have hs : (n.after (Spec.newEvents m m')).session = some m'.ctx := by
    unfold Spec.newEvents
    rw [show m'.out = _ from ho, List.drop_left, after_append]
    show (((n.after a).store _).after b).session = _
    rw [after_silent hb]
    rfl
  have := (boot_session cfg d (n.after (Spec.newEvents m m')) e').1 _ hs ha.reach.sessionOk.magic ha.region
  rw [this]
  exact ⟨fun _ => rfl, rfl⟩

/-! ## Concrete cases -/

namespace Demo

instance (c : Call) : Decidable (Documented c) := by
  cases c <;> simp only [Documented] <;> infer_instance

def Happens.documented : Happens → Prop
  | .call _ c => Documented c
  | .crash _ c _ _ => Documented c

instance (h : Happens) : Decidable h.documented := by
  cases h <;> simp only [Happens.documented] <;> infer_instance

theorem live_reporting {cfg : Cfg} {d : Device} (l : List Happens) (hl : ∀ x ∈ l, x.ok ∧ x.documented) {s : Alive}
    (h : ReportingLife cfg d s.m s.n) : ReportingLife cfg d (live cfg d s l).m (live cfg d s l).n := by
  induction l generalizing s with
  | nil => exact h
  | cons x l ih =>
    refine ih (fun y hy => hl y (by simp [hy])) ?_
    obtain ⟨hx, hy⟩ := hl x (by simp)
    cases x with
    | call e c => exact .call h e c hx.1 hx.2 hy
    | crash e c k e' => exact .crash h e c hx.1 hx.2 hy k e'

/-- A device that joined, was restarted, and waits for the answer to its first uplink. -/
theorem talking_reporting : ReportingLife cfg device talking.m talking.n :=
  live_reporting _ (by decide +kernel) (live_reporting _ (by decide +kernel)
    (live_reporting _ (by decide +kernel) (s := newborn)
      (.first {} (at_ 0) rfl ⟨rfl, rfl, rfl, rfl, by decide, by decide⟩)))

/-- If it loses power now, it has the address and the next counter. -/
example : (device.boot cfg talking.n (at_ 0)).ctx = talking.m.ctx ∧ talking.m.ctx.devAddr = 7 ∧ talking.m.ctx.up = 1 := by
  obtain ⟨h1, h2⟩ : talking.m.ctx.joined = true ∧ talking.m.ctx.devAddr = 7 ∧ talking.m.ctx.up = 1 := by decide +kernel
  exact ⟨(c107_survives_partial (fun _ _ h => h) talking_reporting (at_ 0)).1 h1, h2⟩

end Demo

/-- **C107 fails for ABP**: `LDL_MAC_abp` makes the device a member of the network, and does not report the session.  If
power is lost before the first uplink the device starts without a network. -/
theorem c107_abp_lost : ∃ (m : Mac) (n : Nvm) (log : List (Nvm × Event)),
    Life Demo.cfg Demo.device m n log ∧ m.ctx.joined = true ∧
    ∀ e, (Demo.device.boot Demo.cfg n e).ctx.joined = false := by
  let m0 := Demo.device.boot Demo.cfg {} (Demo.at_ 0)
  have h0 : Life Demo.cfg Demo.device m0 {} [] := .first {} (Demo.at_ 0) rfl ⟨rfl, rfl, rfl, rfl, by decide, by decide⟩
  refine ⟨_, _, _, .call h0 (Demo.at_ 10) (.abp 1) (by decide) trivial, by decide +kernel, fun e => ?_⟩
  have h1 : (Nvm.after {} (Spec.newEvents m0 (step Demo.cfg m0 (Demo.at_ 10) (.abp 1)).1)).session = (({} : Nvm)).session := by
    have : Spec.newEvents m0 (step Demo.cfg m0 (Demo.at_ 10) (.abp 1)).1 = [] := by rfl
    rw [this]
    rfl
  rw [(boot_session Demo.cfg Demo.device {} (Demo.at_ 0)).2 _ e h1]
  decide +kernel

end LDL
