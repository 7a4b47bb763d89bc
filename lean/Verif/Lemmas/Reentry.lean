import Verif.Spec.Reentry
import Verif.Lemmas.Cases

/-!
# Requests from callbacks
-/

namespace LDL
open Spec (Request Plan)

/-- `otaa` marks the operation. -/
def markJoin (m : Mac) : Mac := { m with tx := { m.tx with power := 0 }, op := .joining }

/-- `otaa` starts waiting when the MAC is idle. -/
def waitIfIdle (e : Env) (m : Mac) : Mac :=
  if m.state = .idle then { m with state := .waitOTAA, timerA := Timer.set e 0 } else m

/-- `otaa` once it is accepted. -/
def otaaStart (cfg : Cfg) (e : Env) (m : Mac) : Mac :=
  waitIfIdle e (markJoin (nextJoinRequest cfg e (Ops.deriveJoinKeys cfg m)))

theorem otaa_start (cfg : Cfg) (e : Env) (m : Mac) : otaa cfg e m =
    if m.ctx.joined then (m, .joined)
    else if m.op = .none then
      if m.devNonce ≤ 65535 then (otaaStart cfg e { m with trials := 0, day := 60 * 60 * 24 * timeTPS }, .ok)
      else (m, .devNonce)
    else (m, .busy) := rfl

/-- The first step of `fillJoinBuffer`. -/
def fillNonce (m : Mac) (n : Nat) : Mac := { m with ctx := { m.ctx with devNonce := n } }

/-- The second step of `fillJoinBuffer`. -/
def fillFrame (m : Mac) (r : Nat × Bytes) : Mac := { m with bufferLen := r.1, buffer := r.2 }

theorem fillJoinBuffer_steps (cfg : Cfg) (e : Env) (m : Mac) (n : Nat) : fillJoinBuffer cfg e m n =
    let dn := if cfg.version = .v103 then u16 (e.draw 0) else n
    let m2 := fillFrame (fillNonce m dn) (Ops.prepareJoinRequest cfg (fillNonce m dn)
      { joinEUI := m.joinEUI, devEUI := m.devEUI, devNonce := dn } m.buffer 255)
    { m2 with tx := selectJoinChannelAndRate cfg e m2 } := rfl

theorem prepareJoinRequest_keys (cfg : Cfg) (m m' : Mac) (h : m.keys = m'.keys) (f : Frame.JoinRequest) (o : Bytes)
    (n : Nat) : Ops.prepareJoinRequest cfg m f o n = Ops.prepareJoinRequest cfg m' f o n := by
  unfold Ops.prepareJoinRequest
  rw [h]

/-- `entropy` starts the radio when the MAC is idle. -/
def bootIfIdle (e : Env) (m : Mac) : Mac :=
  if m.state = .idle then { m with state := .radioBoot, timerA := Timer.set e 0 } else m

theorem entropy_boot (e : Env) (m : Mac) : entropy e m =
    if m.op = .none then (bootIfIdle e { m with op := .entropy }, .ok) else (m, .busy) := rfl


/-- Parts of the state requests do not look at. -/
def Mac.behind (m : Mac) (p : Bool) (b : Timer) (o : List Event) : Mac := { m with parked := p, timerBand := b, out := o }

theorem sendData_behind (cfg : Cfg) (e : Env) (m : Mac) (p : Bool) (b : Timer) (o : List Event) (c : Bool) (port : Nat)
    (d : Option Bytes) (len : Nat) (opts : Option DataOpts) (mtu : Nat) :
    ∃ l, (sendData cfg e m c port d len opts mtu).1.out = m.out ++ l ∧
      sendData cfg e (m.behind p b o) c port d len opts mtu =
        ((sendData cfg e m c port d len opts mtu).1.behind p b (o ++ l), (sendData cfg e m c port d len opts mtu).2) := by
  unfold sendData startIfIdle pushSessionUpdate Mac.emit bufferFrame
  dsimp only [Mac.behind]
  by_cases hi : m.state = .idle
  · simp only [if_pos hi]
    exact ⟨[.sessionUpdated _], rfl, rfl⟩
  · simp only [if_neg hi]
    exact ⟨[.sessionUpdated _], rfl, rfl⟩

theorem dataCommand_behind (cfg : Cfg) (e : Env) (m : Mac) (p : Bool) (b : Timer) (o : List Event) (c : Bool) (port : Nat)
    (d : Option Bytes) (len : Nat) (opts : Option DataOpts) :
    ∃ l, (dataCommand cfg e m c port d len opts).1.out = m.out ++ l ∧
      dataCommand cfg e (m.behind p b o) c port d len opts =
        ((dataCommand cfg e m c port d len opts).1.behind p b (o ++ l), (dataCommand cfg e m c port d len opts).2) := by
  unfold dataCommand
  have h1 : (m.behind p b o).ctx = m.ctx := rfl
  have h2 : (m.behind p b o).op = m.op := rfl
  have h3 : (m.behind p b o).band = m.band := rfl
  rw [h1, h2, h3]
  have triv : ∀ (x : Mac) (s : Status), x.out = m.out → ∃ l, ((x, s) : Mac × Status).1.out = m.out ++ l ∧
      (x.behind p b o, s) = (((x, s) : Mac × Status).1.behind p b (o ++ l), ((x, s) : Mac × Status).2) :=
    fun x s hx => ⟨[], by simp [hx], by simp⟩
  by_cases hj : m.ctx.joined = true
  · simp only [if_pos hj]
    by_cases ho : m.op = .none
    · simp only [if_pos ho]
      by_cases hp : port > 0 ∧ port ≤ 223
      · simp only [if_pos hp]
        by_cases hb : m.band GLOBAL = 0
        · simp only [if_pos hb]
          generalize hr : m.ctx.region.applyUplinkDwell (uplinkDwell m.ctx.txParamSetup) m.ctx.rate = rate
          have hs : selectChannel
              { m.behind p b o with tx := { (m.behind p b o).tx with power := m.ctx.power, rate := rate } } (e.draw 1) m.ctx.rate 0 =
              selectChannel { m with tx := { m.tx with power := m.ctx.power, rate := rate } } (e.draw 1) m.ctx.rate 0 := rfl
          dsimp only [Mac.behind] at hs ⊢
          rw [hs]
          rcases selectChannel { m with tx := { m.tx with power := m.ctx.power, rate := rate } } (e.draw 1) m.ctx.rate 0 with
            _ | ⟨freq, ch, r2⟩
          · exact triv _ _ rfl
          · simp only []
            by_cases hl : len + Frame.dataOverhead ≤ (m.ctx.region.convertRate m.ctx.rate).mtu
            · simp only [if_pos hl]
              exact sendData_behind cfg e
                { m with tx := { m.tx with freq := freq, chIndex := ch, rate := r2, power := m.ctx.power } } p b o c port d len opts _
            · simp only [if_neg hl]
              exact ⟨[], by simp, by simp⟩
        · simp only [if_neg hb]
          exact triv _ _ rfl
      · simp only [if_neg hp]
        exact triv _ _ rfl
    · simp only [if_neg ho]
      exact triv _ _ rfl
  · simp only [if_neg hj]
    exact triv _ _ rfl

theorem selectJoin_behind (cfg : Cfg) (e : Env) (m : Mac) (p : Bool) (b : Timer) (o : List Event) :
    selectJoinChannelAndRate cfg e (m.behind p b o) = selectJoinChannelAndRate cfg e m := by
  unfold selectJoinChannelAndRate
  have h : ∀ x y z, selectChannel (m.behind p b o) x y z = selectChannel m x y z := fun _ _ _ => rfl
  have h2 : timeUntilNextChannel (m.behind p b o) = timeUntilNextChannel m := rfl
  have h3 : (m.behind p b o).ctx = m.ctx := rfl
  have h4 : (m.behind p b o).tx = m.tx := rfl
  have h5 : (m.behind p b o).trials = m.trials := rfl
  simp only [h, h2, h3, h4, h5]

theorem fillJoinBuffer_behind (cfg : Cfg) (e : Env) (m : Mac) (p : Bool) (b : Timer) (o : List Event) (n : Nat) :
    fillJoinBuffer cfg e (m.behind p b o) n = (fillJoinBuffer cfg e m n).behind p b o := by
  rw [fillJoinBuffer_steps, fillJoinBuffer_steps]
  dsimp only
  generalize (if cfg.version = .v103 then u16 (e.draw 0) else n) = dn
  have h1 : fillNonce (m.behind p b o) dn = (fillNonce m dn).behind p b o := rfl
  rw [h1, prepareJoinRequest_keys cfg ((fillNonce m dn).behind p b o) (fillNonce m dn) rfl]
  have h2 : (m.behind p b o).joinEUI = m.joinEUI := rfl
  have h3 : (m.behind p b o).devEUI = m.devEUI := rfl
  have h4 : (m.behind p b o).buffer = m.buffer := rfl
  rw [h2, h3, h4]
  generalize Ops.prepareJoinRequest _ _ _ _ _ = r
  have h5 : fillFrame ((fillNonce m dn).behind p b o) r = (fillFrame (fillNonce m dn) r).behind p b o := rfl
  rw [h5]
  generalize fillFrame (fillNonce m dn) r = m2
  rw [selectJoin_behind]
  rfl

theorem bootIfIdle_behind (e : Env) (m : Mac) (p : Bool) (b : Timer) (o : List Event) :
    bootIfIdle e (m.behind p b o) = (bootIfIdle e m).behind p b o := by
  unfold bootIfIdle
  by_cases hi : m.state = .idle
  · rw [if_pos hi, if_pos (show (m.behind p b o).state = .idle from hi)]; rfl
  · rw [if_neg hi, if_neg (show ¬ (m.behind p b o).state = .idle from hi)]

theorem bootIfIdle_behind_out (e : Env) (m : Mac) : (bootIfIdle e m).out = m.out := by
  unfold bootIfIdle
  split <;> rfl

theorem waitIfIdle_behind (e : Env) (m : Mac) (p : Bool) (b : Timer) (o : List Event) :
    waitIfIdle e (m.behind p b o) = (waitIfIdle e m).behind p b o := by
  unfold waitIfIdle
  by_cases hi : m.state = .idle
  · rw [if_pos hi, if_pos (show (m.behind p b o).state = .idle from hi)]; rfl
  · rw [if_neg hi, if_neg (show ¬ (m.behind p b o).state = .idle from hi)]

theorem nextJoinRequest_behind (cfg : Cfg) (e : Env) (m : Mac) (p : Bool) (b : Timer) (o : List Event) :
    nextJoinRequest cfg e (m.behind p b o) =
      (nextJoinRequest cfg e m).behind p b (o ++ [.devNonceUpdated (u32 (m.devNonce + 1))]) := by
  have hf := fillJoinBuffer_behind cfg e m p b o (u16 (m.behind p b o).devNonce)
  unfold nextJoinRequest
  rw [hf]
  have hd : (m.behind p b o).devNonce = m.devNonce := rfl
  rw [hd]
  obtain ⟨dn, bu, bl, tx, hsh⟩ := fillJoinBuffer_shape cfg e m (u16 m.devNonce)
  rw [hsh]
  rfl

theorem otaaStart_behind (cfg : Cfg) (e : Env) (m : Mac) (p : Bool) (b : Timer) (o : List Event) :
    ∃ l, (otaaStart cfg e m).out = m.out ++ l ∧
      otaaStart cfg e (m.behind p b o) = (otaaStart cfg e m).behind p b (o ++ l) := by
  unfold otaaStart
  have hk : Ops.deriveJoinKeys cfg (m.behind p b o) = (Ops.deriveJoinKeys cfg m).behind p b o := by
    unfold Ops.deriveJoinKeys; split <;> rfl
  rw [hk]
  obtain ⟨k, hk2⟩ := deriveJoinKeys_shape cfg m
  rw [hk2]
  generalize h0 : ({ m with keys := k } : Mac) = m0
  have hout : m0.out = m.out := by rw [← h0]

  rw [nextJoinRequest_behind]
  obtain ⟨dn, bu, bl, tx, hsh⟩ := nextJoinRequest_shape cfg e m0
  have ho : (nextJoinRequest cfg e m0).out = m0.out ++ [.devNonceUpdated (u32 (m0.devNonce + 1))] := by rw [hsh]

  generalize nextJoinRequest cfg e m0 = m1 at *
  have hm : ∀ o, markJoin (m1.behind p b o) = (markJoin m1).behind p b o := fun _ => rfl
  rw [hm, waitIfIdle_behind e (markJoin m1) p b _]
  refine ⟨_, ?_, rfl⟩
  rw [← hout, ← ho]
  unfold waitIfIdle
  split <;> rfl

theorem otaa_behind (cfg : Cfg) (e : Env) (m : Mac) (p : Bool) (b : Timer) (o : List Event) :
    ∃ l, (otaa cfg e m).1.out = m.out ++ l ∧
      otaa cfg e (m.behind p b o) = ((otaa cfg e m).1.behind p b (o ++ l), (otaa cfg e m).2) := by
  rw [otaa_start, otaa_start]
  have h1 : (m.behind p b o).ctx = m.ctx := rfl
  have h2 : (m.behind p b o).op = m.op := rfl
  have h3 : (m.behind p b o).devNonce = m.devNonce := rfl
  rw [h1, h2, h3]
  have triv : ∀ (u : Status), ∃ l, ((m, u) : Mac × Status).1.out = m.out ++ l ∧
      (m.behind p b o, u) = (((m, u) : Mac × Status).1.behind p b (o ++ l), ((m, u) : Mac × Status).2) :=
    fun u => ⟨[], by simp, by simp⟩
  by_cases hj : m.ctx.joined = true
  · simp only [if_pos hj]; exact triv _
  · simp only [if_neg hj]
    by_cases ho : m.op = .none
    · simp only [if_pos ho]
      by_cases hd : m.devNonce ≤ 65535
      · simp only [if_pos hd]
        obtain ⟨l, h1, h2⟩ := otaaStart_behind cfg e { m with trials := 0, day := 60 * 60 * 24 * timeTPS } p b o
        exact ⟨l, h1, congrArg (·, Status.ok) h2⟩
      · simp only [if_neg hd]; exact triv _
    · simp only [if_neg ho]; exact triv _

theorem entropy_behind (e : Env) (m : Mac) (p : Bool) (b : Timer) (o : List Event) :
    ∃ l, (entropy e m).1.out = m.out ++ l ∧
      entropy e (m.behind p b o) = ((entropy e m).1.behind p b (o ++ l), (entropy e m).2) := by
  rw [entropy_boot, entropy_boot]
  by_cases ho : m.op = .none
  · rw [if_pos ho, if_pos (show (m.behind p b o).op = .none from ho)]
    have h := bootIfIdle_behind e { m with op := .entropy } p b o
    exact ⟨[], by rw [List.append_nil]; exact bootIfIdle_behind_out _ _,
      by rw [List.append_nil]; exact congrArg (·, Status.ok) h⟩
  · rw [if_neg ho, if_neg (show ¬ (m.behind p b o).op = .none from ho)]
    exact ⟨[], by simp, by simp⟩

/-- A request that looks at nothing else. -/
theorem request_behind (cfg : Cfg) (e : Env) (m : Mac) (p : Bool) (b : Timer) (o : List Event) (c : Call) (hc : Request c) :
    ∃ l, (step cfg m e c).1.out = m.out ++ l ∧
      step cfg (m.behind p b o) e c = ((step cfg m e c).1.behind p b (o ++ l), (step cfg m e c).2) := by
  cases c with
  | entropy => exact entropy_behind e m p b o
  | otaa => exact otaa_behind cfg e m p b o
  | data c1 c2 c3 c4 c5 => exact dataCommand_behind cfg e m p b o c1 c2 c3 c4 c5
  | _ => exact absurd hc (by simp [Request])

/-- Parts of the state requests do not look at while the MAC is not idle. -/
def Mac.aside (m : Mac) (s : St) (t : Timer) (o : List Event) : Mac := { m with state := s, timerA := t, out := o }

theorem sendData_aside (cfg : Cfg) (e : Env) (m : Mac) (s : St) (t : Timer) (o : List Event) (hi : m.state ≠ .idle) (hs : s ≠ .idle) (c : Bool) (port : Nat)
    (d : Option Bytes) (len : Nat) (opts : Option DataOpts) (mtu : Nat) :
    ∃ l, (sendData cfg e m c port d len opts mtu).1.out = m.out ++ l ∧
      sendData cfg e (m.aside s t o) c port d len opts mtu =
        ((sendData cfg e m c port d len opts mtu).1.aside s t (o ++ l), (sendData cfg e m c port d len opts mtu).2) := by
  unfold sendData startIfIdle pushSessionUpdate Mac.emit bufferFrame
  dsimp only [Mac.aside]
  simp only [if_neg hi, if_neg hs]
  exact ⟨[.sessionUpdated _], rfl, rfl⟩

theorem dataCommand_aside (cfg : Cfg) (e : Env) (m : Mac) (s : St) (t : Timer) (o : List Event) (hi : m.state ≠ .idle) (hs : s ≠ .idle) (c : Bool) (port : Nat)
    (d : Option Bytes) (len : Nat) (opts : Option DataOpts) :
    ∃ l, (dataCommand cfg e m c port d len opts).1.out = m.out ++ l ∧
      dataCommand cfg e (m.aside s t o) c port d len opts =
        ((dataCommand cfg e m c port d len opts).1.aside s t (o ++ l), (dataCommand cfg e m c port d len opts).2) := by
  unfold dataCommand
  have h1 : (m.aside s t o).ctx = m.ctx := rfl
  have h2 : (m.aside s t o).op = m.op := rfl
  have h3 : (m.aside s t o).band = m.band := rfl
  rw [h1, h2, h3]
  have triv : ∀ (x : Mac) (u : Status), x.out = m.out → ∃ l, ((x, u) : Mac × Status).1.out = m.out ++ l ∧
      (x.aside s t o, u) = (((x, u) : Mac × Status).1.aside s t (o ++ l), ((x, u) : Mac × Status).2) :=
    fun x u hx => ⟨[], by simp [hx], by simp⟩
  by_cases hj : m.ctx.joined = true
  · simp only [if_pos hj]
    by_cases ho : m.op = .none
    · simp only [if_pos ho]
      by_cases hp : port > 0 ∧ port ≤ 223
      · simp only [if_pos hp]
        by_cases hb : m.band GLOBAL = 0
        · simp only [if_pos hb]
          generalize hr : m.ctx.region.applyUplinkDwell (uplinkDwell m.ctx.txParamSetup) m.ctx.rate = rate
          have hsel : selectChannel
              { m.aside s t o with tx := { (m.aside s t o).tx with power := m.ctx.power, rate := rate } } (e.draw 1) m.ctx.rate 0 =
              selectChannel { m with tx := { m.tx with power := m.ctx.power, rate := rate } } (e.draw 1) m.ctx.rate 0 := rfl
          dsimp only [Mac.aside] at hsel ⊢
          rw [hsel]
          rcases selectChannel { m with tx := { m.tx with power := m.ctx.power, rate := rate } } (e.draw 1) m.ctx.rate 0 with
            _ | ⟨freq, ch, r2⟩
          · exact triv _ _ rfl
          · simp only []
            by_cases hl : len + Frame.dataOverhead ≤ (m.ctx.region.convertRate m.ctx.rate).mtu
            · simp only [if_pos hl]
              exact sendData_aside cfg e
                { m with tx := { m.tx with freq := freq, chIndex := ch, rate := r2, power := m.ctx.power } } s t o hi hs c port d len opts _
            · simp only [if_neg hl]
              exact ⟨[], by simp, by simp⟩
        · simp only [if_neg hb]
          exact triv _ _ rfl
      · simp only [if_neg hp]
        exact triv _ _ rfl
    · simp only [if_neg ho]
      exact triv _ _ rfl
  · simp only [if_neg hj]
    exact triv _ _ rfl

theorem selectJoin_aside (cfg : Cfg) (e : Env) (m : Mac) (s : St) (t : Timer) (o : List Event) :
    selectJoinChannelAndRate cfg e (m.aside s t o) = selectJoinChannelAndRate cfg e m := by
  unfold selectJoinChannelAndRate
  have h : ∀ x y z, selectChannel (m.aside s t o) x y z = selectChannel m x y z := fun _ _ _ => rfl
  have h2 : timeUntilNextChannel (m.aside s t o) = timeUntilNextChannel m := rfl
  have h3 : (m.aside s t o).ctx = m.ctx := rfl
  have h4 : (m.aside s t o).tx = m.tx := rfl
  have h5 : (m.aside s t o).trials = m.trials := rfl
  simp only [h, h2, h3, h4, h5]

theorem fillJoinBuffer_aside (cfg : Cfg) (e : Env) (m : Mac) (s : St) (t : Timer) (o : List Event) (n : Nat) :
    fillJoinBuffer cfg e (m.aside s t o) n = (fillJoinBuffer cfg e m n).aside s t o := by
  rw [fillJoinBuffer_steps, fillJoinBuffer_steps]
  dsimp only
  generalize (if cfg.version = .v103 then u16 (e.draw 0) else n) = dn
  have h1 : fillNonce (m.aside s t o) dn = (fillNonce m dn).aside s t o := rfl
  rw [h1, prepareJoinRequest_keys cfg ((fillNonce m dn).aside s t o) (fillNonce m dn) rfl]
  have h2 : (m.aside s t o).joinEUI = m.joinEUI := rfl
  have h3 : (m.aside s t o).devEUI = m.devEUI := rfl
  have h4 : (m.aside s t o).buffer = m.buffer := rfl
  rw [h2, h3, h4]
  generalize Ops.prepareJoinRequest _ _ _ _ _ = r
  have h5 : fillFrame ((fillNonce m dn).aside s t o) r = (fillFrame (fillNonce m dn) r).aside s t o := rfl
  rw [h5]
  generalize fillFrame (fillNonce m dn) r = m2
  rw [selectJoin_aside]
  rfl

theorem bootIfIdle_aside (e : Env) (m : Mac) (s : St) (t : Timer) (o : List Event) (hi : m.state ≠ .idle) (hs : s ≠ .idle) :
    bootIfIdle e (m.aside s t o) = (bootIfIdle e m).aside s t o := by
  unfold bootIfIdle
  rw [if_neg hi, if_neg (show ¬ (m.aside s t o).state = .idle from hs)]

theorem bootIfIdle_aside_out (e : Env) (m : Mac) : (bootIfIdle e m).out = m.out := by
  unfold bootIfIdle
  split <;> rfl

theorem waitIfIdle_aside (e : Env) (m : Mac) (s : St) (t : Timer) (o : List Event) (hi : m.state ≠ .idle) (hs : s ≠ .idle) :
    waitIfIdle e (m.aside s t o) = (waitIfIdle e m).aside s t o := by
  unfold waitIfIdle
  rw [if_neg hi, if_neg (show ¬ (m.aside s t o).state = .idle from hs)]

theorem nextJoinRequest_aside (cfg : Cfg) (e : Env) (m : Mac) (s : St) (t : Timer) (o : List Event) :
    nextJoinRequest cfg e (m.aside s t o) =
      (nextJoinRequest cfg e m).aside s t (o ++ [.devNonceUpdated (u32 (m.devNonce + 1))]) := by
  have hf := fillJoinBuffer_aside cfg e m s t o (u16 (m.aside s t o).devNonce)
  unfold nextJoinRequest
  rw [hf]
  have hd : (m.aside s t o).devNonce = m.devNonce := rfl
  rw [hd]
  obtain ⟨dn, bu, bl, tx, hsh⟩ := fillJoinBuffer_shape cfg e m (u16 m.devNonce)
  rw [hsh]
  rfl

theorem otaaStart_aside (cfg : Cfg) (e : Env) (m : Mac) (s : St) (t : Timer) (o : List Event) (hi : m.state ≠ .idle) (hs : s ≠ .idle) :
    ∃ l, (otaaStart cfg e m).out = m.out ++ l ∧
      otaaStart cfg e (m.aside s t o) = (otaaStart cfg e m).aside s t (o ++ l) := by
  unfold otaaStart
  have hk : Ops.deriveJoinKeys cfg (m.aside s t o) = (Ops.deriveJoinKeys cfg m).aside s t o := by
    unfold Ops.deriveJoinKeys; split <;> rfl
  rw [hk]
  obtain ⟨k, hk2⟩ := deriveJoinKeys_shape cfg m
  rw [hk2]
  generalize h0 : ({ m with keys := k } : Mac) = m0
  have hout : m0.out = m.out := by rw [← h0]
  have hi0 : m0.state ≠ .idle := by rw [← h0]; exact hi
  rw [nextJoinRequest_aside]
  obtain ⟨dn, bu, bl, tx, hsh⟩ := nextJoinRequest_shape cfg e m0
  have ho : (nextJoinRequest cfg e m0).out = m0.out ++ [.devNonceUpdated (u32 (m0.devNonce + 1))] := by rw [hsh]
  have hi1 : (nextJoinRequest cfg e m0).state ≠ .idle := by rw [hsh]; exact hi0
  generalize nextJoinRequest cfg e m0 = m1 at *
  have hm : ∀ o, markJoin (m1.aside s t o) = (markJoin m1).aside s t o := fun _ => rfl
  rw [hm, waitIfIdle_aside e (markJoin m1) s t _ hi1 hs]
  refine ⟨_, ?_, rfl⟩
  rw [← hout, ← ho]
  unfold waitIfIdle
  split <;> rfl

theorem otaa_aside (cfg : Cfg) (e : Env) (m : Mac) (s : St) (t : Timer) (o : List Event) (hi : m.state ≠ .idle) (hs : s ≠ .idle) :
    ∃ l, (otaa cfg e m).1.out = m.out ++ l ∧
      otaa cfg e (m.aside s t o) = ((otaa cfg e m).1.aside s t (o ++ l), (otaa cfg e m).2) := by
  rw [otaa_start, otaa_start]
  have h1 : (m.aside s t o).ctx = m.ctx := rfl
  have h2 : (m.aside s t o).op = m.op := rfl
  have h3 : (m.aside s t o).devNonce = m.devNonce := rfl
  rw [h1, h2, h3]
  have triv : ∀ (u : Status), ∃ l, ((m, u) : Mac × Status).1.out = m.out ++ l ∧
      (m.aside s t o, u) = (((m, u) : Mac × Status).1.aside s t (o ++ l), ((m, u) : Mac × Status).2) :=
    fun u => ⟨[], by simp, by simp⟩
  by_cases hj : m.ctx.joined = true
  · simp only [if_pos hj]; exact triv _
  · simp only [if_neg hj]
    by_cases ho : m.op = .none
    · simp only [if_pos ho]
      by_cases hd : m.devNonce ≤ 65535
      · simp only [if_pos hd]
        obtain ⟨l, h1, h2⟩ := otaaStart_aside cfg e { m with trials := 0, day := 60 * 60 * 24 * timeTPS } s t o hi hs
        exact ⟨l, h1, congrArg (·, Status.ok) h2⟩
      · simp only [if_neg hd]; exact triv _
    · simp only [if_neg ho]; exact triv _

theorem entropy_aside (e : Env) (m : Mac) (s : St) (t : Timer) (o : List Event) (hi : m.state ≠ .idle) (hs : s ≠ .idle) :
    ∃ l, (entropy e m).1.out = m.out ++ l ∧
      entropy e (m.aside s t o) = ((entropy e m).1.aside s t (o ++ l), (entropy e m).2) := by
  rw [entropy_boot, entropy_boot]
  by_cases ho : m.op = .none
  · rw [if_pos ho, if_pos (show (m.aside s t o).op = .none from ho)]
    have h := bootIfIdle_aside e { m with op := .entropy } s t o hi hs
    exact ⟨[], by rw [List.append_nil]; exact bootIfIdle_aside_out _ _,
      by rw [List.append_nil]; exact congrArg (·, Status.ok) h⟩
  · rw [if_neg ho, if_neg (show ¬ (m.aside s t o).op = .none from ho)]
    exact ⟨[], by simp, by simp⟩

/-- A request that looks at nothing else. -/
theorem request_aside (cfg : Cfg) (e : Env) (m : Mac) (s : St) (t : Timer) (o : List Event) (hi : m.state ≠ .idle) (hs : s ≠ .idle) (c : Call) (hc : Request c) :
    ∃ l, (step cfg m e c).1.out = m.out ++ l ∧
      step cfg (m.aside s t o) e c = ((step cfg m e c).1.aside s t (o ++ l), (step cfg m e c).2) := by
  cases c with
  | entropy => exact entropy_aside e m s t o hi hs
  | otaa => exact otaa_aside cfg e m s t o hi hs
  | data c1 c2 c3 c4 c5 => exact dataCommand_aside cfg e m s t o hi hs c1 c2 c3 c4 c5
  | _ => exact absurd hc (by simp [Request])

end LDL
