import Verif.Spec.Conversation
import Verif.Props.Join
import Verif.Props.Uplink
import Verif.Props.Downlink
import Verif.Props.Restart

/-!
# C101: device and network understand each other after a join
-/

namespace LDL
open Spec

theorem stamps_split {n n' : Nvm} {ev : Event} {l : List Event} {a b : List (Nvm × Event)}
    (h : stamps n l = a ++ (n', ev) :: b) : ∃ p q, l = p ++ ev :: q ∧ n' = n.after p ∧ a = stamps n p := by
  induction l generalizing n a with
  | nil => cases a <;> cases h
  | cons x l ih =>
    cases a with
    | nil =>
      simp only [stamps, List.nil_append, List.cons.injEq, Prod.mk.injEq] at h
      obtain ⟨⟨rfl, rfl⟩, _⟩ := h
      exact ⟨[], l, rfl, rfl, rfl⟩
    | cons y a =>
      simp only [stamps, List.cons_append, List.cons.injEq] at h
      obtain ⟨rfl, h⟩ := h
      obtain ⟨p, q, h1, h2, h3⟩ := ih h
      exact ⟨x :: p, q, by rw [h1]; rfl, by rw [h2]; rfl, by rw [h3]; rfl⟩

theorem log_split {log a b : List (Nvm × Event)} {n n' : Nvm} {ev : Event} {l : List Event}
    (h : log ++ stamps n l = a ++ (n', ev) :: b) :
    (∃ b', log = a ++ (n', ev) :: b') ∨ ∃ p q, l = p ++ ev :: q ∧ n' = n.after p ∧ a = log ++ stamps n p := by
  rcases List.append_eq_append_iff.1 h with ⟨c, h1, h2⟩ | ⟨c, h1, h2⟩
  · obtain ⟨p, q, e1, e2, e3⟩ := stamps_split h2
    exact Or.inr ⟨p, q, e1, e2, by rw [h1, e3]⟩
  · cases c with
    | nil =>
      rw [List.nil_append] at h2
      obtain ⟨p, q, e1, e2, e3⟩ := stamps_split (a := []) h2.symm
      exact Or.inr ⟨p, q, e1, e2, by rw [h1, ← e3, List.append_nil, List.append_nil]⟩
    | cons x c =>
      simp only [List.cons_append, List.cons.injEq] at h2
      obtain ⟨rfl, _⟩ := h2
      exact Or.inl ⟨c, h1⟩

theorem sentIn_stamps (n : Nvm) (l : List Event) : (stamps n l).filterMap sentIn = (transmissions l).map Prod.snd := by
  induction l generalizing n with
  | nil => rfl
  | cons x l ih =>
    unfold transmissions at ih ⊢
    cases x <;> simp_all [stamps, sentIn, List.filterMap_cons, transmitted]

theorem lastRequest_quiet {log : List (Nvm × Event)} {n : Nvm} {l : List Event}
    (h : ∀ x ∈ transmissions l, parseJoinRequest x.2 = none) : lastRequest (log ++ stamps n l) = lastRequest log := by
  unfold lastRequest
  rw [List.filterMap_append, List.filterMap_append, sentIn_stamps]
  have : ((transmissions l).map Prod.snd).filterMap parseJoinRequest = [] := by
    rw [List.filterMap_eq_nil_iff]
    intro b hb
    obtain ⟨x, hx, rfl⟩ := List.mem_map.1 hb
    exact h x hx
  rw [this, List.append_nil]

theorem lastRequest_of_lastSent {log : List (Nvm × Event)} {phy : Bytes} {r : JoinRequest}
    (h : lastSent log = some phy) (hr : parseJoinRequest phy = some r) : lastRequest log = some r := by
  unfold lastSent at h
  unfold lastRequest
  obtain ⟨l, hl⟩ := List.getLast?_eq_some_iff.1 h
  rw [hl, List.filterMap_append]
  simp [hr]

/-- The session of the network is the one in storage. -/
structure StoredFrom (cfg : Cfg) (r : JoinRequest) (ja : JoinAccept) (s : Session) : Prop where
  devAddr : s.devAddr = ja.devAddr
  netID : s.netID = ja.netID
  joinNonce : s.joinNonce = ja.joinNonce
  devNonce : s.devNonce = r.devNonce
  version : decide (sessVersion cfg s = 1) = (cfg.v11 && ja.optNeg)

theorem StoredFrom.of_ident {cfg : Cfg} {r : JoinRequest} {ja : JoinAccept} {s s' : Session}
    (h : StoredFrom cfg r ja s) (hi : s'.ident = s.ident) : StoredFrom cfg r ja s' := by
  unfold Session.ident at hi
  simp only [Prod.mk.injEq] at hi
  refine ⟨hi.2.2.2.2.trans h.devAddr, hi.2.1.trans h.netID, hi.2.2.1.trans h.joinNonce, hi.2.2.2.1.trans h.devNonce, ?_⟩
  rw [← h.version]
  unfold sessVersion
  rw [hi.1]

/-- The frame of a data operation is what the network expects. -/
theorem frame_accepted {cfg : Cfg} (hE : ∀ k, BlockFn (cfg.E k)) {d : Device} {m : Mac} {n : Nvm}
    {log : List (Nvm × Event)} (ha : Agree cfg d m n log) (hd : DataOp m) (hc : m.tx.counter < 65536)
    (hl : m.frame.length ≠ 244) (conf : Nat) (hconf : sess11 cfg m = true → conf = 0) :
    ∃ msg, receiveUp cfg.E (sess11 cfg m) (deviceKeys cfg m) m.ctx.devAddr m.tx.counter conf m.tx.rate m.tx.chIndex
      m.frame = some msg := by
  have hb := ha.reach.bufOk hE
  obtain ⟨⟨hdev, g, g1, g2, g3, g4, g5, mic, _, g7⟩, _⟩ := ha.data hd
  obtain ⟨body, rest, b1, b2, b3⟩ := hb.mic hd
  have hfr : m.frame = body ++ le 4 (upMic cfg m body) := by
    unfold Mac.frame
    rw [b3, b1]
    have : body.length + 4 = (body ++ le 4 (upMic cfg m body)).length := by rw [List.length_append, Stream.le_length]
    rw [this, List.take_left]
  have hlen : m.frame.length = body.length + 4 := by rw [hfr, List.length_append, Stream.le_length]
  have hle : m.frame.length ≤ 255 := by
    unfold Mac.frame
    rw [List.length_take, hb.buffer]
    omega
  have hbody : body = (sealed cfg m g).body := by
    have h := hfr.symm.trans g7
    exact (List.append_inj' h (by rw [Stream.le_length, Stream.le_length])).1
  have hcnt : g.counter = m.tx.counter := by
    rw [g3]; exact Nat.mod_eq_of_lt hc
  have hmic : upMic cfg m (sealed cfg m g).body = uplinkMic cfg.E (sess11 cfg m) (deviceKeys cfg m) g.devAddr g.counter
      conf m.tx.rate m.tx.chIndex (sealed cfg m g).body := by
    rw [← hbody, upMic_eq hE m _ (by omega) (by omega), g4, hcnt]
    unfold uplinkMic
    cases h11 : sess11 cfg m with
    | true => rw [hconf h11]
    | false => rfl
  have hrec := receive_sealed hE m g g2 g1 (by omega) (by rw [g4]; exact hdev) g5 conf m.tx.rate m.tx.chIndex
  rw [← hmic, ← hbody, ← hfr, g4, hcnt] at hrec
  exact ⟨_, hrec⟩

/-- What holds of storage and history. -/
structure Conv (cfg : Cfg) (d : Device) (n : Nvm) (log : List (Nvm × Event)) : Prop where
  stored : ∀ s, n.session = some s → s.joined = true → ∃ r ja, Answered cfg d log r ja ∧ StoredFrom cfg r ja s
  sent : ∀ a n' t s b z, log = a ++ (n', Event.transmit t s b) :: z → parseJoinRequest b = none →
    Understood cfg d a n' s b

/-- The session of a joined device is one with the network. -/
theorem Conv.joined {cfg : Cfg} {d : Device} {m : Mac} {n : Nvm} {log : List (Nvm × Event)} (h : Conv cfg d n log)
    (hk : KeyInv cfg d m n) (hj : m.ctx.joined = true) :
    ∃ r ja, Answered cfg d log r ja ∧ StoredFrom cfg r ja m.ctx ∧ sess11 cfg m = (netSession cfg d r ja).v11 ∧
      deviceKeys cfg m = (netSession cfg d r ja).keys ∧ m.ctx.devAddr = (netSession cfg d r ja).devAddr := by
  obtain ⟨s, s1, s2, s3⟩ := hk.stored hj
  obtain ⟨r, ja, h1, h2⟩ := h.stored s s1 s2
  have h3 := h2.of_ident s3.symm
  refine ⟨r, ja, h1, h3, h3.version, ?_, h3.devAddr⟩
  rw [hk.keys hj, h3.joinNonce, h3.netID, h3.devNonce]
  have : sess11 cfg m = (cfg.v11 && ja.optNeg) := h3.version
  rw [this]
  rfl

theorem Conv.after {cfg : Cfg} (hE : ∀ k, BlockFn (cfg.E k)) {d : Device} {m : Mac} {n : Nvm} {log : List (Nvm × Event)}
    (h : Conv cfg d n log) (hl : Life cfg d m n log) (hk : KeyInv cfg d m n) (e : Env) (c : Call) (hc : c.WF)
    (hna : ∀ a, c ≠ .abp a) (l : List Event) (hlo : l <+: newEvents m (step cfg m e c).1) :
    Conv cfg d (n.after l) (log ++ stamps n l) := by
  obtain ⟨hn, ha⟩ := hl.inv hE
  have hji := hl.joinInv hE
  have hf := step_effect ha.reach e c hc
  have hp := hf.part hlo n
  -- as long as the device is joined, no join request is sent
  have hquiet : m.ctx.joined = true → ∀ p, p <+: newEvents m (step cfg m e c).1 →
      lastRequest (log ++ stamps n p) = lastRequest log := by
    intro hj p hpo
    refine lastRequest_quiet fun x hx => ?_
    rcases (hf.part hpo n).tx with h | ⟨h1, _, h3, _⟩
    · rw [h] at hx; cases hx
    · rw [h3] at hx
      rw [List.mem_singleton.1 hx]
      rcases h1 with h1 | h1
      · rw [hji.unjoined h1] at hj; cases hj
      · exact (ha.data h1).1.notJoin
  have hmono : m.ctx.joined = true → ∀ p, p <+: newEvents m (step cfg m e c).1 → ∀ r ja, Answered cfg d log r ja →
      Answered cfg d (log ++ stamps n p) r ja :=
    fun hj p hpo r ja h => ⟨(hquiet hj p hpo).trans h.1, h.2⟩
  refine ⟨?_, ?_⟩
  · intro s hs hsj
    rcases hp.stored with ⟨t1, _⟩ | ⟨t1, t2⟩
    · rw [t1] at hs
      obtain ⟨r, ja, h1, h2⟩ := h.stored s hs hsj
      exact ⟨r, ja, hmono (hk.back s hs hsj).1 l hlo r ja h1, h2⟩
    · rw [t1] at hs
      injection hs with hs
      subst hs
      cases step_keys cfg e m c hji.unjoined with
      | quiet q hr =>
        obtain ⟨q1, q2⟩ := q.ident hsj
        obtain ⟨r, ja, h1, h2, _⟩ := h.joined hk q1
        exact ⟨r, ja, hmono q1 l hlo r ja h1, h2.of_ident q2⟩
      | abp a hc' _ _ => exact absurd hc' (hna a)
      | otaa hc' hj' hj hno hk' => rw [hj'] at hsj; cases hsj
      | join f buf hj hc' hk' ho hev =>
        obtain ⟨o, s1, s2⟩ := step_joinNonce cfg e m c
        rcases s2 with ⟨_, _, s2⟩ | ⟨f', buf', _, _, s3, _⟩
        · exact absurd hj (s2 _ _)
        · rw [← newEvents_append s1] at s3
          obtain ⟨_, _, hrx, phy, r, ja, e1, e2, _, _, e3, _, _, _, _, j1, j2, j3, j4, j5, j6, j7⟩ :=
            join_event hE hl e c _ _ _ s3
          refine ⟨r, ja, ⟨?_, _, e3⟩, ⟨j2, j3, j4, j5, j6⟩⟩
          rw [lastRequest_quiet, lastRequest_of_lastSent e1 e2]
          intro x hx
          rcases hp.tx with h | ⟨_, h2, _⟩
          · rw [h] at hx; cases hx
          · have : afterTx m.state = true := by
              rcases hrx.1 with h | h <;> rw [h] <;> rfl
            rw [this] at h2; cases h2
  · intro a n' t s b z hz hb
    rcases log_split hz with ⟨z', h'⟩ | ⟨p, q, e1, e2, e3⟩
    · exact h.sent a n' t s b z' h' hb
    · have hpo : p <+: newEvents m (step cfg m e c).1 := List.IsPrefix.trans ⟨_, e1.symm⟩ hlo
      have hq := hf.part hpo n
      have hmt : (s, b) ∈ transmissions l := by
        rw [e1, transmissions_append]
        exact List.mem_append_right _ (List.mem_cons_self ..)
      rcases hf.tx with h0 | ⟨h1, h2, h3, h4, h5, h6, h7, h8⟩
      · have := (transmissions_prefix hlo).subset hmt
        rw [h0] at this; cases this
      · have hbm := (transmissions_prefix hlo).subset hmt
        rw [h3] at hbm
        obtain ⟨hs', hb'⟩ := Prod.mk.inj (List.mem_singleton.1 hbm)
        subst hb'
        have hdata : DataOp m := by
          rcases h1 with h1 | h1
          · obtain ⟨r, hr, _⟩ := (ha.joining h1).1.parse hn.arg.joinEUI hn.arg.devEUI
            rw [hr] at hb; cases hb
          · exact h1
        obtain ⟨i1, i2, _, i4⟩ := ha.reach.inData hdata
        have hup : n'.up = m.ctx.up := by
          rw [e2]
          rcases hq.stored with ⟨hst, _⟩ | ⟨hst, _⟩
          · rw [up_congr hst, ha.up]
          · rw [up_of_some hst, h5]
        obtain ⟨r, ja, k1, k2, k3, k4, k5⟩ := h.joined hk i4
        refine ⟨r, ja, m.tx.counter, ?_, hup.trans i1, i2, ?_⟩
        · rw [e3]; exact hmono i4 p hpo r ja k1
        · intro hc hlen conf hconf
          obtain ⟨msg, hm⟩ := frame_accepted hE ha hdata hc hlen conf (by rw [k3]; exact hconf)
          refine ⟨m.tx.rate, m.tx.chIndex, msg, ?_, ?_, ?_⟩
          · rw [hs', ← ha.region]; rfl
          · rw [hs', ← ha.region]; rfl
          · rw [← k3, ← k4, ← k5]; exact hm

theorem Spec.OtaaLife.conv {cfg : Cfg} (hE : ∀ k, BlockFn (cfg.E k)) {d : Device} {m : Mac} {n : Nvm}
    {log : List (Nvm × Event)} (h : OtaaLife cfg d m n log) : Conv cfg d n log := by
  induction h with
  | first n e hn ha =>
    refine ⟨fun s hs => ?_, fun a n' t s b z hz => ?_⟩
    · rw [hn] at hs; cases hs
    · cases a <;> cases hz
  | call h e c hc hp hna ih => exact ih.after hE h.life (h.keyInv hE) e c hc hna _ List.prefix_rfl
  | crash h e c hc hp hna k e' ih => exact ih.after hE h.life (h.keyInv hE) e c hc hna _ (List.take_prefix k _)

/-- **C101** (session): in a life without personalisation, over joins, restarts and crashes, a joined device is in the
session the network made of the last join request it sent and an authentic answer: same version, keys and address. -/
theorem c101_session {cfg : Cfg} (hE : ∀ k, BlockFn (cfg.E k)) {d : Device} {m : Mac} {n : Nvm} {log : List (Nvm × Event)}
    (h : OtaaLife cfg d m n log) (hj : m.ctx.joined = true) :
    ∃ r ja, Answered cfg d log r ja ∧
      ({ v11 := sess11 cfg m, keys := deviceKeys cfg m, devAddr := m.ctx.devAddr } : NetSession) = netSession cfg d r ja := by
  obtain ⟨r, ja, h1, _, h3, h4, h5⟩ := (h.conv hE).joined (h.keyInv hE) hj
  refine ⟨r, ja, h1, ?_⟩
  rw [h3, h4, h5]

/-- **C101** (uplinks): whatever such a device hands to the radio that is not a join request is accepted by a network that
knows the root keys, the last join request before it and the answer, at the counter that is in storage less one.
Partial: counters from 65536 on and frames of 244 bytes, and in 1.1 sessions uplinks that acknowledge a downlink whose
counter is not zero. -/
theorem c101_uplinks_partial {cfg : Cfg} (hE : ∀ k, BlockFn (cfg.E k)) {d : Device} {m : Mac} {n : Nvm}
    {log : List (Nvm × Event)} (h : OtaaLife cfg d m n log) (before after : List (Nvm × Event)) (n' : Nvm) (t : Nat)
    (s : TxSetting) (phy : Bytes) (hs : log = before ++ (n', .transmit t s phy) :: after)
    (hd : parseJoinRequest phy = none) : Understood cfg d before n' s phy :=
  (h.conv hE).sent before n' t s phy after hs hd

/-- **C101** (downlinks): what the network sends in that session while such a device listens after an uplink is delivered,
with its port and payload, and a confirmed uplink it acknowledges is complete.  Partial: counters from 65536 on and
messages of 244 bytes. -/
theorem c101_downlinks_partial {cfg : Cfg} (hE : ∀ k, BlockFn (cfg.E k)) {d : Device} {m : Mac} {n : Nvm}
    {log : List (Nvm × Event)} (h : OtaaLife cfg d m n log) (e : Env) (hrx : Receiving m e) (ho : DataOp m) :
    ∃ r ja up, Answered cfg d log r ja ∧ n.up = (up + 1) % 4294967296 ∧ up < 4294967296 ∧
      ∀ f, NetSendable (netSession cfg d r ja) f → ∀ fcnt, fcnt < 65536 →
        e.packet = sendDown cfg.E (netSession cfg d r ja).v11 (netSession cfg d r ja).keys (up % 65536) fcnt f →
        e.packet.length ≤ 255 → e.packet.length ≠ 244 →
        let m' := process cfg e m
        received (newEvents m m') = appData f ∧ m'.op = .none ∧
        (m.op = .dataUnconfirmed ∨ f.ack = true → .dataComplete ∈ newEvents m m') := by
  obtain ⟨_, ha⟩ := h.life.inv hE
  obtain ⟨i1, i2, _, i4⟩ := ha.reach.inData ho
  obtain ⟨r, ja, h1, _, h3, h4, h5⟩ := (h.conv hE).joined (h.keyInv hE) i4
  refine ⟨r, ja, m.tx.counter, h1, ha.up.trans i1, i2, ?_⟩
  intro f hf fcnt hc hp hl hne
  rw [← h3, ← h4] at hp
  obtain ⟨g1, _, _, g4, _, g6, _⟩ := c16_delivered_partial hE ha.reach (h.keysOk hE i4) hrx ho f
    ⟨hf.mtype, hf.devAddr.trans h5.symm, hf.fopts, hf.port, hf.once⟩ fcnt hc hp hl hne
  exact ⟨g1, g4, fun h => (g6 h).1⟩

/-! ## A case -/

namespace Demo

/-- The device of C14's example, restarted after its join, sends and listens. -/
def talking : Alive := live cfg device resumed (calls (boot ++ upAndListen 100000000))

theorem talking_life : OtaaLife cfg device talking.m talking.n talking.log := by
  have hlist : ∀ l : List Happens, (∀ x ∈ l, x.ok) → (l.all fun x => match x with
      | .call _ (.abp _) => false | .crash _ (.abp _) _ _ => false | _ => true) = true → ∀ s : Alive,
      OtaaLife cfg device s.m s.n s.log → OtaaLife cfg device (live cfg device s l).m (live cfg device s l).n
        (live cfg device s l).log := by
    intro l h h2 s hs
    refine live_otaa _ ?_ hs
    rw [List.all_eq_true] at h2
    intro x hx
    refine ⟨h x hx, ?_⟩
    have := h2 x hx
    revert this
    cases x with
    | call e c => cases c <;> simp
    | crash e c k e' => cases c <;> simp
  exact hlist _ (by decide +kernel) (by decide +kernel) _ (hlist _ (by decide +kernel) (by decide +kernel) _ waiting_life)

/-- The request with DevNonce 1 was the last one, and the uplink after the restart has counter 0 under the address of the
answer. -/
example : talking.m.ctx.joined = true ∧ (lastRequest talking.log).map JoinRequest.devNonce = some 1 ∧
    (uplinks talking.log).map (fun p => (p.1, (parseData p.2).map fun f => (f.devAddr, f.fcnt))) = [(0, some (7, 0))] ∧
    DataOp talking.m ∧ talking.n.up = 1 := by
  unfold DataOp
  decide +kernel

/-- The network accepts it. -/
example : ∃ before n' t s phy after r ja, talking.log = before ++ (n', .transmit t s phy) :: after ∧
    parseJoinRequest phy = none ∧ Answered cfg device before r ja ∧
    NetAccepts cfg device (netSession cfg device r ja) 0 0 s phy := by
  have h : (talking.log.any fun
      | (n', .transmit _ _ b) => (parseJoinRequest b).isNone && (b.length != 244) && (n'.up == 1)
      | _ => false) = true := by decide +kernel
  obtain ⟨x, hx, h⟩ := List.any_eq_true.1 h
  obtain ⟨before, after, hl⟩ := List.append_of_mem hx
  obtain ⟨n', ev⟩ := x
  cases ev with
  | transmit t s phy =>
    simp only [Bool.and_eq_true, Option.isNone_iff_eq_none, bne_iff_ne, beq_iff_eq] at h
    obtain ⟨r, ja, fcnt, h1, h2, h3, h4⟩ := c101_uplinks_partial (fun _ _ h => h) talking_life before after n' t s phy hl h.1.1
    have h0 : fcnt = 0 := by rw [h.2] at h2; omega
    subst h0
    exact ⟨before, n', t, s, phy, after, r, ja, hl, h.1.1, h1, h4 (by omega) h.1.2 0 (fun _ => rfl)⟩
  | _ => cases h

/-- A downlink of the network to it. -/
def reply : DataFrame := { sampleDown with devAddr := 7 }

/-- It is delivered. -/
example : (∃ k, Receiving talking.m (holding (sendDown cfg.E false k 0 7 reply) 102600000)) ∧
    received (newEvents talking.m (process cfg (holding (sendDown cfg.E false (deviceKeys cfg talking.m) 0 7 reply) 102600000)
      talking.m)) = [(9, [1, 2, 3])] := by
  refine ⟨⟨deviceKeys cfg talking.m, ?_⟩, ?_⟩
  · unfold Receiving
    decide +kernel
  · decide +kernel

end Demo

end LDL
