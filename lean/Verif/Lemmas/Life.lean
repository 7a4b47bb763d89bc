import Verif.Props.Uplink
import Verif.Lemmas.JoinNonce
import Verif.Lemmas.DataOp
import Verif.Spec.Restart

/-!
# Lives of a device: storage, and what it has to do with the state

The storage part of the invariant (`NInv`) holds at every crash point, the other part (`Agree`) between calls.
-/

namespace LDL
open Spec LDL.Stream

/-! ### Storage and logs -/

theorem after_nil (n : Nvm) : n.after [] = n := rfl

theorem after_cons (n : Nvm) (ev : Event) (l : List Event) : n.after (ev :: l) = (n.store ev).after l := rfl

theorem after_devNonce (n : Nvm) (l : List Event) :
    (n.after l).devNonce = (nonceReports l).foldl (fun _ x => x) n.devNonce := by
  induction l generalizing n with
  | nil => rfl
  | cons ev l ih => rw [after_cons, ih]; cases ev <;> rfl

theorem after_joinNonce (n : Nvm) (l : List Event) :
    (n.after l).joinNonce = (joinReports l).foldl (fun _ x => x) n.joinNonce := by
  induction l generalizing n with
  | nil => rfl
  | cons ev l ih => rw [after_cons, ih]; cases ev <;> rfl

theorem after_session (n : Nvm) (l : List Event) (c : Session) (h : ∀ s, .sessionUpdated s ∈ l → s = c) :
    ((n.after l).session = n.session ∧ ∀ s, .sessionUpdated s ∉ l) ∨
    ((n.after l).session = some c ∧ .sessionUpdated c ∈ l) := by
  induction l generalizing n with
  | nil => exact Or.inl ⟨rfl, by simp⟩
  | cons ev l ih =>
    rw [after_cons]
    rcases ih (n.store ev) (fun s hs => h s (by simp [hs])) with ⟨h1, h2⟩ | ⟨h1, h2⟩
    · cases ev
      case sessionUpdated s =>
        have := h s (by simp)
        subst this
        exact Or.inr ⟨h1, by simp⟩
      all_goals exact Or.inl ⟨h1, fun s hs => by
        rcases List.mem_cons.1 hs with hs | hs
        · cases hs
        · exact h2 s hs⟩
    · exact Or.inr ⟨h1, by simp [h2]⟩

theorem mem_stamps {n n' : Nvm} {ev : Event} {l : List Event} (h : (n', ev) ∈ stamps n l) :
    ∃ p r, l = p ++ ev :: r ∧ n' = n.after p := by
  induction l generalizing n with
  | nil => cases h
  | cons x l ih =>
    rcases List.mem_cons.1 h with h | h
    · cases h
      exact ⟨[], l, rfl, rfl⟩
    · obtain ⟨p, r, h1, h2⟩ := ih h
      exact ⟨x :: p, r, by rw [h1]; rfl, h2⟩

theorem stamps_mem {n : Nvm} {ev : Event} {l : List Event} (h : ev ∈ l) : ∃ n', (n', ev) ∈ stamps n l := by
  induction l generalizing n with
  | nil => cases h
  | cons x l ih =>
    rcases List.mem_cons.1 h with h | h
    · subst h; exact ⟨n, by simp [stamps]⟩
    · obtain ⟨n', h'⟩ := ih (n := n.store x) h
      exact ⟨n', by simp [stamps, h']⟩

theorem nonces_append (a b : List (Nvm × Event)) : nonces (a ++ b) = nonces a ++ nonces b := List.filterMap_append ..

theorem joinNonces_append (a b : List (Nvm × Event)) : joinNonces (a ++ b) = joinNonces a ++ joinNonces b :=
  List.filterMap_append ..

theorem nonces_stamps (n : Nvm) (l : List Event) :
    nonces (stamps n l) = (transmissions l).filterMap fun x => (parseJoinRequest x.2).map JoinRequest.devNonce := by
  induction l generalizing n with
  | nil => rfl
  | cons x l ih =>
    have := ih (n.store x)
    cases x
    case transmit t s b =>
      show nonces ((n, Event.transmit t s b) :: stamps (n.store (.transmit t s b)) l) = _
      unfold nonces transmissions Spec.transmitted at *
      rw [List.filterMap_cons, this]
      rfl
    all_goals exact this

theorem joinNonces_stamps (n : Nvm) (l : List Event) : joinNonces (stamps n l) = joinReports l := by
  induction l generalizing n with
  | nil => rfl
  | cons x l ih =>
    have := ih (n.store x)
    cases x
    case joinComplete a b c => exact congrArg (a :: ·) this
    all_goals exact this

theorem uplinks_append (log : List (Nvm × Event)) (n : Nvm) (l : List Event) :
    uplinks (log ++ stamps n l) = (stamps n l).foldl uplinksStep (uplinks log) := List.foldl_append ..

/-- Without transmissions the uplinks stay as they are, or a new session begins. -/
theorem uplinks_quiet (acc : List (Nat × Bytes)) (n : Nvm) (l : List Event) (c : Session)
    (hs : ∀ s, .sessionUpdated s ∈ l → s = c) (ht : transmissions l = []) :
    (stamps n l).foldl uplinksStep acc = acc ∨
      (stamps n l).foldl uplinksStep acc = [] ∧ c.joined = false := by
  induction l generalizing n acc with
  | nil => exact Or.inl rfl
  | cons x l ih =>
    have hs' : ∀ s, .sessionUpdated s ∈ l → s = c := fun s h => hs s (by simp [h])
    show (stamps (n.store x) l).foldl uplinksStep (uplinksStep acc (n, x)) = _ ∨ (stamps (n.store x) l).foldl uplinksStep (uplinksStep acc (n, x)) = [] ∧ _
    cases x
    case transmit t s b => exact absurd ht (by simp [transmissions, Spec.transmitted])
    case sessionUpdated s =>
      have hc := hs s (by simp)
      by_cases hj : s.joined = true
      · have : uplinksStep acc (n, .sessionUpdated s) = acc := by unfold uplinksStep; simp only [hj, if_true]
        rw [this]
        exact ih _ _ hs' ht
      · have : uplinksStep acc (n, .sessionUpdated s) = [] := by unfold uplinksStep; simp only [hj]; rfl
        rw [this]
        right
        refine ⟨?_, by rw [← hc]; simpa using hj⟩
        rcases ih [] (n.store (.sessionUpdated s)) hs' ht with h | h
        · exact h
        · exact h.1
    all_goals exact ih _ _ hs' ht

/-- One transmission in a joined session. -/
theorem uplinks_sent (acc : List (Nat × Bytes)) (n : Nvm) (l : List Event) (c : Session) (t : TxSetting) (b : Bytes)
    (hs : ∀ s, .sessionUpdated s ∈ l → s = c) (ht : transmissions l = [(t, b)]) (hj : c.joined = true)
    (hu : n.up = c.up) : (stamps n l).foldl uplinksStep acc =
      if (parseJoinRequest b).isSome then acc else acc ++ [(c.up - 1, b)] := by
  induction l generalizing n acc with
  | nil => cases ht
  | cons x l ih =>
    have hs' : ∀ s, .sessionUpdated s ∈ l → s = c := fun s h => hs s (by simp [h])
    show (stamps (n.store x) l).foldl uplinksStep (uplinksStep acc (n, x)) = _
    cases x
    case transmit u s b' =>
      have ht' : transmissions l = [] ∧ s = t ∧ b' = b := by
        have : (s, b') :: transmissions l = [(t, b)] := ht
        simp only [List.cons.injEq, Prod.mk.injEq] at this
        exact ⟨this.2, this.1⟩
      obtain ⟨h1, _, h3⟩ := ht'
      subst h3
      rcases uplinks_quiet (uplinksStep acc (n, .transmit u s b')) (n.store (.transmit u s b')) l c hs' h1 with h | ⟨_, h⟩
      · rw [h]
        unfold uplinksStep
        simp only [hu]
      · rw [hj] at h; cases h
    case sessionUpdated s =>
      have hc := hs s (by simp)
      have : uplinksStep acc (n, .sessionUpdated s) = acc := by unfold uplinksStep; simp only [hc, hj, if_true]
      rw [this]
      refine ih _ _ hs' ht ?_
      show s.up = _
      rw [hc]
    all_goals exact ih _ _ hs' ht hu

/-- A transmission of a join request, whether or not a session is known. -/
theorem uplinks_join (acc : List (Nat × Bytes)) (n : Nvm) (l : List Event) (c : Session) (t : TxSetting) (b : Bytes)
    (hs : ∀ s, .sessionUpdated s ∈ l → s = c) (ht : transmissions l = [(t, b)]) (hp : (parseJoinRequest b).isSome) :
    (stamps n l).foldl uplinksStep acc = acc ∨ (stamps n l).foldl uplinksStep acc = [] ∧ c.joined = false := by
  induction l generalizing n acc with
  | nil => cases ht
  | cons x l ih =>
    have hs' : ∀ s, .sessionUpdated s ∈ l → s = c := fun s h => hs s (by simp [h])
    show (stamps (n.store x) l).foldl uplinksStep (uplinksStep acc (n, x)) = _ ∨ (stamps (n.store x) l).foldl uplinksStep (uplinksStep acc (n, x)) = [] ∧ _
    cases x
    case transmit u s b' =>
      have ht' : transmissions l = [] ∧ s = t ∧ b' = b := by
        have : (s, b') :: transmissions l = [(t, b)] := ht
        simp only [List.cons.injEq, Prod.mk.injEq] at this
        exact ⟨this.2, this.1⟩
      obtain ⟨h1, _, h3⟩ := ht'
      subst h3
      have : uplinksStep acc (n, .transmit u s b') = acc := by unfold uplinksStep; simp only [hp, if_true]
      rw [this]
      exact uplinks_quiet _ _ l c hs' h1
    case sessionUpdated s =>
      have hc := hs s (by simp)
      by_cases hj : s.joined = true
      · have : uplinksStep acc (n, .sessionUpdated s) = acc := by unfold uplinksStep; simp only [hj, if_true]
        rw [this]
        exact ih _ _ hs' ht
      · have : uplinksStep acc (n, .sessionUpdated s) = [] := by unfold uplinksStep; simp only [hj]; rfl
        rw [this]
        right
        refine ⟨?_, by rw [← hc]; simpa using hj⟩
        rcases ih [] (n.store (.sessionUpdated s)) hs' ht with h | h
        · exact h
        · exact h.1
    all_goals exact ih _ _ hs' ht

/-! ### Frames -/

/-- The join request in the buffer. -/
def JoinFrame (cfg : Cfg) (d : Device) (devNonce : Nat) (b : Bytes) : Prop :=
  ∃ r : JoinRequest, r.joinEUI = d.joinEUI ∧ r.devEUI = d.devEUI ∧ r.mic < 2 ^ 32 ∧ r.devNonce < 65536 ∧
    (cfg.version ≠ .v103 → r.devNonce + 1 = devNonce) ∧ b = r.encode

/-- The data frame in the buffer: made by encrypting `g` with the keys of the device `m`. -/
def DataBytes (cfg : Cfg) (m : Mac) (counter devAddr : Nat) (b : Bytes) : Prop :=
  devAddr < 4294967296 ∧ ∃ g : Frame.Data, (g.type = 2 ∨ g.type = 4) ∧ g.opts.length ≤ 15 ∧ g.counter = u16 counter ∧ g.devAddr = devAddr ∧
    g.port < 256 ∧ ∃ mic, mic < 2 ^ 32 ∧ b = (sealed cfg m g).body ++ le 4 mic

theorem parse_joinRequest (r : JoinRequest) (hj : r.joinEUI.length = 8) (hd : r.devEUI.length = 8)
    (hn : r.devNonce < 65536) (hm : r.mic < 2 ^ 32) : parseJoinRequest r.encode = some r := by
  have h := c05_parser_recovers { joinEUI := r.joinEUI, devEUI := r.devEUI, devNonce := r.devNonce, mic := r.mic } hj hd hn hm
    (List.replicate 23 0) 23 (by simp) (by omega) (by omega)
  obtain ⟨hlen, h1, _⟩ := c05_put_join_request
    { joinEUI := r.joinEUI, devEUI := r.devEUI, devNonce := r.devNonce, mic := r.mic } hj hd
    (List.replicate 23 0) 23 (by simp) (by omega)
  obtain ⟨h1, h2⟩ := h1 (by omega)
  rw [h1, h2, List.take_left' hlen] at h
  exact h

theorem parse_data_not_join {f : DataFrame} (h : f.mtype = 2 ∨ f.mtype = 4) (mic : Nat) :
    parseJoinRequest (f.body ++ le 4 mic) = none := by
  have : (f.body ++ le 4 mic).head? = some (mhdr f.mtype) := rfl
  unfold parseJoinRequest
  rw [this, if_neg]
  rintro ⟨_, h'⟩
  rcases h with h | h <;> rw [h] at h' <;> exact absurd h' (by decide)

theorem DataBytes.notJoin {cfg : Cfg} {m : Mac} {c a : Nat} {b : Bytes} (h : DataBytes cfg m c a b) :
    parseJoinRequest b = none := by
  obtain ⟨_, g, h1, _, _, _, _, mic, _, h2⟩ := h
  rw [h2]
  exact parse_data_not_join h1 mic

theorem Keep.sealed {cfg : Cfg} {m m' : Mac} (h : Keep m m') (g : Frame.Data) : LDL.sealed cfg m' g = LDL.sealed cfg m g := by
  unfold LDL.sealed deviceKeys sess11 sessVersion
  rw [h.keys, h.version]

theorem Keep.dataBytes {cfg : Cfg} {m m' : Mac} (h : Keep m m') {c a : Nat} {b : Bytes} (hb : DataBytes cfg m c a b) :
    DataBytes cfg m' c a b := by
  obtain ⟨h0, g, h1, h2, h3, h4, h5, mic, h6, h7⟩ := hb
  exact ⟨h0, g, h1, h2, h3, h4, h5, mic, h6, by rw [h.sealed]; exact h7⟩

/-- The status of a send that `OpStep` describes. -/
theorem send_accepted {cfg : Cfg} {e : Env} {m : Mac} {confirmed : Bool} {port : Nat} {data : Option Bytes} {len : Nat}
    {opts : Option DataOpts} (ho : m.op = .none) (hj : m.ctx.joined = true) (hp : 0 < port ∧ port ≤ 223)
    (hg : m.band GLOBAL = 0) {freq ch rate : Nat}
    (hsel : selectChannel { m with tx := { m.tx with
          power := m.ctx.power
          rate := m.ctx.region.applyUplinkDwell (uplinkDwell m.ctx.txParamSetup) m.ctx.rate } }
        (e.draw 1) m.ctx.rate 0 = some (freq, ch, rate))
    (hl : len + Frame.dataOverhead ≤ (m.ctx.region.convertRate m.ctx.rate).mtu) :
    (step cfg m e (.data confirmed port data len opts)).2 = .ok ∨
      (step cfg m e (.data confirmed port data len opts)).2 = .macPriority := by
  show (dataCommand cfg e m confirmed port data len opts).2 = _ ∨ (dataCommand cfg e m confirmed port data len opts).2 = _
  unfold dataCommand
  rw [if_pos hj, if_pos ho, if_pos hp, if_pos hg]
  simp only [hsel]
  rw [if_pos hl]
  exact sendData_status ..

/-- The frame an accepted send leaves in the buffer. -/
theorem send_dataBytes {cfg : Cfg} (hE : ∀ k, BlockFn (cfg.E k)) {m : Mac} (hr : Reachable cfg m) (e : Env)
    (confirmed : Bool) (port : Nat) (payload : Option Bytes) (len : Nat) (opts : Option DataOpts)
    (hw : (Call.data confirmed port payload len opts).WF) (hnull : payload = none → len = 0)
    (ha : (step cfg m e (.data confirmed port payload len opts)).2 = .ok ∨
      (step cfg m e (.data confirmed port payload len opts)).2 = .macPriority)
    (m' : Mac) (hm' : m' = (step cfg m e (.data confirmed port payload len opts)).1) :
    DataBytes cfg m' m'.tx.counter m'.ctx.devAddr m'.frame ∧ m'.tx.counter = m.ctx.up ∧
      m'.ctx.up = u32 (m.ctx.up + 1) ∧ m'.ctx.devAddr = m.ctx.devAddr ∧ m'.ctx.joined = m.ctx.joined := by
  obtain ⟨freq, ch, rate, f, c, _, hp, ho, _, hlen, hfr, htx, hctx, hkeys, _⟩ :=
    send_frame hE hr e confirmed port payload len opts hw hnull ha m' hm'
  obtain ⟨_, hty, hcnt, hadr, hpt⟩ := placed_carries hp
  obtain ⟨pc, hpc⟩ := (putAnswers_inv cfg { m.ctx with up := u32 (m.ctx.up + 1) } (dataOptions opts)).session
  rw [hpc] at hctx
  have hs : sealed cfg m' f = sealed cfg m f := by
    unfold sealed deviceKeys sess11 sessVersion
    rw [hkeys, hctx]
  have hc : m'.tx.counter = m.ctx.up := by rw [htx]
  refine ⟨⟨by rw [hctx]; exact hr.sessionOk.devAddr, f, hty, ho, by rw [hcnt, hc], by rw [hadr, hctx], ?_, upMic cfg m' (sealed cfg m f).body % 256 ^ 4,
    Nat.mod_lt _ (by decide), ?_⟩, hc, by rw [hctx], by rw [hctx], by rw [hctx]⟩
  · rcases hpt with h | h
    · omega
    · have := hw.1; omega
  · rw [hs, le_mod]; exact hfr

/-! ### The invariant -/

/-- What a transmission has to do with the storage at the time: a join request has the DevNonce before the one
stored, a data frame the counter before the one stored. -/
def GoodTx (cfg : Cfg) (d : Device) (n : Nvm) (b : Bytes) : Prop :=
  JoinFrame cfg d n.devNonce b ∨
  ∃ s c m, n.session = some s ∧ s.joined = true ∧ s.up = u32 (c + 1) ∧ c < 4294967296 ∧ DataBytes cfg m c s.devAddr b

/-- What holds of the storage at every moment. -/
structure NInv (cfg : Cfg) (d : Device) (n : Nvm) (log : List (Nvm × Event)) : Prop where
  arg : ArgOk (d.arg n)
  session : ∀ s, n.session = some s → SessionOk s ∧ s.region = d.region ∧ ∃ n', (n', Event.sessionUpdated s) ∈ log
  nonceOrder : cfg.version ≠ .v103 → (nonces log).Pairwise (· < ·)
  nonceBound : cfg.version ≠ .v103 → ∀ x ∈ nonces log, x + 1 ≤ n.devNonce
  joinOrder : cfg.version ≠ .v103 → (joinNonces log).Pairwise (· < ·)
  joinBound : cfg.version ≠ .v103 → ∀ x ∈ joinNonces log, x ≤ n.joinNonce
  upOrder : NoWrap log → (uplinks log).Pairwise fun a b => a.1 < b.1 ∨ a = b
  upBound : NoWrap log → ∀ p ∈ uplinks log, p.1 < n.up
  good : ∀ n' t s b, (n', Event.transmit t s b) ∈ log → GoodTx cfg d n' b ∧
    (NoWrap log → parseJoinRequest b = none → 0 < n'.up)

/-- What holds of the state between calls. -/
structure Agree (cfg : Cfg) (d : Device) (m : Mac) (n : Nvm) (log : List (Nvm × Event)) : Prop where
  reach : Reachable cfg m
  region : m.ctx.region = d.region
  ids : m.joinEUI = d.joinEUI ∧ m.devEUI = d.devEUI
  devNonce : m.devNonce = n.devNonce
  joinNonce : m.joinNonce = n.joinNonce
  up : n.up = m.ctx.up
  joining : m.op = .joining → JoinFrame cfg d m.devNonce m.frame ∧
    (cfg.version ≠ .v103 → afterTx m.state = false → ∀ x ∈ nonces log, x + 1 < m.devNonce)
  data : DataOp m → DataBytes cfg m m.tx.counter m.ctx.devAddr m.frame ∧
    (∃ s, n.session = some s ∧ s.joined = true ∧ s.devAddr = m.ctx.devAddr ∧ s.up = m.ctx.up) ∧
    (NoWrap log → 0 < m.ctx.up ∧ ∀ p ∈ uplinks log, p.1 + 1 = m.ctx.up → p.2 = m.frame)

theorem Spec.NoWrap.left {a b : List (Nvm × Event)} (h : NoWrap (a ++ b)) : NoWrap a :=
  fun n s hs => h n s (List.mem_append_left _ hs)

/-- What one call does, in the terms used here. -/
structure Effect (cfg : Cfg) (m m' : Mac) (o : List Event) : Prop where
  session : ∀ s, .sessionUpdated s ∈ o → s = m'.ctx
  upRep : m'.ctx.up = m.ctx.up ∨ Event.sessionUpdated m'.ctx ∈ o
  upStep : m'.ctx.joined = false ∨ m'.ctx.up = m.ctx.up ∨ m'.ctx.up = u32 (m.ctx.up + 1)
  dev : (nonceReports o = [] ∧ m'.devNonce = m.devNonce) ∨
    (nonceReports o = [m.devNonce + 1] ∧ m'.devNonce = m.devNonce + 1 ∧ m.devNonce ≤ 65535 ∧ transmissions o = [])
  join : (joinReports o = [] ∧ m'.joinNonce = m.joinNonce) ∨
    (∃ x, joinReports o = [x] ∧ m'.joinNonce = x ∧ (cfg.version ≠ .v103 → m.joinNonce < x) ∧ x ≤ 16777216)
  tx : transmissions o = [] ∨ (m.op.isTx ∧ afterTx m.state = false ∧ transmissions o = [(txSetting m, m.frame)] ∧
    nonceReports o = [] ∧ m'.ctx.up = m.ctx.up ∧ m'.ctx.joined = m.ctx.joined ∧ m'.ctx.devAddr = m.ctx.devAddr ∧
    m'.devNonce = m.devNonce)
  ctx : SessionOk m'.ctx ∧ m'.ctx.region = m.ctx.region

theorem getDefaultChannels_shape (s : Session) : ∃ cc, getDefaultChannels s = { s with chConfig := cc } := by
  have h3 : ∀ (s : Session) (a1 b1 c1 d1 a2 b2 c2 d2 a3 b3 c3 d3 : Nat), ∃ cc,
      (setChannel (setChannel (setChannel s a1 b1 c1 d1).2 a2 b2 c2 d2).2 a3 b3 c3 d3).2 = { s with chConfig := cc } := by
    intro s a1 b1 c1 d1 a2 b2 c2 d2 a3 b3 c3 d3
    obtain ⟨x, hx⟩ := setChannel_shape s a1 b1 c1 d1
    rw [hx]
    obtain ⟨y, hy⟩ := setChannel_shape { s with chConfig := x } a2 b2 c2 d2
    rw [hy]
    obtain ⟨z, hz⟩ := setChannel_shape { s with chConfig := y } a3 b3 c3 d3
    exact ⟨z, hz⟩
  unfold getDefaultChannels
  split
  · exact h3 ..
  · exact h3 ..
  · exact ⟨_, rfl⟩

theorem forgetNetwork_facts (m : Mac) : (forgetNetwork m).ctx.region = m.ctx.region ∧
    (forgetNetwork m).ctx.joined = false ∧ (forgetNetwork m).ctx.up = 0 := by
  unfold forgetNetwork
  simp only []
  refine ⟨?_, ?_, ?_⟩ <;>
  · obtain ⟨cc, h⟩ := getDefaultChannels_shape _
    rw [h]

theorem region_closed (cfg : Cfg) (r : Region) : Closed cfg (fun s => s.region = r) where
  upd := by
    intro s s' hu h
    cases hu with
    | command _ e next cmd m adr hw hs hs' =>
      rw [hs', applyCommand_region, ← hs]; exact h
    | forget _ m hs hj hs' =>
      rw [hs', ← h, hs]
      exact (forgetNetwork_facts m).1
    | setChannel ch f a b =>
      obtain ⟨cc, hc⟩ := setChannel_shape s ch f a b
      show (setChannel s ch f a b).2.region = r
      rw [hc]; exact h
    | cfList l =>
      obtain ⟨cc, cm, hc⟩ := processCFList_ids s l
      show (processCFList s l).region = r
      rw [hc]; exact h
    | _ => exact h
  restore := by
    intro s s' hr h h'
    exact h'

/-- What forgetting reports. -/
theorem forget_reports (m : Mac) : ((forget m).ctx.up = m.ctx.up ∧ (forget m).ctx.joined = m.ctx.joined) ∨
    (Event.sessionUpdated (forget m).ctx ∈ (forget m).out.drop m.out.length ∧ (forget m).ctx.joined = false) := by
  have hc : (cancel m).ctx = m.ctx := by rcases cancel_shape m with ⟨_, h⟩ | ⟨_, h⟩ <;> rw [h]
  obtain ⟨o, ho⟩ : ∃ o, (cancel m).out = m.out ++ o := by
    rcases cancel_shape m with ⟨_, h⟩ | ⟨_, h⟩ <;> rw [h] <;> exact ⟨_, rfl⟩
  unfold forget
  simp only []
  by_cases hj : (cancel m).ctx.joined = true
  · rw [if_pos hj]
    right
    generalize hx : forgetNetwork { cancel m with band := upd (cancel m).band GLOBAL 0 } = x
    have hxo : x.out = m.out ++ o := by rw [← hx, ← ho]; rfl
    have hf := (forgetNetwork_facts { cancel m with band := upd (cancel m).band GLOBAL 0 }).2.1
    rw [hx] at hf
    refine ⟨?_, hf⟩
    show Event.sessionUpdated x.ctx ∈ (x.out ++ [Event.sessionUpdated x.ctx]).drop m.out.length
    rw [hxo, List.append_assoc, List.drop_left]
    simp
  · rw [if_neg hj]
    left
    rw [hc]
    exact ⟨rfl, rfl⟩

theorem joinsWith_nonce {cfg : Cfg} {e : Env} {m : Mac} {c : Call} {f : Frame.Down} {buf : Bytes}
    (h : JoinsWith cfg e m c f buf) : (cfg.version ≠ .v103 → m.joinNonce ≤ f.joinNonce) ∧ f.joinNonce < 16777216 := by
  obtain ⟨_, ⟨_, _, _, ha⟩, ht⟩ := h
  have hl : e.received.length ≤ e.rxBuffer.length := by rw [rxBuffer_length]; exact received_length e
  refine ⟨fun hv => ?_, (receiveFrame_wf (received_length e) hl ha).joinNonce⟩
  rcases receiveFrame_cases (received_length e) hl ha with ⟨_, _, h⟩ | ⟨h, _⟩
  · unfold Ops.receiveJoinAccept at h
    simp only [] at h
    split at h
    · simp at h
    · next f0 hf0 =>
      split at h
      · simp at h
      · next hn =>
        simp only [Prod.mk.injEq, Option.ite_none_right_eq_some, Option.some.injEq] at h
        obtain ⟨⟨_, hff⟩, _⟩ := h
        rw [← hff]
        exact Nat.le_of_not_lt fun hlt => hn ⟨hv, hlt⟩
  · rw [ht] at h; exact absurd h (by decide)

theorem step_effect {cfg : Cfg} {m : Mac} (hr : Reachable cfg m) (e : Env) (c : Call) (hc : c.WF) :
    Effect cfg m (step cfg m e c).1 (newEvents m (step cfg m e c).1) := by
  obtain ⟨o, h1, h2, h3⟩ := step_does cfg e m c hr.reach.opOk
  obtain ⟨o', h1', h4⟩ := step_joinNonce cfg e m c
  have hoo : o' = o := List.append_cancel_left (h1'.symm.trans h1)
  subst hoo
  have hnew : newEvents m (step cfg m e c).1 = o' := by unfold newEvents; rw [h1, List.drop_left]
  have hforget : c = .forget → ((step cfg m e c).1.ctx.up = m.ctx.up ∧ (step cfg m e c).1.ctx.joined = m.ctx.joined) ∨
      (Event.sessionUpdated (step cfg m e c).1.ctx ∈ newEvents m (step cfg m e c).1 ∧ (step cfg m e c).1.ctx.joined = false) := by
    intro h; subst h; exact forget_reports m
  rw [hnew] at hforget ⊢
  have hctx : SessionOk (step cfg m e c).1.ctx ∧ (step cfg m e c).1.ctx.region = m.ctx.region :=
    ⟨step_session (sessionOk_closed cfg) e m c hc hr.sessionOk, step_session (region_closed cfg m.ctx.region) e m c hc rfl⟩
  generalize (step cfg m e c).1 = m' at *
  have hjoin : (joinReports o' = [] ∧ m'.joinNonce = m.joinNonce) ∨
    (∃ x, joinReports o' = [x] ∧ m'.joinNonce = x ∧ (cfg.version ≠ .v103 → m.joinNonce < x) ∧ x ≤ 16777216) := by
    rcases h4 with ⟨a, b, _⟩ | ⟨f, buf, hj, a, _, b⟩
    · exact Or.inl ⟨a, b⟩
    · obtain ⟨j1, j2⟩ := joinsWith_nonce hj
      have : u32 (f.joinNonce + 1) = f.joinNonce + 1 := Nat.mod_eq_of_lt (by omega)
      rw [this] at a b
      exact Or.inr ⟨_, a, b, fun hv => by have := j1 hv; omega, by omega⟩
  have hrest : Rest m c m' → (m'.ctx.up = m.ctx.up ∨ Event.sessionUpdated m'.ctx ∈ o') ∧
      (m'.ctx.joined = false ∨ m'.ctx.up = m.ctx.up ∨ m'.ctx.up = u32 (m.ctx.up + 1)) := by
    intro hrest
    rcases hrest.session with ⟨h, _⟩ | h
    · exact ⟨Or.inl h, Or.inr (Or.inl h)⟩
    · rcases hforget h with h | h
      · exact ⟨Or.inl h.1, Or.inr (Or.inl h.1)⟩
      · exact ⟨Or.inr h.1, Or.inl h.2⟩
  generalize ht : transmissions o' = t at h2
  generalize hn : nonceReports o' = nr at h2
  cases h2 with
  | idle ho ho' hr' =>
    obtain ⟨r1, r2⟩ := hrest hr'
    exact ⟨h3, r1, r2, Or.inl ⟨hn, hr'.devNonce⟩, hjoin, Or.inl ht, hctx⟩
  | ended ho ho' hr' =>
    obtain ⟨r1, r2⟩ := hrest hr'
    exact ⟨h3, r1, r2, Or.inl ⟨hn, hr'.devNonce⟩, hjoin, Or.inl ht, hctx⟩
  | keep ho hk =>
    exact ⟨h3, Or.inl hk.up, Or.inr (Or.inl hk.up), Or.inl ⟨hn, hk.devNonce⟩, hjoin, Or.inl ht, hctx⟩
  | sent ho hc2 hs hs' hk =>
    exact ⟨h3, Or.inl hk.up, Or.inr (Or.inl hk.up), Or.inl ⟨hn, hk.devNonce⟩, hjoin,
      Or.inr ⟨ho, by rw [hs]; rfl, ht, hn, hk.up, hk.joined, hk.devAddr, hk.devNonce⟩, hctx⟩
  | repeated ho hc2 hl hs hk =>
    exact ⟨h3, Or.inl hk.up, Or.inr (Or.inl hk.up), Or.inl ⟨hn, hk.devNonce⟩, hjoin, Or.inl ht, hctx⟩
  | request ho hc2 hl hq hu =>
    exact ⟨h3, Or.inl hu, Or.inr (Or.inl hu), Or.inr ⟨hn, hq.devNonce, hq.nonceOk, ht⟩, hjoin, Or.inl ht, hctx⟩
  | join ho hc2 hj hq hu =>
    exact ⟨h3, Or.inl hu, Or.inr (Or.inl hu), Or.inr ⟨hn, hq.devNonce, hq.nonceOk, ht⟩, hjoin, Or.inl ht, hctx⟩
  | send ho confirmed port data len opts hc2 hj hp hg freq ch rate hsel hl hm =>
    obtain ⟨x, hx, a1, a2, a3, a4, a5, a6, a7, a8, a9, a10, a11, a12, a13⟩ :=
      sendData_fields cfg e _ confirmed port data len opts _ m' hm
    have hs : Event.sessionUpdated m'.ctx ∈ o' := by
      have : m.out ++ o' = m.out ++ [Event.sessionUpdated m'.ctx] := h1.symm.trans a13
      rw [List.append_cancel_left this]
      simp
    have hup : m'.ctx.up = u32 (m.ctx.up + 1) := by
      obtain ⟨pc, hpc⟩ := (putAnswers_inv cfg { m.ctx with up := u32 (m.ctx.up + 1) } (dataOptions opts)).session
      rw [a4, hx]
      show (putAnswers cfg { m.ctx with up := u32 (m.ctx.up + 1) } (dataOptions opts)).2.up = _
      rw [hpc]
    exact ⟨h3, Or.inr hs, Or.inr (Or.inr hup), Or.inl ⟨hn, a11⟩, hjoin, Or.inl ht, hctx⟩

/-! ### The invariant is kept -/

theorem prefix_nil_or {α : Type} {l : List α} {x : α} (h : l <+: [x]) : l = [] ∨ l = [x] := by
  obtain ⟨t, h⟩ := h
  cases l with
  | nil => exact Or.inl rfl
  | cons a l =>
    simp only [List.cons_append, List.cons.injEq, List.append_eq_nil_iff] at h
    rw [h.1, h.2.1]
    exact Or.inr rfl

theorem transmissions_prefix {l o : List Event} (h : l <+: o) : transmissions l <+: transmissions o := by
  obtain ⟨t, h⟩ := h
  exact ⟨transmissions t, by rw [← transmissions_append, h]⟩

theorem nonceReports_prefix {l o : List Event} (h : l <+: o) : nonceReports l <+: nonceReports o := by
  obtain ⟨t, h⟩ := h
  exact ⟨nonceReports t, by rw [← nonceReports_append, h]⟩

theorem joinReports_prefix {l o : List Event} (h : l <+: o) : joinReports l <+: joinReports o := by
  obtain ⟨t, h⟩ := h
  exact ⟨joinReports t, by rw [← joinReports_append, h]⟩

/-- A reported session that is not joined begins a new list. -/
theorem uplinks_reset (acc : List (Nat × Bytes)) (n : Nvm) (l : List Event) (c : Session)
    (hs : ∀ s, .sessionUpdated s ∈ l → s = c) (ht : transmissions l = []) (hc : c.joined = false)
    (hm : Event.sessionUpdated c ∈ l) : (stamps n l).foldl uplinksStep acc = [] := by
  induction l generalizing n acc with
  | nil => cases hm
  | cons x l ih =>
    have hs' : ∀ s, .sessionUpdated s ∈ l → s = c := fun s h => hs s (by simp [h])
    show (stamps (n.store x) l).foldl uplinksStep (uplinksStep acc (n, x)) = _
    cases x
    case transmit t s b => exact absurd ht (by simp [transmissions, Spec.transmitted])
    case sessionUpdated s =>
      have h := hs s (by simp)
      subst h
      have : uplinksStep acc (n, .sessionUpdated s) = [] := by unfold uplinksStep; simp only [hc]; rfl
      rw [this]
      rcases uplinks_quiet [] (n.store (.sessionUpdated s)) l s hs' ht with h | h
      · exact h
      · exact h.1
    all_goals
      rcases List.mem_cons.1 hm with h | h
      · cases h
      · exact ih _ _ hs' ht h

theorem NInv.upSmall {cfg : Cfg} {d : Device} {n : Nvm} {log : List (Nvm × Event)} (h : NInv cfg d n log) (hw : NoWrap log) :
    n.up < 4294967295 := by
  unfold Nvm.up
  split
  · next s hs =>
    obtain ⟨_, _, n', hm⟩ := h.session s hs
    exact hw n' s hm
  · decide

theorem up_of_some {n : Nvm} {s : Session} (h : n.session = some s) : n.up = s.up := by
  unfold Nvm.up; rw [h]

theorem up_congr {n n' : Nvm} (h : n'.session = n.session) : n'.up = n.up := by unfold Nvm.up; rw [h]

/-- What a part of the events of a call does to the storage. -/
structure PartEffect (cfg : Cfg) (m m' : Mac) (n : Nvm) (l : List Event) : Prop where
  session : ∀ s, .sessionUpdated s ∈ l → s = m'.ctx
  stored : ((n.after l).session = n.session ∧ ∀ s, .sessionUpdated s ∉ l) ∨
    ((n.after l).session = some m'.ctx ∧ Event.sessionUpdated m'.ctx ∈ l)
  upStep : m'.ctx.joined = false ∨ m'.ctx.up = m.ctx.up ∨ m'.ctx.up = u32 (m.ctx.up + 1)
  dev : (n.after l).devNonce = n.devNonce ∨
    ((n.after l).devNonce = m.devNonce + 1 ∧ m.devNonce ≤ 65535 ∧ transmissions l = [])
  join : (joinReports l = [] ∧ (n.after l).joinNonce = n.joinNonce) ∨
    (∃ x, joinReports l = [x] ∧ (n.after l).joinNonce = x ∧ (cfg.version ≠ .v103 → m.joinNonce < x) ∧ x ≤ 16777216)
  tx : transmissions l = [] ∨ (m.op.isTx ∧ afterTx m.state = false ∧ transmissions l = [(txSetting m, m.frame)] ∧
    (n.after l).devNonce = n.devNonce ∧ m'.ctx.up = m.ctx.up ∧ m'.ctx.joined = m.ctx.joined ∧
    m'.ctx.devAddr = m.ctx.devAddr)

theorem Effect.part {cfg : Cfg} {m m' : Mac} {o l : List Event} (h : Effect cfg m m' o) (hl : l <+: o) (n : Nvm) :
    PartEffect cfg m m' n l := by
  have hs : ∀ s, .sessionUpdated s ∈ l → s = m'.ctx := fun s hm => h.session s (hl.subset hm)
  have ht : transmissions l = [] ∨ transmissions l = transmissions o := by
    have hp := transmissions_prefix hl
    rcases h.tx with h | ⟨_, _, h, _⟩ <;> rw [h] at hp ⊢
    · exact Or.inl (List.prefix_nil.1 hp)
    · exact prefix_nil_or hp
  refine ⟨hs, after_session n l m'.ctx hs, h.upStep, ?_, ?_, ?_⟩
  · have hp := nonceReports_prefix hl
    rw [after_devNonce]
    rcases h.dev with ⟨h, _⟩ | ⟨h, _, h2, h3⟩ <;> rw [h] at hp
    · rw [List.prefix_nil.1 hp]; exact Or.inl rfl
    · rcases prefix_nil_or hp with h' | h' <;> rw [h']
      · exact Or.inl rfl
      · refine Or.inr ⟨rfl, h2, ?_⟩
        rcases ht with h | h
        · exact h
        · rw [h, h3]
  · have hp := joinReports_prefix hl
    rw [after_joinNonce]
    rcases h.join with ⟨h, _⟩ | ⟨x, h, _, h2, h3⟩ <;> rw [h] at hp
    · rw [List.prefix_nil.1 hp]; exact Or.inl ⟨rfl, rfl⟩
    · rcases prefix_nil_or hp with h' | h' <;> rw [h']
      · exact Or.inl ⟨rfl, rfl⟩
      · exact Or.inr ⟨x, rfl, rfl, h2, h3⟩
  · rcases ht with ht | ht
    · exact Or.inl ht
    · rcases h.tx with h | ⟨h1, h2, h3, h4, h5, h6, h7, h8⟩
      · exact Or.inl (ht.trans h)
      · refine Or.inr ⟨h1, h2, ht.trans h3, ?_, h5, h6, h7⟩
        have hp := nonceReports_prefix hl
        rw [h4] at hp
        rw [after_devNonce, List.prefix_nil.1 hp]
        rfl

theorem JoinFrame.parse {cfg : Cfg} {d : Device} {x : Nat} {b : Bytes} (h : JoinFrame cfg d x b) (hj : d.joinEUI.length = 8)
    (hd : d.devEUI.length = 8) : ∃ r, parseJoinRequest b = some r ∧ (cfg.version ≠ .v103 → r.devNonce + 1 = x) := by
  obtain ⟨r, h1, h2, h3, h4, h5, h6⟩ := h
  exact ⟨r, by rw [h6]; exact parse_joinRequest r (by rw [h1]; exact hj) (by rw [h2]; exact hd) h4 h3, h5⟩

/-- The new DevNonce values on air. -/
theorem nonces_new {cfg : Cfg} {d : Device} {m m' : Mac} {n : Nvm} {log : List (Nvm × Event)} {l : List Event}
    (hn : NInv cfg d n log) (ha : Agree cfg d m n log) (hp : PartEffect cfg m m' n l) (hv : cfg.version ≠ .v103) :
    nonces (stamps n l) = [] ∨ ∃ x, nonces (stamps n l) = [x] ∧ x + 1 = n.devNonce ∧ (n.after l).devNonce = n.devNonce ∧
      ∀ y ∈ nonces log, y < x := by
  rw [nonces_stamps]
  rcases hp.tx with h | ⟨h1, h2, h3, h4, _⟩
  · rw [h]; exact Or.inl rfl
  · rw [h3]
    rcases h1 with h1 | h1
    · obtain ⟨hf, hb⟩ := ha.joining h1
      obtain ⟨r, hr, hx⟩ := hf.parse hn.arg.joinEUI hn.arg.devEUI
      have := hx hv
      right
      refine ⟨r.devNonce, by simp [hr], by rw [this, ha.devNonce], h4, fun y hy => ?_⟩
      have := hb hv h2 y hy
      omega
    · have := (ha.data h1).1.notJoin
      left
      simp [this]

theorem NInv.after {cfg : Cfg} {d : Device} {m m' : Mac} {n : Nvm} {log : List (Nvm × Event)} {o l : List Event}
    (hn : NInv cfg d n log) (ha : Agree cfg d m n log) (hf : Effect cfg m m' o) (hl : l <+: o) :
    NInv cfg d (n.after l) (log ++ stamps n l) := by
  have hp := hf.part hl n
  have hdata : DataOp m → InData cfg m := ha.reach.inData
  refine ⟨?_, ?_, ?_, ?_, ?_, ?_, ?_, ?_, ?_⟩
  · refine ⟨hn.arg.joinEUI, hn.arg.devEUI, hn.arg.appKey, hn.arg.nwkKey, ?_, ?_⟩
    · show (n.after l).devNonce < _
      rcases hp.dev with h | ⟨h, h2, _⟩
      · rw [h]; exact hn.arg.devNonce
      · rw [h]; omega
    · show (n.after l).joinNonce < _
      rcases hp.join with ⟨_, h⟩ | ⟨x, _, h, _, h2⟩
      · rw [h]; exact hn.arg.joinNonce
      · rw [h]; omega
  · intro s hs
    rcases hp.stored with ⟨h, _⟩ | ⟨h, h2⟩
    · rw [h] at hs
      obtain ⟨a, b, n', c⟩ := hn.session s hs
      exact ⟨a, b, n', List.mem_append_left _ c⟩
    · rw [h] at hs
      cases hs
      obtain ⟨n', hm⟩ := stamps_mem (n := n) h2
      exact ⟨hf.ctx.1, hf.ctx.2.trans ha.region, n', List.mem_append_right _ hm⟩
  · intro hv
    rw [nonces_append]
    rcases nonces_new hn ha hp hv with h | ⟨x, h, _, _, h2⟩ <;> rw [h]
    · rw [List.append_nil]; exact hn.nonceOrder hv
    · exact List.pairwise_append.2 ⟨hn.nonceOrder hv, by simp, fun y hy z hz => by
        rw [List.mem_singleton.1 hz]; exact h2 y hy⟩
  · intro hv x hx
    have hle : n.devNonce ≤ (n.after l).devNonce := by
      rcases hp.dev with h | ⟨h, _⟩
      · exact Nat.le_of_eq h.symm
      · rw [h, ha.devNonce]; exact Nat.le_succ _
    rw [nonces_append] at hx
    rcases List.mem_append.1 hx with hx | hx
    · exact Nat.le_trans (hn.nonceBound hv x hx) hle
    · rcases nonces_new hn ha hp hv with h | ⟨y, h, h1, h2, _⟩ <;> rw [h] at hx
      · cases hx
      · rw [List.mem_singleton.1 hx, h1, h2]
  · intro hv
    rw [joinNonces_append, joinNonces_stamps]
    rcases hp.join with ⟨h, _⟩ | ⟨x, h, _, h2, _⟩ <;> rw [h]
    · rw [List.append_nil]; exact hn.joinOrder hv
    · refine List.pairwise_append.2 ⟨hn.joinOrder hv, by simp, fun y hy z hz => ?_⟩
      rw [List.mem_singleton.1 hz]
      have := hn.joinBound hv y hy
      rw [← ha.joinNonce] at this
      exact Nat.lt_of_le_of_lt this (h2 hv)
  · intro hv x hx
    rw [joinNonces_append, joinNonces_stamps] at hx
    rcases hp.join with ⟨h, h2⟩ | ⟨y, h, h2, h3, _⟩ <;> rw [h] at hx <;> rw [h2]
    · rw [List.append_nil] at hx; exact hn.joinBound hv x hx
    · rcases List.mem_append.1 hx with hx | hx
      · have := hn.joinBound hv x hx
        rw [← ha.joinNonce] at this
        exact Nat.le_trans this (Nat.le_of_lt (h3 hv))
      · rw [List.mem_singleton.1 hx]
  · intro hw
    rw [uplinks_append]
    have hold := hn.upOrder hw.left
    rcases hp.tx with h | ⟨h1, h2, h3, h4, h5, h6, h7⟩
    · rcases uplinks_quiet (uplinks log) n l m'.ctx hp.session h with h | h
      · rw [h]; exact hold
      · rw [h.1]; exact List.Pairwise.nil
    · rcases h1 with h1 | h1
      · obtain ⟨hfr, _⟩ := ha.joining h1
        obtain ⟨r, hr, _⟩ := hfr.parse hn.arg.joinEUI hn.arg.devEUI
        rcases uplinks_join (uplinks log) n l m'.ctx _ _ hp.session h3 (by rw [hr]; rfl) with h | h
        · rw [h]; exact hold
        · rw [h.1]; exact List.Pairwise.nil
      · obtain ⟨hb, _, hu⟩ := ha.data h1
        obtain ⟨hu0, hu⟩ := hu hw.left
        rw [uplinks_sent (uplinks log) n l m'.ctx _ _ hp.session h3 (by rw [h6]; exact (hdata h1).joined)
          (by rw [h5]; exact ha.up), hb.notJoin]
        refine List.pairwise_append.2 ⟨hold, List.pairwise_singleton _ _, fun p hpm z hz => ?_⟩
        rw [List.mem_singleton.1 hz]
        have h8 := hn.upBound hw.left p hpm
        rw [ha.up] at h8
        show p.1 < m'.ctx.up - 1 ∨ p = (m'.ctx.up - 1, m.frame)
        rw [h5]
        by_cases h9 : p.1 + 1 = m.ctx.up
        · right
          have := hu p hpm h9
          exact Prod.ext (by show p.1 = m.ctx.up - 1; omega) this
        · left; omega
  · intro hw p hpm
    rw [uplinks_append] at hpm
    have hsmall := hn.upSmall hw.left
    rcases hp.tx with h | ⟨h1, h2, h3, h4, h5, h6, h7⟩
    · rcases hp.stored with ⟨hst, hno⟩ | ⟨hst, hm⟩
      · rw [up_congr hst]
        rcases uplinks_quiet (uplinks log) n l m'.ctx hp.session h with h | h
        · rw [h] at hpm; exact hn.upBound hw.left p hpm
        · rw [h.1] at hpm; cases hpm
      · rw [up_of_some hst]
        by_cases hj : m'.ctx.joined = false
        · rw [uplinks_reset _ n l m'.ctx hp.session h hj hm] at hpm
          cases hpm
        · rcases uplinks_quiet (uplinks log) n l m'.ctx hp.session h with h | h
          · rw [h] at hpm
            have h8 := hn.upBound hw.left p hpm
            rw [ha.up] at h8 hsmall
            rcases hp.upStep with h | h | h
            · exact absurd h hj
            · rw [h]; exact h8
            · rw [h]
              show p.1 < (m.ctx.up + 1) % 4294967296
              omega
          · exact absurd h.2 hj
    · have hup : (n.after l).up = m.ctx.up := by
        rcases hp.stored with ⟨hst, _⟩ | ⟨hst, _⟩
        · rw [up_congr hst, ha.up]
        · rw [up_of_some hst, h5]
      rw [hup]
      have hold : ∀ p ∈ uplinks log, p.1 < m.ctx.up := fun p h => by rw [← ha.up]; exact hn.upBound hw.left p h
      rcases h1 with h1 | h1
      · obtain ⟨hfr, _⟩ := ha.joining h1
        obtain ⟨r, hr, _⟩ := hfr.parse hn.arg.joinEUI hn.arg.devEUI
        rcases uplinks_join (uplinks log) n l m'.ctx _ _ hp.session h3 (by rw [hr]; rfl) with h | h
        · rw [h] at hpm; exact hold p hpm
        · rw [h.1] at hpm; cases hpm
      · obtain ⟨hb, _, hu⟩ := ha.data h1
        obtain ⟨hu0, hu⟩ := hu hw.left
        rw [uplinks_sent (uplinks log) n l m'.ctx _ _ hp.session h3 (by rw [h6]; exact (hdata h1).joined)
          (by rw [h5]; exact ha.up), hb.notJoin] at hpm
        rcases List.mem_append.1 hpm with hpm | hpm
        · exact hold p hpm
        · rw [List.mem_singleton.1 hpm]
          show m'.ctx.up - 1 < _
          rw [h5]; omega
  · intro n' t s b hm
    rcases List.mem_append.1 hm with hm | hm
    · exact ⟨(hn.good n' t s b hm).1, fun hw => (hn.good n' t s b hm).2 hw.left⟩
    · obtain ⟨p, r, hpr, hn'⟩ := mem_stamps hm
      have hpo : p <+: o := List.IsPrefix.trans ⟨_, hpr.symm⟩ hl
      have hq := hf.part hpo n
      have hmt : (s, b) ∈ transmissions l := by
        rw [hpr, transmissions_append]
        exact List.mem_append_right _ (List.mem_cons_self ..)
      rcases hf.tx with h | ⟨h1, h2, h3, h4, h5, h6, h7, h8⟩
      · have := (transmissions_prefix hl).subset hmt
        rw [h] at this; cases this
      · have hb := (transmissions_prefix hl).subset hmt
        rw [h3] at hb
        have hb := (Prod.mk.inj (List.mem_singleton.1 hb)).2
        subst hb
        rw [hn']
        have hpos : NoWrap (log ++ stamps n l) → parseJoinRequest m.frame = none → 0 < (n.after p).up := by
          intro hw hno
          have hup : (n.after p).up = m.ctx.up := by
            rcases hq.stored with ⟨hst, _⟩ | ⟨hst, _⟩
            · rw [up_congr hst, ha.up]
            · rw [up_of_some hst, h5]
          rw [hup]
          rcases h1 with h1 | h1
          · obtain ⟨r, hr, _⟩ := (ha.joining h1).1.parse hn.arg.joinEUI hn.arg.devEUI
            rw [hr] at hno; cases hno
          · exact ((ha.data h1).2.2 hw.left).1
        refine ⟨?_, hpos⟩
        rcases h1 with h1 | h1
        · left
          have hnp := nonceReports_prefix hpo
          rw [h4] at hnp
          rw [after_devNonce, List.prefix_nil.1 hnp]
          show JoinFrame cfg d n.devNonce _
          rw [← ha.devNonce]
          exact (ha.joining h1).1
        · right
          obtain ⟨hb, ⟨s0, hs0, hj0, ha0, hu0⟩, _⟩ := ha.data h1
          obtain ⟨hc, hsm, _, hj⟩ := hdata h1
          rcases hq.stored with ⟨hst, _⟩ | ⟨hst, _⟩
          · exact ⟨s0, m.tx.counter, m, by rw [hst]; exact hs0, hj0, by rw [hu0]; exact hc, hsm, by rw [ha0]; exact hb⟩
          · exact ⟨m'.ctx, m.tx.counter, m, hst, by rw [h6]; exact hj, by rw [h5]; exact hc, hsm, by rw [h7]; exact hb⟩

/-- The identifiers never change. -/
theorem OpStep.ids {cfg : Cfg} {e : Env} {m m' : Mac} {c : Call} {t : List (TxSetting × Bytes)} {n : List Nat}
    (h : OpStep cfg e m c m' t n) : m'.joinEUI = m.joinEUI ∧ m'.devEUI = m.devEUI := by
  cases h with
  | idle ho ho' hr => exact ⟨hr.joinEUI, hr.devEUI⟩
  | ended ho ho' hr => exact ⟨hr.joinEUI, hr.devEUI⟩
  | keep ho hk => exact ⟨hk.joinEUI, hk.devEUI⟩
  | sent ho hc hs hs' hk => exact ⟨hk.joinEUI, hk.devEUI⟩
  | repeated ho hc hl hs hk => exact ⟨hk.joinEUI, hk.devEUI⟩
  | request ho hc hl hr => exact hr.ids
  | join ho hc hj hr => exact hr.ids
  | send ho confirmed port data len opts hc hj hp hg freq ch rate hsel hl hm =>
    obtain ⟨x, hx, a1, a2, a3, a4, a5, a6, a7, a8, a9, a10, a11, a12, a13⟩ :=
      sendData_fields cfg e _ confirmed port data len opts _ m' hm
    exact ⟨a9, a10⟩

theorem NewRequest.joinFrame {cfg : Cfg} (hE : ∀ k, BlockFn (cfg.E k)) {d : Device} {e : Env} {m m' : Mac}
    (h : NewRequest cfg e m m') (hm : BufOk cfg m) (hi : m.joinEUI = d.joinEUI ∧ m.devEUI = d.devEUI) :
    JoinFrame cfg d m'.devNonce m'.frame := by
  obtain ⟨_, _, hf⟩ := h.frame hE hm
  refine ⟨_, hi.1, hi.2, ?_, ?_, fun hv => ?_, hf⟩
  · exact micOf_lt _
  · show nonceFor cfg e m.devNonce < 65536
    unfold nonceFor u16
    split <;> exact Nat.mod_lt _ (by decide)
  · show nonceFor cfg e m.devNonce + 1 = m'.devNonce
    have := h.nonceOk
    rw [h.devNonce]
    unfold nonceFor u16
    rw [if_neg hv, Nat.mod_eq_of_lt (by omega)]

theorem Agree.after {cfg : Cfg} (hE : ∀ k, BlockFn (cfg.E k)) {d : Device} {m : Mac} {n : Nvm} {log : List (Nvm × Event)}
    (hn : NInv cfg d n log) (ha : Agree cfg d m n log) (e : Env) (c : Call) (hc : c.WF) (hpr : Proper c) :
    Agree cfg d (step cfg m e c).1 (n.after (newEvents m (step cfg m e c).1))
      (log ++ stamps n (newEvents m (step cfg m e c).1)) := by
  have hf := step_effect ha.reach e c hc
  have hreach := ha.reach.step e c hc
  have hbuf := ha.reach.bufOk hE
  have hsent : ∀ confirmed port payload len opts, c = .data confirmed port payload len opts →
      (payload = none → len = 0) → ((step cfg m e c).2 = .ok ∨ (step cfg m e c).2 = .macPriority) →
      DataBytes cfg (step cfg m e c).1 (step cfg m e c).1.tx.counter (step cfg m e c).1.ctx.devAddr (step cfg m e c).1.frame ∧
      (step cfg m e c).1.tx.counter = m.ctx.up ∧ (step cfg m e c).1.ctx.up = u32 (m.ctx.up + 1) ∧
      (step cfg m e c).1.ctx.devAddr = m.ctx.devAddr ∧ (step cfg m e c).1.ctx.joined = m.ctx.joined := by
    intro confirmed port payload len opts h hnull hst
    subst h
    exact send_dataBytes hE ha.reach e confirmed port payload len opts hc hnull hst _ rfl
  have hacc : ∀ confirmed port data len opts freq ch rate, c = .data confirmed port data len opts → m.op = .none →
      m.ctx.joined = true → (0 < port ∧ port ≤ 223) → m.band GLOBAL = 0 →
      selectChannel { m with tx := { m.tx with
          power := m.ctx.power
          rate := m.ctx.region.applyUplinkDwell (uplinkDwell m.ctx.txParamSetup) m.ctx.rate } }
        (e.draw 1) m.ctx.rate 0 = some (freq, ch, rate) →
      len + Frame.dataOverhead ≤ (m.ctx.region.convertRate m.ctx.rate).mtu →
      ((step cfg m e c).2 = .ok ∨ (step cfg m e c).2 = .macPriority) := by
    intro confirmed port data len opts freq ch rate h h1 h2 h3 h4 h5 h6
    subst h
    exact send_accepted h1 h2 h3 h4 h5 h6
  obtain ⟨o, h1, h2, h3⟩ := step_does cfg e m c ha.reach.reach.opOk
  have hnew : newEvents m (step cfg m e c).1 = o := by unfold newEvents; rw [h1, List.drop_left]
  rw [hnew] at hf ⊢
  generalize (step cfg m e c).2 = st at *
  generalize (step cfg m e c).1 = m' at *
  have hp := hf.part List.prefix_rfl n
  have hids := h2.ids
  have hdev : m'.devNonce = (n.after o).devNonce := by
    rw [after_devNonce]
    rcases hf.dev with ⟨a, b⟩ | ⟨a, b, _⟩ <;> rw [a, b]
    · exact ha.devNonce
    · rfl
  have hjn : m'.joinNonce = (n.after o).joinNonce := by
    rw [after_joinNonce]
    rcases hf.join with ⟨a, b⟩ | ⟨x, a, b, _⟩ <;> rw [a, b]
    · exact ha.joinNonce
    · rfl
  have hup : (n.after o).up = m'.ctx.up := by
    rcases hp.stored with ⟨a, b⟩ | ⟨a, b⟩
    · rw [up_congr a, ha.up]
      rcases hf.upRep with h | h
      · exact h.symm
      · exact absurd h (b _)
    · exact up_of_some a
  have hstored : Keep m m' → (∃ s, n.session = some s ∧ s.joined = true ∧ s.devAddr = m.ctx.devAddr ∧ s.up = m.ctx.up) →
      m.ctx.joined = true →
      ∃ s, (n.after o).session = some s ∧ s.joined = true ∧ s.devAddr = m'.ctx.devAddr ∧ s.up = m'.ctx.up := by
    rintro hk ⟨s, s1, s2, s3, s4⟩ hj
    rcases hp.stored with ⟨a, _⟩ | ⟨a, _⟩
    · exact ⟨s, a.trans s1, s2, s3.trans hk.devAddr.symm, s4.trans hk.up.symm⟩
    · exact ⟨_, a, hk.joined.trans hj, rfl, rfl⟩
  have hquiet : ∀ x, transmissions o = [] → x ∈ nonces (log ++ stamps n o) → x ∈ nonces log := by
    intro x ht hx
    rw [nonces_append, nonces_stamps, ht] at hx
    simpa using hx
  have huq : ∀ p, transmissions o = [] → p ∈ uplinks (log ++ stamps n o) → p ∈ uplinks log := by
    intro p ht hx
    rw [uplinks_append] at hx
    rcases uplinks_quiet (uplinks log) n o m'.ctx hp.session ht with h | h
    · rw [h] at hx; exact hx
    · rw [h.1] at hx; cases hx
  have hdata : DataOp m → InData cfg m := ha.reach.inData
  refine ⟨hreach, hf.ctx.2.trans ha.region, ⟨hids.1.trans ha.ids.1, hids.2.trans ha.ids.2⟩, hdev, hjn, hup, ?_, ?_⟩
  · intro ho
    generalize ht : transmissions o = t at h2
    generalize hnr : nonceReports o = nr at h2
    cases h2 with
    | idle h h' hr => rw [ho] at h'; simp at h'
    | ended h h' hr => rw [ho] at h'; simp at h'
    | keep h hk htr hb hl =>
      obtain ⟨j1, j2⟩ := ha.joining (hk.op ▸ ho)
      rw [hk.frame hb, hk.devNonce]
      refine ⟨j1, fun hv hs x hx => ?_⟩
      rw [hl] at hs
      exact j2 hv hs x (hquiet x ht hx)
    | sent h hc2 hs hs' hk htr hb =>
      obtain ⟨j1, _⟩ := ha.joining (hk.op ▸ ho)
      rw [hk.frame hb, hk.devNonce]
      refine ⟨j1, fun hv hs'' => ?_⟩
      rw [hs'] at hs''
      cases hs''
    | repeated h hc2 hl hs hk htr hnn hb =>
      rw [hk.op] at ho; rw [ho] at h; simp at h
    | request h hc2 hl hr hu htr =>
      refine ⟨hr.joinFrame hE hbuf ha.ids, fun hv _ x hx => ?_⟩
      have := hn.nonceBound hv x (hquiet x ht hx)
      rw [hr.devNonce, ha.devNonce]; omega
    | join h hc2 hj hr hu htr =>
      refine ⟨hr.joinFrame hE hbuf ha.ids, fun hv _ x hx => ?_⟩
      have := hn.nonceBound hv x (hquiet x ht hx)
      rw [hr.devNonce, ha.devNonce]; omega
    | send h confirmed port data len opts hc2 hj hpt hg freq ch rate hsel hl hm =>
      obtain ⟨b, bl, op, s, t, hsh, hop, _⟩ := sendData_shape cfg e { m with
        tx := { m.tx with freq := freq, chIndex := ch, rate := rate, power := m.ctx.power } } confirmed port data len opts
        (m.ctx.region.convertRate m.ctx.rate).mtu
      rw [← hm] at hsh
      rw [hsh] at ho
      have ho : op = .joining := ho
      rw [ho] at hop
      simp at hop
  · intro ho
    generalize ht : transmissions o = t at h2
    generalize hnr : nonceReports o = nr at h2
    cases h2 with
    | idle h h' hr => rcases ho with ho | ho <;> rw [ho] at h' <;> simp at h'
    | ended h h' hr => rcases ho with ho | ho <;> rw [ho] at h' <;> simp at h'
    | keep h hk htr hb hl =>
      have hd : DataOp m := by unfold DataOp at ho ⊢; rw [hk.op] at ho; exact ho
      obtain ⟨j1, j2, j3⟩ := ha.data hd
      rw [hk.frame hb, hk.counter]
      refine ⟨hk.dataBytes (hk.devAddr ▸ j1), hstored hk j2 (hdata hd).joined, fun hw => ?_⟩
      rw [hk.up]
      exact ⟨(j3 hw.left).1, fun p hp => (j3 hw.left).2 p (huq p ht hp)⟩
    | sent h hc2 hs hs' hk htr hb =>
      have hd : DataOp m := by unfold DataOp at ho ⊢; rw [hk.op] at ho; exact ho
      obtain ⟨j1, j2, j3⟩ := ha.data hd
      rw [hk.frame hb, hk.counter]
      refine ⟨hk.dataBytes (hk.devAddr ▸ j1), hstored hk j2 (hdata hd).joined, fun hw => ?_⟩
      rw [hk.up]
      refine ⟨(j3 hw.left).1, fun p hpm => ?_⟩
      rw [uplinks_append, uplinks_sent (uplinks log) n o m'.ctx _ _ hp.session ht
        (by rw [hk.joined]; exact (hdata hd).joined) (by rw [hk.up]; exact ha.up), j1.notJoin] at hpm
      rcases List.mem_append.1 hpm with hpm | hpm
      · exact (j3 hw.left).2 p hpm
      · intro _
        rw [List.mem_singleton.1 hpm]
    | repeated h hc2 hl hs hk htr hnn hb =>
      have hd : DataOp m := h
      have hb : m'.buffer = m.buffer := hb.trans (hbuf.again hd)
      obtain ⟨j1, j2, j3⟩ := ha.data hd
      rw [hk.frame hb, hk.counter]
      refine ⟨hk.dataBytes (hk.devAddr ▸ j1), hstored hk j2 (hdata hd).joined, fun hw => ?_⟩
      rw [hk.up]
      exact ⟨(j3 hw.left).1, fun p hp => (j3 hw.left).2 p (huq p ht hp)⟩
    | request h hc2 hl hr hu htr => rcases ho with ho | ho <;> rw [hr.op] at ho <;> cases ho
    | join h hc2 hj hr hu htr => rcases ho with ho | ho <;> rw [hr.op] at ho <;> cases ho
    | send h confirmed port data len opts hc2 hj hpt hg freq ch rate hsel hl hm =>
      have hpr' : data = none → len = 0 := by rw [hc2] at hpr; exact hpr
      obtain ⟨j1, j2, j3, j4, j5⟩ := hsent _ _ _ _ _ hc2 hpr' (hacc _ _ _ _ _ _ _ _ hc2 h hj hpt hg hsel hl)
      obtain ⟨x, hx, a1, a2, a3, a4, a5, a6, a7, a8, a9, a10, a11, a12, a13⟩ :=
        sendData_fields cfg e _ confirmed port data len opts _ m' hm
      have hoe : o = [Event.sessionUpdated m'.ctx] := List.append_cancel_left (h1.symm.trans a13)
      refine ⟨j1, ⟨m'.ctx, by rw [hoe]; rfl, j5.trans hj, rfl, rfl⟩, fun hw => ?_⟩
      have hsm := hn.upSmall hw.left
      rw [ha.up] at hsm
      have hu : m'.ctx.up = m.ctx.up + 1 := by rw [j3]; exact Nat.mod_eq_of_lt (by omega)
      rw [hu]
      refine ⟨Nat.succ_pos _, fun p hpm h => ?_⟩
      have := hn.upBound hw.left p (huq p ht hpm)
      rw [ha.up] at this
      omega

theorem initSession_facts (cfg : Cfg) (m : Mac) (r : Region) : (initSession cfg m r).ctx.region = r ∧
    (initSession cfg m r).ctx.up = 0 := by
  unfold initSession
  exact ⟨rfl, (forgetNetwork_facts _).2.2⟩

/-- Starting with what is stored. -/
theorem NInv.boot {cfg : Cfg} {d : Device} {n : Nvm} {log : List (Nvm × Event)} (hn : NInv cfg d n log) (e : Env) :
    Agree cfg d (d.boot cfg n e) n log := by
  have hr : Reachable cfg (d.boot cfg n e) := .init d.region (d.arg n) e (fun s h => (hn.session s h).1) hn.arg
  obtain ⟨_, hop, _⟩ := init_opOk cfg d.region (d.arg n) e
  obtain ⟨c, k, h, hc⟩ := init_fields cfg d.region (d.arg n) e
  have hd := hn.arg.devNonce
  have hj := hn.arg.joinNonce
  have hcx : c.region = d.region ∧ n.up = c.up := by
    rcases hc with ⟨s, h1, h2, h3, h4⟩ | ⟨h1, h2, _⟩
    · rw [h4]
      exact ⟨h3, up_of_some h1⟩
    · rcases Option.eq_none_or_eq_some n.session with hs | ⟨s, hs⟩
      · rw [h2]
        unfold Nvm.up
        simp only [hs]
        exact ⟨(initSession_facts cfg {} d.region).1, (initSession_facts cfg {} d.region).2.symm⟩
      · obtain ⟨s1, s2, _⟩ := hn.session s hs
        exact absurd s2 (h1 s hs s1.magic)
  have hctx : (d.boot cfg n e).ctx = c := by unfold Device.boot; rw [h]
  refine ⟨hr, by rw [hctx]; exact hcx.1, ?_, ?_, ?_, by rw [hctx]; exact hcx.2, ?_, ?_⟩
  · unfold Device.boot; rw [h]; exact ⟨rfl, rfl⟩
  · unfold Device.boot; rw [h]; exact Nat.mod_eq_of_lt hd
  · unfold Device.boot; rw [h]; exact Nat.mod_eq_of_lt hj
  · intro ho
    have : (d.boot cfg n e).op = .none := hop
    rw [this] at ho; cases ho
  · intro ho
    have : (d.boot cfg n e).op = .none := hop
    rcases ho with ho | ho <;> rw [this] at ho <;> cases ho

theorem NInv.first {cfg : Cfg} {d : Device} {n : Nvm} (hs : n.session = none) (ha : ArgOk (d.arg n)) : NInv cfg d n [] := by
  refine ⟨ha, ?_, fun _ => ?_, fun _ => ?_, fun _ => ?_, fun _ => ?_, fun _ => ?_, fun _ => ?_, ?_⟩
  · intro s h; rw [hs] at h; cases h
  · exact List.Pairwise.nil
  · intro x h; cases h
  · exact List.Pairwise.nil
  · intro x h; cases h
  · exact List.Pairwise.nil
  · intro x h; cases h
  · intro n' t s b h; cases h

theorem mem_uplinks {log : List (Nvm × Event)} {p : Nat × Bytes} (h : p ∈ uplinks log) :
    ∃ n t s, (n, Event.transmit t s p.2) ∈ log ∧ parseJoinRequest p.2 = none ∧ p.1 = n.up - 1 := by
  have key : ∀ (l : List (Nvm × Event)) (acc : List (Nat × Bytes)), p ∈ l.foldl uplinksStep acc →
      p ∈ acc ∨ ∃ n t s, (n, Event.transmit t s p.2) ∈ l ∧ parseJoinRequest p.2 = none ∧ p.1 = n.up - 1 := by
    intro l
    induction l with
    | nil => intro acc h; exact Or.inl h
    | cons x l ih =>
      intro acc h0
      rcases ih _ h0 with h | ⟨n, t, s, h1, h2⟩
      · obtain ⟨n, ev⟩ := x
        unfold uplinksStep at h
        cases ev
        case transmit t s b =>
          simp only [] at h
          split at h
          · exact Or.inl h
          · next hb =>
            rcases List.mem_append.1 h with h | h
            · exact Or.inl h
            · rw [List.mem_singleton.1 h]
              exact Or.inr ⟨n, t, s, by simp, by simpa using hb, rfl⟩
        case sessionUpdated s =>
          simp only [] at h
          split at h
          · exact Or.inl h
          · cases h
        all_goals exact Or.inl h
      · exact Or.inr ⟨n, t, s, List.mem_cons_of_mem _ h1, h2⟩
  rcases key log [] h with h | h
  · cases h
  · exact h

theorem Spec.Life.inv {cfg : Cfg} (hE : ∀ k, BlockFn (cfg.E k)) {d : Device} {m : Mac} {n : Nvm} {log : List (Nvm × Event)}
    (h : Life cfg d m n log) : NInv cfg d n log ∧ Agree cfg d m n log := by
  induction h with
  | first n e hn ha => exact ⟨.first hn ha, (NInv.first hn ha).boot e⟩
  | call h e c hc hp ih =>
    obtain ⟨h1, h2⟩ := ih
    exact ⟨h1.after h2 (step_effect h2.reach e c hc) List.prefix_rfl, h2.after hE h1 e c hc hp⟩
  | crash h e c hc hp k e' ih =>
    obtain ⟨h1, h2⟩ := ih
    have := h1.after h2 (step_effect h2.reach e c hc) (List.take_prefix k _)
    exact ⟨this, this.boot e'⟩

end LDL
