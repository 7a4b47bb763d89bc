import Verif.Props.Conversation
import Verif.Lemmas.AesPerm
import Verif.Props.Crypto

/-!
# Every join gives new keys: C109
-/

namespace LDL
open Spec

/-- Different blocks have different ciphertexts under the root keys of the device. -/
def OneToOne (cfg : Cfg) (d : Device) : Prop :=
  ∀ k, k = d.appKey ∨ k = d.nwkKey → ∀ a b : Bytes, a.length = 16 → b.length = 16 → cfg.E k a = cfg.E k b → a = b

/-- No key of one session is the key for the same purpose in the other. -/
structure Disjoint4 (a b : SessionKeys) : Prop where
  fNwkSInt : a.fNwkSInt ≠ b.fNwkSInt
  sNwkSInt : a.sNwkSInt ≠ b.sNwkSInt
  nwkSEnc : a.nwkSEnc ≠ b.nwkSEnc
  appS : a.appS ≠ b.appS

theorem keys_differ {cfg : Cfg} {d : Device} (hI : OneToOne cfg d) (hj : d.joinEUI.length = 8) (v : Bool)
    {j j' i i' x x' : Nat} (hx : x < 65536) (hx' : x' < 65536) (hne : x ≠ x') :
    Disjoint4 (sessionKeys cfg.E v d.appKey (d.root cfg.v11) j i d.joinEUI x)
      (sessionKeys cfg.E v d.appKey (d.root cfg.v11) j' i' d.joinEUI x') := by
  have hroot : d.root cfg.v11 = d.appKey ∨ d.root cfg.v11 = d.nwkKey := by
    unfold Device.root
    split
    · exact Or.inr rfl
    · exact Or.inl rfl
  have hle : le 2 x ≠ le 2 x' := fun h => hne (Stream.le_inj (by simpa using hx) (by simpa using hx') h)
  have tail : ∀ (t : UInt8) (a a' p : Bytes), a.length = a'.length → [t] ++ a ++ le 2 x ++ p ≠ [t] ++ a' ++ le 2 x' ++ p := by
    intro t a a' p ha h
    have h := List.append_cancel_right h
    exact hle (List.append_inj h (by simp [ha])).2
  have b10 : ∀ (k : Bytes) (t : UInt8), k = d.appKey ∨ k = d.nwkKey →
      cfg.E k ([t] ++ le 3 j ++ le 3 i ++ le 2 x ++ List.replicate 7 0) ≠
        cfg.E k ([t] ++ le 3 j' ++ le 3 i' ++ le 2 x' ++ List.replicate 7 0) := by
    intro k t hk h
    have h := hI k hk _ _ (by simp [Stream.le_length]) (by simp [Stream.le_length]) h
    have := tail t (le 3 j ++ le 3 i) (le 3 j' ++ le 3 i') (List.replicate 7 0) (by simp [Stream.le_length])
    simp only [List.append_assoc] at this h
    exact this h
  have b11 : ∀ (k : Bytes) (t : UInt8), k = d.appKey ∨ k = d.nwkKey →
      cfg.E k ([t] ++ le 3 j ++ d.joinEUI.reverse ++ le 2 x ++ List.replicate 2 0) ≠
        cfg.E k ([t] ++ le 3 j' ++ d.joinEUI.reverse ++ le 2 x' ++ List.replicate 2 0) := by
    intro k t hk h
    have h := hI k hk _ _ (by simp [Stream.le_length, hj]) (by simp [Stream.le_length, hj]) h
    have := tail t (le 3 j ++ d.joinEUI.reverse) (le 3 j' ++ d.joinEUI.reverse) (List.replicate 2 0) (by simp [Stream.le_length])
    simp only [List.append_assoc] at this h
    exact this h
  cases v
  · exact ⟨b10 _ _ hroot, b10 _ _ hroot, b10 _ _ hroot, b10 _ _ hroot⟩
  · exact ⟨b11 _ _ hroot, b11 _ _ hroot, b11 _ _ hroot, b11 _ _ (Or.inl rfl)⟩

/-- The join requests of a log. -/
def requestsIn (log : List (Nvm × Event)) : List JoinRequest := (log.filterMap sentIn).filterMap parseJoinRequest

theorem nonces_requests (log : List (Nvm × Event)) : nonces log = (requestsIn log).map JoinRequest.devNonce := by
  unfold nonces requestsIn
  induction log with
  | nil => rfl
  | cons x log ih =>
    obtain ⟨n, ev⟩ := x
    cases ev
    case transmit t s b =>
      simp only [List.filterMap_cons, sentIn]
      cases parseJoinRequest b
      · exact ih
      · simp only [Option.map_some, List.map_cons]
        rw [ih]
    all_goals exact ih

theorem request_nonce {log : List (Nvm × Event)} {r : JoinRequest} (h : r ∈ requestsIn log) : r.devNonce < 65536 := by
  obtain ⟨b, _, hb⟩ := List.mem_filterMap.1 h
  unfold parseJoinRequest at hb
  split at hb
  · rename_i hc
    cases hb
    have h2 : ((b.drop 17).take 2).length = 2 := by simp [hc.1]
    show leValue ((b.drop 17).take 2) < 65536
    match (b.drop 17).take 2, h2 with
    | [x, y], _ =>
      have := x.toNat_lt
      have := y.toNat_lt
      simp only [leValue]
      omega
  · cases hb

/-- **C109**: between two moments of the life of a device, at both of which it is a member of a network, it has sent a join
request.  Then no session key at the second moment is the key for the same purpose at the first, whatever the networks have
answered, also after power losses.  For sessions of the same protocol version, activation over the air, and versions of
LoRaWAN in which the DevNonce is a counter.

Left out: activation by personalisation (`c109_abp_reused`), LoRaWAN 1.0.3, where the DevNonce is random. -/
theorem c109_new_keys_partial {cfg : Cfg} (hE : ∀ k, BlockFn (cfg.E k)) (hv : cfg.version ≠ .v103) {d : Device} (hI : OneToOne cfg d)
    {m m' : Mac} {n n' : Nvm} {log l : List (Nvm × Event)} (h : OtaaLife cfg d m n log)
    (h' : OtaaLife cfg d m' n' (log ++ l)) (hj : m.ctx.joined = true) (hj' : m'.ctx.joined = true)
    (hs : sess11 cfg m = sess11 cfg m') (hl : nonces l ≠ []) :
    Disjoint4 (deviceKeys cfg m) (deviceKeys cfg m') := by
  obtain ⟨r, ja, ⟨hr, _⟩, hk⟩ := c101_session hE h hj
  obtain ⟨r', ja', ⟨hr', _⟩, hk'⟩ := c101_session hE h' hj'
  have hlen := (h'.life.inv hE).1.arg.joinEUI
  have hr : (requestsIn log).getLast? = some r := hr
  have hr' : (requestsIn (log ++ l)).getLast? = some r' := hr'
  have happ : requestsIn (log ++ l) = requestsIn log ++ requestsIn l := by
    unfold requestsIn
    rw [List.filterMap_append, List.filterMap_append]
  have hne : requestsIn l ≠ [] := by
    intro h0
    rw [nonces_requests, h0] at hl
    exact hl rfl
  rw [happ, List.getLast?_append, List.getLast?_eq_some_getLast hne, Option.some_or,
    ← List.getLast?_eq_some_getLast hne] at hr'
  have m1 := List.mem_of_getLast? hr
  have m2 := List.mem_of_getLast? hr'
  have hlt : r.devNonce < r'.devNonce := by
    have hp := c20_increasing hE hv h'.life
    rw [nonces_requests, happ, List.map_append, List.pairwise_append] at hp
    exact hp.2.2 _ (List.mem_map_of_mem m1) _ (List.mem_map_of_mem m2)
  unfold netSession at hk hk'
  simp only [NetSession.mk.injEq] at hk hk'
  rw [hk.2.1, hk'.2.1, ← hk.1, ← hk'.1, hs]
  exact keys_differ hI hlen _ (request_nonce m1) (request_nonce m2) (by omega)

/-! ## By the JoinNonce -/

theorem keys_differ_joinNonce {cfg : Cfg} {d : Device} (hI : OneToOne cfg d) (hj : d.joinEUI.length = 8) (v : Bool)
    {j j' i i' x x' : Nat} (hx : j < 2 ^ 24) (hx' : j' < 2 ^ 24) (hne : j ≠ j') :
    Disjoint4 (sessionKeys cfg.E v d.appKey (d.root cfg.v11) j i d.joinEUI x)
      (sessionKeys cfg.E v d.appKey (d.root cfg.v11) j' i' d.joinEUI x') := by
  have hroot : d.root cfg.v11 = d.appKey ∨ d.root cfg.v11 = d.nwkKey := by
    unfold Device.root
    split
    · exact Or.inr rfl
    · exact Or.inl rfl
  have hle : le 3 j ≠ le 3 j' := fun h => hne (Stream.le_inj (by simpa using hx) (by simpa using hx') h)
  have head : ∀ (t : UInt8) (a a' : Bytes), [t] ++ (le 3 j ++ a) ≠ [t] ++ (le 3 j' ++ a') := by
    intro t a a' h
    have h := List.append_cancel_left h
    exact hle (List.append_inj h (by simp [Stream.le_length])).1
  have b10 : ∀ (k : Bytes) (t : UInt8), k = d.appKey ∨ k = d.nwkKey →
      cfg.E k ([t] ++ le 3 j ++ le 3 i ++ le 2 x ++ List.replicate 7 0) ≠
        cfg.E k ([t] ++ le 3 j' ++ le 3 i' ++ le 2 x' ++ List.replicate 7 0) := by
    intro k t hk h
    have h := hI k hk _ _ (by simp [Stream.le_length]) (by simp [Stream.le_length]) h
    simp only [List.append_assoc] at h
    exact head _ _ _ h
  have b11 : ∀ (k : Bytes) (t : UInt8), k = d.appKey ∨ k = d.nwkKey →
      cfg.E k ([t] ++ le 3 j ++ d.joinEUI.reverse ++ le 2 x ++ List.replicate 2 0) ≠
        cfg.E k ([t] ++ le 3 j' ++ d.joinEUI.reverse ++ le 2 x' ++ List.replicate 2 0) := by
    intro k t hk h
    have h := hI k hk _ _ (by simp [Stream.le_length, hj]) (by simp [Stream.le_length, hj]) h
    simp only [List.append_assoc] at h
    exact head _ _ _ h
  cases v
  · exact ⟨b10 _ _ hroot, b10 _ _ hroot, b10 _ _ hroot, b10 _ _ hroot⟩
  · exact ⟨b11 _ _ hroot, b11 _ _ hroot, b11 _ _ hroot, b11 _ _ (Or.inl rfl)⟩

/-- The network's keys differ also between sessions of different versions. -/
theorem network_keys_differ {cfg : Cfg} {d : Device} (hI : OneToOne cfg d) (hj : d.joinEUI.length = 8) (v v' : Bool)
    {j j' i i' x x' : Nat} (hx : j < 2 ^ 24) (hx' : j' < 2 ^ 24) (hne : j ≠ j') :
    let a := sessionKeys cfg.E v d.appKey (d.root cfg.v11) j i d.joinEUI x
    let b := sessionKeys cfg.E v' d.appKey (d.root cfg.v11) j' i' d.joinEUI x'
    a.fNwkSInt ≠ b.fNwkSInt ∧ a.sNwkSInt ≠ b.sNwkSInt ∧ a.nwkSEnc ≠ b.nwkSEnc := by
  have hroot : d.root cfg.v11 = d.appKey ∨ d.root cfg.v11 = d.nwkKey := by
    unfold Device.root
    split
    · exact Or.inr rfl
    · exact Or.inl rfl
  have hle : le 3 j ≠ le 3 j' := fun h => hne (Stream.le_inj (by simpa using hx) (by simpa using hx') h)
  have key : ∀ (t t' : UInt8) (a a' : Bytes), a.length = 12 → a'.length = 12 →
      cfg.E (d.root cfg.v11) ([t] ++ (le 3 j ++ a)) ≠ cfg.E (d.root cfg.v11) ([t'] ++ (le 3 j' ++ a')) := by
    intro t t' a a' ha ha' h
    have h := hI _ hroot _ _ (by simp [Stream.le_length, ha]) (by simp [Stream.le_length, ha']) h
    have h := (List.append_inj h rfl).2
    exact hle (List.append_inj h (by simp [Stream.le_length])).1
  cases v <;> cases v' <;>
    simp only [sessionKeys, sessionKeys10, sessionKeys11, if_true, if_false, List.append_assoc, Bool.false_eq_true] <;>
    refine ⟨key _ _ _ _ ?_ ?_, key _ _ _ _ ?_ ?_, key _ _ _ _ ?_ ?_⟩ <;> simp [Stream.le_length, hj]

/-- JOIN_COMPLETE is reported before the session is handed over for storage, and that is the last thing the call does. -/
theorem join_order {cfg : Cfg} {e : Env} {m : Mac} {c : Call} {f : Frame.Down} {buf : Bytes}
    (hj : JoinsWith cfg e m c f buf) : ∃ o s, newEvents m (step cfg m e c).1 = o ++ [.sessionUpdated s] ∧
      (∀ s', .sessionUpdated s' ∉ o) ∧ joinReports o = [u32 (f.joinNonce + 1)] := by
  obtain ⟨hc, ha, ht⟩ := id hj
  subst hc
  obtain ⟨lag, x, p, t, hp, hx⟩ := receiving (cfg := cfg) (m := m) (e := e) ⟨ha.1, ha.2.1, ha.2.2.1⟩
  rw [ha.2.2.2] at hx
  simp only [] at hx
  rw [if_neg (by rw [ht]; decide)] at hx
  obtain ⟨_, _, _, _, _, _, hs⟩ := joinAccepted_shape cfg (packetState e x) f buf
  generalize joinAccepted cfg (packetState e x) f buf = y at hx hs
  have hout : (process cfg e m).out = x.out ++ [.getStatus] ++ [.readBuffer] ++ [.setMode .sleep] ++
      [.joinComplete (u32 (f.joinNonce + 1)) f.netID f.devAddr] ++ [.sessionUpdated y.ctx] := by
    rw [hx]
    show y.out ++ _ = _
    rw [hs]
    rfl
  rcases hp.out with ho | ho
  · refine ⟨[.getStatus] ++ [.readBuffer] ++ [.setMode .sleep] ++
      [.joinComplete (u32 (f.joinNonce + 1)) f.netID f.devAddr], y.ctx, newEvents_append ?_, by simp, rfl⟩
    show (process cfg e m).out = _
    rw [hout, ho]
    simp only [List.append_assoc]
  · refine ⟨[.channelReady] ++ [.getStatus] ++ [.readBuffer] ++ [.setMode .sleep] ++
      [.joinComplete (u32 (f.joinNonce + 1)) f.netID f.devAddr], y.ctx, newEvents_append ?_, by simp, rfl⟩
    show (process cfg e m).out = _
    rw [hout, ho]
    simp only [List.append_assoc]

theorem prefix_to_last {l a : List Event} {x : Event} (h : l <+: a ++ [x]) (hl : ∃ y ∈ l, y ∉ a) : l = a ++ [x] := by
  rcases List.prefix_concat_iff.1 h with h | h
  · exact h
  · obtain ⟨y, h1, h2⟩ := hl
    exact absurd (h.subset h1) h2

/-- The stored session is the one of the last JOIN_COMPLETE. -/
def LastJoin (n : Nvm) (log : List (Nvm × Event)) : Prop :=
  ∀ s, n.session = some s → s.joined = true → s.joinNonce < 2 ^ 24 ∧ (joinNonces log).getLast? = some (s.joinNonce + 1)

theorem LastJoin.after {cfg : Cfg} (hE : ∀ k, BlockFn (cfg.E k)) {d : Device} {m : Mac} {n : Nvm} {log : List (Nvm × Event)}
    (h : LastJoin n log) (hl : Life cfg d m n log) (hk : KeyInv cfg d m n) (e : Env) (c : Call) (hc : c.WF)
    (hna : ∀ a, c ≠ .abp a) (l : List Event) (hlo : l <+: newEvents m (step cfg m e c).1) :
    LastJoin (n.after l) (log ++ stamps n l) := by
  obtain ⟨hn, ha⟩ := hl.inv hE
  have hji := hl.joinInv hE
  have hp := (step_effect ha.reach e c hc).part hlo n
  -- as long as the device is joined, no JOIN_COMPLETE is reported
  have hquiet : m.ctx.joined = true → joinNonces (log ++ stamps n l) = joinNonces log := by
    intro hj
    rw [joinNonces_append, joinNonces_stamps]
    have : joinReports l = [] := by
      refine joinReports_nil fun a b x hx => ?_
      have hop := (join_event hE hl e c a b x (hlo.subset hx)).2.1
      rw [hji.unjoined hop] at hj
      cases hj
    rw [this, List.append_nil]
  intro s hs hsj
  rcases hp.stored with ⟨t1, _⟩ | ⟨t1, t2⟩
  · rw [t1] at hs
    rw [hquiet (hk.back s hs hsj).1]
    exact h s hs hsj
  · rw [t1] at hs
    injection hs with hs
    subst hs
    cases step_keys cfg e m c hji.unjoined with
    | quiet q hr =>
      obtain ⟨q1, q2⟩ := q.ident hsj
      obtain ⟨s, s1, s2, s3⟩ := hk.stored q1
      rw [hquiet q1]
      have : (step cfg m e c).1.ctx.joinNonce = s.joinNonce := by
        have q3 := q2.trans s3.symm
        unfold Session.ident at q3
        simp only [Prod.mk.injEq] at q3
        exact q3.2.2.1
      rw [this]
      exact h s s1 s2
    | abp a hc' _ _ => exact absurd hc' (hna a)
    | otaa hc' hj' hj hno hk' => rw [hj'] at hsj; cases hsj
    | join f buf hj hc' hk' ho hev =>
      obtain ⟨o, s', o1, o2, o3⟩ := join_order hj
      rw [o1] at hlo
      have hw := prefix_to_last hlo ⟨_, t2, o2 _⟩
      have hr : joinReports l = [u32 (f.joinNonce + 1)] := by
        rw [hw, joinReports_append, o3]
        rfl
      rw [joinNonces_append, joinNonces_stamps, hr, List.getLast?_concat]
      have hmem : ∃ a b x, Event.joinComplete a b x ∈ l ∧ a = u32 (f.joinNonce + 1) := by
        have : u32 (f.joinNonce + 1) ∈ joinReports l := by rw [hr]; exact List.mem_singleton.2 rfl
        obtain ⟨ev, h1, h2⟩ := List.mem_filterMap.1 this
        cases ev <;> simp at h2
        exact ⟨_, _, _, h1, h2⟩
      obtain ⟨a, b, x, hx, rfl⟩ := hmem
      rw [hw, ← o1] at hx
      obtain ⟨_, _, hrx, phy, r, ja, e1, e2, _, _, e3, _, j0, _, _, j1, j2, j3, j4, j5, j6, j7⟩ :=
        join_event hE hl e c _ _ _ hx
      rw [j4, j0]
      exact ⟨e3.wf.joinNonce, rfl⟩

theorem Spec.OtaaLife.lastJoin {cfg : Cfg} (hE : ∀ k, BlockFn (cfg.E k)) {d : Device} {m : Mac} {n : Nvm}
    {log : List (Nvm × Event)} (h : OtaaLife cfg d m n log) : LastJoin n log := by
  induction h with
  | first n e hn ha => intro s hs; rw [hn] at hs; cases hs
  | call h e c hc hp hna ih => exact ih.after hE h.life (h.keyInv hE) e c hc hna _ List.prefix_rfl
  | crash h e c hc hp hna k e' ih => exact ih.after hE h.life (h.keyInv hE) e c hc hna _ (List.take_prefix k _)

/-- The JoinNonce of a joined device is the last reported less one. -/
theorem joined_joinNonce {cfg : Cfg} (hE : ∀ k, BlockFn (cfg.E k)) {d : Device} {m : Mac} {n : Nvm}
    {log : List (Nvm × Event)} (h : OtaaLife cfg d m n log) (hj : m.ctx.joined = true) :
    m.ctx.joinNonce < 2 ^ 24 ∧ (joinNonces log).getLast? = some (m.ctx.joinNonce + 1) := by
  obtain ⟨s, s1, s2, s3⟩ := (h.keyInv hE).stored hj
  have : s.joinNonce = m.ctx.joinNonce := by
    unfold Session.ident at s3
    simp only [Prod.mk.injEq] at s3
    exact s3.2.2.1
  rw [← this]
  exact h.lastJoin hE s s1 s2

theorem joinNonces_differ {cfg : Cfg} (hE : ∀ k, BlockFn (cfg.E k)) {d : Device}
    {m m' : Mac} {n n' : Nvm} {log l : List (Nvm × Event)} (h : OtaaLife cfg d m n log)
    (h' : OtaaLife cfg d m' n' (log ++ l)) (hj : m.ctx.joined = true) (hj' : m'.ctx.joined = true)
    (hu : cfg.version = .v103 → (joinNonces (log ++ l)).Nodup) (hl : joinNonces l ≠ []) :
    m.ctx.joinNonce ≠ m'.ctx.joinNonce := by
  obtain ⟨_, g1⟩ := joined_joinNonce hE h hj
  obtain ⟨_, g2⟩ := joined_joinNonce hE h' hj'
  have hnd : (joinNonces (log ++ l)).Nodup := by
    by_cases hv : cfg.version = .v103
    · exact hu hv
    · exact (c19_increasing hE hv h'.life).imp (fun h => Nat.ne_of_lt h)
  rw [joinNonces_append] at g2 hnd
  rw [List.getLast?_append, List.getLast?_eq_some_getLast hl, Option.some_or, ← List.getLast?_eq_some_getLast hl] at g2
  intro h0
  have m1 := List.mem_of_getLast? g1
  have m2 := List.mem_of_getLast? g2
  rw [h0] at m1
  exact (List.nodup_append.1 hnd).2.2 _ m1 _ m2 rfl

/-- **C109** (by JOIN_COMPLETE): between two moments of the life of a device, at both of which it is a member of a network,
JOIN_COMPLETE was reported.  Then no session key at the second moment is the key for the same purpose at the first, also
after power losses.  In LoRaWAN 1.0.3, where the device compares neither its own nor the network's nonces, this is for
networks that do not use a JoinNonce twice with the device.

Left out: activation by personalisation (`c109_abp_reused`), and the AppSKey of sessions of different protocol versions
(the network's keys: `c109_network_keys_partial`). -/
theorem c109_joined_partial {cfg : Cfg} (hE : ∀ k, BlockFn (cfg.E k)) {d : Device} (hI : OneToOne cfg d)
    {m m' : Mac} {n n' : Nvm} {log l : List (Nvm × Event)} (h : OtaaLife cfg d m n log)
    (h' : OtaaLife cfg d m' n' (log ++ l)) (hj : m.ctx.joined = true) (hj' : m'.ctx.joined = true)
    (hs : sess11 cfg m = sess11 cfg m') (hu : cfg.version = .v103 → (joinNonces (log ++ l)).Nodup)
    (hl : joinNonces l ≠ []) :
    Disjoint4 (deviceKeys cfg m) (deviceKeys cfg m') := by
  rw [(h.keyInv hE).keys hj, (h'.keyInv hE).keys hj', hs]
  exact keys_differ_joinNonce hI (h'.life.inv hE).1.arg.joinEUI _ (joined_joinNonce hE h hj).1
    (joined_joinNonce hE h' hj').1 (joinNonces_differ hE h h' hj hj' hu hl)

/-- **C109** (network's keys): the same for sessions of any protocol versions, without AppSKey.  Between versions AppSKey is
derived from different root keys. -/
theorem c109_network_keys_partial {cfg : Cfg} (hE : ∀ k, BlockFn (cfg.E k)) {d : Device} (hI : OneToOne cfg d)
    {m m' : Mac} {n n' : Nvm} {log l : List (Nvm × Event)} (h : OtaaLife cfg d m n log)
    (h' : OtaaLife cfg d m' n' (log ++ l)) (hj : m.ctx.joined = true) (hj' : m'.ctx.joined = true)
    (hu : cfg.version = .v103 → (joinNonces (log ++ l)).Nodup) (hl : joinNonces l ≠ []) :
    (deviceKeys cfg m).fNwkSInt ≠ (deviceKeys cfg m').fNwkSInt ∧
    (deviceKeys cfg m).sNwkSInt ≠ (deviceKeys cfg m').sNwkSInt ∧
    (deviceKeys cfg m).nwkSEnc ≠ (deviceKeys cfg m').nwkSEnc := by
  rw [(h.keyInv hE).keys hj, (h'.keyInv hE).keys hj']
  exact network_keys_differ hI (h'.life.inv hE).1.arg.joinEUI _ _ (joined_joinNonce hE h hj).1
    (joined_joinNonce hE h' hj').1 (joinNonces_differ hE h h' hj hj' hu hl)

/-- AES is such a cipher. -/
theorem aes_oneToOne (cfg : Cfg) (hE : cfg.E = Aes.encrypt) (d : Device) (ha : d.appKey.length = 16)
    (hn : d.nwkKey.length = 16) : OneToOne cfg d := by
  intro k hk a b la lb h
  have hl : k.length = 16 := by rcases hk with rfl | rfl <;> assumption
  rw [hE] at h
  have := congrArg (Aes.decrypt k) h
  rwa [Aes.decrypt_encrypt hl la, Aes.decrypt_encrypt hl lb] at this

/-! ## Concrete cases -/

namespace Demo

theorem live_log {cfg : Cfg} {d : Device} (hs : List Happens) (s : Alive) : ∃ l, (live cfg d s hs).log = s.log ++ l := by
  induction hs generalizing s with
  | nil => exact ⟨[], (List.append_nil _).symm⟩
  | cons x hs ih =>
    obtain ⟨l, hl⟩ := ih (live1 cfg d s x)
    have : ∃ l', (live1 cfg d s x).log = s.log ++ l' := by
      cases x with
      | call e c => exact ⟨_, rfl⟩
      | crash e c k e' => exact ⟨_, rfl⟩
    obtain ⟨l', hl'⟩ := this
    exact ⟨l' ++ l, by rw [← List.append_assoc, ← hl']; exact hl⟩

/-- The answer to its third join request. -/
def answer3 : JoinAccept := { answer with joinNonce := 6, mic := 0 }

def mic3 : Nat := joinAcceptMic cfg.E false (device.root false) (jsIntKey cfg.E (device.root false) device.devEUI)
  device.joinEUI 2 answer3

def arrival3 : Env := { arrival with packet := { answer3 with mic := mic3 }.encode }

/-- The device of C14's example leaves its network and joins again. -/
def rejoining : List Happens := [.call (at_ 0) .forget] ++
  calls (boot ++ joining 20000 ++ txDone 1600000 ++ processAt [6600000, 6602000] ++ [(at_ 6700000, .radioEvent 6700000)]) ++
  [.call arrival3 .process]

def rejoined : Alive := live cfg device resumed rejoining

theorem resumed_otaa : OtaaLife cfg device resumed.m resumed.n resumed.log := by
  refine live_otaa _ ?_ waiting_life
  intro x hx
  simp only [List.mem_cons, List.not_mem_nil, or_false] at hx
  rcases hx with rfl | rfl <;> exact ⟨by decide +kernel, trivial⟩

theorem rejoined_otaa : OtaaLife cfg device rejoined.m rejoined.n rejoined.log := by
  refine live_otaa _ ?_ resumed_otaa
  have h : ∀ x ∈ rejoining, x.ok := by decide +kernel
  have h2 : (rejoining.all fun x => match x with | .call _ (.abp _) => false | .crash _ (.abp _) _ _ => false | _ => true) = true := by
    decide +kernel
  rw [List.all_eq_true] at h2
  intro x hx
  refine ⟨h x hx, ?_⟩
  have := h2 x hx
  split <;> simp_all

/-- It has other keys. -/
example : Disjoint4 (deviceKeys cfg resumed.m) (deviceKeys cfg rejoined.m) := by
  obtain ⟨l, hl⟩ := live_log (cfg := cfg) (d := device) rejoining resumed
  have hl : rejoined.log = resumed.log ++ l := hl
  have h := rejoined_otaa
  rw [hl] at h
  refine c109_new_keys_partial (fun _ _ h => h) (by decide) (fun _ _ _ _ _ _ h => h) resumed_otaa h (by decide +kernel)
    (by decide +kernel) (by decide +kernel) ?_
  intro h0
  have h1 : (nonces rejoined.log).length = 3 := by decide +kernel
  have h2 : (nonces resumed.log).length = 2 := by decide +kernel
  rw [hl] at h1
  have h3 : nonces (resumed.log ++ l) = nonces resumed.log ++ nonces l := List.filterMap_append
  rw [h3, h0, List.append_nil, h2] at h1
  cases h1

/-- The same by JOIN_COMPLETE. -/
example : Disjoint4 (deviceKeys cfg resumed.m) (deviceKeys cfg rejoined.m) ∧
    (deviceKeys cfg resumed.m).nwkSEnc ≠ (deviceKeys cfg rejoined.m).nwkSEnc := by
  obtain ⟨l, hl⟩ := live_log (cfg := cfg) (d := device) rejoining resumed
  have hl : rejoined.log = resumed.log ++ l := hl
  have h := rejoined_otaa
  rw [hl] at h
  have hne : joinNonces l ≠ [] := by
    intro h0
    have h1 : (joinNonces rejoined.log).length = 2 := by decide +kernel
    have h2 : (joinNonces resumed.log).length = 1 := by decide +kernel
    rw [hl, joinNonces_append, h0, List.append_nil, h2] at h1
    cases h1
  exact ⟨c109_joined_partial (fun _ _ h => h) (fun _ _ _ _ _ _ h => h) resumed_otaa h (by decide +kernel) (by decide +kernel)
    (by decide +kernel) (fun hv => absurd hv (by decide)) hne, (c109_network_keys_partial (fun _ _ h => h)
    (fun _ _ _ _ _ _ h => h) resumed_otaa h (by decide +kernel) (by decide +kernel) (fun hv => absurd hv (by decide)) hne).2.2⟩

/-- A personalised device sends, meets a radio error, leaves its network, is personalised again as before and sends
something else. -/
def personalisedTwice : List Happens := calls (boot ++ [(at_ 20000, .abp 1), (at_ 30000, .data false 1 (some (List.replicate 16 1)) 16 none)] ++
  processAt [30000, 60000, 10000000] ++ [(at_ 10000000, .forget)] ++ processAt [10010000, 10030000] ++
  [(at_ 10040000, .abp 1)] ++ processAt [100000000, 200000000] ++
  [(at_ 200000000, .data false 1 (some (List.replicate 16 2)) 16 none)] ++ processAt [200000000, 200030000])

end Demo

/-- **C109 fails for activation by personalisation**: the keys are the same and `LDL_MAC_forget` sets the counters to zero.
Two messages are encrypted with the same key stream: an observer learns the difference of what was sent. -/
theorem c109_abp_reused : ∃ m n log a b, Life Demo.cfg Demo.device m n log ∧
    (log.filterMap sentIn).map (fun x => (parseData x).map fun f => (f.devAddr, f.fcnt)) = [some (1, 0), some (1, 0)] ∧
    (log.filterMap sentIn).map (fun x => (parseData x).map DataFrame.payload) = [some (some (1, a)), some (some (1, b))] ∧
    xorBytes a b = xorBytes (List.replicate 16 1) (List.replicate 16 2) :=
  ⟨_, _, _, [0, 1, 1, 1, 1, 1, 0, 1, 1, 1, 1, 1, 1, 1, 1, 0], [3, 2, 2, 2, 2, 2, 3, 2, 2, 2, 2, 2, 2, 2, 2, 3],
    Demo.live_life Demo.personalisedTwice (by decide +kernel) Demo.newborn_life, by decide +kernel, by decide +kernel, by decide +kernel⟩

end LDL
