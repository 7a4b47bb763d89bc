import Verif.Props.Fresh

/-!
# No key stream is used twice in the life of a device: C110
-/

namespace LDL
open Spec

theorem snoc_induction {α : Type} {P : List α → Prop} (nil : P [])
    (append_singleton : ∀ l x, P l → P (l ++ [x])) (l : List α) : P l := by
  have : ∀ l : List α, P l.reverse := by
    intro l
    induction l with
    | nil => exact nil
    | cons x l ih => rw [List.reverse_cons]; exact append_singleton _ _ ih
  rw [← List.reverse_reverse l]
  exact this _

/-! ## Lives can be cut anywhere -/

theorem take_stamps (n : Nvm) (l : List Event) (k : Nat) : (stamps n l).take k = stamps n (l.take k) := by
  induction l generalizing n k with
  | nil => simp [stamps]
  | cons x l ih =>
    cases k with
    | zero => rfl
    | succ k => simp only [stamps, List.take_succ_cons, ih]

theorem cut_append {α : Type} {p a b : List α} (h : p <+: a ++ b) : p <+: a ∨ ∃ k, p = a ++ b.take k := by
  have hp := List.prefix_iff_eq_take.1 h
  rw [List.take_append] at hp
  by_cases hl : p.length ≤ a.length
  · refine Or.inl ?_
    rw [show p.length - a.length = 0 by omega, List.take_zero, List.append_nil] at hp
    rw [hp]
    exact List.take_prefix _ _
  · exact Or.inr ⟨p.length - a.length, by rw [List.take_of_length_le (l := a) (by omega)] at hp; exact hp⟩

/-- Power may be lost after every event: what happened up to there is what happened in the life of a device. -/
theorem Spec.OtaaLife.cut {cfg : Cfg} {d : Device} {m : Mac} {n : Nvm} {log : List (Nvm × Event)}
    (h : OtaaLife cfg d m n log) (p : List (Nvm × Event)) (hp : p <+: log) : ∃ m' n', OtaaLife cfg d m' n' p := by
  induction h with
  | first n e hn ha =>
    rw [List.prefix_nil.1 hp]
    exact ⟨_, _, .first n e hn ha⟩
  | call h e c hc hpr hna ih =>
    rcases cut_append hp with h' | ⟨k, rfl⟩
    · exact ih h'
    · rw [take_stamps]
      exact ⟨_, _, .crash h e c hc hpr hna k e⟩
  | crash h e c hc hpr hna k e' ih =>
    rcases cut_append hp with h' | ⟨j, rfl⟩
    · exact ih h'
    · rw [take_stamps, List.take_take]
      exact ⟨_, _, .crash h e c hc hpr hna _ e⟩

/-! ## Uplinks since the last join request -/

def sentSinceStep (l : List (Nat × Bytes)) (x : Nvm × Event) : List (Nat × Bytes) :=
  match x.2 with
  | .transmit _ _ b => if (parseJoinRequest b).isSome then [] else l ++ [(x.1.up - 1, b)]
  | _ => l

/-- The uplinks handed to the radio since the last join request. -/
def sentSince (log : List (Nvm × Event)) : List (Nat × Bytes) := log.foldl sentSinceStep []

/-- The uplinks of a session are those since the join request that began it. -/
structure Track (n : Nvm) (log : List (Nvm × Event)) : Prop where
  same : ∀ s, n.session = some s → s.joined = true → uplinks log = sentSince log
  none : (∀ s, n.session = some s → s.joined = false) → uplinks log = []

theorem sentSince_concat (log : List (Nvm × Event)) (x : Nvm × Event) :
    sentSince (log ++ [x]) = sentSinceStep (sentSince log) x := by
  unfold sentSince; rw [List.foldl_append]; rfl

theorem uplinks_concat (log : List (Nvm × Event)) (x : Nvm × Event) :
    uplinks (log ++ [x]) = uplinksStep (uplinks log) x := by
  unfold uplinks; rw [List.foldl_append]; rfl

theorem Track.event {n : Nvm} {log : List (Nvm × Event)} (h : Track n log) (x : Event)
    (f0 : ∀ t s b, x = .transmit t s b → parseJoinRequest b = Option.none → ∃ c, n.session = some c ∧ c.joined = true)
    (f1 : ∀ t s b, x = .transmit t s b → parseJoinRequest b ≠ Option.none → ∀ c, n.session = some c → c.joined = false)
    (f2 : ∀ s, x = .sessionUpdated s → s.joined = true → (∀ c, n.session = some c → c.joined = false) → sentSince log = []) :
    Track (n.store x) (log ++ [(n, x)]) := by
  cases x
  case transmit t s b =>
    cases hb : parseJoinRequest b with
    | none =>
      obtain ⟨c, c1, c2⟩ := f0 t s b rfl hb
      refine ⟨fun s' hs hj => ?_, fun hn => ?_⟩
      · rw [sentSince_concat, uplinks_concat]
        simp only [sentSinceStep, uplinksStep, hb]
        rw [h.same c c1 c2]
        rfl
      · have := hn c c1
        rw [c2] at this; cases this
    | some r =>
      have f1 := f1 t s b rfl (by rw [hb]; simp)
      refine ⟨fun s' hs hj => ?_, fun _ => ?_⟩
      · have := f1 s' hs
        rw [hj] at this; cases this
      · rw [uplinks_concat]
        simp only [uplinksStep, hb]
        exact h.none f1
  case sessionUpdated s =>
    refine ⟨fun s' hs hj => ?_, fun hn => ?_⟩
    · have hs : some s = some s' := hs
      injection hs with hs
      subst hs
      rw [sentSince_concat, uplinks_concat]
      simp only [sentSinceStep, uplinksStep, hj, if_true]
      by_cases hc : ∃ c, n.session = some c ∧ c.joined = true
      · obtain ⟨c, c1, c2⟩ := hc
        exact h.same c c1 c2
      · have hc : ∀ c, n.session = some c → c.joined = false := fun c h1 => by
          cases hx : c.joined with
          | false => rfl
          | true => exact absurd ⟨c, h1, hx⟩ hc
        rw [h.none hc, f2 s rfl hj hc]
    · have hj := hn s rfl
      rw [uplinks_concat]
      simp [uplinksStep, hj]
  all_goals
    refine ⟨fun s' hs hj => ?_, fun hn => ?_⟩
    · rw [sentSince_concat, uplinks_concat]
      exact h.same s' hs hj
    · rw [uplinks_concat]
      exact h.none hn

theorem stamps_concat (n : Nvm) (p : List Event) (x : Event) : stamps n (p ++ [x]) = stamps n p ++ [(n.after p, x)] := by
  induction p generalizing n with
  | nil => rfl
  | cons y p ih => simp only [List.cons_append, stamps, ih]; rfl

theorem after_concat (n : Nvm) (p : List Event) (x : Event) : n.after (p ++ [x]) = (n.after p).store x := by
  unfold Nvm.after; rw [List.foldl_append]; rfl

/-- Nothing has been sent since a join request that was the last thing sent. -/
theorem sentSince_lastSent {log : List (Nvm × Event)} {b : Bytes} (h : lastSent log = some b)
    (hb : parseJoinRequest b ≠ none) : sentSince log = [] := by
  induction log using snoc_induction with
  | nil => rfl
  | append_singleton log x ih =>
    obtain ⟨n, ev⟩ := x
    rw [sentSince_concat]
    unfold lastSent at h ih
    rw [List.filterMap_append] at h
    cases ev
    case transmit t s b' =>
      simp only [List.filterMap_cons, List.filterMap_nil, sentIn, List.getLast?_concat] at h
      injection h with h
      subst h
      cases hp : parseJoinRequest b' with
      | none => exact absurd hp hb
      | some r => simp [sentSinceStep, hp]
    all_goals
      simp only [List.filterMap_cons, List.filterMap_nil, sentIn, List.append_nil] at h
      exact ih h

theorem sentSince_quiet {log : List (Nvm × Event)} {n : Nvm} {l : List Event} (h : transmissions l = []) :
    sentSince (log ++ stamps n l) = sentSince log := by
  induction l using snoc_induction with
  | nil => simp [stamps]
  | append_singleton l x ih =>
    rw [transmissions_append, List.append_eq_nil_iff] at h
    rw [stamps_concat, ← List.append_assoc, sentSince_concat, ← ih h.1]
    cases x
    case transmit => cases h.2
    all_goals rfl

theorem Track.after {cfg : Cfg} (hE : ∀ k, BlockFn (cfg.E k)) {d : Device} {m : Mac} {n : Nvm} {log : List (Nvm × Event)}
    (h : Track n log) (hl : Life cfg d m n log) (hk : KeyInv cfg d m n) (e : Env) (c : Call) (hc : c.WF)
    (hna : ∀ a, c ≠ .abp a) (l : List Event) (hlo : l <+: newEvents m (step cfg m e c).1) :
    Track (n.after l) (log ++ stamps n l) := by
  obtain ⟨hn, ha⟩ := hl.inv hE
  have hji := hl.joinInv hE
  have hf := step_effect ha.reach e c hc
  induction l using snoc_induction with
  | nil => simpa [stamps, Nvm.after] using h
  | append_singleton p x ih =>
    have hpo : p <+: newEvents m (step cfg m e c).1 := List.IsPrefix.trans (List.prefix_append _ _) hlo
    have hq := hf.part hpo n
    have hxo : x ∈ newEvents m (step cfg m e c).1 := hlo.subset (List.mem_append_right _ (List.mem_singleton.2 rfl))
    rw [stamps_concat, after_concat, ← List.append_assoc]
    have htx : ∀ t s b, x = .transmit t s b → m.op.isTx ∧ b = m.frame ∧
        (step cfg m e c).1.ctx.joined = m.ctx.joined := by
      intro t s b hx
      have hm : (s, b) ∈ transmissions (newEvents m (step cfg m e c).1) := by
        refine (transmissions_prefix hlo).subset ?_
        rw [transmissions_append, hx]
        exact List.mem_append_right _ (List.mem_singleton.2 rfl)
      rcases hf.tx with h0 | ⟨h1, h2, h3, h4, h5, h6, h7, h8⟩
      · rw [h0] at hm; cases hm
      · rw [h3] at hm
        exact ⟨h1, (Prod.mk.inj (List.mem_singleton.1 hm)).2, by assumption⟩
    refine (ih hpo).event x ?_ ?_ ?_
    · intro t s b hx hb
      obtain ⟨h1, h2, h3⟩ := htx t s b hx
      have hdata : DataOp m := by
        rcases h1 with h1 | h1
        · obtain ⟨r, hr, _⟩ := (ha.joining h1).1.parse hn.arg.joinEUI hn.arg.devEUI
          rw [h2, hr] at hb; cases hb
        · exact h1
      obtain ⟨i1, i2, _, i4⟩ := ha.reach.inData hdata
      rcases hq.stored with ⟨hst, _⟩ | ⟨hst, _⟩
      · obtain ⟨s, s1, s2, _⟩ := hk.stored i4
        exact ⟨s, hst.trans s1, s2⟩
      · exact ⟨_, hst, h3.trans i4⟩
    · intro t s b hx hb c' hc'
      obtain ⟨h1, h2, h3⟩ := htx t s b hx
      have hun : m.ctx.joined = false := by
        rcases h1 with h1 | h1
        · exact hji.unjoined h1
        · rw [h2, (ha.data h1).1.notJoin] at hb; exact absurd rfl hb
      rcases hq.stored with ⟨hst, _⟩ | ⟨hst, _⟩
      · rw [hst] at hc'
        cases hj : c'.joined with
        | false => rfl
        | true =>
          have := (hk.back c' hc' hj).1
          rw [hun] at this; cases this
      · rw [hst] at hc'
        injection hc' with hc'
        rw [← hc', h3, hun]
    · intro s hx hsj hno
      have hs : s = (step cfg m e c).1.ctx := hf.session s (hx ▸ hxo)
      subst hs
      cases step_keys cfg e m c hji.unjoined with
      | quiet q hr =>
        obtain ⟨q1, _⟩ := q.ident hsj
        exfalso
        rcases hq.stored with ⟨hst, _⟩ | ⟨hst, _⟩
        · obtain ⟨s, s1, s2, _⟩ := hk.stored q1
          have := hno s (hst.trans s1)
          rw [s2] at this; cases this
        · have := hno _ hst
          rw [hsj] at this; cases this
      | abp a hc' _ _ => exact absurd hc' (hna a)
      | otaa hc' hj' hj hno hk' => rw [hj'] at hsj; cases hsj
      | join f buf hj hc' hk' ho hev =>
        obtain ⟨o, s1, s2⟩ := step_joinNonce cfg e m c
        rcases s2 with ⟨_, _, s2⟩ | ⟨f', buf', _, _, s3, _⟩
        · exact absurd hj (s2 _ _)
        · rw [← newEvents_append s1] at s3
          obtain ⟨_, _, hrx, phy, r, ja, e1, e2, _⟩ := join_event hE hl e c _ _ _ s3
          rw [sentSince_quiet]
          · exact sentSince_lastSent e1 (by rw [e2]; simp)
          · rcases hq.tx with h | ⟨_, h2, _⟩
            · exact h
            · have : afterTx m.state = true := by
                rcases hrx.1 with h | h <;> rw [h] <;> rfl
              rw [this] at h2; cases h2

theorem Spec.OtaaLife.track {cfg : Cfg} (hE : ∀ k, BlockFn (cfg.E k)) {d : Device} {m : Mac} {n : Nvm}
    {log : List (Nvm × Event)} (h : OtaaLife cfg d m n log) : Track n log := by
  induction h with
  | first n e hn ha => exact ⟨fun s hs => absurd hs (by rw [hn]; simp), fun _ => rfl⟩
  | call h e c hc hp hna ih => exact ih.after hE h.life (h.keyInv hE) e c hc hna _ List.prefix_rfl
  | crash h e c hc hp hna k e' ih => exact ih.after hE h.life (h.keyInv hE) e c hc hna _ (List.take_prefix k _)

theorem mem_sentSince {log l : List (Nvm × Event)} {p : Nat × Bytes} (h : p ∈ sentSince log) (hl : nonces l = []) :
    p ∈ sentSince (log ++ l) := by
  induction l using snoc_induction with
  | nil => rwa [List.append_nil]
  | append_singleton l x ih =>
    have happ : nonces (l ++ [x]) = nonces l ++ nonces [x] := List.filterMap_append
    rw [happ, List.append_eq_nil_iff] at hl
    rw [← List.append_assoc, sentSince_concat]
    have hm := ih hl.1
    obtain ⟨n, ev⟩ := x
    cases ev
    case transmit t s b =>
      cases hb : parseJoinRequest b with
      | none =>
        simp only [sentSinceStep, hb]
        exact List.mem_append_left _ hm
      | some r =>
        have := hl.2
        simp [nonces, hb] at this
    all_goals exact hm

/-- **C110**: any two uplinks in the life of a device, different if no join request is between them (the same frame may be
transmitted again): each is accepted by the network in the session of the last
join request before it and its answer, and no block of key stream, for payloads or for commands, is common to both: the keys
or the counter blocks are different.  Over any number of joins, restarts and power losses.

Left out: activation by personalisation and LoRaWAN 1.0.3 (C109), counters from 65536 on, where the code repeats the key
stream (`c23_reused`), sessions of different protocol versions; frames of 244 bytes and acknowledgements in 1.1 sessions for
the first part (C101). -/
theorem c110_no_keystream_twice_partial {cfg : Cfg} (hE : ∀ k, BlockFn (cfg.E k)) (hv : cfg.version ≠ .v103) {d : Device}
    (hI : OneToOne cfg d) {m : Mac} {n : Nvm} {log : List (Nvm × Event)} (h : OtaaLife cfg d m n log) (hw : NoWrap log)
    (a mid z : List (Nvm × Event)) (n1 n2 : Nvm) (t1 t2 : Nat) (s1 s2 : TxSetting) (b1 b2 : Bytes)
    (hs : log = a ++ (n1, .transmit t1 s1 b1) :: (mid ++ (n2, .transmit t2 s2 b2) :: z))
    (hd1 : parseJoinRequest b1 = none) (hd2 : parseJoinRequest b2 = none)
    (hne : nonces mid = [] → b1 ≠ b2) (hc1 : n1.up ≤ 65536) (hc2 : n2.up ≤ 65536) :
    ∃ r1 ja1 r2 ja2, Answered cfg d a r1 ja1 ∧ Answered cfg d (a ++ (n1, .transmit t1 s1 b1) :: mid) r2 ja2 ∧
      let x := netSession cfg d r1 ja1
      let y := netSession cfg d r2 ja2
      (b1.length ≠ 244 → ∀ conf, (x.v11 = true → conf = 0) → NetAccepts cfg d x (n1.up - 1) conf s1 b1) ∧
      (b2.length ≠ 244 → ∀ conf, (y.v11 = true → conf = 0) → NetAccepts cfg d y (n2.up - 1) conf s2 b2) ∧
      (x.v11 = y.v11 → ∀ i j,
        (x.keys.appS, counterBlock (blockA true x.devAddr (n1.up - 1)) i) ≠
          (y.keys.appS, counterBlock (blockA true y.devAddr (n2.up - 1)) j) ∧
        (x.keys.nwkSEnc, counterBlock (blockA true x.devAddr (n1.up - 1)) i) ≠
          (y.keys.nwkSEnc, counterBlock (blockA true y.devAddr (n2.up - 1)) j)) := by
  have hs2 : log = (a ++ (n1, .transmit t1 s1 b1) :: mid) ++ (n2, .transmit t2 s2 b2) :: z := by
    rw [hs]; simp only [List.append_assoc, List.cons_append]
  obtain ⟨r1, ja1, k1, A1, u1, l1, acc1⟩ := c101_uplinks_partial hE h a _ n1 t1 s1 b1 hs hd1
  obtain ⟨r2, ja2, k2, A2, u2, l2, acc2⟩ := c101_uplinks_partial hE h _ z n2 t2 s2 b2 hs2 hd2
  have hi := (h.life.inv hE).1
  have p1 := (hi.good n1 t1 s1 b1 (by rw [hs]; simp)).2 hw hd1
  have p2 := (hi.good n2 t2 s2 b2 (by rw [hs2]; simp)).2 hw hd2
  have e1 : k1 = n1.up - 1 := by omega
  have e2 : k2 = n2.up - 1 := by omega
  subst e1 e2
  refine ⟨r1, ja1, r2, ja2, A1, A2, fun hl => acc1 (by omega) hl, fun hl => acc2 (by omega) hl, ?_⟩
  intro hver i j
  by_cases hm : nonces mid = []
  · -- in one session: the counters are different
    let cut := (a ++ [(n1, Event.transmit t1 s1 b1)]) ++ (mid ++ [(n2, .transmit t2 s2 b2)])
    have hcut : log = cut ++ z := by
      rw [hs]; simp only [cut, List.append_assoc, List.cons_append, List.nil_append]
    obtain ⟨m', n', h'⟩ := h.cut cut ⟨z, hcut.symm⟩
    have hw' : NoWrap cut := by rw [hcut] at hw; exact hw.left
    have hup : uplinks cut = uplinks (a ++ (n1, .transmit t1 s1 b1) :: mid) ++ [(n2.up - 1, b2)] := by
      have : cut = (a ++ (n1, .transmit t1 s1 b1) :: mid) ++ [(n2, .transmit t2 s2 b2)] := by
        simp only [cut, List.append_assoc, List.cons_append, List.nil_append]
      rw [this, uplinks_concat]
      simp [uplinksStep, hd2]
    have ht := h'.track hE
    have hsame : uplinks cut = sentSince cut := by
      by_cases hc : ∃ c, n'.session = some c ∧ c.joined = true
      · obtain ⟨c, c1, c2⟩ := hc
        exact ht.same c c1 c2
      · have := ht.none fun c g => by
          cases hx : c.joined with
          | false => rfl
          | true => exact absurd ⟨c, g, hx⟩ hc
        rw [hup] at this
        exact absurd this (by simp)
    have q1 : (n1.up - 1, b1) ∈ uplinks cut := by
      rw [hsame]
      refine mem_sentSince ?_ ?_
      · rw [sentSince_concat]
        simp [sentSinceStep, hd1]
      · have : nonces (mid ++ [(n2, .transmit t2 s2 b2)]) = nonces mid ++ nonces [(n2, .transmit t2 s2 b2)] :=
          List.filterMap_append
        rw [this, hm]
        simp [nonces, hd2]
    have q2 : (n2.up - 1, b2) ∈ uplinks cut := by rw [hup]; simp
    have hb := (c23_no_block_reused_partial hE h'.life hw').2 _ q1 _ q2 (fun g => hne hm (Prod.mk.inj g).2)
      (by show n1.up - 1 < _; omega) (by show n2.up - 1 < _; omega)
    exact ⟨fun g => hb _ _ _ _ (Prod.mk.inj g).2, fun g => hb _ _ _ _ (Prod.mk.inj g).2⟩
  · -- after another join request: the keys are different
    have hr : (requestsIn a).getLast? = some r1 := A1.1
    have hr' : (requestsIn (a ++ (n1, .transmit t1 s1 b1) :: mid)).getLast? = some r2 := A2.1
    have happ : requestsIn (a ++ (n1, .transmit t1 s1 b1) :: mid) = requestsIn a ++ requestsIn mid := by
      unfold requestsIn
      rw [List.filterMap_append, List.filterMap_append]
      simp [sentIn, hd1]
    have hq : requestsIn mid ≠ [] := by
      intro h0
      rw [nonces_requests, h0] at hm
      exact hm rfl
    rw [happ, List.getLast?_append, List.getLast?_eq_some_getLast hq, Option.some_or,
      ← List.getLast?_eq_some_getLast hq] at hr'
    have m1 := List.mem_of_getLast? hr
    have m2 := List.mem_of_getLast? hr'
    have hlt : r1.devNonce < r2.devNonce := by
      have hp := c20_increasing hE hv h.life
      rw [hs2] at hp
      have : nonces (a ++ (n1, .transmit t1 s1 b1) :: mid ++ (n2, .transmit t2 s2 b2) :: z) =
        nonces (a ++ (n1, .transmit t1 s1 b1) :: mid) ++ nonces ((n2, .transmit t2 s2 b2) :: z) := List.filterMap_append
      rw [this, List.pairwise_append] at hp
      have hp := hp.1
      rw [nonces_requests, happ, List.map_append, List.pairwise_append] at hp
      exact hp.2.2 _ (List.mem_map_of_mem m1) _ (List.mem_map_of_mem m2)
    have hk : Disjoint4 (netSession cfg d r1 ja1).keys (netSession cfg d r2 ja2).keys := by
      have hver : (cfg.v11 && ja1.optNeg) = (cfg.v11 && ja2.optNeg) := hver
      show Disjoint4 (sessionKeys _ _ _ _ _ _ _ _) (sessionKeys _ _ _ _ _ _ _ _)
      rw [hver]
      exact keys_differ hI hi.arg.joinEUI _ (request_nonce m1) (request_nonce m2) (by omega)
    exact ⟨fun g => hk.appS (Prod.mk.inj g).1, fun g => hk.nwkSEnc (Prod.mk.inj g).1⟩

/-! ## A concrete case -/

namespace Demo

/-- The device that has joined and sent loses power, leaves its network, joins again, loses power and sends. -/
def secondSession : List Happens := [.crash (at_ 200000000) .process 0 (at_ 0)] ++ rejoining ++
  [.crash (at_ 6800000) .process 0 (at_ 0)] ++ calls (boot ++ upAndListen 100000000)

def twoSessions : Alive := live cfg device talking secondSession

theorem twoSessions_life : OtaaLife cfg device twoSessions.m twoSessions.n twoSessions.log := by
  refine live_otaa _ ?_ talking_life
  have h : ∀ x ∈ secondSession, x.ok := by decide +kernel
  have h2 : (secondSession.all fun x => match x with | .call _ (.abp _) => false | .crash _ (.abp _) _ _ => false | _ => true) = true := by
    decide +kernel
  rw [List.all_eq_true] at h2
  intro x hx
  refine ⟨h x hx, ?_⟩
  have := h2 x hx
  split <;> simp_all

/-- What C110 is about: the counter in storage and the frame, or the DevNonce. -/
def sentAs : Nvm × Event → Option (Nat × Option Nat)
  | (n, .transmit _ _ b) => some (n.up, (parseJoinRequest b).map JoinRequest.devNonce)
  | _ => none

/-- Two join requests, an uplink with counter 0, a join request and another uplink with counter 0. -/
example : twoSessions.log.filterMap sentAs = [(0, some 0), (0, some 1), (1, none), (0, some 2), (1, none)] := by decide +kernel

theorem sentAs_split {log : List (Nvm × Event)} {u : Nat} {k : Option Nat} {rest : List (Nat × Option Nat)}
    (h : log.filterMap sentAs = (u, k) :: rest) : ∃ a n t s b z, log = a ++ (n, Event.transmit t s b) :: z ∧ n.up = u ∧
      (parseJoinRequest b).map JoinRequest.devNonce = k ∧ z.filterMap sentAs = rest := by
  obtain ⟨a, x, z, h1, _, h2, h3⟩ := List.filterMap_eq_cons_iff.1 h
  obtain ⟨n, ev⟩ := x
  cases ev
  case transmit t s b =>
    injection h2 with h2
    obtain ⟨e1, e2⟩ := Prod.mk.inj h2
    exact ⟨a, n, t, s, b, z, h1, e1, e2, h3⟩
  all_goals cases h2

theorem noWrap_of {log : List (Nvm × Event)}
    (h : (log.all fun x => match x.2 with | .sessionUpdated s => decide (s.up < 4294967295) | _ => true) = true) : NoWrap log := by
  intro n s hs
  rw [List.all_eq_true] at h
  simpa using h _ hs

/-- The hypotheses of C110 are met by the two uplinks, which have the same counter and lie in different sessions. -/
example : ∃ a mid z n1 n2 t1 t2 s1 s2 b1 b2,
    twoSessions.log = a ++ (n1, Event.transmit t1 s1 b1) :: (mid ++ (n2, .transmit t2 s2 b2) :: z) ∧
    parseJoinRequest b1 = none ∧ parseJoinRequest b2 = none ∧ n1.up = 1 ∧ n2.up = 1 ∧ nonces mid ≠ [] ∧
    NoWrap twoSessions.log := by
  have h : twoSessions.log.filterMap sentAs = [(0, some 0), (0, some 1), (1, none), (0, some 2), (1, none)] := by decide +kernel
  have hw : NoWrap twoSessions.log := noWrap_of (by decide +kernel)
  generalize twoSessions.log = log at h hw
  obtain ⟨a0, x0, t0, s0, b0, z0, e0, _, _, h⟩ := sentAs_split h
  obtain ⟨a1, x1, t1, s1, b1, z1, e1, _, _, h⟩ := sentAs_split h
  obtain ⟨a2, x2, t2, s2, b2, z2, e2, u2, p2, h⟩ := sentAs_split h
  obtain ⟨a3, x3, t3, s3, b3, z3, e3, _, p3, h⟩ := sentAs_split h
  obtain ⟨a4, x4, t4, s4, b4, z4, e4, u4, p4, h⟩ := sentAs_split h
  refine ⟨a0 ++ (x0, .transmit t0 s0 b0) :: (a1 ++ (x1, .transmit t1 s1 b1) :: a2), a3 ++ (x3, .transmit t3 s3 b3) :: a4, z4,
    x2, x4, t2, t4, s2, s4, b2, b4, ?_, Option.map_eq_none_iff.1 p2, Option.map_eq_none_iff.1 p4, u2, u4, ?_, hw⟩
  · rw [e0, e1, e2, e3, e4]
    simp only [List.append_assoc, List.cons_append]
  · intro hn
    have : nonces (a3 ++ (x3, Event.transmit t3 s3 b3) :: a4) = nonces a3 ++ nonces ((x3, Event.transmit t3 s3 b3) :: a4) :=
      List.filterMap_append
    rw [this, List.append_eq_nil_iff] at hn
    have hn := hn.2
    have := List.filterMap_eq_nil_iff.1 hn (x3, .transmit t3 s3 b3) (List.mem_cons_self ..)
    exact absurd (p3.symm.trans this) (by simp)

end Demo
end LDL
