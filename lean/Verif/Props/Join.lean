import Verif.Lemmas.JoinInv
import Verif.Props.Restart
import Verif.Props.Downlink

/-!
# Joining: C14, C15, C19, C62
-/

namespace LDL
open Spec

/-- Two join accepts with the same octets are the same. -/
theorem encode_inj {a b : JoinAccept} (ha : a.WF) (hb : b.WF) (h : a.encode = b.encode) :
    downOfJoinAccept a = downOfJoinAccept b := by
  have h1 := (c07_fields false a ha []).1
  have h2 := (c07_fields false b hb []).1
  rw [h, h2] at h1
  injection h1 with h1
  exact h1.symm

/-- The join request the device waits for an answer to: the last thing it transmitted. -/
theorem awaiting {cfg : Cfg} {d : Device} {m : Mac} {n : Nvm} {log : List (Nvm × Event)}
    (hn : NInv cfg d n log) (hi : JoinInv cfg d m log) (ho : m.op = .joining)
    (hs : m.state = .rx1 ∨ m.state = .rx2) : ∃ phy r, lastSent log = some phy ∧ parseJoinRequest phy = some r ∧
      r.joinEUI = d.joinEUI ∧ r.devEUI = d.devEUI ∧ r.devNonce = m.ctx.devNonce := by
  obtain ⟨r, r1, r2, r3, r4, r5, r6⟩ := hi.frame ho
  refine ⟨_, r, hi.sent (Or.inl ho) (by rcases hs with h | h <;> rw [h] <;> rfl), ?_, r1, r2, r5⟩
  rw [r6]
  exact parse_joinRequest r (by rw [r1]; exact hn.arg.joinEUI) (by rw [r2]; exact hn.arg.devEUI) r4 r3

/-- The MIC computed by the device is that of the specification. -/
theorem joinMic_eq {cfg : Cfg} {d : Device} {m : Mac} {n : Nvm} {log : List (Nvm × Event)} (ha : Agree cfg d m n log)
    (hi : JoinInv cfg d m log) (ho : m.op = .joining) (ja : JoinAccept) :
    joinAcceptMic cfg.E cfg.v11 (Sm.key cfg m.keys .nwk) (Sm.key cfg m.keys .jsInt) m.joinEUI m.ctx.devNonce ja =
    joinAcceptMic cfg.E cfg.v11 (d.root cfg.v11) (jsIntKey cfg.E (d.root cfg.v11) d.devEUI) d.joinEUI m.ctx.devNonce ja := by
  rw [hi.nwk, ha.ids.1]
  unfold joinAcceptMic
  split
  · next h => rw [hi.js h.1 ho]
  · rfl

theorem joinsWith_iff {cfg : Cfg} (hE : ∀ k, BlockFn (cfg.E k)) {d : Device} {m : Mac} {n : Nvm} {log : List (Nvm × Event)}
    (h : Life cfg d m n log) (e : Env) (c : Call) (f : Frame.Down) (buf : Bytes) :
    JoinsWith cfg e m c f buf ↔ c = .process ∧ m.op = .joining ∧ Receiving m e ∧ ∃ ja,
      AuthenticJoin cfg.E cfg.v11 (d.root cfg.v11) d.devEUI d.joinEUI m.ctx.devNonce e.received ja ∧
      (cfg.version ≠ .v103 → n.joinNonce ≤ ja.joinNonce) ∧ f = downOfJoinAccept ja ∧
      ∃ tail, e.rxBuffer = e.received ++ tail ∧ buf = ja.encode ++ tail := by
  obtain ⟨h1, h2⟩ := h.inv hE
  have h3 := h.joinInv hE
  obtain ⟨tail, ht⟩ := rxBuffer_eq e
  have hj8 : m.joinEUI.length = 8 := by rw [h2.ids.1]; exact h1.arg.joinEUI
  constructor
  · rintro ⟨hc, ⟨a1, a2, a3, a4⟩, hty⟩
    have hop : m.op = .joining := by
      rcases receiveFrame_cases (received_length e) (by rw [rxBuffer_length]; exact received_length e) a4 with
        ⟨_, ho, _⟩ | ⟨ho, _⟩
      · rcases ho with ho | ho
        · exact ho
        · have := h2.reach.reach.opOk
          unfold OpOk at this
          rw [ho] at this
          rcases a1 with a1 | a1 <;> rw [a1] at this <;> simp [opAllowed] at this
      · rw [hty] at ho; exact absurd ho (by decide)
    rw [ht] at a4
    obtain ⟨ja, w1, w2, w3, w4, w5, w6⟩ := (receiveJoin_iff hE hop hj8 _ tail (received_length e) f buf).1 a4
    refine ⟨hc, hop, ⟨a1, a2, a3⟩, ja, ⟨w1, by rw [← h3.nwk]; exact w2, ?_⟩, ?_, w3, tail, ht, w4⟩
    · rw [← joinMic_eq h2 h3 hop]; exact w6
    · rw [← h2.joinNonce]; exact w5
  · rintro ⟨hc, hop, ⟨a1, a2, a3⟩, ja, ⟨w1, w2, w6⟩, w5, w3, tail', ht', w4⟩
    have htt : tail' = tail := List.append_cancel_left (ht'.symm.trans ht)
    subst htt
    refine ⟨hc, ⟨a1, a2, a3, ?_⟩, by rw [w3]; rfl⟩
    rw [ht]
    refine (receiveJoin_iff hE hop hj8 _ tail' (received_length e) f buf).2 ⟨ja, w1, by rw [h3.nwk]; exact w2, w3, w4, ?_, ?_⟩
    · rw [h2.joinNonce]; exact w5
    · rw [joinMic_eq h2 h3 hop]; exact w6

theorem joinSession_facts {cfg : Cfg} (m : Mac) (ja : JoinAccept) (buf : Bytes) :
    let s := joinSession cfg m (downOfJoinAccept ja) buf
    s.joined = true ∧ s.devAddr = ja.devAddr ∧ s.netID = ja.netID ∧ s.joinNonce = ja.joinNonce ∧
    s.devNonce = m.ctx.devNonce ∧ (cfg.v11 = true → s.version = if ja.optNeg then 1 else 0) := by
  have hcf : ∀ s : Session, ∃ cc cm, joinCFList s (downOfJoinAccept ja) buf = { s with chConfig := cc, chMask := cm } := by
    intro s
    unfold joinCFList
    split
    · exact processCFList_ids s _
    · exact ⟨_, _, rfl⟩
  unfold joinSession joinVersion
  simp only []
  obtain ⟨cc, cm, h⟩ := hcf (joinParams cfg m (downOfJoinAccept ja))
  rw [h]
  unfold setPending
  have ho : (downOfJoinAccept ja).optNeg = ja.optNeg := rfl
  rw [ho]
  cases cfg.v11 <;> cases ja.optNeg <;> simp [joinParams, downOfJoinAccept]

/-- The session after a reported join. -/
theorem join_ctx {cfg : Cfg} (hE : ∀ k, BlockFn (cfg.E k)) {d : Device} {m : Mac} {n : Nvm} {log : List (Nvm × Event)}
    (h : Life cfg d m n log) (e : Env) (c : Call) (a b x : Nat)
    (hev : .joinComplete a b x ∈ newEvents m (step cfg m e c).1) :
    c = .process ∧ m.op = .joining ∧ Receiving m e ∧ ∃ phy r ja tail, lastSent log = some phy ∧
      parseJoinRequest phy = some r ∧ r.joinEUI = d.joinEUI ∧ r.devEUI = d.devEUI ∧ r.devNonce = m.ctx.devNonce ∧
      AuthenticJoin cfg.E cfg.v11 (d.root cfg.v11) d.devEUI d.joinEUI r.devNonce e.received ja ∧
      (cfg.version ≠ .v103 → n.joinNonce ≤ ja.joinNonce) ∧
      a = ja.joinNonce + 1 ∧ b = ja.netID ∧ x = ja.devAddr ∧
      (step cfg m e c).1.ctx = joinSession cfg m (downOfJoinAccept ja) (ja.encode ++ tail) ∧
      (step cfg m e c).1.keys =
        (Ops.deriveKeys cfg { m with ctx := joinSession cfg m (downOfJoinAccept ja) (ja.encode ++ tail) }).keys := by
  obtain ⟨h1, h2⟩ := h.inv hE
  have h3 := h.joinInv hE
  have hjw : ∃ f buf, JoinsWith cfg e m c f buf ∧ a = u32 (f.joinNonce + 1) ∧ b = f.netID ∧ x = f.devAddr := by
    obtain ⟨l, q1, q2⟩ := step_emits cfg e m c
    have hm : Event.joinComplete a b x ∈ l := by unfold newEvents at hev; rwa [q1, List.drop_left] at hev
    have := q2 _ hm
    generalize hz : Event.joinComplete a b x = ev at this
    cases this with
    | joinComplete f buf ha ht =>
      injection hz with z1 z2 z3
      exact ⟨f, buf, ⟨rfl, ha, (accepts_type ha).resolve_right ht⟩, z1, z2, z3⟩
    | info f buf ha ev hi => rw [← hz] at hi; exact hi.elim
    | _ => cases hz
  obtain ⟨f, buf, hjw, z1, z2, z3⟩ := hjw
  obtain ⟨hc, hop, hrx, ja, hau, hfresh, hf, tail, _, hbuf⟩ := (joinsWith_iff hE h e c f buf).1 hjw
  obtain ⟨phy, r, g1, g2, g3, g4, g5⟩ := awaiting h1 h3 hop hrx.1
  have hk := step_keys cfg e m c h3.unjoined
  have hctx : (step cfg m e c).1.ctx = joinSession cfg m (downOfJoinAccept ja) buf ∧
      (step cfg m e c).1.keys = (Ops.deriveKeys cfg { m with ctx := joinSession cfg m (downOfJoinAccept ja) buf }).keys := by
    cases hk with
    | join f' buf' hj' hc' hk' ho' hev' =>
      have := hj'.2.1.2.2.2.symm.trans hjw.2.1.2.2.2
      simp only [Prod.mk.injEq, Option.some.injEq] at this
      obtain ⟨t1, t2⟩ := this
      subst t1 t2
      rw [← hf]
      exact ⟨hc', hk'⟩
    | quiet q _ =>
      exfalso
      obtain ⟨o, s1, s2⟩ := step_joinNonce cfg e m c
      have hon : newEvents m (step cfg m e c).1 = o := newEvents_append s1
      rcases s2 with ⟨_, _, s2⟩ | ⟨f', buf', _, _, s3, _⟩
      · exact s2 f buf hjw
      · subst hc
        have hq := q.ident
        obtain ⟨lag, y, p, t, hp, hy⟩ := receiving (cfg := cfg) hrx
        rw [hjw.2.1.2.2.2] at hy
        simp only [] at hy
        rw [if_neg (by rw [hjw.2.2]; decide)] at hy
        obtain ⟨_, _, _, _, _, _, hs⟩ := joinAccepted_shape cfg (packetState e y) f buf
        have : (step cfg m e .process).1.ctx.joined = true := by
          show (process cfg e m).ctx.joined = true
          rw [hy]
          show (joinAccepted cfg (packetState e y) f buf).ctx.joined = true
          rw [hs]
        have := (hq this).1
        rw [h3.unjoined hop] at this
        cases this
    | abp a' hc' _ _ => rw [hc] at hc'; cases hc'
    | otaa hc' _ _ _ _ => rw [hc] at hc'; cases hc'
  refine ⟨hc, hop, hrx, phy, r, ja, tail, g1, g2, g3, g4, g5, by rw [g5]; exact hau, hfresh, ?_, ?_, ?_, by rw [← hbuf]; exact hctx.1,
    by rw [← hbuf]; exact hctx.2⟩
  · rw [z1, hf]
    show u32 (ja.joinNonce + 1) = _
    have := hau.wf.joinNonce
    unfold u32; omega
  · rw [z2, hf]; rfl
  · rw [z3, hf]; rfl

/-- What a reported join means. -/
theorem join_event {cfg : Cfg} (hE : ∀ k, BlockFn (cfg.E k)) {d : Device} {m : Mac} {n : Nvm} {log : List (Nvm × Event)}
    (h : Life cfg d m n log) (e : Env) (c : Call) (a b x : Nat)
    (hev : .joinComplete a b x ∈ newEvents m (step cfg m e c).1) :
    c = .process ∧ m.op = .joining ∧ Receiving m e ∧ ∃ phy r ja, lastSent log = some phy ∧
      parseJoinRequest phy = some r ∧ r.joinEUI = d.joinEUI ∧ r.devEUI = d.devEUI ∧
      AuthenticJoin cfg.E cfg.v11 (d.root cfg.v11) d.devEUI d.joinEUI r.devNonce e.received ja ∧
      (cfg.version ≠ .v103 → n.joinNonce ≤ ja.joinNonce) ∧
      a = ja.joinNonce + 1 ∧ b = ja.netID ∧ x = ja.devAddr ∧
      (step cfg m e c).1.ctx.joined = true ∧ (step cfg m e c).1.ctx.devAddr = ja.devAddr ∧
      (step cfg m e c).1.ctx.netID = ja.netID ∧ (step cfg m e c).1.ctx.joinNonce = ja.joinNonce ∧
      (step cfg m e c).1.ctx.devNonce = r.devNonce ∧
      sess11 cfg (step cfg m e c).1 = (cfg.v11 && ja.optNeg) ∧
      deviceKeys cfg (step cfg m e c).1 = sessionKeys cfg.E (cfg.v11 && ja.optNeg) d.appKey (d.root cfg.v11) ja.joinNonce
        ja.netID d.joinEUI r.devNonce := by
  obtain ⟨h1, h2⟩ := h.inv hE
  have h3 := h.joinInv hE
  obtain ⟨hc, hop, hrx, phy, r, ja, tail, g1, g2, g3, g4, g5, hau, hfresh, z1, z2, z3, hctx, hkeys⟩ :=
    join_ctx hE h e c a b x hev
  generalize ja.encode ++ tail = buf at hctx hkeys
  have hjf := joinSession_facts (cfg := cfg) m ja buf
  simp only [] at hjf
  obtain ⟨f1, f2, f3, f4, f5, f6⟩ := hjf
  have hj8 : m.joinEUI.length = 8 := by rw [h2.ids.1]; exact h1.arg.joinEUI
  have hd := (deriveKeys_spec cfg { m with ctx := joinSession cfg m (downOfJoinAccept ja) buf } hj8).1
    (fun hv => by
      show (joinSession cfg m (downOfJoinAccept ja) buf).version ≤ 1
      rw [f6 hv]; split <;> omega)
  have hs11 : ∀ y : Mac, y.ctx = joinSession cfg m (downOfJoinAccept ja) buf → sess11 cfg y = (cfg.v11 && ja.optNeg) := by
    intro y hy
    unfold sess11 sessVersion
    cases hv : cfg.v11 with
    | false => rfl
    | true =>
      rw [if_pos rfl, hy, f6 hv]
      cases ja.optNeg <;> rfl
  refine ⟨hc, hop, hrx, phy, r, ja, g1, g2, g3, g4, hau, hfresh, z1, z2, z3, ?_, ?_, ?_, ?_, ?_,
    hs11 _ hctx, ?_⟩
  · rw [hctx]; exact f1
  · rw [hctx]; exact f2
  · rw [hctx]; exact f3
  · rw [hctx]; exact f4
  · rw [hctx, f5, g5]
  · have e1 : deviceKeys cfg (step cfg m e c).1 =
        deviceKeys cfg (Ops.deriveKeys cfg { m with ctx := joinSession cfg m (downOfJoinAccept ja) buf }) := by
      unfold deviceKeys; rw [hkeys]
    rw [e1, hd]
    show sessionKeys cfg.E (sess11 cfg { m with ctx := joinSession cfg m (downOfJoinAccept ja) buf })
      (Sm.key cfg m.keys .app) (Sm.key cfg m.keys .nwk) (joinSession cfg m (downOfJoinAccept ja) buf).joinNonce
      (joinSession cfg m (downOfJoinAccept ja) buf).netID m.joinEUI (joinSession cfg m (downOfJoinAccept ja) buf).devNonce = _
    rw [hs11 _ rfl, f4, f3, f5, h3.nwk, h2.ids.1, g5]
    cases hv : cfg.v11 with
    | false => rfl
    | true => rw [h3.app hv]

/-- **C15** for joining: JOIN_COMPLETE is reported only for a packet that is, octet for octet, a join accept with the MIC
of the specification under the root key of the device, in answer to the join request last transmitted, and (1.0.4, 1.1)
with a JoinNonce not below the stored one; and what is reported is what the join accept says. -/
theorem c15_join {cfg : Cfg} (hE : ∀ k, BlockFn (cfg.E k)) {d : Device} {m : Mac} {n : Nvm} {log : List (Nvm × Event)}
    (h : Life cfg d m n log) (e : Env) (c : Call) (a b x : Nat)
    (hev : .joinComplete a b x ∈ newEvents m (step cfg m e c).1) :
    c = .process ∧ ∃ phy r ja, lastSent log = some phy ∧ parseJoinRequest phy = some r ∧
      AuthenticJoin cfg.E cfg.v11 (d.root cfg.v11) d.devEUI d.joinEUI r.devNonce e.received ja ∧
      (cfg.version ≠ .v103 → n.joinNonce ≤ ja.joinNonce) ∧
      a = ja.joinNonce + 1 ∧ b = ja.netID ∧ x = ja.devAddr := by
  obtain ⟨h1, _, _, phy, r, ja, h2, h3, _, _, h4, h5, h6, h7, h8, _⟩ := join_event hE h e c a b x hev
  exact ⟨h1, phy, r, ja, h2, h3, h4, h5, h6, h7, h8⟩

/-- **C15** for joining: any other packet received while joining leaves the device not joined, with the same keys and
join nonce, and nothing is reported as received. -/
theorem c15_join_rejected {cfg : Cfg} (hE : ∀ k, BlockFn (cfg.E k)) {d : Device} {m : Mac} {n : Nvm}
    {log : List (Nvm × Event)} (h : Life cfg d m n log) (ho : m.op = .joining) (e : Env)
    (hbad : ∀ phy r ja, lastSent log = some phy → parseJoinRequest phy = some r →
      AuthenticJoin cfg.E cfg.v11 (d.root cfg.v11) d.devEUI d.joinEUI r.devNonce e.received ja →
      cfg.version ≠ .v103 ∧ ja.joinNonce < n.joinNonce) :
    (∀ ev ∈ newEvents m (step cfg m e .process).1, ¬ FromNetwork ev) ∧
    (step cfg m e .process).1.ctx.joined = false ∧ (step cfg m e .process).1.keys = m.keys ∧
    (step cfg m e .process).1.joinNonce = m.joinNonce := by
  obtain ⟨h1, h2⟩ := h.inv hE
  have h3 := h.joinInv hE
  have hnone : ∀ f buf, ¬ JoinsWith cfg e m .process f buf := by
    intro f buf hj
    obtain ⟨_, hop, hrx, ja, hau, hfresh, _⟩ := (joinsWith_iff hE h e _ f buf).1 hj
    obtain ⟨phy, r, g1, g2, g3, g4, g5⟩ := awaiting h1 h3 hop hrx.1
    obtain ⟨b1, b2⟩ := hbad phy r ja g1 g2 (by rw [g5]; exact hau)
    have := hfresh b1
    omega
  have hdata : ∀ f buf, ¬ AcceptsData cfg e m f buf := by
    rintro f buf ⟨⟨_, _, _, ha⟩, ht⟩
    rcases receiveFrame_cases (received_length e) (by rw [rxBuffer_length]; exact received_length e) ha with
      ⟨hy, _⟩ | ⟨_, hop, _⟩
    · rw [hy] at ht; revert ht; decide
    · rw [ho] at hop; simp at hop
  refine ⟨?_, ?_, ?_, ?_⟩
  · intro ev hev hf
    obtain ⟨l, q1, q2⟩ := step_emits cfg e m .process
    have hm : ev ∈ l := by rwa [newEvents_append q1] at hev
    have := q2 _ hm
    cases this with
    | joinComplete f buf ha ht => exact hnone f buf ⟨rfl, ha, (accepts_type ha).resolve_right ht⟩
    | info f buf ha ev hi => exact hdata f buf ha
    | rx f buf ha => exact hdata f buf ha
    | _ => exact hf.elim
  · cases step_keys cfg e m .process h3.unjoined with
    | quiet q _ =>
      cases hj : (step cfg m e .process).1.ctx.joined with
      | false => rfl
      | true => have := (q.ident hj).1; rw [h3.unjoined ho] at this; cases this
    | abp a hc _ _ => cases hc
    | otaa hc _ _ _ _ => cases hc
    | join f buf hj _ _ _ _ => exact absurd hj (hnone f buf)
  · cases step_keys cfg e m .process h3.unjoined with
    | quiet q _ => exact q.keys
    | abp a hc _ _ => cases hc
    | otaa hc _ _ _ _ => cases hc
    | join f buf hj _ _ _ _ => exact absurd hj (hnone f buf)
  · obtain ⟨o, s1, s2⟩ := step_joinNonce cfg e m .process
    rcases s2 with ⟨_, s2, _⟩ | ⟨f', buf', s2, _⟩
    · exact s2
    · exact absurd s2 (hnone _ _)

/-- **C62**: an authentic join accept for the request last transmitted, with a fresh JoinNonce, that arrives in a
receive window while joining is accepted: the device reports JOIN_COMPLETE with its contents. -/
theorem c62_accepted {cfg : Cfg} (hE : ∀ k, BlockFn (cfg.E k)) {d : Device} {m : Mac} {n : Nvm}
    {log : List (Nvm × Event)} (h : Life cfg d m n log) (ho : m.op = .joining) (e : Env) (hrx : Receiving m e)
    (phy : Bytes) (r : JoinRequest) (hp : lastSent log = some phy) (hr : parseJoinRequest phy = some r) (ja : JoinAccept)
    (ha : AuthenticJoin cfg.E cfg.v11 (d.root cfg.v11) d.devEUI d.joinEUI r.devNonce e.received ja)
    (hf : cfg.version ≠ .v103 → n.joinNonce ≤ ja.joinNonce) :
    .joinComplete (ja.joinNonce + 1) ja.netID ja.devAddr ∈ newEvents m (step cfg m e .process).1 ∧
    (step cfg m e .process).1.ctx.joined = true ∧ (step cfg m e .process).1.op = .none := by
  obtain ⟨h1, h2⟩ := h.inv hE
  have h3 := h.joinInv hE
  obtain ⟨phy', r', g1, g2, g3, g4, g5⟩ := awaiting h1 h3 ho hrx.1
  have e1 : phy' = phy := by rw [hp] at g1; injection g1 with g1; exact g1.symm
  subst e1
  have e2 : r' = r := by rw [hr] at g2; injection g2 with g2; exact g2.symm
  subst e2
  obtain ⟨tail, ht⟩ := rxBuffer_eq e
  have hj : JoinsWith cfg e m .process (downOfJoinAccept ja) (ja.encode ++ tail) :=
    (joinsWith_iff hE h e _ _ _).2 ⟨rfl, ho, hrx, ja, by rw [← g5]; exact ha, hf, rfl, tail, ht, rfl⟩
  obtain ⟨o, s1, s2⟩ := step_joinNonce cfg e m .process
  have hmem : Event.joinComplete (ja.joinNonce + 1) ja.netID ja.devAddr ∈ newEvents m (step cfg m e .process).1 := by
    rw [newEvents_append s1]
    rcases s2 with ⟨_, _, s2⟩ | ⟨f', buf', s2, _, s3, _⟩
    · exact absurd hj (s2 _ _)
    · have := s2.2.1.2.2.2.symm.trans hj.2.1.2.2.2
      simp only [Prod.mk.injEq, Option.some.injEq] at this
      rw [this.1] at s3
      have hlt := ha.wf.joinNonce
      have e3 : u32 ((downOfJoinAccept ja).joinNonce + 1) = ja.joinNonce + 1 := by
        show u32 (ja.joinNonce + 1) = _
        unfold u32; omega
      rw [e3] at s3
      exact s3
  refine ⟨hmem, ?_, ?_⟩
  · obtain ⟨_, _, _, _, _, _, _, _, _, _, _, _, _, _, _, hjn, _⟩ := join_event hE h e _ _ _ _ hmem
    exact hjn
  · cases step_keys cfg e m .process h3.unjoined with
    | join f buf hj' hc hk hop hev => exact hop
    | quiet q hr' =>
      exfalso
      obtain ⟨_, _, _, _, _, _, _, _, _, _, _, _, _, _, _, hjn, _⟩ := join_event hE h e _ _ _ _ hmem
      have := (q.ident hjn).1
      rw [h3.unjoined ho] at this
      cases this
    | abp a hc _ _ => cases hc
    | otaa hc _ _ _ _ => cases hc

/-! ## C19 -/

/-- **C19**: a packet carrying the JoinNonce of a join reported at any time in the life of the device, over all
restarts, is not accepted (1.0.4 and 1.1). -/
theorem c19_no_replay {cfg : Cfg} (hE : ∀ k, BlockFn (cfg.E k)) (hv : cfg.version ≠ .v103) {d : Device} {m : Mac} {n : Nvm}
    {log : List (Nvm × Event)} (h : Life cfg d m n log) (e : Env) (c : Call) (ja : JoinAccept) (hw : ja.WF)
    (ho : openJoin (cfg.E (d.root cfg.v11)) e.received = some ja.encode) (hold : ja.joinNonce + 1 ∈ joinNonces log) :
    ∀ a b x, .joinComplete a b x ∉ newEvents m (step cfg m e c).1 := by
  intro a b x hev
  obtain ⟨_, phy, r, ja', _, _, hau, hf, _⟩ := c15_join hE h e c a b x hev
  have hb := (h.inv hE).1.joinBound hv _ hold
  have := hf hv
  have he := hau.opened
  rw [ho] at he
  injection he with he
  have := congrArg Frame.Down.joinNonce (encode_inj hw hau.wf he)
  have : ja.joinNonce = ja'.joinNonce := this
  omega

/-! ## C14 -/

/-- **C14** (derivation): after a join the session keys are those the specification derives from the root keys, the
fields of the join accept and the DevNonce transmitted. -/
theorem c14_join_keys {cfg : Cfg} (hE : ∀ k, BlockFn (cfg.E k)) {d : Device} {m : Mac} {n : Nvm} {log : List (Nvm × Event)}
    (h : Life cfg d m n log) (e : Env) (c : Call) (a b x : Nat)
    (hev : .joinComplete a b x ∈ newEvents m (step cfg m e c).1) :
    ∃ phy r, ∃ ja : JoinAccept, lastSent log = some phy ∧ parseJoinRequest phy = some r ∧
      openJoin (cfg.E (d.root cfg.v11)) e.received = some ja.encode ∧
      (step cfg m e c).1.ctx.devAddr = ja.devAddr ∧ sess11 cfg (step cfg m e c).1 = (cfg.v11 && ja.optNeg) ∧
      deviceKeys cfg (step cfg m e c).1 = sessionKeys cfg.E (cfg.v11 && ja.optNeg) d.appKey (d.root cfg.v11) ja.joinNonce
        ja.netID d.joinEUI r.devNonce := by
  obtain ⟨_, _, _, phy, r, ja, h2, h3, _, _, h4, _, _, _, _, _, h5, _, _, _, h6, h7⟩ := join_event hE h e c a b x hev
  exact ⟨phy, r, ja, h2, h3, h4.opened, h5, h6, h7⟩

/-- Keys of the session, and what is stored of it. -/
structure KeyInv (cfg : Cfg) (d : Device) (m : Mac) (n : Nvm) : Prop where
  version : m.ctx.joined = true → cfg.v11 = true → m.ctx.version ≤ 1
  keys : m.ctx.joined = true → deviceKeys cfg m = sessionKeys cfg.E (sess11 cfg m) d.appKey (d.root cfg.v11)
    m.ctx.joinNonce m.ctx.netID d.joinEUI m.ctx.devNonce
  stored : m.ctx.joined = true → ∃ s, n.session = some s ∧ s.joined = true ∧ s.ident = m.ctx.ident
  back : ∀ s, n.session = some s → s.joined = true → m.ctx.joined = true ∧ s.ident = m.ctx.ident

theorem ident_sess11 {cfg : Cfg} {m m' : Mac} (h : m'.ctx.ident = m.ctx.ident) : sess11 cfg m' = sess11 cfg m := by
  unfold Session.ident at h
  simp only [Prod.mk.injEq] at h
  unfold sess11 sessVersion
  rw [h.1]

theorem KeyInv.boot {cfg : Cfg} {d : Device} {n : Nvm} {log : List (Nvm × Event)} (hn : NInv cfg d n log) (e : Env)
    (hv : ∀ s, n.session = some s → s.joined = true → cfg.v11 = true → s.version ≤ 1) :
    KeyInv cfg d (d.boot cfg n e) n := by
  have hsm := sm_init_nwk cfg d
  obtain ⟨hje, hc⟩ := boot_cases cfg d n e (fun s hs => ⟨(hn.session s hs).1.magic, (hn.session s hs).2.1⟩)
  rcases hc with ⟨s, h1, h2, x, x1, x2, x3, x4⟩ | ⟨h1, h2, h3⟩
  · refine ⟨fun hj h => by rw [h2] at hj ⊢; exact hv s h1 hj h, fun hj => ?_, fun hj => ⟨s, h1, h2 ▸ hj, by rw [h2]⟩,
      fun s' h' hj' => ?_⟩
    · rw [h2] at hj
      have := (deriveKeys_spec cfg x (by rw [x2]; exact hn.arg.joinEUI)).1 (fun h => by rw [x1]; exact hv s h1 hj h)
      have e1 : deviceKeys cfg (d.boot cfg n e) = deviceKeys cfg (Ops.deriveKeys cfg x) := by
        unfold deviceKeys; rw [x4]
      have e2 : sess11 cfg x = sess11 cfg (d.boot cfg n e) := ident_sess11 (by rw [x1, h2])
      rw [e1, this, e2, x1, x2, x3, hsm.1, h2]
      unfold sessionKeys
      split
      · next h =>
        have : cfg.v11 = true := by
          cases hh : cfg.v11 with
          | true => rfl
          | false => unfold sess11 sessVersion at h; rw [hh] at h; cases h
        rw [hsm.2 this]
      · rfl
    · rw [h1] at h'
      injection h' with h'
      subst h'
      rw [h2]
      exact ⟨hj', rfl⟩
  · refine ⟨fun hj => ?_, fun hj => ?_, fun hj => ?_, fun s hs => ?_⟩
    · rw [h2] at hj; cases hj
    · rw [h2] at hj; cases hj
    · rw [h2] at hj; cases hj
    · rw [h1] at hs; cases hs

theorem KeyInv.after {cfg : Cfg} (hE : ∀ k, BlockFn (cfg.E k)) {d : Device} {m : Mac} {n : Nvm} {log : List (Nvm × Event)}
    (h : Life cfg d m n log) (hi : KeyInv cfg d m n) (e : Env) (c : Call) (hc : c.WF) (hna : ∀ a, c ≠ .abp a) :
    KeyInv cfg d (step cfg m e c).1 (n.after (newEvents m (step cfg m e c).1)) := by
  obtain ⟨h1, h2⟩ := h.inv hE
  have h3 := h.joinInv hE
  have hf := (step_effect h2.reach e c hc).part List.prefix_rfl n
  have hforget : c = .forget → (step cfg m e c).1.ctx.joined = m.ctx.joined ∨
      (Event.sessionUpdated (step cfg m e c).1.ctx ∈ newEvents m (step cfg m e c).1 ∧ (step cfg m e c).1.ctx.joined = false) := by
    intro hc; subst hc
    rcases forget_reports m with h | h
    · exact Or.inl h.2
    · exact Or.inr h
  have hstored := hf.stored
  cases step_keys cfg e m c h3.unjoined with
  | quiet q hr =>
    generalize newEvents m (step cfg m e c).1 = o at *
    generalize (step cfg m e c).1 = m' at *
    have hk : deviceKeys cfg m' = deviceKeys cfg m := by unfold deviceKeys; rw [q.keys]
    refine ⟨fun hj hv => ?_, fun hj => ?_, fun hj => ?_, fun s hs hsj => ?_⟩
    · obtain ⟨q1, q2⟩ := q.ident hj
      unfold Session.ident at q2
      simp only [Prod.mk.injEq] at q2
      rw [q2.1]; exact hi.version q1 hv
    · obtain ⟨q1, q2⟩ := q.ident hj
      rw [hk, ident_sess11 q2, hi.keys q1]
      unfold Session.ident at q2
      simp only [Prod.mk.injEq] at q2
      rw [q2.2.1, q2.2.2.1, q2.2.2.2.1]
    · obtain ⟨q1, q2⟩ := q.ident hj
      rcases hstored with ⟨t1, _⟩ | ⟨t1, _⟩
      · obtain ⟨s, s1, s2, s3⟩ := hi.stored q1
        exact ⟨s, t1.trans s1, s2, s3.trans q2.symm⟩
      · exact ⟨_, t1, hj, rfl⟩
    · rcases hstored with ⟨t1, t2⟩ | ⟨t1, _⟩
      · rw [t1] at hs
        obtain ⟨b1, b2⟩ := hi.back s hs hsj
        have hj' : m'.ctx.joined = true := by
          rcases hr b1 with h | h
          · exact h
          · rcases hforget h with h | ⟨h, _⟩
            · rw [h]; exact b1
            · exact absurd h (t2 _)
        exact ⟨hj', b2.trans (q.ident hj').2.symm⟩
      · rw [t1] at hs
        injection hs with hs
        subst hs
        exact ⟨hsj, rfl⟩
  | abp a hc' _ _ => exact absurd hc' (hna a)
  | otaa hc' hj' hj hno hk =>
    generalize newEvents m (step cfg m e c).1 = o at *
    generalize (step cfg m e c).1 = m' at *
    refine ⟨fun hh => ?_, fun hh => ?_, fun hh => ?_, fun s hs hsj => ?_⟩
    · rw [hj'] at hh; cases hh
    · rw [hj'] at hh; cases hh
    · rw [hj'] at hh; cases hh
    · rcases hstored with ⟨t1, t2⟩ | ⟨t1, _⟩
      · rw [t1] at hs
        have := (hi.back s hs hsj).1
        rw [hj] at this; cases this
      · rw [t1] at hs
        injection hs with hs
        subst hs
        exact ⟨hsj, rfl⟩
  | join f buf hj hc' hk ho hev =>
    obtain ⟨o, s1, s2⟩ := step_joinNonce cfg e m c
    rcases s2 with ⟨_, _, s2⟩ | ⟨f', buf', _, _, s3, _⟩
    · exact absurd hj (s2 _ _)
    · rw [← newEvents_append s1] at s3
      obtain ⟨_, _, _, phy, r, ja, _, _, _, _, _, _, _, _, _, j1, j2, j3, j4, j5, j6, j7⟩ := join_event hE h e c _ _ _ s3
      have hv : cfg.v11 = true → (step cfg m e c).1.ctx.version ≤ 1 := by
        intro hv
        rw [hc']
        obtain ⟨_, _, _, ja', _, _, hff, _⟩ := (joinsWith_iff hE h e c f buf).1 hj
        rw [hff, (joinSession_facts m ja' buf).2.2.2.2.2 hv]
        split <;> omega
      have hst : (n.after (newEvents m (step cfg m e c).1)).session = some (step cfg m e c).1.ctx := by
        rcases hstored with ⟨_, t2⟩ | ⟨t1, _⟩
        · exact absurd hev (t2 _)
        · exact t1
      refine ⟨fun _ => hv, fun _ => ?_, fun hh => ⟨_, hst, hh, rfl⟩, fun s hs hsj => ?_⟩
      · rw [j7, j6, j4, j3, j5]
      · rw [hst] at hs
        injection hs with hs
        subst hs
        exact ⟨hsj, rfl⟩

theorem Spec.OtaaLife.keyInv {cfg : Cfg} (hE : ∀ k, BlockFn (cfg.E k)) {d : Device} {m : Mac} {n : Nvm}
    {log : List (Nvm × Event)} (h : OtaaLife cfg d m n log) : KeyInv cfg d m n := by
  induction h with
  | first n e hn ha => exact .boot (.first hn ha) e (fun s hs => by rw [hn] at hs; cases hs)
  | call h e c hc hp hna ih => exact ih.after hE h.life e c hc hna
  | @crash m n log h e c hc hp hna k e' ih =>
    have hl := (OtaaLife.crash h e c hc hp hna k e').life.inv hE
    refine .boot hl.1 e' ?_
    intro s hs hsj hv
    have ih' := ih.after hE h.life e c hc hna
    obtain ⟨h1, h2⟩ := h.life.inv hE
    have hf := (step_effect h2.reach e c hc).part (List.take_prefix k _) n
    change (n.after (List.take k (LDL.newEvents m (step cfg m e c).1))).session = some s at hs
    rcases hf.stored with ⟨t1, _⟩ | ⟨t1, _⟩
    · rw [t1] at hs
      obtain ⟨b1, b2⟩ := ih.back s hs hsj
      unfold Session.ident at b2
      simp only [Prod.mk.injEq] at b2
      rw [b2.1]; exact ih.version b1 hv
    · rw [t1] at hs
      injection hs with hs
      subst hs
      exact ih'.version hsj hv

/-- **C14** (at all times): in a life without personalisation the session keys of a joined device are always those the
specification derives from the root keys and the fields of the session. -/
theorem c14_keys {cfg : Cfg} (hE : ∀ k, BlockFn (cfg.E k)) {d : Device} {m : Mac} {n : Nvm} {log : List (Nvm × Event)}
    (h : OtaaLife cfg d m n log) (hj : m.ctx.joined = true) :
    deviceKeys cfg m = sessionKeys cfg.E (sess11 cfg m) d.appKey (d.root cfg.v11) m.ctx.joinNonce m.ctx.netID d.joinEUI
      m.ctx.devNonce := (h.keyInv hE).keys hj

/-- **C14** (reproducible): a restart of a joined device from what is in storage gives back the same session keys,
address and protocol version. -/
theorem c14_restart {cfg : Cfg} (hE : ∀ k, BlockFn (cfg.E k)) {d : Device} {m : Mac} {n : Nvm} {log : List (Nvm × Event)}
    (h : OtaaLife cfg d m n log) (hj : m.ctx.joined = true) (e : Env) :
    (d.boot cfg n e).ctx.joined = true ∧ (d.boot cfg n e).ctx.devAddr = m.ctx.devAddr ∧
    sess11 cfg (d.boot cfg n e) = sess11 cfg m ∧ deviceKeys cfg (d.boot cfg n e) = deviceKeys cfg m := by
  have hi := h.keyInv hE
  obtain ⟨s, s1, s2, s3⟩ := hi.stored hj
  have hb : KeyInv cfg d (d.boot cfg n e) n := .boot (h.life.inv hE).1 e (by
    intro s' hs' hj' hv
    obtain ⟨b1, b2⟩ := hi.back s' hs' hj'
    unfold Session.ident at b2
    simp only [Prod.mk.injEq] at b2
    rw [b2.1]; exact hi.version b1 hv)
  obtain ⟨b1, b2⟩ := hb.back s s1 s2
  have hid : (d.boot cfg n e).ctx.ident = m.ctx.ident := b2.symm.trans s3
  have h11 := ident_sess11 (cfg := cfg) hid
  refine ⟨b1, ?_, h11, ?_⟩
  · unfold Session.ident at hid
    simp only [Prod.mk.injEq] at hid
    exact hid.2.2.2.2
  · rw [hb.keys b1, hi.keys hj, h11]
    unfold Session.ident at hid
    simp only [Prod.mk.injEq] at hid
    rw [hid.2.1, hid.2.2.1, hid.2.2.2.1]

/-- In such a life the keys of a 1.0 session are as C15 to C17 suppose. -/
theorem Spec.OtaaLife.keysOk {cfg : Cfg} (hE : ∀ k, BlockFn (cfg.E k)) {d : Device} {m : Mac} {n : Nvm}
    {log : List (Nvm × Event)} (h : OtaaLife cfg d m n log) (hj : m.ctx.joined = true) : KeysOk cfg m := by
  intro h0
  rw [c14_keys hE h hj, h0]
  rfl

/-! ## Examples -/

namespace Demo

/-- Boot, join without answer, boot again, join, wait in the first receive window. -/
def untilAnswer : List Happens :=
  calls (boot ++ joining 20000 ++ txDone 1600000) ++ [.crash (at_ 1700000) .process 0 (at_ 0)] ++
  calls (boot ++ joining 20000 ++ txDone 1600000 ++ processAt [6600000, 6602000] ++ [(at_ 6700000, .radioEvent 6700000)])

theorem live_otaa {cfg : Cfg} {d : Device} (l : List Happens)
    (hl : ∀ x ∈ l, x.ok ∧ match x with | .call _ (.abp _) => False | .crash _ (.abp _) _ _ => False | _ => True) {s : Alive}
    (h : OtaaLife cfg d s.m s.n s.log) : OtaaLife cfg d (live cfg d s l).m (live cfg d s l).n (live cfg d s l).log := by
  induction l generalizing s with
  | nil => exact h
  | cons x l ih =>
    refine ih (fun y hy => hl y (by simp [hy])) ?_
    obtain ⟨hx, hy⟩ := hl x (by simp)
    cases x with
    | call e c => exact .call h e c hx.1 hx.2 (by rintro a rfl; exact hy)
    | crash e c k e' => exact .crash h e c hx.1 hx.2 (by rintro a rfl; exact hy) k e'

theorem newborn_otaa : OtaaLife cfg device newborn.m newborn.n newborn.log :=
  .first {} (at_ 0) rfl ⟨rfl, rfl, rfl, rfl, by decide, by decide⟩

def waiting : Alive := live cfg device newborn untilAnswer

theorem waiting_life : OtaaLife cfg device waiting.m waiting.n waiting.log := by
  refine live_otaa _ ?_ newborn_otaa
  have h : ∀ x ∈ untilAnswer, x.ok := by decide +kernel
  have h2 : (untilAnswer.all fun x => match x with | .call _ (.abp _) => false | .crash _ (.abp _) _ _ => false | _ => true) = true := by
    decide +kernel
  rw [List.all_eq_true] at h2
  intro x hx
  refine ⟨h x hx, ?_⟩
  have := h2 x hx
  revert this
  cases x with
  | call e c => cases c <;> simp
  | crash e c k e' => cases c <;> simp

/-- The join accept of the demonstration. -/
def answer : JoinAccept :=
  { joinNonce := 5, netID := 1, devAddr := 7, optNeg := false, rx1DROffset := 0, rx2DataRate := 0, rxDelay := 1
    cfList := none, mic := 1312 }

/-- The call in which it is received. -/
def arrival : Env := { now := 6700000, statusRx := true, packet := joinAccept, snr := 5 }

/-- The hypotheses of C62 and C15 can be met: the device waits for the answer to its second request, with DevNonce 1, and
the packet is authentic. -/
example : waiting.m.op = .joining ∧ Receiving waiting.m arrival ∧
    ((lastSent waiting.log).bind parseJoinRequest).map JoinRequest.devNonce = some 1 ∧ waiting.n.joinNonce = 0 ∧
    openJoin (cfg.E (device.root cfg.v11)) arrival.received = some answer.encode ∧
    answer.mic = joinAcceptMic cfg.E cfg.v11 (device.root cfg.v11) (jsIntKey cfg.E (device.root cfg.v11) device.devEUI)
      device.joinEUI 1 answer := by
  unfold Receiving
  decide +kernel

example : answer.WF := by
  constructor <;> first | decide | trivial

/-- The join, reported. -/
theorem reported : (newEvents waiting.m (step cfg waiting.m arrival .process).1).any (fun
    | .joinComplete 6 1 7 => true
    | _ => false) = true := by decide +kernel

/-- A restart after it: the keys are not trivial. -/
def resumed : Alive := live cfg device waiting [.call arrival .process, .crash (at_ 6800000) .process 0 (at_ 0)]

example : resumed.m.ctx.joined = true ∧ (deviceKeys cfg resumed.m).fNwkSInt = [1, 5, 0, 0, 1, 0, 0, 1, 0, 0, 0, 0, 0, 0, 0, 0] ∧
    (deviceKeys cfg resumed.m).appS = [2, 5, 0, 0, 1, 0, 0, 1, 0, 0, 0, 0, 0, 0, 0, 0] ∧ resumed.m.ctx.devAddr = 7 := by
  decide +kernel

/-- The hypotheses of C19: the JoinNonce has been reported, and the same octets arrive again later. -/
example : 5 + 1 ∈ joinNonces resumed.log := by decide +kernel

/-- With LoRaWAN 1.1 and OptNeg set. -/
def waiting11 : Alive := live cfg11 device ⟨device.boot cfg11 {} (at_ 0), {}, []⟩ untilAnswer

def answer11 : JoinAccept := { answer with optNeg := true, mic := 0 }

def mic11 : Nat := joinAcceptMic cfg11.E true (device.root true) (jsIntKey cfg11.E (device.root true) device.devEUI)
      device.joinEUI 1 answer11

def arrival11 : Env := { arrival with packet := { answer11 with mic := mic11 }.encode }

example : (newEvents waiting11.m (step cfg11 waiting11.m arrival11 .process).1).any (fun
    | .joinComplete 6 1 7 => true
    | _ => false) = true ∧
    sess11 cfg11 (step cfg11 waiting11.m arrival11 .process).1 = true ∧
    (deviceKeys cfg11 (step cfg11 waiting11.m arrival11 .process).1).nwkSEnc =
      [4, 5, 0, 0, 1, 1, 1, 1, 1, 1, 1, 1, 1, 0, 0, 0] := by decide +kernel

end Demo

/-- C14 is about joined devices.  After activation by personalisation the keys are not reproduced: the restart derives
session keys from the root keys in place of those the device used. -/
theorem c14_abp_lost : ∃ m n log, Life Demo.cfg Demo.device m n log ∧ m.ctx.joined = true ∧
    (Demo.device.boot Demo.cfg n (Demo.at_ 0)).ctx.joined = true ∧
    (deviceKeys Demo.cfg (Demo.device.boot Demo.cfg n (Demo.at_ 0))).appS ≠ (deviceKeys Demo.cfg m).appS :=
  ⟨_, _, _, Demo.live_life (Demo.calls (Demo.boot ++ [(Demo.at_ 20000, .abp 1), Demo.send true 30000]))
    (by decide +kernel) Demo.newborn_life, by decide +kernel, by decide +kernel, by decide +kernel⟩

end LDL
