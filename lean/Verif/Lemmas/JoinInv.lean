import Verif.Lemmas.KeyStep

/-!
# Keys over the life of a device
-/

namespace LDL
open Spec

/-- What holds of keys and join requests between calls. -/
structure JoinInv (cfg : Cfg) (d : Device) (m : Mac) (log : List (Nvm × Event)) : Prop where
  nwk : Sm.key cfg m.keys .nwk = d.root cfg.v11
  app : cfg.v11 = true → Sm.key cfg m.keys .app = d.appKey
  js : cfg.v11 = true → m.op = .joining → Sm.key cfg m.keys .jsInt = jsIntKey cfg.E (d.root cfg.v11) d.devEUI
  unjoined : m.op = .joining → m.ctx.joined = false
  frame : m.op = .joining → ∃ r : JoinRequest, r.joinEUI = d.joinEUI ∧ r.devEUI = d.devEUI ∧ r.mic < 2 ^ 32 ∧
    r.devNonce < 65536 ∧ r.devNonce = m.ctx.devNonce ∧ m.frame = r.encode
  sent : m.op.isTx → afterTx m.state = true → lastSent log = some m.frame

theorem sm_init_nwk (cfg : Cfg) (d : Device) : Sm.key cfg (Sm.init cfg d.appKey d.nwkKey) .nwk = d.root cfg.v11 ∧
    (cfg.v11 = true → Sm.key cfg (Sm.init cfg d.appKey d.nwkKey) .app = d.appKey) := by
  unfold Sm.key Sm.init Device.root
  cases h : cfg.v11 <;> simp [Sm.slot, h, upd]

/-- The state after power on. -/
theorem boot_cases (cfg : Cfg) (d : Device) (n : Nvm) (e : Env)
    (hs : ∀ s, n.session = some s → s.magic = magicNumber ∧ s.region = d.region) :
    (d.boot cfg n e).joinEUI = d.joinEUI ∧
    ((∃ s, n.session = some s ∧ (d.boot cfg n e).ctx = s ∧ ∃ x : Mac, x.ctx = s ∧ x.joinEUI = d.joinEUI ∧
        x.keys = Sm.init cfg d.appKey d.nwkKey ∧ (d.boot cfg n e).keys = (Ops.deriveKeys cfg x).keys) ∨
     (n.session = none ∧ (d.boot cfg n e).ctx.joined = false ∧
        (d.boot cfg n e).keys = Sm.init cfg d.appKey d.nwkKey)) := by
  obtain ⟨c, k, h, hc⟩ := init_fields cfg d.region (d.arg n) e
  have h' : d.boot cfg n e = _ := h
  refine ⟨by rw [h']; rfl, ?_⟩
  rcases Option.eq_none_or_eq_some n.session with hn | ⟨s, hn⟩
  · right
    rcases hc with ⟨s, h1, _⟩ | ⟨_, h2, h3⟩
    · have h1 : n.session = some s := h1
      rw [hn] at h1; cases h1
    · refine ⟨hn, ?_, by rw [h', h3]; rfl⟩
      rw [h']
      show c.joined = false
      rw [h2]
      unfold initSession
      simp only []
      rw [(forgetNetwork_facts _).2.1]
  · left
    obtain ⟨h1, h2⟩ := hs s hn
    unfold Device.boot init
    simp only []
    rw [show (d.arg n).session = some s from hn]
    simp only []
    rw [if_pos h1, if_pos h2]
    refine ⟨s, hn, ?_, _, ?_, ?_, ?_, rfl⟩
    · obtain ⟨k, hk⟩ := deriveKeys_shape cfg { initSession cfg _ d.region with ctx := s }
      rw [hk]
    · rfl
    · unfold initSession; rfl
    · unfold initSession; rfl

theorem JoinInv.boot {cfg : Cfg} {d : Device} {n : Nvm} {log : List (Nvm × Event)} (hn : NInv cfg d n log) (e : Env) :
    JoinInv cfg d (d.boot cfg n e) log := by
  obtain ⟨_, hop, _⟩ := init_opOk cfg d.region (d.arg n) e
  have hop : (d.boot cfg n e).op = .none := hop
  have hsm := sm_init_nwk cfg d
  have hk : Sm.key cfg (d.boot cfg n e).keys .nwk = d.root cfg.v11 ∧
      (cfg.v11 = true → Sm.key cfg (d.boot cfg n e).keys .app = d.appKey) := by
    rcases (boot_cases cfg d n e (fun s hs => ⟨(hn.session s hs).1.magic, (hn.session s hs).2.1⟩)).2 with
      ⟨s, _, _, x, x1, x2, x3, x4⟩ | ⟨_, _, h⟩
    · have := (deriveKeys_spec cfg x (by rw [x2]; exact hn.arg.joinEUI)).2.1
      rw [x4]
      exact ⟨by rw [this.nwk, x3]; exact hsm.1, fun h => by rw [this.app, x3]; exact hsm.2 h⟩
    · rw [h]; exact hsm
  exact ⟨hk.1, hk.2, fun _ h => by simp [hop] at h, fun h => by simp [hop] at h, fun h => by simp [hop] at h,
    fun h => by simp [hop, Op.isTx] at h⟩

theorem lastSent_stamps (log : List (Nvm × Event)) (n : Nvm) (l : List Event) :
    lastSent (log ++ stamps n l) = match (transmissions l).getLast? with
      | some x => some x.2
      | none => lastSent log := by
  have h : ∀ n, (stamps n l).filterMap sentIn =
      (transmissions l).map Prod.snd := by
    induction l with
    | nil => intro n; rfl
    | cons x l ih =>
      intro n
      have := ih (n.store x)
      cases x
      case transmit t s b =>
        show List.filterMap _ ((n, Event.transmit t s b) :: stamps (n.store (.transmit t s b)) l) = _
        unfold transmissions Spec.transmitted at *
        rw [List.filterMap_cons, this]
        rfl
      all_goals exact this
  unfold lastSent
  rw [List.filterMap_append, h, List.getLast?_append, List.getLast?_map]
  cases (transmissions l).getLast? <;> rfl

theorem nextJoinRequest_nonce (cfg : Cfg) (e : Env) (m : Mac) :
    (nextJoinRequest cfg e m).ctx.devNonce = nonceFor cfg e m.devNonce := by
  unfold nextJoinRequest fillJoinBuffer nonceFor
  rfl

theorem JoinInv.after {cfg : Cfg} (hE : ∀ k, BlockFn (cfg.E k)) {d : Device} {m : Mac} {n : Nvm} {log : List (Nvm × Event)}
    (hn : NInv cfg d n log) (ha : Agree cfg d m n log) (hi : JoinInv cfg d m log) (e : Env) (c : Call) :
    JoinInv cfg d (step cfg m e c).1 (log ++ stamps n (newEvents m (step cfg m e c).1)) := by
  have hk := step_keys cfg e m c hi.unjoined
  obtain ⟨o, h1, h2, h3⟩ := step_does cfg e m c ha.reach.reach.opOk
  have hnew : newEvents m (step cfg m e c).1 = o := by unfold newEvents; rw [h1, List.drop_left]
  rw [hnew]
  have hbuf := ha.reach.bufOk hE
  have hls := lastSent_stamps log n o
  generalize (step cfg m e c).1 = m' at *
  have hroot : SameRoots cfg m.keys m'.keys := by
    cases hk with
    | quiet h _ => exact ⟨by rw [h.keys], by rw [h.keys]⟩
    | abp a hc hk _ => exact ⟨by rw [hk], by rw [hk]⟩
    | otaa hc hj hj' hno hk => rw [hk]; exact (deriveJoinKeys_spec cfg m (by rw [ha.ids.2]; exact hn.arg.devEUI)).1
    | join f buf hj hc hk ho hev =>
      rw [hk]
      exact (deriveKeys_spec cfg { m with ctx := joinSession cfg m f buf } (by
        show m.joinEUI.length = 8
        rw [ha.ids.1]; exact hn.arg.joinEUI)).2.1
  refine ⟨hroot.nwk.trans hi.nwk, fun h => hroot.app.trans (hi.app h), ?_, ?_, ?_, ?_⟩
  · intro hv ho
    cases hk with
    | quiet h _ => rw [h.keys]; exact hi.js hv (h.op ho)
    | abp a hc hk ho' => rw [ho'] at ho; cases ho
    | otaa hc hj hj' hno hk =>
      rw [hk, (deriveJoinKeys_spec cfg m (by rw [ha.ids.2]; exact hn.arg.devEUI)).2 hv, hi.nwk, ha.ids.2]
    | join f buf hj hc hk ho' hev => rw [ho'] at ho; cases ho
  · intro ho
    cases hk with
    | quiet h _ =>
      cases hjn : m'.ctx.joined with
      | false => rfl
      | true =>
        have := (h.ident hjn).1
        rw [hi.unjoined (h.op ho)] at this
        cases this
    | abp a hc hk ho' => rw [ho'] at ho; cases ho
    | otaa hc hj hj' hno hk => exact hj
    | join f buf hj hc hk ho' hev => rw [ho'] at ho; cases ho
  · intro ho
    have hnew : NewRequest cfg e m m' → ∃ r : JoinRequest, r.joinEUI = d.joinEUI ∧ r.devEUI = d.devEUI ∧ r.mic < 2 ^ 32 ∧
        r.devNonce < 65536 ∧ r.devNonce = m'.ctx.devNonce ∧ m'.frame = r.encode := by
      intro hr
      have hf := (hr.frame hE hbuf).2.2
      obtain ⟨x, x1, _, _, _, _, _, _, _, _, _, _, _, x12, _⟩ := hr.made
      refine ⟨_, ha.ids.1, ha.ids.2, micOf_lt _, ?_, ?_, hf⟩
      · show nonceFor cfg e m.devNonce < 65536
        unfold nonceFor u16
        split <;> omega
      · show nonceFor cfg e m.devNonce = _
        rw [x12, nextJoinRequest_nonce, x1]
    have hold : Keep m m' → m'.buffer = m.buffer → ∃ r : JoinRequest, r.joinEUI = d.joinEUI ∧ r.devEUI = d.devEUI ∧
        r.mic < 2 ^ 32 ∧ r.devNonce < 65536 ∧ r.devNonce = m'.ctx.devNonce ∧ m'.frame = r.encode := by
      intro hkp hb
      have hoj : m.op = .joining := by rw [← hkp.op]; exact ho
      obtain ⟨r, r1, r2, r3, r4, r5, r6⟩ := hi.frame hoj
      have hnn : m'.ctx.devNonce = m.ctx.devNonce := by
        cases hk with
        | quiet h _ => exact h.nonce hkp.devNonce ho
        | abp a hc hk ho' => rw [ho'] at ho; cases ho
        | otaa hc hj hj' hno hk =>
          rw [hno] at hoj; cases hoj
        | join f buf hj hc hk ho' hev => rw [ho'] at ho; cases ho
      exact ⟨r, r1, r2, r3, r4, r5.trans hnn.symm, (hkp.frame hb).trans r6⟩
    generalize transmissions o = tr at h2
    generalize nonceReports o = nr at h2
    cases h2 with
    | idle _ ho' _ => rcases ho' with h | h <;> rw [h] at ho <;> cases ho
    | keep _ hkp _ hb _ => exact hold hkp hb
    | ended _ ho' _ => rw [ho'] at ho; cases ho
    | sent _ _ _ _ hkp _ hb => exact hold hkp hb
    | repeated hd _ _ _ hkp _ _ _ => rw [hkp.op] at ho; rw [ho] at hd; simp at hd
    | request _ _ _ hr _ _ => exact hnew hr
    | join _ _ _ hr _ _ => exact hnew hr
    | send hno confirmed port data len opts hc hj hp hg freq ch rate hsel hl hm' hs' ht =>
      cases hk with
      | quiet h _ => have := h.op ho; rw [hno] at this; cases this
      | abp a hc' _ _ => rw [hc] at hc'; cases hc'
      | otaa hc' _ _ _ _ => rw [hc] at hc'; cases hc'
      | join f buf hj' _ _ _ _ => have := hj'.1; rw [hc] at this; cases this
  · intro ho ha'
    rw [hls]
    generalize transmissions o = tr at h2
    generalize nonceReports o = nr at h2
    cases h2 with
    | idle _ ho' _ => exact absurd ho (isTx_not ho')
    | keep hot hkp _ hb hl =>
      rw [hkp.frame hb]
      exact hi.sent hot (hl ▸ ha')
    | ended _ ho' _ => exact absurd ho (isTx_not (Or.inl ho'))
    | sent _ _ _ _ hkp _ hb =>
      rw [hkp.frame hb]
      rfl
    | repeated _ _ _ hs _ _ _ _ => rw [hs] at ha'; cases ha'
    | request _ _ _ hr _ _ => rw [hr.state] at ha'; cases ha'
    | join _ _ _ hr _ _ => rw [hr.state] at ha'; cases ha'
    | send _ _ _ _ _ _ _ _ _ _ _ _ _ _ _ _ hs' _ => rw [hs'] at ha'; cases ha'

theorem Spec.Life.joinInv {cfg : Cfg} (hE : ∀ k, BlockFn (cfg.E k)) {d : Device} {m : Mac} {n : Nvm} {log : List (Nvm × Event)}
    (h : Life cfg d m n log) : JoinInv cfg d m log := by
  induction h with
  | first n e hn ha => exact .boot (.first hn ha) e
  | call h e c hc hp ih =>
    obtain ⟨h1, h2⟩ := h.inv hE
    exact ih.after hE h1 h2 e c
  | crash h e c hc hp k e' ih => exact .boot ((Life.crash h e c hc hp k e').inv hE).1 e'

end LDL
