import Verif.Props.Lifelong
import Verif.Spec.Order

/-!
# Asking, joining, sending and leaving happen in order: C111
-/

namespace LDL
open Spec

theorem standing_concat (log : List (Nvm × Event)) (x : Nvm × Event) :
    standing (log ++ [x]) = (standing log).bind fun p => p.next x.2 := by
  unfold standing; rw [List.foldl_append]; rfl

/-- A joined session is in storage. -/
def Nvm.isMember (n : Nvm) : Prop := ∃ s, n.session = some s ∧ s.joined = true

/-- The standing agrees with the storage. -/
def Stands (n : Nvm) (log : List (Nvm × Event)) (p : Standing) : Prop :=
  standing log = some p ∧ (p = .member ↔ Nvm.isMember n)

/-- The standing after part of the events of a call. -/
structure Midway (m : Mac) (n : Nvm) (log : List (Nvm × Event)) (p0 : Standing) (l : List Event) (p : Standing) : Prop where
  stands : Stands (n.after l) (log ++ stamps n l) p
  asked : joinReports l = [] → m.op = .joining → p0 = .asked ∨ transmissions l ≠ [] → p = .asked
  answered : joinReports l ≠ [] → (∀ s, .sessionUpdated s ∉ l) → p = .answered

theorem midway {cfg : Cfg} (hE : ∀ k, BlockFn (cfg.E k)) {d : Device} {m : Mac} {n : Nvm} {log : List (Nvm × Event)}
    {p0 : Standing} (h : Stands n log p0) (hop : m.op = .joining → afterTx m.state = true → p0 = .asked)
    (hl : Life cfg d m n log) (hk : KeyInv cfg d m n) (e : Env) (c : Call) (hc : c.WF)
    (hna : ∀ a, c ≠ .abp a) (l : List Event) (hlo : l <+: newEvents m (step cfg m e c).1) :
    ∃ p, Midway m n log p0 l p := by
  obtain ⟨hn, ha⟩ := hl.inv hE
  have hji := hl.joinInv hE
  have hf := step_effect ha.reach e c hc
  induction l using snoc_induction with
  | nil =>
    refine ⟨p0, by simpa [stamps, Nvm.after] using h, fun _ _ h => ?_, fun h => absurd rfl h⟩
    rcases h with h | h
    · exact h
    · exact absurd rfl h
  | append_singleton l x ih =>
    have hpo : l <+: newEvents m (step cfg m e c).1 := List.IsPrefix.trans (List.prefix_append _ _) hlo
    obtain ⟨p, ⟨s1, s2⟩, hask, hans⟩ := ih hpo
    have hq := hf.part hpo n
    have hxo : x ∈ newEvents m (step cfg m e c).1 := hlo.subset (List.mem_append_right _ (List.mem_singleton.2 rfl))
    have hst : standing (log ++ stamps n (l ++ [x])) = p.next x := by
      rw [stamps_concat, ← List.append_assoc, standing_concat, s1]
      rfl
    have haf : n.after (l ++ [x]) = (n.after l).store x := after_concat n l x
    cases x
    case transmit t s b =>
      obtain ⟨h1, h2, h3⟩ : m.op.isTx ∧ b = m.frame ∧ (step cfg m e c).1.ctx.joined = m.ctx.joined := by
        have hm : (s, b) ∈ transmissions (newEvents m (step cfg m e c).1) := by
          refine (transmissions_prefix hlo).subset ?_
          rw [transmissions_append]
          exact List.mem_append_right _ (List.mem_singleton.2 rfl)
        rcases hf.tx with h0 | ⟨h1, h2, h3, h4, h5, h6, h7, h8⟩
        · rw [h0] at hm; cases hm
        · rw [h3] at hm
          exact ⟨h1, (Prod.mk.inj (List.mem_singleton.1 hm)).2, by assumption⟩
      have hsame : Nvm.isMember ((n.after l).store (.transmit t s b)) ↔ Nvm.isMember (n.after l) := Iff.rfl
      rcases h1 with h1 | h1
      · -- a join request
        obtain ⟨r, hr, _⟩ := (ha.joining h1).1.parse hn.arg.joinEUI hn.arg.devEUI
        rw [← h2] at hr
        have hun := hji.unjoined h1
        have hno : ¬ Nvm.isMember (n.after l) := by
          rintro ⟨c', c1, c2⟩
          rcases hq.stored with ⟨hst, _⟩ | ⟨hst, _⟩
          · rw [hst] at c1
            have := (hk.back c' c1 c2).1
            rw [hun] at this; cases this
          · rw [hst] at c1
            injection c1 with c1
            rw [← c1, h3, hun] at c2; cases c2
        have hp : p ≠ .member := fun g => hno (s2.1 g)
        refine ⟨.asked, ⟨?_, ?_⟩, fun _ _ _ => rfl, fun hj hns => ?_⟩
        · rw [hst]; simp [Standing.next, hr, hp]
        · rw [haf, hsame]
          exact ⟨fun g => (by cases g), fun g => absurd g hno⟩
        · -- no JOIN_COMPLETE in a call that sends
          exfalso
          rw [joinReports_append] at hj
          have hj : joinReports l ≠ [] := by
            intro g; rw [g] at hj; exact hj rfl
          obtain ⟨y, hy⟩ := List.exists_mem_of_ne_nil _ hj
          obtain ⟨ev, g1, g2⟩ := List.mem_filterMap.1 hy
          cases ev <;> simp at g2
          have g4 := (join_event hE hl e c _ _ _ (hpo.subset g1)).2.2.1
          rcases hf.tx with h0 | ⟨_, h2', _⟩
          · have hm : (s, b) ∈ transmissions (newEvents m (step cfg m e c).1) := by
              refine (transmissions_prefix hlo).subset ?_
              rw [transmissions_append]
              exact List.mem_append_right _ (List.mem_singleton.2 rfl)
            rw [h0] at hm; cases hm
          · have : afterTx m.state = true := by
              rcases g4.1 with h | h <;> rw [h] <;> rfl
            rw [this] at h2'; cases h2'
      · -- data
        have hb := (ha.data h1).1.notJoin
        rw [← h2] at hb
        obtain ⟨i1, i2, _, i4⟩ := ha.reach.inData h1
        have hmem : Nvm.isMember (n.after l) := by
          rcases hq.stored with ⟨hst, _⟩ | ⟨hst, _⟩
          · obtain ⟨s, s1, s2, _⟩ := hk.stored i4
            exact ⟨s, hst.trans s1, s2⟩
          · exact ⟨_, hst, h3.trans i4⟩
        have hp := s2.2 hmem
        refine ⟨.member, ⟨?_, ?_⟩, fun _ hj _ => ?_, fun hj hns => ?_⟩
        · rw [hst]; simp [Standing.next, hb, hp]
        · rw [haf, hsame]
          exact ⟨fun _ => hmem, fun _ => rfl⟩
        · have := hji.unjoined hj
          rw [i4] at this; cases this
        · rw [joinReports_append] at hj
          have hj : joinReports l ≠ [] := by
            intro g; rw [g] at hj; exact hj rfl
          have := hans hj fun s' g => hns s' (List.mem_append_left _ g)
          rw [hp] at this; cases this
    case joinComplete a b y =>
      obtain ⟨_, g2, g3, _⟩ := join_event hE hl e c a b y hxo
      have haft : afterTx m.state = true := by
        rcases g3.1 with h | h <;> rw [h] <;> rfl
      have hnoj : joinReports l = [] := by
        have hpre : joinReports (l ++ [.joinComplete a b y]) <+: joinReports (newEvents m (step cfg m e c).1) := by
          obtain ⟨z, hz⟩ := hlo
          rw [← hz, joinReports_append _ z]
          exact List.prefix_append _ _
        rcases hf.join with ⟨h0, _⟩ | ⟨v, h0, _⟩
        · rw [h0, joinReports_append] at hpre
          have := List.prefix_nil.1 hpre
          rw [List.append_eq_nil_iff] at this
          exact this.1
        · rw [h0, joinReports_append] at hpre
          have := hpre.length_le
          rw [List.length_append] at this
          have h1 : (joinReports [Event.joinComplete a b y]).length = 1 := rfl
          rw [h1] at this
          exact List.eq_nil_of_length_eq_zero (by simpa using this)
      have hp := hask hnoj g2 (Or.inl (hop g2 haft))
      refine ⟨.answered, ⟨?_, ?_⟩, fun hj => ?_, fun _ _ => rfl⟩
      · rw [hst]; simp [Standing.next, hp]
      · rw [haf]
        have hsame : Nvm.isMember ((n.after l).store (.joinComplete a b y)) ↔ Nvm.isMember (n.after l) := Iff.rfl
        rw [hsame, ← s2, hp]
        simp
      · rw [joinReports_append] at hj
        exact absurd (List.append_eq_nil_iff.1 hj).2 (by simp [joinReports])
    case sessionUpdated s =>
      have hs : s = (step cfg m e c).1.ctx := hf.session s hxo
      cases hsj : s.joined with
      | false =>
        refine ⟨if p = .asked then .asked else .out, ⟨?_, ?_⟩, fun hj ho ht => ?_, fun _ hns => absurd (by simp) (hns s)⟩
        · rw [hst]
          by_cases hpa : p = .asked <;> simp [Standing.next, hsj, hpa]
        · rw [haf]
          constructor
          · intro g; split at g <;> cases g
          · rintro ⟨s', g1, g2⟩
            have g1 : some s = some s' := g1
            injection g1 with g1
            rw [← g1, hsj] at g2; cases g2
        · rw [joinReports_append] at hj
          rw [transmissions_append] at ht
          rw [hask (List.append_eq_nil_iff.1 hj).1 ho (by
            rcases ht with h | h
            · exact Or.inl h
            · refine Or.inr fun g => h ?_
              rw [g]; rfl)]
          rfl
      | true =>
        have key : p = .member ∧ m.ctx.joined = true ∨ p = .answered ∧ joinReports l ≠ [] := by
          cases step_keys cfg e m c hji.unjoined with
          | quiet q hr =>
            obtain ⟨q1, _⟩ := q.ident (hs ▸ hsj)
            refine Or.inl ⟨s2.2 ?_, q1⟩
            rcases hq.stored with ⟨hst, _⟩ | ⟨hst, _⟩
            · obtain ⟨s, s1, s2, _⟩ := hk.stored q1
              exact ⟨s, hst.trans s1, s2⟩
            · exact ⟨_, hst, hs ▸ hsj⟩
          | abp a hc' _ _ => exact absurd hc' (hna a)
          | otaa hc' hj' hj hno hk' => rw [hs, hj'] at hsj; cases hsj
          | join f buf hj hc' hk' ho hev =>
            obtain ⟨o, s', o1, o2, o3⟩ := join_order hj
            rw [o1] at hlo
            have hw := prefix_to_last hlo ⟨.sessionUpdated s, by simp, o2 _⟩
            obtain ⟨hw, _⟩ := List.append_inj' hw rfl
            have hjr : joinReports l ≠ [] := by rw [hw, o3]; simp
            exact Or.inr ⟨hans hjr (by rw [hw]; exact o2), hjr⟩
        refine ⟨.member, ⟨?_, ?_⟩, fun hj ho _ => ?_, fun _ hns => absurd (by simp) (hns s)⟩
        · rw [hst]
          simp only [Standing.next, hsj, if_true]
          rcases key with ⟨g, _⟩ | ⟨g, _⟩ <;> simp [g]
        · rw [haf]
          exact ⟨fun _ => ⟨s, rfl, hsj⟩, fun _ => rfl⟩
        · rw [joinReports_append] at hj
          rcases key with ⟨_, g⟩ | ⟨_, g⟩
          · rw [hji.unjoined ho] at g; cases g
          · exact absurd (List.append_eq_nil_iff.1 hj).1 g
    all_goals
      refine ⟨p, ⟨by rw [hst]; rfl, by rw [haf]; exact s2⟩, fun hj ho ht => hask ?_ ho ?_, fun hj hns => hans ?_ ?_⟩
      · rw [joinReports_append] at hj
        exact (List.append_eq_nil_iff.1 hj).1
      · rw [transmissions_append] at ht
        rcases ht with h | h
        · exact Or.inl h
        · exact Or.inr fun g => h (by rw [g]; rfl)
      · rw [joinReports_append] at hj
        intro g
        rw [g] at hj
        exact hj rfl
      · exact fun s' g => hns s' (List.mem_append_left _ g)

/-- A device that listens for the answer to a join request has the standing of one that asked. -/
theorem listening_asked {cfg : Cfg} (hE : ∀ k, BlockFn (cfg.E k)) {d : Device} {m : Mac} {n : Nvm} {log : List (Nvm × Event)}
    {p0 p : Standing} (hop : m.op = .joining → afterTx m.state = true → p0 = .asked)
    (hl : Life cfg d m n log) (e : Env) (c : Call) (hc : c.WF) (hpr : Proper c)
    (hm : Midway m n log p0 (newEvents m (step cfg m e c).1) p)
    (ho : (step cfg m e c).1.op = .joining) (hs : afterTx (step cfg m e c).1.state = true) : p = .asked := by
  obtain ⟨hn, ha⟩ := hl.inv hE
  have hji' := (Life.call hl e c hc hpr).joinInv hE
  have hnoj : joinReports (newEvents m (step cfg m e c).1) = [] := by
    refine joinReports_nil fun a b y g => ?_
    obtain ⟨_, _, _, _, _, _, _, _, _, _, _, _, _, _, _, j, _⟩ := join_event hE hl e c a b y g
    rw [hji'.unjoined ho] at j; cases j
  obtain ⟨o, h1, h2, h3⟩ := step_does cfg e m c ha.reach.reach.opOk
  have hnew : newEvents m (step cfg m e c).1 = o := by unfold newEvents; rw [h1, List.drop_left]
  rw [hnew] at hm hnoj
  have hask := hm.asked hnoj
  have htx : (step cfg m e c).1.op.isTx := Or.inl ho
  generalize (step cfg m e c).1 = m' at *
  generalize transmissions o = tr at h2 hask
  generalize nonceReports o = nr at h2
  cases h2 with
  | idle _ ho' _ => exact absurd htx (isTx_not ho')
  | keep hot hkp _ hb hl =>
    have hoj : m.op = .joining := by rw [← hkp.op]; exact ho
    exact hask hoj (Or.inl (hop hoj (hl ▸ hs)))
  | ended _ ho' _ => exact absurd htx (isTx_not (Or.inl ho'))
  | sent _ _ _ _ hkp _ hb =>
    have hoj : m.op = .joining := by rw [← hkp.op]; exact ho
    exact hask hoj (Or.inr (by simp))
  | repeated _ _ _ hs' _ _ _ _ => rw [hs'] at hs; cases hs
  | request _ _ _ hr _ _ => rw [hr.state] at hs; cases hs
  | join _ _ _ hr _ _ => rw [hr.state] at hs; cases hs
  | send _ _ _ _ _ _ _ _ _ _ _ _ _ _ _ _ hs' _ => rw [hs'] at hs; cases hs

theorem Spec.OtaaLife.stands {cfg : Cfg} (hE : ∀ k, BlockFn (cfg.E k)) {d : Device} {m : Mac} {n : Nvm}
    {log : List (Nvm × Event)} (h : OtaaLife cfg d m n log) :
    ∃ p, Stands n log p ∧ (m.op = .joining → afterTx m.state = true → p = .asked) := by
  have boot : ∀ n e, (d.boot cfg n e).op = .none := fun n e => (init_opOk cfg d.region (d.arg n) e).2.1
  induction h with
  | first n e hn ha =>
    refine ⟨.out, ⟨rfl, ⟨fun g => (by cases g), ?_⟩⟩, fun g => by rw [boot] at g; cases g⟩
    rintro ⟨s, g, _⟩
    rw [hn] at g; cases g
  | call h e c hc hp hna ih =>
    obtain ⟨p0, g1, g2⟩ := ih
    obtain ⟨p, hm⟩ := midway hE g1 g2 h.life (h.keyInv hE) e c hc hna _ List.prefix_rfl
    exact ⟨p, hm.stands, listening_asked hE g2 h.life e c hc hp hm⟩
  | crash h e c hc hp hna k e' ih =>
    obtain ⟨p0, g1, g2⟩ := ih
    obtain ⟨p, hm⟩ := midway hE g1 g2 h.life (h.keyInv hE) e c hc hna _ (List.take_prefix k _)
    exact ⟨p, hm.stands, fun g => by rw [boot] at g; cases g⟩

/-- **C111**: over any history of a device activated over the air, with power losses anywhere, join requests, JOIN_COMPLETE,
stored sessions, uplinks and leaving the network come in order, and the device is a member exactly when its session is
stored: data are handed to the radio only with the session of a JOIN_COMPLETE in storage, no JOIN_COMPLETE comes without a
join request since the last one, and a member does not send join requests until it has left, which is in storage by then. -/
theorem c111_in_order {cfg : Cfg} (hE : ∀ k, BlockFn (cfg.E k)) {d : Device} {m : Mac} {n : Nvm}
    {log : List (Nvm × Event)} (h : OtaaLife cfg d m n log) :
    ∃ p, standing log = some p ∧ (p = .member ↔ ∃ s, n.session = some s ∧ s.joined = true) ∧
      (p = .member ↔ m.ctx.joined = true) := by
  obtain ⟨p, ⟨h1, h2⟩, _⟩ := h.stands hE
  refine ⟨p, h1, h2, h2.trans ⟨?_, ?_⟩⟩
  · rintro ⟨s, s1, s2⟩
    exact ((h.keyInv hE).back s s1 s2).1
  · intro hj
    obtain ⟨s, s1, s2, _⟩ := (h.keyInv hE).stored hj
    exact ⟨s, s1, s2⟩

/-- Two join requests, an answer, power lost, an uplink, power lost, another join, power lost, and an uplink. -/
example : standing Demo.twoSessions.log = some .member ∧ standing Demo.waiting.log = some .asked := by decide +kernel

/-- An uplink before JOIN_COMPLETE is out of order, and so are a second JOIN_COMPLETE and a join request by a member. -/
example (n : Nvm) (s : TxSetting) (c : Session) (h : c.joined = true) (b r : Bytes) (hb : parseJoinRequest b = none)
    (hr : (parseJoinRequest r).isSome = true) :
    standing [(n, .transmit 0 s r), (n, .transmit 1 s b)] = none ∧
    standing [(n, .transmit 0 s r), (n, .joinComplete 1 0 0), (n, .joinComplete 2 0 0)] = none ∧
    standing [(n, .transmit 0 s r), (n, .joinComplete 1 0 0), (n, .sessionUpdated c), (n, .transmit 1 s r)] = none := by
  simp [standing, Standing.next, h, hb, hr]

end LDL
