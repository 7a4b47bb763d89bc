import Verif.Lemmas.Life
import Verif.Lemmas.Demo

/-!
# Nonces and counters over restarts: C19, C20, C21, C22, C23

A life (`Spec.Life`) is any history of a device with power losses at any moment, also between two events of one call.
-/

namespace LDL
open Spec

/-! ## C19 -/

/-- **C19**: the join nonces reported over the life of a device are strictly increasing (1.0.4 and 1.1).  That they
belong to the packets accepted is `c19_no_replay`. -/
theorem c19_increasing {cfg : Cfg} (hE : ∀ k, BlockFn (cfg.E k)) (hv : cfg.version ≠ .v103) {d : Device} {m : Mac} {n : Nvm}
    {log : List (Nvm × Event)} (h : Life cfg d m n log) : (joinNonces log).Pairwise (· < ·) :=
  (h.inv hE).1.joinOrder hv

/-! ## C20 -/

/-- **C20**: the DevNonce values of all join requests transmitted over the life of a device are strictly increasing
(1.0.4 and 1.1). -/
theorem c20_increasing {cfg : Cfg} (hE : ∀ k, BlockFn (cfg.E k)) (hv : cfg.version ≠ .v103) {d : Device} {m : Mac} {n : Nvm}
    {log : List (Nvm × Event)} (h : Life cfg d m n log) : (nonces log).Pairwise (· < ·) :=
  (h.inv hE).1.nonceOrder hv

/-- **C20**: what is in storage is always beyond every value used. -/
theorem c20_stored_beyond {cfg : Cfg} (hE : ∀ k, BlockFn (cfg.E k)) (hv : cfg.version ≠ .v103) {d : Device} {m : Mac}
    {n : Nvm} {log : List (Nvm × Event)} (h : Life cfg d m n log) : ∀ x ∈ nonces log, x < n.devNonce :=
  fun x hx => (h.inv hE).1.nonceBound hv x hx

/-- **C20**: when a join request is handed to the radio, the next value has already been stored; and it carries the
identifiers of the device. -/
theorem c20_stored_first {cfg : Cfg} (hE : ∀ k, BlockFn (cfg.E k)) (hv : cfg.version ≠ .v103) {d : Device} {m : Mac}
    {n : Nvm} {log : List (Nvm × Event)} (h : Life cfg d m n log) (n' : Nvm) (t : Nat) (s : TxSetting) (b : Bytes)
    (hm : (n', Event.transmit t s b) ∈ log) (r : JoinRequest) (hr : parseJoinRequest b = some r) :
    n'.devNonce = r.devNonce + 1 ∧ r.joinEUI = d.joinEUI ∧ r.devEUI = d.devEUI := by
  have hi := (h.inv hE).1
  rcases (hi.good n' t s b hm).1 with ⟨r', h1, h2, h3, h4, h5, h6⟩ | ⟨_, _, _, _, _, _, _, hb⟩
  · have := parse_joinRequest r' (by rw [h1]; exact hi.arg.joinEUI) (by rw [h2]; exact hi.arg.devEUI) h4 h3
    rw [← h6, hr] at this
    cases this
    exact ⟨(h5 hv).symm, h1, h2⟩
  · rw [hb.notJoin] at hr
    cases hr

/-! ## C21 -/

/-- **C21**: with the last of the 65536 values used, a request to join is refused, and nothing changes. -/
theorem c21_refused {cfg : Cfg} (hE : ∀ k, BlockFn (cfg.E k)) {d : Device} {m : Mac} {n : Nvm} {log : List (Nvm × Event)}
    (h : Life cfg d m n log) (e : Env) (hn : 65535 < n.devNonce) (hj : m.ctx.joined = false) (ho : m.op = .none) :
    step cfg m e .otaa = (m, .devNonce) := by
  rw [← (h.inv hE).2.devNonce] at hn
  show otaa cfg e m = _
  unfold otaa
  rw [if_neg (by simp [hj]), if_pos ho, if_neg (by omega)]

/-- **C21**: whenever a new value is reported it is one more than the one before, and at most 65536: it never wraps. -/
theorem c21_never_wraps {cfg : Cfg} (hE : ∀ k, BlockFn (cfg.E k)) {d : Device} {m : Mac} {n : Nvm}
    {log : List (Nvm × Event)} (h : Life cfg d m n log) (e : Env) (c : Call) (hc : c.WF) (x : Nat)
    (hx : .devNonceUpdated x ∈ newEvents m (step cfg m e c).1) : x = n.devNonce + 1 ∧ x ≤ 65536 := by
  have ha := (h.inv hE).2
  have he := step_effect ha.reach e c hc
  have hm : x ∈ nonceReports (newEvents m (step cfg m e c).1) := List.mem_filterMap.2 ⟨_, hx, rfl⟩
  rcases he.dev with ⟨h1, _⟩ | ⟨h1, _, h2, _⟩ <;> rw [h1] at hm
  · cases hm
  · rw [List.mem_singleton.1 hm, ha.devNonce]
    rw [ha.devNonce] at h2
    omega

theorem observeEvents_ends {k : Kind} {l : List Event} (h : observeEvents (some k) l = some none) :
    ∃ ev ∈ l, ends k ev = true := by
  induction l with
  | nil => simp [observeEvents] at h
  | cons x l ih =>
    simp only [observeEvents, observeEvent] at h
    by_cases ht : terminal x = true
    · simp only [ht, if_true] at h
      by_cases he : ends k x = true
      · exact ⟨x, by simp, he⟩
      · simp [he] at h
    · simp only [ht] at h
      obtain ⟨ev, h1, h2⟩ := ih h
      exact ⟨ev, by simp [h1], h2⟩

/-- **C21**: a join in progress ends while processing only with JOIN_COMPLETE, or with JOIN_EXHAUSTED when all values
are used. -/
theorem c21_join_ends {cfg : Cfg} (hE : ∀ k, BlockFn (cfg.E k)) {d : Device} {m : Mac} {n : Nvm}
    {log : List (Nvm × Event)} (h : Life cfg d m n log) (e : Env) (ho : m.op = .joining)
    (ho' : (step cfg m e .process).1.op ≠ .joining) :
    (∃ a b c, .joinComplete a b c ∈ newEvents m (step cfg m e .process).1) ∨
    (.joinExhausted ∈ newEvents m (step cfg m e .process).1 ∧ 65535 < n.devNonce) := by
  have ha := (h.inv hE).2
  have hob := step_observed cfg m e .process ha.reach.reach.opOk
  have hop := step_opOk cfg m e .process ha.reach.reach.opOk
  obtain ⟨o, h1, h2, _⟩ := step_does cfg e m .process ha.reach.reach.opOk
  have hnone : (step cfg m e .process).1.op = .none := by
    generalize (step cfg m e .process).1 = m' at *
    generalize transmissions o = t at h2
    generalize nonceReports o = r at h2
    cases h2 with
    | idle h => rw [ho] at h; simp at h
    | ended _ h => exact h
    | keep _ hk => exact absurd (hk.op.trans ho) ho'
    | sent _ _ _ _ hk => exact absurd (hk.op.trans ho) ho'
    | repeated h => rw [ho] at h; simp at h
    | request _ _ _ hr => exact absurd hr.op ho'
    | join h => rw [ho] at h; cases h
    | send h => rw [ho] at h; cases h
  rw [ho, hnone] at hob
  have hob' : observeEvents (some .join) (newEvents m (step cfg m e .process).1) = some none := by
    have hr : observeRec (some .join) ⟨.process, (step cfg m e .process).2, newEvents m (step cfg m e .process).1⟩ =
        some none := hob
    unfold observeRec starts at hr
    revert hr
    cases observeEvents (some .join) (newEvents m (step cfg m e .process).1) <;> simp
  obtain ⟨ev, hm, hends⟩ := observeEvents_ends hob'
  have hem : MayEmit cfg e m .process ev := by
    obtain ⟨l, h3, h4⟩ := step_emits cfg e m .process
    refine h4 ev ?_
    unfold newEvents at hm
    rwa [h3, List.drop_left] at hm
  cases ev <;> first | (simp only [ends, Bool.false_eq_true] at hends; done) | skip
  case joinComplete a b c => exact Or.inl ⟨a, b, c, hm⟩
  case joinExhausted =>
    right
    refine ⟨hm, ?_⟩
    cases hem with
    | joinExhausted _ hn => rw [← ha.devNonce]; exact hn
    | info _ _ _ _ hi => cases hi
  case opCancelled =>
    cases hem with
    | info _ _ _ _ hi => cases hi

/-- **C21**: with all values used, the request in the air is the last: no other is made. -/
theorem c21_last {cfg : Cfg} (hE : ∀ k, BlockFn (cfg.E k)) {d : Device} {m : Mac} {n : Nvm} {log : List (Nvm × Event)}
    (h : Life cfg d m n log) (e : Env) (c : Call) (ho : m.op = .joining) (hn : 65535 < n.devNonce)
    (ho' : (step cfg m e c).1.op = .joining) : (step cfg m e c).1.frame = m.frame ∧
      (afterTx m.state = true → afterTx (step cfg m e c).1.state = true) := by
  have ha := (h.inv hE).2
  rw [← ha.devNonce] at hn
  obtain ⟨o, h1, h2, _⟩ := step_does cfg e m c ha.reach.reach.opOk
  generalize (step cfg m e c).1 = m' at *
  generalize transmissions o = t at h2
  generalize nonceReports o = r at h2
  cases h2 with
  | idle h => rw [ho] at h; simp at h
  | ended _ h => rw [h] at ho'; cases ho'
  | keep _ hk _ hb hl => exact ⟨hk.frame hb, fun h => hl.trans h⟩
  | sent _ _ hs hs' hk _ hb => exact ⟨hk.frame hb, fun _ => by rw [hs']; rfl⟩
  | repeated h => rw [ho] at h; simp at h
  | request _ _ _ hr => have := hr.nonceOk; omega
  | join h => rw [ho] at h; cases h
  | send h => rw [ho] at h; cases h

/-! ## C22 -/

theorem DataBytes.parse {cfg : Cfg} (hE : ∀ k, BlockFn (cfg.E k)) {m : Mac} {c a : Nat} {b : Bytes}
    (h : DataBytes cfg m c a b) :
    ∃ f, parseData b = some f ∧ f.fcnt = c % 65536 ∧ f.devAddr = a ∧ (f.mtype = 2 ∨ f.mtype = 4) := by
  obtain ⟨ha, g, h1, h2, h3, h4, h5, mic, h6, h7⟩ := h
  have hc : g.counter < 65536 := by rw [h3]; exact Nat.mod_lt _ (by decide)
  have hpe := Frame.parse_encode { sealed cfg m g with mic := mic } ⟨by
      show g.type < 8
      rcases h1 with h | h <;> omega, by show g.devAddr < _; rw [h4]; exact ha, hc, by
      show (sealed cfg m g).fopts.length ≤ 15
      have : (sealed cfg m g).fopts.length = g.opts.length := cryptOpts_length hE ..
      omega, by
      intro p d h
      have : (sealed cfg m g).payload = some (p, d) := h
      unfold sealed at this
      simp only [Option.map_eq_some_iff] at this
      obtain ⟨_, _, h⟩ := this
      cases h
      exact h5, h6⟩
  have henc : ({ sealed cfg m g with mic := mic } : DataFrame).encode = (sealed cfg m g).body ++ le 4 mic := rfl
  rw [henc, ← h7] at hpe
  exact ⟨_, hpe, h3, h4, h1⟩

/-- **C22**: what is handed to the radio is a join request, or a data message for the stored session, with the counter
before the one stored: the session with the next counter has been stored before. -/
theorem c22_stored_first {cfg : Cfg} (hE : ∀ k, BlockFn (cfg.E k)) {d : Device} {m : Mac} {n : Nvm}
    {log : List (Nvm × Event)} (h : Life cfg d m n log) (n' : Nvm) (t : Nat) (s : TxSetting) (b : Bytes)
    (hm : (n', Event.transmit t s b) ∈ log) (hj : parseJoinRequest b = none) :
    ∃ c f, n'.session = some c ∧ c.joined = true ∧ parseData b = some f ∧ (f.mtype = 2 ∨ f.mtype = 4) ∧
      f.devAddr = c.devAddr ∧ (f.fcnt + 1) % 65536 = c.up % 65536 := by
  have hi := (h.inv hE).1
  rcases (hi.good n' t s b hm).1 with hjf | ⟨c, x, m0, h1, h2, h3, h4, h5⟩
  · obtain ⟨r, hr, _⟩ := hjf.parse hi.arg.joinEUI hi.arg.devEUI
    rw [hr] at hj; cases hj
  · obtain ⟨f, f1, f2, f3, f4⟩ := h5.parse hE
    refine ⟨c, f, h1, h2, f1, f4, f3, ?_⟩
    rw [f2, h3]
    unfold u32
    omega

/-- **C22**: over the whole of a session, with crashes at any point, and until 2^32 uplinks: what is transmitted has
increasing counters, except that a frame is transmitted again as it is; and the counter is the one in the frame. -/
theorem c22_increasing {cfg : Cfg} (hE : ∀ k, BlockFn (cfg.E k)) {d : Device} {m : Mac} {n : Nvm}
    {log : List (Nvm × Event)} (h : Life cfg d m n log) (hw : NoWrap log) :
    ((uplinks log).Pairwise fun a b => a.1 < b.1 ∨ a = b) ∧
    ∀ p ∈ uplinks log, p.1 < n.up ∧ ∃ f, parseData p.2 = some f ∧ f.fcnt = p.1 % 65536 := by
  have hi := (h.inv hE).1
  refine ⟨hi.upOrder hw, fun p hp => ⟨hi.upBound hw p hp, ?_⟩⟩
  obtain ⟨n', t, s, h1, h2, h3⟩ := mem_uplinks hp
  obtain ⟨c, f, g1, _, g2, _, _, g3⟩ := c22_stored_first hE h n' t s p.2 h1 h2
  have h0 := (hi.good n' t s p.2 h1).2 hw h2
  refine ⟨f, g2, ?_⟩
  have hu : n'.up = c.up := by simp [Nvm.up, g1]
  have hf : f.fcnt < 65536 := (parseData_fcnt g2).2
  omega

/-- **C22**: an accepted send request has one event, the session to store, with the next counter; this is before
anything is transmitted. -/
theorem c22_accepted {cfg : Cfg} (hE : ∀ k, BlockFn (cfg.E k)) {d : Device} {m : Mac} {n : Nvm}
    {log : List (Nvm × Event)} (h : Life cfg d m n log) (e : Env) (confirmed : Bool) (port : Nat) (payload : Option Bytes)
    (len : Nat) (opts : Option DataOpts) (ha : Accepted (step cfg m e (.data confirmed port payload len opts)).2) :
    ∃ s, newEvents m (step cfg m e (.data confirmed port payload len opts)).1 = [Event.sessionUpdated s] ∧
      s.up = (n.up + 1) % 4294967296 ∧ s.joined = true := by
  obtain ⟨freq, ch, rate, hj, _, _, _, _, _, hstep⟩ := accepted_send e confirmed port payload len opts ha
  obtain ⟨x, hx, _, _, _, a4, _, _, _, _, _, _, _, _, a13⟩ := sendData_fields cfg e _ confirmed port payload len opts _ _
    (congrArg Prod.fst hstep)
  refine ⟨(step cfg m e (.data confirmed port payload len opts)).1.ctx, ?_, ?_, ?_⟩
  · unfold newEvents
    rw [a13, List.drop_left]
  · obtain ⟨pc, hpc⟩ := (putAnswers_inv cfg { m.ctx with up := u32 (m.ctx.up + 1) } (dataOptions opts)).session
    rw [a4, hx, (h.inv hE).2.up]
    show (putAnswers cfg { m.ctx with up := u32 (m.ctx.up + 1) } (dataOptions opts)).2.up = _
    rw [hpc]
    rfl
  · obtain ⟨pc, hpc⟩ := (putAnswers_inv cfg { m.ctx with up := u32 (m.ctx.up + 1) } (dataOptions opts)).session
    rw [a4, hx]
    show (putAnswers cfg { m.ctx with up := u32 (m.ctx.up + 1) } (dataOptions opts)).2.joined = _
    rw [hpc]
    exact hj

/-! ## C23 -/

theorem pairwise_forall {α : Type} {R : α → α → Prop} (hs : ∀ a b, R a b → R b a) (hr : ∀ a, R a a) {l : List α}
    (h : l.Pairwise R) : ∀ a ∈ l, ∀ b ∈ l, R a b := by
  induction h with
  | nil => intro a ha; cases ha
  | cons h1 _ ih =>
    intro a ha b hb
    rcases List.mem_cons.1 ha with ha' | ha' <;> rcases List.mem_cons.1 hb with hb' | hb'
    · rw [ha', hb']; exact hr _
    · rw [ha']; exact h1 b hb'
    · rw [hb']; exact hs _ _ (h1 a ha')
    · exact ih a ha' b hb'

/-- **C23, partial**: two different uplinks of a session are encrypted with different counter blocks, over crashes at
any point.  Each is a frame whose options (1.1) and payload are encrypted as the specification says with the counter
of the uplink, so that all blocks used are `counterBlock (blockA true devAddr counter) i`, and these differ.

Left out are uplinks with counters from 65536 on, which use the blocks again (`c23_reused`). -/
theorem c23_no_block_reused_partial {cfg : Cfg} (hE : ∀ k, BlockFn (cfg.E k)) {d : Device} {m : Mac} {n : Nvm}
    {log : List (Nvm × Event)} (h : Life cfg d m n log) (hw : NoWrap log) :
    (∀ p ∈ uplinks log, p.1 < 65536 → ∃ v11 keys devAddr mic, ∃ f : DataFrame, p.2 = DataFrame.encode
      { f with
        fopts := cryptOpts cfg.E v11 keys true devAddr p.1 f.fopts
        payload := f.payload.map fun x => (x.1, cryptPayload cfg.E keys true devAddr p.1 x.1 x.2)
        mic := mic }) ∧
    ∀ p ∈ uplinks log, ∀ q ∈ uplinks log, p ≠ q → p.1 < 65536 → q.1 < 65536 → ∀ a b i j,
      counterBlock (blockA true a p.1) i ≠ counterBlock (blockA true b q.1) j := by
  have hi := (h.inv hE).1
  constructor
  · intro p hp hlt
    obtain ⟨n', t, s, h1, h2, h3⟩ := mem_uplinks hp
    obtain ⟨hg, h0⟩ := hi.good n' t s p.2 h1
    have h0 := h0 hw h2
    rcases hg with hjf | ⟨c, x, m0, g1, _, g2, g3, _, g, g4, g5, g6, g7, g8, mic, g9, g10⟩
    · obtain ⟨r, hr, _⟩ := hjf.parse hi.arg.joinEUI hi.arg.devEUI
      rw [hr] at h2; cases h2
    · have hu : n'.up = c.up := by simp [Nvm.up, g1]
      have hx : g.counter = p.1 := by
        rw [g6]
        unfold u16
        rw [hu, g2] at h0 h3
        unfold u32 at h0 h3
        omega
      refine ⟨sess11 cfg m0, deviceKeys cfg m0, g.devAddr, mic, Frame.toSpec g, ?_⟩
      rw [g10]
      show (sealed cfg m0 g).body ++ le 4 mic = DataFrame.body _ ++ le 4 mic
      have hbody : (sealed cfg m0 g).body = ({ sealed cfg m0 g with mic := mic } : DataFrame).body := rfl
      rw [hbody]
      congr 2
      unfold sealed
      rw [hx]
      have e1 : (Frame.toSpec g).fopts = g.opts := by
        show g.opts.take (g.opts.length % 16) = g.opts
        rw [List.take_of_length_le (by omega)]
      have e2 : (Frame.toSpec g).payload = g.data.map fun d => (g.port, d) := rfl
      rw [e1, e2, Option.map_map]
      rfl
  · intro p hp q hq hne h1 h2 a b i j heq
    have hd : p.1 ≠ q.1 := by
      have hsym : (uplinks log).Pairwise fun a b => a ≠ b → a.1 ≠ b.1 := (hi.upOrder hw).imp fun h hne => by
        rcases h with h | h
        · omega
        · exact absurd h hne
      exact pairwise_forall (R := fun a b : Nat × Bytes => a ≠ b → a.1 ≠ b.1)
        (fun _ _ h hne => (h (Ne.symm hne)).symm) (fun x hne => absurd rfl hne) hsym p hp q hq hne
    apply hd
    unfold counterBlock blockA at heq
    have e := congrArg (fun l : Bytes => leValue ((l.drop 10).take 4)) heq
    have hl : ∀ (a c i : Nat), c < 65536 →
        leValue (((([1, 0, 0, 0, 0, dirOctet true] ++ le 4 a ++ le 4 c ++ [0]) ++ [UInt8.ofNat i] : Bytes).drop 10).take 4) = c := by
      intro a c i hc
      have : ((([1, 0, 0, 0, 0, dirOctet true] ++ le 4 a ++ le 4 c ++ [0]) ++ [UInt8.ofNat i] : Bytes).drop 10).take 4 = le 4 c := by
        have h1 : ([1, 0, 0, 0, 0, dirOctet true] ++ le 4 a ++ le 4 c ++ [0]) ++ [UInt8.ofNat i] =
            ([1, 0, 0, 0, 0, dirOctet true] ++ le 4 a) ++ (le 4 c ++ ([0] ++ [UInt8.ofNat i])) := by simp
        rw [h1, List.drop_left' (by simp [Stream.le_length]), List.take_left' (Stream.le_length ..)]
      rw [this, Stream.leValue_le, Nat.mod_eq_of_lt (by omega)]
    rw [hl a p.1 i h1, hl b q.1 j h2] at e
    exact e

/-- C23 does not hold from counter 65536 on: two uplinks of one session, the first and the 65537th, with payloads
that differ, and the difference of the ciphertexts is that of the payloads. -/
theorem c23_reused : Reachable Demo.cfg (Demo.restored Demo.cfg highCounter) ∧ Reachable Demo.cfg (Demo.restored Demo.cfg Demo.joined.ctx) ∧
    highCounter = { Demo.joined.ctx with up := Demo.joined.ctx.up + 65536 } ∧
    deviceKeys Demo.cfg (Demo.restored Demo.cfg Demo.joined.ctx) =
      deviceKeys Demo.cfg (Demo.restored Demo.cfg highCounter) ∧
    ∃ a b, (sentBy Demo.cfg (step Demo.cfg (Demo.restored Demo.cfg Demo.joined.ctx) (Demo.at_ 30000)
        (.data false 1 (some (List.replicate 16 1)) 16 none)).1 (Demo.cycle 30000)).map
          (fun x => (parseData x.2).map DataFrame.payload) = [some (some (1, a))] ∧
      (sentBy Demo.cfg (step Demo.cfg (Demo.restored Demo.cfg highCounter) (Demo.at_ 30000)
        (.data false 1 (some (List.replicate 16 2)) 16 none)).1 (Demo.cycle 30000)).map
          (fun x => (parseData x.2).map DataFrame.payload) = [some (some (1, b))] ∧
      xorBytes a b = xorBytes (List.replicate 16 1) (List.replicate 16 2) := by
  refine ⟨Demo.restored_reachable _ highCounter_ok,
    Demo.restored_reachable _ Demo.joined_reachable.sessionOk, ?_, ?_,
    [0, 1, 1, 1, 1, 1, 0, 1, 1, 1, 1, 1, 1, 1, 1, 0], [3, 2, 2, 2, 2, 2, 3, 2, 2, 2, 2, 2, 2, 2, 2, 3], ?_, ?_, ?_⟩
  · have : Demo.joined.ctx.up = 0 := by decide +kernel
    rw [this]; rfl
  · unfold deviceKeys
    rw [SessionKeys.mk.injEq]
    exact ⟨by decide +kernel, by decide +kernel, by decide +kernel, by decide +kernel⟩
  · decide +kernel
  · decide +kernel
  · decide +kernel

/-! ## A life -/

namespace Demo

/-- Something happens to a device. -/
inductive Happens
  | call (e : Env) (c : Call)
  | crash (e : Env) (c : Call) (k : Nat) (e' : Env)

def Happens.ok : Happens → Prop
  | .call _ c => c.WF ∧ Proper c
  | .crash _ c _ _ => c.WF ∧ Proper c

instance (c : Call) : Decidable (Proper c) := by
  cases c <;> simp only [Proper] <;> infer_instance

instance (h : Happens) : Decidable h.ok := by
  cases h <;> simp only [Happens.ok] <;> infer_instance

/-- A device, its storage and its events. -/
structure Alive where
  m : Mac
  n : Nvm
  log : List (Nvm × Event)

def live1 (cfg : Cfg) (d : Device) (s : Alive) : Happens → Alive
  | .call e c =>
    let m' := (step cfg s.m e c).1
    ⟨m', s.n.after (newEvents s.m m'), s.log ++ stamps s.n (newEvents s.m m')⟩
  | .crash e c k e' =>
    let l := (newEvents s.m (step cfg s.m e c).1).take k
    ⟨d.boot cfg (s.n.after l) e', s.n.after l, s.log ++ stamps s.n l⟩

/-- Many things happen. -/
def live (cfg : Cfg) (d : Device) (s : Alive) (l : List Happens) : Alive := l.foldl (live1 cfg d) s

theorem live_life {cfg : Cfg} {d : Device} (l : List Happens) (hl : ∀ x ∈ l, x.ok) {s : Alive}
    (h : Life cfg d s.m s.n s.log) : Life cfg d (live cfg d s l).m (live cfg d s l).n (live cfg d s l).log := by
  induction l generalizing s with
  | nil => exact h
  | cons x l ih =>
    refine ih (fun y hy => hl y (by simp [hy])) ?_
    have hx := hl x (by simp)
    cases x with
    | call e c => exact .call h e c hx.1 hx.2
    | crash e c k e' => exact .crash h e c hx.1 hx.2 k e'

/-- The demonstration device. -/
def device : Device :=
  { region := .eu868, joinEUI := List.replicate 8 1, devEUI := List.replicate 8 2, appKey := List.replicate 16 0
    nwkKey := List.replicate 16 0 }

def newborn : Alive := ⟨device.boot cfg {} (at_ 0), {}, []⟩

theorem newborn_life : Life cfg device newborn.m newborn.n newborn.log :=
  .first {} (at_ 0) rfl ⟨rfl, rfl, rfl, rfl, by decide, by decide⟩

def calls (l : List (Env × Call)) : List Happens := l.map fun x => .call x.1 x.2

/-- Begin to join; the last call hands the request to the radio. -/
def joining (t : Nat) : List (Env × Call) := [(at_ t, .otaa)] ++ processAt [t + 10000, t + 30000, t + 40000]

/-- A join accept (the cipher is the identity). -/
def joinAccept : Bytes := JoinAccept.encode
  { joinNonce := 5, netID := 1, devAddr := 7, optNeg := false, rx1DROffset := 0, rx2DataRate := 0, rxDelay := 1
    cfList := none, mic := 1312 }

/-- Boot, join without answer and join again, power lost when the radio is transmitting; boot, join with answer, send,
power lost after the session is stored but before anything is transmitted; boot, send. -/
def story : List Happens :=
  calls (boot ++ joining 20000 ++ txDone 1600000 ++ processAt [6600000, 6602000] ++ rxNone 6640000 ++
    processAt [7600000, 7602000] ++ rxNone 7640000 ++ processAt [90000000, 900000000, 901000000]) ++
  [.crash (at_ 902000000) .process 5 (at_ 0)] ++
  calls (boot ++ joining 20000 ++ txDone 1600000 ++ processAt [6600000, 6602000] ++ rxPacket joinAccept 6700000 ++
    processAt [200000000, 400000000]) ++
  [.crash (at_ 400000000) (.data true 1 (some [1, 2, 3]) 3 none) 1 (at_ 0)] ++
  calls (boot ++ [send true 20000] ++ cycle 30000 ++ [send true 100000000] ++ processAt [100030000, 100060000])

theorem story_life : Life cfg device (live cfg device newborn story).m (live cfg device newborn story).n
    (live cfg device newborn story).log := live_life story (by decide +kernel) newborn_life

/-- What is claimed above, in this life: three join requests with three DevNonces, one join accept, and uplinks with
counters 1 and 2 (counter 0 was lost in the crash). -/
example : nonces (live cfg device newborn story).log = [0, 1, 2] ∧ joinNonces (live cfg device newborn story).log = [6] ∧
    (uplinks (live cfg device newborn story).log).map (fun p => (p.1, (parseData p.2).map DataFrame.fcnt)) =
      [(1, some 1), (2, some 2)] ∧
    (live cfg device newborn story).n.devNonce = 3 ∧ (live cfg device newborn story).n.up = 3 := by
  decide +kernel

/-- The same life has not used up the counter. -/
example : ((live cfg device newborn story).log.all fun x => match x.2 with
    | .sessionUpdated s => decide (s.up < 4294967295)
    | _ => true) = true := by decide +kernel

/-- A device that has used all DevNonces but one: the join ends with JOIN_EXHAUSTED, and the next is refused. -/
def last : Alive := ⟨device.boot cfg { devNonce := 65535 } (at_ 0), { devNonce := 65535 }, []⟩

def lastStory : List Happens :=
  calls (boot ++ joining 20000 ++ txDone 1600000 ++ processAt [6600000, 6602000] ++ rxNone 6640000 ++
    processAt [7600000, 7602000] ++ rxNone 7640000 ++ processAt [90000000, 900000000, 901000000])

theorem last_life : Life cfg device (live cfg device last lastStory).m (live cfg device last lastStory).n
    (live cfg device last lastStory).log :=
  live_life lastStory (by decide +kernel) (.first { devNonce := 65535 } (at_ 0) rfl ⟨rfl, rfl, rfl, rfl, by decide, by decide⟩)

example : nonces (live cfg device last lastStory).log = [65535] ∧
    (live cfg device last lastStory).n.devNonce = 65536 ∧
    ((live cfg device last lastStory).log.any fun x => match x.2 with | .joinExhausted => true | _ => false) = true ∧
    (live cfg device last lastStory).m.op = .none ∧
    (step cfg (live cfg device last lastStory).m (at_ 910000000) .otaa).2 = .devNonce := by decide +kernel

end Demo

/-- C20 is for 1.0.4 and 1.1: in LoRaWAN 1.0.3 the DevNonce is random and may repeat. -/
def Demo.cfg103 : Cfg := { E := fun _ b => b, a := 1000, version := .v103 }

theorem c20_random : ∃ m n log, Life Demo.cfg103 Demo.device m n log ∧ nonces log = [42, 42] :=
  ⟨_, _, _, Demo.live_life (Demo.calls (Demo.boot ++ Demo.joining 20000) ++
      [.crash (Demo.at_ 70000) .process 0 (Demo.at_ 0)] ++ Demo.calls (Demo.boot ++ Demo.joining 20000))
    (by decide +kernel) (s := ⟨Demo.device.boot Demo.cfg103 {} (Demo.at_ 0), {}, []⟩)
    (.first {} (Demo.at_ 0) rfl ⟨rfl, rfl, rfl, rfl, by decide, by decide⟩), by decide +kernel⟩

end LDL
