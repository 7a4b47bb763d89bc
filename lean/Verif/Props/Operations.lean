import Verif.Lemmas.Observe
import Verif.Lemmas.SessionOk
import Verif.Lemmas.Channel
import Verif.Lemmas.Demo

/-!
# Operations: C24, C25, C26, C28, C29, C47
-/

namespace LDL
open Spec

/-! ## C24 -/

/-- What a send request needs: the device is joined, no operation is in progress, the port is 1..223, there is no
aggregate off-time, some channel is open (defined, not masked, no off-time left in its band), and payload and frame
header fit the data rate. -/
def Sendable (m : Mac) (port len : Nat) : Prop :=
  m.ctx.joined = true ∧ m.op = .none ∧ 1 ≤ port ∧ port ≤ 223 ∧ m.band GLOBAL = 0 ∧ (∃ ch, Open m 0 ch) ∧
    len + 8 ≤ maxPayload m.ctx.region m.ctx.rate

/-- The reason given for a refusal: the first that applies, in this order. -/
inductive Refusal (m : Mac) (port len : Nat) : Status → Prop
  | notJoined : m.ctx.joined = false → Refusal m port len .notJoined
  | busy : m.ctx.joined = true → m.op ≠ .none → Refusal m port len .busy
  | port : m.ctx.joined = true → m.op = .none → ¬ (1 ≤ port ∧ port ≤ 223) → Refusal m port len .port
  | noChannel : m.ctx.joined = true → m.op = .none → 1 ≤ port ∧ port ≤ 223 →
      (m.band GLOBAL ≠ 0 ∨ ¬ ∃ ch, Open m 0 ch) → Refusal m port len .noChannel
  | size : m.ctx.joined = true → m.op = .none → 1 ≤ port ∧ port ≤ 223 → m.band GLOBAL = 0 → (∃ ch, Open m 0 ch) →
      maxPayload m.ctx.region m.ctx.rate < len + 8 → Refusal m port len .size

theorem Refusal.not_sendable {m : Mac} {port len : Nat} {st : Status} (h : Refusal m port len st) :
    ¬ Sendable m port len ∧ st ≠ .ok ∧ st ≠ .macPriority := by
  refine ⟨?_, ?_⟩
  · rintro ⟨h1, h2, h3, h4, h5, h6, h7⟩
    cases h with
    | notJoined h => rw [h1] at h; cases h
    | busy _ h => exact h h2
    | port _ _ h => exact h ⟨h3, h4⟩
    | noChannel _ _ _ h => rcases h with h | h; exact h h5; exact h h6
    | size _ _ _ _ _ h => omega
  · cases h <;> simp

/-- Outcome of a send request. -/
theorem send_outcome {cfg : Cfg} {m : Mac} (hm : Reachable cfg m) (e : Env) (confirmed : Bool) (port : Nat)
    (payload : Option Bytes) (len : Nat) (opts : Option DataOpts) :
    let r := step cfg m e (.data confirmed port payload len opts)
    (Sendable m port len ∧ (r.2 = .ok ∨ r.2 = .macPriority)) ∨
    (Refusal m port len r.2 ∧ r.1 = { m with tx := r.1.tx }) := by
  have hs := hm.sessionOk
  have hmtu : (m.ctx.region.convertRate m.ctx.rate).mtu = maxPayload m.ctx.region m.ctx.rate :=
    (convertRate_spec m.ctx.region m.ctx.rate (List.mem_append_left _ hs.rate)).2.2
  simp only [step, dataCommand]
  by_cases hj : m.ctx.joined = true
  · rw [if_pos hj]
    by_cases ho : m.op = .none
    · rw [if_pos ho]
      by_cases hp : port > 0 ∧ port ≤ 223
      · rw [if_pos hp]
        by_cases hb : m.band GLOBAL = 0
        · rw [if_pos hb]
          have hsel := selectChannel_isSome
            { m with tx := { m.tx with
                power := m.ctx.power
                rate := m.ctx.region.applyUplinkDwell (uplinkDwell m.ctx.txParamSetup) m.ctx.rate } }
            hs.words (e.draw 1) m.ctx.rate 0
          generalize selectChannel
            { m with tx := { m.tx with
                power := m.ctx.power
                rate := m.ctx.region.applyUplinkDwell (uplinkDwell m.ctx.txParamSetup) m.ctx.rate } }
            (e.draw 1) m.ctx.rate 0 = sel at hsel
          rcases sel with _ | ⟨freq, ch, rate⟩
          · have hno : ¬ ∃ ch, Open m 0 ch := by
              intro h
              exact absurd (hsel.2 h) (by simp)
            exact Or.inr ⟨.noChannel hj ho hp (Or.inr hno), rfl⟩
          · have hyes : ∃ ch, Open m 0 ch := hsel.1 rfl
            simp only []
            by_cases hl : len + Frame.dataOverhead ≤ (m.ctx.region.convertRate m.ctx.rate).mtu
            · rw [if_pos hl]
              refine Or.inl ⟨⟨hj, ho, hp.1, hp.2, hb, hyes, ?_⟩, ?_⟩
              · rw [← hmtu]; exact hl
              · rcases sendData_kind cfg e { m with tx := { m.tx with
                    freq := freq, chIndex := ch, rate := rate, power := m.ctx.power } } confirmed port payload len opts
                  (m.ctx.region.convertRate m.ctx.rate).mtu with ⟨h, _⟩ | ⟨h, _⟩
                · exact Or.inr h
                · exact Or.inl h
            · rw [if_neg hl]
              refine Or.inr ⟨.size hj ho hp hb hyes ?_, rfl⟩
              have : Frame.dataOverhead = 8 := rfl
              omega
        · rw [if_neg hb]
          exact Or.inr ⟨.noChannel hj ho hp (Or.inl hb), rfl⟩
      · rw [if_neg hp]
        exact Or.inr ⟨.port hj ho hp, rfl⟩
    · rw [if_neg ho]
      exact Or.inr ⟨.busy hj ho, rfl⟩
  · rw [if_neg hj]
    exact Or.inr ⟨.notJoined (by simpa using hj), rfl⟩

/-- **C24**: a send request is accepted exactly when all conditions of `Sendable` hold. -/
theorem c24_accepted_iff {cfg : Cfg} {m : Mac} (hm : Reachable cfg m) (e : Env) (confirmed : Bool) (port : Nat)
    (payload : Option Bytes) (len : Nat) (opts : Option DataOpts) :
    ((step cfg m e (.data confirmed port payload len opts)).2 = .ok ∨
      (step cfg m e (.data confirmed port payload len opts)).2 = .macPriority) ↔ Sendable m port len := by
  rcases send_outcome hm e confirmed port payload len opts with ⟨h1, h2⟩ | ⟨h1, _⟩
  · exact ⟨fun _ => h1, fun _ => h2⟩
  · have := h1.not_sendable
    exact ⟨fun h => by rcases h with h | h; exact absurd h this.2.1; exact absurd h this.2.2, fun h => absurd h this.1⟩

/-- **C24**: otherwise the status says why, and nothing changes but the parameters prepared for the next
transmission; in particular no event is delivered, and session, operation, state and timers are the same. -/
theorem c24_refused {cfg : Cfg} {m : Mac} (hm : Reachable cfg m) (e : Env) (confirmed : Bool) (port : Nat)
    (payload : Option Bytes) (len : Nat) (opts : Option DataOpts) (hn : ¬ Sendable m port len) :
    (∃ tx, (step cfg m e (.data confirmed port payload len opts)).1 = { m with tx := tx }) ∧
    Refusal m port len (step cfg m e (.data confirmed port payload len opts)).2 := by
  rcases send_outcome hm e confirmed port payload len opts with ⟨h1, _⟩ | ⟨h1, h2⟩
  · exact absurd h1 hn
  · exact ⟨⟨_, h2⟩, h1⟩

/-- Each outcome occurs. -/
example :
    (step Demo.cfg Demo.joined (Demo.at_ 30000) (.data true 1 (some [1, 2, 3]) 3 none)).2 = .ok ∧
    (step Demo.cfg Demo.joined (Demo.at_ 30000) (.data true 1 none 51 none)).2 = .ok ∧
    (step Demo.cfg Demo.joined (Demo.at_ 30000) (.data true 1 none 52 none)).2 = .size ∧
    (step Demo.cfg Demo.joined (Demo.at_ 30000) (.data true 224 none 0 none)).2 = .port ∧
    (step Demo.cfg Demo.idle (Demo.at_ 30000) (.data true 1 none 0 none)).2 = .notJoined ∧
    (step Demo.cfg Demo.onAir (Demo.at_ 70000) (.data true 1 none 0 none)).2 = .busy ∧
    (step Demo.cfg (step Demo.cfg (step Demo.cfg (step Demo.cfg Demo.joined (Demo.at_ 0) (.maskChannel 0)).1 (Demo.at_ 0)
      (.maskChannel 1)).1 (Demo.at_ 0) (.maskChannel 2)).1 (Demo.at_ 30000) (.data true 1 none 0 none)).2 = .noChannel := by
  decide +kernel

/-! ## C25 -/

/-- The calls that start something. -/
def Request : Call → Prop
  | .entropy | .otaa | .abp _ | .data .. => True
  | _ => False

/-- **C25**: while an operation is in progress every request is refused and changes nothing at all. -/
theorem c25_one_at_a_time (cfg : Cfg) (m : Mac) (e : Env) (c : Call) (hc : Request c) (ho : m.op ≠ .none) :
    (step cfg m e c).1 = m ∧
    ((step cfg m e c).2 = .busy ∨ (step cfg m e c).2 = .joined ∧ m.ctx.joined = true ∨
      (step cfg m e c).2 = .notJoined ∧ m.ctx.joined = false) := by
  cases c <;> simp only [Request] at hc <;> simp only [step]
  case entropy => unfold entropy; rw [if_neg ho]; exact ⟨rfl, Or.inl rfl⟩
  case otaa =>
    unfold otaa
    by_cases hj : m.ctx.joined = true
    · rw [if_pos hj]; exact ⟨rfl, Or.inr (Or.inl ⟨rfl, hj⟩)⟩
    · rw [if_neg hj, if_neg ho]; exact ⟨rfl, Or.inl rfl⟩
  case abp =>
    unfold abp
    by_cases hj : m.ctx.joined = true
    · rw [if_pos hj]; exact ⟨rfl, Or.inr (Or.inl ⟨rfl, hj⟩)⟩
    · rw [if_neg hj, if_neg ho]; exact ⟨rfl, Or.inl rfl⟩
  case data =>
    unfold dataCommand
    by_cases hj : m.ctx.joined = true
    · rw [if_pos hj, if_neg ho]; exact ⟨rfl, Or.inl rfl⟩
    · rw [if_neg hj]; exact ⟨rfl, Or.inr (Or.inr ⟨rfl, by simpa using hj⟩)⟩

example : Demo.onAir.op ≠ .none := by decide +kernel

/-! ## C26 -/

theorem trace_observed (cfg : Cfg) (m : Mac) (hm : OpOk m) (calls : List (Env × Call)) :
    observe (kindOf m.op) (trace cfg m calls) = some (kindOf (run cfg m calls).op) := by
  induction calls generalizing m with
  | nil => rfl
  | cons x calls ih =>
    obtain ⟨e, c⟩ := x
    simp only [trace, observe, run]
    rw [step_observed cfg m e c hm]
    exact ih _ (step_opOk cfg m e c hm)

/-- **C26**: in every execution the observer finds no fault: no operation starts while another is in progress, every
terminal event belongs to an operation in progress and is one that ends this kind of operation, and what is left in
progress at the end is what the device says. -/
theorem c26_operations_end_once (cfg : Cfg) (region : Region) (arg : InitArg) (e : Env) (calls : List (Env × Call)) :
    observe none (trace cfg (init cfg region arg e) calls) =
      some (kindOf (run cfg (init cfg region arg e) calls).op) := by
  have := trace_observed cfg (init cfg region arg e) (Reach.init region arg e).opOk calls
  rw [(init_opOk cfg region arg e).2.1] at this
  exact this

theorem observeEvents_count (k : Option Kind) (l : List Event) (k' : Option Kind)
    (h : observeEvents k l = some k') : (if k.isSome then 1 else 0) = l.countP terminal + (if k'.isSome then 1 else 0) := by
  induction l generalizing k with
  | nil => simp only [observeEvents, Option.some.injEq] at h; rw [h]; simp
  | cons x l ih =>
    simp only [observeEvents, observeEvent] at h
    rw [List.countP_cons]
    by_cases ht : terminal x = true
    · rw [if_pos ht] at h
      rw [if_pos ht]
      cases k with
      | none => simp at h
      | some k =>
        simp only [] at h
        by_cases he : ends k x = true
        · rw [if_pos he] at h
          have := ih none h
          simp only [Option.isSome_none, Bool.false_eq_true, if_false] at this
          simp only [Option.isSome_some, if_true]
          omega
        · rw [if_neg he] at h; simp at h
    · rw [if_neg ht] at h
      rw [if_neg ht]
      exact ih k h

theorem observe_count (k : Option Kind) (t : List Rec) (k' : Option Kind) (h : observe k t = some k') :
    started t + (if k.isSome then 1 else 0) = finished t + (if k'.isSome then 1 else 0) := by
  induction t generalizing k with
  | nil => simp only [observe, Option.some.injEq] at h; rw [h]; simp [started, finished]
  | cons r t ih =>
    simp only [observe, observeRec] at h
    have hs : started (r :: t) = started t + if (starts r.call r.status).isSome then 1 else 0 := by
      unfold started; rw [List.countP_cons]
    have hf : finished (r :: t) = r.events.countP terminal + finished t := by simp [finished]
    cases he : observeEvents k r.events with
    | none => rw [he] at h; simp at h
    | some k1 =>
      rw [he] at h
      simp only [] at h
      have h1 := observeEvents_count _ _ _ he
      cases hst : starts r.call r.status with
      | none =>
        rw [hst] at h
        have := ih k1 h
        rw [hs, hf, hst]
        simp only [Option.isSome_none, Bool.false_eq_true, if_false]
        omega
      | some n =>
        rw [hst] at h
        simp only [] at h
        by_cases hk : k1 = none
        · rw [if_pos hk] at h
          have := ih (some n) h
          rw [hs, hf, hst]
          rw [hk] at h1
          simp only [Option.isSome_none, Option.isSome_some, Bool.false_eq_true, if_false, if_true] at this h1 ⊢
          omega
        · rw [if_neg hk] at h; simp at h

/-- **C26**: in every execution, operations accepted = terminal events delivered + 1 if one is in progress. -/
theorem c26_conservation (cfg : Cfg) (region : Region) (arg : InitArg) (e : Env) (calls : List (Env × Call)) :
    started (trace cfg (init cfg region arg e) calls) =
      finished (trace cfg (init cfg region arg e) calls) +
        if (run cfg (init cfg region arg e) calls).op = .none then 0 else 1 := by
  have h := observe_count _ _ _ (c26_operations_end_once cfg region arg e calls)
  have ho : ∀ (m : Mac) (calls : List (Env × Call)), OpOk m → OpOk (run cfg m calls) := by
    intro m calls
    induction calls generalizing m with
    | nil => intro h; exact h
    | cons x l ih => intro h; exact ih _ (step_opOk cfg m x.1 x.2 h)
  have hop := ho _ calls (Reach.init (cfg := cfg) region arg e).opOk
  generalize run cfg (init cfg region arg e) calls = m at h hop ⊢
  have : (kindOf m.op).isSome = !decide (m.op = .none) := by
    unfold OpOk at hop
    cases h2 : m.op <;> rw [h2] at hop <;> first | rfl | skip
    cases h3 : m.state <;> rw [h3] at hop <;> exact absurd hop (by decide)
  rw [this] at h
  simp only [Option.isSome_none, Bool.false_eq_true, if_false, Nat.add_zero] at h
  rw [h]
  by_cases hn : m.op = .none <;> simp [hn]

/-- A send that is transmitted and then cancelled: one operation, one terminal event. -/
example : started (trace Demo.cfg Demo.start (Demo.sending true ++ [(Demo.at_ 70000, .cancel)])) = 1 ∧
    finished (trace Demo.cfg Demo.start (Demo.sending true ++ [(Demo.at_ 70000, .cancel)])) = 1 := by decide +kernel

/-! ## C28 -/

/-- Events delivered to the application, as opposed to calls on the radio. -/
def toApp : Event → Bool
  | .setMode _ | .transmit .. | .receive .. | .receiveEntropy | .readEntropy | .readBuffer | .getStatus => false
  | _ => true

/-- **C28**: cancelling delivers OP_CANCELLED and nothing else if an operation is in progress, and nothing otherwise;
afterwards none is in progress, and session, nonces, keys and off-times are unaffected. -/
theorem c28_cancel (cfg : Cfg) (m : Mac) (e : Env) :
    let m' := (step cfg m e .cancel).1
    (newEvents m m').filter toApp = (if m.op = .none then [] else [.opCancelled]) ∧
    m'.op = .none ∧ m'.ctx = m.ctx ∧ m'.devNonce = m.devNonce ∧ m'.joinNonce = m.joinNonce ∧ m'.keys = m.keys ∧
      m'.band = m.band := by
  simp only [step, newEvents]
  rcases cancel_shape m with ⟨_, h⟩ | ⟨_, h⟩ <;> rw [h]
  · refine ⟨?_, rfl, rfl, rfl, rfl, rfl, rfl⟩
    rw [List.drop_left]
    by_cases ho : m.op = .none <;> simp [ho, toApp]
  · refine ⟨?_, rfl, rfl, rfl, rfl, rfl, rfl⟩
    rw [List.drop_left]
    by_cases ho : m.op = .none <;> simp [ho, toApp]

/-- Both cases occur. -/
example : Demo.onAir.op ≠ .none ∧ Demo.idle.op = .none := by decide +kernel

/-! ## C29 -/

/-- **C29 is false of the code**: `LDL_MAC_cancel` changes the state before it asks whether a transmission is in
progress, so cancelling never charges anything, whatever the state, and afterwards the transmission is forgotten. -/
theorem c29_cancel_never_charges (cfg : Cfg) (m : Mac) (e : Env) :
    (step cfg m e .cancel).1.band = m.band ∧ (step cfg m e .cancel).1.state ≠ .tx := by
  refine ⟨(c28_cancel cfg m e).2.2.2.2.2.2, ?_⟩
  simp only [step]
  rcases cancel_shape m with ⟨hs, h⟩ | ⟨_, h⟩ <;> rw [h]
  · rcases hs with hs | hs | hs <;> simp [hs]
  · simp

/-- A reachable device in the middle of a transmission with air time and a limited band, for which C29 would require
a charge: after cancelling all off-times are zero. -/
theorem c29_witness : Reachable Demo.cfg Demo.onAir ∧ Demo.onAir.state = .tx ∧ 0 < Demo.onAir.tx.airTime ∧
    Spec.offTimeFactor Demo.onAir.ctx.region Demo.onAir.tx.freq = some 100 ∧
    ∀ i < 6, (step Demo.cfg Demo.onAir (Demo.at_ 70000) .cancel).1.band i = 0 :=
  ⟨Demo.onAir_reachable, by decide +kernel⟩

/-! ## C47 -/

/-- **C47**: while a confirmed send is in progress, DATA_COMPLETE is delivered only during a call in which the radio
reported a packet, and this packet was accepted as a data downlink (C15) with the ACK flag. -/
theorem c47_complete_only_if_acked (cfg : Cfg) (m : Mac) (e : Env) (c : Call) (ho : m.op = .dataConfirmed)
    (h : .dataComplete ∈ newEvents m (step cfg m e c).1) :
    c = .process ∧ (m.state = .rx1 ∨ m.state = .rx2) ∧ m.inputState = true ∧ e.statusRx = true ∧
    ∃ f buf, Ops.receiveFrame cfg m e.rxBuffer e.received.length = (some f, buf) ∧
      (f.type = Frame.DATA_CONFIRMED_DOWN ∨ f.type = Frame.DATA_UNCONFIRMED_DOWN) ∧ f.ack = true := by
  have := (step_emits cfg e m c).newEvents _ h
  generalize hev : Event.dataComplete = ev at this
  cases this <;> cases hev
  case unconfirmedComplete h' => exact absurd (ho.symm.trans h') (by decide)
  case confirmedComplete _ f buf ha hk =>
    exact ⟨rfl, ha.1.1, ha.1.2.1, ha.1.2.2.1, f, buf, ha.1.2.2.2, ha.2, hk⟩
  case info hi => exact absurd hi (by simp [InfoEvent])

/-- **C47**: the operation is otherwise ended by another event; and a send displaced by MAC commands is not a
confirmed one. -/
theorem c47_mac_priority (cfg : Cfg) (m : Mac) (e : Env) (confirmed : Bool) (port : Nat) (payload : Option Bytes)
    (len : Nat) (opts : Option DataOpts)
    (h : (step cfg m e (.data confirmed port payload len opts)).2 = .macPriority) :
    (step cfg m e (.data confirmed port payload len opts)).1.op = .dataUnconfirmed := by
  have ha := step_api cfg e m (.data confirmed port payload len opts) (by simp)
  generalize step cfg m e (.data confirmed port payload len opts) = r at h ha
  obtain ⟨m', st⟩ := r
  simp only at h ha ⊢
  subst h
  generalize hc : Call.data confirmed port payload len opts = c at ha
  generalize hst : Status.macPriority = st at ha
  cases ha <;> cases hc
  case refused h => rw [← hst] at h; exact absurd rfl h.2
  case dataRefused h => rcases h with h | h <;> rw [h] at hst <;> cases hst
  case data x hx =>
    rcases sendData_kind cfg e _ confirmed port payload len opts (m.ctx.region.convertRate m.ctx.rate).mtu with h | h
    · exact h.2
    · have := hst.trans h.1; cases this

end LDL
