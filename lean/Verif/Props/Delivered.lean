import Verif.Props.Conversation

/-!
# C112: what the application is told comes from the network of the last join
-/

namespace LDL
open Spec

/-- The events by which the application learns something from the network while it is joined: a message, an answer to a
link check or time request, and that the confirmed message it sent has been acknowledged. -/
def Spec.HeardFromNetwork (confirmed : Prop) : Event → Prop
  | .rx .. | .linkStatus .. | .deviceTime .. => True
  | .dataComplete => confirmed
  | _ => False

theorem accepted_data_authentic {cfg : Cfg} (hE : ∀ k, BlockFn (cfg.E k)) {d : Device} {m : Mac} {n : Nvm}
    {log : List (Nvm × Event)} (h : OtaaLife cfg d m n log) {e : Env} {f : Frame.Down} {buf : Bytes}
    (ha : AcceptsData cfg e m f buf) (hne : e.received.length ≠ 244) :
    Receiving m e ∧ DataOp m ∧ ∃ r ja up,
      Answered cfg d log r ja ∧ n.up = (up + 1) % 4294967296 ∧ up < 4294967296 ∧
      authenticOctets cfg.E (netSession cfg d r ja).v11 (netSession cfg d r ja).keys (netSession cfg d r ja).devAddr
        (leValue ((e.received.drop 6).take 2)) (up % 65536) e.received := by
  obtain ⟨_, hag⟩ := h.life.inv hE
  have hr := hag.reach
  obtain ⟨⟨hs, hi, hrx, hf⟩, ht⟩ := ha
  obtain ⟨tail, hb⟩ := rxBuffer_eq e
  have hlen := received_length e
  rw [hb] at hf
  have ho : DataOp m := by
    rcases receiveFrame_cases (by omega) (by simp) hf with ⟨h1, _⟩ | ⟨_, h2, _⟩
    · rw [h1] at ht
      exact absurd ht (by decide)
    · rcases h2 with h2 | h2
      · have := hr.reach.opOk
        unfold OpOk at this
        rw [h2] at this
        rcases hs with hs | hs <;> rw [hs] at this <;> simp [opAllowed] at this
      · exact h2
  obtain ⟨i1, i2, _, i4⟩ := hr.inData ho
  obtain ⟨r, ja, h1, _, h3, h4, h5⟩ := (h.conv hE).joined (h.keyInv hE) i4
  have hso := hr.sessionOk
  have hau := receive_authentic hE (h.keysOk hE i4) ⟨hso.appDown, hso.nwkDown⟩ ho (by omega) hne hf
  rw [conf_eq hr ho, h3, h4, h5] at hau
  exact ⟨⟨hs, hi, hrx⟩, ho, r, ja, m.tx.counter, h1, hag.up.trans i1, i2, hau⟩

/-- **C112**: in a life without personalisation, over joins, restarts and crashes, the application is told of a message,
of an answer to a link check or time request, or of the acknowledgement of its confirmed message only by `LDL_MAC_process`
in a receive window after an uplink, and only when the octets the radio received carry the address and the MIC of the
session the network made of the last join request and an authentic answer to it; in a 1.1 session the MIC of an
acknowledgement is that for the uplink last counted in storage.  Partial: packets of 244 bytes, and the
counter in the MIC is the 16 bit one shown. -/
theorem c112_from_the_network_partial {cfg : Cfg} (hE : ∀ k, BlockFn (cfg.E k)) {d : Device} {m : Mac} {n : Nvm}
    {log : List (Nvm × Event)} (h : OtaaLife cfg d m n log) (e : Env) (c : Call) (hne : e.received.length ≠ 244)
    (ev : Event) (hev : ev ∈ newEvents m (step cfg m e c).1) (hn : HeardFromNetwork (m.op = .dataConfirmed) ev) :
    c = .process ∧ Receiving m e ∧ DataOp m ∧ ∃ r ja up,
      Answered cfg d log r ja ∧ n.up = (up + 1) % 4294967296 ∧ up < 4294967296 ∧
      authenticOctets cfg.E (netSession cfg d r ja).v11 (netSession cfg d r ja).keys (netSession cfg d r ja).devAddr
        (leValue ((e.received.drop 6).take 2)) (up % 65536) e.received := by
  obtain ⟨l, hl, hall⟩ := step_emits cfg e m c
  have hm : ev ∈ l := by
    have : newEvents m (step cfg m e c).1 = l := by
      unfold newEvents
      rw [hl, List.drop_left]
    rwa [this] at hev
  have hem := hall ev hm
  cases hem with
  | rx f buf ha off hd hp => exact ⟨rfl, accepted_data_authentic hE h ha hne⟩
  | info f buf ha ev hi => exact ⟨rfl, accepted_data_authentic hE h ha hne⟩
  | confirmedComplete ho f buf ha hk => exact ⟨rfl, accepted_data_authentic hE h ha hne⟩
  | unconfirmedComplete ho =>
    have hn : m.op = .dataConfirmed := hn
    rw [ho] at hn; cases hn
  | _ => exact absurd hn (by intro h; cases h)

/-- **C112** (contents): a message the application is told of is what a device written from the specification makes of the
octets received, in the session the network made of the last join request and an authentic answer to it: that port, and
that payload decrypted under the keys of that session; and acknowledged is only what such a device finds acknowledged.
Partial: packets of 244 bytes, packets whose FOpts reach behind their end (`c06_overrun_is_accepted`), and the counter
used is the 16 bit one shown. -/
theorem c112_contents_partial {cfg : Cfg} (hE : ∀ k, BlockFn (cfg.E k)) {d : Device} {m : Mac} {n : Nvm}
    {log : List (Nvm × Event)} (h : OtaaLife cfg d m n log) (e : Env) (c : Call) (hne : e.received.length ≠ 244)
    (hov : ¬ OptsOverrun e.received)
    (ev : Event) (hev : ev ∈ newEvents m (step cfg m e c).1) (hn : HeardFromNetwork (m.op = .dataConfirmed) ev) :
    ∃ r ja up msg, Answered cfg d log r ja ∧ n.up = (up + 1) % 4294967296 ∧ up < 4294967296 ∧
      openDown cfg.E (netSession cfg d r ja).v11 (netSession cfg d r ja).keys (netSession cfg d r ja).devAddr
        (leValue ((e.received.drop 6).take 2)) (up % 65536) e.received = some msg ∧
      (∀ port data, ev = .rx port data → port ≠ 0 ∧ msg.payload = some (port, data)) ∧
      (ev = .dataComplete → msg.ack = true) := by
  obtain ⟨l, hl, hall⟩ := step_emits cfg e m c
  have hm : ev ∈ l := by
    have : newEvents m (step cfg m e c).1 = l := by
      unfold newEvents
      rw [hl, List.drop_left]
    rwa [this] at hev
  have key : ∀ {f buf}, AcceptsData cfg e m f buf → ∃ r ja up msg, Answered cfg d log r ja ∧
      n.up = (up + 1) % 4294967296 ∧ up < 4294967296 ∧
      openDown cfg.E (netSession cfg d r ja).v11 (netSession cfg d r ja).keys (netSession cfg d r ja).devAddr
        (leValue ((e.received.drop 6).take 2)) (up % 65536) e.received = some msg ∧ Holds f buf msg := by
    intro f buf ha
    obtain ⟨_, ho, _⟩ := accepted_data_authentic hE h ha hne
    obtain ⟨_, hag⟩ := h.life.inv hE
    have hr := hag.reach
    obtain ⟨i1, i2, _, i4⟩ := hr.inData ho
    obtain ⟨r, ja, h1, _, h3, h4, h5⟩ := (h.conv hE).joined (h.keyInv hE) i4
    have hso := hr.sessionOk
    obtain ⟨tail, hb⟩ := rxBuffer_eq e
    have hf := ha.1.2.2.2
    rw [hb] at hf
    have hro := receive_open hE (h.keysOk hE i4) ⟨hso.appDown, hso.nwkDown⟩ ho tail (received_length e) hne hov
    rw [conf_eq hr ho, hf, h3, h4, h5] at hro
    cases hcase : openDown cfg.E (netSession cfg d r ja).v11 (netSession cfg d r ja).keys (netSession cfg d r ja).devAddr
        (leValue (Frame.slice e.received 6 2)) (m.tx.counter % 65536) e.received with
    | none =>
      rw [hcase] at hro
      obtain ⟨b, hro⟩ := hro
      cases hro
    | some msg =>
      rw [hcase] at hro
      obtain ⟨f', b', h6, h7⟩ := hro
      injection h6 with h6 h8
      injection h6 with h6
      subst h6 h8
      exact ⟨r, ja, m.tx.counter, msg, h1, hag.up.trans i1, i2, hcase, h7⟩
  have hem := hall ev hm
  cases hem with
  | rx f buf ha off hd hp =>
    obtain ⟨r, ja, up, msg, h1, h2, h3, h4, h5⟩ := key ha
    refine ⟨r, ja, up, msg, h1, h2, h3, h4, ?_, fun h => by cases h⟩
    intro port data he
    injection he with e1 e2
    subst e1 e2
    exact ⟨hp, (h5.data off hd).1⟩
  | info f buf ha ev hi =>
    obtain ⟨r, ja, up, msg, h1, h2, h3, h4, h5⟩ := key ha
    refine ⟨r, ja, up, msg, h1, h2, h3, h4, ?_, ?_⟩
    · intro port data he
      rw [he] at hi; exact absurd hi id
    · intro he
      rw [he] at hi; exact absurd hi id
  | confirmedComplete ho f buf ha hk =>
    obtain ⟨r, ja, up, msg, h1, h2, h3, h4, h5⟩ := key ha
    exact ⟨r, ja, up, msg, h1, h2, h3, h4, fun _ _ h => (by cases h), fun _ => h5.ack.symm.trans hk⟩
  | unconfirmedComplete ho =>
    have hn : m.op = .dataConfirmed := hn
    rw [ho] at hn; cases hn
  | _ => exact absurd hn (by intro h; cases h)

/-! ## A case -/

namespace Demo

/-- The device of C101's example is told of the network's reply, so the reply is authentic in the session of its join. -/
example : ∃ e : Env, ∃ ev ∈ newEvents talking.m (step cfg talking.m e .process).1,
    e.received.length ≠ 244 ∧ ¬ OptsOverrun e.received ∧ HeardFromNetwork (talking.m.op = .dataConfirmed) ev := by
  have h : ((newEvents talking.m (step cfg talking.m
      (holding (sendDown cfg.E false (deviceKeys cfg talking.m) 0 7 reply) 102600000) .process).1).any fun
      | .rx _ _ => true
      | _ => false) = true := by decide +kernel
  obtain ⟨ev, hev, h⟩ := List.any_eq_true.1 h
  refine ⟨_, ev, hev, by decide +kernel, by unfold OptsOverrun; decide +kernel, ?_⟩
  cases ev with
  | rx p b => exact trivial
  | _ => cases h

end Demo

end LDL
