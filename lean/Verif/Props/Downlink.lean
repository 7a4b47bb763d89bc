import Verif.Lemmas.DataOp
import Verif.Lemmas.SessionOk
import Verif.Lemmas.Demo
import Verif.Lemmas.Observe
import Verif.Props.Uplink

/-!
# C13, C15, C16, C18: data downlinks
-/

namespace LDL
open Spec Frame

/-! ## C13: cipher and MIC blocks are unambiguous -/

theorem le_inj {n a b : Nat} (h : le n a = le n b) : a % 256 ^ n = b % 256 ^ n := by
  rw [← Stream.leValue_le, ← Stream.leValue_le, h]

theorem u8_inj {a b : Nat} (h : UInt8.ofNat a = UInt8.ofNat b) : a % 256 = b % 256 := by
  have := congrArg UInt8.toNat h
  simpa using this

theorem dirOctet_inj {a b : Bool} (h : dirOctet a = dirOctet b) : a = b := by
  cases a <;> cases b <;> first | rfl | exact absurd h (by decide)

/-- **C13**, keystream: the blocks encrypted for two (direction, address, counter, block number) are equal only if
these agree.  `Ops.initA 0` is the function building them. -/
theorem c13_a_blocks (up up' : Bool) (a a' n n' i i' : Nat) (ha : a < 2 ^ 32) (ha' : a' < 2 ^ 32) (hn : n < 2 ^ 32)
    (hn' : n' < 2 ^ 32) (hi : i < 256) (hi' : i' < 256)
    (h : Ops.initA 0 a up n i = Ops.initA 0 a' up' n' i') : up = up' ∧ a = a' ∧ n = n' ∧ i = i' := by
  rw [initA_eq, initA_eq] at h
  unfold blockA at h
  simp only [List.append_assoc] at h
  obtain ⟨h1, h⟩ := List.append_inj h rfl
  obtain ⟨h2, h⟩ := List.append_inj h (by simp only [Stream.le_length])
  obtain ⟨h3, h⟩ := List.append_inj h (by simp only [Stream.le_length])
  simp only [List.cons_append, List.nil_append, List.cons.injEq, and_true, true_and] at h1 h
  have e2 := le_inj h2
  have e3 := le_inj h3
  have e4 := u8_inj h
  exact ⟨dirOctet_inj h1, by omega, by omega, by omega⟩

/-- **C13**, MIC: the first block of two MIC computations is equal only if all its parameters agree. -/
theorem c13_b_blocks (up up' : Bool) (c c' r r' x x' a a' n n' l l' : Nat) (hc : c < 65536) (hc' : c' < 65536)
    (hr : r < 256) (hr' : r' < 256) (hx : x < 256) (hx' : x' < 256) (ha : a < 2 ^ 32) (ha' : a' < 2 ^ 32)
    (hn : n < 2 ^ 32) (hn' : n' < 2 ^ 32) (hl : l < 256) (hl' : l' < 256)
    (h : Ops.initB c r x up a n l = Ops.initB c' r' x' up' a' n' l') :
    up = up' ∧ c = c' ∧ r = r' ∧ x = x' ∧ a = a' ∧ n = n' ∧ l = l' := by
  rw [initB_eq, initB_eq] at h
  unfold blockB at h
  simp only [List.append_assoc] at h
  obtain ⟨_, h⟩ := List.append_inj h rfl
  obtain ⟨h1, h⟩ := List.append_inj h (by simp only [Stream.le_length])
  obtain ⟨h2, h⟩ := List.append_inj h rfl
  obtain ⟨h3, h⟩ := List.append_inj h (by simp only [Stream.le_length])
  obtain ⟨h4, h⟩ := List.append_inj h (by simp only [Stream.le_length])
  simp only [List.cons.injEq, and_true, true_and] at h2 h
  have e1 := le_inj h1
  have e3 := le_inj h3
  have e4 := le_inj h4
  have e5 := u8_inj h
  have e6 := u8_inj h2.1
  have e7 := u8_inj h2.2.1
  exact ⟨dirOctet_inj h2.2.2, by omega, by omega, by omega, by omega, by omega, by omega⟩

/-- **C13**: a keystream block is never the first block of a MIC. -/
theorem c13_a_is_not_b (up up' : Bool) (a n i c r x a' n' l : Nat) :
    Ops.initA 0 a up n i ≠ Ops.initB c r x up' a' n' l := by
  rw [initA_eq, initB_eq]
  unfold blockA blockB
  intro h
  simp only [List.cons_append, List.cons.injEq] at h
  exact absurd h.1 (by decide)

/-! ## C15: only authentic downlinks are accepted -/

/-- The MIC checked is the one of the specification, whatever the frame. -/
theorem octetsMic_eq {cfg : Cfg} (hE : ∀ k, BlockFn (cfg.E k)) {m : Mac} (hk : KeysOk cfg m)
    (hz : Spec.FirstCounters m.ctx) {bs tail : Bytes} {f : Frame.Down} (h8 : bs.length ≤ 255) (h12 : 12 ≤ bs.length)
    (hne : bs.length ≠ 244) (hc : f.counter < 65536) :
    Sm.mic cfg m.keys .sNwkSInt (Ops.downBlock cfg m f bs.length) ((bs ++ tail).take (u8 (bs.length + 252))) =
      downlinkMic cfg.E (sess11 cfg m) (deviceKeys cfg m) f.devAddr f.counter (if f.ack then u16 (m.ctx.up + 65535) else 0)
        (bs.take (bs.length - 4)) := by
  have hu : u8 (bs.length + 252) = bs.length - 4 := by unfold u8; omega
  have hl : (bs.take (bs.length - 4)).length = bs.length - 4 := by rw [List.length_take]; omega
  rw [hu, List.take_append_of_le_length (by omega)]
  have hd : Ops.downBlock cfg m f bs.length = blockB false (if sess11 cfg m then (if f.ack then u16 (m.ctx.up + 65535) else 0)
      else 0) 0 0 f.devAddr f.counter (bs.take (bs.length - 4)).length := by
    unfold Ops.downBlock sess11
    simp only [deriveDownCounter_zero cfg hz _ hc, initB_eq, hu, hl, decide_eq_true_iff]
    by_cases hv : sessVersion cfg m.ctx = 1
    · by_cases ha : f.ack = true
      · rw [if_pos ⟨hv, ha⟩, if_pos hv, if_pos ha]
      · rw [if_neg (fun h => ha h.2), if_pos hv, if_neg ha]
    · rw [if_neg (fun h => hv h.1), if_neg hv]
  rw [hd, sm_mic_eq hE _ _ _ _ (blockB_length ..) (by omega) (by omega)]
  unfold downlinkMic
  simp only []
  congr 2
  by_cases hv : sess11 cfg m = true
  · rw [if_pos hv]; rfl
  · rw [if_neg hv]; exact hk (by simpa using hv)

theorem bodyOf_keeps (mem : Bytes) (n p : Nat) (f : Frame.Down) :
    (bodyOf mem n p f).devAddr = f.devAddr ∧ (bodyOf mem n p f).counter = f.counter ∧ (bodyOf mem n p f).ack = f.ack ∧
      (bodyOf mem n p f).type = f.type ∧ (bodyOf mem n p f).mic = leValue (slice mem (n - 4) 4) := by
  unfold bodyOf
  split <;> exact ⟨rfl, rfl, rfl, rfl, rfl⟩

theorem receive_authentic {cfg : Cfg} (hE : ∀ k, BlockFn (cfg.E k)) {m : Mac} (hk : KeysOk cfg m)
    (hz : Spec.FirstCounters m.ctx) (ho : DataOp m) {bs tail : Bytes} (h8 : bs.length ≤ 255) (hne : bs.length ≠ 244)
    {f : Frame.Down} {buf : Bytes} (h : Ops.receiveFrame cfg m (bs ++ tail) bs.length = (some f, buf)) :
    authenticOctets cfg.E (sess11 cfg m) (deviceKeys cfg m) m.ctx.devAddr (leValue ((bs.drop 6).take 2))
      (u16 (m.ctx.up + 65535)) bs := by
  have hnj : ¬ (m.op = .joining ∨ m.op = .rejoining) := by rcases ho with h | h <;> rw [h] <;> decide
  have hdata : ∀ t, t = 3 ∨ t = 5 → bs.head? = some (UInt8.ofNat (32 * t)) →
      authenticOctets cfg.E (sess11 cfg m) (deviceKeys cfg m) m.ctx.devAddr (leValue ((bs.drop 6).take 2))
        (u16 (m.ctx.up + 65535)) bs := by
    intro t ht h0
    unfold Ops.receiveFrame at h
    rw [decode_data_eq cfg.v11 bs tail h8 t ht h0] at h
    by_cases hs : bs.length < 8
    · rw [if_pos hs] at h; cases h
    rw [if_neg hs] at h
    simp only [] at h
    have hge : 8 ≤ afterOpts bs bs.length := by unfold afterOpts; split <;> omega
    by_cases hp : afterOpts bs bs.length + 4 ≤ bs.length
    swap
    · rw [if_neg hp] at h; cases h
    rw [if_pos hp] at h
    obtain ⟨g1, g2, g3, g4, g5⟩ := bodyOf_keeps bs bs.length (afterOpts bs bs.length) (hdrOf bs { type := t })
    generalize bodyOf bs bs.length (afterOpts bs bs.length) (hdrOf bs { type := t }) = g at *
    by_cases hc : (!(g.dataPresent && decide (g.optsLen > 0) && decide (g.port = 0))) = true
    swap
    · rw [if_neg hc] at h; cases h
    rw [if_pos hc] at h
    simp only [] at h
    have gt : g.type = t := g4
    rw [if_neg (by rw [gt]; rcases ht with h | h <;> rw [h] <;> decide),
      if_pos (by rw [gt]; exact ht), if_pos (show m.op = .rejoining ∨ m.op = .dataUnconfirmed ∨ m.op = .dataConfirmed from Or.inr ho)] at h
    unfold Ops.receiveData at h
    by_cases ha : m.ctx.devAddr = g.devAddr
    swap
    · rw [if_neg ha] at h; cases h
    rw [if_pos ha] at h
    have gc : g.counter = leValue ((bs.drop 6).take 2) := g2
    have gl : leValue ((bs.drop 6).take 2) < 65536 := by
      have := Stream.leValue_lt ((bs.drop 6).take 2)
      have h2 : ((bs.drop 6).take 2).length = 2 := by rw [List.length_take, List.length_drop]; omega
      rw [h2] at this; exact this
    simp only [] at h
    rw [octetsMic_eq hE hk hz h8 (by omega) hne (by rw [gc]; exact gl)] at h
    by_cases hm : downlinkMic cfg.E (sess11 cfg m) (deviceKeys cfg m) g.devAddr g.counter
        (if g.ack = true then u16 (m.ctx.up + 65535) else 0) (bs.take (bs.length - 4)) = g.mic
    swap
    · rw [if_neg hm] at h; cases h
    refine ⟨by omega, ?_, ?_, (Nat.mod_eq_of_lt gl).symm, ?_⟩
    · rcases ht with h | h <;> subst h
      · exact Or.inl h0
      · exact Or.inr h0
    · rw [ha, g1]; rfl
    · have e1 : bs.drop (bs.length - 4) = slice bs (bs.length - 4) 4 := by
        unfold slice
        rw [List.take_of_length_le (by rw [List.length_drop]; omega)]
      have e2 : ((bs.getD 5 0).toNat / 32 % 2 = 1) ↔ g.ack = true := by
        rw [g3]
        show _ ↔ decide (leValue (slice bs 5 1) &&& 0x20 > 0) = true
        obtain ⟨b0, a0, a1, a2, a3, c, n0, n1, rest, rfl⟩ := eight (by omega : 8 ≤ bs.length)
        have : leValue (slice (b0 :: a0 :: a1 :: a2 :: a3 :: c :: n0 :: n1 :: rest) 5 1) = c.toNat := leValue1 c
        rw [this, (ctrl_bits c).2.2.2.1]
        simp
      rw [e1, ← g5, ← hm, ha, gc]
      simp only [e2]
  by_cases h3 : bs.head? = some 0x60
  · exact hdata 3 (Or.inl rfl) h3
  by_cases h5 : bs.head? = some 0xa0
  · exact hdata 5 (Or.inr rfl) h5
  exfalso
  unfold Ops.receiveFrame at h
  by_cases h1 : bs.head? = some 0x20
  · rw [decode_ja_eq cfg.v11 bs tail h8 h1] at h
    split at h
    · cases h
    · next g hf =>
      split at hf
      · injection hf with hf
        rw [if_pos (by rw [← hf]; rfl), if_neg hnj] at h
        cases h
      · cases hf
  · rw [decode_other cfg.v11 bs tail h8 h1 h3 h5] at h
    cases h

/-- Reports of what was received. -/
def FromNetwork : Event → Prop
  | .rx .. | .linkStatus .. | .deviceTime .. | .joinComplete .. => True
  | _ => False

/-- Nothing was received: nothing is reported as received, no acknowledgement becomes due, the pending flag, keys
and nonces stay, and the session stays but for the rate, power and channel mask the device sets itself when it has
not heard the network for long (C48). -/
structure NothingReceived (m m' : Mac) : Prop where
  events : ∀ ev ∈ newEvents m m', ¬ FromNetwork ev
  notAcked : m.op = .dataConfirmed → Event.dataComplete ∉ newEvents m m'
  pendingACK : m'.pendingACK = m.pendingACK
  fPending : m'.fPending = m.fPending
  keys : m'.keys = m.keys
  joinNonce : m'.joinNonce = m.joinNonce
  devNonce : m'.devNonce = m.devNonce
  session : ∃ mask rate power, m'.ctx = { m.ctx with chMask := mask, rate := rate, power := power }

theorem newEvents_append {m : Mac} {m' : Mac} {l : List Event} (h : m'.out = m.out ++ l) : newEvents m m' = l := by
  unfold newEvents
  rw [h, List.drop_left]

/-- Missing a downlink of a data operation. -/
theorem missing_nothing {cfg : Cfg} {m x : Mac} {e : Env} {lag : Nat} (ho : DataOp m) (hp : Prep e m x .interrupt lag) (p : _)
    (t : _) : NothingReceived m { downlinkMissing cfg e (packetState e x) with parked := p, timerBand := t } := by
  have hx : x.op = m.op ∧ x.ctx = m.ctx ∧ x.keys = m.keys ∧ x.joinNonce = m.joinNonce ∧ x.devNonce = m.devNonce ∧
      x.pendingACK = m.pendingACK ∧ x.fPending = m.fPending := by
    obtain ⟨_, _, _, _, _, _, _, _, _, h⟩ := hp.eq
    rw [h]
    exact ⟨rfl, rfl, rfl, rfl, rfl, rfl, rfl⟩
  obtain ⟨q1, q2, q3, q4, q5, q6, q7⟩ := hx
  have hm := downlinkMissing_missing cfg e (packetState e x)
  generalize downlinkMissing cfg e (packetState e x) = y at hm
  have hopx : (packetState e x).op = m.op := q1
  have hnj : m.op ≠ .joining := by rcases ho with h | h <;> rw [h] <;> decide
  obtain ⟨c, hc, hco⟩ : ∃ c, (c = [] ∨ c = [Event.channelReady]) ∧ x.out = m.out ++ c := by
    rcases hp.out with h | h
    · exact ⟨[], Or.inl rfl, by rw [h, List.append_nil]⟩
    · exact ⟨_, Or.inr rfl, h⟩
  have hps : (packetState e x).out = m.out ++ (c ++ [.getStatus, .readBuffer, .setMode .sleep]) := by
    show x.out ++ [.getStatus] ++ [.readBuffer] ++ [.setMode .sleep] = _
    rw [hco]; simp only [List.append_assoc, List.cons_append, List.nil_append]
  have hbase : ∀ ev ∈ c ++ [.getStatus, .readBuffer, .setMode .sleep], ¬ FromNetwork ev ∧ ev ≠ .dataComplete := by
    intro ev hev
    rcases hc with h | h <;> subst h <;> simp only [List.nil_append, List.cons_append, List.mem_cons, List.not_mem_nil, or_false] at hev
    · rcases hev with h | h | h <;> subst h <;> exact ⟨id, by simp⟩
    · rcases hev with h | h | h | h <;> subst h <;> exact ⟨id, by simp⟩
  cases hm with
  | retry hor hr t' b hb =>
    have hn : newEvents m _ = _ := newEvents_append (m := m)
      (m' := { packetState e x with trials := u32 ((packetState e x).trials + 1), buffer := b, timerA := Timer.set e t', state := .waitTX, parked := p, timerBand := t }) hps
    exact ⟨fun ev h => (hbase ev (by rw [hn] at h; exact h)).1, fun _ h => (hbase _ (by rw [hn] at h; exact h)).2 rfl,
      q6, q7, q3, q4, q5, m.ctx.chMask, m.ctx.rate, m.ctx.power, q2⟩
  | giveUp hor hr ch r pw cc q o ho' =>
    have hf : ∀ ev ∈ o, ¬ FromNetwork ev ∧ ev ≠ .dataComplete := by
      intro ev hev
      rcases ho' with h | ⟨s, h, _⟩ <;> subst h <;> simp only [List.mem_cons, List.not_mem_nil, or_false] at hev
      subst hev; exact ⟨id, by simp⟩
    have hps' : (packetState e x).out ++ o ++ [if (packetState e x).op = .dataConfirmed then Event.dataTimeout else .dataComplete]
        = m.out ++ ((c ++ [.getStatus, .readBuffer, .setMode .sleep]) ++ o ++
          [if m.op = .dataConfirmed then Event.dataTimeout else .dataComplete]) := by
      rw [hps, hopx]; simp only [List.append_assoc]
    have hn := newEvents_append (m := m) (m' := { packetState e x with
          trials := u32 ((packetState e x).trials + 1)
          ctx := { (packetState e x).ctx with chMask := ch, rate := r, power := pw }, adrAckCounter := cc, adrAckReq := q
          state := .idle, op := .none
          out := (packetState e x).out ++ o ++ [if (packetState e x).op = .dataConfirmed then .dataTimeout else .dataComplete]
          parked := p, timerBand := t }) hps'
    refine ⟨fun ev h => ?_, fun hcf h => ?_, q6, q7, q3, q4, q5, ch, r, pw, ?_⟩
    · rw [hn] at h
      simp only [List.mem_append] at h
      rcases h with (h | h) | h
      · exact (hbase ev (List.mem_append.mpr h)).1
      · exact (hf ev h).1
      · simp only [List.mem_cons, List.not_mem_nil, or_false] at h
        subst h; split <;> exact id
    · rw [hn] at h
      simp only [List.mem_append] at h
      rcases h with (h | h) | h
      · exact (hbase _ (List.mem_append.mpr h)).2 rfl
      · exact (hf _ h).2 rfl
      · rw [if_pos hcf] at h; simp at h
    · show ({ x.ctx with chMask := ch, rate := r, power := pw } : Session) = _
      rw [q2]
  | nextJoin h => exact absurd (hopx.symm.trans h) hnj
  | exhausted h => exact absurd (hopx.symm.trans h) hnj
  | other h =>
    rw [hopx] at h
    rcases ho with h' | h' <;> rw [h'] at h <;> simp at h

/-- The counter of the uplink in progress, as the MIC of an acknowledgement uses it. -/
theorem conf_eq {cfg : Cfg} {m : Mac} (hr : Reachable cfg m) (ho : DataOp m) :
    u16 (m.ctx.up + 65535) = m.tx.counter % 65536 := by
  rw [(hr.inData ho).counter]
  unfold u16 u32
  omega

/-- **C15** for data operations: a packet that is not, octet for octet, a data downlink for the device's own address
with the MIC of the specification under the session key — for the counter the packet shows — is handled as if nothing
had been received.  The confirmed uplink acknowledged, if any, is the one just sent.  Partial: packets of 244 bytes are
excluded, for which the MIC is not computed as specified (see `c12_wrong_at_256`), and the counter checked is the 16 bit one shown (see C18). -/
theorem c15_only_authentic_partial {cfg : Cfg} (hE : ∀ k, BlockFn (cfg.E k)) {m : Mac} {e : Env} (hr : Reachable cfg m)
    (hk : KeysOk cfg m) (hrx : Receiving m e) (ho : DataOp m) (hne : e.received.length ≠ 244)
    (hna : ¬ authenticOctets cfg.E (sess11 cfg m) (deviceKeys cfg m) m.ctx.devAddr (leValue ((e.received.drop 6).take 2))
      (m.tx.counter % 65536) e.received) : NothingReceived m (process cfg e m) := by
  rw [← conf_eq hr ho] at hna
  obtain ⟨lag, x, p, t, hp, h⟩ := receiving (cfg := cfg) hrx
  obtain ⟨tail, ht⟩ := rxBuffer_eq e
  have hs := hr.sessionOk
  rw [h]
  cases hcase : Ops.receiveFrame cfg m e.rxBuffer e.received.length with
  | mk f buf =>
    cases f with
    | some f =>
      exfalso
      rw [ht] at hcase
      exact hna (receive_authentic hE hk ⟨hs.appDown, hs.nwkDown⟩ ho (received_length e) hne hcase)
    | none => exact missing_nothing ho hp p t

/-! ## C16: downlinks of a conforming server are delivered -/

/-- A data message a server may send: type, address of the device, lengths and port in range, MAC commands not both in
FOpts and on port 0. -/
structure LegalDown (m : Mac) (f : DataFrame) : Prop where
  mtype : f.mtype = 3 ∨ f.mtype = 5
  devAddr : f.devAddr = m.ctx.devAddr
  fopts : f.fopts.length ≤ 15
  port : ∀ p d, f.payload = some (p, d) → p < 256
  once : f.fopts = [] ∨ f.payload.map Prod.fst ≠ some 0

/-- The application data of a message: port 0 is for MAC commands, and an empty payload is not reported. -/
def appData (f : DataFrame) : List (Nat × Bytes) :=
  match f.payload with
  | some (p, d) => if p = 0 ∨ d = [] then [] else [(p, d)]
  | none => []

/-- The data reported to the application among some events. -/
def received (l : List Event) : List (Nat × Bytes) :=
  l.filterMap fun | .rx p d => some (p, d) | _ => none

theorem downlinkMic_lt (E : Bytes → Bytes → Bytes) (v : Bool) (k : SessionKeys) (a b c : Nat) (msg : Bytes) :
    downlinkMic E v k a b c msg < 2 ^ 32 := by
  unfold downlinkMic
  exact micOf_lt _

/-- A device gets back what the server sent. -/
theorem open_send {cfg : Cfg} (hE : ∀ k, BlockFn (cfg.E k)) {m : Mac} (v : Bool) (k : SessionKeys) (fcnt conf : Nat) (hc : fcnt < 65536)
    (ha : m.ctx.devAddr < 4294967296) {f : DataFrame} (hf : LegalDown m f) :
    openDown cfg.E v k m.ctx.devAddr fcnt conf (sendDown cfg.E v k conf fcnt f) =
      some { confirmed := decide (f.mtype = 5), ack := f.ack, pending := f.fPending, fopts := f.fopts
             payload := f.payload } ∧
    slice (sendDown cfg.E v k conf fcnt f) 6 2 = le 2 fcnt := by
  unfold sendDown
  simp only []
  generalize hg : ({ f with
    fcnt := fcnt % 65536
    fopts := cryptOpts cfg.E v k false f.devAddr fcnt f.fopts
    payload := f.payload.map fun (p : Nat × List UInt8) => (p.1, cryptPayload cfg.E k false f.devAddr fcnt p.1 p.2) }
      : DataFrame) = g
  have g1 : g.mtype = f.mtype := by rw [← hg]
  have g2 : g.devAddr = f.devAddr := by rw [← hg]
  have g3 : g.ack = f.ack := by rw [← hg]
  have g4 : g.fPending = f.fPending := by rw [← hg]
  have g5 : g.fcnt = fcnt := by rw [← hg]; exact Nat.mod_eq_of_lt hc
  have g6 : g.fopts = cryptOpts cfg.E v k false f.devAddr fcnt f.fopts := by rw [← hg]
  have g7 : g.payload = f.payload.map fun (p : Nat × List UInt8) => (p.1, cryptPayload cfg.E k false f.devAddr fcnt p.1 p.2) := by
    rw [← hg]
  have hmic := downlinkMic_lt cfg.E v k f.devAddr fcnt (if f.ack = true then conf else 0) g.body
  generalize hM : downlinkMic cfg.E v k f.devAddr fcnt (if f.ack = true then conf else 0) g.body = mic at hmic
  have hol : g.fopts.length = f.fopts.length := by rw [g6]; exact cryptOpts_length hE ..
  have hpe := Frame.parse_encode { g with mic := mic } ⟨by
      show g.mtype < 8
      have := hf.mtype
      omega, by
      show g.devAddr < 2 ^ 32
      rw [g2, hf.devAddr]; exact ha, by
      show g.fcnt < 2 ^ 16
      omega, by
      show g.fopts.length ≤ 15
      have := hf.fopts
      omega, by
      intro p d h
      have h : g.payload = some (p, d) := h
      rw [g7] at h
      simp only [Option.map_eq_some_iff] at h
      obtain ⟨⟨p', d'⟩, h1, h2⟩ := h
      cases h2
      exact hf.port _ _ h1, hmic⟩
  have henc : ({ g with mic := mic } : DataFrame).encode = g.body ++ le 4 mic := rfl
  rw [henc] at hpe
  have hlen : (g.body ++ le 4 mic).take ((g.body ++ le 4 mic).length - 4) = g.body := by
    rw [List.length_append, Stream.le_length, Nat.add_sub_cancel, List.take_left]
  constructor
  · unfold openDown
    rw [hpe]
    simp only []
    have haut : authenticDown cfg.E v k m.ctx.devAddr fcnt conf (g.body ++ le 4 mic) { g with mic := mic } := by
      refine ⟨by show g.mtype = 3 ∨ g.mtype = 5; rw [g1]; exact hf.mtype, by show g.devAddr = _; rw [g2, hf.devAddr], ?_, ?_⟩
      · show g.fcnt = _
        rw [g5, Nat.mod_eq_of_lt hc]
      · rw [hlen]
        show mic = downlinkMic cfg.E v k m.ctx.devAddr fcnt (if g.ack = true then conf else 0) g.body
        rw [g3, ← hf.devAddr, hM]
    have honce : g.fopts = [] ∨ g.payload.map Prod.fst ≠ some 0 := by
      rcases hf.once with h | h
      · left
        apply List.eq_nil_of_length_eq_zero
        rw [hol, h]; rfl
      · right
        rw [g7, Option.map_map]
        exact h
    rw [if_pos ⟨haut, honce⟩, g1, g3, g4, g6, ← hf.devAddr, cryptOpts_twice hE, g7]
    congr 2
    cases f.payload with
    | none => rfl
    | some p => simp only [Option.map_some, cryptPayload_twice hE]
  · have hb : g.body ++ le 4 mic = ([mhdr g.mtype] ++ le 4 g.devAddr ++ [UInt8.ofNat g.fctrl]) ++ (le 2 g.fcnt ++ (g.fopts ++
        portPayload g.payload ++ le 4 mic)) := by
      unfold DataFrame.body
      simp only [List.append_assoc]
    rw [hb]
    unfold slice
    have h6 : ([mhdr g.mtype] ++ le 4 g.devAddr ++ [UInt8.ofNat g.fctrl]).length = 6 := by
      simp only [List.length_append, List.length_cons, List.length_nil, Stream.le_length]
    have h2 : (le 2 g.fcnt).length = 2 := Stream.le_length ..
    have e1 := List.drop_left (l₁ := [mhdr g.mtype] ++ le 4 g.devAddr ++ [UInt8.ofNat g.fctrl])
      (l₂ := le 2 g.fcnt ++ (g.fopts ++ portPayload g.payload ++ le 4 mic))
    rw [h6] at e1
    rw [e1]
    have e2 := List.take_left (l₁ := le 2 g.fcnt) (l₂ := g.fopts ++ portPayload g.payload ++ le 4 mic)
    rw [h2] at e2
    rw [e2, g5]

theorem received_append (a b : List Event) : received (a ++ b) = received a ++ received b := List.filterMap_append ..

theorem received_nil {l : List Event} (h : ∀ x ∈ l, ∀ p d, x ≠ .rx p d) : received l = [] := by
  refine List.filterMap_eq_nil_iff.2 fun x hx => ?_
  cases x <;> first | rfl | exact absurd rfl (h _ hx _ _)

theorem deliver_shape (cfg : Cfg) (e : Env) (m : Mac) (msg : DownMsg) : ∃ c o, deliver cfg e m msg =
    { m with
      fPending := msg.pending, pendingACK := msg.confirmed, adrAckCounter := 0, adrAckReq := false
      ctx := c, state := .idle, op := .none
      out := m.out ++ o ++ (match msg.userData with | some (p, d) => [.rx p d] | none => []) ++ dataEndEvents m.op msg.ack } ∧
    ∀ ev ∈ o, InfoEvent ev := by
  unfold deliver
  simp only []
  have h : ∃ c o, (if msg.commands = [] then beginMsg m msg else processCommands cfg e (beginMsg m msg) msg.commands) =
      { beginMsg m msg with ctx := c, out := m.out ++ o } ∧ ∀ ev ∈ o, InfoEvent ev := by
    by_cases hc : msg.commands = []
    · rw [if_pos hc]
      exact ⟨(beginMsg m msg).ctx, [], by rw [List.append_nil]; rfl, by simp⟩
    · rw [if_neg hc]
      obtain ⟨⟨c, o, h1⟩, l, h2, h3⟩ := processCommands_shape cfg e (beginMsg m msg) msg.commands
      refine ⟨c, l, ?_, h3⟩
      rw [h1] at h2 ⊢
      have h2 : o = m.out ++ l := h2
      rw [h2]
  obtain ⟨c, o, h1, h2⟩ := h
  rw [h1, dataEnd_eq]
  refine ⟨c, o, ?_, h2⟩
  cases msg.userData with
  | none => simp only [List.append_nil]; rfl
  | some q => rfl

/-- **C16**: a data message sent by a network server (written from the specification, `sendDown`) under the keys of
the session with counter `fcnt`, acknowledging, if it does, the uplink in progress, and received in a receive window of
a data operation, is delivered: the application gets exactly its payload and port, if any; the device will acknowledge
it exactly if it is of the confirmed type; the pending flag is taken over; and the operation ends, for a confirmed
uplink with DATA_COMPLETE exactly if it is acknowledged.  Partial: counters from 65536 on (`c16_counter_high`), and
messages of 244 bytes, which are refused. -/
theorem c16_delivered_partial {cfg : Cfg} (hE : ∀ k, BlockFn (cfg.E k)) {m : Mac} {e : Env} (hr : Reachable cfg m)
    (hk : KeysOk cfg m) (hrx : Receiving m e) (ho : DataOp m) (f : DataFrame) (hf : LegalDown m f) (fcnt : Nat)
    (hc : fcnt < 65536)
    (hp : e.packet = sendDown cfg.E (sess11 cfg m) (deviceKeys cfg m) (m.tx.counter % 65536) fcnt f)
    (hl : e.packet.length ≤ 255) (hne : e.packet.length ≠ 244) :
    let m' := process cfg e m
    received (newEvents m m') = appData f ∧ m'.pendingACK = decide (f.mtype = 5) ∧ m'.fPending = f.fPending ∧
    m'.op = .none ∧ m'.state = .idle ∧
    (m.op = .dataUnconfirmed ∨ f.ack = true → .dataComplete ∈ newEvents m m' ∧ .dataTimeout ∉ newEvents m m') ∧
    (m.op = .dataConfirmed ∧ f.ack = false → .dataTimeout ∈ newEvents m m' ∧ .dataComplete ∉ newEvents m m') := by
  intro m'
  have hs := hr.sessionOk
  have hrec : e.received = e.packet := List.take_of_length_le hl
  obtain ⟨h1, h2⟩ := open_send hE (m := m) (sess11 cfg m) (deviceKeys cfg m) fcnt (m.tx.counter % 65536) hc hs.devAddr hf
  have hd : Delivered cfg m e { confirmed := decide (f.mtype = 5), ack := f.ack, pending := f.fPending, fopts := f.fopts
                                payload := f.payload } := by
    unfold Delivered
    rw [conf_eq hr ho, hrec, hp, h2, Stream.leValue_le, Nat.mod_eq_of_lt (by simpa using hc)]
    exact h1
  obtain ⟨lag, x, p, t, hpr, h⟩ := delivered hE hk ⟨hs.appDown, hs.nwkDown⟩ hrx ho (by rw [hrec]; exact hne) hd
  have hm' : m' = process cfg e m := rfl
  clear_value m'
  rw [h] at hm'
  obtain ⟨c, o, hsh, hinfo⟩ := deliver_shape cfg e (packetState e x)
    { confirmed := decide (f.mtype = 5), ack := f.ack, pending := f.fPending, fopts := f.fopts, payload := f.payload }
  rw [hsh] at hm'
  have hop : (packetState e x).op = m.op := by
    obtain ⟨_, _, _, _, _, _, _, _, _, h⟩ := hpr.eq
    show x.op = m.op
    rw [h]
  obtain ⟨r, hr', hro⟩ : ∃ r, (r = [] ∨ r = [Event.channelReady]) ∧ x.out = m.out ++ r := by
    rcases hpr.out with h | h
    · exact ⟨[], Or.inl rfl, by rw [h, List.append_nil]⟩
    · exact ⟨_, Or.inr rfl, h⟩
  have hps : (packetState e x).out = m.out ++ (r ++ [.getStatus, .readBuffer, .setMode .sleep]) := by
    show x.out ++ [.getStatus] ++ [.readBuffer] ++ [.setMode .sleep] = _
    rw [hro]; simp only [List.append_assoc, List.cons_append, List.nil_append]
  have hbase : ∀ ev ∈ r ++ [.getStatus, .readBuffer, .setMode .sleep], (∀ p d, ev ≠ .rx p d) ∧ ev ≠ .dataComplete ∧ ev ≠ .dataTimeout := by
    intro ev hev
    rcases hr' with h | h <;> subst h <;> simp only [List.nil_append, List.cons_append, List.mem_cons, List.not_mem_nil, or_false] at hev
    · rcases hev with h | h | h <;> subst h <;> simp
    · rcases hev with h | h | h | h <;> subst h <;> simp
  have hinf : ∀ ev ∈ o, (∀ p d, ev ≠ .rx p d) ∧ ev ≠ .dataComplete ∧ ev ≠ .dataTimeout := by
    intro ev hev
    have := hinfo ev hev
    cases ev <;> first | exact absurd this id | simp
  have hud : ∀ l : List (Nat × Bytes), appData f = l →
      (match ({ confirmed := decide (f.mtype = 5), ack := f.ack, pending := f.fPending, fopts := f.fopts, payload := f.payload } : DownMsg).userData with
        | some (p, d) => [Event.rx p d] | none => []) = l.map fun q => Event.rx q.1 q.2 := by
    intro l hl
    rw [← hl]
    unfold DownMsg.userData appData
    simp only []
    rcases f.payload with _ | ⟨_ | p, _ | ⟨b, d⟩⟩ <;> simp
  rw [hud _ rfl, hop] at hm'
  have hout : newEvents m m' = (r ++ [.getStatus, .readBuffer, .setMode .sleep]) ++ o ++
      (appData f).map (fun q => Event.rx q.1 q.2) ++ dataEndEvents m.op f.ack ++ [.sessionUpdated c] := by
    apply newEvents_append
    rw [hm']
    simp only [pushSessionUpdate, Mac.emit]
    rw [hps]
    simp only [List.append_assoc]
  have hrxs : ∀ l : List (Nat × Bytes), received (l.map fun q => Event.rx q.1 q.2) = l := by
    intro l
    induction l with
    | nil => rfl
    | cons q l ih =>
      show (q.1, q.2) :: received (l.map fun q => Event.rx q.1 q.2) = _
      rw [ih]
  have hnorx : ∀ a b, ∀ ev ∈ dataEndEvents a b, ∀ p d, ev ≠ .rx p d := by
    intro a b ev hev
    cases a <;> simp only [dataEndEvents, List.mem_cons, List.not_mem_nil, or_false] at hev <;> subst hev <;> (try split) <;> simp
  have hmem : ∀ ev : Event, (∀ q ∈ appData f, Event.rx q.1 q.2 ≠ ev) → ev ∉ r ++ [.getStatus, .readBuffer, .setMode .sleep] →
      ev ∉ o →
      ev ≠ .sessionUpdated c → (ev ∈ newEvents m m' ↔ ev ∈ dataEndEvents m.op f.ack) := by
    intro ev q1 q2 q3 q4
    rw [hout]
    simp only [List.mem_append, List.mem_map, List.mem_cons, List.not_mem_nil, or_false] at q2 ⊢
    constructor
    · rintro ((((h | h) | ⟨q, h, h'⟩) | h) | h)
      · exact absurd h q2
      · exact absurd h q3
      · exact absurd h' (q1 q h)
      · exact h
      · exact absurd h q4
    · intro h
      exact Or.inl (Or.inr h)
  have hmc := hmem .dataComplete (by simp) (fun h => (hbase _ h).2.1 rfl) (fun h => (hinf _ h).2.1 rfl) (by simp)
  have hmt := hmem .dataTimeout (by simp) (fun h => (hbase _ h).2.2 rfl) (fun h => (hinf _ h).2.2 rfl) (by simp)
  refine ⟨?_, by rw [hm']; rfl, by rw [hm']; rfl, by rw [hm']; rfl, by rw [hm']; rfl, ?_, ?_⟩
  · rw [hout]
    simp only [received_append]
    rw [hrxs, received_nil fun ev h => (hinf ev h).1, received_nil (hnorx _ _), ← received_append,
      received_nil fun ev h => (hbase ev h).1]
    simp [received]
  · intro h
    rw [hmc, hmt]
    rcases ho with ho | ho
    · rw [ho]; simp [dataEndEvents]
    · have : f.ack = true := by
        rcases h with h | h
        · rw [ho] at h; cases h
        · exact h
      rw [ho, this]; simp [dataEndEvents]
  · rintro ⟨h, h'⟩
    rw [hmc, hmt, h, h']
    simp [dataEndEvents]

/-! ### Cases -/

/-- In builds for LoRaWAN 1.0 the three network session keys are one. -/
theorem KeysOk.of_10 {cfg : Cfg} (h : cfg.v11 = false) (m : Mac) : KeysOk cfg m := by
  intro _
  unfold deviceKeys Sm.key Sm.slot
  rw [h]
  rfl

/-- A confirmed downlink with data on port 9 and a DevStatusReq, acknowledging the uplink. -/
def sampleDown : DataFrame :=
  { mtype := 5, devAddr := 1, adr := false, adrAckReq := false, ack := true, fPending := true, fcnt := 7, fopts := [6]
    payload := some (9, [1, 2, 3]), mic := 0 }

/-- The downlink as a server sends it with counter 7. -/
def samplePacket : Bytes := sendDown Demo.cfg.E false (deviceKeys Demo.cfg Demo.joined) 0 7 sampleDown

/-- A confirmed send at time `t`, up to the receive window in which the radio reports a packet. -/
def upAndListen (t : Nat) : List (Env × Call) :=
  [Demo.send true t] ++ Demo.untilRx1 t ++ [(Demo.at_ (t + 2570000), .radioEvent (t + 2570000))]

/-- The device in the first receive window of its first uplink. -/
def listening : Mac := run Demo.cfg Demo.joined (upAndListen 30000)

theorem listening_reachable : Reachable Demo.cfg listening := Demo.run_reach Demo.joined_reachable _ (by decide +kernel)

/-- The environment of a call during which the radio holds the packet `p`. -/
def holding (p : Bytes) (t : Nat) : Env := { now := t, statusRx := true, packet := p, snr := 5 }

theorem sample_legal : LegalDown listening sampleDown where
  mtype := Or.inr rfl
  devAddr := by decide +kernel
  fopts := by decide
  port := by intro p d h; cases h; decide
  once := Or.inr (by decide)

/-- A case of C16: data, acknowledgement and flags arrive. -/
example : received (newEvents listening (process Demo.cfg (holding samplePacket 2600000) listening)) = [(9, [1, 2, 3])] ∧
    (process Demo.cfg (holding samplePacket 2600000) listening).pendingACK = true ∧
    .dataComplete ∈ newEvents listening (process Demo.cfg (holding samplePacket 2600000) listening) := by
  obtain ⟨h1, h2, _, _, _, h3, _⟩ := c16_delivered_partial (e := holding samplePacket 2600000) (cfg := Demo.cfg)
    (fun _ _ h => h) listening_reachable (.of_10 rfl _) (by decide +kernel) (by decide +kernel) sampleDown sample_legal 7
    (by decide) (by decide +kernel) (by decide +kernel) (by decide +kernel)
  exact ⟨h1, h2, (h3 (Or.inr rfl)).1⟩

/-- A case of C15: the same packet with a wrong MIC. -/
example : NothingReceived listening (process Demo.cfg (holding (samplePacket.set 16 0xff) 2600000) listening) :=
  c15_only_authentic_partial (fun _ _ h => h) listening_reachable (.of_10 rfl _) (by decide +kernel) (by decide +kernel)
    (by decide +kernel) (by decide +kernel)

/-- A case of C13. -/
example : Ops.initA 0 1 true 7 1 ≠ Ops.initA 0 1 true 8 1 :=
  fun h => absurd (c13_a_blocks _ _ _ _ _ _ _ _ (by decide) (by decide) (by decide) (by decide) (by decide) (by decide) h).2.2.1
    (by decide)

/-- A device with a cipher that mixes the octets of a block. -/
def mixCfg : Cfg := { Demo.cfg with E := fun _ b => b.map (· + b.foldl (· + ·) 1) }

/-- Like `listening`. -/
def listeningMix : Mac := run mixCfg (init mixCfg .eu868 {} (Demo.at_ 0))
  (Demo.boot ++ [(Demo.at_ 20000, .abp 1)] ++ upAndListen 30000)

theorem listeningMix_reachable : Reachable mixCfg listeningMix :=
  Demo.run_reach (.init _ _ _ (by simp) ⟨rfl, rfl, rfl, rfl, by decide, by decide⟩) _ (by decide +kernel)

/-- The sample as sent with counter `n`. -/
def sampleMix (n : Nat) : Bytes :=
  sendDown mixCfg.E false (deviceKeys mixCfg listeningMix) (listeningMix.tx.counter % 65536) n sampleDown

/-- C16 does not hold for counters from 65536 on: the server has sent 65536 downlinks, and its next one is ignored,
although the one before is delivered. -/
theorem c16_counter_high : Reachable mixCfg listeningMix ∧ Receiving listeningMix (holding (sampleMix 65536) 2600000) ∧
    received (newEvents listeningMix (process mixCfg (holding (sampleMix 65536) 2600000) listeningMix)) = [] ∧
    received (newEvents listeningMix (process mixCfg (holding (sampleMix 65535) 2600000) listeningMix)) = [(9, [1, 2, 3])] :=
  ⟨listeningMix_reachable, by decide +kernel, by decide +kernel, by decide +kernel⟩

/-! ## C18: replays -/

/-- Whether the acknowledged counter matters for a downlink: only in 1.1, with the ACK flag. -/
theorem sendDown_conf (E : Bytes → Bytes → Bytes) (v : Bool) (k : SessionKeys) (c c' n : Nat) (f : DataFrame)
    (h : v = false ∨ f.ack = false) : sendDown E v k c n f = sendDown E v k c' n f := by
  unfold sendDown downlinkMic
  rcases h with h | h <;> rw [h] <;> rfl

/-- **C18 does not hold**: whatever a device accepted in one receive window it accepts and delivers again in any other
window of a data operation in the same session (as long as the address and the keys are the same).  The only exception
are acknowledgements in 1.1 sessions, which are bound to the uplink they acknowledge. -/
theorem c18_replay_is_delivered {cfg : Cfg} (hE : ∀ k, BlockFn (cfg.E k)) {m m2 : Mac} {e e2 : Env} (f : DataFrame) (fcnt : Nat)
    (hc : fcnt < 65536)
    (hf : LegalDown m f)
    (hp : e.packet = sendDown cfg.E (sess11 cfg m) (deviceKeys cfg m) (m.tx.counter % 65536) fcnt f)
    (hl : e.packet.length ≤ 255) (hne : e.packet.length ≠ 244)
    (hack : sess11 cfg m = false ∨ f.ack = false)
    (hs : sess11 cfg m2 = sess11 cfg m ∧ deviceKeys cfg m2 = deviceKeys cfg m ∧ m2.ctx.devAddr = m.ctx.devAddr)
    (hr2 : Reachable cfg m2) (hk2 : KeysOk cfg m2) (hrx2 : Receiving m2 e2) (ho2 : DataOp m2) (hp2 : e2.packet = e.packet) :
    received (newEvents m2 (process cfg e2 m2)) = appData f := by
  refine (c16_delivered_partial hE hr2 hk2 hrx2 ho2 f ⟨hf.mtype, hf.devAddr.trans hs.2.2.symm, hf.fopts, hf.port, hf.once⟩ fcnt hc ?_ (by rw [hp2]; exact hl) (by rw [hp2]; exact hne)).1
  rw [hp2, hp, hs.1, hs.2.1]
  exact sendDown_conf _ _ _ _ _ _ _ hack

/-- Two uplinks, the same packet received after each: its data is delivered twice. -/
theorem c18_replay_witness : received (newEvents Demo.joined (run Demo.cfg Demo.joined (
    upAndListen 30000 ++ [(holding samplePacket 2610000, .process)] ++ Demo.processAt [600000000] ++
    upAndListen 600000000 ++ [(holding samplePacket 602610000, .process)]))) = [(9, [1, 2, 3]), (9, [1, 2, 3])] := by
  decide +kernel

/-- Whether a call started a data operation. -/
def startsData (r : Rec) : Bool :=
  match starts r.call r.status with
  | some .unconfirmed | some .confirmed => true
  | _ => false

theorem step_not_data {cfg : Cfg} {m : Mac} (hm : OpOk m) (e : Env) (c : Call) (ho : ¬ DataOp m)
    (hs : startsData { call := c, status := (step cfg m e c).2, events := (step cfg m e c).1.out.drop m.out.length } = false) :
    ¬ DataOp (step cfg m e c).1 := by
  have h := step_observed cfg m e c hm
  have h1 : kindOf m.op ≠ some .unconfirmed ∧ kindOf m.op ≠ some .confirmed := by
    unfold DataOp at ho
    cases hop : m.op <;> rw [hop] at ho <;> simp [kindOf] at ho ⊢
  have hev : ∀ l (k : Option Kind), k ≠ some .unconfirmed ∧ k ≠ some .confirmed → ∀ k', observeEvents k l = some k' →
      k' ≠ some .unconfirmed ∧ k' ≠ some .confirmed := by
    intro l
    induction l with
    | nil => intro k hk k' h; cases h; exact hk
    | cons x l ih =>
      intro k hk k' h
      simp only [observeEvents] at h
      cases hx : observeEvent k x with
      | none => rw [hx] at h; cases h
      | some k2 =>
        rw [hx] at h
        refine ih k2 ?_ k' h
        unfold observeEvent at hx
        split at hx
        · cases k with
          | none => cases hx
          | some k =>
            simp only [] at hx
            split at hx
            · cases hx; simp
            · cases hx
        · cases hx; exact hk
  have h2 : kindOf (step cfg m e c).1.op ≠ some .unconfirmed ∧ kindOf (step cfg m e c).1.op ≠ some .confirmed := by
    unfold observeRec at h
    unfold startsData at hs
    simp only [] at h hs
    generalize kindOf (step cfg m e c).1.op = k at h
    generalize starts c (step cfg m e c).2 = st at h hs
    split at h
    · next k' hk' =>
      have := hev _ _ h1 _ hk'
      cases st with
      | none => simp only [] at h; cases h; exact this
      | some n =>
        simp only [] at h
        split at h
        · cases h
          cases n <;> simp at hs ⊢
        · cases h
    · cases h
  rintro (h | h) <;> rw [h] at h2 <;> simp [kindOf] at h2

/-- A data frame is accepted only in a data operation. -/
theorem acceptsData_op {cfg : Cfg} {e : Env} {m : Mac} {f : Frame.Down} {buf : Bytes} (h : AcceptsData cfg e m f buf)
    (hm : OpOk m) : DataOp m := by
  obtain ⟨⟨_, _, _, hf⟩, ht⟩ := h
  rcases receiveFrame_cases (received_length e) (by rw [rxBuffer_length]; exact received_length e) hf with ⟨h, _⟩ | ⟨_, h, _⟩
  · rw [h] at ht; exact absurd ht (by decide)
  · rcases h with h | h
    · unfold OpOk at hm
      rw [h] at hm
      cases hs : m.state <;> rw [hs] at hm <;> exact absurd hm (by decide)
    · exact h

/-- **C18**, the part that holds: a downlink can be delivered only during a data operation (and its delivery ends the
operation, see C16), so a replay needs a further accepted send: from a state without a data operation, nothing is
delivered by any sequence of calls in which no send request is accepted. -/
theorem c18_needs_new_send_partial {cfg : Cfg} {m : Mac} (hr : Reachable cfg m) (ho : ¬ DataOp m)
    (calls : List (Env × Call)) (hc : ∀ x ∈ calls, x.2.WF) (hs : ∀ r ∈ trace cfg m calls, startsData r = false) :
    ∀ r ∈ trace cfg m calls, received r.events = [] := by
  induction calls generalizing m with
  | nil => intro r h; cases h
  | cons x calls ih =>
    obtain ⟨e, c⟩ := x
    intro r h
    simp only [trace, List.mem_cons] at h hs
    have hm := hr.reach.opOk
    rcases h with h | h
    · subst h
      apply received_nil
      rintro ev hev p d rfl
      have := (step_emits cfg e m c).newEvents _ hev
      generalize hx : Event.rx p d = ev at this
      cases this <;> cases hx
      · exact ho (acceptsData_op (by assumption) hm)
      · next hi => exact absurd hi id
    · exact ih (.step e c hr (hc (e, c) (by simp))) (step_not_data hm e c ho (hs _ (Or.inl rfl)))
        (fun y hy => hc y (by simp [hy])) (fun r hr => hs r (Or.inr hr)) r h

/-- A case: after the first delivery nothing more is delivered, whatever the radio receives. -/
example : ∀ r ∈ trace Demo.cfg (run Demo.cfg listening [(holding samplePacket 2610000, .process)])
    [(Demo.at_ 2620000, .radioEvent 2620000), (holding samplePacket 2630000, .process)], received r.events = [] :=
  c18_needs_new_send_partial (Demo.run_reach listening_reachable _ (by decide +kernel)) (by decide +kernel) _ (by decide +kernel)
    (by decide +kernel)

end LDL
