import Verif.Lemmas.Session
import Verif.Props.Decode
import Verif.Lemmas.Uplink
import Verif.Lemmas.Receive

/-!
# Received data frames in terms of the specification
-/

namespace LDL
open Spec Frame

theorem rxBuffer_eq (e : Env) : ∃ tail, e.rxBuffer = e.received ++ tail := by
  unfold Env.rxBuffer memcpyAt
  exact ⟨_, by rw [List.take_zero, List.nil_append]⟩

theorem slice_memcpy_same (buf x : Bytes) (off : Nat) (h : off ≤ buf.length) :
    slice (memcpyAt buf off x) off x.length = x := by
  unfold slice memcpyAt
  have hl : (buf.take off).length = off := by rw [List.length_take]; omega
  rw [List.append_assoc]
  conv => lhs; arg 2; arg 1; rw [← hl]
  rw [List.drop_left, List.take_left]

theorem slice_memcpy_before (buf x : Bytes) (off i n : Nat) (h : off ≤ buf.length) (hi : i + n ≤ off) :
    slice (memcpyAt buf off x) i n = slice buf i n := by
  unfold memcpyAt
  have hl : (buf.take off).length = off := by rw [List.length_take]; omega
  rw [List.append_assoc, slice_append _ _ _ _ (by omega)]
  conv => rhs; rw [← List.take_append_drop off buf]
  rw [slice_append _ _ _ _ (by omega)]

theorem slice_memcpy_after (buf x : Bytes) (off i n : Nat) (h : off + x.length ≤ buf.length) (hi : off + x.length ≤ i) :
    slice (memcpyAt buf off x) i n = slice buf i n := by
  unfold slice memcpyAt
  rw [List.drop_append, List.drop_eq_nil_of_le (by simp only [List.length_append, List.length_take]; omega), List.nil_append,
    List.drop_drop]
  congr 2
  simp only [List.length_append, List.length_take]
  omega

/-- Decryption of a part of a buffer. -/
theorem ctrAt_slice {cfg : Cfg} (hE : ∀ k, BlockFn (cfg.E k)) (keys : Nat → Bytes) (k : KeyDesc) (up : Bool)
    (devAddr counter i : Nat) (buf : Bytes) (off len : Nat) (h8 : len ≤ 255) :
    Sm.ctrAt cfg keys k (Ops.initA 0 devAddr up counter i) buf off len =
      memcpyAt buf off (payloadCrypt (cfg.E (Sm.key cfg keys k)) (blockA up devAddr counter) i (slice buf off len)) := by
  unfold Sm.ctrAt
  have hl : ((buf.drop off).take len).length ≤ 255 := by rw [List.length_take]; omega
  rw [initA_eq, c11_ctr_is_spec (hE _) _ _ _ (blockA_length ..) hl]
  rfl

/-- What the MAC has in hand, frame `f` and buffer `buf`, is the message `msg`. -/
structure Holds (f : Frame.Down) (buf : Bytes) (msg : DownMsg) : Prop where
  type : f.type = if msg.confirmed then 5 else 3
  ack : f.ack = msg.ack
  pending : f.pending = msg.pending
  opts : ∀ o, f.opts = some o → slice buf o f.optsLen = msg.fopts ∧ msg.fopts ≠ []
  noOpts : f.opts = none → msg.fopts = []
  data : ∀ o, f.data = some o → msg.payload = some (f.port, slice buf o f.dataLen) ∧ slice buf o f.dataLen ≠ []
  noData : f.data = none → msg.payload = none ∨ ∃ p, msg.payload = some (p, [])
  counter : f.counter < 65536
  alone : msg.fopts ≠ [] → f.port ≠ 0 ∨ f.data = none

theorem parseData_ge {bs : Bytes} {p : DataFrame} (hp : parseData bs = some p) : 12 ≤ bs.length := by
  have hn : 8 ≤ bs.length := by
    rcases Nat.lt_or_ge bs.length 8 with h | h
    · exfalso
      match bs, h with
      | [], _ | [_], _ | [_, _], _ | [_, _, _], _ | [_, _, _, _], _ | [_, _, _, _, _], _
      | [_, _, _, _, _, _], _ | [_, _, _, _, _, _, _], _ => simp [Spec.parseData] at hp
    · exact h
  obtain ⟨b0, a0, a1, a2, a3, c, n0, n1, rest, rfl⟩ := eight hn
  simp only [parseData] at hp
  split at hp
  · next h => simp only [List.length_cons]; omega
  · cases hp

theorem parseData_fcnt {bs : Bytes} {p : DataFrame} (hp : parseData bs = some p) : p.fcnt = leValue (slice bs 6 2) ∧
    p.fcnt < 65536 := by
  have hn := parseData_ge hp
  obtain ⟨b0, a0, a1, a2, a3, c, n0, n1, rest, rfl⟩ := eight (by omega : 8 ≤ bs.length)
  simp only [parseData] at hp
  split at hp
  · have h2 := Stream.leValue_lt [n0, n1]
    have h1 : p.fcnt = leValue [n0, n1] := by
      injection hp with hp
      rw [← hp]
    exact ⟨h1, by rw [h1]; simpa using h2⟩
  · cases hp

theorem head_of_type {bs : Bytes} {p : DataFrame} (hp : parseData bs = some p) :
    bs.head? = some (UInt8.ofNat (32 * p.mtype)) := by
  have hn := parseData_ge hp
  obtain ⟨b0, a0, a1, a2, a3, c, n0, n1, rest, rfl⟩ := eight (by omega : 8 ≤ bs.length)
  simp only [parseData] at hp
  split at hp
  · next h =>
    injection hp with hp
    rw [← hp]
    have : 32 * (b0.toNat / 32) = b0.toNat := by omega
    simp only [List.head?_cons, this, UInt8.ofNat_toNat]
  · cases hp

/-- The network keys of a 1.0 session are one. -/
def KeysOk (cfg : Cfg) (m : Mac) : Prop :=
  sess11 cfg m = false → (deviceKeys cfg m).sNwkSInt = (deviceKeys cfg m).fNwkSInt

/-- The MIC checked is the one of the specification. -/
theorem downMic_eq {cfg : Cfg} (hE : ∀ k, BlockFn (cfg.E k)) {m : Mac} (hk : KeysOk cfg m) (hz : Spec.FirstCounters m.ctx)
    {bs tail : Bytes} {p : DataFrame} {f : Frame.Down} (hp : parseData bs = some p) (hr : Reports bs f p)
    (h8 : bs.length ≤ 255) (hne : bs.length ≠ 244) :
    Sm.mic cfg m.keys .sNwkSInt (Ops.downBlock cfg m f bs.length) ((bs ++ tail).take (u8 (bs.length + 252))) =
      downlinkMic cfg.E (sess11 cfg m) (deviceKeys cfg m) p.devAddr p.fcnt (if p.ack then u16 (m.ctx.up + 65535) else 0)
        (bs.take (bs.length - 4)) := by
  have hn := parseData_ge hp
  obtain ⟨_, hfc⟩ := parseData_fcnt hp
  have hu : u8 (bs.length + 252) = bs.length - 4 := by unfold u8; omega
  have hl : (bs.take (bs.length - 4)).length = bs.length - 4 := by rw [List.length_take]; omega
  rw [hu, List.take_append_of_le_length (by omega)]
  have hd : Ops.downBlock cfg m f bs.length = blockB false (if sess11 cfg m then (if p.ack then u16 (m.ctx.up + 65535) else 0)
      else 0) 0 0 p.devAddr p.fcnt (bs.take (bs.length - 4)).length := by
    unfold Ops.downBlock sess11
    simp only [hr.counter, hr.devAddr, hr.ack, deriveDownCounter_zero cfg hz _ hfc, initB_eq, hu, hl, decide_eq_true_iff]
    by_cases hv : sessVersion cfg m.ctx = 1
    · by_cases ha : p.ack = true
      · rw [if_pos ⟨hv, ha⟩, if_pos hv, if_pos ha]
      · rw [if_neg (fun h => ha h.2), if_pos hv, if_neg ha]
    · rw [if_neg (fun h => hv h.1), if_neg hv]
  rw [hd, sm_mic_eq hE _ _ _ _ (blockB_length ..) (by omega) (by omega)]
  unfold downlinkMic
  simp only []
  congr 2
  by_cases hv : sess11 cfg m = true
  · rw [if_pos hv]; rfl
  · rw [if_neg hv]; exact hk (by simpa using hv)

/-- The buffer after decryption. -/
theorem decrypted {cfg : Cfg} (hE : ∀ k, BlockFn (cfg.E k)) (m : Mac) {bs tail : Bytes} {p : DataFrame} {f : Frame.Down}
    (hr : Reports bs f p) (h8 : bs.length ≤ 255) :
    let buf := Ops.decryptPayload cfg m f (Ops.decryptOpts cfg m f (bs ++ tail))
    (∀ o, f.opts = some o → slice buf o f.optsLen =
      cryptOpts cfg.E (sess11 cfg m) (deviceKeys cfg m) false p.devAddr p.fcnt p.fopts) ∧
    (∀ o, f.data = some o → ∃ port d, p.payload = some (port, d) ∧ slice buf o f.dataLen =
      cryptPayload cfg.E (deviceKeys cfg m) false p.devAddr p.fcnt port d) := by
  intro buf
  have hb : buf = Ops.decryptPayload cfg m f (Ops.decryptOpts cfg m f (bs ++ tail)) := rfl
  clear_value buf
  -- after the options
  have h1 : (Ops.decryptOpts cfg m f (bs ++ tail)).length = (bs ++ tail).length ∧
      (∀ o, f.opts = some o → slice (Ops.decryptOpts cfg m f (bs ++ tail)) o f.optsLen =
        cryptOpts cfg.E (sess11 cfg m) (deviceKeys cfg m) false p.devAddr p.fcnt p.fopts) ∧
      (∀ i n, 8 + f.optsLen ≤ i → i + n ≤ bs.length →
        slice (Ops.decryptOpts cfg m f (bs ++ tail)) i n = slice bs i n) := by
    unfold Ops.decryptOpts cryptOpts sess11
    by_cases hv : sessVersion cfg m.ctx = 1
    · rw [if_pos hv]
      cases ho : f.opts with
      | none => exact ⟨rfl, (fun _ h => by cases h), fun i n _ h => slice_append _ _ _ _ h⟩
      | some o =>
        obtain ⟨r1, r2, r3⟩ := hr.opts o ho
        simp only []
        have hsl : slice (bs ++ tail) o f.optsLen = p.fopts := by rw [slice_append _ _ _ _ (by omega), r1]
        rw [ctrAt_slice hE _ _ _ _ _ _ _ _ _ (by omega), hsl, hr.devAddr, hr.counter]
        have hl : (payloadCrypt (cfg.E (Sm.key cfg m.keys .nwkSEnc)) (blockA false p.devAddr p.fcnt) 0 p.fopts).length =
            f.optsLen := by
          rw [payloadCrypt_length (hE _) (blockA_length ..), hr.optsLen]
        refine ⟨?_, ?_, ?_⟩
        · rw [memcpyAt_length]
          rw [hl, List.length_append]; omega
        · intro o' ho'
          cases ho'
          rw [if_pos (by simpa using hv)]
          conv => lhs; rw [← hl]
          exact slice_memcpy_same _ _ _ (by rw [List.length_append]; omega)
        · intro i n hi hn
          rw [slice_memcpy_after _ _ _ _ _ (by rw [hl, List.length_append]; omega) (by rw [hl]; omega),
            slice_append _ _ _ _ hn]
    · rw [if_neg hv]
      refine ⟨rfl, fun o ho => ?_, fun i n _ h => slice_append _ _ _ _ h⟩
      rw [if_neg (by simpa using hv)]
      obtain ⟨r1, r2, r3⟩ := hr.opts o ho
      rw [slice_append _ _ _ _ (by omega), r1]
  obtain ⟨l1, s1, k1⟩ := h1
  generalize Ops.decryptOpts cfg m f (bs ++ tail) = b1 at *
  rw [hb]
  unfold Ops.decryptPayload
  cases hd : f.data with
  | none => exact ⟨s1, fun _ h => by cases h⟩
  | some o =>
    obtain ⟨port, q1, q2, q3⟩ := hr.data o hd
    simp only []
    have hport := (hr.port _ _ q1).1
    have hsl : slice b1 o f.dataLen = slice bs o f.dataLen := k1 _ _ (by omega) (by omega)
    rw [ctrAt_slice hE _ _ _ _ _ _ _ _ _ (by omega), hsl, hr.devAddr, hr.counter, hport]
    have hl : (payloadCrypt (cfg.E (Sm.key cfg m.keys (if port = 0 then .nwkSEnc else .appS)))
        (blockA false p.devAddr p.fcnt) 1 (slice bs o f.dataLen)).length = f.dataLen := by
      rw [payloadCrypt_length (hE _) (blockA_length ..)]
      unfold slice
      rw [List.length_take, List.length_drop]; omega
    have hlb : o + f.dataLen ≤ b1.length := by rw [l1, List.length_append]; omega
    refine ⟨?_, ?_⟩
    · intro o' ho'
      obtain ⟨_, r2, r3⟩ := hr.opts o' ho'
      rw [slice_memcpy_before _ _ _ _ _ (by omega) (by omega)]
      exact s1 _ ho'
    · intro o' ho'
      cases ho'
      refine ⟨port, _, q1, ?_⟩
      have hkey : cryptPayload cfg.E (deviceKeys cfg m) false p.devAddr p.fcnt port (slice bs o f.dataLen) =
          payloadCrypt (cfg.E (Sm.key cfg m.keys (if port = 0 then .nwkSEnc else .appS)))
            (blockA false p.devAddr p.fcnt) 1 (slice bs o f.dataLen) := by
        unfold cryptPayload deviceKeys
        by_cases h0 : port = 0
        · rw [if_pos h0, if_pos h0]
        · rw [if_neg h0, if_neg h0]
      rw [hkey]
      generalize payloadCrypt _ _ _ (slice bs o f.dataLen) = x at hl ⊢
      rw [← hl] at hlb ⊢
      exact slice_memcpy_same _ _ _ (by omega)

/-- A frame without options overrun that is a data downlink is received by the device exactly as by the specification. -/
theorem receive_open {cfg : Cfg} (hE : ∀ k, BlockFn (cfg.E k)) {m : Mac} (hk : KeysOk cfg m) (hz : Spec.FirstCounters m.ctx)
    (ho : m.op = .dataUnconfirmed ∨ m.op = .dataConfirmed) {bs : Bytes} (tail : Bytes) (h8 : bs.length ≤ 255)
    (hne : bs.length ≠ 244) (hov : ¬ OptsOverrun bs) :
    match openDown cfg.E (sess11 cfg m) (deviceKeys cfg m) m.ctx.devAddr (leValue (slice bs 6 2)) (u16 (m.ctx.up + 65535))
      bs with
    | some msg => ∃ f buf, Ops.receiveFrame cfg m (bs ++ tail) bs.length = (some f, buf) ∧ Holds f buf msg
    | none => ∃ buf, Ops.receiveFrame cfg m (bs ++ tail) bs.length = (none, buf) := by
  have hnj : ¬ (m.op = .joining ∨ m.op = .rejoining) := by rcases ho with h | h <;> rw [h] <;> decide
  have hnone : ∀ buf len, Frame.decode cfg.v11 buf len = none → Ops.receiveFrame cfg m buf len = (none, buf) := by
    intro buf len h
    unfold Ops.receiveFrame; rw [h]
  -- anything that is not a data downlink is refused
  have hother : bs.head? ≠ some 0x60 → bs.head? ≠ some 0xa0 →
      ∃ buf, Ops.receiveFrame cfg m (bs ++ tail) bs.length = (none, buf) := by
    intro h3 h5
    by_cases h1 : bs.head? = some 0x20
    · refine ⟨bs ++ tail, ?_⟩
      unfold Ops.receiveFrame
      rw [decode_ja_eq cfg.v11 bs tail h8 h1]
      split
      · rfl
      · next f hf =>
        split at hf
        · injection hf with hf
          rw [if_pos (by rw [← hf]; rfl), if_neg hnj]
        · cases hf
    · exact ⟨_, hnone _ _ (decode_other cfg.v11 bs tail h8 h1 h3 h5)⟩
  unfold openDown
  cases hp : parseData bs with
  | none =>
    simp only []
    by_cases h3 : bs.head? = some 0x60
    · exact ⟨_, hnone _ _ (c06_malformed_is_refused_partial cfg.v11 bs tail h8 3 (Or.inl rfl) h3 hp hov)⟩
    by_cases h5 : bs.head? = some 0xa0
    · exact ⟨_, hnone _ _ (c06_malformed_is_refused_partial cfg.v11 bs tail h8 5 (Or.inr rfl) h5 hp hov)⟩
    exact hother h3 h5
  | some p =>
    simp only []
    obtain ⟨hfc, hfl⟩ := parseData_fcnt hp
    have hhead := head_of_type hp
    by_cases ht : p.mtype = 3 ∨ p.mtype = 5
    · have hport : PortOk p ↔ (p.fopts = [] ∨ p.payload.map Prod.fst ≠ some 0) := by
        unfold PortOk
        cases p.payload with
        | none => simp
        | some q =>
          obtain ⟨a, d⟩ := q
          by_cases ha : a = 0 <;> simp [ha]
      by_cases hpo : PortOk p
      · obtain ⟨f, hf, hr⟩ := (c06_wellformed_is_reported_partial cfg.v11 bs tail h8 p hp ht).1 hpo
        have hrf : Ops.receiveFrame cfg m (bs ++ tail) bs.length = Ops.receiveData cfg m f (bs ++ tail) bs.length := by
          unfold Ops.receiveFrame
          rw [hf]
          simp only []
          rw [if_neg (by rw [hr.type]; rcases ht with h | h <;> rw [h] <;> decide),
            if_pos (by rw [hr.type]; exact ht), if_pos (Or.inr ho)]
        rw [hrf]
        unfold Ops.receiveData
        rw [downMic_eq hE hk hz hp hr h8 hne, hr.devAddr, hr.mic]
        by_cases ha : m.ctx.devAddr = p.devAddr
        · rw [if_pos ha]
          by_cases hmic : downlinkMic cfg.E (sess11 cfg m) (deviceKeys cfg m) p.devAddr p.fcnt
              (if p.ack = true then u16 (m.ctx.up + 65535) else 0) (bs.take (bs.length - 4)) = p.mic
          · rw [if_pos hmic]
            have haut : authenticDown cfg.E (sess11 cfg m) (deviceKeys cfg m) m.ctx.devAddr (leValue (slice bs 6 2))
                (u16 (m.ctx.up + 65535)) bs p := by
              refine ⟨ht, ha.symm, by rw [hfc, Nat.mod_eq_of_lt (by rw [← hfc]; exact hfl)], ?_⟩
              rw [ha, ← hfc]
              exact hmic.symm
            rw [if_pos ⟨haut, hport.mp hpo⟩]
            refine ⟨f, _, rfl, ?_⟩
            obtain ⟨d1, d2⟩ := decrypted (tail := tail) hE m hr h8
            generalize Ops.decryptPayload cfg m f (Ops.decryptOpts cfg m f (bs ++ tail)) = buf at *
            rw [← hfc, ha]
            constructor
            · rw [hr.type]
              rcases ht with h | h <;> rw [h] <;> rfl
            · exact hr.ack
            · exact hr.pending
            · intro o hoo
              refine ⟨d1 o hoo, ?_⟩
              intro hnil
              have hl := cryptOpts_length hE (sess11 cfg m) (deviceKeys cfg m) false p.devAddr p.fcnt p.fopts
              have : (p.fopts).length = 0 := by rw [← hl]; exact congrArg List.length hnil
              have := hr.noOpts.mpr (List.eq_nil_of_length_eq_zero this)
              rw [hoo] at this; cases this
            · intro hoo
              have hnil := hr.noOpts.mp hoo
              have hl := cryptOpts_length hE (sess11 cfg m) (deviceKeys cfg m) false p.devAddr p.fcnt p.fopts
              rw [hnil] at hl
              simp only [hnil]
              exact List.eq_nil_of_length_eq_zero hl
            · intro o hoo
              obtain ⟨port, d, q1, q2⟩ := d2 o hoo
              obtain ⟨r1, r2, r3⟩ := hr.port _ _ q1
              rw [q2, q1, r1]
              refine ⟨rfl, ?_⟩
              intro hnil
              have hl := cryptPayload_length hE (deviceKeys cfg m) false p.devAddr p.fcnt port d
              rw [hnil] at hl
              have := r3.mpr (List.eq_nil_of_length_eq_zero hl.symm)
              rw [hoo] at this; cases this
            · intro hoo
              cases hpp : p.payload with
              | none => exact Or.inl rfl
              | some q =>
                obtain ⟨port, d⟩ := q
                have hd := (hr.port _ _ hpp).2.2.mp hoo
                subst hd
                exact Or.inr ⟨port, rfl⟩
            · rw [hr.counter]; exact hfl
            · intro hfo
              cases hd : f.data with
              | none => exact Or.inr rfl
              | some o =>
                obtain ⟨port, q1, _⟩ := hr.data o hd
                refine Or.inl ?_
                rw [(hr.port _ _ q1).1]
                intro h0
                subst h0
                apply hpo
                refine ⟨?_, _, q1⟩
                intro hn
                apply hfo
                have hl := cryptOpts_length hE (sess11 cfg m) (deviceKeys cfg m) false p.devAddr p.fcnt p.fopts
                rw [hn] at hl
                simp only [hn]
                exact List.eq_nil_of_length_eq_zero hl
          · rw [if_neg hmic, if_neg]
            · exact ⟨_, rfl⟩
            · intro h
              apply hmic
              have := h.1.2.2.2
              rw [ha, ← hfc] at this
              exact this.symm
        · rw [if_neg ha, if_neg (fun h => ha h.1.2.1.symm)]
          exact ⟨_, rfl⟩
      · rw [if_neg (fun h => hpo (hport.mpr h.2))]
        exact ⟨_, hnone _ _ ((c06_wellformed_is_reported_partial cfg.v11 bs tail h8 p hp ht).2 hpo)⟩
    · rw [if_neg (fun h => ht h.1.1)]
      have hlt : p.mtype < 8 := by
        have hn := parseData_ge hp
        obtain ⟨b0, a0, a1, a2, a3, c, n0, n1, rest, rfl⟩ := eight (by omega : 8 ≤ bs.length)
        simp only [parseData] at hp
        split at hp
        · injection hp with hp
          rw [← hp]
          have := b0.toNat_lt
          show b0.toNat / 32 < 8
          omega
        · cases hp
      have key : ∀ t : Fin 8, ¬ (t.val = 3 ∨ t.val = 5) → UInt8.ofNat (32 * t.val) ≠ 0x60 ∧ UInt8.ofNat (32 * t.val) ≠ 0xa0 := by
        decide +kernel
      obtain ⟨n3, n5⟩ := key ⟨p.mtype, hlt⟩ ht
      refine hother ?_ ?_
      · rw [hhead]; simpa using n3
      · rw [hhead]; simpa using n5

end LDL
