import Verif.Props.Frame
import Verif.Props.Crypto
import Verif.Spec.Server
import Verif.Lemmas.Answers

/-!
# The frame put into the transmit buffer
-/

namespace LDL
open LDL.Stream

/-- A block written by a sequence of stores that fill it. -/
theorem block_writes (cs : List Bytes) (h : cs.flatten.length = 16) :
    ((Stream.init Ops.zeroBlock 16).writes cs).mem = cs.flatten := by
  have := writes_ok (s := Stream.init Ops.zeroBlock 16) cs rfl rfl (by simp [Stream.init, h]) (by decide) (by decide)
  rw [this]
  simp [Stream.init, h, Ops.zeroBlock]

/-- `initA` builds the block of the specification. -/
theorem initA_eq (devAddr : Nat) (up : Bool) (counter i : Nat) :
    Ops.initA 0 devAddr up counter i = Spec.blockA up devAddr counter ++ [UInt8.ofNat i] := by
  have : Ops.initA 0 devAddr up counter i = ((Stream.init Ops.zeroBlock 16).writes
      [[UInt8.ofNat 1], bytes32 0, [UInt8.ofNat (if up then 0 else 1)], bytes32 devAddr, bytes32 counter,
        [UInt8.ofNat 0], [UInt8.ofNat i]]).mem := by
    simp only [Ops.initA, putU8, putU32, Stream.writes, List.foldl_cons, List.foldl_nil]
  rw [this, block_writes _ (by simp [bytes32])]
  simp only [bytes32_eq, Spec.blockA, Spec.dirOctet]
  cases up <;> rfl

/-- `initB` builds the block of the specification. -/
theorem initB_eq (conf rate ch : Nat) (up : Bool) (devAddr counter len : Nat) :
    Ops.initB conf rate ch up devAddr counter len = Spec.blockB up conf rate ch devAddr counter len := by
  have : Ops.initB conf rate ch up devAddr counter len = ((Stream.init Ops.zeroBlock 16).writes
      [[UInt8.ofNat 0x49], bytes16 conf, [UInt8.ofNat rate], [UInt8.ofNat ch], [UInt8.ofNat (if up then 0 else 1)],
        bytes32 devAddr, bytes32 counter, [UInt8.ofNat 0], [UInt8.ofNat len]]).mem := by
    simp only [Ops.initB, putU8, putU16, putU32, Stream.writes, List.foldl_cons, List.foldl_nil]
  rw [this, block_writes _ (by simp [bytes32, bytes16])]
  simp only [bytes32_eq, bytes16_eq, Spec.blockB, Spec.dirOctet]
  cases up <;> simp

theorem blockA_length (up : Bool) (a c : Nat) : (Spec.blockA up a c).length = 15 := by
  simp [Spec.blockA, le_length]

theorem blockB_length (up : Bool) (a b c d e f : Nat) : (Spec.blockB up a b c d e f).length = 16 := by
  simp [Spec.blockB, le_length]

/-- The first four octets as a number, as computed by `LDL_SM_mic`. -/
theorem take4_value {t : Bytes} (h : 4 ≤ t.length) : (t.getD 0 0).toNat + 256 * (t.getD 1 0).toNat +
    65536 * (t.getD 2 0).toNat + 16777216 * (t.getD 3 0).toNat = Spec.leValue (t.take 4) := by
  match t, h with
  | a :: b :: c :: d :: t, _ =>
    simp only [List.getD_cons_zero, List.getD_cons_succ, List.take_succ_cons, List.take_zero, Spec.leValue]
    omega

theorem cmac_length {E : Bytes → Bytes} (hE : BlockFn E) (msg : Bytes) : (Spec.cmac E msg).length = 16 := by
  have hc : ∀ (l : List Bytes), (∀ b ∈ l, b.length = 16) → ∀ x : Bytes, x.length = 16 → (Spec.cbc E x l).length = 16 := by
    intro l
    induction l with
    | nil => intro _ x hx; exact hx
    | cons b l ih =>
      intro hb x hx
      refine ih (fun c hc => hb c (by simp [hc])) _ (hE _ ?_)
      rw [xorBytes_length, hx, hb b (by simp)]; rfl
  unfold Spec.cmac
  simp only []
  apply hE
  generalize hn : (if msg.length = 0 then 1 else (msg.length + 15) / 16) = n
  rw [xorBytes_length, hc _ _ _ (by simp)]
  · split
    · next h => rw [xorBytes_length, h, Cmac.double_length]; rfl
    · rw [xorBytes_length, Cmac.double_length]
      simp only [List.length_append, List.length_replicate, List.length_drop, List.length_cons, List.length_nil]
      split at hn <;> omega
  · intro b hb
    simp only [Spec.blocks, List.mem_map, List.mem_range] at hb
    obtain ⟨i, hi, rfl⟩ := hb
    simp only [List.length_take, List.length_drop]
    split at hn <;> omega

theorem micOf_lt {E : Bytes → Bytes} (msg : Bytes) : Spec.micOf E msg < 2 ^ 32 := by
  unfold Spec.micOf
  have := leValue_lt ((Spec.cmac E msg).take 4)
  refine Nat.lt_of_lt_of_le this ?_
  have : ((Spec.cmac E msg).take 4).length ≤ 4 := by rw [List.length_take]; omega
  exact Nat.pow_le_pow_right (by omega) this

/-- `LDL_SM_mic` is the MIC of the specification. -/
theorem sm_mic_eq {cfg : Cfg} (hE : ∀ k, BlockFn (cfg.E k)) (keys : Nat → Bytes) (k : KeyDesc) (b msg : Bytes)
    (hb : b.length = 16) (hm : msg.length ≤ 255) (hne : msg.length ≠ 240) :
    Sm.mic cfg keys k b msg = Spec.micOf (cfg.E (Sm.key cfg keys k)) (b ++ msg) := by
  have h := c12_cmac_frame_partial (hE (Sm.key cfg keys k)) b msg hb hm hne
  simp only [macOf, List.foldl_cons, List.foldl_nil] at h
  unfold Sm.mic
  simp only []
  rw [h, take4_value (by rw [cmac_length (hE _)]; omega)]
  rfl

/-- Without a block in front. -/
theorem sm_mic_nil_eq {cfg : Cfg} (hE : ∀ k, BlockFn (cfg.E k)) (keys : Nat → Bytes) (k : KeyDesc) (msg : Bytes)
    (hm : msg.length ≤ 255) :
    Sm.mic cfg keys k [] msg = Spec.micOf (cfg.E (Sm.key cfg keys k)) msg := by
  have h := c12_cmac_upto_255 (hE (Sm.key cfg keys k)) [[], msg] (by simpa using hm)
  simp only [macOf, List.foldl_cons, List.foldl_nil, List.flatten_cons, List.flatten_nil, List.nil_append,
    List.append_nil] at h
  unfold Sm.mic
  simp only []
  rw [h, take4_value (by rw [cmac_length (hE _)]; omega)]
  rfl

/-- `updateMIC` on a buffer holding a message followed by room for the MIC. -/
theorem updateMIC_eq (body old rest : Bytes) (ho : old.length = 4) (hb : 0 < body.length) (hl : body.length + 4 ≤ 255)
    (mic : Nat) :
    Frame.updateMIC (body ++ old ++ rest) (body.length + 4) mic = body ++ Spec.le 4 mic ++ rest := by
  unfold Frame.updateMIC
  rw [if_pos (by omega)]
  simp only []
  have hs : (Stream.init (body ++ old ++ rest) (body.length + 4)).seekSet (body.length + 4 - 4) =
      (true, { Stream.init (body ++ old ++ rest) (body.length + 4) with pos := body.length }) := by
    unfold Stream.seekSet
    simp [Stream.init]
  rw [hs]
  simp only [putU32, bytes32_eq]
  rw [write_ok (by simp [Stream.init]) (by simp [Stream.init]) (by simp [Stream.init, le_length])
    (by simp [Stream.init, ho]) (by simp [Stream.init]; omega)]
  simp [Stream.init, le_length, ho]

/-- Too short for a MIC, nothing happens. -/
theorem updateMIC_short (buf : Bytes) (len mic : Nat) (h : len ≤ 4) : Frame.updateMIC buf len mic = buf := by
  unfold Frame.updateMIC; rw [if_neg (by omega)]

theorem memcpyAt_length (dst src : Bytes) (off : Nat) (h : off + src.length ≤ dst.length) :
    (memcpyAt dst off src).length = dst.length := by
  unfold memcpyAt
  simp only [List.length_append, List.length_take, List.length_drop]
  omega

/-- Encryption of a part of a buffer. -/
theorem ctrAt_eq {cfg : Cfg} (hE : ∀ k, BlockFn (cfg.E k)) (keys : Nat → Bytes) (k : KeyDesc) (up : Bool)
    (devAddr counter i : Nat) (pre mid post : Bytes) (h8 : mid.length ≤ 255) :
    Sm.ctrAt cfg keys k (Ops.initA 0 devAddr up counter i) (pre ++ mid ++ post) pre.length mid.length =
      pre ++ Spec.payloadCrypt (cfg.E (Sm.key cfg keys k)) (Spec.blockA up devAddr counter) i mid ++ post := by
  unfold Sm.ctrAt
  have h1 : ((pre ++ mid ++ post).drop pre.length).take mid.length = mid := by
    rw [List.append_assoc, List.drop_left, List.take_left]
  rw [h1, initA_eq, c11_ctr_is_spec (hE _) _ _ _ (blockA_length ..) h8]
  unfold memcpyAt
  have h2 := payloadCrypt_length (i := i) (hE (Sm.key cfg keys k)) (blockA_length up devAddr counter) mid
  rw [h2, List.append_assoc pre mid post, List.take_left, ← List.append_assoc pre mid post]
  congr 1
  have : pre.length + mid.length = (pre ++ mid).length := by simp
  rw [this, List.drop_left]

theorem ctrAt_zero {cfg : Cfg} (hE : ∀ k, BlockFn (cfg.E k)) (keys : Nat → Bytes) (k : KeyDesc) (up : Bool)
    (devAddr counter i : Nat) (buf : Bytes) (off : Nat) :
    Sm.ctrAt cfg keys k (Ops.initA 0 devAddr up counter i) buf off 0 = buf := by
  unfold Sm.ctrAt
  rw [List.take_zero, initA_eq, c11_ctr_is_spec (hE _) _ _ _ (blockA_length ..) (by simp)]
  have : Spec.payloadCrypt (cfg.E (Sm.key cfg keys k)) (Spec.blockA up devAddr counter) i [] = [] := rfl
  rw [this]
  simp [memcpyAt]

/-- The keys of the device. -/
def deviceKeys (cfg : Cfg) (m : Mac) : Spec.SessionKeys where
  fNwkSInt := Sm.key cfg m.keys .fNwkSInt
  sNwkSInt := Sm.key cfg m.keys .sNwkSInt
  nwkSEnc := Sm.key cfg m.keys .nwkSEnc
  appS := Sm.key cfg m.keys .appS

/-- Whether the session is a 1.1 session. -/
def sess11 (cfg : Cfg) (m : Mac) : Bool := decide (sessVersion cfg m.ctx = 1)

/-- The frame `f` with options and payload encrypted. -/
def sealed (cfg : Cfg) (m : Mac) (f : Frame.Data) : Spec.DataFrame :=
  { Frame.toSpec f with
    fopts := Spec.cryptOpts cfg.E (sess11 cfg m) (deviceKeys cfg m) true f.devAddr f.counter f.opts
    payload := f.data.map fun d =>
      (f.port, Spec.cryptPayload cfg.E (deviceKeys cfg m) true f.devAddr f.counter f.port d) }

/-- The MIC the device puts behind `body`. -/
def upMic (cfg : Cfg) (m : Mac) (body : Bytes) : Nat :=
  let micF := Sm.mic cfg m.keys .fNwkSInt (Ops.initB 0 0 0 true m.ctx.devAddr m.tx.counter body.length) body
  if sessVersion cfg m.ctx = 1 then
    let micS := Sm.mic cfg m.keys .sNwkSInt
      (Ops.initB 0 m.tx.rate m.tx.chIndex true m.ctx.devAddr m.tx.counter body.length) body
    u32 (micF <<< 16) ||| (micS &&& 0xffff)
  else micF

theorem micDataFrame_eq (cfg : Cfg) (m : Mac) (body old rest : Bytes) (ho : old.length = 4) (hb : 0 < body.length)
    (hl : body.length + 4 ≤ 255) :
    Ops.micDataFrame cfg m (body ++ old ++ rest) (body.length + 4) = body ++ Spec.le 4 (upMic cfg m body) ++ rest := by
  have h1 : u8 (body.length + 4 + 252) = body.length := by unfold u8; omega
  have h2 : (body ++ old ++ rest).take body.length = body := by rw [List.append_assoc, List.take_left]
  unfold Ops.micDataFrame upMic
  simp only [h1, h2]
  by_cases hv : sessVersion cfg m.ctx = 1
  · rw [if_pos hv, if_pos hv]; exact updateMIC_eq body old rest ho hb hl _
  · rw [if_neg hv, if_neg hv]; exact updateMIC_eq body old rest ho hb hl _

theorem or_shift (a b : Nat) : u32 (a <<< 16) ||| (b &&& 0xffff) = b % 65536 + 65536 * (a % 65536) := by
  have h1 : u32 (a <<< 16) = (a % 65536) <<< 16 := by
    unfold u32; rw [Nat.shiftLeft_eq, Nat.shiftLeft_eq]; omega
  have h2 : b &&& 0xffff = b % 65536 := Nat.and_two_pow_sub_one_eq_mod b 16
  rw [h1, h2, ← Nat.shiftLeft_add_eq_or_of_lt (by omega), Nat.shiftLeft_eq]; omega

/-- The MIC is the one of the specification, except for the one length at which the CMAC of the device wraps. -/
theorem upMic_eq {cfg : Cfg} (hE : ∀ k, BlockFn (cfg.E k)) (m : Mac) (body : Bytes) (hl : body.length ≤ 255)
    (hne : body.length ≠ 240) :
    upMic cfg m body = Spec.uplinkMic cfg.E (sess11 cfg m) (deviceKeys cfg m) m.ctx.devAddr m.tx.counter 0 m.tx.rate
      m.tx.chIndex body := by
  unfold upMic Spec.uplinkMic sess11
  simp only [decide_eq_true_iff, initB_eq]
  rw [sm_mic_eq hE _ _ _ _ (blockB_length ..) hl hne, sm_mic_eq hE _ _ _ _ (blockB_length ..) hl hne]
  split
  · exact or_shift _ _
  · rfl

theorem toSpec_fopts {f : Frame.Data} (h : f.opts.length ≤ 15) : (Frame.toSpec f).fopts = f.opts := by
  show f.opts.take (f.opts.length % 16) = _
  rw [Nat.mod_eq_of_lt (by omega), List.take_length]

theorem cryptOpts_length {cfg : Cfg} (hE : ∀ k, BlockFn (cfg.E k)) (v : Bool) (k : Spec.SessionKeys) (up : Bool)
    (a c : Nat) (o : Bytes) : (Spec.cryptOpts cfg.E v k up a c o).length = o.length := by
  unfold Spec.cryptOpts
  split
  · exact payloadCrypt_length (hE _) (blockA_length ..) _ _
  · rfl

theorem cryptPayload_length {cfg : Cfg} (hE : ∀ k, BlockFn (cfg.E k)) (k : Spec.SessionKeys) (up : Bool)
    (a c p : Nat) (o : Bytes) : (Spec.cryptPayload cfg.E k up a c p o).length = o.length :=
  payloadCrypt_length (hE _) (blockA_length ..) _ _

/-- The length of a frame. -/
theorem body_length (f : Spec.DataFrame) :
    f.body.length = 8 + f.fopts.length + (Spec.portPayload f.payload).length := by
  simp only [Spec.DataFrame.body, List.length_append, List.length_cons, List.length_nil, le_length]

/-- The part of a frame in front of the options. -/
def frameHead (f : Spec.DataFrame) : Bytes :=
  [Spec.mhdr f.mtype] ++ Spec.le 4 f.devAddr ++ [UInt8.ofNat f.fctrl] ++ Spec.le 2 f.fcnt

theorem frameHead_length (f : Spec.DataFrame) : (frameHead f).length = 8 := by
  simp [frameHead, le_length]

theorem sealed_length {cfg : Cfg} (hE : ∀ k, BlockFn (cfg.E k)) (m : Mac) (f : Frame.Data) (ho : f.opts.length ≤ 15) :
    (sealed cfg m f).body.length = (Frame.toSpec f).body.length := by
  rw [body_length, body_length, toSpec_fopts ho]
  have h1 : (sealed cfg m f).fopts.length = f.opts.length := cryptOpts_length hE ..
  rw [h1]
  congr 1
  unfold sealed Frame.toSpec
  cases f.data with
  | none => rfl
  | some d => simp only [Option.map_some, Spec.portPayload, List.length_cons, cryptPayload_length hE]

theorem sealed_head {cfg : Cfg} (hE : ∀ k, BlockFn (cfg.E k)) (m : Mac) (f : Frame.Data) (ho : f.opts.length ≤ 15) :
    frameHead (sealed cfg m f) = frameHead (Frame.toSpec f) := by
  have h1 : (sealed cfg m f).fopts.length = f.opts.length := cryptOpts_length hE ..
  have h2 : (sealed cfg m f).fctrl = (Frame.toSpec f).fctrl := by
    unfold Spec.DataFrame.fctrl
    rw [h1, toSpec_fopts ho]
    rfl
  unfold frameHead
  rw [h2]
  rfl

/-- **What `LDL_OPS_prepareData` leaves in the buffer**: the sealed frame. -/
theorem prepareData_eq {cfg : Cfg} (hE : ∀ k, BlockFn (cfg.E k)) (m : Mac) (f : Frame.Data) (hd : DataContract f)
    (hn : f.data = none → f.dataLen = 0) (ho : f.opts.length ≤ 15) (out : Bytes) (hb : 255 ≤ out.length)
    (hl : (Frame.toSpec f).encode.length ≤ 255) :
    Ops.prepareData cfg m f out 255 = ((sealed cfg m f).body.length + 4,
      (sealed cfg m f).body ++ Spec.le 4 f.mic ++ out.drop ((sealed cfg m f).body.length + 4)) := by
  have hp := (c03_put_data f hd out 255 hb (Nat.le_refl _)).1 hl
  have hoff := c03_offsets f hd out 255 hb (Nat.le_refl _) hl
  have hel : (Frame.toSpec f).encode.length = (Frame.toSpec f).body.length + 4 := by
    unfold Spec.DataFrame.encode; rw [List.length_append, le_length]
  have hsl := sealed_length hE m f ho
  have hopt := toSpec_fopts ho
  have hbl := body_length (Frame.toSpec f)
  rcases hr : Frame.putData f out 255 with ⟨n, o, off⟩
  rw [hr] at hp hoff
  simp only at hp hoff
  obtain ⟨hn1, ho1⟩ := hp
  obtain ⟨hoo, hod⟩ := hoff
  unfold Ops.prepareData
  simp only [hr]
  rw [if_pos (by omega), hn1, hel, hsl]
  congr 1
  -- the buffer, split
  generalize hrest : out.drop ((Frame.toSpec f).body.length + 4) = rest
  rw [hel, hrest] at ho1
  have hsplit : o = frameHead (Frame.toSpec f) ++ f.opts ++ (Spec.portPayload (Frame.toSpec f).payload ++
      Spec.le 4 f.mic ++ rest) := by
    rw [ho1]
    unfold Spec.DataFrame.encode Spec.DataFrame.body frameHead
    rw [hopt]
    simp only [List.append_assoc]
    rfl
  have h1 : (if sessVersion cfg m.ctx = 1 then
        Sm.ctrAt cfg m.keys .nwkSEnc (Ops.initA 0 f.devAddr true f.counter 0) o off.opts f.opts.length
      else o) = frameHead (Frame.toSpec f) ++ (sealed cfg m f).fopts ++ (Spec.portPayload (Frame.toSpec f).payload ++
      Spec.le 4 f.mic ++ rest) := by
    have hs : (sealed cfg m f).fopts =
        Spec.cryptOpts cfg.E (sess11 cfg m) (deviceKeys cfg m) true f.devAddr f.counter f.opts := rfl
    rw [hs]
    unfold Spec.cryptOpts sess11
    by_cases hv : sessVersion cfg m.ctx = 1
    · rw [if_pos hv, if_pos (by simpa using hv), hoo, hsplit, ← frameHead_length (Frame.toSpec f)]
      exact ctrAt_eq hE _ _ _ _ _ _ _ _ _ (by omega)
    · rw [if_neg hv, if_neg (by simpa using hv)]; exact hsplit
  rw [h1]
  have hfo : (sealed cfg m f).fopts.length = f.opts.length := cryptOpts_length hE ..
  have hbody : (sealed cfg m f).body = frameHead (Frame.toSpec f) ++ (sealed cfg m f).fopts ++
      Spec.portPayload (sealed cfg m f).payload := by
    rw [← sealed_head hE m f ho]
    rfl
  rw [hbody]
  generalize (sealed cfg m f).fopts = fo at hfo
  cases hdat : f.data with
  | none =>
    have hp1 : (Frame.toSpec f).payload = none := by unfold Frame.toSpec; rw [hdat]; rfl
    have hp2 : (sealed cfg m f).payload = none := by unfold sealed; rw [hdat]; rfl
    rw [hp1, hp2, hn hdat]
    simp only [Spec.portPayload, List.nil_append, List.append_nil]
    rw [ctrAt_zero hE]
    simp only [List.append_assoc]
  | some d =>
    have hp1 : (Frame.toSpec f).payload = some (f.port, d) := by unfold Frame.toSpec; rw [hdat]; rfl
    have hp2 : (sealed cfg m f).payload = some (f.port,
        Spec.cryptPayload cfg.E (deviceKeys cfg m) true f.devAddr f.counter f.port d) := by
      unfold sealed; rw [hdat]; rfl
    have hlen : d.length = f.dataLen := hd d hdat
    rw [hp1, hp2]
    have hoff2 : off.data = (frameHead (Frame.toSpec f) ++ fo ++ [UInt8.ofNat f.port]).length := by
      rw [hod (by rw [hdat]; rfl), hopt]
      simp only [List.length_append, frameHead_length, hfo, List.length_cons, List.length_nil]
    rw [hoff2, ← hlen]
    have hdl : d.length ≤ 255 := by
      rw [hp1] at hbl
      simp only [Spec.portPayload, List.length_cons] at hbl
      omega
    have := ctrAt_eq hE m.keys (if f.port = 0 then .nwkSEnc else .appS) true f.devAddr f.counter 1
      (frameHead (Frame.toSpec f) ++ fo ++ [UInt8.ofNat f.port]) d (Spec.le 4 f.mic ++ rest) hdl
    have e1 : frameHead (Frame.toSpec f) ++ fo ++ (Spec.portPayload (some (f.port, d)) ++ Spec.le 4 f.mic ++ rest) =
        frameHead (Frame.toSpec f) ++ fo ++ [UInt8.ofNat f.port] ++ d ++ (Spec.le 4 f.mic ++ rest) := by
      simp only [Spec.portPayload, List.append_assoc, List.cons_append, List.nil_append]
    rw [e1, this]
    unfold Spec.cryptPayload deviceKeys
    simp only [Spec.portPayload, List.append_assoc, List.cons_append, List.nil_append]
    split <;> rfl

/-- **The frame an accepted send leaves in the buffer.** -/
theorem bufferFrame_eq {cfg : Cfg} (hE : ∀ k, BlockFn (cfg.E k)) (m : Mac) (f : Frame.Data) (hd : DataContract f)
    (hn : f.data = none → f.dataLen = 0) (ho : f.opts.length ≤ 15) (hb : m.buffer.length = 255)
    (hl : (Frame.toSpec f).encode.length ≤ 255) :
    (bufferFrame cfg m f).bufferLen = (sealed cfg m f).body.length + 4 ∧
    (bufferFrame cfg m f).buffer = (sealed cfg m f).body ++ Spec.le 4 (upMic cfg m (sealed cfg m f).body) ++
      m.buffer.drop ((sealed cfg m f).body.length + 4) := by
  have hp := prepareData_eq hE m f hd hn ho m.buffer (by omega) hl
  have hsl := sealed_length hE m f ho
  have hbl := body_length (Frame.toSpec f)
  have hel : (Frame.toSpec f).encode.length = (Frame.toSpec f).body.length + 4 := by
    unfold Spec.DataFrame.encode; rw [List.length_append, le_length]
  unfold bufferFrame
  simp only [hp]
  refine ⟨trivial, ?_⟩
  have := micDataFrame_eq cfg m (sealed cfg m f).body (Spec.le 4 f.mic)
    (m.buffer.drop ((sealed cfg m f).body.length + 4)) (le_length _ _) (by omega) (by omega)
  rw [← this]
  rfl

end LDL
