import Verif.Model.Errata
import Verif.Spec.Errata
import Verif.Props.Downlink
import Verif.Props.Uplink

/-!
# C100: FOpts with the A1 errata option
-/

namespace LDL
open LDL.Stream LDL.Spec LDL.Frame

/-- The first 15 octets of a block with `c` in its second octet. -/
def kindHdr (c : UInt8) (up : Bool) (devAddr fcnt : Nat) : Bytes :=
  [1, c, 0, 0, 0, dirOctet up] ++ le 4 devAddr ++ le 4 fcnt ++ [0]

theorem kindHdr_length (c : UInt8) (up : Bool) (a n : Nat) : (kindHdr c up a n).length = 15 := by
  simp [kindHdr, le_length]

theorem bytes32_small (c : Nat) (hc : c < 256) : bytes32 c = [UInt8.ofNat c, 0, 0, 0] := by
  have key : ∀ i : Fin 256, bytes32 i.val = [UInt8.ofNat i.val, 0, 0, 0] := by decide +kernel
  exact key ⟨c, hc⟩

theorem initA_kind (c devAddr : Nat) (up : Bool) (counter i : Nat) (hc : c < 256) :
    Ops.initA c devAddr up counter i = kindHdr (UInt8.ofNat c) up devAddr counter ++ [UInt8.ofNat i] := by
  have : Ops.initA c devAddr up counter i = ((Stream.init Ops.zeroBlock 16).writes
      [[UInt8.ofNat 1], bytes32 c, [UInt8.ofNat (if up then 0 else 1)], bytes32 devAddr, bytes32 counter,
        [UInt8.ofNat 0], [UInt8.ofNat i]]).mem := by
    simp only [Ops.initA, putU8, putU32, Stream.writes, List.foldl_cons, List.foldl_nil]
  rw [this, block_writes _ (by simp [bytes32]), bytes32_small c hc]
  simp only [bytes32_eq, kindHdr, Spec.dirOctet]
  cases up <;> rfl

/-- A part of a buffer encrypted with any block. -/
theorem ctrAt_hdr {cfg : Cfg} (hE : ∀ k, BlockFn (cfg.E k)) (keys : Nat → Bytes) (k : KeyDesc) (hdr : Bytes) (i : Nat)
    (hh : hdr.length = 15) (buf : Bytes) (off len : Nat) (h8 : len ≤ 255) :
    Sm.ctrAt cfg keys k (hdr ++ [UInt8.ofNat i]) buf off len =
      memcpyAt buf off (payloadCrypt (cfg.E (Sm.key cfg keys k)) hdr i (slice buf off len)) := by
  unfold Sm.ctrAt
  have hl : ((buf.drop off).take len).length ≤ 255 := by rw [List.length_take]; omega
  rw [c11_ctr_is_spec (hE _) _ _ _ hh hl]
  rfl

/-- At most one block: xor with the encrypted block. -/
theorem payloadCrypt_one {E : Bytes → Bytes} (hdr : Bytes) (i : Nat) (d : Bytes) (hd : d.length ≤ 16) :
    payloadCrypt E hdr i d = xorBytes d (E (hdr ++ [UInt8.ofNat i])) := by
  unfold payloadCrypt
  by_cases h0 : d = []
  · subst h0; rfl
  · have : 0 < d.length := List.length_pos_iff.2 h0
    have : (d.length + 15) / 16 = 1 := by omega
    rw [this]
    simp [keystream, counterBlock]

/-- The options as the code encrypts them: with `c` in the second octet of the block, `i` in the last. -/
def codeOpts (E : Bytes → Bytes → Bytes) (v11 : Bool) (k : SessionKeys) (c i : UInt8) (up : Bool) (devAddr fcnt : Nat)
    (opts : Bytes) : Bytes :=
  if v11 then xorBytes opts (E k.nwkSEnc (kindHdr c up devAddr fcnt ++ [i])) else opts

/-- The octet by which the code tells downlinks with a port from those without. -/
def downOctet (p : DataFrame) : UInt8 := if p.payload.isSome then 2 else 1

/-- FOpts has at most 15 octets. -/
theorem parseData_fopts {bs : Bytes} {p : DataFrame} (hp : parseData bs = some p) : p.fopts.length ≤ 15 := by
  have hn := parseData_ge hp
  obtain ⟨b0, a0, a1, a2, a3, c, n0, n1, rest, rfl⟩ := eight (by omega : 8 ≤ bs.length)
  simp only [parseData] at hp
  split at hp
  · injection hp with hp
    rw [← hp]
    simp only [List.length_take]
    omega
  · cases hp

/-- The options as the option in question leaves them, in a frame that is otherwise as ever. -/
def sealedErrata (cfg : Cfg) (m : Mac) (f : Frame.Data) : DataFrame :=
  { Frame.toSpec f with
    fopts := codeOpts cfg.E (sess11 cfg m) (deviceKeys cfg m) 1 1 true f.devAddr f.counter f.opts
    payload := f.data.map fun d => (f.port, cryptPayload cfg.E (deviceKeys cfg m) true f.devAddr f.counter f.port d) }

theorem codeOpts_length {cfg : Cfg} (hE : ∀ k, BlockFn (cfg.E k)) (v : Bool) (k : SessionKeys) (c i : UInt8) (up : Bool)
    (a n : Nat) (o : Bytes) (ho : o.length ≤ 16) : (codeOpts cfg.E v k c i up a n o).length = o.length := by
  unfold codeOpts
  split
  · have := payloadCrypt_length (i := i.toNat) (hE k.nwkSEnc) (kindHdr_length c up a n) o
    rw [payloadCrypt_one _ _ _ ho] at this
    simpa using this
  · rfl

theorem sealedErrata_head {cfg : Cfg} (hE : ∀ k, BlockFn (cfg.E k)) (m : Mac) (f : Frame.Data) (ho : f.opts.length ≤ 15) :
    frameHead (sealedErrata cfg m f) = frameHead (Frame.toSpec f) := by
  have h1 : (sealedErrata cfg m f).fopts.length = f.opts.length := codeOpts_length hE _ _ _ _ _ _ _ _ (by omega)
  have h2 : (sealedErrata cfg m f).fctrl = (Frame.toSpec f).fctrl := by
    unfold Spec.DataFrame.fctrl
    rw [h1, toSpec_fopts ho]
    rfl
  unfold frameHead
  rw [h2]
  rfl

theorem sealedErrata_length {cfg : Cfg} (hE : ∀ k, BlockFn (cfg.E k)) (m : Mac) (f : Frame.Data)
    (ho : f.opts.length ≤ 15) : (sealedErrata cfg m f).body.length = (Frame.toSpec f).body.length := by
  rw [body_length, body_length, toSpec_fopts ho]
  have h1 : (sealedErrata cfg m f).fopts.length = f.opts.length := codeOpts_length hE _ _ _ _ _ _ _ _ (by omega)
  rw [h1]
  congr 1
  unfold sealedErrata Frame.toSpec
  cases f.data with
  | none => rfl
  | some d => simp only [Option.map_some, Spec.portPayload, List.length_cons, cryptPayload_length hE]

/-- Encryption of a part of a buffer, with any block. -/
theorem ctrAt_mid {cfg : Cfg} (hE : ∀ k, BlockFn (cfg.E k)) (keys : Nat → Bytes) (k : KeyDesc) (hdr : Bytes) (i : Nat)
    (hh : hdr.length = 15) (pre mid post : Bytes) (h8 : mid.length ≤ 255) :
    Sm.ctrAt cfg keys k (hdr ++ [UInt8.ofNat i]) (pre ++ mid ++ post) pre.length mid.length =
      pre ++ payloadCrypt (cfg.E (Sm.key cfg keys k)) hdr i mid ++ post := by
  unfold Sm.ctrAt
  have h1 : ((pre ++ mid ++ post).drop pre.length).take mid.length = mid := by
    rw [List.append_assoc, List.drop_left, List.take_left]
  rw [h1, c11_ctr_is_spec (hE _) _ _ _ hh h8]
  unfold memcpyAt
  have h2 := payloadCrypt_length (i := i) (hE (Sm.key cfg keys k)) hh mid
  rw [h2, List.append_assoc pre mid post, List.take_left, ← List.append_assoc pre mid post]
  congr 1
  have : pre.length + mid.length = (pre ++ mid).length := by simp
  rw [this, List.drop_left]

/-- **C100**, partial, uplinks: a build with the option sends every frame as the default build does, but for FOpts in
a 1.1 session.  These are encrypted with the block 0x01 | 0x01 | 3 × 0x00 | Dir | DevAddr | FCnt | 0x00 | 0x01. -/
theorem c100_uplink_partial {cfg : Cfg} (hE : ∀ k, BlockFn (cfg.E k)) (m : Mac) (f : Frame.Data) (hd : DataContract f)
    (hn : f.data = none → f.dataLen = 0) (ho : f.opts.length ≤ 15) (out : Bytes) (hb : 255 ≤ out.length)
    (hl : (Frame.toSpec f).encode.length ≤ 255) :
    Errata.prepareData cfg m f out 255 = ((sealedErrata cfg m f).body.length + 4,
      (sealedErrata cfg m f).body ++ Spec.le 4 f.mic ++ out.drop ((sealedErrata cfg m f).body.length + 4)) := by
  have hp := (c03_put_data f hd out 255 hb (Nat.le_refl _)).1 hl
  have hoff := c03_offsets f hd out 255 hb (Nat.le_refl _) hl
  have hel : (Frame.toSpec f).encode.length = (Frame.toSpec f).body.length + 4 := by
    unfold Spec.DataFrame.encode; rw [List.length_append, le_length]
  have hsl := sealedErrata_length hE m f ho
  have hopt := toSpec_fopts ho
  have hbl := body_length (Frame.toSpec f)
  rcases hr : Frame.putData f out 255 with ⟨n, o, off⟩
  rw [hr] at hp hoff
  simp only at hp hoff
  obtain ⟨hn1, ho1⟩ := hp
  obtain ⟨hoo, hod⟩ := hoff
  unfold Errata.prepareData
  simp only [hr]
  rw [if_pos (by omega), hn1, hel, hsl]
  congr 1
  generalize hrest : out.drop ((Frame.toSpec f).body.length + 4) = rest
  rw [hel, hrest] at ho1
  have hsplit : o = frameHead (Frame.toSpec f) ++ f.opts ++ (Spec.portPayload (Frame.toSpec f).payload ++
      Spec.le 4 f.mic ++ rest) := by
    rw [ho1]
    unfold Spec.DataFrame.encode Spec.DataFrame.body frameHead
    rw [hopt]
    simp only [List.append_assoc]
    rfl
  have h1 : (if sessVersion cfg m.ctx = 1 then
        Sm.ctrAt cfg m.keys .nwkSEnc (Errata.upBlock f.devAddr f.counter) o off.opts f.opts.length
      else o) = frameHead (Frame.toSpec f) ++ (sealedErrata cfg m f).fopts ++
        (Spec.portPayload (Frame.toSpec f).payload ++ Spec.le 4 f.mic ++ rest) := by
    have hs : (sealedErrata cfg m f).fopts =
        codeOpts cfg.E (sess11 cfg m) (deviceKeys cfg m) 1 1 true f.devAddr f.counter f.opts := rfl
    rw [hs]
    unfold codeOpts sess11
    by_cases hv : sessVersion cfg m.ctx = 1
    · rw [if_pos hv, if_pos (by simpa using hv), hoo, hsplit, ← frameHead_length (Frame.toSpec f)]
      unfold Errata.upBlock
      rw [initA_kind _ _ _ _ _ (by decide), ctrAt_mid hE _ _ _ _ (kindHdr_length ..) _ _ _ (by omega),
        payloadCrypt_one _ _ _ (by omega)]
      rfl
    · rw [if_neg hv, if_neg (by simpa using hv)]; exact hsplit
  rw [h1]
  have hfo : (sealedErrata cfg m f).fopts.length = f.opts.length := codeOpts_length hE _ _ _ _ _ _ _ _ (by omega)
  have hbody : (sealedErrata cfg m f).body = frameHead (Frame.toSpec f) ++ (sealedErrata cfg m f).fopts ++
      Spec.portPayload (sealedErrata cfg m f).payload := by
    rw [← sealedErrata_head hE m f ho]
    rfl
  rw [hbody]
  generalize (sealedErrata cfg m f).fopts = fo at hfo
  cases hdat : f.data with
  | none =>
    have hp1 : (Frame.toSpec f).payload = none := by unfold Frame.toSpec; rw [hdat]; rfl
    have hp2 : (sealedErrata cfg m f).payload = none := by unfold sealedErrata; rw [hdat]; rfl
    rw [hp1, hp2, hn hdat]
    simp only [Spec.portPayload, List.nil_append, List.append_nil]
    rw [ctrAt_zero hE]
    simp only [List.append_assoc]
  | some d =>
    have hp1 : (Frame.toSpec f).payload = some (f.port, d) := by unfold Frame.toSpec; rw [hdat]; rfl
    have hp2 : (sealedErrata cfg m f).payload = some (f.port,
        Spec.cryptPayload cfg.E (deviceKeys cfg m) true f.devAddr f.counter f.port d) := by
      unfold sealedErrata; rw [hdat]; rfl
    have hlen : d.length = f.dataLen := hd d hdat
    rw [hp1, hp2]
    have hoff2 : off.data = (frameHead (Frame.toSpec f) ++ fo ++ [UInt8.ofNat f.port]).length := by
      rw [hod (by rw [hdat]; rfl), hopt]
      simp only [List.length_append, frameHead_length, hfo, List.length_cons, List.length_nil]
    rw [hoff2, ← hlen]
    have hdl : d.length ≤ 255 := by
      rw [hp1] at hbl
      simp only [Spec.portPayload, List.length_cons] at hbl
      omega
    have := ctrAt_eq hE m.keys (if f.port = 0 then .nwkSEnc else .appS) true f.devAddr f.counter 1
      (frameHead (Frame.toSpec f) ++ fo ++ [UInt8.ofNat f.port]) d (Spec.le 4 f.mic ++ rest) hdl
    have e1 : frameHead (Frame.toSpec f) ++ fo ++ (Spec.portPayload (some (f.port, d)) ++ Spec.le 4 f.mic ++ rest) =
        frameHead (Frame.toSpec f) ++ fo ++ [UInt8.ofNat f.port] ++ d ++ (Spec.le 4 f.mic ++ rest) := by
      simp only [Spec.portPayload, List.append_assoc, List.cons_append, List.nil_append]
    rw [e1, this]
    unfold Spec.cryptPayload deviceKeys
    simp only [Spec.portPayload, List.append_assoc, List.cons_append, List.nil_append]
    split <;> rfl

/-- The buffer after decryption. -/
theorem decryptedErrata {cfg : Cfg} (hE : ∀ k, BlockFn (cfg.E k)) (m : Mac) {bs tail : Bytes} {p : DataFrame}
    {f : Frame.Down} (hr : Reports bs f p) (h8 : bs.length ≤ 255) (ho15 : p.fopts.length ≤ 15) :
    let buf := Ops.decryptPayload cfg m f (Errata.decryptOpts cfg m f (bs ++ tail))
    (∀ o, f.opts = some o → slice buf o f.optsLen = codeOpts cfg.E (sess11 cfg m) (deviceKeys cfg m)
      (downOctet p) 0 false p.devAddr p.fcnt p.fopts) ∧
    (∀ o, f.data = some o → ∃ port d, p.payload = some (port, d) ∧ slice buf o f.dataLen =
      cryptPayload cfg.E (deviceKeys cfg m) false p.devAddr p.fcnt port d) := by
  intro buf
  have hb : buf = Ops.decryptPayload cfg m f (Errata.decryptOpts cfg m f (bs ++ tail)) := rfl
  clear_value buf
  have h1 : (Errata.decryptOpts cfg m f (bs ++ tail)).length = (bs ++ tail).length ∧
      (∀ o, f.opts = some o → slice (Errata.decryptOpts cfg m f (bs ++ tail)) o f.optsLen =
        codeOpts cfg.E (sess11 cfg m) (deviceKeys cfg m) (downOctet p) 0 false p.devAddr p.fcnt
          p.fopts) ∧
      (∀ i n, 8 + f.optsLen ≤ i → i + n ≤ bs.length →
        slice (Errata.decryptOpts cfg m f (bs ++ tail)) i n = slice bs i n) := by
    unfold Errata.decryptOpts codeOpts sess11
    by_cases hv : sessVersion cfg m.ctx = 1
    · rw [if_pos hv]
      cases ho : f.opts with
      | none => exact ⟨rfl, (fun _ h => by cases h), fun i n _ h => slice_append _ _ _ _ h⟩
      | some o =>
        obtain ⟨r1, r2, r3⟩ := hr.opts o ho
        simp only []
        have hsl : slice (bs ++ tail) o f.optsLen = p.fopts := by rw [slice_append _ _ _ _ (by omega), r1]
        have hblk : Errata.downBlock f.dataPresent f.devAddr f.counter =
            kindHdr (downOctet p) false p.devAddr p.fcnt ++ [UInt8.ofNat 0] := by
          unfold Errata.downBlock
          rw [hr.dataPresent, hr.devAddr, hr.counter]
          unfold downOctet
          cases p.payload.isSome <;> exact initA_kind _ _ _ _ _ (by decide)
        rw [hblk, ctrAt_hdr hE _ _ _ _ (kindHdr_length ..) _ _ _ (by omega), hsl]
        have hl : (payloadCrypt (cfg.E (Sm.key cfg m.keys .nwkSEnc))
            (kindHdr (downOctet p) false p.devAddr p.fcnt) 0 p.fopts).length = f.optsLen := by
          rw [payloadCrypt_length (hE _) (kindHdr_length ..), hr.optsLen]
        refine ⟨?_, ?_, ?_⟩
        · rw [memcpyAt_length]
          rw [hl, List.length_append]; omega
        · intro o' ho'
          cases ho'
          rw [if_pos (by simpa using hv)]
          conv => lhs; rw [← hl]
          rw [slice_memcpy_same _ _ _ (by rw [List.length_append]; omega), payloadCrypt_one _ _ _ (by omega)]
          rfl
        · intro i n hi hn
          rw [slice_memcpy_after _ _ _ _ _ (by rw [hl, List.length_append]; omega) (by rw [hl]; omega),
            slice_append _ _ _ _ hn]
    · rw [if_neg hv]
      refine ⟨rfl, fun o ho => ?_, fun i n _ h => slice_append _ _ _ _ h⟩
      rw [if_neg (by simpa using hv)]
      obtain ⟨r1, r2, r3⟩ := hr.opts o ho
      rw [slice_append _ _ _ _ (by omega), r1]
  obtain ⟨l1, s1, k1⟩ := h1
  generalize Errata.decryptOpts cfg m f (bs ++ tail) = b1 at *
  rw [hb]
  unfold Ops.decryptPayload
  cases hd : f.data with
  | none => exact ⟨s1, fun _ h => by cases h⟩
  | some o =>
    obtain ⟨port, q1, q2, q3⟩ := hr.data o hd
    simp only []
    have hport := (hr.port _ _ q1).1
    have hsl : slice b1 o f.dataLen = slice bs o f.dataLen := k1 _ _ (by omega) (by omega)
    rw [ctrAt_slice hE _ _ _ _ _ _ _ _ _ (by omega), hsl, hr.devAddr, hr.counter, hport]
    have hl : (payloadCrypt (cfg.E (Sm.key cfg m.keys (if port = 0 then .nwkSEnc else .appS)))
        (blockA false p.devAddr p.fcnt) 1 (slice bs o f.dataLen)).length = f.dataLen := by
      rw [payloadCrypt_length (hE _) (blockA_length ..)]
      unfold slice
      rw [List.length_take, List.length_drop]; omega
    have hlb : o + f.dataLen ≤ b1.length := by rw [l1, List.length_append]; omega
    refine ⟨?_, ?_⟩
    · intro o' ho'
      obtain ⟨_, r2, r3⟩ := hr.opts o' ho'
      rw [slice_memcpy_before _ _ _ _ _ (by omega) (by omega)]
      exact s1 _ ho'
    · intro o' ho'
      cases ho'
      refine ⟨port, _, q1, ?_⟩
      have hkey : cryptPayload cfg.E (deviceKeys cfg m) false p.devAddr p.fcnt port (slice bs o f.dataLen) =
          payloadCrypt (cfg.E (Sm.key cfg m.keys (if port = 0 then .nwkSEnc else .appS)))
            (blockA false p.devAddr p.fcnt) 1 (slice bs o f.dataLen) := by
        unfold cryptPayload deviceKeys
        by_cases h0 : port = 0
        · rw [if_pos h0, if_pos h0]
        · rw [if_neg h0, if_neg h0]
      rw [hkey]
      generalize payloadCrypt _ _ _ (slice bs o f.dataLen) = x at hl ⊢
      rw [← hl] at hlb ⊢
      exact slice_memcpy_same _ _ _ (by omega)

/-- **C100**, partial, downlinks: the same frames are accepted as in the default build, with the same payload.  The
options of a 1.1 session are decrypted with the block 0x01 | X | 3 × 0x00 | Dir | DevAddr | FCnt | 0x00 | 0x00, where X
is 2 for a frame with a port and 1 without. -/
theorem c100_downlink_partial {cfg : Cfg} (hE : ∀ k, BlockFn (cfg.E k)) (m : Mac) {bs : Bytes} (tail : Bytes)
    {p : DataFrame} (hp : parseData bs = some p) (ht : p.mtype = 3 ∨ p.mtype = 5) (hport : PortOk p)
    (h8 : bs.length ≤ 255) :
    ∃ f, decode cfg.v11 (bs ++ tail) bs.length = some f ∧ Reports bs f p ∧
      (Errata.receiveData cfg m f (bs ++ tail) bs.length).1 = (Ops.receiveData cfg m f (bs ++ tail) bs.length).1 ∧
      ∀ g buf, Errata.receiveData cfg m f (bs ++ tail) bs.length = (some g, buf) → g = f ∧
        (∀ o, f.opts = some o → slice buf o f.optsLen = codeOpts cfg.E (sess11 cfg m) (deviceKeys cfg m)
          (downOctet p) 0 false p.devAddr p.fcnt p.fopts) ∧
        (∀ o, f.data = some o → ∃ port d, p.payload = some (port, d) ∧ slice buf o f.dataLen =
          cryptPayload cfg.E (deviceKeys cfg m) false p.devAddr p.fcnt port d) := by
  obtain ⟨f, h1, h2⟩ := (c06_wellformed_is_reported_partial cfg.v11 bs tail h8 p hp ht).1 hport
  refine ⟨f, h1, h2, ?_, ?_⟩
  · unfold Errata.receiveData Ops.receiveData
    split
    · simp only []
      split <;> rfl
    · rfl
  · intro g buf h
    unfold Errata.receiveData at h
    split at h
    · simp only [] at h
      split at h
      · injection h with e1 e2
        injection e1 with e1
        subst e2
        exact ⟨e1.symm, decryptedErrata hE m h2 h8 (parseData_fopts hp)⟩
      · cases (congrArg Prod.fst h)
    · cases (congrArg Prod.fst h)

/-- **C100**: the octets used for options are used for nothing else.  No block of options is one of a payload (second
octet 0), and two blocks of options are equal only for frames of the same direction, address and counter, and, among
downlinks, both with or both without a port. -/
theorem c100_private (c c' : UInt8) (up up' : Bool) (a a' n n' i i' : Nat) (hc : c ≠ 0) (ha : a < 2 ^ 32)
    (ha' : a' < 2 ^ 32) (hn : n < 2 ^ 32) (hn' : n' < 2 ^ 32) :
    (kindHdr c up a n ++ [UInt8.ofNat i] ≠ counterBlock (blockA up' a' n') i') ∧
    (kindHdr c up a n ++ [UInt8.ofNat i] = kindHdr c' up' a' n' ++ [UInt8.ofNat i'] →
      c = c' ∧ up = up' ∧ a = a' ∧ n = n') := by
  constructor
  · intro h
    unfold kindHdr counterBlock blockA at h
    simp only [List.append_assoc] at h
    obtain ⟨h1, _⟩ := List.append_inj h rfl
    simp only [List.cons.injEq, true_and] at h1
    exact hc h1.1
  · intro h
    unfold kindHdr at h
    simp only [List.append_assoc] at h
    obtain ⟨h1, h⟩ := List.append_inj h rfl
    obtain ⟨h2, h⟩ := List.append_inj h (by simp only [Stream.le_length])
    obtain ⟨h3, h⟩ := List.append_inj h (by simp only [Stream.le_length])
    simp only [List.cons.injEq, and_true, true_and] at h1
    have e2 := le_inj h2
    have e3 := le_inj h3
    exact ⟨h1.1, dirOctet_inj h1.2, by omega, by omega⟩

/-- C100 does not hold: the block is never the one of the errata, for no address and counter: the octet that tells the
counters apart is the second and not the fifth, and in downlinks the last octet is 0 and not 1. -/
theorem c100_block_not (a n a' n' : Nat) (kind : FCntKind) (c i : UInt8) (up : Bool) (hc : c ≠ 0) :
    kindHdr c up a n ++ [i] ≠ errataBlock kind a' n' := by
  intro h
  unfold kindHdr errataBlock at h
  simp only [List.append_assoc] at h
  obtain ⟨h1, _⟩ := List.append_inj h rfl
  simp only [List.cons.injEq, true_and] at h1
  exact hc h1.1

/-- A 1.1 build with AES. -/
def errataCfg : Cfg := { Demo.cfg11 with E := fun _ => Aes.encrypt (List.replicate 16 7) }

/-- A device with a 1.1 session. -/
def errataDevice : Mac := Demo.restored errataCfg session11

/-- An uplink with LinkCheckReq in its options and three octets of payload. -/
def errataUp : Frame.Data :=
  { type := 2, devAddr := 1, adr := false, adrAckReq := false, ack := false, counter := 5, opts := [2]
    port := 9, data := some [1, 2, 3], dataLen := 3, mic := 0 }

/-- A downlink as a server following the errata sends it, with DevStatusReq in its options. -/
def errataDown : DataFrame :=
  let f : DataFrame := { mtype := 3, devAddr := 1, adr := false, adrAckReq := false, ack := false, fPending := false
                         fcnt := 5, fopts := [6], payload := some (9, [1, 2, 3]), mic := 0 }
  { f with fopts := errataOpts errataCfg.E (deviceKeys errataCfg errataDevice) (downKind f) 1 5 f.fopts }

/-- The hypotheses of `c100_uplink_partial` and `c100_downlink_partial` are met. -/
example : sess11 errataCfg errataDevice = true ∧ errataUp.opts.length ≤ 15 ∧
    (Frame.toSpec errataUp).encode.length ≤ 255 ∧ DataContract errataUp ∧
    (parseData errataDown.encode).map (fun p => (p.mtype, p.fopts.length)) = some (3, 1) :=
  ⟨by decide +kernel, by decide, by decide +kernel, fun d h => by cases h; rfl, by decide +kernel⟩

/-- C100 does not hold, with AES: a server following the errata reads a link check request as another octet, and the
device reads its status request as another octet; without the option device and server (then following 4.3.1.6)
agree. -/
theorem c100_not : Reachable errataCfg errataDevice ∧
    (parseData ((Errata.prepareData errataCfg errataDevice errataUp (List.replicate 255 0) 255).2.take 17)).map
      (fun p => decide (errataOpts errataCfg.E (deviceKeys errataCfg errataDevice) .up 1 5 p.fopts = [2])) = some false ∧
    decide (codeOpts errataCfg.E true (deviceKeys errataCfg errataDevice) (downOctet errataDown) 0 false 1 5
      errataDown.fopts = [6]) = false ∧
    (parseData ((Ops.prepareData errataCfg errataDevice errataUp (List.replicate 255 0) 255).2.take 17)).map
      (fun p => cryptOpts errataCfg.E true (deviceKeys errataCfg errataDevice) true 1 5 p.fopts) = some [2] :=
  ⟨Demo.restored_reachable _ session11_ok, by decide +kernel, by decide +kernel, by decide +kernel⟩

end LDL
