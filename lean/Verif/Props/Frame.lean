import Verif.Lemmas.Decode

/-!
# C03 - C07: frame encoding and decoding

`Frame.toSpec f` is the content of the C structure `f` in the vocabulary of `Spec/LoRaWAN.lean`.
-/

namespace LDL
open LDL.Stream LDL.Frame

/-! ## C03, C04: data frames -/

/-- The C contract of a frame structure passed to the encoder: the payload pointer, if not NULL, points
to `dataLen` bytes. -/
def DataContract (f : Data) : Prop := ∀ d, f.data = some d → d.length = f.dataLen

/-- **C03**: for every frame content and every buffer with capacity `max` (at most 255), the encoder
either writes exactly the LoRaWAN encoding and returns its length, leaving the rest of the buffer alone,
or, exactly when that encoding does not fit, returns 0 without having touched anything behind the
capacity. -/
theorem c03_put_data (f : Data) (hd : DataContract f) (out : Bytes) (max : Nat)
    (hmax : max ≤ out.length) (h8 : max ≤ 255) :
    let frame := (toSpec f).encode
    let r := putData f out max
    (frame.length ≤ max → r.1 = frame.length ∧ r.2.1 = frame ++ out.drop frame.length) ∧
    (max < frame.length → r.1 = 0 ∧ r.2.1.length = out.length ∧ r.2.1.drop max = out.drop max) := by
  intro frame r
  obtain ⟨h1, h2⟩ := putData_eq f out max
  have hfl : (chunks f).flatten = frame := chunks_flatten f hd
  constructor
  · intro hfit
    have hw := writes_ok (s := Stream.init out max) (chunks f) rfl rfl
      (by rw [hfl]; simpa [Stream.init] using hfit) hmax h8
    rw [hfl] at hw
    rw [hw] at h1 h2
    refine ⟨?_, ?_⟩
    · rw [show r.1 = _ from h1]; simp [Stream.init]
    · rw [show r.2.1 = _ from h2]; simp [Stream.init]
  · intro hbig
    have hw := writes_fail (s := Stream.init out max) (chunks f) rfl
      (by rw [hfl]; simpa [Stream.init] using hbig) (Nat.zero_le _) hmax h8
    refine ⟨?_, ?_⟩
    · rw [show r.1 = _ from h1, hw]; rfl
    · rw [show r.2.1 = _ from h2]
      have key : ∀ (cs : List Bytes) (s : Stream), s.size = max → s.mem.length = out.length →
          s.pos ≤ max → s.mem.drop max = out.drop max →
          (s.writes cs).mem.length = out.length ∧ (s.writes cs).mem.drop max = out.drop max := by
        intro cs
        induction cs with
        | nil => intro s _ h _ h'; exact ⟨h, h'⟩
        | cons c cs ih =>
          intro s hs hl hp ht
          simp only [writes, List.foldl_cons]
          by_cases hw : s.writable = true ∧ s.error = false ∧ s.pos + c.length ≤ s.size
          · rw [write_ok hw.1 hw.2.1 hw.2.2 (by omega) (by omega)]
            refine ih _ hs ?_ ?_ ?_
            · simp; omega
            · dsimp only; omega
            · have hlen : (List.take s.pos s.mem ++ c).length = s.pos + c.length := by simp; omega
              rw [← ht]
              dsimp only
              rw [List.drop_append, hlen, List.drop_of_length_le (by omega), List.drop_drop,
                List.nil_append]
              congr 1; omega
          · have : (s.write c).2.mem = s.mem ∧ (s.write c).2.size = s.size ∧
                (s.write c).2.pos = s.pos := by
              simp only [Stream.write]
              repeat' split
              all_goals simp_all
              all_goals omega
            exact ih _ (this.2.1.trans hs) (by rw [this.1]; exact hl) (by rw [this.2.2]; exact hp)
              (by rw [this.1]; exact ht)
      exact key (chunks f) (Stream.init out max) rfl rfl (Nat.zero_le _) rfl

/-- **C03** (offsets): when the frame fits, the reported offsets are the positions of FOpts and of
FRMPayload. -/
theorem c03_offsets (f : Data) (hd : DataContract f) (out : Bytes) (max : Nat)
    (hmax : max ≤ out.length) (h8 : max ≤ 255) (hfit : (toSpec f).encode.length ≤ max) :
    let off := (putData f out max).2.2
    off.opts = 8 ∧ (f.data.isSome → off.data = 8 + (toSpec f).fopts.length + 1) := by
  have hfl : (chunks f).flatten = (toSpec f).encode := chunks_flatten f hd
  have hlen := congrArg List.length hfl
  have hk : f.opts.length &&& 15 = f.opts.length % 16 := Nat.and_two_pow_sub_one_eq_mod _ 4
  cases hf : f.data with
  | none =>
    simp [chunks, hf, bytes16, bytes32] at hlen
    have h1 := writes_ok (s := Stream.init out max)
      [[UInt8.ofNat (f.type <<< 5)], bytes32 f.devAddr, [UInt8.ofNat (fctrl f)], bytes16 f.counter]
      rfl rfl (by simp [Stream.init, bytes16, bytes32]; omega) hmax h8
    simp only [writes, List.foldl_cons, List.foldl_nil] at h1
    simp only [putData, hf, putU8, putU16, putU32, tell, h1]
    simp [Stream.init, bytes16, bytes32]
  | some d =>
    simp [chunks, hf, bytes16, bytes32] at hlen
    have h1 := writes_ok (s := Stream.init out max)
      [[UInt8.ofNat (f.type <<< 5)], bytes32 f.devAddr, [UInt8.ofNat (fctrl f)], bytes16 f.counter]
      rfl rfl (by simp [Stream.init, bytes16, bytes32]; omega) hmax h8
    have h2 := writes_ok (s := Stream.init out max)
      [[UInt8.ofNat (f.type <<< 5)], bytes32 f.devAddr, [UInt8.ofNat (fctrl f)], bytes16 f.counter,
        f.opts.take (f.opts.length &&& 15), [UInt8.ofNat f.port]]
      rfl rfl (by simp [Stream.init, bytes16, bytes32]; omega) hmax h8
    simp only [writes, List.foldl_cons, List.foldl_nil] at h1 h2
    simp only [putData, hf, putU8, putU16, putU32, tell, h2]
    refine ⟨?_, ?_⟩
    · rw [h1]; simp [Stream.init, bytes16, bytes32]
    · simp [Stream.init, bytes16, bytes32, toSpec, hk]; omega

/-- A frame with options, port and payload, used as an example. -/
def exampleData : Data :=
  { type := DATA_CONFIRMED_UP, devAddr := 0x01020304, counter := 0x0a0b, ack := true, adr := true,
    opts := [2, 3], port := 7, data := some [9, 8, 7], dataLen := 3, mic := 0xaabbccdd }

/-- `c03_put_data` applies to the example in both cases, and the bytes are as expected. -/
example : DataContract exampleData ∧ (toSpec exampleData).encode.length = 18 ∧
    (putData exampleData (List.replicate 20 0) 19).2.1 =
      [0x80, 4, 3, 2, 1, 0xa2, 0x0b, 0x0a, 2, 3, 7, 9, 8, 7, 0xdd, 0xcc, 0xbb, 0xaa, 0, 0] ∧
    (putData exampleData (List.replicate 20 0) 17).1 = 0 := by
  refine ⟨?_, by decide, by decide, by decide⟩
  intro d hd; simp [exampleData] at hd ⊢; subst hd; rfl

/-- **C04**: the specification's parser recovers every field of every frame the encoder produces. -/
theorem c04_parser_recovers (f : Data) (hd : DataContract f) (out : Bytes) (max : Nat)
    (hmax : max ≤ out.length) (h8 : max ≤ 255)
    (htype : f.type < 8) (haddr : f.devAddr < 2 ^ 32) (hcnt : f.counter < 2 ^ 16)
    (hopts : f.opts.length ≤ 15) (hport : f.port < 256) (hmic : f.mic < 2 ^ 32)
    (hok : (putData f out max).1 ≠ 0) :
    Spec.parseData ((putData f out max).2.1.take (putData f out max).1) =
      some { mtype := f.type, devAddr := f.devAddr, adr := f.adr, adrAckReq := f.adrAckReq,
             ack := f.ack, fPending := f.pending, fcnt := f.counter, fopts := f.opts,
             payload := f.data.map fun d => (f.port, d), mic := f.mic } := by
  have h := c03_put_data f hd out max hmax h8
  simp only at h
  have hfit : (toSpec f).encode.length ≤ max := by
    apply Nat.le_of_not_lt
    intro hlt
    exact hok (h.2 hlt).1
  obtain ⟨h1, h2⟩ := h.1 hfit
  rw [h1, h2, List.take_left]
  have hfo : f.opts.take (f.opts.length % 16) = f.opts := by
    rw [Nat.mod_eq_of_lt (by omega)]; simp
  rw [parse_encode]
  · simp [toSpec, hfo]
  · refine ⟨htype, haddr, hcnt, ?_, ?_, hmic⟩
    · simp only [toSpec, hfo]; exact hopts
    · intro p d hp
      simp only [toSpec, Option.map_eq_some_iff, Prod.mk.injEq] at hp
      obtain ⟨d', _, rfl, _⟩ := hp
      exact hport

/-- The hypotheses of `c04_parser_recovers` hold for the example frame. -/
example : (putData exampleData (List.replicate 20 0) 20).1 = 18 ∧ exampleData.opts.length ≤ 15 ∧
    exampleData.type < 8 ∧ exampleData.devAddr < 2 ^ 32 := by decide

/-! ## C05: join requests -/

theorem reverse8 {l : Bytes} (h : l.length = 8) :
    [l.getD 7 0, l.getD 6 0, l.getD 5 0, l.getD 4 0, l.getD 3 0, l.getD 2 0, l.getD 1 0, l.getD 0 0]
      = l.reverse := by
  match l, h with
  | [a, b, c, d, e, f, g, i], _ => rfl

/-- The content of a join request structure in the vocabulary of the specification. -/
def joinToSpec (f : Frame.JoinRequest) : Spec.JoinRequest :=
  { joinEUI := f.joinEUI, devEUI := f.devEUI, devNonce := f.devNonce, mic := f.mic }

/-- **C05**: a join request is encoded as specified (23 bytes) if the capacity is at least 23;
otherwise the encoder returns 0. -/
theorem c05_put_join_request (f : Frame.JoinRequest) (hj : f.joinEUI.length = 8)
    (hde : f.devEUI.length = 8) (out : Bytes) (max : Nat) (hmax : max ≤ out.length) (h8 : max ≤ 255) :
    let frame := (joinToSpec f).encode
    frame.length = 23 ∧
    (23 ≤ max → (putJoinRequest f out max).1 = 23 ∧
      (putJoinRequest f out max).2 = frame ++ out.drop 23) ∧
    (max < 23 → (putJoinRequest f out max).1 = 0) := by
  intro frame
  have hlen : frame.length = 23 := by
    simp [frame, Spec.JoinRequest.encode, Spec.JoinRequest.body, joinToSpec, hj, hde, le_length]
  have hfl : ([[UInt8.ofNat (JOIN_REQ <<< 5)], f.joinEUI.reverse, f.devEUI.reverse,
      bytes16 f.devNonce, bytes32 f.mic] : List Bytes).flatten = frame := by
    simp [frame, Spec.JoinRequest.encode, Spec.JoinRequest.body, joinToSpec, bytes16_eq, bytes32_eq,
      JOIN_REQ, Spec.mhdr]
  have heq : putJoinRequest f out max =
      (if ((Stream.init out max).writes [[UInt8.ofNat (JOIN_REQ <<< 5)], f.joinEUI.reverse,
          f.devEUI.reverse, bytes16 f.devNonce, bytes32 f.mic]).error then 0
        else ((Stream.init out max).writes [[UInt8.ofNat (JOIN_REQ <<< 5)], f.joinEUI.reverse,
          f.devEUI.reverse, bytes16 f.devNonce, bytes32 f.mic]).pos,
       ((Stream.init out max).writes [[UInt8.ofNat (JOIN_REQ <<< 5)], f.joinEUI.reverse,
          f.devEUI.reverse, bytes16 f.devNonce, bytes32 f.mic]).mem) := by
    simp only [putJoinRequest, writes, List.foldl_cons, List.foldl_nil, putU8, putU16, putU32, putEUI,
      reverse8 hj, reverse8 hde, hasError, tell]
    rfl
  refine ⟨hlen, ?_, ?_⟩
  · intro h23
    have hw := writes_ok (s := Stream.init out max) [[UInt8.ofNat (JOIN_REQ <<< 5)],
      f.joinEUI.reverse, f.devEUI.reverse, bytes16 f.devNonce, bytes32 f.mic] rfl rfl
      (by rw [hfl, hlen]; simpa [Stream.init] using h23) hmax h8
    rw [hfl, hlen] at hw
    rw [heq, hw]
    simp [Stream.init]
  · intro h23
    have hw := writes_fail (s := Stream.init out max) [[UInt8.ofNat (JOIN_REQ <<< 5)],
      f.joinEUI.reverse, f.devEUI.reverse, bytes16 f.devNonce, bytes32 f.mic] rfl
      (by rw [hfl, hlen]; simpa [Stream.init] using h23) (Nat.zero_le _) hmax h8
    rw [heq, hw]; rfl

/-- **C05**: the specification's parser recovers EUIs, nonce and MIC. -/
theorem c05_parser_recovers (f : Frame.JoinRequest) (hj : f.joinEUI.length = 8)
    (hde : f.devEUI.length = 8) (hn : f.devNonce < 2 ^ 16) (hm : f.mic < 2 ^ 32)
    (out : Bytes) (max : Nat) (hmax : max ≤ out.length) (h8 : max ≤ 255) (h23 : 23 ≤ max) :
    Spec.parseJoinRequest ((putJoinRequest f out max).2.take (putJoinRequest f out max).1) =
      some { joinEUI := f.joinEUI, devEUI := f.devEUI, devNonce := f.devNonce, mic := f.mic } := by
  obtain ⟨hlen, h1, _⟩ := c05_put_join_request f hj hde out max hmax h8
  obtain ⟨h1, h2⟩ := h1 h23
  rw [h1, h2, List.take_left' hlen]
  simp only [Spec.parseJoinRequest, hlen, true_and]
  have hr : f.joinEUI.reverse.length = 8 := by simpa using hj
  have hr2 : f.devEUI.reverse.length = 8 := by simpa using hde
  have e2 : Spec.leValue (Spec.le 2 f.devNonce) = f.devNonce := by
    rw [leValue_le, Nat.mod_eq_of_lt (by simpa using hn)]
  have e4 : Spec.leValue (Spec.le 4 f.mic) = f.mic := by
    rw [leValue_le, Nat.mod_eq_of_lt (by simpa using hm)]
  have hshape : (joinToSpec f).encode = 0 :: (f.joinEUI.reverse ++ (f.devEUI.reverse ++
      (Spec.le 2 f.devNonce ++ Spec.le 4 f.mic))) := by
    simp [Spec.JoinRequest.encode, Spec.JoinRequest.body, joinToSpec, Spec.mhdr]
  rw [hshape]
  have d1 : (f.joinEUI.reverse ++ (f.devEUI.reverse ++ (Spec.le 2 f.devNonce ++ Spec.le 4 f.mic))).drop 8
      = f.devEUI.reverse ++ (Spec.le 2 f.devNonce ++ Spec.le 4 f.mic) := List.drop_left' hr
  have d2 : (f.devEUI.reverse ++ (Spec.le 2 f.devNonce ++ Spec.le 4 f.mic)).drop 8
      = Spec.le 2 f.devNonce ++ Spec.le 4 f.mic := List.drop_left' hr2
  have d3 : (Spec.le 2 f.devNonce ++ Spec.le 4 f.mic).drop 2 = Spec.le 4 f.mic :=
    List.drop_left' (le_length 2 _)
  have c9 : ∀ l : Bytes, l.drop 16 = (l.drop 8).drop 8 := fun l => by simp
  have c11 : ∀ l : Bytes, l.drop 18 = ((l.drop 8).drop 8).drop 2 := fun l => by simp
  simp only [List.head?_cons, if_true, List.drop_succ_cons, List.drop_zero, List.drop_drop]
  rw [List.take_left' hr, d1, List.take_left' hr2, c9, c11, d1, d2, d3,
    List.take_left' (le_length 2 _), e2, e4]
  simp

/-- An example join request. -/
def exampleJoin : Frame.JoinRequest :=
  { joinEUI := [1, 2, 3, 4, 5, 6, 7, 8], devEUI := [9, 10, 11, 12, 13, 14, 15, 16],
    devNonce := 0x1234, mic := 0 }

/-- A concrete join request meeting the hypotheses. -/
example : exampleJoin.joinEUI.length = 8 ∧ exampleJoin.devEUI.length = 8 ∧
    (putJoinRequest exampleJoin (List.replicate 23 0xff) 23).2 =
    [0, 8, 7, 6, 5, 4, 3, 2, 1, 16, 15, 14, 13, 12, 11, 10, 9, 0x34, 0x12, 0, 0, 0, 0] := by decide

end LDL
