import Verif.Lemmas.OpStep
import Verif.Lemmas.Uplink
import Verif.Lemmas.SessionOk

/-!
# The transmit buffer
-/

namespace LDL
open LDL.Stream

theorem write_length {s : Stream} {c : Bytes} (hm : s.size ≤ s.mem.length) (hp : s.pos ≤ s.size) (h8 : s.size ≤ 255) :
    (s.write c).2.mem.length = s.mem.length ∧ (s.write c).2.size = s.size ∧ (s.write c).2.pos ≤ s.size := by
  by_cases hw : s.writable = true ∧ s.error = false ∧ s.pos + c.length ≤ s.size
  · rw [write_ok hw.1 hw.2.1 hw.2.2 hm h8]
    refine ⟨?_, rfl, hw.2.2⟩
    simp only [List.length_append, List.length_take, List.length_drop]
    omega
  · have : (s.write c).2.mem = s.mem ∧ (s.write c).2.size = s.size ∧ (s.write c).2.pos = s.pos := by
      simp only [Stream.write]
      repeat' split
      all_goals simp_all
      all_goals omega
    rw [this.1, this.2.1, this.2.2]
    exact ⟨rfl, rfl, hp⟩

theorem writes_length (cs : List Bytes) {s : Stream} (hm : s.size ≤ s.mem.length) (hp : s.pos ≤ s.size)
    (h8 : s.size ≤ 255) : (s.writes cs).mem.length = s.mem.length ∧ (s.writes cs).pos ≤ s.size := by
  induction cs generalizing s with
  | nil => exact ⟨rfl, hp⟩
  | cons c cs ih =>
    obtain ⟨h1, h2, h3⟩ := write_length (c := c) hm hp h8
    obtain ⟨h4, h5⟩ := ih (s := (s.write c).2) (by omega) (by omega) (by omega)
    exact ⟨h4.trans h1, by rw [h2] at h5; exact h5⟩

theorem updateMIC_length (buf : Bytes) (len mic : Nat) (h : len ≤ buf.length) (h8 : len ≤ 255) :
    (Frame.updateMIC buf len mic).length = buf.length := by
  unfold Frame.updateMIC
  split
  · have hs : ((Stream.init buf len).seekSet (len - 4)).2.mem = buf ∧ ((Stream.init buf len).seekSet (len - 4)).2.size = len ∧
        ((Stream.init buf len).seekSet (len - 4)).2.pos ≤ len := by
      unfold Stream.seekSet
      split
      · exact ⟨rfl, rfl, by show len - 4 ≤ len; omega⟩
      · exact ⟨rfl, rfl, by show 0 ≤ len; omega⟩
    have := (write_length (c := bytes32 mic) (s := ((Stream.init buf len).seekSet (len - 4)).2)
      (by rw [hs.1, hs.2.1]; exact h) (by omega) (by omega)).1
    exact this.trans (congrArg _ hs.1)
  · rfl

theorem micDataFrame_length (cfg : Cfg) (m : Mac) (buf : Bytes) (len : Nat) (h : len ≤ buf.length) (h8 : len ≤ 255) :
    (Ops.micDataFrame cfg m buf len).length = buf.length := by
  unfold Ops.micDataFrame
  simp only []
  split <;> exact updateMIC_length _ _ _ h h8

theorem ctrAt_length {cfg : Cfg} (hE : ∀ k, BlockFn (cfg.E k)) (keys : Nat → Bytes) (k : KeyDesc) (up : Bool)
    (devAddr counter i : Nat) (buf : Bytes) (off len : Nat) (h : off + len ≤ buf.length) (h8 : len ≤ 255) :
    (Sm.ctrAt cfg keys k (Ops.initA 0 devAddr up counter i) buf off len).length = buf.length := by
  have hl : ((buf.drop off).take len).length = len := by
    rw [List.length_take, List.length_drop]; omega
  unfold Sm.ctrAt
  rw [initA_eq]
  apply memcpyAt_length
  rw [c11_length (hE _) _ _ _ (blockA_length ..) (by omega), hl]
  exact h

theorem prepareData_length {cfg : Cfg} (hE : ∀ k, BlockFn (cfg.E k)) (m : Mac) (f : Frame.Data) (hd : DataContract f)
    (ho : f.opts.length ≤ 15) (hl : f.dataLen ≤ 255) (out : Bytes) (hb : out.length = 255)
    (hf : (Frame.toSpec f).encode.length ≤ 255) :
    (Ops.prepareData cfg m f out 255).2.length = 255 ∧
    (Ops.prepareData cfg m f out 255).1 = (Frame.toSpec f).encode.length := by
  have hp := (c03_put_data f hd out 255 (by omega) (Nat.le_refl _)).1 hf
  have hoff := c03_offsets f hd out 255 (by omega) (Nat.le_refl _) hf
  have hel : (Frame.toSpec f).encode.length = (Frame.toSpec f).body.length + 4 := by
    unfold Spec.DataFrame.encode; rw [List.length_append, le_length]
  have hbl := body_length (Frame.toSpec f)
  have hopt := toSpec_fopts ho
  have hnone : f.data = none → (Frame.putData f out 255).2.2.data = 0 := by
    intro h; unfold Frame.putData; simp only [h]
  rcases hr : Frame.putData f out 255 with ⟨n, o, off⟩
  rw [hr] at hp hoff hnone
  simp only at hp hoff hnone
  obtain ⟨hn1, ho1⟩ := hp
  obtain ⟨hoo, hod⟩ := hoff
  have hol : o.length = 255 := by
    rw [ho1, List.length_append, List.length_drop]; omega
  unfold Ops.prepareData
  simp only [hr]
  rw [if_pos (by omega)]
  refine ⟨?_, hn1⟩
  rw [hopt] at hbl
  have h1 : ∀ o' : Bytes, o'.length = 255 → (Sm.ctrAt cfg m.keys (if f.port = 0 then .nwkSEnc else .appS)
      (Ops.initA 0 f.devAddr true f.counter 1) o' off.data f.dataLen).length = 255 := by
    intro o' h'
    rw [ctrAt_length hE _ _ _ _ _ _ _ _ _ ?_ hl, h']
    cases hdat : f.data with
    | none => rw [hnone hdat]; omega
    | some d =>
      have hp1 : (Frame.toSpec f).payload = some (f.port, d) := by unfold Frame.toSpec; rw [hdat]; rfl
      rw [hp1] at hbl
      simp only [Spec.portPayload, List.length_cons, hd d hdat] at hbl
      rw [hod (by rw [hdat]; rfl), hopt]
      omega
  apply h1
  split
  · rw [ctrAt_length hE _ _ _ _ _ _ _ _ _ (by omega) (by omega), hol]
  · exact hol

theorem convertRate_mtu (r : Region) (dr : Nat) : (r.convertRate dr).mtu ≤ 250 := by
  cases r <;> unfold Region.convertRate <;> simp only [] <;> split <;> decide

/-- The bytes of the MAC commands for the next uplink. -/
def answerBytes (cfg : Cfg) (m : Mac) (o : DataOpts) : Bytes :=
  (Spec.answers cfg.v11 m.ctx o.check o.getTime).flatMap Spec.encodeUp

theorem uplinkAnswers_bytes (cfg : Cfg) (m : Mac) (o : DataOpts) :
    (uplinkAnswers cfg m o).1.mem.take (uplinkAnswers cfg m o).1.tell = answerBytes cfg m o ∧
      (answerBytes cfg m o).length ≤ 21 := by
  have h := putAnswers_inv cfg { m.ctx with up := u32 (m.ctx.up + 1) } o
  refine ⟨?_, h.fit⟩
  unfold Stream.tell
  show (putAnswers cfg { m.ctx with up := u32 (m.ctx.up + 1) } o).1.mem.take (putAnswers cfg { m.ctx with up := u32 (m.ctx.up + 1) } o).1.pos = _
  rw [h.mem, h.pos, List.take_left]
  rfl

theorem uplinkFrame_eq (cfg : Cfg) (m : Mac) (confirmed : Bool) (port : Nat) (data : Option Bytes) (len : Nat)
    (o : DataOpts) (max : Nat) : uplinkFrame cfg m confirmed port data len o max =
      placeMacData (dataHeader m confirmed port) confirmed (answerBytes cfg m o) data len max := by
  unfold uplinkFrame
  simp only []
  rw [(uplinkAnswers_bytes cfg m o).1]

theorem placeMacData_fits (f : Frame.Data) (hf : f.data = none ∧ f.dataLen = 0 ∧ f.opts = []) (confirmed : Bool)
    (macs : Bytes) (h21 : macs.length ≤ 21) (data : Option Bytes) (len max : Nat) (hm : max ≤ 250)
    (hd : ∀ d, data = some d → d.length = len) (hl : len ≤ 255) (g : Frame.Data)
    (hg : g = (placeMacData f confirmed macs data len max).1) :
    DataContract g ∧ g.opts.length ≤ 15 ∧ g.dataLen ≤ 255 ∧
      (∀ d, g.data = some d → g.opts.length + d.length ≤ 242) ∧
      ((data = none → len = 0) → g.data = none → g.dataLen = 0) := by
  obtain ⟨f1, f2, f3⟩ := hf
  have h8 : Frame.dataOverhead = 8 := rfl
  unfold placeMacData at hg
  by_cases h1 : macs.length > 15
  · rw [if_pos h1] at hg
    subst hg
    simp only []
    refine ⟨?_, ?_, by omega, ?_, by simp⟩
    · intro d h; cases h; rfl
    · rw [f3]; decide
    · intro d h; cases h; rw [f3, List.length_nil]; omega
  · rw [if_neg h1] at hg
    by_cases h2 : len + Frame.dataOverhead + macs.length > max
    · rw [if_pos h2] at hg
      subst hg
      simp only []
      refine ⟨?_, by omega, by omega, ?_, fun _ _ => f2⟩
      · intro d h; rw [f1] at h; cases h
      · intro d h; rw [f1] at h; cases h
    · rw [if_neg h2] at hg
      subst hg
      simp only []
      refine ⟨hd, by omega, hl, ?_, fun h => h⟩
      intro d h
      have := hd d h
      omega

/-- What is put into the frame: at most 15 bytes of options, and the whole fits the buffer. -/
theorem uplinkFrame_fits (cfg : Cfg) (m : Mac) (confirmed : Bool) (port : Nat) (data : Option Bytes) (len : Nat)
    (o : DataOpts) (max : Nat) (hm : max ≤ 250) (hd : ∀ d, data = some d → d.length = len) (hl : len ≤ 255)
    (f : Frame.Data) (hf : f = (uplinkFrame cfg m confirmed port data len o max).1) :
    DataContract f ∧ f.opts.length ≤ 15 ∧ f.dataLen ≤ 255 ∧ (Frame.toSpec f).encode.length ≤ 255 ∧
      ((data = none → len = 0) → f.data = none → f.dataLen = 0) := by
  rw [uplinkFrame_eq] at hf
  obtain ⟨k1, k2, k3, k4, k5⟩ := placeMacData_fits (dataHeader m confirmed port) ⟨rfl, rfl, rfl⟩ confirmed
    (answerBytes cfg m o) (uplinkAnswers_bytes cfg m o).2 data len max hm hd hl f hf
  refine ⟨k1, k2, k3, ?_, k5⟩
  unfold Spec.DataFrame.encode
  rw [List.length_append, le_length, body_length, toSpec_fopts k2]
  cases hdat : f.data with
  | none =>
    have : (Frame.toSpec f).payload = none := by unfold Frame.toSpec; rw [hdat]; rfl
    rw [this]
    simp only [Spec.portPayload, List.length_nil]
    omega
  | some d =>
    have : (Frame.toSpec f).payload = some (f.port, d) := by unfold Frame.toSpec; rw [hdat]; rfl
    rw [this]
    simp only [Spec.portPayload, List.length_cons]
    have := k4 d hdat
    omega

/-- The join request of a device, with its MIC. -/
def joinRequest (cfg : Cfg) (m : Mac) (nonce : Nat) : Spec.JoinRequest :=
  let f : Spec.JoinRequest := { joinEUI := m.joinEUI, devEUI := m.devEUI, devNonce := nonce, mic := 0 }
  { f with mic := Spec.micOf (cfg.E (Sm.key cfg m.keys .nwk)) f.body }

theorem joinBody_length (f : Spec.JoinRequest) (h1 : f.joinEUI.length = 8) (h2 : f.devEUI.length = 8) :
    f.body.length = 19 := by
  simp [Spec.JoinRequest.body, h1, h2, le_length]

theorem prepareJoinRequest_eq {cfg : Cfg} (hE : ∀ k, BlockFn (cfg.E k)) (m : Mac) (nonce : Nat)
    (h1 : m.joinEUI.length = 8) (h2 : m.devEUI.length = 8) (out : Bytes) (hb : out.length = 255) :
    Ops.prepareJoinRequest cfg m { joinEUI := m.joinEUI, devEUI := m.devEUI, devNonce := nonce } out 255 =
      (23, (joinRequest cfg m nonce).encode ++ out.drop 23) := by
  obtain ⟨a1, a2, _⟩ := c05_put_join_request { joinEUI := m.joinEUI, devEUI := m.devEUI, devNonce := nonce } h1 h2 out
    255 (by omega) (by omega)
  obtain ⟨b1, b2⟩ := a2 (by omega)
  have hbl := joinBody_length (joinToSpec { joinEUI := m.joinEUI, devEUI := m.devEUI, devNonce := nonce }) h1 h2
  unfold Ops.prepareJoinRequest
  rcases hr : Frame.putJoinRequest { joinEUI := m.joinEUI, devEUI := m.devEUI, devNonce := nonce } out 255 with ⟨n, o⟩
  rw [hr] at b1 b2
  simp only at b1 b2 ⊢
  subst b1
  congr 1
  have e1 : u8 (23 + 252) = 19 := rfl
  unfold Spec.JoinRequest.encode at b2
  have e2 : o.take 19 = (joinToSpec { joinEUI := m.joinEUI, devEUI := m.devEUI, devNonce := nonce }).body := by
    rw [b2, ← hbl, List.append_assoc, List.take_left]
  rw [e1, e2, sm_mic_nil_eq hE _ _ _ (by omega), b2]
  have := updateMIC_eq (joinToSpec { joinEUI := m.joinEUI, devEUI := m.devEUI, devNonce := nonce }).body
    (Spec.le 4 (joinToSpec { joinEUI := m.joinEUI, devEUI := m.devEUI, devNonce := nonce }).mic) (out.drop 23)
    (le_length _ _) (by omega) (by omega)
    (Spec.micOf (cfg.E (Sm.key cfg m.keys .nwk)) (joinToSpec { joinEUI := m.joinEUI, devEUI := m.devEUI, devNonce := nonce }).body)
  rw [hbl] at this
  rw [this]
  rfl

/-- The nonce a join request carries. -/
def nonceFor (cfg : Cfg) (e : Env) (n : Nat) : Nat := if cfg.version = .v103 then u16 (e.draw 0) else u16 n

theorem nextJoinRequest_frame {cfg : Cfg} (hE : ∀ k, BlockFn (cfg.E k)) (e : Env) (m : Mac)
    (h1 : m.joinEUI.length = 8) (h2 : m.devEUI.length = 8) (hb : m.buffer.length = 255) :
    (nextJoinRequest cfg e m).bufferLen = 23 ∧
    (nextJoinRequest cfg e m).buffer = (joinRequest cfg m (nonceFor cfg e m.devNonce)).encode ++ m.buffer.drop 23 ∧
    (joinRequest cfg m (nonceFor cfg e m.devNonce)).encode.length = 23 := by
  have hp := prepareJoinRequest_eq hE { m with ctx := { m.ctx with devNonce := nonceFor cfg e m.devNonce } }
    (nonceFor cfg e m.devNonce) h1 h2 m.buffer hb
  have hl : (joinRequest cfg m (nonceFor cfg e m.devNonce)).encode.length = 23 := by
    unfold Spec.JoinRequest.encode
    rw [List.length_append, le_length, joinBody_length _ h1 h2]
  refine ⟨?_, ?_, hl⟩
  · have : (nextJoinRequest cfg e m).bufferLen = (Ops.prepareJoinRequest cfg
      { m with ctx := { m.ctx with devNonce := nonceFor cfg e m.devNonce } }
      { joinEUI := m.joinEUI, devEUI := m.devEUI, devNonce := nonceFor cfg e m.devNonce } m.buffer 255).1 := rfl
    rw [this, hp]
  · have : (nextJoinRequest cfg e m).buffer = (Ops.prepareJoinRequest cfg
      { m with ctx := { m.ctx with devNonce := nonceFor cfg e m.devNonce } }
      { joinEUI := m.joinEUI, devEUI := m.devEUI, devNonce := nonceFor cfg e m.devNonce } m.buffer 255).2 := by
      unfold nextJoinRequest fillJoinBuffer Mac.emit nonceFor
      simp only []
    rw [this, hp]
    rfl

/-- What is known of the transmit buffer: its size, and during a data operation a frame with its MIC. -/
structure BufOk (cfg : Cfg) (m : Mac) : Prop where
  buffer : m.buffer.length = 255
  joinEUI : m.joinEUI.length = 8
  devEUI : m.devEUI.length = 8
  len : m.op.isTx → m.bufferLen ≤ 255
  mic : m.op = .dataUnconfirmed ∨ m.op = .dataConfirmed → ∃ body rest, m.bufferLen = body.length + 4 ∧ 0 < body.length ∧
    m.buffer = body ++ Spec.le 4 (upMic cfg m body) ++ rest

theorem Keep.upMic {m m' : Mac} (h : Keep m m') (cfg : Cfg) (body : Bytes) : LDL.upMic cfg m' body = LDL.upMic cfg m body := by
  unfold LDL.upMic sessVersion
  rw [h.keys, h.devAddr, h.counter, h.rate, h.chIndex, h.version]

theorem Keep.bufOk {cfg : Cfg} {m m' : Mac} (h : Keep m m') (hb : m'.buffer = m.buffer) (hm : BufOk cfg m) : BufOk cfg m' := by
  refine ⟨hb ▸ hm.buffer, h.joinEUI ▸ hm.joinEUI, h.devEUI ▸ hm.devEUI, ?_, ?_⟩
  · rw [h.op, h.len]; exact hm.len
  · rw [h.op, h.len, hb]
    simp only [h.upMic]
    exact hm.mic

/-- Computing the MIC again changes nothing. -/
theorem BufOk.again {cfg : Cfg} {m : Mac} (hm : BufOk cfg m) (ho : m.op = .dataUnconfirmed ∨ m.op = .dataConfirmed) :
    Ops.micDataFrame cfg m m.buffer m.bufferLen = m.buffer := by
  obtain ⟨body, rest, h1, h2, h3⟩ := hm.mic ho
  have h4 := hm.len (Or.inr ho)
  have := micDataFrame_eq cfg m body (Spec.le 4 (upMic cfg m body)) rest (le_length _ _) h2 (by omega)
  rw [h3, h1, this]

theorem isTx_not {op : Op} (h : op = .none ∨ op = .entropy) : ¬ op.isTx := by
  rintro (h' | h' | h') <;> rw [h'] at h <;> simp at h

theorem Rest.bufOk {cfg : Cfg} {m m' : Mac} {c : Call} (h : Rest m c m') (ho : m'.op = .none ∨ m'.op = .entropy) (hm : BufOk cfg m) :
    BufOk cfg m' :=
  ⟨h.buffer ▸ hm.buffer, h.joinEUI ▸ hm.joinEUI, h.devEUI ▸ hm.devEUI, fun h' => absurd h' (isTx_not ho),
    fun h' => absurd (Or.inr h') (isTx_not ho)⟩

/-- The frame of a new join request. -/
theorem NewRequest.frame {cfg : Cfg} (hE : ∀ k, BlockFn (cfg.E k)) {e : Env} {m m' : Mac} (h : NewRequest cfg e m m')
    (hm : BufOk cfg m) : m'.bufferLen = 23 ∧ m'.buffer.length = 255 ∧
      m'.frame = (joinRequest cfg { m with keys := m'.keys } (nonceFor cfg e m.devNonce)).encode := by
  obtain ⟨x, x1, x2, x3, x4, x5, x6, _, x8, x9, _⟩ := h.made
  obtain ⟨h1, h2, h3⟩ := nextJoinRequest_frame hE e x (x2 ▸ hm.joinEUI) (x3 ▸ hm.devEUI) (x5 ▸ hm.buffer)
  have hx : joinRequest cfg x (nonceFor cfg e x.devNonce) =
      joinRequest cfg { m with keys := m'.keys } (nonceFor cfg e m.devNonce) := by
    unfold joinRequest
    simp only [x1, x2, x3, x6]
  rw [hx] at h2 h3
  refine ⟨x9.trans h1, ?_, ?_⟩
  · rw [x8, h2, List.length_append, h3, List.length_drop, x5, hm.buffer]
  · unfold Mac.frame
    rw [x8, x9, h1, h2, ← h3, List.take_left]

theorem split_mic (buf : Bytes) (n : Nat) (h4 : 4 < n) (hn : n ≤ buf.length) :
    ∃ body old rest, buf = body ++ old ++ rest ∧ old.length = 4 ∧ n = body.length + 4 ∧ 0 < body.length := by
  refine ⟨buf.take (n - 4), (buf.drop (n - 4)).take 4, buf.drop n, ?_, ?_, ?_, ?_⟩
  · rw [List.append_assoc]
    have : buf.drop n = (buf.drop (n - 4)).drop 4 := by rw [List.drop_drop]; congr 1; omega
    rw [this, List.take_append_drop, List.take_append_drop]
  · rw [List.length_take, List.length_drop]; omega
  · rw [List.length_take]; omega
  · rw [List.length_take]; omega

theorem encode_pos (f : Spec.DataFrame) : 4 < f.encode.length := by
  unfold Spec.DataFrame.encode
  rw [List.length_append, le_length, body_length]
  omega

/-- The buffer after a frame was put into it: its size, and the MIC at the end. -/
theorem bufferFrame_mic {cfg : Cfg} (hE : ∀ k, BlockFn (cfg.E k)) (m : Mac) (f : Frame.Data) (hd : DataContract f)
    (ho : f.opts.length ≤ 15) (hl : f.dataLen ≤ 255) (hb : m.buffer.length = 255)
    (hf : (Frame.toSpec f).encode.length ≤ 255) :
    (bufferFrame cfg m f).buffer.length = 255 ∧ (bufferFrame cfg m f).bufferLen ≤ 255 ∧
    ∃ body rest, (bufferFrame cfg m f).bufferLen = body.length + 4 ∧ 0 < body.length ∧
      (bufferFrame cfg m f).buffer = body ++ Spec.le 4 (upMic cfg m body) ++ rest := by
  obtain ⟨h1, h2⟩ := prepareData_length hE m f hd ho hl m.buffer hb hf
  have hp := encode_pos (Frame.toSpec f)
  unfold bufferFrame
  generalize Ops.prepareData cfg m f m.buffer 255 = b at h1 h2
  obtain ⟨n, buf⟩ := b
  simp only at h1 h2 ⊢
  obtain ⟨body, old, rest, e1, e2, e3, e4⟩ := split_mic buf n (by omega) (by omega)
  refine ⟨?_, by omega, body, rest, e3, e4, ?_⟩
  · rw [micDataFrame_length _ _ _ _ (by omega) (by omega), h1]
  · rw [e1, e3]
    exact micDataFrame_eq cfg { m with bufferLen := body.length + 4, buffer := body ++ old ++ rest } body old rest e2 e4 (by omega)

/-- The fields of the state an accepted send leaves. -/
theorem sendData_fields (cfg : Cfg) (e : Env) (m : Mac) (confirmed : Bool) (port : Nat) (data : Option Bytes)
    (len : Nat) (opts : Option DataOpts) (max : Nat) (m' : Mac)
    (hm : m' = (sendData cfg e m confirmed port data len opts max).1) :
    ∃ x : Mac, x = { m with
        opts := dataOptions opts, trials := 0, tx := { m.tx with counter := m.ctx.up }
        ctx := (uplinkAnswers cfg m (dataOptions opts)).2
        op := if (uplinkFrame cfg m confirmed port data len (dataOptions opts) max).2.1 then .dataConfirmed
          else .dataUnconfirmed } ∧
      m'.buffer = (bufferFrame cfg x (uplinkFrame cfg m confirmed port data len (dataOptions opts) max).1).buffer ∧
      m'.bufferLen = (bufferFrame cfg x (uplinkFrame cfg m confirmed port data len (dataOptions opts) max).1).bufferLen ∧
      m'.tx = x.tx ∧ m'.ctx = x.ctx ∧ m'.op = x.op ∧ m'.opts = x.opts ∧ m'.trials = 0 ∧ m'.keys = m.keys ∧
      m'.joinEUI = m.joinEUI ∧ m'.devEUI = m.devEUI ∧ m'.devNonce = m.devNonce ∧ m'.joinNonce = m.joinNonce ∧
      m'.out = m.out ++ [.sessionUpdated m'.ctx] := by
  refine ⟨_, rfl, ?_⟩
  unfold sendData at hm
  simp only [] at hm
  generalize uplinkFrame cfg m confirmed port data len (dataOptions opts) max = p at hm ⊢
  generalize hx : ({ m with
        opts := dataOptions opts, trials := 0, tx := { m.tx with counter := m.ctx.up }
        ctx := (uplinkAnswers cfg m (dataOptions opts)).2
        op := if p.2.1 then .dataConfirmed else .dataUnconfirmed } : Mac) = x at hm ⊢
  have hx1 : x.trials = 0 ∧ x.keys = m.keys ∧ x.joinEUI = m.joinEUI ∧ x.devEUI = m.devEUI ∧ x.devNonce = m.devNonce ∧
      x.joinNonce = m.joinNonce ∧ x.out = m.out := by rw [← hx]; exact ⟨rfl, rfl, rfl, rfl, rfl, rfl, rfl⟩
  obtain ⟨b1, b2, b3, b4, b5, b6, b7⟩ := hx1
  have key : ∀ b : Mac, b.tx = x.tx ∧ b.ctx = x.ctx ∧ b.op = x.op ∧ b.opts = x.opts ∧ b.trials = x.trials ∧ b.keys = x.keys ∧
      b.joinEUI = x.joinEUI ∧ b.devEUI = x.devEUI ∧ b.devNonce = x.devNonce ∧ b.joinNonce = x.joinNonce ∧ b.out = x.out →
      m' = startIfIdle e (pushSessionUpdate b) →
      m'.buffer = b.buffer ∧ m'.bufferLen = b.bufferLen ∧ m'.tx = x.tx ∧ m'.ctx = x.ctx ∧ m'.op = x.op ∧ m'.opts = x.opts ∧
      m'.trials = 0 ∧ m'.keys = m.keys ∧
      m'.joinEUI = m.joinEUI ∧ m'.devEUI = m.devEUI ∧ m'.devNonce = m.devNonce ∧ m'.joinNonce = m.joinNonce ∧
      m'.out = m.out ++ [.sessionUpdated m'.ctx] := by
    rintro b ⟨c1, c2, c3, c4, c5, c6, c7, c8, c9, c10, c11⟩ h
    unfold startIfIdle pushSessionUpdate Mac.emit at h
    split at h <;> rw [h]
    all_goals
      exact ⟨rfl, rfl, c1, c2, c3, c4, c5.trans b1, c6.trans b2, c7.trans b3, c8.trans b4, c9.trans b5, c10.trans b6,
        congrArg (· ++ [Event.sessionUpdated b.ctx]) (c11.trans b7)⟩
  exact key (bufferFrame cfg x p.1) ⟨rfl, rfl, rfl, rfl, rfl, rfl, rfl, rfl, rfl, rfl, rfl⟩ hm

theorem OpStep.bufOk {cfg : Cfg} (hE : ∀ k, BlockFn (cfg.E k)) {e : Env} {m m' : Mac} {c : Call}
    {t : List (TxSetting × Bytes)} {n : List Nat} (h : OpStep cfg e m c m' t n) (hw : c.WF) (hm : BufOk cfg m) :
    BufOk cfg m' := by
  cases h with
  | idle ho ho' hr => exact hr.bufOk ho' hm
  | keep ho hk ht hb hl => exact hk.bufOk hb hm
  | ended ho ho' hr => exact hr.bufOk (Or.inl ho') hm
  | sent ho hc hs hs' hk ht hb => exact hk.bufOk hb hm
  | repeated ho hc hl hs hk ht hn hb => exact hk.bufOk (hb.trans (hm.again ho)) hm
  | request ho hc hl hr hu ht =>
    obtain ⟨h1, h2, _⟩ := hr.frame hE hm
    exact ⟨h2, hr.ids.1 ▸ hm.joinEUI, hr.ids.2 ▸ hm.devEUI, fun _ => by omega, fun h => by rw [hr.op] at h; simp at h⟩
  | join ho hc hj hr hu ht =>
    obtain ⟨h1, h2, _⟩ := hr.frame hE hm
    exact ⟨h2, hr.ids.1 ▸ hm.joinEUI, hr.ids.2 ▸ hm.devEUI, fun _ => by omega, fun h => by rw [hr.op] at h; simp at h⟩
  | send ho confirmed port data len opts hc hj hp hg freq ch rate hsel hl hm' hs' ht =>
    obtain ⟨x, hx, a1, a2, a3, a4, a5, a6, a7, a8, a9, a10, a11⟩ := sendData_fields cfg e _ confirmed port data len opts _ m' hm'
    subst hc
    obtain ⟨w1, w2, w3, w4⟩ := hw
    obtain ⟨f1, f2, f3, f4, f5⟩ := uplinkFrame_fits cfg
      { m with tx := { m.tx with freq := freq, chIndex := ch, rate := rate, power := m.ctx.power } }
      confirmed port data len (dataOptions opts) _ (convertRate_mtu _ _) w3 (by omega) _ rfl
    have hxb : x.buffer = m.buffer := by rw [hx]
    have hxk : x.keys = m.keys := by rw [hx]
    obtain ⟨g1, g2, body, rest, g3, g4, g5⟩ := bufferFrame_mic hE x _ f1 f2 f3 (hxb ▸ hm.buffer) f4
    refine ⟨a1 ▸ g1, a9 ▸ hm.joinEUI, a10 ▸ hm.devEUI, fun _ => a2 ▸ g2, fun _ => ⟨body, rest, a2.trans g3, g4, ?_⟩⟩
    rw [a1, g5]
    have : upMic cfg m' body = upMic cfg x body := by
      unfold upMic sessVersion
      rw [a3, a4, a8, hxk]
    rw [this]

/-- The fields `init` takes from its arguments. -/
theorem init_fields (cfg : Cfg) (region : Region) (arg : InitArg) (e : Env) :
    ∃ c k, init cfg region arg e = {
      tx := { chIndex := UINT8_MAX }, devNonce := u32 arg.devNonce, joinNonce := u32 arg.joinNonce
      devEUI := arg.devEUI, joinEUI := arg.joinEUI, keys := k, ctx := c
      band := upd (fun _ => 0) GLOBAL (msToTime 0), timeTicks := e.ticks, timerA := Timer.set e 0 } ∧
      ((∃ s, arg.session = some s ∧ s.magic = magicNumber ∧ s.region = region ∧ c = s) ∨
       ((∀ s, arg.session = some s → s.magic = magicNumber → s.region ≠ region) ∧
        c = (initSession cfg {} region).ctx ∧ k = Sm.init cfg arg.appKey arg.nwkKey)) := by
  unfold init
  simp only []
  cases h : arg.session with
  | none => exact ⟨_, _, rfl, Or.inr ⟨by simp, rfl, rfl⟩⟩
  | some s =>
    simp only []
    by_cases hm : s.magic = magicNumber
    · rw [if_pos hm]
      by_cases hr : s.region = region
      · rw [if_pos hr]
        obtain ⟨k, hk⟩ := deriveKeys_shape cfg { initSession cfg {
          tx := { chIndex := UINT8_MAX }
          devNonce := u32 arg.devNonce
          joinNonce := u32 arg.joinNonce
          devEUI := arg.devEUI
          joinEUI := arg.joinEUI
          keys := Sm.init cfg arg.appKey arg.nwkKey } region with ctx := s }
        rw [hk]
        exact ⟨_, _, rfl, Or.inl ⟨s, rfl, hm, hr, rfl⟩⟩
      · rw [if_neg hr]
        exact ⟨_, _, rfl, Or.inr ⟨fun s' h' _ => by cases h'; exact hr, rfl, rfl⟩⟩
    · rw [if_neg hm]
      exact ⟨_, _, rfl, Or.inr ⟨fun s' h' h'' => by cases h'; exact absurd h'' hm, rfl, rfl⟩⟩

theorem init_bufOk (cfg : Cfg) (region : Region) (arg : InitArg) (e : Env) (ha : Spec.ArgOk arg) :
    BufOk cfg (init cfg region arg e) := by
  obtain ⟨c, k, h, _⟩ := init_fields cfg region arg e
  rw [h]
  exact ⟨List.length_replicate .., ha.joinEUI, ha.devEUI, fun h => absurd h (isTx_not (Or.inl rfl)),
    fun h => absurd (Or.inr h) (isTx_not (Or.inl rfl))⟩

theorem Spec.Reachable.bufOk {cfg : Cfg} (hE : ∀ k, BlockFn (cfg.E k)) {m : Mac} (h : Spec.Reachable cfg m) : BufOk cfg m := by
  induction h with
  | init region arg e _ ha => exact init_bufOk cfg region arg e ha
  | step e c h hc ih =>
    obtain ⟨o, _, hs, _⟩ := step_does cfg e _ c h.reach.opOk
    exact hs.bufOk hE hc ih

end LDL
