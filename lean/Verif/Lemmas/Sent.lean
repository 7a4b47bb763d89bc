import Verif.Lemmas.Buffer

/-!
# The transmissions of an operation
-/

namespace LDL
open Spec LDL.Stream

theorem Keep.txSetting {m m' : Mac} (h : Keep m m') : LDL.txSetting m' = LDL.txSetting m := by
  unfold LDL.txSetting txEirp
  simp only [h.region, h.rate, h.freq, h.power, h.setup]

theorem Keep.frame {m m' : Mac} (h : Keep m m') (hb : m'.buffer = m.buffer) : m'.frame = m.frame := by
  unfold Mac.frame; rw [hb, h.len]

theorem Keep.nbTransOf {m m' : Mac} (h : Keep m m') : LDL.nbTransOf m' = LDL.nbTransOf m :=
  nbTransOf_congr h.opts h.nbTrans

/-- Whether a transmission of the operation has been counted already. -/
def onAir (m : Mac) : Nat := if afterTx m.state then 1 else 0

theorem isData_tx {op : Op} (h : op = .dataUnconfirmed ∨ op = .dataConfirmed) : op.isTx := Or.inr h

/-- A data operation transmits its frame, and no more often than the number of repetitions left. -/
theorem sentBy_data {cfg : Cfg} (hE : ∀ k, BlockFn (cfg.E k)) (n : Nat) (hn : n < 4294967296)
    (calls : List (Env × Call)) (hw : ∀ x ∈ calls, x.2.WF) {m : Mac} (hr : Reachable cfg m)
    (ho : m.op = .dataUnconfirmed ∨ m.op = .dataConfirmed) (hnb : nbTransOf m = n) (ht : m.trials < n) :
    ∃ k, sentBy cfg m calls = List.replicate k (txSetting m, m.frame) ∧ k + m.trials + onAir m ≤ n := by
  induction calls generalizing m with
  | nil => exact ⟨0, rfl, by unfold onAir; split <;> omega⟩
  | cons x rest ih =>
    obtain ⟨e, c⟩ := x
    have hwc : c.WF := hw (e, c) (by simp)
    have hwr : ∀ x ∈ rest, x.2.WF := fun y hy => hw y (by simp [hy])
    have hr' : Reachable cfg (step cfg m e c).1 := .step e c hr hwc
    obtain ⟨o, h1, h2, _⟩ := step_does cfg e m c hr.reach.opOk
    have hnew : (step cfg m e c).1.out.drop m.out.length = o := by rw [h1, List.drop_left]
    simp only [sentBy]
    rw [hnew]
    have hb := hr.bufOk hE
    generalize hm' : (step cfg m e c).1 = m' at h2 hr'
    change OpStep cfg e m c m' (transmitted o) (nonceReports o) at h2
    generalize transmitted o = t at h2
    generalize nonceReports o = nr at h2
    have hno : ∀ {op : Op}, op.isTx → op ≠ .none := by
      rintro op (h | h | h) <;> rw [h] <;> decide
    cases h2 with
    | idle ho2 => exact absurd (isData_tx ho) (isTx_not ho2)
    | keep ho2 hk ht2 hb2 hl =>
      obtain ⟨k, e1, e2⟩ := ih hwr hr' (hk.op ▸ ho) (hk.nbTransOf.trans hnb) (ht2 ▸ ht)
      rw [if_neg (by rw [hk.op]; exact hno ho2), e1, hk.txSetting, hk.frame hb2]
      refine ⟨k, rfl, ?_⟩
      rw [ht2] at e2
      unfold onAir at e2 ⊢
      rw [hl] at e2
      exact e2
    | ended ho2 ho' =>
      rw [if_pos ho']
      exact ⟨0, rfl, by unfold onAir; split <;> omega⟩
    | sent ho2 hc hs hs' hk ht2 hb2 =>
      obtain ⟨k, e1, e2⟩ := ih hwr hr' (hk.op ▸ ho) (hk.nbTransOf.trans hnb) (ht2 ▸ ht)
      rw [if_neg (by rw [hk.op]; exact hno ho2), e1, hk.txSetting, hk.frame hb2]
      refine ⟨k + 1, rfl, ?_⟩
      rw [ht2] at e2
      unfold onAir at e2 ⊢
      rw [hs'] at e2
      rw [hs]
      simp only [afterTx, if_true, Bool.false_eq_true, if_false] at e2 ⊢
      omega
    | repeated ho2 hc hl hs hk ht2 hn2 hb2 =>
      have hb3 := hb2.trans (hb.again ho)
      obtain ⟨k, e1, e2⟩ := ih hwr hr' (hk.op ▸ ho) (hk.nbTransOf.trans hnb) (hnb ▸ hn2)
      rw [if_neg (by rw [hk.op]; exact hno (isData_tx ho)), e1, hk.txSetting, hk.frame hb3]
      refine ⟨k, rfl, ?_⟩
      have : u32 (m.trials + 1) = m.trials + 1 := Nat.mod_eq_of_lt (by omega)
      rw [ht2, this] at e2
      unfold onAir at e2 ⊢
      rw [hl]
      simp only [if_true]
      omega
    | request ho2 => rw [ho2] at ho; simp at ho
    | join ho2 => rw [ho2] at ho; simp at ho
    | send ho2 => rw [ho2] at ho; simp at ho

/-- What an accepted send leaves: the case of `OpStep`. -/
theorem accepted_send {cfg : Cfg} {m : Mac} (e : Env) (confirmed : Bool) (port : Nat)
    (payload : Option Bytes) (len : Nat) (opts : Option DataOpts)
    (ha : (step cfg m e (.data confirmed port payload len opts)).2 = .ok ∨
      (step cfg m e (.data confirmed port payload len opts)).2 = .macPriority) :
    ∃ freq ch rate, m.ctx.joined = true ∧ m.op = .none ∧ (0 < port ∧ port ≤ 223) ∧ m.band GLOBAL = 0 ∧
      selectChannel { m with tx := { m.tx with
          power := m.ctx.power
          rate := m.ctx.region.applyUplinkDwell (uplinkDwell m.ctx.txParamSetup) m.ctx.rate } }
        (e.draw 1) m.ctx.rate 0 = some (freq, ch, rate) ∧
      len + Frame.dataOverhead ≤ (m.ctx.region.convertRate m.ctx.rate).mtu ∧
      step cfg m e (.data confirmed port payload len opts) = sendData cfg e { m with
        tx := { m.tx with freq := freq, chIndex := ch, rate := rate, power := m.ctx.power } }
        confirmed port payload len opts (m.ctx.region.convertRate m.ctx.rate).mtu := by
  have : step cfg m e (.data confirmed port payload len opts) = dataCommand cfg e m confirmed port payload len opts := rfl
  rw [this] at ha ⊢
  unfold dataCommand at ha ⊢
  by_cases hj : m.ctx.joined = true
  · rw [if_pos hj] at ha ⊢
    by_cases ho : m.op = .none
    · rw [if_pos ho] at ha ⊢
      by_cases hp : port > 0 ∧ port ≤ 223
      · rw [if_pos hp] at ha ⊢
        by_cases hg : m.band GLOBAL = 0
        · rw [if_pos hg] at ha ⊢
          simp only [] at ha ⊢
          generalize selectChannel _ (e.draw 1) m.ctx.rate 0 = sel at ha ⊢
          rcases sel with _ | ⟨freq, ch, rate⟩
          · simp at ha
          · simp only [] at ha ⊢
            by_cases hl : len + Frame.dataOverhead ≤ (m.ctx.region.convertRate m.ctx.rate).mtu
            · rw [if_pos hl]
              exact ⟨freq, ch, rate, hj, ho, hp, hg, rfl, hl, rfl⟩
            · rw [if_neg hl] at ha; simp at ha
        · rw [if_neg hg] at ha; simp at ha
      · rw [if_neg hp] at ha; simp at ha
    · rw [if_neg ho] at ha; simp at ha
  · rw [if_neg hj] at ha; simp at ha

/-- **The frame an accepted send puts into the buffer.** -/
theorem send_frame {cfg : Cfg} (hE : ∀ k, BlockFn (cfg.E k)) {m : Mac} (hr : Reachable cfg m) (e : Env)
    (confirmed : Bool) (port : Nat) (payload : Option Bytes) (len : Nat) (opts : Option DataOpts)
    (hw : (Call.data confirmed port payload len opts).WF) (hnull : payload = none → len = 0)
    (ha : (step cfg m e (.data confirmed port payload len opts)).2 = .ok ∨
      (step cfg m e (.data confirmed port payload len opts)).2 = .macPriority)
    (m' : Mac) (hm' : m' = (step cfg m e (.data confirmed port payload len opts)).1) :
    ∃ freq ch rate f c, selectChannel { m with tx := { m.tx with
          power := m.ctx.power
          rate := m.ctx.region.applyUplinkDwell (uplinkDwell m.ctx.txParamSetup) m.ctx.rate } }
        (e.draw 1) m.ctx.rate 0 = some (freq, ch, rate) ∧
      placeMacData (dataHeader m confirmed port) confirmed (answerBytes cfg m (dataOptions opts)) payload len
        (m.ctx.region.convertRate m.ctx.rate).mtu =
        (f, c, (step cfg m e (.data confirmed port payload len opts)).2) ∧
      f.opts.length ≤ 15 ∧ m'.op = (if c then .dataConfirmed else .dataUnconfirmed) ∧
      len + 8 ≤ (m.ctx.region.convertRate m.ctx.rate).mtu ∧
      m'.frame = (sealed cfg m f).body ++ le 4 (upMic cfg m' (sealed cfg m f).body) ∧
      m'.tx = { m.tx with freq := freq, chIndex := ch, rate := rate, power := m.ctx.power, counter := m.ctx.up } ∧
      m'.ctx = (putAnswers cfg { m.ctx with up := u32 (m.ctx.up + 1) } (dataOptions opts)).2 ∧
      m'.keys = m.keys ∧ m'.opts = dataOptions opts ∧ m'.trials = 0 := by
  obtain ⟨freq, ch, rate, _, _, _, _, hsel, hlen, hstep⟩ := accepted_send e confirmed port payload len opts ha
  rw [hstep] at hm' ⊢
  obtain ⟨x, hx, a1, a2, a3, a4, a5, a6, a7, a8, _⟩ := sendData_fields cfg e _ confirmed port payload len opts _ m' hm'
  obtain ⟨w1, w2, w3, w4⟩ := hw
  have hmtu := convertRate_mtu m.ctx.region m.ctx.rate
  generalize (m.ctx.region.convertRate m.ctx.rate).mtu = max at hmtu a1 a2 hx hlen hm' ⊢
  have hu := uplinkFrame_eq cfg
    { m with tx := { m.tx with freq := freq, chIndex := ch, rate := rate, power := m.ctx.power } }
    confirmed port payload len (dataOptions opts) max
  have hf := uplinkFrame_fits cfg
    { m with tx := { m.tx with freq := freq, chIndex := ch, rate := rate, power := m.ctx.power } }
    confirmed port payload len (dataOptions opts) max hmtu w3 (by omega) _ rfl
  have hst : (sendData cfg e { m with tx := { m.tx with freq := freq, chIndex := ch, rate := rate, power := m.ctx.power } }
      confirmed port payload len opts max).2 = (uplinkFrame cfg
    { m with tx := { m.tx with freq := freq, chIndex := ch, rate := rate, power := m.ctx.power } }
    confirmed port payload len (dataOptions opts) max).2.2 := rfl
  rw [hst]
  generalize uplinkFrame cfg
    { m with tx := { m.tx with freq := freq, chIndex := ch, rate := rate, power := m.ctx.power } }
    confirmed port payload len (dataOptions opts) max = p at hu hf a1 a2 hx ⊢
  obtain ⟨f, c, st⟩ := p
  obtain ⟨f1, f2, f3, f4, f5⟩ := hf
  have hb := (hr.bufOk hE).buffer
  have hxb : x.buffer = m.buffer := by rw [hx]
  obtain ⟨g1, g2⟩ := bufferFrame_eq hE x f f1 (f5 hnull) f2 (hxb ▸ hb) f4
  have hsx : sealed cfg x f = sealed cfg m f := by
    have e1 : deviceKeys cfg x = deviceKeys cfg m := by rw [hx]; rfl
    obtain ⟨pc, hpc⟩ := (putAnswers_inv cfg { m.ctx with up := u32 (m.ctx.up + 1) } (dataOptions opts)).session
    have e2 : sess11 cfg x = sess11 cfg m := by
      have : x.ctx.version = m.ctx.version := by
        rw [hx]
        show (putAnswers cfg { m.ctx with up := u32 (m.ctx.up + 1) } (dataOptions opts)).2.version = _
        rw [hpc]
      unfold sess11 sessVersion
      rw [this]
    unfold sealed
    rw [e1, e2]
  rw [hsx] at g1 g2
  have hmic : upMic cfg x (sealed cfg m f).body = upMic cfg m' (sealed cfg m f).body := by
    unfold upMic sessVersion
    rw [a3, a4, a8, hx]
  rw [hmic] at g2
  refine ⟨freq, ch, rate, f, c, hsel, hu.symm, f2, ?_, hlen, ?_, ?_, ?_, ?_, ?_, a7⟩
  · rw [a5, hx]
  · unfold Mac.frame
    rw [a1, a2, g1, g2]
    have : (sealed cfg m f).body.length + 4 = ((sealed cfg m f).body ++ le 4 (upMic cfg m' (sealed cfg m f).body)).length := by
      rw [List.length_append, le_length]
    rw [this, List.take_left]
  · rw [a3, hx]
  · rw [a4, hx]; rfl
  · exact a8
  · rw [a6, hx]

end LDL
