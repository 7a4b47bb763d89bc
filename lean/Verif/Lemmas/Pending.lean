import Verif.Lemmas.Cases
import Verif.Lemmas.Answers
import Verif.Lemmas.Session

/-!
# When the answers due change
-/

namespace LDL

theorem nextJoinRequest_pending (cfg : Cfg) (e : Env) (m : Mac) :
    (nextJoinRequest cfg e m).ctx.pendingCmds = m.ctx.pendingCmds := by
  obtain ⟨_, _, _, _, h⟩ := nextJoinRequest_shape cfg e m
  rw [h]

theorem Missing.pending {cfg : Cfg} {e : Env} {m m' : Mac} (h : Missing cfg e m m') :
    m'.ctx.pendingCmds = m.ctx.pendingCmds := by
  cases h
  case nextJoin => simp only [nextJoinRequest_pending]
  all_goals rfl

theorem RadioErr.pending {cfg : Cfg} {e : Env} {m m' : Mac} (h : RadioErr cfg e m m') :
    m'.ctx.pendingCmds = m.ctx.pendingCmds := by
  cases h
  case nextJoin hm =>
    show (Mac.ctx _).pendingCmds = _
    rw [hm, nextJoinRequest_pending]
  all_goals rfl

theorem Disp.pending {cfg : Cfg} {e : Env} {ev : Sme} {lag : Nat} {m m' : Mac} (h : Disp cfg e ev lag m m') :
    m'.ctx.pendingCmds = m.ctx.pendingCmds ∨
      ev = .interrupt ∧ (m.state = .rx1 ∨ m.state = .rx2) ∧ e.statusRx = true ∧
        ∃ f buf, Ops.receiveFrame cfg m e.rxBuffer e.received.length = (some f, buf) := by
  cases h
  case txError hs he =>
    left
    rw [(handleRadioError_cases cfg e _).pending]
    obtain ⟨b, hb⟩ := registerTime_shape (statusRead ev m)
    rw [hb]
    unfold statusRead
    split <;> rfl
  case txDone hs he ht =>
    left
    obtain ⟨_, _, _, _, _, h, _⟩ := txComplete_shape cfg e lag (registerTime (m.emit .getStatus))
    obtain ⟨b, hb⟩ := registerTime_shape (m.emit .getStatus)
    rw [h, hb]
    rfl
  case rxError => exact Or.inl (handleRadioError_cases cfg e _).pending
  case rxRejected => exact Or.inl (downlinkMissing_missing cfg e _).pending
  case rxJoin hs he hr f buf hf _ _ => exact Or.inr ⟨he, hs, hr, f, buf, hf⟩
  case rxData hs he hr f buf hf _ _ => exact Or.inr ⟨he, hs, hr, f, buf, hf⟩
  case lockout => exact Or.inl (downlinkMissing_missing cfg e _).pending
  all_goals exact Or.inl rfl

theorem process_pending (cfg : Cfg) (m : Mac) (e : Env) :
    (process cfg e m).ctx.pendingCmds = m.ctx.pendingCmds ∨ ∃ f buf, Accepts cfg e m f buf := by
  obtain ⟨ev, lag, m1, m2, p, t, hp, hd, h⟩ := process_disp cfg e m
  rw [h]
  show m2.ctx.pendingCmds = _ ∨ _
  obtain ⟨_, _, _, _, _, _, _, _, _, hm⟩ := hp.eq
  have h1 : m1.ctx.pendingCmds = m.ctx.pendingCmds := by rw [hm]
  rw [← h1]
  rcases hd with ⟨_, rfl⟩ | ⟨_, hd⟩
  · exact Or.inl rfl
  · rcases hd.pending with h | ⟨h2, h3, h4, f, buf, h5⟩
    · exact Or.inl h
    · refine Or.inr ⟨f, buf, ?_, hp.interrupt.mp h2, h4, ?_⟩
      · rw [hm] at h3; exact h3
      · rw [← h5]
        exact receiveFrame_congr cfg m1 m _ _ (by rw [hm]) (by rw [hm]) (by rw [hm]) (by rw [hm]) (by rw [hm])


theorem sendData_due (cfg : Cfg) (e : Env) (m : Mac) (confirmed : Bool) (port : Nat) (data : Option Bytes)
    (len : Nat) (opts : Option DataOpts) (mx : Nat) (t : CmdType) :
    Spec.Due (sendData cfg e m confirmed port data len opts mx).1.ctx t ↔ Spec.Due m.ctx t ∧ t ∉ singles cfg.v11 := by
  obtain ⟨_, _, _, _, _, h, _⟩ := sendData_shape cfg e m confirmed port data len opts mx
  rw [h]
  exact (putAnswers_inv cfg { m.ctx with up := u32 (m.ctx.up + 1) } (dataOptions opts)).due t

theorem sendData_status (cfg : Cfg) (e : Env) (m : Mac) (confirmed : Bool) (port : Nat) (data : Option Bytes)
    (len : Nat) (opts : Option DataOpts) (mx : Nat) :
    (sendData cfg e m confirmed port data len opts mx).2 = .ok ∨
      (sendData cfg e m confirmed port data len opts mx).2 = .macPriority := by
  unfold sendData uplinkFrame placeMacData
  simp only []
  split
  · exact Or.inr rfl
  · split
    · exact Or.inr rfl
    · exact Or.inl rfl

/-- A call other than `process` and `forget`. -/
theorem Api.due {cfg : Cfg} {e : Env} {m m' : Mac} {c : Call} {st : Status} (h : Api cfg e m c m' st)
    (hf : c ≠ .forget) (t : CmdType) :
    Spec.Due m'.ctx t ↔ Spec.Due m.ctx t ∧
      ((∃ cf p d l o, c = .data cf p d l o) ∧ (st = .ok ∨ st = .macPriority) → t ∉ singles cfg.v11) := by
  have hsame : m'.ctx.pendingCmds = m.ctx.pendingCmds →
      ¬ ((∃ cf p d l o, c = .data cf p d l o) ∧ (st = .ok ∨ st = .macPriority)) →
      (Spec.Due m'.ctx t ↔ Spec.Due m.ctx t ∧
      ((∃ cf p d l o, c = .data cf p d l o) ∧ (st = .ok ∨ st = .macPriority) → t ∉ singles cfg.v11)) := by
    intro h1 h2
    unfold Spec.Due
    rw [h1]
    exact ⟨fun h => ⟨h, fun hc => absurd hc h2⟩, fun h => h.1⟩
  cases h
  case refused hs => exact hsame rfl (fun h => h.2.elim hs.1 hs.2)
  case otaa hm _ _ _ =>
    refine hsame ?_ (by simp)
    show (Mac.ctx _).pendingCmds = _
    rw [hm, nextJoinRequest_pending]
    obtain ⟨k, hk⟩ := deriveJoinKeys_shape cfg { m with trials := 0, day := 60 * 60 * 24 * timeTPS }
    rw [hk]
  case dataRefused hs => exact hsame rfl (by rcases hs with rfl | rfl <;> simp)
  case data hm =>
    rw [sendData_due, hm]
    simp only []
    refine and_congr_right fun _ => ⟨fun h _ => h, fun h => h ⟨⟨_, _, _, _, _, rfl⟩, sendData_status ..⟩⟩
  case forget => exact absurd rfl hf
  case cancel =>
    refine hsame ?_ (by simp)
    rcases cancel_shape m with ⟨_, h⟩ | ⟨_, h⟩ <;> rw [h]
  case addChannel ch f a b =>
    refine hsame ?_ (by simp)
    obtain ⟨cc, h⟩ := setChannel_shape m.ctx ch f a b
    show (setChannel m.ctx ch f a b).2.pendingCmds = _
    rw [h]
  all_goals exact hsame rfl (by simp)

end LDL
